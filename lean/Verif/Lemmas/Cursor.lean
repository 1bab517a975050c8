import Verif.Model.Cursor
import Verif.Lemmas.VecNum
import Verif.Lemmas.QnVec

namespace Sleqp
variable {K : Type*} [Field K] [LinearOrder K]

theorem cursorTo_zero (l : List (Nat × K)) : cursorTo 0 l = l := by
  unfold cursorTo
  cases l <;> simp

theorem cursorTo_cursorTo {i j : Nat} (h : i ≤ j) (l : List (Nat × K)) :
    cursorTo j (cursorTo i l) = cursorTo j l := by
  unfold cursorTo
  induction l with
  | nil => rfl
  | cons e t ih =>
    by_cases h1 : e.1 < i
    · rw [List.dropWhile_cons_of_pos (by simpa using h1), ih,
        List.dropWhile_cons_of_pos (by simp; omega)]
    · rw [List.dropWhile_cons_of_neg (by simpa using h1)]

theorem cursorVal_cursorTo {l : List (Nat × K)} (hs : Srt l) (j : Nat) :
    cursorVal j (cursorTo j l) = valAt l j := by
  unfold cursorTo
  induction l with
  | nil => rfl
  | cons e t ih =>
    have hs' := (srt_cons.mp hs)
    by_cases h1 : e.1 < j
    · rw [List.dropWhile_cons_of_pos (by simpa using h1), ih hs'.2, valAt_cons, if_neg (by omega)]
    · rw [List.dropWhile_cons_of_neg (by simpa using h1)]
      rw [valAt_cons]
      show (if e.1 = j then e.2 else 0) = _
      by_cases h2 : e.1 = j
      · rw [if_pos h2, if_pos h2]
      · rw [if_neg h2, if_neg h2]
        refine (valAt_of_lt fun a ha => ?_).symm
        have := hs'.1 a ha
        omega

/-- entries pushed in a loop over all indices -/
theorem range_map_srt (n : Nat) (f : Nat → K) : Srt ((List.range n).map fun i => (i, f i)) := by
  unfold Srt
  rw [List.pairwise_map]
  exact List.pairwise_lt_range

theorem valAt_range_map (n : Nat) (f : Nat → K) (i : Nat) :
    valAt ((List.range n).map fun i => (i, f i)) i = if i < n then f i else 0 := by
  by_cases h : i < n
  · rw [if_pos h]
    exact valAt_of_mem (range_map_srt n f) (e := (i, f i)) (List.mem_map.mpr ⟨i, List.mem_range.mpr h, rfl⟩)
  · rw [if_neg h]
    exact valAt_of_ge (n := n) (fun e he => by
      obtain ⟨k, hk, rfl⟩ := List.mem_map.mp he
      exact List.mem_range.mp hk) (by omega)

theorem range_filter_map_srt (n : Nat) (p : Nat → Bool) (f : Nat → K) :
    Srt (((List.range n).filter p).map fun i => (i, f i)) := by
  unfold Srt
  rw [List.pairwise_map]
  exact List.Pairwise.filter _ List.pairwise_lt_range

theorem valAt_range_filter_map (n : Nat) (p : Nat → Bool) (f : Nat → K) (i : Nat) :
    valAt (((List.range n).filter p).map fun i => (i, f i)) i = if i < n ∧ p i = true then f i else 0 := by
  by_cases h : i < n ∧ p i = true
  · rw [if_pos h]
    exact valAt_of_mem (range_filter_map_srt n p f) (e := (i, f i))
      (List.mem_map.mpr ⟨i, List.mem_filter.mpr ⟨List.mem_range.mpr h.1, h.2⟩, rfl⟩)
  · rw [if_neg h]
    unfold valAt
    rw [at?_none_of_forall]
    · rfl
    · intro e he hei
      obtain ⟨k, hk, rfl⟩ := List.mem_map.mp he
      obtain ⟨h1, h2⟩ := List.mem_filter.mp hk
      exact h ⟨by rw [← hei]; exact List.mem_range.mp h1, by rw [← hei]; exact h2⟩

theorem push_range {v : Vec K} {j : Nat} (x : K) (hl : ∀ e ∈ v.ents, e.1 < j) (hd : j < v.dim)
    (hc : v.ents.length < v.cap) : v.push j x = some { v with ents := v.ents ++ [(j, x)] } := by
  unfold Vec.push
  rw [if_pos ⟨hc, hd, fun e he => hl e (List.mem_of_getLast? he)⟩]

end Sleqp
