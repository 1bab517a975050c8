import Verif.Lemmas.Vec
import Mathlib.Algebra.BigOperators.Group.Finset.Basic
import Mathlib.Algebra.BigOperators.Group.Finset.Piecewise
import Mathlib.Algebra.Order.BigOperators.Group.Finset

/-! Numeric helper lemmas on sparse entry lists. -/

namespace Sleqp

open Finset

variable {K : Type*} [Field K] [LinearOrder K]

@[simp] theorem orZero_none {α : Type*} [Zero α] : orZero (none : Option α) = 0 := rfl
@[simp] theorem orZero_some {α : Type*} [Zero α] (a : α) : orZero (some a) = a := rfl

@[simp] theorem valAt_nil (k : Nat) : valAt ([] : List (Nat × K)) k = 0 := rfl

theorem isZero_iff {x eps : K} : isZero x eps = true ↔ |x| ≤ eps := by
  simp [isZero]

theorem valAt_cons (e : Nat × K) (l : List (Nat × K)) (k : Nat) :
    valAt (e :: l) k = if e.1 = k then e.2 else valAt l k := by
  unfold valAt; rw [at?_cons]; split <;> rfl

theorem valAt_of_lt {l : List (Nat × K)} {k : Nat} (h : ∀ e ∈ l, k < e.1) : valAt l k = 0 := by
  unfold valAt; rw [at?_none_of_lt h]; rfl

theorem valAt_of_ge {l : List (Nat × K)} {n k : Nat} (h : ∀ e ∈ l, e.1 < n) (hk : n ≤ k) :
    valAt l k = 0 := by
  unfold valAt; rw [at?_none_of_gt h hk]; rfl

theorem valAt_of_mem {l : List (Nat × K)} (hs : Srt l) {e : Nat × K} (h : e ∈ l) :
    valAt l e.1 = e.2 := by
  unfold valAt; rw [at?_of_mem hs (a := e.2) h]; rfl

theorem valAt_ne_zero {l : List (Nat × K)} {k : Nat} (h : valAt l k ≠ 0) : (at? l k).isSome := by
  unfold valAt at h
  rcases h1 : at? l k with _ | a
  · rw [h1] at h; simp at h
  · rfl

theorem valAt_filter_map {τ : Type*} {l : List (Nat × τ)} (hs : Srt l) (skip : Nat × τ → Bool)
    (g : Nat × τ → K) (k : Nat) :
    valAt ((l.filter fun t => !skip t).map fun t => (t.1, g t)) k =
      match at? l k with
      | none => 0
      | some a => if skip (k, a) then 0 else g (k, a) := by
  unfold valAt
  rw [at?_map, at?_filter _ hs]
  rcases at? l k with _ | a
  · rfl
  · by_cases h : skip (k, a) = true <;> simp [Option.filter, h]

/-- Sum over all coordinates = sum over stored entries. -/
theorem sum_range_valAt {M : Type*} [AddCommMonoid M] {l : List (Nat × K)} (hs : Srt l) {n : Nat}
    (hn : ∀ e ∈ l, e.1 < n) (φ : Nat → K → M) (h0 : ∀ i, φ i 0 = 0) :
    ∑ i ∈ range n, φ i (valAt l i) = (l.map fun e => φ e.1 e.2).sum := by
  induction l with
  | nil => simp [h0]
  | cons e t ih =>
    rw [srt_cons] at hs
    have h1 : ∀ i, φ i (valAt (e :: t) i) = (if e.1 = i then φ i e.2 else 0) + φ i (valAt t i) := by
      intro i
      rw [valAt_cons]
      by_cases h : e.1 = i
      · subst h; rw [if_pos rfl, if_pos rfl, valAt_of_lt hs.1, h0, add_zero]
      · rw [if_neg h, if_neg h, zero_add]
    rw [Finset.sum_congr rfl fun i _ => h1 i, Finset.sum_add_distrib,
      ih hs.2 fun a ha => hn a (by simp [ha]), Finset.sum_ite_eq, if_pos (by simpa using hn e (by simp))]
    simp

theorem foldl_add_map {M τ : Type*} [AddCommMonoid M] (h : τ → M) (l : List τ) (s : M) :
    l.foldl (fun s e => s + h e) s = s + (l.map h).sum := by
  induction l generalizing s with
  | nil => simp
  | cons e t ih => rw [List.foldl_cons, ih, List.map_cons, List.sum_cons, add_assoc]

theorem dotList_eq {l m : List (Nat × K)} (hl : Srt l) (hm : Srt m) (acc : K) :
    Vec.dotList l m acc = acc + (l.map fun e => e.2 * valAt m e.1).sum := by
  fun_induction Vec.dotList l m acc with
  | case1 => simp
  | case2 => simp [valAt_nil]
  | case3 a s j b t acc ih =>
    rw [srt_cons] at hl hm
    rw [ih hl.2 hm.2, List.map_cons, List.sum_cons, valAt_cons, if_pos rfl, add_assoc]
    congr 2
    apply congrArg
    apply List.map_congr_left
    intro e he
    rw [valAt_cons, if_neg (hl.1 e he).ne]
  | case4 i a s j b t acc h1 h2 ih =>
    rw [srt_cons] at hl
    rw [ih hl.2 hm, List.map_cons, List.sum_cons, valAt_of_lt (k := i)]
    · simp
    · rw [srt_cons] at hm
      intro e he
      rcases List.mem_cons.mp he with h | h
      · rw [h]; exact h2
      · exact lt_trans h2 (hm.1 e h)
  | case5 i a s j b t acc h1 h2 ih =>
    have hm' := (srt_cons.mp hm).2
    rw [ih hl hm']
    congr 1
    apply congrArg
    apply List.map_congr_left
    intro e he
    have hlt : j < e.1 := by
      rw [srt_cons] at hl
      have : j < i := by omega
      rcases List.mem_cons.mp he with h | h
      · rw [h]; exact this
      · exact lt_trans this (hl.1 e h)
    rw [valAt_cons, if_neg hlt.ne]

theorem foldl_max_spec (l : List (Nat × K)) (s : K) :
    s ≤ l.foldl (fun s e => max |e.2| s) s ∧ (∀ e ∈ l, |e.2| ≤ l.foldl (fun s e => max |e.2| s) s) ∧
    (l.foldl (fun s e => max |e.2| s) s = s ∨ ∃ e ∈ l, l.foldl (fun s e => max |e.2| s) s = |e.2|) := by
  induction l generalizing s with
  | nil => simp
  | cons e t ih =>
    obtain ⟨h1, h2, h3⟩ := ih (max |e.2| s)
    rw [List.foldl_cons]
    refine ⟨le_trans (le_max_right _ _) h1, ?_, ?_⟩
    · intro a ha
      rcases List.mem_cons.mp ha with h | h
      · rw [h]; exact le_trans (le_max_left _ _) h1
      · exact h2 a h
    · rcases h3 with h3 | ⟨a, ha, h3⟩
      · rcases max_choice |e.2| s with h4 | h4
        · right; exact ⟨e, by simp, by rw [h3]; exact h4⟩
        · left; rw [h3]; exact h4
      · right; exact ⟨a, by simp [ha], h3⟩

theorem foldl_set_get (l : List (Nat × K)) (hs : Srt l) (a : List K) (i : Nat) (hi : i < a.length) :
    (l.foldl (fun a e => a.set e.1 e.2) a)[i]? =
      match at? l i with
      | some x => some x
      | none => a[i]? := by
  induction l generalizing a with
  | nil => rfl
  | cons e t ih =>
    rw [srt_cons] at hs
    rw [List.foldl_cons, ih hs.2 _ (by simpa using hi), at?_cons]
    by_cases h : e.1 = i
    · subst h
      rw [at?_none_of_lt hs.1, if_pos rfl]
      simp [hi]
    · rw [if_neg h]
      rcases at? t i with _ | x
      · simp [List.getElem?_set, h]
      · rfl

theorem foldl_set_length (l : List (Nat × K)) (a : List K) :
    (l.foldl (fun a e => a.set e.1 e.2) a).length = a.length := by
  induction l generalizing a with
  | nil => rfl
  | cons e t ih => rw [List.foldl_cons, ih, List.length_set]

theorem zipIdx_at {α : Type*} (l : List α) (n k : Nat) :
    at? ((l.zipIdx n).map fun p => (p.2, p.1)) k = if k < n then none else l[k - n]? := by
  induction l generalizing n with
  | nil => simp
  | cons a t ih =>
    rw [List.zipIdx_cons, List.map_cons, at?_cons, ih]
    by_cases h : n = k
    · subst h; simp
    · rw [if_neg h]
      by_cases h1 : k < n
      · rw [if_pos h1, if_pos (by omega)]
      · rw [if_neg h1, if_neg (by omega)]
        obtain ⟨d, hd⟩ : ∃ d, k - n = d + 1 := ⟨k - n - 1, by omega⟩
        rw [hd, List.getElem?_cons_succ, show k - (n + 1) = d by omega]

theorem zipIdx_srt {α : Type*} (l : List α) (n : Nat) :
    Srt ((l.zipIdx n).map fun p => (p.2, p.1)) ∧
    ∀ e ∈ (l.zipIdx n).map fun p => (p.2, p.1), n ≤ e.1 ∧ e.1 < n + l.length := by
  induction l generalizing n with
  | nil => simp [Srt]
  | cons a t ih =>
    obtain ⟨h1, h2⟩ := ih (n + 1)
    rw [List.zipIdx_cons, List.map_cons]
    refine ⟨srt_cons.mpr ⟨fun e he => (h2 e he).1, h1⟩, ?_⟩
    intro e he
    rcases List.mem_cons.mp he with h | h
    · rw [h]; simp
    · have := h2 e h; simp at this ⊢; omega

end Sleqp
