import Verif.Spec.Mex
import Verif.Lemmas.Mat
import Verif.Lemmas.MatNum
import Verif.Props.Vec
import Mathlib.Algebra.BigOperators.Group.Finset.Piecewise

/-! Lemmas on the conversion of MATLAB arrays. -/

namespace Sleqp
open Finset

section
variable {V : Type*}

theorem prList_dense (rows cols : Nat) (data : List V) :
    (MxLeaf.dense rows cols data).prList data.length = some data := by
  have h : ∀ (n : Nat), n ≤ data.length → (MxLeaf.dense rows cols data).prList n = some (data.take n) := by
    intro n
    induction n with
    | zero => intro _; rfl
    | succ n ih =>
      intro hn
      have h1 := ih (by omega)
      unfold MxLeaf.prList at h1 ⊢
      rw [List.range_succ, List.mapM_append, h1]
      have h2 : (MxLeaf.dense rows cols data).pr n = some data[n] := List.getElem?_eq_getElem (by omega)
      simp only [List.mapM_cons, List.mapM_nil, h2]
      show some (data.take n ++ [data[n]]) = _
      rw [List.take_append_getElem]
  rw [h _ le_rfl, List.take_length]

end

section
variable {K : Type*} [Field K] [LinearOrder K]

theorem mexCols_eq (s : Mat K) (hs : s.WF) : ∀ (k j : Nat), j + k ≤ s.numCols →
    mexCols s (s.ptr j) (List.range' j k) = (List.range' j k).map s.col := by
  intro k
  induction k with
  | zero => intro _ _; rfl
  | succ k ih =>
    intro j hj
    have hm := hs.ptr_mono j (by omega)
    rw [List.range'_succ, List.map_cons]
    unfold mexCols
    rw [max_eq_right hm, ih (j + 1) (by omega)]
    rfl

theorem mexCols_all (s : Mat K) (hs : s.WF) : mexCols s 0 (List.range s.numCols) = (List.range s.numCols).map s.col := by
  have := mexCols_eq s hs s.numCols 0 (by omega)
  rw [hs.ptr_zero] at this
  rw [List.range_eq_range']
  exact this

/-- what one entry of column `col` adds to component `i` -/
def hessAdd (d : Nat → K) (col i : Nat) (e : Nat × K) : K :=
  (if e.1 = i then e.2 * d col else 0) + (if e.1 ≠ col ∧ col = i then e.2 * d e.1 else 0)

theorem mexHessCol_ok (d : Nat → K) (col : Nat) : ∀ (es : List (Nat × K)) (p : Nat → K), (∀ e ∈ es, col ≤ e.1) →
    ∃ p', mexHessCol d col es p = .ok p' ∧ ∀ i, p' i = p i + (es.map (hessAdd d col i)).sum := by
  intro es
  induction es with
  | nil => intro p _; exact ⟨p, rfl, fun i => by simp⟩
  | cons e es ih =>
    obtain ⟨row, value⟩ := e
    intro p h
    have h1 : col ≤ row := h (row, value) (by simp)
    unfold mexHessCol
    rw [if_neg (by omega)]
    by_cases hc : row = col
    · rw [if_pos hc]
      obtain ⟨p', h2, h3⟩ := ih (setAt p row (p row + value * d col)) fun e he => h e (by simp [he])
      refine ⟨p', h2, fun i => ?_⟩
      rw [h3, List.map_cons, List.sum_cons, ← add_assoc]
      congr 1
      unfold setAt hessAdd
      by_cases hi : i = row
      · subst hi; simp [hc]
      · subst hc; simp [hi, Ne.symm hi]
    · rw [if_neg hc]
      obtain ⟨p', h2, h3⟩ := ih (setAt (setAt p row (p row + value * d col)) col
        ((setAt p row (p row + value * d col)) col + value * d row)) fun e he => h e (by simp [he])
      refine ⟨p', h2, fun i => ?_⟩
      rw [h3, List.map_cons, List.sum_cons, ← add_assoc]
      congr 1
      unfold setAt hessAdd
      by_cases hi : i = row
      · subst hi; simp [hc, Ne.symm hc]
      · by_cases hi' : i = col
        · subst hi'; simp [hi, Ne.symm hi]
        · simp [hi, Ne.symm hi, hi', Ne.symm hi']

theorem mexHessCol_err (d : Nat → K) (col : Nat) : ∀ (es : List (Nat × K)) (p : Nat → K), ¬ (∀ e ∈ es, col ≤ e.1) →
    mexHessCol d col es p = .err := by
  intro es
  induction es with
  | nil => intro p h; exact absurd (fun e he => by simp at he) h
  | cons e es ih =>
    obtain ⟨row, value⟩ := e
    intro p h
    unfold mexHessCol
    by_cases h1 : row < col
    · rw [if_pos h1]
    · rw [if_neg h1]
      have h2 : ¬ (∀ e ∈ es, col ≤ e.1) := by
        intro h3
        apply h
        intro e he
        rcases List.mem_cons.mp he with rfl | he
        · exact not_lt.mp h1
        · exact h3 e he
      split
      · exact ih _ h2
      · exact ih _ h2

theorem mexHessCols_ok (d : Nat → K) (s : Mat K) : ∀ (js : List Nat) (p : Nat → K), (∀ j ∈ js, ∀ e ∈ s.col j, j ≤ e.1) →
    ∃ p', mexHessCols d (js.zip (js.map s.col)) p = .ok p' ∧
      ∀ i, p' i = p i + (js.map fun j => ((s.col j).map (hessAdd d j i)).sum).sum := by
  intro js
  induction js with
  | nil => intro p _; exact ⟨p, rfl, fun i => by simp⟩
  | cons j js ih =>
    intro p h
    obtain ⟨p1, h1, h2⟩ := mexHessCol_ok d j (s.col j) p (h j (by simp))
    obtain ⟨p2, h3, h4⟩ := ih p1 fun k hk => h k (by simp [hk])
    refine ⟨p2, ?_, fun i => ?_⟩
    · show (mexHessCol d j (s.col j) p).bind (fun p' => mexHessCols d (js.zip (js.map s.col)) p') = _
      rw [h1]; exact h3
    · rw [h4, h2, List.map_cons, List.sum_cons, add_assoc]

theorem mexHessCols_err (d : Nat → K) (s : Mat K) : ∀ (js : List Nat) (p : Nat → K), ¬ (∀ j ∈ js, ∀ e ∈ s.col j, j ≤ e.1) →
    mexHessCols d (js.zip (js.map s.col)) p = .err := by
  intro js
  induction js with
  | nil => intro p h; exact absurd (fun e he => by simp at he) h
  | cons j js ih =>
    intro p h
    show (mexHessCol d j (s.col j) p).bind (fun p' => mexHessCols d (js.zip (js.map s.col)) p') = _
    by_cases hj : ∀ e ∈ s.col j, j ≤ e.1
    · obtain ⟨p1, h1, h2⟩ := mexHessCol_ok d j (s.col j) p hj
      rw [h1]
      refine ih p1 fun h3 => h fun k hk => ?_
      rcases List.mem_cons.mp hk with rfl | hk
      · exact hj
      · exact h3 k hk
    · rw [mexHessCol_err d j _ p hj]; rfl

theorem list_sum_range {n : Nat} (f : Nat → K) : ((List.range n).map f).sum = ∑ j ∈ range n, f j := by
  induction n with
  | zero => simp
  | succ n ih => rw [List.range_succ, List.map_append, List.sum_append, ih, Finset.sum_range_succ]; simp

/-- the sum of all contributions is the product with the symmetric matrix -/
theorem hess_sum (s : Mat K) (hs : s.WF) {n : Nat} (hr : s.numRows = n) (hc : s.numCols = n) (hl : LowerTri s) (d : Nat → K) {i : Nat}
    (hi : i < n) :
    ((List.range n).map fun j => ((s.col j).map (hessAdd d j i)).sum).sum = ∑ j ∈ range n, symmEntry s i j * d j := by
  rw [list_sum_range]
  have h1 : ∀ j ∈ range n, ((s.col j).map (hessAdd d j i)).sum =
      s.value i j * d j + (if j = i then ∑ t ∈ range n, (if t ≠ i then s.value t i * d t else 0) else 0) := by
    intro j hj
    rw [mem_range] at hj
    have hsrt := hs.srt j (by omega)
    have hlt : ∀ e ∈ s.col j, e.1 < n := fun e he => hr ▸ hs.lt_rows j (by omega) e he
    have := sum_range_valAt hsrt hlt (fun t v => hessAdd d j i (t, v)) (fun t => by simp [hessAdd])
    rw [← show _ = ((s.col j).map (hessAdd d j i)).sum from this]
    unfold hessAdd
    rw [Finset.sum_add_distrib]
    congr 1
    · rw [Finset.sum_ite_eq' (range n) i, if_pos (mem_range.mpr hi)]; rfl
    · by_cases hji : j = i
      · subst hji
        rw [if_pos rfl]
        refine Finset.sum_congr rfl fun t _ => ?_
        by_cases ht : t = j
        · simp [ht]
        · simp [ht]; exact Or.inl rfl
      · rw [if_neg hji]
        exact Finset.sum_eq_zero fun t _ => by simp [hji]
  rw [Finset.sum_congr rfl h1, Finset.sum_add_distrib, Finset.sum_ite_eq' (range n) i, if_pos (mem_range.mpr hi), ← Finset.sum_add_distrib]
  refine Finset.sum_congr rfl fun j hj => ?_
  rw [mem_range] at hj
  have hz : ∀ a b, b < n → a < b → s.value a b = 0 := by
    intro a b hb hab
    show valAt (s.col b) a = 0
    unfold valAt
    rw [at?_none_of_forall]
    · rfl
    · intro e he
      have := hl b (by omega) e he
      omega
  unfold symmEntry
  rcases lt_trichotomy j i with h | h | h
  · rw [if_pos (by omega), hz j i hi h, max_eq_left h.le, min_eq_right h.le]; ring
  · subst h; simp
  · rw [if_pos (by omega), hz i j hj h, max_eq_right h.le, min_eq_left h.le]; ring

end
end Sleqp
