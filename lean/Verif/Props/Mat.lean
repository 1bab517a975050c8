import Verif.Lemmas.MatNum
import Verif.Lemmas.Remove
import Mathlib.Algebra.BigOperators.Ring.Finset
import Mathlib.Tactic.IntervalCases
import Mathlib.Tactic.NormNum

/-! C08–C11: sparse matrices. -/

namespace Sleqp

open Finset

/-! ## C08 -/

section C08
variable {K : Type*} [Field K] [LinearOrder K]

/-- C08: the matrix-vector product is the dense one. -/
theorem C08_mult_vec (m : Mat K) (x : Vec K) (hm : m.WF) (hx : x.WF) (hd : m.numCols = x.dim) :
    ∃ res, m.multVec x = some res ∧
      ∀ i, res i = ∑ j ∈ range m.numCols, m.value i j * x.value j := by
  unfold Mat.multVec
  rw [if_pos hd]
  refine ⟨_, rfl, fun i => ?_⟩
  rw [Mat.foldl_addCol m hm _ (hd ▸ hx.lt_dim)]
  have := sum_range_valAt hx.srt (hd ▸ hx.lt_dim) (fun j v => v * m.value i j) (by simp)
  rw [zero_add, ← this]
  exact Finset.sum_congr rfl fun j _ => mul_comm _ _

/-- C08: the transposed product is the dense one, up to dropping sums of magnitude
at most `eps`; the reserved capacity always suffices. -/
theorem C08_mult_vec_trans [IsStrictOrderedRing K] (m : Mat K) (x res : Vec K) (eps : K)
    (heps : 0 ≤ eps) (hm : m.WF)
    (hx : x.WF) (hd : m.numRows = x.dim) (hd2 : m.numCols = res.dim) :
    ∃ r, m.multVecTrans x eps res = some r ∧ r.WF ∧ r.dim = m.numCols ∧
      ∀ j < m.numCols, r.value j =
        (if |∑ i ∈ range m.numRows, m.value i j * x.value i| ≤ eps then 0
         else ∑ i ∈ range m.numRows, m.value i j * x.value i) := by
  set S : Nat → K := fun j => Vec.dotList x.ents (m.col j) 0 with hS
  have hSum : ∀ j < m.numCols, S j = ∑ i ∈ range m.numRows, m.value i j * x.value i := by
    intro j hj
    rw [hS]
    simp only
    rw [dotList_eq hx.srt (hm.srt j hj), zero_add]
    have := sum_range_valAt hx.srt (hd ▸ hx.lt_dim) (fun i v => v * m.value i j) (by simp)
    rw [← show _ = (x.ents.map fun e => e.2 * valAt (m.col j) e.1).sum from this]
    exact Finset.sum_congr rfl fun j _ => mul_comm _ _
  set cs := ((List.range m.numCols).filter fun j => decide (0 < m.ptr (j + 1) - m.ptr j)).length with hcs
  set r0 := (res.clear).reserve cs with hr0
  set L := ((List.range m.numCols).filter fun j => !isZero (S j) eps).map fun j => (j, S j) with hL
  have sL : Srt L := by
    rw [hL, Srt, List.pairwise_map]
    exact (List.pairwise_lt_range).filter _
  have hlt : ∀ e ∈ L, e.1 < r0.dim := by
    intro e he
    obtain ⟨j, hj, rfl⟩ := List.mem_map.mp he
    have := List.mem_of_mem_filter hj
    rw [List.mem_range] at this
    simp only [hr0, Vec.clear, Vec.reserve]
    omega
  have hcap : L.length ≤ r0.cap := by
    have : L.length ≤ cs := by
      rw [hL, List.length_map, hcs]
      rw [← List.countP_eq_length_filter, ← List.countP_eq_length_filter]
      apply List.countP_mono_left
      intro j hj hz
      by_contra hcon
      have hc : m.col j = [] := by
        rw [← List.length_eq_zero_iff, Mat.col_length]
        simp at hcon; omega
      have h0 : S j = 0 := by
        rw [hS]; simp only [hc]
        cases x.ents <;> simp [Vec.dotList]
      rw [h0] at hz
      simp [isZero, heps] at hz
    exact le_trans this (le_max_right _ _)
  have hp := Vec.pushAll_ok r0 L (by simpa [hr0, Vec.clear, Vec.reserve] using sL) hlt
    (by simpa [hr0, Vec.clear, Vec.reserve] using hcap)
  refine ⟨⟨res.dim, r0.cap, L⟩, ?_, ⟨sL, hlt, hcap⟩, hd2.symm, ?_⟩
  · unfold Mat.multVecTrans
    rw [if_pos ⟨hd, hd2⟩]
    have := Vec.foldlM_push_map (fun j => isZero (S j) eps) (fun j => (j, S j)) r0
      (List.range m.numCols)
    simp only at this ⊢
    rw [← hL, hp] at this
    exact this
  · intro j hj
    rw [← hSum j hj]
    change valAt L j = _
    by_cases h : isZero (S j) eps = true
    · rw [if_pos (isZero_iff.mp h)]
      unfold valAt
      rw [at?_none_of_forall]; · rfl
      intro e he hej
      obtain ⟨k, hk, rfl⟩ := List.mem_map.mp he
      have := List.of_mem_filter hk
      simp only at hej
      subst hej
      simp [h] at this
    · rw [if_neg (fun h' => h (isZero_iff.mpr h'))]
      have : (j, S j) ∈ L := List.mem_map.mpr ⟨j, by
        rw [List.mem_filter]; exact ⟨List.mem_range.mpr hj, by simpa using h⟩, rfl⟩
      exact valAt_of_mem sL this

/-- C08: the two products are adjoint: `⟨A x, y⟩ = ⟨x, Aᵀ y⟩`. -/
theorem C08_adjoint [IsStrictOrderedRing K] (m : Mat K) (x y res : Vec K) (hm : m.WF) (hx : x.WF)
    (hy : y.WF) (d1 : m.numCols = x.dim) (d2 : m.numRows = y.dim) (d3 : m.numCols = res.dim) :
    ∃ a r, m.multVec x = some a ∧ m.multVecTrans y 0 res = some r ∧
      ∑ i ∈ range m.numRows, a i * y.value i = ∑ j ∈ range m.numCols, x.value j * r.value j := by
  obtain ⟨a, h1, h2⟩ := C08_mult_vec m x hm hx d1
  obtain ⟨r, g1, _, _, g2⟩ := C08_mult_vec_trans m y res 0 le_rfl hm hy d2 d3
  refine ⟨a, r, h1, g1, ?_⟩
  have g3 : ∀ j ∈ range m.numCols, x.value j * r.value j =
      x.value j * ∑ i ∈ range m.numRows, m.value i j * y.value i := by
    intro j hj
    rw [g2 j (Finset.mem_range.mp hj)]
    split_ifs with h
    · rw [abs_nonpos_iff.mp h]
    · rfl
  rw [Finset.sum_congr rfl g3]
  simp_rw [h2, Finset.sum_mul, Finset.mul_sum]
  rw [Finset.sum_comm]
  exact Finset.sum_congr rfl fun j _ => Finset.sum_congr rfl fun i _ => by ring

end C08

section C08s
variable {K : Type*}

/-- C08: transposition yields a well formed matrix with the mirrored entries,
whatever the target contained before. -/
theorem C08_trans (m t : Mat K) (hm : m.WF) :
    (Mat.trans m t).WF ∧ (Mat.trans m t).numRows = m.numCols ∧
      (Mat.trans m t).numCols = m.numRows ∧
      ∀ i < m.numRows, ∀ j < m.numCols, (Mat.trans m t).at? j i = m.at? i j := by
  set t1 := ((t.clear).reserve m.nnz).resize m.numCols m.numRows with ht1
  have e1 : t1.numRows = m.numCols := by
    rw [ht1]; unfold Mat.resize; split
    · rfl
    · split <;> rfl
  have e2 : t1.numCols = m.numRows := by
    rw [ht1]; unfold Mat.resize; split
    · rfl
    · split
      · rfl
      · simp only [Mat.reserve, Mat.clear] at *; omega
  have e3 : m.nnz ≤ t1.cap := by
    rw [ht1]; unfold Mat.resize; split
    · exact le_max_right _ _
    · split <;> exact le_max_right _ _
  set tptr : Nat → Nat := fun k => if k ≤ t1.numCols then Mat.prefixSum m.rowSums k else t1.ptr k with htp
  set s0 : (Nat → Nat) × (Nat → Nat) × (Nat → K) :=
    ((fun j => if j < t1.numCols then 0 else m.rowSums j), t1.row, t1.val) with hs0
  have hT : Mat.trans m t = { t1 with
      ptr := tptr
      row := (m.entries.foldl (Mat.transStep tptr) s0).2.1
      val := (m.entries.foldl (Mat.transStep tptr) s0).2.2
      nnz := m.nnz } := rfl
  have hspec := Mat.transFold_spec tptr m.numRows m.rowSums
    (fun r hr => by
      rw [htp]; simp only
      rw [if_pos (by omega), if_pos (by omega)]; rfl)
    s0 (fun r hr => by rw [hs0]; simp only; rw [if_pos (by omega)]) m.entries
    (by
      rintro ⟨r, j, x⟩ he
      obtain ⟨h1, h2⟩ := Mat.entries_mem.mp he
      exact hm.lt_rows j h1 _ h2)
    (fun r _ => by rw [Mat.entries_row_count hm])
  have hcol : ∀ r < m.numRows, (Mat.trans m t).col r =
      (m.entries.filter fun e => decide (e.1 = r)).map fun e => (e.2.1, e.2.2) := by
    intro r hr
    rw [← (hspec r hr).2, hT]
    unfold Mat.col
    simp only
    have : tptr (r + 1) - tptr r = (m.entries.filter fun e => decide (e.1 = r)).length := by
      rw [← Mat.entries_row_count hm, htp]
      simp only
      rw [if_pos (by omega), if_pos (by omega), ← Mat.prefixSum_mono]
      omega
    rw [this]
  have hnc : (Mat.trans m t).numCols = m.numRows := by rw [hT]; exact e2
  have hnr : (Mat.trans m t).numRows = m.numCols := by rw [hT]; exact e1
  refine ⟨⟨?_, ?_, ?_, ?_, ?_, ?_⟩, hnr, hnc, ?_⟩
  · rw [hT]; simp [htp, Mat.prefixSum]
  · intro j hj
    rw [hnc] at hj
    rw [hT]; simp only [htp]
    rw [if_pos (by omega), if_pos (by omega), ← Mat.prefixSum_mono]
    omega
  · rw [hnc, hT]; simp only [htp]
    rw [if_pos (by omega), Mat.prefixSum_total hm]
  · rw [hT]; exact e3
  · intro j hj
    rw [hnc] at hj
    rw [hcol j hj]
    exact Mat.entries_row_srt hm j
  · intro j hj e he
    rw [hnc] at hj
    rw [hcol j hj] at he
    obtain ⟨⟨r, c, x⟩, h1, rfl⟩ := List.mem_map.mp he
    rw [hnr]
    exact (Mat.entries_mem.mp (List.mem_of_mem_filter h1)).1
  · intro i hi j hj
    unfold Mat.at?
    refine at?_congr (by rw [hcol i hi]; exact Mat.entries_row_srt hm i) (hm.srt j hj) fun v => ?_
    rw [hcol i hi]
    simp only [List.mem_map, List.mem_filter]
    constructor
    · rintro ⟨⟨r, c, x⟩, ⟨h1, h2⟩, h3⟩
      simp only [Prod.mk.injEq] at h3
      obtain ⟨rfl, rfl⟩ := h3
      simp at h2
      subst h2
      exact (Mat.entries_mem.mp h1).2
    · intro h
      exact ⟨(i, j, v), ⟨Mat.entries_mem.mpr ⟨hj, h⟩, by simp⟩, rfl⟩

end C08s

/-! ## C09 -/

section C09
variable {K : Type*}

/-- C09: clearing a matrix and assembling it column by column (rows increasing
inside each column, total number of entries within the capacity) succeeds and
yields a well formed matrix containing exactly the pushed entries. -/
theorem C09_assemble (m : Mat K) (cs : List (List (Nat × K))) (hl : cs.length = m.numCols)
    (hs : ∀ c ∈ cs, Srt c) (hr : ∀ c ∈ cs, ∀ e ∈ c, e.1 < m.numRows)
    (hc : (cs.map List.length).sum ≤ m.cap) :
    ∃ m', m.clear.assembleFrom 0 cs = some m' ∧ m'.WF ∧ m'.numRows = m.numRows ∧
      m'.numCols = m.numCols ∧
      ∀ j (h : j < cs.length), ∀ i x, m'.at? i j = some x ↔ (i, x) ∈ cs[j] := by
  obtain ⟨m', h1, h2, h3, h4, _, h5⟩ := Mat.assemble_wf m.clear cs (by simp [Mat.clear])
    (by simp [Mat.clear]) hl hs hr hc
  refine ⟨m', h1, h2, h3, h4, fun j h i x => ?_⟩
  unfold Mat.at?
  rw [h5 j h]
  exact at?_eq_some_iff (hs _ (List.getElem_mem _))

/-- Calls that change one matrix; vectors/matrices passed in are arbitrary. -/
inductive MatOp (K : Type*) where
  | reserve (n : Nat)
  | resize (rows cols : Nat)
  | clear
  | assemble (cs : List (List (Nat × K)))
  | copyFrom (src : Mat K)
  | vstackOf (first second : Mat K)
  | removeRowsOf (src : Mat K) (rows : List Nat)

/-- The caller's obligations: columns are pushed in order with increasing rows, a
copied / stacked matrix is well formed, a resize does not cut off rows in use, and a
stacked result does not lose columns (see `C10_vstack_violated`). -/
def MatOp.Ok (m : Mat K) : MatOp K → Prop
  | .reserve _ => True
  | .resize rows cols => ∀ j < min cols m.numCols, ∀ e ∈ m.col j, e.1 < rows
  | .clear => True
  | .assemble cs => cs.length = m.numCols ∧ ∀ c ∈ cs, Srt c
  | .copyFrom src => src.WF
  | .vstackOf first second => first.WF ∧ second.WF ∧ m.numCols ≤ first.numCols
  | .removeRowsOf src rows => src.WF ∧ rows.Pairwise (· < ·) ∧ ∀ r ∈ rows, r < src.numRows

def MatOp.apply (m : Mat K) : MatOp K → Option (Mat K)
  | .reserve n => some (m.reserve n)
  | .resize rows cols => some (m.resize rows cols)
  | .clear => some m.clear
  | .assemble cs => m.clear.assembleFrom 0 cs
  | .copyFrom src => src.copy m
  | .vstackOf first second => first.vstack second m
  | .removeRowsOf src rows => src.removeRows m rows

theorem Mat.col_setNnz (m : Mat K) (n j : Nat) : ({ m with nnz := n } : Mat K).col j = m.col j := rfl

theorem Mat.resize_wf (m : Mat K) (rows cols : Nat) (hm : m.WF)
    (hr : ∀ j < min cols m.numCols, ∀ e ∈ m.col j, e.1 < rows) :
    (m.resize rows cols).WF ∧ (m.resize rows cols).numRows = rows ∧
      (m.resize rows cols).numCols = cols ∧
      (∀ j < min cols m.numCols, (m.resize rows cols).col j = m.col j) ∧
      ∀ j, m.numCols ≤ j → j < cols → (m.resize rows cols).col j = [] := by
  unfold Mat.resize
  split
  · rename_i hlt
    set p0 := if m.numCols = 0 then setAt m.ptr 0 0 else m.ptr with hp0
    have hp : p0 = m.ptr := by
      rw [hp0]; split
      · funext k
        by_cases hk : k = 0
        · rw [hk, setAt_same, hm.ptr_zero]
        · rw [setAt_ne _ _ hk]
      · rfl
    simp only [hp]
    have hcol : ∀ j < m.numCols, Mat.col ({ m with
        numRows := rows, numCols := cols,
        ptr := fun k => if m.numCols < k ∧ k ≤ cols then m.ptr m.numCols else m.ptr k } : Mat K) j =
        m.col j := by
      intro j hj
      apply Mat.col_congr
      · simp only; rw [if_neg (by omega)]
      · simp only; rw [if_neg (by omega)]
      · intro k _ _; exact ⟨rfl, rfl⟩
    have hcol2 : ∀ j, m.numCols ≤ j → j < cols → Mat.col ({ m with
        numRows := rows, numCols := cols,
        ptr := fun k => if m.numCols < k ∧ k ≤ cols then m.ptr m.numCols else m.ptr k } : Mat K) j =
        [] := by
      intro j h1 h2
      rw [← List.length_eq_zero_iff, Mat.col_length]
      simp only
      rw [if_pos (by omega)]
      split
      · omega
      · rw [show j = m.numCols by omega]; omega
    refine ⟨⟨?_, ?_, ?_, hm.le_cap, ?_, ?_⟩, by simp, by simp, ?_, hcol2⟩
    · simp only; rw [if_neg (by omega)]; exact hm.ptr_zero
    · intro j hj
      simp only at hj ⊢
      by_cases h1 : j < m.numCols
      · rw [if_neg (by omega), if_neg (by omega)]; exact hm.ptr_mono j h1
      · rw [if_pos (show m.numCols < j + 1 ∧ j + 1 ≤ cols by omega)]
        split
        · exact le_rfl
        · rw [show j = m.numCols by omega]
    · simp only
      rw [if_pos (by omega)]; exact hm.ptr_last
    · intro j hj
      by_cases h1 : j < m.numCols
      · rw [hcol j h1]; exact hm.srt j h1
      · rw [hcol2 j (by omega) hj]; exact Srt.nil
    · intro j hj
      by_cases h1 : j < m.numCols
      · rw [hcol j h1]; exact hr j (by simp at hj ⊢; omega)
      · rw [hcol2 j (by omega) hj]; simp
    · intro j hj; exact hcol j (by omega)
  · split
    · rename_i h1 h2
      refine ⟨⟨hm.ptr_zero, fun j hj => hm.ptr_mono j (by simp at hj; omega), rfl,
        le_trans (hm.ptr_le_nnz (by omega)) hm.le_cap, fun j hj => hm.srt j (by simp at hj; omega),
        fun j hj => hr j (by simp at hj ⊢; omega)⟩, rfl, rfl, fun j _ => rfl, fun j h3 h4 => by omega⟩
    · have : cols = m.numCols := by omega
      subst this
      exact ⟨⟨hm.ptr_zero, hm.ptr_mono, hm.ptr_last, hm.le_cap, hm.srt,
        fun j hj => hr j (by simpa using hj)⟩, rfl, rfl, fun j _ => rfl, fun j h3 h4 => by omega⟩

theorem Mat.copy_wf (src m m' : Mat K) (hs : src.WF) (h : src.copy m = some m') :
    m'.WF ∧ m'.numRows = src.numRows ∧ m'.numCols = src.numCols ∧
      ∀ j < src.numCols, m'.col j = src.col j := by
  unfold Mat.copy at h
  split at h
  · rename_i hd
    obtain ⟨d1, d2, _⟩ := hd
    injection h with h
    have hcol : ∀ j < src.numCols, m'.col j = src.col j := by
      intro j hj
      apply Mat.col_congr
      · rw [← h]; simp only; rw [if_pos (by omega)]
      · rw [← h]; simp only; rw [if_pos (by omega)]
      · intro k h1 h2
        have := hs.ptr_le_nnz (j := j + 1) (by omega)
        rw [← h]; simp only
        rw [if_pos (by omega), if_pos (by omega)]
        simp
    have n1 : m'.numCols = src.numCols := by rw [← h]; exact d1.symm
    have n2 : m'.numRows = src.numRows := by rw [← h]; exact d2.symm
    have hp : ∀ k ≤ src.numCols, m'.ptr k = src.ptr k := by
      intro k hk; rw [← h]; simp only; rw [if_pos (by omega)]
    refine ⟨⟨?_, ?_, ?_, ?_, ?_, ?_⟩, n2, n1, hcol⟩
    · rw [hp 0 (by omega), hs.ptr_zero]
    · intro j hj
      rw [hp j (by omega), hp (j + 1) (by omega)]; exact hs.ptr_mono j (by omega)
    · rw [n1, hp _ le_rfl, hs.ptr_last, ← h]
    · rw [← h]; exact le_max_right _ _
    · intro j hj; rw [hcol j (by omega)]; exact hs.srt j (by omega)
    · intro j hj; rw [hcol j (by omega), n2]; exact hs.lt_rows j (by omega)
  · simp at h

end C09

/-! ## C10 -/

section C10
variable {K : Type*}

theorem Mat.resize_start (m : Mat K) (rows cols : Nat) (h0 : m.ptr 0 = 0) (h : m.numCols ≤ cols) :
    let r := ({ m with nnz := 0 } : Mat K).resize rows cols
    r.ptr 0 = 0 ∧ r.nnz = 0 ∧ r.numRows = rows ∧ r.numCols = cols ∧ r.cap = m.cap := by
  simp only
  unfold Mat.resize
  split
  · refine ⟨?_, rfl, rfl, rfl, rfl⟩
    simp only
    rw [if_neg (by omega)]
    split
    · simp
    · exact h0
  · simp only at *
    rw [if_neg (by omega)]
    refine ⟨h0, rfl, rfl, ?_, rfl⟩
    simp only; omega

/-- C10 (partial): stacking gives exactly the rows of the first matrix followed by
the rows of the second.  Missing from the full claim: the result object must not have
more columns than the operands (see `C10_vstack_violated`). -/
theorem C10_vstack_partial (first second result : Mat K) (h1 : first.WF) (h2 : second.WF)
    (hc : first.numCols = second.numCols) (h0 : result.ptr 0 = 0)
    (hres : result.numCols ≤ first.numCols) :
    ∃ r, first.vstack second result = some r ∧ r.WF ∧
      r.numRows = first.numRows + second.numRows ∧ r.numCols = first.numCols ∧
      (∀ i < first.numRows, ∀ j < first.numCols, r.at? i j = first.at? i j) ∧
      (∀ i < second.numRows, ∀ j < first.numCols, r.at? (first.numRows + i) j = second.at? i j) := by
  obtain ⟨s1, s2, s3, s4, s5⟩ := Mat.resize_start result (first.numRows + second.numRows) first.numCols h0 hres
  set r0 := ({ result with nnz := 0 } : Mat K).resize (first.numRows + second.numRows) first.numCols
  set cs := (List.range first.numCols).map fun j =>
      first.col j ++ (second.col j).map fun e => (first.numRows + e.1, e.2) with hcs
  have hsrt : ∀ j < first.numCols,
      Srt (first.col j ++ (second.col j).map fun e => (first.numRows + e.1, e.2)) := by
    intro j hj
    rw [srt_append]
    refine ⟨h1.srt j hj, ?_, ?_⟩
    · rw [Srt, List.pairwise_map]
      exact (h2.srt j (by omega)).imp fun h => by simpa using h
    · intro a ha b hb
      obtain ⟨e, he, rfl⟩ := List.mem_map.mp hb
      have := h1.lt_rows j hj a ha
      simp only; omega
  obtain ⟨m', g1, g2, g3, g4, _, g5⟩ := Mat.assemble_wf (r0.reserve (first.nnz + second.nnz)) cs
    s1 s2 (by rw [hcs]; simp only [List.length_map, List.length_range]; exact s4.symm)
    (by
      intro c hc'
      obtain ⟨j, hj, rfl⟩ := List.mem_map.mp hc'
      exact hsrt j (List.mem_range.mp hj))
    (by
      intro c hc' e he
      obtain ⟨j, hj, rfl⟩ := List.mem_map.mp hc'
      have hj' := List.mem_range.mp hj
      change e.1 < r0.numRows
      rw [s3]
      rcases List.mem_append.mp he with he | he
      · have := h1.lt_rows j hj' e he; omega
      · obtain ⟨e', he', rfl⟩ := List.mem_map.mp he
        have := h2.lt_rows j (by omega) e' he'
        simp only; omega)
    (by
      have : (cs.map List.length).sum = first.nnz + second.nnz := by
        rw [← h1.sum_col, ← h2.sum_col, ← hc, hcs, List.map_map, ← List.sum_map_add]
        congr 1
        apply List.map_congr_left
        intro j _
        simp
      rw [this]
      exact le_max_right _ _)
  have hlen : cs.length = first.numCols := by rw [hcs]; simp
  have hcol : ∀ j < first.numCols, m'.col j =
      first.col j ++ (second.col j).map fun e => (first.numRows + e.1, e.2) := by
    intro j hj
    rw [g5 j (by omega)]
    simp [hcs]
  refine ⟨m', ?_, g2, g3.trans s3, g4.trans s4, ?_, ?_⟩
  · unfold Mat.vstack
    rw [if_pos hc]
    exact g1
  · intro i hi j hj
    unfold Mat.at?
    refine at?_congr (by rw [hcol j hj]; exact hsrt j hj) (h1.srt j hj) fun v => ?_
    rw [hcol j hj, List.mem_append]
    constructor
    · rintro (h | h)
      · exact h
      · obtain ⟨e, _, he⟩ := List.mem_map.mp h
        simp only [Prod.mk.injEq] at he
        omega
    · exact Or.inl
  · intro i hi j hj
    unfold Mat.at?
    refine at?_congr (by rw [hcol j hj]; exact hsrt j hj) (h2.srt j (by omega)) fun v => ?_
    rw [hcol j hj, List.mem_append]
    constructor
    · rintro (h | h)
      · have := h1.lt_rows j hj _ h; simp at this
      · obtain ⟨e, h3, he⟩ := List.mem_map.mp h
        simp only [Prod.mk.injEq] at he
        obtain ⟨h4, rfl⟩ := he
        rw [← show e.1 = i by omega]
        exact h3
    · intro h
      exact Or.inr (List.mem_map.mpr ⟨(i, v), h, rfl⟩)

/-- 1x1 operand `[5]` -/
def exA : Mat ℚ := ⟨1, 1, 1, 1, fun k => if k = 0 then 0 else 1, fun _ => 0, fun _ => 5⟩
/-- result object that was used for a 2x2 matrix with one entry in column 0 -/
def exR : Mat ℚ := ⟨2, 2, 1, 4, fun k => if k = 0 then 0 else 1, fun _ => 1, fun _ => 7⟩

theorem exA_wf : exA.WF := by
  refine ⟨rfl, ?_, rfl, le_rfl, ?_, ?_⟩
  · intro j hj; simp [exA] at hj ⊢
    simp [hj]
  · intro j hj
    have : j = 0 := by simp [exA] at hj; exact hj
    subst this; simp [exA, Mat.col, Srt]
  · intro j hj
    have : j = 0 := by simp [exA] at hj; exact hj
    subst this; simp [exA, Mat.col]

theorem exR_wf : exR.WF := by
  refine ⟨rfl, ?_, rfl, by decide, ?_, ?_⟩
  · intro j hj; simp [exR] at hj ⊢
    split <;> omega
  · intro j hj
    have h : j = 0 ∨ j = 1 := by simp [exR] at hj; omega
    rcases h with rfl | rfl <;> simp [exR, Mat.col, Srt]
  · intro j hj
    have h : j = 0 ∨ j = 1 := by simp [exR] at hj; omega
    rcases h with rfl | rfl <;> simp [exR, Mat.col]

/-- C10 violated by the code: two well formed 1x1 matrices `[5]` stacked into a well
formed result object that previously held a 2x2 matrix.  The call succeeds, but the
result is not well formed and its entry (1,0) is the stale 7 instead of 5. -/
theorem C10_vstack_violated :
    exA.WF ∧ exR.WF ∧ ∃ r, exA.vstack exA exR = some r ∧ ¬ r.WF ∧ r.at? 1 0 = some 7 ∧ exA.at? 0 0 = some 5 := by
  refine ⟨exA_wf, exR_wf, ?_⟩
  have h : ∃ r, exA.vstack exA exR = some r ∧ r.nnz = 3 ∧ r.ptr r.numCols = 2 ∧
      r.col 0 = [(1, 7), (0, 5)] ∧ r.numCols = 1 := by
    simp [Mat.vstack, exA, exR, Mat.resize, Mat.reserve, Mat.assembleFrom, Mat.pushCol, Mat.pushAll,
      Mat.push, Mat.col, setAt, List.range_succ, List.range'_succ]
  obtain ⟨r, h1, h2, h3, h4, h5⟩ := h
  refine ⟨r, h1, ?_, ?_, ?_⟩
  · intro hw
    have := hw.ptr_last
    omega
  · unfold Mat.at?
    rw [h4]
    simp [Sleqp.at?]
  · simp [Mat.at?, exA, Mat.col, Sleqp.at?]

end C10

/-! ## C09, histories -/

section C09b
variable {K : Type*}

/-- C09: every call that meets the caller's obligations and succeeds keeps the matrix
well formed. -/
theorem C09_step (m m' : Mat K) (op : MatOp K) (hw : m.WF) (hok : op.Ok m)
    (h : op.apply m = some m') : m'.WF := by
  cases op with
  | reserve n =>
    injection h with h; subst h
    exact ⟨hw.ptr_zero, hw.ptr_mono, hw.ptr_last, le_trans hw.le_cap (le_max_left _ _), hw.srt,
      hw.lt_rows⟩
  | resize rows cols =>
    injection h with h; subst h
    exact (Mat.resize_wf m rows cols hw hok).1
  | clear =>
    injection h with h; subst h
    exact Mat.clear_wf m
  | assemble cs =>
    obtain ⟨hl, hs⟩ := hok
    simp only [MatOp.apply] at h
    -- success implies the range and capacity conditions
    have hsucc := Mat.assembleFrom_some m.clear 0 cs m' h
    obtain ⟨m2, h1, h2, _⟩ := Mat.assemble_wf m.clear cs (by simp [Mat.clear])
      (by simp [Mat.clear]) hl hs hsucc.1 (by have := hsucc.2; simp only [Mat.clear] at this ⊢; omega)
    rw [h1] at h
    injection h with h; subst h
    exact h2
  | copyFrom src => exact (Mat.copy_wf src m m' hok h).1
  | vstackOf first second =>
    obtain ⟨h1, h2, h3⟩ := hok
    simp only [MatOp.apply] at h
    by_cases hc : first.numCols = second.numCols
    · obtain ⟨r, g1, g2, _⟩ := C10_vstack_partial first second m h1 h2 hc hw.ptr_zero h3
      rw [g1] at h
      injection h with h; subst h
      exact g2
    · simp [Mat.vstack, hc] at h
  | removeRowsOf src rows =>
    obtain ⟨h1, h2, h3⟩ := hok
    simp only [MatOp.apply, Mat.removeRows] at h
    split at h
    · rename_i hd
      have hsucc := Mat.assembleFrom_some _ 0 _ m' h
      obtain ⟨m2, g1, g2, _⟩ := Mat.assemble_wf ((m.reserve src.nnz).clear)
        ((List.range src.numCols).map fun j => Vec.removeLoop rows 0 (src.col j))
        (by simp [Mat.clear]) (by simp [Mat.clear])
        (by simpa [Mat.clear, Mat.reserve] using hd.1)
        (by
          intro c hc
          obtain ⟨j, hj, rfl⟩ := List.mem_map.mp hc
          exact (Vec.removeLoop_spec rows 0 _ h2 (h1.srt j (List.mem_range.mp hj)) (by simp) (by simp)).1)
        hsucc.1 (by have := hsucc.2; simp only [Mat.clear] at this ⊢; omega)
      rw [g1] at h
      injection h with h; subst h
      exact g2
    · simp at h

/-- C09: the same for whole histories. -/
theorem C09_reachable_wf (rows cols cap : Nat) (row : Nat → Nat) (val : Nat → K)
    (run : List (Mat K × MatOp K)) :
    (∀ k, (h : k < run.length) → (run[k]).2.Ok (run[k]).1) →
    (∀ k, (h : k + 1 < run.length) → (run[k]).2.apply (run[k]).1 = some (run[k + 1]).1) →
    (∀ h : 0 < run.length, (run[0]).1 = Mat.create rows cols cap row val) →
    ∀ k, (h : k < run.length) → (run[k]).1.WF := by
  intro hok hstep h0 k hk
  induction k with
  | zero =>
    rw [h0 hk]
    refine ⟨rfl, fun j _ => le_rfl, rfl, Nat.zero_le _, ?_, ?_⟩
    · intro j _; simp [Mat.col, Mat.create, Srt]
    · intro j _; simp [Mat.col, Mat.create]
  | succ k ih =>
    exact C09_step _ _ _ (ih (by omega)) (hok k (by omega)) (hstep k hk)

/-- C09: for matrices with entries (and column pointers starting at 0) the library's own
validity check is exactly well-formedness. -/
theorem C09_isValid_iff (m : Mat K) (h0 : m.ptr 0 = 0) (hn : m.nnz ≠ 0) :
    m.isValid = true ↔ m.WF := by
  have hs : ∀ l : List (Nat × K), ((l.zip l.tail).all fun p => decide (p.1.1 < p.2.1)) = true ↔ Srt l := by
    intro l
    rw [Srt, ← List.isChain_iff_pairwise]
    induction l with
    | nil => simp
    | cons a t ih =>
      cases t with
      | nil => simp
      | cons b t =>
        simp only [List.tail_cons, List.zip_cons_cons, List.all_cons, Bool.and_eq_true,
          decide_eq_true_eq, List.isChain_cons_cons]
        rw [← ih]; rfl
  unfold Mat.isValid
  simp only [Bool.and_eq_true, decide_eq_true_eq, Bool.or_eq_true, List.all_eq_true, List.mem_range]
  constructor
  · rintro ⟨h1, h2 | ⟨h2, h3⟩⟩
    · exact absurd h2 hn
    · exact ⟨h0, fun j hj => (h2 j hj).1.1, h3, h1,
        fun j hj => (hs _).mp (by simpa using (h2 j hj).1.2), fun j hj e he => (h2 j hj).2 e he⟩
  · intro hw
    refine ⟨hw.le_cap, Or.inr ⟨fun j hj => ⟨⟨hw.ptr_mono j hj, ?_⟩, hw.lt_rows j hj⟩, hw.ptr_last⟩⟩
    simpa using (hs _).mpr (hw.srt j hj)

/-- C09, limit of the claim: the order of pushes is *not* checked; pushing row 1 before
row 0 succeeds and leaves an ill formed matrix. -/
theorem C09_push_order_unchecked :
    ∃ m', (Mat.create 2 1 2 (fun _ => 0) (fun _ => (0 : ℚ))).assembleFrom 0 [[(1, 5), (0, 7)]] = some m' ∧
      ¬ m'.WF := by
  have h : ∃ m', (Mat.create 2 1 2 (fun _ => 0) (fun _ => (0 : ℚ))).assembleFrom 0 [[(1, 5), (0, 7)]] = some m'
      ∧ m'.numCols = 1 ∧ m'.col 0 = [(1, 5), (0, 7)] := by
    simp [Mat.create, Mat.assembleFrom, Mat.pushCol, Mat.pushAll, Mat.push, Mat.col, setAt,
      List.range'_succ]
  obtain ⟨m', h1, h2, h3⟩ := h
  refine ⟨m', h1, fun hw => ?_⟩
  have := hw.srt 0 (by omega)
  rw [h3] at this
  simp [Srt] at this

end C09b

/-! ## C11 -/

section C11
variable {K : Type*} [Field K] [LinearOrder K] [IsStrictOrderedRing K]

theorem isEq_zero_iff {x y : K} : isEq x y 0 = true ↔ x = y := by
  unfold isEq relDiff
  rw [decide_eq_true_eq, abs_nonpos_iff, div_eq_zero_iff]
  constructor
  · rintro (h | h)
    · exact sub_eq_zero.mp h
    · exact absurd h (lt_of_lt_of_le one_pos (le_max_right _ _)).ne'
  · intro h; left; rw [h, sub_self]

/-- C11: vector equality with tolerance 0 is equality of all coordinates. -/
theorem C11_vec_eq (v w : Vec K) (hv : v.WF) (hw : w.WF) (hd : v.dim = w.dim) :
    ∃ b, v.eq w 0 = some b ∧ (b = true ↔ ∀ i < v.dim, v.value i = w.value i) := by
  unfold Vec.eq
  rw [if_pos hd]
  refine ⟨_, rfl, ?_⟩
  rw [List.all_eq_true]
  constructor
  · intro h i hi
    unfold Vec.value valAt
    rcases hm : at? (merge2 v.ents w.ents) i with _ | t
    · rw [merge2_at hv.srt hw.srt] at hm
      obtain ⟨h1, h2⟩ := comb2_eq_none hm
      rw [h1, h2]
    · have h1 := h (i, t) (mem_of_at? hm)
      rw [merge2_at hv.srt hw.srt] at hm
      obtain ⟨rfl, _⟩ := comb2_eq_some hm
      exact isEq_zero_iff.mp h1
  · intro h t ht
    have h1 := (merge2_mem hv.srt hw.srt ht).1
    have h2 := merge2_lt hv.srt hw.srt hv.lt_dim (hd ▸ hw.lt_dim) t ht
    have h3 := h t.1 h2
    unfold Vec.value valAt at h3
    rw [h1]
    exact isEq_zero_iff.mpr h3

/-- C11: vector equality is symmetric for every tolerance. -/
theorem C11_vec_eq_symm (v w : Vec K) (eps : K) (hv : v.WF) (hw : w.WF) (hd : v.dim = w.dim) :
    v.eq w eps = w.eq v eps := by
  have hsym : ∀ x y : K, isEq x y eps = isEq y x eps := by
    intro x y
    unfold isEq relDiff
    rw [max_comm |x| |y|, ← neg_sub y x, neg_div, abs_neg]
  unfold Vec.eq
  rw [if_pos hd, if_pos hd.symm]
  congr 1
  rw [Bool.eq_iff_iff, List.all_eq_true, List.all_eq_true]
  have key : ∀ a b : Vec K, a.WF → b.WF →
      (∀ t ∈ merge2 a.ents b.ents, isEq (orZero t.2.1) (orZero t.2.2) eps = true) →
      ∀ t ∈ merge2 b.ents a.ents, isEq (orZero t.2.1) (orZero t.2.2) eps = true := by
    intro a b ha hb h t ht
    obtain ⟨h1, h2⟩ := merge2_mem hb.srt ha.srt ht
    rcases hm : at? (merge2 a.ents b.ents) t.1 with _ | s
    · rw [merge2_at ha.srt hb.srt] at hm
      obtain ⟨g1, g2⟩ := comb2_eq_none hm
      simp [g1, g2] at h2
    · have h3 := h (t.1, s) (mem_of_at? hm)
      rw [merge2_at ha.srt hb.srt] at hm
      obtain ⟨rfl, _⟩ := comb2_eq_some hm
      rw [h1, hsym]
      exact h3
  exact ⟨key v w hv hw, key w v hw hv⟩

theorem Mat.eqCol_sound (f s : List (Nat × K)) (hf : Srt f) (hs : Srt s)
    (h : Mat.eqCol 0 f s = true) (i : Nat) : valAt f i = valAt s i := by
  fun_induction Mat.eqCol (0 : K) f s with
  | case1 => rfl
  | case2 j a f ih =>
    simp only [Bool.and_eq_true] at h
    rw [valAt_cons, ih (srt_cons.mp hf).2 hs h.2]
    have := abs_nonpos_iff.mp (isZero_iff.mp h.1)
    split <;> simp [this]
  | case3 j b s ih =>
    simp only [Bool.and_eq_true] at h
    rw [valAt_cons, ← ih hf (srt_cons.mp hs).2 h.2]
    have := abs_nonpos_iff.mp (isZero_iff.mp h.1)
    split <;> simp [this]
  | case4 j a f b s ih =>
    simp only [Bool.and_eq_true] at h
    rw [valAt_cons, valAt_cons, ih (srt_cons.mp hf).2 (srt_cons.mp hs).2 h.2,
      isEq_zero_iff.mp h.1]
  | case5 k a f j b s hne ih =>
    simp only [Bool.and_eq_true] at h
    have h0 := abs_nonpos_iff.mp (isZero_iff.mp h.1)
    obtain ⟨hf1, hf2⟩ := srt_cons.mp hf
    have h2 := ih hf2 hs h.2
    rw [valAt_cons]
    by_cases hk : k = i
    · subst hk
      rw [if_pos rfl, h0, ← h2, valAt_of_lt hf1]
    · rw [if_neg hk, h2]

theorem Mat.eqCol_refl_of (f : List (Nat × K)) : Mat.eqCol 0 f f = true := by
  induction f with
  | nil => simp [Mat.eqCol]
  | cons e t ih =>
    obtain ⟨i, a⟩ := e
    rw [Mat.eqCol]
    simp [ih, isEq_zero_iff.mpr rfl]

/-- C11 (partial): for matrices, a reported equality is always true, and matrices with
equal values that store no explicit zeros are reported equal.  Missing from the full
claim: matrices storing explicit zeros, see `C11_mat_eq_violated`. -/
theorem C11_mat_eq_partial (m n : Mat K) (hm : m.WF) (hn : n.WF) (d1 : m.numRows = n.numRows)
    (d2 : m.numCols = n.numCols) :
    ∃ b, m.eq n 0 = some b ∧
      (b = true → ∀ i < m.numRows, ∀ j < m.numCols, m.value i j = n.value i j) ∧
      ((∀ j < m.numCols, (∀ e ∈ m.col j, e.2 ≠ 0) ∧ ∀ e ∈ n.col j, e.2 ≠ 0) →
        (∀ i < m.numRows, ∀ j < m.numCols, m.value i j = n.value i j) → b = true) := by
  unfold Mat.eq
  rw [if_pos ⟨d1, d2⟩]
  refine ⟨_, rfl, ?_, ?_⟩
  · intro h i _ j hj
    rw [List.all_eq_true] at h
    exact Mat.eqCol_sound _ _ (hm.srt j hj) (hn.srt j (by omega)) (h j (List.mem_range.mpr hj)) i
  · intro hnz h
    rw [List.all_eq_true]
    intro j hj
    rw [List.mem_range] at hj
    obtain ⟨z1, z2⟩ := hnz j hj
    have hs1 := hm.srt j hj
    have hs2 := hn.srt j (by omega)
    have : m.col j = n.col j := by
      apply srt_ext hs1 hs2
      intro k
      by_cases hk : k < m.numRows
      · have h1 := h k hk j hj
        unfold Mat.value valAt at h1
        rcases e1 : Sleqp.at? (m.col j) k with _ | a <;> rcases e2 : Sleqp.at? (n.col j) k with _ | b
        · rfl
        · rw [e1, e2] at h1
          exact absurd h1.symm (z2 _ (mem_of_at? e2))
        · rw [e1, e2] at h1
          exact absurd h1 (z1 _ (mem_of_at? e1))
        · rw [e1, e2] at h1
          simp at h1; rw [h1]
      · rw [at?_none_of_gt (hm.lt_rows j hj) (by omega),
          at?_none_of_gt (hn.lt_rows j (by omega)) (by omega)]
    rw [this]
    exact Mat.eqCol_refl_of _

/-- column vector `(0, 5)ᵀ` without explicit zero -/
def exE1 : Mat ℚ := ⟨2, 1, 1, 1, fun k => if k = 0 then 0 else 1, fun _ => 1, fun _ => 5⟩
/-- the same matrix storing the zero explicitly -/
def exE2 : Mat ℚ := ⟨2, 1, 2, 2, fun k => if k = 0 then 0 else 2, fun k => k, fun k => if k = 0 then 0 else 5⟩

/-- C11 violated by the code for matrices: two well formed matrices with equal values
are reported different, and the comparison is not symmetric. -/
theorem C11_mat_eq_violated :
    exE1.WF ∧ exE2.WF ∧ (∀ i < 2, exE1.value i 0 = exE2.value i 0) ∧
      exE1.eq exE2 0 = some false ∧ exE2.eq exE1 0 = some true := by
  have c1 : exE1.col 0 = [(1, 5)] := by simp [exE1, Mat.col]
  have c2 : exE2.col 0 = [(0, 0), (1, 5)] := by simp [exE2, Mat.col, List.range'_succ]
  refine ⟨?_, ?_, ?_, ?_, ?_⟩
  · refine ⟨rfl, ?_, rfl, le_rfl, ?_, ?_⟩ <;> intro j hj <;>
      (have : j = 0 := by simp [exE1] at hj; exact hj) <;> subst this
    · simp [exE1]
    · rw [c1]; simp [Srt]
    · rw [c1]; simp [exE1]
  · refine ⟨rfl, ?_, rfl, le_rfl, ?_, ?_⟩ <;> intro j hj <;>
      (have : j = 0 := by simp [exE2] at hj; exact hj) <;> subst this
    · simp [exE2]
    · rw [c2]; simp [Srt]
    · rw [c2]; simp [exE2]
  · intro i hi
    unfold Mat.value
    rw [c1, c2]
    interval_cases i <;> simp [valAt, at?]
  · have : exE1.numCols = 1 := rfl
    simp only [Mat.eq, this, List.range_succ, List.range_zero, List.nil_append, List.all_cons,
      List.all_nil, c1, c2]
    simp [exE1, exE2, Mat.eqCol, isZero]
  · have : exE2.numCols = 1 := rfl
    simp only [Mat.eq, this, List.range_succ, List.range_zero, List.nil_append, List.all_cons,
      List.all_nil, c1, c2]
    simp [exE1, exE2, Mat.eqCol, isZero, isEq_zero_iff.mpr]

end C11
end Sleqp
