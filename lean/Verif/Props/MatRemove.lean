import Verif.Props.Mat
import Verif.Props.Remove

/-! C07 for matrices (row/column deletion), C08 for scaling, C09 for popping a column. -/

namespace Sleqp

section Structural
variable {K : Type*}

theorem removeLoop_length_le (rem : List Nat) (off : Nat) (src : List (Nat × K)) :
    (Vec.removeLoop rem off src).length ≤ src.length := by
  fun_induction Vec.removeLoop rem off src <;> simp <;> omega

theorem keptCols_sublist (rem js : List Nat) : (Mat.keptCols rem js).Sublist js := by
  induction js generalizing rem with
  | nil => cases rem <;> simp [Mat.keptCols]
  | cons j js ih =>
    cases rem with
    | nil => simp [Mat.keptCols]
    | cons r rs =>
      unfold Mat.keptCols
      split
      · exact (ih rs).trans (List.sublist_cons_self _ _)
      · exact List.Sublist.cons_cons _ (ih (r :: rs))

theorem sorted_length_le {rem : List Nat} (hs : rem.Pairwise (· < ·)) {a k : Nat} (h1 : ∀ r ∈ rem, a ≤ r)
    (h2 : ∀ r ∈ rem, r < a + k) : rem.length ≤ k := by
  have hsub : rem ⊆ List.range' a k := fun r hr => by
    rw [List.mem_range'_1]; exact ⟨h1 r hr, h2 r hr⟩
  have hnd : rem.Nodup := hs.imp fun h => h.ne
  simpa using (hnd.subperm hsub).length_le

theorem keptCols_spec (rem : List Nat) (a k : Nat) (hs : rem.Pairwise (· < ·)) (h1 : ∀ r ∈ rem, a ≤ r)
    (h2 : ∀ r ∈ rem, r < a + k) :
    Mat.keptCols rem (List.range' a k) = (List.range' a (k - rem.length)).map (oldIdx rem) := by
  induction k generalizing rem a with
  | zero =>
    cases rem with
    | nil => simp [Mat.keptCols]
    | cons r rs => simp [Mat.keptCols]
  | succ k ih =>
    cases rem with
    | nil =>
      simp only [Mat.keptCols, List.length_nil, Nat.sub_zero]
      have : oldIdx [] = id := by funext i; rfl
      rw [this, List.map_id]
    | cons r rs =>
      rw [List.range'_succ]
      unfold Mat.keptCols
      have hr := h1 r (by simp)
      obtain ⟨p1, p2⟩ := List.pairwise_cons.mp hs
      by_cases hra : r ≤ a
      · rw [if_pos hra, ih rs (a + 1) p2 (fun x hx => by have := p1 x hx; omega)
          (fun x hx => by have := h2 x (by simp [hx]); omega)]
        simp only [List.length_cons, Nat.add_sub_add_right]
        rw [show List.range' (a + 1) (k - rs.length) = (List.range' a (k - rs.length)).map (1 + ·) by
          rw [List.map_add_range']; congr 1; omega, List.map_map]
        refine List.map_congr_left fun i hi => ?_
        have : a ≤ i := (List.mem_range'_1.mp hi).1
        simp [oldIdx, show r ≤ i by omega, Nat.add_comm]
      · have hlen : (r :: rs).length ≤ k := sorted_length_le hs (a := a + 1)
          (fun x hx => by
            rcases List.mem_cons.mp hx with rfl | hx
            · omega
            · have := p1 x hx; omega)
          (fun x hx => by have := h2 x hx; omega)
        rw [if_neg hra, ih (r :: rs) (a + 1) hs (fun x hx => by
            rcases List.mem_cons.mp hx with rfl | hx
            · omega
            · have := p1 x hx; omega) (fun x hx => by have := h2 x hx; omega)]
        rw [show k + 1 - (r :: rs).length = (k - (r :: rs).length) + 1 by omega, List.range'_succ]
        simp [oldIdx, hra]

/-- C07 for matrices: deleting the (increasing) row indices `rows` and column indices
`cols` succeeds within the reserved capacity and gives a well formed matrix whose
entry `(i, j)` is the entry of the source in the `i`-th surviving row and the `j`-th
surviving column; nothing else is stored. -/
theorem C07_mat_remove_entries (source target : Mat K) (cols rows : List Nat) (hw : source.WF)
    (hc : cols.Pairwise (· < ·)) (hc2 : ∀ c ∈ cols, c < source.numCols)
    (hr : rows.Pairwise (· < ·)) (hr2 : ∀ r ∈ rows, r < source.numRows)
    (d1 : source.numCols = target.numCols + cols.length)
    (d2 : source.numRows = target.numRows + rows.length) :
    ∃ m, source.removeEntries target cols rows = some m ∧ m.WF ∧ m.numRows = target.numRows ∧
      m.numCols = target.numCols ∧
      ∀ i j, j < m.numCols → m.at? i j = source.at? (oldIdx rows i) (oldIdx cols j) := by
  have hk : Mat.keptCols cols (List.range source.numCols) =
      (List.range target.numCols).map (oldIdx cols) := by
    rw [List.range_eq_range', keptCols_spec cols 0 _ hc (by simp) (by simpa using hc2), d1,
      List.range_eq_range', Nat.add_sub_cancel]
  have hlt : ∀ j < target.numCols, oldIdx cols j < source.numCols := fun j hj =>
    oldIdx_lt (by omega)
  have hsp := fun j (hj : j < source.numCols) =>
    Vec.removeLoop_spec rows 0 (source.col j) hr (hw.srt j hj) (by simp) (by simp)
  have hrow : ∀ j < source.numCols, ∀ e ∈ Vec.removeLoop rows 0 (source.col j), e.1 < target.numRows := by
    intro j hj e he
    have h1 := ((hsp j hj).2 e.1 e.2).mp he
    have h2 := hw.lt_rows j hj _ h1
    simp only [Nat.add_zero] at h2
    exact oldIdx_lt' hr hr2 d2 h2
  obtain ⟨m, h1, h2, h3, h4, _, h5⟩ := Mat.assemble_wf ((target.reserve source.nnz).clear)
    ((Mat.keptCols cols (List.range source.numCols)).map fun j => Vec.removeLoop rows 0 (source.col j))
    (by simp [Mat.clear]) (by simp [Mat.clear]) (by simp [hk, Mat.clear, Mat.reserve])
    (by
      rw [hk]
      intro c hc
      simp only [List.map_map, List.mem_map, List.mem_range, Function.comp] at hc
      obtain ⟨j, hj, rfl⟩ := hc
      exact (hsp _ (hlt j hj)).1)
    (by
      rw [hk]
      intro c hc
      simp only [List.map_map, List.mem_map, List.mem_range, Function.comp] at hc
      obtain ⟨j, hj, rfl⟩ := hc
      exact hrow _ (hlt j hj))
    (by
      refine le_trans ?_ (le_max_right target.cap source.nnz)
      rw [List.map_map]
      refine le_trans (((keptCols_sublist cols (List.range source.numCols)).map _).sum_le_sum (by simp)) ?_
      rw [← hw.sum_col]
      exact List.sum_le_sum fun j _ => removeLoop_length_le _ _ _)
  refine ⟨m, ?_, h2, h3, h4, fun i j hj => ?_⟩
  · unfold Mat.removeEntries; rw [if_pos ⟨d1, d2⟩, h1]
  · have hj' : j < target.numCols := by rw [h4] at hj; exact hj
    unfold Mat.at?
    rw [h5 j (by rw [hk]; simpa using hj')]
    simp only [hk, List.getElem_map, List.getElem_range]
    obtain ⟨s, e⟩ := hsp _ (hlt j hj')
    refine at?_congr s (hw.srt _ (hlt j hj')) fun v => ?_
    simpa using e i v

/-- Deleting no rows is the column deletion. -/
theorem removeLoop_nil (off : Nat) (src : List (Nat × K)) (h : off = 0) : Vec.removeLoop [] off src = src := by
  subst h
  induction src with
  | nil => simp [Vec.removeLoop]
  | cons e t ih => obtain ⟨i, v⟩ := e; simp [Vec.removeLoop, ih]

/-- C07: deleting columns only. -/
theorem C07_mat_remove_cols (source target : Mat K) (cols : List Nat) (hw : source.WF)
    (hc : cols.Pairwise (· < ·)) (hc2 : ∀ c ∈ cols, c < source.numCols)
    (d1 : source.numCols = target.numCols + cols.length) (d2 : source.numRows = target.numRows) :
    ∃ m, source.removeCols target cols = some m ∧ m.WF ∧ m.numRows = target.numRows ∧
      m.numCols = target.numCols ∧ ∀ i j, j < m.numCols → m.at? i j = source.at? i (oldIdx cols j) := by
  obtain ⟨m, h1, h2⟩ := C07_mat_remove_entries source target cols [] hw hc hc2 List.Pairwise.nil (by simp) d1
    (by simpa using d2)
  refine ⟨m, ?_, h2⟩
  rw [← h1]
  unfold Mat.removeEntries Mat.removeCols
  simp only [removeLoop_nil _ _ rfl, List.length_nil, Nat.add_zero]

/-- C07: deleting rows only. -/
theorem C07_mat_remove_rows (source target : Mat K) (rows : List Nat) (hw : source.WF)
    (hr : rows.Pairwise (· < ·)) (hr2 : ∀ r ∈ rows, r < source.numRows)
    (d1 : source.numCols = target.numCols) (d2 : source.numRows = target.numRows + rows.length) :
    ∃ m, source.removeRows target rows = some m ∧ m.WF ∧ m.numRows = target.numRows ∧
      m.numCols = target.numCols ∧ ∀ i j, j < m.numCols → m.at? i j = source.at? (oldIdx rows i) j := by
  obtain ⟨m, h1, h2⟩ := C07_mat_remove_entries source target [] rows hw List.Pairwise.nil (by simp) hr hr2
    (by simpa using d1) d2
  refine ⟨m, ?_, h2⟩
  rw [← h1]
  unfold Mat.removeEntries Mat.removeRows
  simp only [Mat.keptCols, List.length_nil, Nat.add_zero]

/-- non-vacuity: column 0 of the one-by-one matrix `exA` can be deleted -/
example : ∃ m, exA.removeCols (Mat.create 1 0 0 (fun _ => 0) (fun _ => 0)) [0] = some m ∧ m.WF := by
  obtain ⟨m, h1, h2, _⟩ := C07_mat_remove_cols exA (Mat.create 1 0 0 (fun _ => 0) (fun _ => 0)) [0] exA_wf
    (by simp) (by simp [exA]) rfl rfl
  exact ⟨m, h1, h2⟩

/-- C09: popping the column that was pushed last empties it, keeps all columns before
it, and leaves a well formed matrix, if no later column has entries. -/
theorem C09_pop_col (m : Mat K) (j : Nat) (hw : m.WF) (hj : j + 1 = m.numCols) :
    ∃ m', m.popCol j = some m' ∧ m'.WF ∧ m'.col j = [] ∧ (∀ k < j, m'.col k = m.col k) ∧
      m'.numRows = m.numRows ∧ m'.numCols = m.numCols := by
  have hcol : ∀ k < j, ({ m with ptr := setAt m.ptr (j + 1) (m.ptr j), nnz := m.nnz - (m.ptr (j + 1) - m.ptr j) } : Mat K).col k =
      m.col k := by
    intro k hk
    unfold Mat.col
    simp only [setAt_ne _ _ (show k ≠ j + 1 by omega), setAt_ne _ _ (show k + 1 ≠ j + 1 by omega)]
  have hcj : ({ m with ptr := setAt m.ptr (j + 1) (m.ptr j), nnz := m.nnz - (m.ptr (j + 1) - m.ptr j) } : Mat K).col j = [] := by
    unfold Mat.col
    simp [setAt_ne _ _ (show j ≠ j + 1 by omega)]
  have hle := hw.ptr_mono j (by omega)
  have hlast := hw.ptr_last
  rw [← hj] at hlast
  refine ⟨_, by unfold Mat.popCol; rw [if_pos (by omega)], ⟨?_, ?_, ?_, ?_, ?_, ?_⟩, hcj, hcol, rfl, rfl⟩
  · simp only [setAt_ne _ _ (show 0 ≠ j + 1 by omega)]; exact hw.ptr_zero
  · intro k hk
    rcases Nat.lt_or_ge k j with h | h
    · simp only [setAt_ne _ _ (show k ≠ j + 1 by omega), setAt_ne _ _ (show k + 1 ≠ j + 1 by omega)]
      exact hw.ptr_mono k (by omega)
    · have : k = j := by simp only at hk; omega
      subst this
      simp [setAt_ne _ _ (show k ≠ k + 1 by omega)]
  · simp only [← hj, setAt_same]; omega
  · exact le_trans (Nat.sub_le _ _) hw.le_cap
  · intro k hk
    rcases Nat.lt_or_ge k j with h | h
    · rw [hcol k h]; exact hw.srt k (by omega)
    · have : k = j := by simp only at hk; omega
      subst this
      rw [hcj]; simp [Srt]
  · intro k hk
    rcases Nat.lt_or_ge k j with h | h
    · rw [hcol k h]; exact hw.lt_rows k (by omega)
    · have : k = j := by simp only at hk; omega
      subst this
      rw [hcj]; simp

end Structural

section Numeric
variable {K : Type*} [Field K] [LinearOrder K]

/-- C08: scaling a matrix scales every entry and keeps it well formed. -/
theorem C08_scale (m : Mat K) (f : K) (hw : m.WF) :
    (m.scale f).WF ∧ (m.scale f).numRows = m.numRows ∧ (m.scale f).numCols = m.numCols ∧
      ∀ i j, j < m.numCols → (m.scale f).value i j = f * m.value i j := by
  unfold Mat.scale
  split
  · rename_i hf
    refine ⟨Mat.clear_wf m, rfl, rfl, fun i j hj => ?_⟩
    have : m.clear.col j = [] := by
      unfold Mat.col Mat.clear
      simp [show j ≤ m.numCols by omega, show j + 1 ≤ m.numCols by omega]
    unfold Mat.value
    rw [this, hf]
    simp [valAt, Sleqp.at?]
  · have hcol : ∀ j < m.numCols, ({ m with val := fun k => if k < m.nnz then m.val k * f else m.val k } : Mat K).col j =
        (m.col j).map fun e => (e.1, e.2 * f) := by
      intro j hj
      unfold Mat.col
      simp only [List.map_map]
      refine List.map_congr_left fun k hk => ?_
      have h1 := hw.ptr_le_nnz (show j + 1 ≤ m.numCols by omega)
      have h2 := hw.ptr_mono j hj
      have h3 := List.mem_range'_1.mp hk
      simp [show k < m.nnz by omega]
    refine ⟨⟨hw.ptr_zero, hw.ptr_mono, hw.ptr_last, hw.le_cap, fun j hj => ?_, fun j hj e he => ?_⟩, rfl, rfl,
      fun i j hj => ?_⟩
    · rw [hcol j hj]; exact srt_map_snd _ (hw.srt j hj)
    · rw [hcol j hj] at he
      obtain ⟨x, hx, rfl⟩ := List.mem_map.mp he
      exact hw.lt_rows j hj x hx
    · unfold Mat.value
      rw [hcol j hj]
      generalize m.col j = l
      induction l with
      | nil => simp [valAt, Sleqp.at?]
      | cons e t ih =>
        unfold valAt at ih ⊢
        simp only [List.map_cons, Sleqp.at?]
        split
        · simp [mul_comm]
        · exact ih

end Numeric

end Sleqp
