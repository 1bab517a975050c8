import Verif.Model.MatPrint
import Verif.Props.Dump

/-! C114: matrices printed in readable form. -/

namespace Sleqp

variable {K : Type*} [Field K] [LinearOrder K] [FloorRing K] [IsStrictOrderedRing K]

theorem printE6_close (x : K) : |printE6 x - x| ≤ |x| / (2 * 10 ^ 6) := by
  by_cases hx : x = 0
  · subst hx
    rw [show printE6 (0 : K) = 0 from if_pos rfl]
    simp
  · have hpos : 0 < |x| := abs_pos.mpr hx
    have h10 : (0 : K) < 10 := by norm_num
    set e := Int.log 10 |x| with he
    have hle : (10 : K) ^ e ≤ |x| := by
      have := Int.zpow_log_le_self (b := 10) (by decide) hpos
      exact_mod_cast this
    have h := abs_sub_round (x * 10 ^ (6 - e))
    have hq : (0 : K) < 10 ^ (e - 6) := zpow_pos h10 _
    have hmul : (10 : K) ^ (6 - e) * 10 ^ (e - 6) = 1 := by
      rw [← zpow_add₀ h10.ne']
      simp
    have e1 : printE6 x - x = -((x * 10 ^ (6 - e) - (round (x * 10 ^ (6 - e)) : K)) * 10 ^ (e - 6)) := by
      unfold printE6
      rw [if_neg hx, ← he]
      linear_combination x * hmul
    rw [e1, abs_neg, abs_mul, abs_of_pos hq]
    have h3 : (10 : K) ^ (e - 6) = 10 ^ e / 10 ^ 6 := by
      rw [zpow_sub₀ h10.ne']
      norm_cast
    calc |x * 10 ^ (6 - e) - (round (x * 10 ^ (6 - e)) : K)| * 10 ^ (e - 6)
        ≤ 1 / 2 * 10 ^ (e - 6) := mul_le_mul_of_nonneg_right h hq.le
      _ = 10 ^ e / (2 * 10 ^ 6) := by rw [h3]; ring
      _ ≤ |x| / (2 * 10 ^ 6) := div_le_div_of_nonneg_right hle (by norm_num)

omit [IsStrictOrderedRing K] in
theorem print_ok {m : Mat K} (hm : m.WF) {cof : Nat → Nat} (hc : ∀ k < m.nnz, cof k < m.numCols ∧ m.ptr (cof k) ≤ k ∧ k < m.ptr (cof k + 1)) :
    m.print = some (m.numRows, m.numCols, m.nnz, (List.range m.nnz).map fun k => (m.row k, cof k, printE6 (m.val k))) := by
  obtain ⟨s, s1, s2⟩ := foldlM_range_inv (f := m.printBody) m.nnz (s0 := (0, []))
    (P := fun t s => s.1 ≤ m.numCols ∧ m.ptr s.1 ≤ t ∧ s.2 = (List.range t).map fun k => (m.row k, cof k, printE6 (m.val k)))
    ⟨Nat.zero_le _, by simp [hm.ptr_zero], rfl⟩
    (by
      rintro t ht ⟨c, v⟩ ⟨h1, h2, h3⟩
      simp only at h1 h2 h3
      obtain ⟨c', a1, a2, a3, a4, a5⟩ := advanceCol_spec (m := m) t (m.numCols - c) c (by omega) h2 (by rw [hm.ptr_last]; exact ht)
      obtain ⟨b1, b2, b3⟩ := hc t ht
      have hcc : c' = cof t := col_unique hm a3 b1 a4 a5 b2 b3
      refine ⟨(c', v ++ [(m.row t, c', printE6 (m.val t))]), ?_, a3.le, Nat.le_succ_of_le a4, ?_⟩
      · unfold Mat.printBody
        rw [a1, Option.bind_some, if_pos ⟨a4, a5⟩]
      · show v ++ _ = _
        rw [h3, List.range_succ, List.map_append, hcc]
        rfl)
  unfold Mat.print
  rw [s1, Option.map_some, s2.2.2]

/-- C114: a valid matrix is printed without a failed assertion or an access past the column pointers.  The header has its sizes; there is one line for
each stored entry, no two of them for the same position, each for a position of the matrix and with the value there up to a relative error of half a
unit in the sixth digit.  Positions without a line have the value zero. -/
theorem C114_matrix_print {m : Mat K} (hm : m.WF) : ∃ lines, m.print = some (m.numRows, m.numCols, m.nnz, lines) ∧ lines.length = m.nnz ∧
    lines.Pairwise (fun e f => ¬ (e.1 = f.1 ∧ e.2.1 = f.2.1)) ∧
    (∀ i j y, (i, j, y) ∈ lines → i < m.numRows ∧ j < m.numCols ∧ |y - m.value i j| ≤ |m.value i j| / (2 * 10 ^ 6)) ∧
    ∀ i j, j < m.numCols → (∀ y, (i, j, y) ∉ lines) → m.value i j = 0 := by
  classical
  have hex : ∀ k, ∃ j, k < m.nnz → j < m.numCols ∧ m.ptr j ≤ k ∧ k < m.ptr (j + 1) := fun k => by
    by_cases hk : k < m.nnz
    · obtain ⟨j, h1, h2, h3⟩ := exists_col hm hk
      exact ⟨j, fun _ => ⟨h1, h2, h3⟩⟩
    · exact ⟨0, fun h => absurd h hk⟩
  choose cof hc using hex
  refine ⟨_, print_ok hm hc, by simp, ?_, ?_, ?_⟩
  · rw [List.pairwise_map, List.pairwise_iff_getElem]
    intro a b ha hb hab
    simp only [List.length_range] at ha hb
    simp only [List.getElem_range]
    rintro ⟨h1, h2⟩
    obtain ⟨a1, a2, a3⟩ := hc a ha
    obtain ⟨b1, b2, b3⟩ := hc b hb
    have := row_lt_row hm a1 a2 hab (by rw [h2]; exact b3)
    omega
  · intro i j y h
    simp only [List.mem_map, List.mem_range, Prod.mk.injEq] at h
    obtain ⟨k, hk, rfl, rfl, rfl⟩ := h
    obtain ⟨a1, a2, a3⟩ := hc k hk
    refine ⟨row_lt hm a1 a2 a3, a1, ?_⟩
    have hin : (m.row k, m.val k) ∈ m.col (cof k) := by
      unfold Mat.col
      refine List.mem_map.mpr ⟨k, ?_, rfl⟩
      rw [List.mem_range'_1]
      omega
    have hv : m.value (m.row k) (cof k) = m.val k := by
      unfold Mat.value valAt
      rw [at?_of_mem (hm.srt _ a1) hin]
      rfl
    rw [hv]
    exact printE6_close _
  · intro i j hj h
    cases hat : m.at? i j with
    | some x =>
      have hx : (i, x) ∈ m.col j := mem_of_at? hat
      unfold Mat.col at hx
      obtain ⟨k, hk, hk2⟩ := List.mem_map.mp hx
      rw [List.mem_range'_1] at hk
      have hkn : k < m.nnz := by
        have := hm.ptr_le_nnz (j := j + 1) (by omega)
        omega
      obtain ⟨a1, a2, a3⟩ := hc k hkn
      have hcj : cof k = j := col_unique hm a1 hj a2 a3 hk.1 (by omega)
      refine absurd ?_ (h (printE6 (m.val k)))
      refine List.mem_map.mpr ⟨k, List.mem_range.mpr hkn, ?_⟩
      rw [hcj, show m.row k = i from congrArg Prod.fst hk2]
    | none =>
      unfold Mat.value valAt
      rw [show at? (m.col j) i = none from hat]
      rfl

/-- a matrix of two columns, the first of which is empty, with an entry which is lost in the form of the Matrix Market -/
def exPrintMat : Mat ℚ := ⟨2, 2, 2, 2, fun k => if k = 2 then 2 else 0, id, fun k => ((k : ℚ) + 1) / 10000000⟩

example : ∃ lines y, exPrintMat.print = some (2, 2, 2, lines) ∧ (0, 1, y) ∈ lines ∧ 0 < y := by
  obtain ⟨l, h, -, -, h3, h4⟩ := C114_matrix_print (m := exPrintMat) ((C09_isValid_iff _ rfl (by decide)).mp (by decide +kernel))
  have hv : exPrintMat.value 0 1 = 1 / 10000000 := by decide +kernel
  by_contra hn
  refine absurd (h4 0 1 (by decide) fun y hy => hn ⟨l, y, h, hy, ?_⟩) (by rw [hv]; norm_num)
  have := (h3 0 1 y hy).2.2
  rw [hv, abs_of_pos (by norm_num : (0 : ℚ) < 1 / 10000000)] at this
  have := (abs_le.mp this).1
  norm_num at this ⊢
  linarith

end Sleqp
