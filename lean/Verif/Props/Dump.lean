import Verif.Spec.Dump
import Verif.Lemmas.Scale
import Verif.Props.Vec
import Mathlib.Tactic.Linarith
import Mathlib.Tactic.NormNum
import Mathlib.Tactic.Ring
import Mathlib.Tactic.FieldSimp
import Mathlib.Tactic.LinearCombination
import Verif.Props.Mat

/-!
C114: vectors and matrices written to files can be read back.
-/

namespace Sleqp

variable {K : Type*} [Field K] [LinearOrder K] [FloorRing K] [IsStrictOrderedRing K]

theorem printF_close (x : K) : |printF x - x| ≤ 1 / 2 / 10 ^ 6 := by
  have h := abs_sub_round (x * 10 ^ 6)
  have h10 : (0 : K) < 10 ^ 6 := by norm_num
  have e : printF x - x = -((x * 10 ^ 6 - (round (x * 10 ^ 6) : K)) / 10 ^ 6) := by
    unfold printF
    field_simp
    ring
  rw [e, abs_neg, abs_div, abs_of_pos h10]
  exact div_le_div_of_nonneg_right h h10.le

theorem printE14_zero : printE14 (0 : K) = 0 := if_pos rfl

theorem printE14_close (x : K) : |printE14 x - x| ≤ |x| / (2 * 10 ^ 14) := by
  by_cases hx : x = 0
  · subst hx
    rw [printE14_zero]
    simp
  · have hpos : 0 < |x| := abs_pos.mpr hx
    have h10 : (0 : K) < 10 := by norm_num
    set e := Int.log 10 |x| with he
    have hle : (10 : K) ^ e ≤ |x| := by
      have := Int.zpow_log_le_self (b := 10) (by decide) hpos
      exact_mod_cast this
    have h := abs_sub_round (x * 10 ^ (14 - e))
    have hq : (0 : K) < 10 ^ (e - 14) := zpow_pos h10 _
    have hmul : (10 : K) ^ (14 - e) * 10 ^ (e - 14) = 1 := by
      rw [← zpow_add₀ h10.ne']
      simp
    have e1 : printE14 x - x = -((x * 10 ^ (14 - e) - (round (x * 10 ^ (14 - e)) : K)) * 10 ^ (e - 14)) := by
      unfold printE14
      rw [if_neg hx, ← he]
      linear_combination x * hmul
    rw [e1, abs_neg, abs_mul, abs_of_pos hq]
    have h3 : (10 : K) ^ (e - 14) = 10 ^ e / 10 ^ 14 := by
      rw [zpow_sub₀ h10.ne']
      norm_cast
    calc |x * 10 ^ (14 - e) - (round (x * 10 ^ (14 - e)) : K)| * 10 ^ (e - 14)
        ≤ 1 / 2 * 10 ^ (e - 14) := mul_le_mul_of_nonneg_right h hq.le
      _ = 10 ^ e / (2 * 10 ^ 14) := by rw [h3]; ring
      _ ≤ |x| / (2 * 10 ^ 14) := div_le_div_of_nonneg_right hle (by norm_num)

omit [IsStrictOrderedRing K] in
theorem dump_ok {m : Mat K} (hm : m.WF) {cof : Nat → Nat} (hc : ∀ k < m.nnz, cof k < m.numCols ∧ m.ptr (cof k) ≤ k ∧ k < m.ptr (cof k + 1)) :
    m.dump = some ⟨m.numRows, m.numCols, m.nnz, (List.range m.nnz).map fun k => (m.row k + 1, cof k + 1, printF (m.val k))⟩ := by
  obtain ⟨s, s1, s2⟩ := foldlM_range_inv (f := m.dumpBody) m.nnz (s0 := (0, []))
    (P := fun t s => s.1 ≤ m.numCols ∧ m.ptr s.1 ≤ t ∧ s.2 = (List.range t).map fun k => (m.row k + 1, cof k + 1, printF (m.val k)))
    ⟨Nat.zero_le _, by simp [hm.ptr_zero], rfl⟩
    (by
      rintro t ht ⟨c, v⟩ ⟨h1, h2, h3⟩
      simp only at h1 h2 h3
      obtain ⟨c', a1, a2, a3, a4, a5⟩ := advanceCol_spec (m := m) t (m.numCols - c) c (by omega) h2 (by rw [hm.ptr_last]; exact ht)
      obtain ⟨b1, b2, b3⟩ := hc t ht
      have hcc : c' = cof t := col_unique hm a3 b1 a4 a5 b2 b3
      refine ⟨(c', v ++ [(m.row t + 1, c' + 1, printF (m.val t))]), ?_, a3.le, Nat.le_succ_of_le a4, ?_⟩
      · unfold Mat.dumpBody
        rw [a1]
        rfl
      · show v ++ _ = _
        rw [h3, List.range_succ, List.map_append, hcc]
        rfl)
  unfold Mat.dump
  rw [s1, Option.map_some, s2.2.2]

theorem row_lt_row {K : Type*} {m : Mat K} (hm : m.WF) {j k l : Nat} (hj : j < m.numCols) (h1 : m.ptr j ≤ k) (h2 : k < l) (h3 : l < m.ptr (j + 1)) :
    m.row k < m.row l := by
  have h := hm.srt j hj
  unfold Srt Mat.col at h
  rw [List.pairwise_map, List.pairwise_iff_getElem] at h
  have := h (k - m.ptr j) (l - m.ptr j) (by rw [List.length_range']; omega) (by rw [List.length_range']; omega) (by omega)
  simp only [List.getElem_range'] at this
  rw [show m.ptr j + 1 * (k - m.ptr j) = k by omega, show m.ptr j + 1 * (l - m.ptr j) = l by omega] at this
  exact this

/-- C114 (part): a matrix written to a file can be read back: the file is proper, has the sizes of the matrix, and the
value at each position is that of the matrix up to half a unit in the sixth digit after the decimal point.  Missing:
small values (see `C114_small_violated`). -/
theorem C114_matrix_partial {m : Mat K} (hm : m.WF) : ∃ f, m.dump = some f ∧ f.Proper ∧ f.numRows = m.numRows ∧
    f.numCols = m.numCols ∧ f.count = m.nnz ∧
    ∀ i < m.numRows, ∀ j < m.numCols, ∃ y, f.Value i j y ∧ (∀ z, f.Value i j z → z = y) ∧ |y - m.value i j| ≤ 1 / 2 / 10 ^ 6 := by
  classical
  have hex : ∀ k, ∃ j, k < m.nnz → j < m.numCols ∧ m.ptr j ≤ k ∧ k < m.ptr (j + 1) := fun k => by
    by_cases hk : k < m.nnz
    · obtain ⟨j, h1, h2, h3⟩ := exists_col hm hk
      exact ⟨j, fun _ => ⟨h1, h2, h3⟩⟩
    · exact ⟨0, fun h => absurd h hk⟩
  choose cof hc using hex
  have hd := dump_ok hm hc
  have hdist : ∀ k l, k < l → l < m.nnz → ¬ (m.row k = m.row l ∧ cof k = cof l) := by
    rintro k l hkl hl ⟨h1, h2⟩
    obtain ⟨a1, a2, a3⟩ := hc k (by omega)
    obtain ⟨b1, b2, b3⟩ := hc l hl
    have := row_lt_row hm a1 a2 hkl (by rw [h2]; exact b3)
    omega
  have hmem : ∀ i j y, (i + 1, j + 1, y) ∈ (List.range m.nnz).map (fun k => (m.row k + 1, cof k + 1, printF (m.val k))) ↔
      ∃ k < m.nnz, m.row k = i ∧ cof k = j ∧ printF (m.val k) = y := by
    intro i j y
    simp only [List.mem_map, List.mem_range, Prod.mk.injEq, Nat.add_right_cancel_iff]
  have huniq : ∀ i j y z, (i + 1, j + 1, y) ∈ (List.range m.nnz).map (fun k => (m.row k + 1, cof k + 1, printF (m.val k))) →
      (i + 1, j + 1, z) ∈ (List.range m.nnz).map (fun k => (m.row k + 1, cof k + 1, printF (m.val k))) → y = z := by
    intro i j y z h1 h2
    obtain ⟨k, k1, k2, k3, k4⟩ := (hmem i j y).mp h1
    obtain ⟨l, l1, l2, l3, l4⟩ := (hmem i j z).mp h2
    rcases lt_trichotomy k l with h | h | h
    · exact absurd ⟨by omega, by omega⟩ (hdist k l h l1)
    · rw [← k4, ← l4, h]
    · exact absurd ⟨by omega, by omega⟩ (hdist l k h k1)
  refine ⟨_, hd, ⟨by simp, ?_, ?_⟩, rfl, rfl, rfl, fun i hi j hj => ?_⟩
  · intro e he
    simp only [List.mem_map, List.mem_range] at he
    obtain ⟨k, hk, rfl⟩ := he
    obtain ⟨a1, a2, a3⟩ := hc k hk
    have := row_lt hm a1 a2 a3
    refine ⟨?_, ?_, ?_, ?_⟩ <;> simp only <;> omega
  · rw [List.pairwise_map, List.pairwise_iff_getElem]
    intro a b ha hb hab
    simp only [List.length_range] at ha hb
    simp only [List.getElem_range, Nat.add_right_cancel_iff]
    exact hdist a b hab hb
  · cases hat : m.at? i j with
    | some x =>
      have hx : (i, x) ∈ m.col j := mem_of_at? hat
      unfold Mat.col at hx
      obtain ⟨k, hk, hk2⟩ := List.mem_map.mp hx
      rw [List.mem_range'_1] at hk
      have hkn : k < m.nnz := by
        have := hm.ptr_le_nnz (j := j + 1) (by omega)
        omega
      obtain ⟨a1, a2, a3⟩ := hc k hkn
      have hcj : cof k = j := col_unique hm a1 hj a2 a3 hk.1 (by omega)
      have hl := (hmem i j (printF x)).mpr ⟨k, hkn, congrArg Prod.fst hk2, hcj, congrArg (fun e : Nat × K => printF e.2) hk2⟩
      refine ⟨printF x, .inl hl, ?_, ?_⟩
      · rintro z (hz | ⟨_, hz⟩)
        · exact huniq i j z _ hz hl
        · exact absurd hl (hz _)
      · have hv : m.value i j = x := by
          unfold Mat.value valAt
          rw [show at? (m.col j) i = some x from hat]
          rfl
        rw [hv]
        exact printF_close x
    | none =>
      have hno : ∀ x, (i + 1, j + 1, x) ∉ (List.range m.nnz).map (fun k => (m.row k + 1, cof k + 1, printF (m.val k))) := by
        intro x hx
        obtain ⟨k, k1, k2, k3, k4⟩ := (hmem i j x).mp hx
        obtain ⟨a1, a2, a3⟩ := hc k k1
        have hin : (i, m.val k) ∈ m.col j := by
          unfold Mat.col
          refine List.mem_map.mpr ⟨k, ?_, by rw [k2]⟩
          rw [List.mem_range'_1]
          rw [k3] at a2 a3
          omega
        have := at?_of_mem (hm.srt j hj) hin
        rw [show at? (m.col j) i = none from hat] at this
        cases this
      refine ⟨0, .inr ⟨rfl, hno⟩, ?_, ?_⟩
      · rintro z (hz | ⟨hz, _⟩)
        · exact absurd hz (hno z)
        · exact hz
      · have hv : m.value i j = 0 := by
          unfold Mat.value valAt
          rw [show at? (m.col j) i = none from hat]
          rfl
        rw [hv, sub_zero, abs_zero]
        norm_num

omit [IsStrictOrderedRing K] in
theorem dumpLines_spec (n : Nat) : ∀ (i : Nat) (l : List (Nat × K)), Srt l → (∀ e ∈ l, i ≤ e.1) →
    (dumpLines n i l).length = n ∧ ∀ k < n, (dumpLines n i l)[k]? = some (printE14 (valAt l (i + k))) := by
  induction n with
  | zero => exact fun i l _ _ => ⟨by simp [dumpLines], fun k hk => absurd hk (Nat.not_lt_zero _)⟩
  | succ n ih =>
    intro i l hs hl
    cases l with
    | nil =>
      obtain ⟨h1, h2⟩ := ih (i + 1) [] hs (by simp)
      refine ⟨by simp [dumpLines, h1], fun k hk => ?_⟩
      have hz : ∀ q, printE14 (valAt ([] : List (Nat × K)) q) = 0 := fun q => if_pos rfl
      cases k with
      | zero =>
        simp only [dumpLines, List.getElem?_cons_zero]
        rw [hz]
      | succ k =>
        have := h2 k (by omega)
        simp only [dumpLines, List.getElem?_cons_succ]
        rw [this, hz, hz]
    | cons e l =>
      have hs' : Srt l := (List.pairwise_cons.mp hs).2
      have hgt : ∀ x ∈ l, e.1 < x.1 := (List.pairwise_cons.mp hs).1
      by_cases he : e.1 = i
      · obtain ⟨h1, h2⟩ := ih (i + 1) l hs' fun x hx => by have := hgt x hx; omega
        simp only [dumpLines, if_pos he]
        refine ⟨by simp [h1], fun k hk => ?_⟩
        cases k with
        | zero =>
          rw [List.getElem?_cons_zero]
          unfold valAt
          rw [at?_cons, if_pos (by omega)]
          rfl
        | succ k =>
          rw [List.getElem?_cons_succ, h2 k (by omega)]
          unfold valAt
          rw [at?_cons, if_neg (by omega), show i + 1 + k = i + (k + 1) by omega]
      · have hei : i < e.1 := lt_of_le_of_ne (hl e (by simp)) (Ne.symm he)
        obtain ⟨h1, h2⟩ := ih (i + 1) (e :: l) hs fun x hx => by
          rcases List.mem_cons.mp hx with rfl | hx
          · omega
          · have := hgt x hx; omega
        simp only [dumpLines, if_neg he]
        refine ⟨by simp [h1], fun k hk => ?_⟩
        cases k with
        | zero =>
          rw [List.getElem?_cons_zero]
          have : at? (e :: l) (i + 0) = none := at?_none_of_lt fun x hx => by
            rcases List.mem_cons.mp hx with rfl | hx
            · omega
            · have := hgt x hx; omega
          unfold valAt
          rw [this]
          exact congrArg some (if_pos rfl).symm
        | succ k =>
          rw [List.getElem?_cons_succ, h2 k (by omega), show i + 1 + k = i + (k + 1) by omega]

/-- C114: a vector written to a file can be read back: there is one line for each component, with its value up to a
relative error of half a unit in the 14th digit. -/
theorem C114_vector {v : Vec K} (hv : v.WF) : v.dump.length = v.dim ∧
    ∀ i < v.dim, ∃ y, v.dump[i]? = some y ∧ |y - v.value i| ≤ |v.value i| / (2 * 10 ^ 14) := by
  obtain ⟨h1, h2⟩ := dumpLines_spec v.dim 0 v.ents hv.srt fun _ _ => Nat.zero_le _
  refine ⟨h1, fun i hi => ⟨_, h2 i hi, ?_⟩⟩
  rw [Nat.zero_add]
  exact printE14_close _

/-- C114: the printed form of a vector has one line for each stored entry, with its index and its value up to the same
relative error. -/
theorem C114_print {v : Vec K} : v.print.1 = v.dim ∧ v.print.2.1 = v.print.2.2.length ∧
    v.print.2.2.map Prod.fst = v.ents.map Prod.fst ∧
    ∀ (k : Nat) (e : Nat × K), v.ents[k]? = some e → ∃ y, v.print.2.2[k]? = some (e.1, y) ∧ |y - e.2| ≤ |e.2| / (2 * 10 ^ 14) := by
  refine ⟨rfl, by simp [Vec.print], by simp [Vec.print, Function.comp_def], fun k e he => ⟨printE14 e.2, ?_, printE14_close _⟩⟩
  simp [Vec.print, he]

/-! ### Violations -/

/-- A matrix is written with six digits after the decimal point: the entry 1/10000000 is written as zero, although it
would have all digits in the form used for vectors. -/
theorem C114_small_violated : ¬ ∀ (m : Mat ℚ) (f : MMFile ℚ) (i j : Nat) (y : ℚ), m.WF → m.dump = some f → i < m.numRows →
    j < m.numCols → f.Value i j y → |y - m.value i j| ≤ |m.value i j| / 2 := by
  intro h
  have hw : (⟨1, 1, 1, 1, fun k => k, fun _ => 0, fun _ => 1 / 10000000⟩ : Mat ℚ).WF :=
    (C09_isValid_iff _ rfl (by decide)).mp (by decide +kernel)
  have hd : (⟨1, 1, 1, 1, fun k => k, fun _ => 0, fun _ => 1 / 10000000⟩ : Mat ℚ).dump = some ⟨1, 1, 1, [(1, 1, printF (1 / 10000000))]⟩ := rfl
  have hz : printF (1 / 10000000 : ℚ) = 0 := by decide +kernel
  have := h _ _ 0 0 0 hw hd (by decide) (by decide) (.inl (by rw [hz]; simp))
  revert this
  decide +kernel

/-! ### The hypotheses are met -/

/-- a matrix with two columns, the first of which is empty -/
example : ∃ f, (⟨2, 2, 2, 2, fun k => if k = 2 then 2 else 0, id, fun k => (k : ℚ) + 3 / 2⟩ : Mat ℚ).dump = some f ∧ f.Proper :=
  (C114_matrix_partial (m := ⟨2, 2, 2, 2, fun k => if k = 2 then 2 else 0, id, fun k => (k : ℚ) + 3 / 2⟩)
    ((C09_isValid_iff _ rfl (by decide)).mp (by decide +kernel))).imp fun _ h => ⟨h.1, h.2.1⟩

/-- a vector with a zero component -/
example : (⟨2, 1, [(1, 5)]⟩ : Vec ℚ).WF ∧ (⟨2, 1, [(1, 5)]⟩ : Vec ℚ).dump.length = 2 :=
  ⟨(C02_isValid_iff _).mp (by decide +kernel), by decide +kernel⟩

end Sleqp
