import Verif.Spec.AugJac
import Verif.Props.WorkingSet
import Verif.Props.DualEstimation
import Verif.Props.Mat
import Mathlib.Tactic.Linarith

/-! Helper lemmas on the augmented matrix. -/

namespace Sleqp
open Finset

section Kkt
variable {K : Type*} [Field K] [LinearOrder K] [IsStrictOrderedRing K]

omit [LinearOrder K] [IsStrictOrderedRing K] in
theorem sum_trans_mul (n s : Nat) (A : Nat → Nat → K) (y d : Nat → K) :
    ∑ j ∈ range n, (∑ k ∈ range s, A k j * y k) * d j = ∑ k ∈ range s, y k * ∑ j ∈ range n, A k j * d j := by
  simp_rw [Finset.sum_mul, Finset.mul_sum]
  rw [Finset.sum_comm]
  exact Finset.sum_congr rfl fun k _ => Finset.sum_congr rfl fun j _ => by ring

theorem sum_sq_le_of_orth {n : Nat} {a b : Nat → K} (h : ∑ j ∈ range n, a j * (b j - a j) = 0) :
    ∑ j ∈ range n, a j ^ 2 ≤ ∑ j ∈ range n, b j ^ 2 := by
  have h1 : ∑ j ∈ range n, b j ^ 2 = ∑ j ∈ range n, a j ^ 2 + 2 * ∑ j ∈ range n, a j * (b j - a j) +
      ∑ j ∈ range n, (b j - a j) ^ 2 := by
    rw [Finset.mul_sum, ← Finset.sum_add_distrib, ← Finset.sum_add_distrib]
    exact Finset.sum_congr rfl fun j _ => by ring
  have h2 : (0 : K) ≤ ∑ j ∈ range n, (b j - a j) ^ 2 := Finset.sum_nonneg fun j _ => sq_nonneg _
  rw [h1, h]; linarith

/-- a solution in the row space is the one of smallest norm -/
theorem isMinNorm_of_rowspace {n s : Nat} {A : Nat → Nat → K} {b x y : Nat → K}
    (h1 : ∀ k < s, ∑ j ∈ range n, A k j * x j = b k) (h2 : ∀ j < n, x j = ∑ k ∈ range s, A k j * y k) :
    IsMinNorm n s A b x := by
  refine ⟨h1, fun v hv => sum_sq_le_of_orth ?_⟩
  have h3 : ∑ j ∈ range n, x j * (v j - x j) = ∑ j ∈ range n, (∑ k ∈ range s, A k j * y k) * (v j - x j) :=
    Finset.sum_congr rfl fun j hj => by rw [← h2 j (Finset.mem_range.mp hj)]
  rw [h3, sum_trans_mul]
  refine Finset.sum_eq_zero fun k hk => ?_
  have hk := Finset.mem_range.mp hk
  simp_rw [mul_sub]
  rw [Finset.sum_sub_distrib, hv k hk, h1 k hk, sub_self, mul_zero]

/-- a residual in the null space makes a least-squares solution -/
theorem isLeastSquares_of_null {n s : Nat} {A : Nat → Nat → K} {g x y : Nat → K}
    (h1 : ∀ k < s, ∑ j ∈ range n, A k j * x j = 0) (h2 : ∀ j < n, x j = g j - ∑ k ∈ range s, A k j * y k) :
    IsLeastSquares n s A g y := by
  intro y'
  refine sum_sq_le_of_orth ?_
  have h3 : ∑ j ∈ range n, (∑ k ∈ range s, A k j * y k - g j) *
      ((∑ k ∈ range s, A k j * y' k - g j) - (∑ k ∈ range s, A k j * y k - g j)) =
      ∑ j ∈ range n, (∑ k ∈ range s, A k j * (y k - y' k)) * x j := by
    refine Finset.sum_congr rfl fun j hj => ?_
    rw [h2 j (Finset.mem_range.mp hj)]
    simp_rw [mul_sub, Finset.sum_sub_distrib]
    ring
  rw [h3, sum_trans_mul]
  exact Finset.sum_eq_zero fun k hk => by rw [h1 k (Finset.mem_range.mp hk), mul_zero]

/-- a point of the null space differing from `g` by a vector of the row space is the projection -/
theorem isProjection_of_rowspace {n s : Nat} {A : Nat → Nat → K} {g p y : Nat → K}
    (h1 : ∀ k < s, ∑ j ∈ range n, A k j * p j = 0) (h2 : ∀ j < n, p j = g j - ∑ k ∈ range s, A k j * y k) :
    IsProjection n s A g p := by
  refine ⟨h1, fun z hz => sum_sq_le_of_orth ?_⟩
  have h3 : ∑ j ∈ range n, (g j - p j) * ((g j - z j) - (g j - p j)) =
      ∑ j ∈ range n, (∑ k ∈ range s, A k j * y k) * (p j - z j) :=
    Finset.sum_congr rfl fun j hj => by rw [h2 j (Finset.mem_range.mp hj)]; ring
  rw [h3, sum_trans_mul]
  refine Finset.sum_eq_zero fun k hk => ?_
  have hk := Finset.mem_range.mp hk
  simp_rw [mul_sub]
  rw [Finset.sum_sub_distrib, hz k hk, h1 k hk, sub_self, mul_zero]

end Kkt

/-! ### Storing entries by row -/

namespace Mat
variable {K : Type*}

/-- as `transFold_spec`, for rows from `a` on; cells below `tptr a` are not touched -/
theorem transFold_spec_from (tptr : Nat → Nat) (a n : Nat) (total : Nat → Nat)
    (hmono : ∀ r, a ≤ r → r < n → tptr r + total r = tptr (r + 1)) (s0 : (Nat → Nat) × (Nat → Nat) × (Nat → K))
    (h0 : ∀ r, a ≤ r → r < n → s0.1 r = 0) (P : List (Nat × Nat × K)) (hP : ∀ e ∈ P, a ≤ e.1 ∧ e.1 < n)
    (hcnt : ∀ r, a ≤ r → r < n → (P.filter fun e => decide (e.1 = r)).length ≤ total r) :
    (∀ r, a ≤ r → r < n →
      (P.foldl (transStep tptr) s0).1 r = (P.filter fun e => decide (e.1 = r)).length ∧
      (List.range' (tptr r) (P.filter fun e => decide (e.1 = r)).length).map
          (fun k => ((P.foldl (transStep tptr) s0).2.1 k, (P.foldl (transStep tptr) s0).2.2 k)) =
        (P.filter fun e => decide (e.1 = r)).map fun e => (e.2.1, e.2.2)) ∧
    ∀ k < tptr a, (P.foldl (transStep tptr) s0).2.1 k = s0.2.1 k ∧ (P.foldl (transStep tptr) s0).2.2 k = s0.2.2 k := by
  have mono : ∀ c b, a ≤ c → c ≤ b → b ≤ n → tptr c ≤ tptr b := by
    intro c b hac hab hb
    induction b with
    | zero => rw [Nat.le_zero.mp hab]
    | succ b ih =>
      rcases Nat.lt_or_ge c (b + 1) with h | h
      · have := ih (by omega) (by omega)
        have := hmono b (by omega) (by omega)
        omega
      · rw [show c = b + 1 by omega]
  induction P using List.reverseRecOn with
  | nil => exact ⟨fun r h1 hr => by simp [h0 r h1 hr], fun k _ => ⟨rfl, rfl⟩⟩
  | append_singleton P e ih =>
    obtain ⟨ih', ihk⟩ := ih (fun x hx => hP x (by simp [hx])) (fun r ha hr => by
      have := hcnt r ha hr
      rw [List.filter_append, List.length_append] at this; omega)
    obtain ⟨hea, he⟩ := hP e (by simp)
    rw [List.foldl_append, List.foldl_cons, List.foldl_nil]
    set s := P.foldl (transStep tptr) s0 with hs
    obtain ⟨j1, j2⟩ := ih' e.1 hea he
    have hce := hcnt e.1 hea he
    rw [List.filter_append, List.length_append] at hce
    simp at hce
    have hme := hmono e.1 hea he
    refine ⟨?_, ?_⟩
    · intro r hra hr
      obtain ⟨i1, i2⟩ := ih' r hra hr
      have hmr := hmono r hra hr
      have hcr := hcnt r hra hr
      rw [List.filter_append, List.length_append] at hcr
      by_cases h : e.1 = r
      · subst h
        simp only [List.filter_append, List.filter_cons, List.filter_nil, decide_true, if_true,
          List.length_append, List.length_singleton, List.map_append, List.map_singleton]
        refine ⟨by simp [transStep, i1], ?_⟩
        rw [← List.range'_append_1, List.map_append]
        congr 1
        · rw [← i2]
          apply List.map_congr_left
          intro k hk
          rw [List.mem_range'_1] at hk
          simp only [transStep, i1]
          rw [setAt_ne _ _ (by omega), setAt_ne _ _ (by omega)]
        · simp [transStep, i1]
      · have hf : ([e].filter fun e => decide (e.1 = r)) = [] := by simp [h]
        rw [List.filter_append, hf, List.append_nil]
        refine ⟨by simp [transStep, setAt_ne _ _ (Ne.symm h), i1], ?_⟩
        rw [← i2]
        apply List.map_congr_left
        intro k hk
        rw [List.mem_range'_1] at hk
        have hne : k ≠ tptr e.1 + s.1 e.1 := by
          rw [j1]
          rcases Nat.lt_or_ge e.1 r with h1 | h1
          · have := mono (e.1 + 1) r (by omega) h1 (by omega); omega
          · have := mono (r + 1) e.1 (by omega) (by omega) (by omega); omega
        simp only [transStep]
        rw [setAt_ne _ _ hne, setAt_ne _ _ hne]
    · intro k hk
      have hne : k ≠ tptr e.1 + s.1 e.1 := by
        have := mono a e.1 le_rfl hea (by omega)
        omega
      simp only [transStep]
      rw [setAt_ne _ _ hne, setAt_ne _ _ hne]
      exact ihk k hk

/-- prefix sums of counters -/
theorem prefixSum_count {α : Type*} (L : List α) (f : α → Nat) (a n : Nat) :
    prefixSum (fun i => (L.filter fun e => decide (f e = a + i)).length) n =
      (L.filter fun e => decide (a ≤ f e ∧ f e < a + n)).length := by
  induction n with
  | zero =>
    rw [prefixSum, List.filter_eq_nil_iff.mpr (by intro e _; simp)]; rfl
  | succ n ih =>
    rw [prefixSum, ih]
    clear ih
    induction L with
    | nil => simp
    | cons e t ih =>
      simp only [List.filter_cons]
      by_cases h1 : a ≤ f e ∧ f e < a + n
      · simp [h1, show f e ≠ a + n by omega, show f e < a + (n + 1) by omega] at ih ⊢; omega
      · by_cases h2 : f e = a + n
        · simp [h2] at ih ⊢; omega
        · rw [if_neg (by simpa using h1), if_neg (by simpa using h2),
            if_neg (by simp only [decide_eq_true_eq]; omega)]
          exact ih

/-! ### The upper triangle -/

theorem colCells_entries (m : Mat K) (n : Nat) :
    (colCells m n).map (fun c => (m.row c.2, c.1, m.val c.2)) = ({ m with numCols := n } : Mat K).entries := by
  unfold colCells entries
  rw [List.map_flatMap]
  congr 1
  funext j
  simp [col, List.map_map, Function.comp_def]

theorem mem_colCells {m : Mat K} {n : Nat} (hw : ({ m with numCols := n } : Mat K).WF) {c : Nat × Nat}
    (h : c ∈ colCells m n) : c.1 < n ∧ c.2 < m.ptr n ∧ m.row c.2 < m.numRows := by
  unfold colCells at h
  simp only [List.mem_flatMap, List.mem_range, List.mem_map, List.mem_range'_1] at h
  obtain ⟨j, hj, k, hk, rfl⟩ := h
  have h1 : m.ptr (j + 1) ≤ m.ptr n := hw.ptr_le (i := j + 1) (j := n) hj le_rfl
  have h3 : m.ptr j ≤ m.ptr (j + 1) := hw.ptr_mono j hj
  refine ⟨hj, by simp only; omega, ?_⟩
  exact hw.lt_rows j hj (m.row k, m.val k)
    (List.mem_map.mpr ⟨k, List.mem_range'_1.mpr ⟨hk.1, by simp only; omega⟩, rfl⟩)

theorem upperCounts_eq (n : Nat) (row : Nat → Nat) (cells : List (Nat × Nat)) {r : Nat} (hr : n ≤ r) :
    upperCounts n row cells r = (cells.filter fun c => decide (row c.2 = r)).length := by
  have h : ∀ s : Nat → Nat, cells.foldl
      (fun s c => if row c.2 < n then s else setAt s (row c.2) (s (row c.2) + 1)) s r =
      s r + (cells.filter fun c => decide (row c.2 = r)).length := by
    induction cells with
    | nil => simp
    | cons c t ih =>
      intro s
      rw [List.foldl_cons, ih]
      by_cases h1 : row c.2 = r
      · rw [List.filter_cons_of_pos (by simpa using h1), if_neg (by omega), ← h1]
        simp; omega
      · rw [List.filter_cons_of_neg (by simpa using h1)]
        split
        · rfl
        · rw [setAt_ne _ _ (Ne.symm h1)]
  unfold upperCounts
  rw [h]; simp

/-- reading the entries from the arrays being written makes no difference -/
theorem upperFold_eq {n b : Nat} {row : Nat → Nat} {val : Nat → K} {tptr : Nat → Nat} {N : Nat}
    (ht : ∀ r, n ≤ r → r < N → b ≤ tptr r) (cells : List (Nat × Nat))
    (hc : ∀ c ∈ cells, c.2 < b ∧ row c.2 < N) (s : (Nat → Nat) × (Nat → Nat) × (Nat → K))
    (hs : ∀ k < b, s.2.1 k = row k ∧ s.2.2 k = val k) :
    cells.foldl (upperStep n tptr) s =
      ((cells.filter fun c => !decide (row c.2 < n)).map fun c => (row c.2, c.1, val c.2)).foldl (transStep tptr) s := by
  induction cells generalizing s with
  | nil => rfl
  | cons c t ih =>
    obtain ⟨c1, c2⟩ := hc c (by simp)
    obtain ⟨s1, s2⟩ := hs c.2 c1
    rw [List.foldl_cons]
    by_cases h : row c.2 < n
    · rw [List.filter_cons_of_neg (by simpa using h)]
      have : upperStep n tptr s c = s := by unfold upperStep; rw [s1, if_pos h]
      rw [this]
      exact ih (fun c' hc' => hc c' (by simp [hc'])) s hs
    · rw [List.filter_cons_of_pos (by simpa using h), List.map_cons, List.foldl_cons]
      have : upperStep n tptr s c = transStep tptr s (row c.2, c.1, val c.2) := by
        unfold upperStep; rw [s1, s2, if_neg h]
      rw [this]
      refine ih (fun c' hc' => hc c' (by simp [hc'])) _ fun k hk => ?_
      have hne : k ≠ tptr (row c.2) + s.1 (row c.2) := by
        have := ht (row c.2) (by omega) c2
        omega
      simp only [transStep]
      rw [setAt_ne _ _ hne, setAt_ne _ _ hne]
      exact hs k hk

/-- `add_upper` keeps the first `n` columns and appends the mirrored entries -/
theorem addUpper_spec {m : Mat K} {n s : Nat} (hw : ({ m with numCols := n } : Mat K).WF)
    (hr : m.numRows = n + s) (hcl : m.numCols = n + s)
    (hc : m.nnz + ((colCells m n).filter fun c => !decide (m.row c.2 < n)).length ≤ m.cap) :
    ∃ m2, addUpper n m = some m2 ∧ m2.WF ∧ m2.numRows = n + s ∧ m2.numCols = n + s ∧
      (∀ j < n, m2.col j = m.col j) ∧
      ∀ k < s, m2.col (n + k) =
        (({ m with numCols := n } : Mat K).entries.filter fun e => decide (e.1 = n + k)).map fun e => (e.2.1, e.2.2) := by
  set m' : Mat K := { m with numCols := n } with hm'
  have hlast : m.ptr n = m.nnz := hw.ptr_last
  set cells := colCells m n with hcells
  set counts := upperCounts n m.row cells with hcounts
  set tptr : Nat → Nat := fun c =>
    if n < c ∧ c ≤ m.numCols then m.ptr n + prefixSum (fun i => counts (n + i)) (c - n) else m.ptr c with htptr
  set P : List (Nat × Nat × K) :=
    (cells.filter fun c => !decide (m.row c.2 < n)).map fun c => (m.row c.2, c.1, m.val c.2) with hPdef
  have hrowP : ∀ r, n ≤ r → (P.filter fun e => decide (e.1 = r)) = m'.entries.filter fun e => decide (e.1 = r) := by
    intro r hr
    rw [hPdef, ← colCells_entries, List.filter_map, List.filter_map, List.filter_filter]
    congr 1
    apply List.filter_congr
    intro c _
    by_cases hcr : m.row c.2 = r
    · simp [hcr, hr]
    · simp [hcr]
  have hcnt : ∀ r, n ≤ r → counts r = (P.filter fun e => decide (e.1 = r)).length := by
    intro r hr
    rw [hrowP r hr, hcounts, upperCounts_eq n m.row cells hr, ← colCells_entries, List.filter_map, List.length_map]
    rfl
  have htp : ∀ k ≤ s, tptr (n + k) = m.ptr n + prefixSum (fun i => counts (n + i)) k := by
    intro k hk
    simp only [htptr]
    split
    · rw [Nat.add_sub_cancel_left]
    · rw [show k = 0 by omega]; simp [prefixSum]
  have htp0 : ∀ k ≤ n, tptr k = m.ptr k := by
    intro k hk
    simp only [htptr]
    rw [if_neg (by omega)]
  have hmono : ∀ r, n ≤ r → r < n + s → tptr r + (P.filter fun e => decide (e.1 = r)).length = tptr (r + 1) := by
    intro r h1 h2
    obtain ⟨k, rfl⟩ := Nat.exists_eq_add_of_le h1
    rw [htp k (by omega), show n + k + 1 = n + (k + 1) by omega, htp (k + 1) (by omega), prefixSum, hcnt _ h1]
    omega
  have hPr : ∀ e ∈ P, n ≤ e.1 ∧ e.1 < n + s := by
    intro e he
    simp only [hPdef, List.mem_map, List.mem_filter] at he
    obtain ⟨c, ⟨hc1, hc2⟩, rfl⟩ := he
    have := (mem_colCells hw hc1).2.2
    simp at hc2
    simp only; omega
  have hlb : ∀ r, n ≤ r → r < n + s → m.ptr n ≤ tptr r := by
    intro r h1 h2
    obtain ⟨k, rfl⟩ := Nat.exists_eq_add_of_le h1
    rw [htp k (by omega)]; omega
  have hfold := upperFold_eq (n := n) (b := m.ptr n) (row := m.row) (val := m.val) (tptr := tptr) (N := n + s) hlb cells
    (fun c hc => ⟨(mem_colCells hw hc).2.1, by have := (mem_colCells hw hc).2.2; omega⟩)
    ((fun _ => 0), m.row, m.val) (fun k _ => ⟨rfl, rfl⟩)
  obtain ⟨hspec, hkeep⟩ := transFold_spec_from tptr n (n + s) _ hmono ((fun _ => 0), m.row, m.val) (fun _ _ _ => rfl) P hPr
    (fun r _ _ => le_rfl)
  rw [htp0 n le_rfl] at hkeep
  set S := P.foldl (transStep tptr) ((fun _ => 0), m.row, m.val) with hS
  have hadd : (cells.filter fun c => !decide (m.row c.2 < n)).length = P.length := by
    rw [hPdef, List.length_map]
  set m2 : Mat K := { m with ptr := tptr, row := S.2.1, val := S.2.2, nnz := m.nnz + P.length } with hm2
  have hdef : addUpper n m = some m2 := by
    unfold addUpper
    simp only
    rw [if_pos hc, hfold, hadd]
  have hcolA : ∀ j < n, m2.col j = m.col j := by
    intro j hj
    refine col_congr (htp0 j (by omega)) (htp0 (j + 1) (by omega)) fun k _ hk => hkeep k ?_
    have : m.ptr (j + 1) ≤ m.ptr n := hw.ptr_le (i := j + 1) (j := n) hj le_rfl
    omega
  have hcolB : ∀ k < s, m2.col (n + k) =
      (m'.entries.filter fun e => decide (e.1 = n + k)).map fun e => (e.2.1, e.2.2) := by
    intro k hk
    obtain ⟨_, h2⟩ := hspec (n + k) (by omega) (by omega)
    rw [← hrowP (n + k) (by omega), ← h2]
    unfold col
    have := hmono (n + k) (by omega) (by omega)
    simp only [hm2]
    rw [show tptr (n + k + 1) - tptr (n + k) = (P.filter fun e => decide (e.1 = n + k)).length by omega]
  refine ⟨m2, hdef, ⟨?_, ?_, ?_, ?_, ?_, ?_⟩, hr, hcl, hcolA, hcolB⟩
  · show tptr 0 = 0
    rw [htp0 0 (by omega)]; exact hw.ptr_zero
  · intro j hj
    show tptr j ≤ tptr (j + 1)
    have hj : j < n + s := by rw [← hcl]; exact hj
    rcases Nat.lt_or_ge j n with h | h
    · rw [htp0 j (by omega), htp0 (j + 1) (by omega)]; exact hw.ptr_mono j h
    · have := hmono j h hj; omega
  · show tptr m.numCols = m.nnz + P.length
    rw [hcl, htp s le_rfl, hlast]
    congr 1
    have : (fun i => counts (n + i)) = fun i => (P.filter fun e => decide (e.1 = n + i)).length := by
      funext i; exact hcnt _ (by omega)
    rw [this, prefixSum_count P (fun e => e.1) n s, List.filter_eq_self.mpr]
    intro e he
    simpa using hPr e he
  · show m.nnz + P.length ≤ m.cap
    omega
  · intro j hj
    have hj : j < n + s := by rw [← hcl]; exact hj
    rcases Nat.lt_or_ge j n with h | h
    · rw [hcolA j h]; exact hw.srt j h
    · obtain ⟨k, rfl⟩ := Nat.exists_eq_add_of_le h
      rw [hcolB k (by omega)]; exact entries_row_srt hw _
  · intro j hj
    have hj : j < n + s := by rw [← hcl]; exact hj
    rcases Nat.lt_or_ge j n with h | h
    · rw [hcolA j h]; exact hw.lt_rows j h
    · obtain ⟨k, rfl⟩ := Nat.exists_eq_add_of_le h
      rw [hcolB k (by omega)]
      intro e he
      simp only [List.mem_map, List.mem_filter] at he
      obtain ⟨⟨r, c, x⟩, ⟨he, _⟩, rfl⟩ := he
      have := (entries_mem.mp he).1
      show c < m.numRows
      have : c < n := this
      omega

theorem isValid_of_wf {m : Mat K} (h : m.WF) : m.isValid = true := by
  by_cases hn : m.nnz = 0
  · simp [isValid, hn]
  · exact (C09_isValid_iff m h.ptr_zero hn).mpr h

end Mat

/-! ### The columns of the augmented matrix -/

section Columns
variable {K : Type*} [Field K] [LinearOrder K]
variable {n m : Nat} {w : WSet} {l : List WEntry} {J : Mat K}

omit [LinearOrder K] in
theorem mem_augCol {j r : Nat} {x : K} : (r, x) ∈ augCol w J j ↔ (r = j ∧ x = 1) ∨
    (∃ k, w.varIdx j = some k ∧ r = w.numVars + k ∧ x = 1) ∨
    ∃ i k, (i, x) ∈ J.col j ∧ w.consIdx i = some k ∧ r = w.numVars + k := by
  simp only [augCol, List.cons_append, List.mem_cons, List.mem_append, Option.mem_toList, Option.map_eq_some_iff,
    List.mem_filterMap, Prod.mk.injEq, Prod.exists]
  constructor
  · rintro (h | ⟨k, h1, h2, h3⟩ | ⟨i, v, h1, k, h2, h3, h4⟩)
    · exact Or.inl h
    · exact Or.inr (Or.inl ⟨k, h1, h2.symm, h3.symm⟩)
    · subst h4; exact Or.inr (Or.inr ⟨i, k, h1, h2, h3.symm⟩)
  · rintro (h | ⟨k, h1, h2, h3⟩ | ⟨i, k, h1, h2, h3⟩)
    · exact Or.inl h
    · exact Or.inr (Or.inl ⟨k, h1, h2.symm, h3.symm⟩)
    · exact Or.inr (Or.inr ⟨i, x, h1, k, h2, h3.symm, rfl⟩)

omit [LinearOrder K] in
theorem augCol_range (h : WRep n m w l) (hJ : J.WF) (hr : J.numRows = m) (hc : J.numCols = n) {j : Nat} (hj : j < n) :
    ∀ e ∈ augCol w J j, e.1 < n + l.length ∧ (e.1 = j ∨ n ≤ e.1) := by
  obtain ⟨q1, q2, q3, -⟩ := C30_queries h
  rintro ⟨r, x⟩ he
  rw [mem_augCol, h.nv] at he
  rcases he with ⟨rfl, -⟩ | ⟨k, h1, rfl, -⟩ | ⟨i, k, h1, h2, rfl⟩
  · exact ⟨by simp only; omega, Or.inl rfl⟩
  · have := ((q2 j hj k).mp h1).1
    exact ⟨by simp only; omega, Or.inr (by simp)⟩
  · have hi : i < m := by rw [← hr]; exact hJ.lt_rows j (by omega) _ h1
    have := ((q3 i hi k).mp h2).1
    exact ⟨by simp only; omega, Or.inr (by simp)⟩

omit [LinearOrder K] in
theorem augCol_srt (h : WRep n m w l) (ho : w.Ordered) (hJ : J.WF) (hr : J.numRows = m) (hc : J.numCols = n)
    {j : Nat} (hj : j < n) : Srt (augCol w J j) := by
  obtain ⟨q1, q2, q3, -⟩ := C30_queries h
  have hlt : ∀ {k k'}, k < w.size → k' < w.size → w.content k < w.content k' → k < k' := by
    intro k k' hk hk' hcc
    rcases Nat.lt_trichotomy k k' with h1 | h1 | h1
    · exact h1
    · subst h1; omega
    · have := ho k' k h1 hk; omega
  have hrow : ∀ e ∈ J.col j, e.1 < m := fun e he => by rw [← hr]; exact hJ.lt_rows j (by omega) _ he
  unfold augCol
  rw [List.cons_append, srt_cons, srt_append, h.nv]
  refine ⟨?_, ?_, ?_, ?_⟩
  · intro a ha
    simp only [List.mem_append, Option.mem_toList, Option.map_eq_some_iff, List.mem_filterMap] at ha
    rcases ha with ⟨k, -, rfl⟩ | ⟨e, -, k, -, rfl⟩ <;> (simp only; omega)
  · cases w.varIdx j <;> simp [Srt]
  · unfold Srt
    rw [List.pairwise_filterMap]
    refine List.Pairwise.imp_of_mem ?_ (hJ.srt j (by omega))
    intro a b ha hb hab x hx y hy
    simp only [Option.map_eq_some_iff] at hx hy
    obtain ⟨k, hk, rfl⟩ := hx
    obtain ⟨k', hk', rfl⟩ := hy
    obtain ⟨a1, a2⟩ := (q3 a.1 (hrow a ha) k).mp hk
    obtain ⟨b1, b2⟩ := (q3 b.1 (hrow b hb) k').mp hk'
    have := hlt a1 b1 (by omega)
    simp only; omega
  · intro a ha b hb
    simp only [Option.mem_toList, Option.map_eq_some_iff, List.mem_filterMap] at ha hb
    obtain ⟨k, hk, rfl⟩ := ha
    obtain ⟨e, he, k', hk', rfl⟩ := hb
    obtain ⟨a1, a2⟩ := (q2 j hj k).mp hk
    obtain ⟨b1, b2⟩ := (q3 e.1 (hrow e he) k').mp hk'
    have := hlt a1 b1 (by omega)
    simp only; omega

/-- value of the augmented matrix in a column of the first block -/
theorem augCol_value (h : WRep n m w l) (ho : w.Ordered) (hJ : J.WF) (hr : J.numRows = m) (hc : J.numCols = n)
    {j : Nat} (hj : j < n) (r : Nat) :
    valAt (augCol w J j) r = if r < n then (if r = j then 1 else 0) else workMat l J.value (r - n) j := by
  obtain ⟨q1, q2, q3, -, -, q6⟩ := C30_queries h
  have hs := augCol_srt h ho hJ hr hc hj
  have hrow : ∀ e ∈ J.col j, e.1 < m := fun e he => by rw [← hr]; exact hJ.lt_rows j (by omega) _ he
  have hnone : (∀ x, (r, x) ∉ augCol w J j) → valAt (augCol w J j) r = 0 := by
    intro hh
    unfold valAt
    rw [at?_none_of_forall fun e he hr => hh e.2 (by rw [← hr]; exact he)]; rfl
  by_cases hrn : r < n
  · rw [if_pos hrn]
    split
    · rename_i hrj
      exact valAt_of_mem hs (e := (r, 1)) (mem_augCol.mpr (Or.inl ⟨hrj, rfl⟩))
    · rename_i hrj
      refine hnone fun x hx => ?_
      rcases (augCol_range h hJ hr hc hj _ hx).2 with h1 | h1
      · exact hrj h1
      · simp only at h1; omega
  · rw [if_neg hrn]
    obtain ⟨k, rfl⟩ := Nat.exists_eq_add_of_le (Nat.le_of_not_lt hrn)
    rw [Nat.add_sub_cancel_left]
    unfold workMat
    by_cases hk : k < l.length
    · rw [List.getElem?_eq_getElem hk]
      have hcon := h.content k hk
      have hok := (h.ok _ (List.getElem_mem hk)).1
      simp only [Option.elim_some, WEntry.gradient]
      cases hcs : (l[k]).constraint
      · rw [hcs] at hcon hok
        simp only [Bool.false_eq_true, if_false] at hcon hok ⊢
        split
        · rename_i hij
          refine valAt_of_mem hs (e := (n + k, 1)) (mem_augCol.mpr (Or.inr (Or.inl ⟨k, ?_, by rw [h.nv], rfl⟩)))
          exact (q2 j hj k).mpr ⟨by omega, by omega⟩
        · rename_i hij
          refine hnone fun x hx => ?_
          rw [mem_augCol, h.nv] at hx
          rcases hx with ⟨h1, -⟩ | ⟨k', h1, h2, -⟩ | ⟨i, k', h1, h2, h3⟩
          · omega
          · have := ((q2 j hj k').mp h1).2
            obtain rfl : k = k' := by omega
            omega
          · have := ((q3 i (hrow _ h1) k').mp h2).2
            obtain rfl : k = k' := by omega
            omega
      · rw [hcs] at hcon hok
        simp only [if_true] at hcon hok ⊢
        have hci : w.consIdx (l[k]).index = some k := (q3 _ hok k).mpr ⟨by omega, hcon⟩
        have hmem : ∀ x, (n + k, x) ∈ augCol w J j ↔ ((l[k]).index, x) ∈ J.col j := by
          intro x
          rw [mem_augCol, h.nv]
          constructor
          · rintro (⟨h1, -⟩ | ⟨k', h1, h2, -⟩ | ⟨i, k', h1, h2, h3⟩)
            · omega
            · have := ((q2 j hj k').mp h1).2
              obtain rfl : k = k' := by omega
              omega
            · have := ((q3 i (hrow _ h1) k').mp h2).2
              obtain rfl : k = k' := by omega
              rw [show (l[k]).index = i by omega]; exact h1
          · intro hx
            exact Or.inr (Or.inr ⟨_, k, hx, hci, rfl⟩)
        unfold Mat.value valAt
        rw [at?_congr hs (hJ.srt j (by omega)) hmem]
    · rw [List.getElem?_eq_none (by omega)]
      refine hnone fun x hx => ?_
      have := (augCol_range h hJ hr hc hj _ hx).1
      simp only at this; omega

theorem sum_map_le {α : Type*} (L : List α) (f g : α → Nat) (h : ∀ a ∈ L, f a ≤ g a) : (L.map f).sum ≤ (L.map g).sum := by
  induction L with
  | nil => simp
  | cons a t ih =>
    have h1 := h a (by simp)
    have h2 := ih fun b hb => h b (by simp [hb])
    simp; omega

theorem sum_map_add' {α : Type*} (L : List α) (f g : α → Nat) : (L.map fun a => f a + g a).sum = (L.map f).sum + (L.map g).sum := by
  induction L with
  | nil => simp
  | cons a t ih => simp [ih]; omega

/-- the active variables counted one by one -/
theorem sum_varIdx_le (h : WRep n m w l) : ((List.range n).map fun j => (w.varIdx j).toList.length).sum ≤ w.actVars := by
  obtain ⟨q1, q2, q3, -, -, q6⟩ := C30_queries h
  have h1 : ((List.range n).map fun j => (w.varIdx j).toList.length).sum = ((List.range n).filterMap w.varIdx).length := by
    generalize List.range n = L
    induction L with
    | nil => rfl
    | cons a t ih =>
      rw [List.map_cons, List.sum_cons, ih]
      cases hv : w.varIdx a <;> simp [hv]; omega
  have h2 : ((List.range n).filterMap w.varIdx).Nodup := by
    unfold List.Nodup
    rw [List.pairwise_filterMap]
    refine List.Pairwise.imp_of_mem ?_ (List.pairwise_lt_range (n := n))
    intro a b ha hb hab x hx y hy hxy
    subst hxy
    have e1 := ((q2 a (List.mem_range.mp ha) x).mp hx).2
    have e2 := ((q2 b (List.mem_range.mp hb) x).mp hy).2
    omega
  have h3 : (List.range n).filterMap w.varIdx ⊆ List.range w.actVars := by
    intro k hk
    rw [List.mem_filterMap] at hk
    obtain ⟨j, hj, hk⟩ := hk
    have hj := List.mem_range.mp hj
    obtain ⟨e1, e2⟩ := (q2 j hj k).mp hk
    exact List.mem_range.mpr ((q6 k e1).1.mpr (by omega))
  rw [h1]
  have := (h2.subperm h3).length_le
  simpa using this

/-- entries of the lower left block -/
theorem sum_augCol_le (h : WRep n m w l) (hJ : J.WF) (hc : J.numCols = n) :
    ((List.range n).map fun j => (augCol w J j).length).sum ≤ n + (J.nnz + w.actVars) := by
  have h1 : ((List.range n).map fun j => (augCol w J j).length).sum ≤
      ((List.range n).map fun j => (1 + (w.varIdx j).toList.length) + (J.col j).length).sum := by
    refine sum_map_le _ _ _ fun j _ => ?_
    unfold augCol
    have := List.length_filterMap_le (fun e : Nat × K => (w.consIdx e.1).map fun k => (w.numVars + k, e.2)) (J.col j)
    have h2 : ((w.varIdx j).map fun k => (w.numVars + k, (1 : K))).toList.length = (w.varIdx j).toList.length := by
      cases w.varIdx j <;> rfl
    simp only [List.cons_append, List.length_cons, List.length_append, h2]
    omega
  rw [sum_map_add', sum_map_add'] at h1
  have h2 := hJ.sum_col
  rw [hc] at h2
  have h3 := sum_varIdx_le h
  have h4 : ((List.range n).map fun _ => 1).sum = n := by simp
  omega

end Columns

end Sleqp
