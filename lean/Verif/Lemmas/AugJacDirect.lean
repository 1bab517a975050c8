import Verif.Model.AugJacDirect
import Verif.Lemmas.AugJac
import Verif.Lemmas.Remove
import Verif.Props.MatRemove
import Verif.Props.AugJac

/-! Helper lemmas on the working Jacobian of the direct variant. -/

namespace Sleqp
open Finset

/-! ### Sorted enumerations -/

theorem sorted_ext {a b : List Nat} (ha : a.Pairwise (· < ·)) (hb : b.Pairwise (· < ·)) (h : ∀ x, x ∈ a ↔ x ∈ b) : a = b := by
  induction a generalizing b with
  | nil =>
    cases b with
    | nil => rfl
    | cons y t => exact absurd ((h y).mpr (by simp)) (by simp)
  | cons x s ih =>
    cases b with
    | nil => exact absurd ((h x).mp (by simp)) (by simp)
    | cons y t =>
      obtain ⟨a1, a2⟩ := List.pairwise_cons.mp ha
      obtain ⟨b1, b2⟩ := List.pairwise_cons.mp hb
      have hxy : x = y := by
        rcases List.mem_cons.mp ((h x).mp (by simp)) with h1 | h1
        · exact h1
        · rcases List.mem_cons.mp ((h y).mpr (by simp)) with h2 | h2
          · exact h2.symm
          · have := a1 y h2; have := b1 x h1; omega
      subst hxy
      rw [ih a2 b2 fun z => ?_]
      constructor
      · intro hz
        rcases List.mem_cons.mp ((h z).mp (by simp [hz])) with h1 | h1
        · have := a1 z hz; omega
        · exact h1
      · intro hz
        rcases List.mem_cons.mp ((h z).mpr (by simp [hz])) with h1 | h1
        · have := b1 z hz; omega
        · exact h1

/-- number of active variables before `c` -/
def varRank (w : WSet) (c : Nat) : Nat := ((List.range c).filter fun j => decide (w.varState j ≠ .inactive)).length

theorem varRank_succ (w : WSet) (c : Nat) :
    varRank w (c + 1) = varRank w c + (if w.varState c ≠ .inactive then 1 else 0) := by
  unfold varRank
  rw [List.range_succ, List.filter_append, List.length_append]
  congr 1
  by_cases h : w.varState c = .inactive <;> simp [h]

theorem varRank_mono (w : WSet) {a b : Nat} (h : a ≤ b) : varRank w a ≤ varRank w b := by
  induction b with
  | zero => rw [show a = 0 by omega]
  | succ b ih =>
    rcases Nat.lt_or_ge a (b + 1) with h1 | h1
    · have := ih (by omega); rw [varRank_succ]; omega
    · rw [show a = b + 1 by omega]

section Enum
variable {n m : Nat} {w : WSet} {l : List WEntry}

theorem mem_rank_list (h : WRep n m w l) {c : Nat} (hc : c ≤ n) {k : Nat} (hk : k ≤ w.actVars)
    (ho : w.Ordered) (hlt : ∀ i < w.actVars, i < k ↔ w.content i < c) : varRank w c = k := by
  obtain ⟨q1, q2, q3, q4, q5, q6⟩ := C30_queries h
  have hav : w.actVars ≤ w.size := by unfold WSet.size; omega
  have : (List.range c).filter (fun j => decide (w.varState j ≠ .inactive)) = (List.range k).map w.content := by
    refine sorted_ext (List.Pairwise.filter _ List.pairwise_lt_range) ?_ fun x => ?_
    · rw [List.pairwise_map]
      exact (List.pairwise_lt_range (n := k)).imp_of_mem fun {a b} _ hb hab =>
        ho a b hab (by have := List.mem_range.mp hb; omega)
    · simp only [List.mem_filter, List.mem_range, List.mem_map, decide_eq_true_eq]
      constructor
      · rintro ⟨h1, h2⟩
        have h3 : w.varIdx x ≠ none := fun h4 => h2 ((q4 x (by omega)).mp h4)
        obtain ⟨i, hi⟩ := Option.ne_none_iff_exists'.mp h3
        obtain ⟨h4, h5⟩ := (q2 x (by omega) i).mp hi
        have h6 := (q6 i h4).1.mpr (by omega)
        exact ⟨i, (hlt i h6).mpr (by omega), h5⟩
      · rintro ⟨i, hi, rfl⟩
        have h7 := (hlt i (by omega)).mp hi
        refine ⟨h7, fun h8 => ?_⟩
        have h9 := (q4 _ (by omega)).mpr h8
        rw [(q2 (w.content i) (by omega) i).mpr ⟨by omega, rfl⟩] at h9
        simp at h9
  unfold varRank
  rw [this]; simp

/-- position of an active variable -/
theorem varRank_of_idx (h : WRep n m w l) (ho : w.Ordered) {j k : Nat} (hj : j < n) (hk : w.varIdx j = some k) :
    varRank w j = k := by
  obtain ⟨q1, q2, q3, q4, q5, q6⟩ := C30_queries h
  have hav : w.actVars ≤ w.size := by unfold WSet.size; omega
  obtain ⟨h1, h2⟩ := (q2 j hj k).mp hk
  have h3 := (q6 k h1).1.mpr (by omega)
  refine mem_rank_list h (by omega) (by omega) ho fun i hi => ?_
  rcases Nat.lt_trichotomy i k with h4 | h4 | h4
  · have := ho i k h4 h1; constructor <;> intro <;> omega
  · subst h4; constructor <;> intro <;> omega
  · have := ho k i h4 (by omega); constructor <;> intro <;> omega

theorem varRank_all (h : WRep n m w l) (ho : w.Ordered) : varRank w n = w.actVars := by
  obtain ⟨q1, q2, q3, q4, q5, q6⟩ := C30_queries h
  have hav : w.actVars ≤ w.size := by unfold WSet.size; omega
  exact mem_rank_list h le_rfl le_rfl ho fun i hi => ⟨fun _ => (q6 i (by omega)).1.mp hi, fun _ => hi⟩

theorem removedRows_sorted (w : WSet) (m : Nat) : (removedRows w m).Pairwise (· < ·) :=
  List.Pairwise.filter _ List.pairwise_lt_range

theorem removedRows_lt (w : WSet) (m : Nat) : ∀ r ∈ removedRows w m, r < m := fun r hr =>
  List.mem_range.mp (List.mem_of_mem_filter hr)

/-- the constraints that stay -/
theorem kept_rows (h : WRep n m w l) (ho : w.Ordered) :
    (List.range m).filter (fun i => decide (w.consState i ≠ .inactive)) =
      (List.range w.actCons).map fun i => w.content (w.actVars + i) - n := by
  obtain ⟨q1, q2, q3, q4, q5, q6⟩ := C30_queries h
  have hsz : w.size = w.actVars + w.actCons := by unfold WSet.size; omega
  refine sorted_ext (List.Pairwise.filter _ List.pairwise_lt_range) ?_ fun x => ?_
  · rw [List.pairwise_map]
    refine (List.pairwise_lt_range (n := w.actCons)).imp_of_mem fun {a b} ha hb hab => ?_
    have h1 := List.mem_range.mp ha
    have h2 := List.mem_range.mp hb
    have h3 := ho (w.actVars + a) (w.actVars + b) (by omega) (by omega)
    have h4 : ¬ w.content (w.actVars + a) < n := fun h5 => by
      have := (q6 (w.actVars + a) (by omega)).1.mpr h5; omega
    omega
  · simp only [List.mem_filter, List.mem_range, List.mem_map, decide_eq_true_eq]
    constructor
    · rintro ⟨h1, h2⟩
      have h3 : w.consIdx x ≠ none := fun h4 => h2 ((q5 x (by omega)).mp h4)
      obtain ⟨i, hi⟩ := Option.ne_none_iff_exists'.mp h3
      obtain ⟨h4, h5⟩ := (q3 x (by omega) i).mp hi
      have h6 : ¬ i < w.actVars := fun h7 => by have := (q6 i h4).1.mp h7; omega
      exact ⟨i - w.actVars, by omega, by rw [show w.actVars + (i - w.actVars) = i by omega]; omega⟩
    · rintro ⟨i, hi, rfl⟩
      have h4 : ¬ w.content (w.actVars + i) < n := fun h5 => by
        have := (q6 (w.actVars + i) (by omega)).1.mpr h5; omega
      have h5 := (q6 (w.actVars + i) (by omega)).2
      refine ⟨by omega, fun h8 => ?_⟩
      have h9 := (q5 _ (by omega)).mpr h8
      rw [(q3 (w.content (w.actVars + i) - n) (by omega) (w.actVars + i)).mpr ⟨by omega, by omega⟩] at h9
      simp at h9

theorem removedRows_length (h : WRep n m w l) (ho : w.Ordered) : m = w.actCons + (removedRows w m).length := by
  have h1 := congrArg List.length (kept_rows h ho)
  rw [List.length_map, List.length_range] at h1
  have h2 := List.length_eq_length_filter_add (l := List.range m) fun i => decide (w.consState i = .inactive)
  rw [List.length_range] at h2
  unfold removedRows
  have h3 : (List.range m).filter (fun i => !decide (w.consState i = .inactive)) =
      (List.range m).filter fun i => decide (w.consState i ≠ .inactive) := by
    congr 1; funext i; simp
  rw [h3, h1] at h2
  omega

/-- the row kept at a place -/
theorem oldIdx_removed (h : WRep n m w l) (ho : w.Ordered) {i : Nat} (hi : i < w.actCons) :
    oldIdx (removedRows w m) i = w.content (w.actVars + i) - n := by
  have hs := removedRows_sorted w m
  have hlen := removedRows_length h ho
  have : (List.range w.actCons).map (oldIdx (removedRows w m)) = (List.range w.actCons).map fun i => w.content (w.actVars + i) - n := by
    rw [← kept_rows h ho]
    refine sorted_ext ?_ (List.Pairwise.filter _ List.pairwise_lt_range) fun x => ?_
    · rw [List.pairwise_map]
      exact (List.pairwise_lt_range (n := w.actCons)).imp fun {a b} hab => oldIdx_strictMono hs hab
    · simp only [List.mem_filter, List.mem_range, List.mem_map, decide_eq_true_eq]
      constructor
      · rintro ⟨i, hi, rfl⟩
        have h1 : oldIdx (removedRows w m) i < m := by have := oldIdx_le (removedRows w m) i; omega
        refine ⟨h1, fun h2 => ?_⟩
        exact oldIdx_not_mem hs i (List.mem_filter.mpr ⟨List.mem_range.mpr h1, by simpa using h2⟩)
      · rintro ⟨h1, h2⟩
        obtain ⟨i, hi⟩ := oldIdx_surj hs (j := x) fun h3 => h2 (by simpa using (List.mem_filter.mp h3).2)
        refine ⟨i, ?_, hi⟩
        have hsub : (List.range (i + 1)).map (oldIdx (removedRows w m)) ⊆
            (List.range m).filter fun i => decide (w.consState i ≠ .inactive) := by
          intro y hy
          obtain ⟨k, hk, rfl⟩ := List.mem_map.mp hy
          have hk := List.mem_range.mp hk
          have h4 : oldIdx (removedRows w m) k < m := by
            rcases Nat.lt_or_ge k i with h5 | h5
            · have := oldIdx_strictMono hs h5; omega
            · rw [show k = i by omega]; omega
          refine List.mem_filter.mpr ⟨List.mem_range.mpr h4, ?_⟩
          rw [decide_eq_true_eq]
          intro h6
          exact oldIdx_not_mem hs k (List.mem_filter.mpr ⟨List.mem_range.mpr h4, by simpa using h6⟩)
        have hnd : ((List.range (i + 1)).map (oldIdx (removedRows w m))).Nodup := by
          rw [List.Nodup, List.pairwise_map]
          exact (List.pairwise_lt_range (n := i + 1)).imp fun {a b} hab => by
            have := oldIdx_strictMono hs hab; omega
        have hle := (List.subperm_of_subset hnd hsub).length_le
        rw [kept_rows h ho] at hle
        simp only [List.length_map, List.length_range] at hle
        omega
  have h2 := congrArg (fun L => L[i]?) this
  simpa [List.getElem?_map, List.getElem?_range hi] using h2

end Enum

/-! ### Moving the entries -/

section Shift
variable {K : Type*} [Field K] [LinearOrder K]

omit [Field K] [LinearOrder K] in
theorem shiftDown_spec (o a b k : Nat) (s : (Nat → Nat) × (Nat → K)) (x : Nat) :
    (shiftDown o a b k s).1 x = (if b + o ≤ x ∧ x < b + k + o then s.1 (x - o) + a else s.1 x) ∧
    (shiftDown o a b k s).2 x = if b + o ≤ x ∧ x < b + k + o then s.2 (x - o) else s.2 x := by
  induction k generalizing s with
  | zero =>
    rw [if_neg (by omega), if_neg (by omega)]
    exact ⟨rfl, rfl⟩
  | succ k ih =>
    unfold shiftDown
    obtain ⟨h1, h2⟩ := ih (setAt s.1 (b + k + o) (s.1 (b + k) + a), setAt s.2 (b + k + o) (s.2 (b + k)))
    rw [h1, h2]
    simp only
    rcases Nat.lt_trichotomy x (b + k + o) with h3 | h3 | h3
    · by_cases h4 : b + o ≤ x
      · have hne : x - o ≠ b + k + o := by omega
        have c1 : b + o ≤ x ∧ x < b + k + o := ⟨h4, h3⟩
        have c2 : b + o ≤ x ∧ x < b + (k + 1) + o := ⟨h4, by omega⟩
        simp only [if_pos c1, if_pos c2, setAt_ne _ _ hne, and_self]
      · have hne : x ≠ b + k + o := by omega
        have c1 : ¬ (b + o ≤ x ∧ x < b + k + o) := by omega
        have c2 : ¬ (b + o ≤ x ∧ x < b + (k + 1) + o) := by omega
        simp only [if_neg c1, if_neg c2, setAt_ne _ _ hne, and_self]
    · have c1 : ¬ (b + o ≤ x ∧ x < b + k + o) := by omega
      have c2 : b + o ≤ x ∧ x < b + (k + 1) + o := by omega
      have e1 : x - o = b + k := by omega
      simp only [if_neg c1, if_pos c2, e1]
      rw [h3, setAt_same, setAt_same]
      exact ⟨rfl, rfl⟩
    · have hne : x ≠ b + k + o := by omega
      have c1 : ¬ (b + o ≤ x ∧ x < b + k + o) := by omega
      have c2 : ¬ (b + o ≤ x ∧ x < b + (k + 1) + o) := by omega
      simp only [if_neg c1, if_neg c2, setAt_ne _ _ hne, and_self]

/-- the columns from `c` on have been moved -/
structure ShiftGood (w : WSet) (a n : Nat) (W : Mat K) (c : Nat) (s : ShiftState K) : Prop where
  offset : s.offset = varRank w c
  low : ∀ k ≤ c, s.ptr k = W.ptr k
  high : ∀ k, c < k → k ≤ n → s.ptr k = W.ptr k + varRank w k
  keep : ∀ x < W.ptr c, s.row x = W.row x ∧ s.val x = W.val x
  moved : ∀ k, c ≤ k → k < n → ∀ i < W.ptr (k + 1) - W.ptr k,
    s.row (W.ptr k + varRank w (k + 1) + i) = W.row (W.ptr k + i) + a ∧
      s.val (W.ptr k + varRank w (k + 1) + i) = W.val (W.ptr k + i)
  unit : ∀ k, c ≤ k → k < n → w.varState k ≠ .inactive →
    s.row (W.ptr k + varRank w k) = varRank w k ∧ s.val (W.ptr k + varRank w k) = 1

theorem shiftCol_good {w : WSet} {a n : Nat} {W : Mat K} (hW : W.WF) (hn : W.numCols = n) {c : Nat} (hc : c < n) {s : ShiftState K}
    (h : ShiftGood w a n W (c + 1) s) : ShiftGood w a n W c (shiftCol w a c s) := by
  have hp1 := h.low (c + 1) le_rfl
  have hp0 := h.low c (by omega)
  have hmono := hW.ptr_mono c (by omega)
  have hmono' : ∀ k, c + 1 ≤ k → k < n → W.ptr (c + 1) ≤ W.ptr k := fun k h1 h2 => hW.ptr_le h1 (by omega)
  have hV := varRank_succ w c
  have hVm : ∀ k, c + 1 ≤ k → varRank w (c + 1) ≤ varRank w k := fun k hk => varRank_mono w hk
  have hsp := fun x => shiftDown_spec s.offset a (W.ptr c) (W.ptr (c + 1) - W.ptr c) (s.row, s.val) x
  have hoff := h.offset
  by_cases hact : w.varState c = .inactive
  · rw [if_neg (by simpa using hact), Nat.add_zero] at hV
    have hst : shiftCol w a c s = ⟨s.offset, setAt s.ptr (c + 1) (s.ptr (c + 1) + s.offset),
        (shiftDown s.offset a (W.ptr c) (W.ptr (c + 1) - W.ptr c) (s.row, s.val)).1,
        (shiftDown s.offset a (W.ptr c) (W.ptr (c + 1) - W.ptr c) (s.row, s.val)).2⟩ := by
      unfold shiftCol
      simp only [hp0, hp1]
      rw [if_neg (by simpa using hact)]
    rw [hst]
    refine ⟨by simp only; omega, fun k hk => ?_, fun k h1 h2 => ?_, fun x hx => ?_, fun k h1 h2 i hi => ?_, fun k h1 h2 h3 => ?_⟩
    · have hne : k ≠ c + 1 := by omega
      simp only
      rw [setAt_ne _ _ hne]
      exact h.low k (by omega)
    · simp only
      rcases Nat.lt_or_ge (c + 1) k with h3 | h3
      · have hne : k ≠ c + 1 := by omega
        rw [setAt_ne _ _ hne]; exact h.high k h3 h2
      · rw [show k = c + 1 by omega, setAt_same, hp1, hoff]
    · simp only
      rw [(hsp x).1, (hsp x).2, if_neg (by omega), if_neg (by omega)]
      exact h.keep x (by omega)
    · simp only
      rcases Nat.lt_or_ge c k with h4 | h4
      · have g1 := hmono' k h4 h2
        have g2 := hVm (k + 1) (by omega)
        rw [(hsp _).1, (hsp _).2, if_neg (by omega), if_neg (by omega)]
        exact h.moved k h4 h2 i hi
      · obtain rfl : k = c := by omega
        rw [(hsp _).1, (hsp _).2, if_pos (by omega), if_pos (by omega),
          show W.ptr k + varRank w (k + 1) + i - s.offset = W.ptr k + i by omega]
        obtain ⟨g1, g2⟩ := h.keep (W.ptr k + i) (by omega)
        simp only
        exact ⟨by rw [g1], g2⟩
    · simp only
      rcases Nat.lt_or_ge c k with h4 | h4
      · have g1 := hmono' k h4 h2
        have g2 := hVm k h4
        rw [(hsp _).1, (hsp _).2, if_neg (by omega), if_neg (by omega)]
        exact h.unit k h4 h2 h3
      · obtain rfl : k = c := by omega
        exact absurd hact h3
  · rw [if_pos hact] at hV
    have hst : shiftCol w a c s = ⟨s.offset - 1, setAt s.ptr (c + 1) (s.ptr (c + 1) + s.offset),
        setAt (shiftDown s.offset a (W.ptr c) (W.ptr (c + 1) - W.ptr c) (s.row, s.val)).1 (W.ptr c + s.offset - 1) (s.offset - 1),
        setAt (shiftDown s.offset a (W.ptr c) (W.ptr (c + 1) - W.ptr c) (s.row, s.val)).2 (W.ptr c + s.offset - 1) 1⟩ := by
      unfold shiftCol
      simp only [hp0, hp1]
      rw [if_pos hact]
    rw [hst]
    refine ⟨by simp only; omega, fun k hk => ?_, fun k h1 h2 => ?_, fun x hx => ?_, fun k h1 h2 i hi => ?_, fun k h1 h2 h3 => ?_⟩
    · have hne : k ≠ c + 1 := by omega
      simp only
      rw [setAt_ne _ _ hne]
      exact h.low k (by omega)
    · simp only
      rcases Nat.lt_or_ge (c + 1) k with h3 | h3
      · have hne : k ≠ c + 1 := by omega
        rw [setAt_ne _ _ hne]; exact h.high k h3 h2
      · rw [show k = c + 1 by omega, setAt_same, hp1, hoff]
    · have hne : x ≠ W.ptr c + s.offset - 1 := by omega
      simp only
      rw [setAt_ne _ _ hne, setAt_ne _ _ hne, (hsp x).1, (hsp x).2, if_neg (by omega), if_neg (by omega)]
      exact h.keep x (by omega)
    · simp only
      rcases Nat.lt_or_ge c k with h4 | h4
      · have g1 := hmono' k h4 h2
        have g2 := hVm (k + 1) (by omega)
        have hne : W.ptr k + varRank w (k + 1) + i ≠ W.ptr c + s.offset - 1 := by omega
        rw [setAt_ne _ _ hne, setAt_ne _ _ hne, (hsp _).1, (hsp _).2, if_neg (by omega), if_neg (by omega)]
        exact h.moved k h4 h2 i hi
      · obtain rfl : k = c := by omega
        have hne : W.ptr k + varRank w (k + 1) + i ≠ W.ptr k + s.offset - 1 := by omega
        rw [setAt_ne _ _ hne, setAt_ne _ _ hne, (hsp _).1, (hsp _).2, if_pos (by omega), if_pos (by omega),
          show W.ptr k + varRank w (k + 1) + i - s.offset = W.ptr k + i by omega]
        obtain ⟨g1, g2⟩ := h.keep (W.ptr k + i) (by omega)
        simp only
        exact ⟨by rw [g1], g2⟩
    · simp only
      rcases Nat.lt_or_ge c k with h4 | h4
      · have g1 := hmono' k h4 h2
        have g2 := hVm k h4
        have hne : W.ptr k + varRank w k ≠ W.ptr c + s.offset - 1 := by omega
        rw [setAt_ne _ _ hne, setAt_ne _ _ hne, (hsp _).1, (hsp _).2, if_neg (by omega), if_neg (by omega)]
        exact h.unit k h4 h2 h3
      · obtain rfl : k = c := by omega
        rw [show W.ptr k + varRank w k = W.ptr k + s.offset - 1 by omega, setAt_same, setAt_same]
        exact ⟨by omega, rfl⟩

theorem shiftCols_good {w : WSet} {a n : Nat} {W : Mat K} (hW : W.WF) (hn : W.numCols = n) : ∀ (c : Nat) (s : ShiftState K), c ≤ n →
    ShiftGood w a n W c s → ∃ c', varRank w c' = 0 ∧ c' ≤ n ∧ ShiftGood w a n W c' (shiftCols w a c s)
  | 0, s, _, h => ⟨0, rfl, Nat.zero_le _, h⟩
  | c + 1, s, hc, h => by
    have h1 := shiftCol_good hW hn (by omega) h
    unfold shiftCols
    simp only
    split
    · rename_i h2
      exact ⟨c, by rw [← h1.offset]; exact h2.2, by omega, h1⟩
    · exact shiftCols_good hW hn c _ (by omega) h1

/-- a column after the loop, if the columns before the first active variable are empty -/
theorem shiftCols_col {w : WSet} {a n : Nat} {W : Mat K} (hW : W.WF) (hn : W.numCols = n) (ha : a = varRank w n)
    (hempty : ∀ k < n, varRank w (k + 1) = 0 → W.col k = []) (W2 : Mat K)
    (hptr : W2.ptr = (shiftCols w a n ⟨a, W.ptr, W.row, W.val⟩).ptr)
    (hrow : W2.row = (shiftCols w a n ⟨a, W.ptr, W.row, W.val⟩).row)
    (hval : W2.val = (shiftCols w a n ⟨a, W.ptr, W.row, W.val⟩).val) :
    (shiftCols w a n ⟨a, W.ptr, W.row, W.val⟩).offset = 0 ∧ (∀ k ≤ n, W2.ptr k = W.ptr k + varRank w k) ∧
    ∀ k < n, W2.col k = (if w.varState k ≠ .inactive then [(varRank w k, 1)] else []) ++ (W.col k).map fun e => (e.1 + a, e.2) := by
  obtain ⟨c, hc0, hcn, hg⟩ := shiftCols_good (w := w) (a := a) hW hn n ⟨a, W.ptr, W.row, W.val⟩ le_rfl
    ⟨ha, fun k _ => rfl, fun k h1 h2 => by omega, fun x _ => ⟨rfl, rfl⟩, fun k h1 h2 => by omega, fun k h1 h2 => by omega⟩
  have hp : ∀ k ≤ n, W2.ptr k = W.ptr k + varRank w k := by
    intro k hk
    rw [hptr]
    rcases Nat.lt_or_ge c k with h1 | h1
    · exact hg.high k h1 hk
    · rw [hg.low k h1, show varRank w k = 0 by have := varRank_mono w h1; omega]; rfl
  refine ⟨by rw [hg.offset, hc0], hp, fun k hk => ?_⟩
  have hm := hW.ptr_mono k (by omega)
  have hV := varRank_succ w k
  unfold Mat.col
  rw [hp k (by omega), hp (k + 1) hk]
  rcases Nat.lt_or_ge k c with h1 | h1
  · have h2 : varRank w (k + 1) = 0 := by have := varRank_mono w (a := k + 1) (b := c) h1; omega
    have h3 := hempty k hk h2
    have h4 : W.ptr (k + 1) - W.ptr k = 0 := by
      have := congrArg List.length h3
      simpa [Mat.col] using this
    have h5 : w.varState k = .inactive := by
      by_contra h6
      rw [if_pos h6] at hV; omega
    rw [show W.ptr (k + 1) + varRank w (k + 1) - (W.ptr k + varRank w k) = 0 by omega, h4, if_neg (by simpa using h5)]
    rfl
  · have hmv := hg.moved k h1 hk
    rw [← hrow, ← hval] at hmv
    have hun := hg.unit k h1 hk
    rw [← hrow, ← hval] at hun
    have hbody : (List.range' (W.ptr k + varRank w (k + 1)) (W.ptr (k + 1) - W.ptr k)).map (fun k => (W2.row k, W2.val k)) =
        ((List.range' (W.ptr k) (W.ptr (k + 1) - W.ptr k)).map fun k => (W.row k, W.val k)).map fun e => (e.1 + a, e.2) := by
      rw [List.map_map]
      refine List.ext_getElem (by simp) fun i h6 h7 => ?_
      have hi : i < W.ptr (k + 1) - W.ptr k := by simpa using h6
      simp only [List.getElem_map, List.getElem_range', Function.comp, one_mul]
      rw [(hmv i hi).1, (hmv i hi).2]
    by_cases h5 : w.varState k = .inactive
    · rw [if_neg (by simpa using h5), Nat.add_zero] at hV
      rw [if_neg (by simpa using h5), List.nil_append, ← hbody,
        show W.ptr (k + 1) + varRank w (k + 1) - (W.ptr k + varRank w k) = W.ptr (k + 1) - W.ptr k by omega, hV]
      rfl
    · rw [if_pos h5] at hV
      rw [if_pos h5, ← hbody, show W.ptr (k + 1) + varRank w (k + 1) - (W.ptr k + varRank w k) = (W.ptr (k + 1) - W.ptr k) + 1 by omega,
        List.range'_succ, List.map_cons, (hun h5).1, (hun h5).2, hV]
      rfl

end Shift
end Sleqp
