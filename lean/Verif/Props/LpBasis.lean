import Verif.Lemmas.LpBasis
import Verif.Props.LpBackend

/-! C81: bases are handed over faithfully. -/

namespace Sleqp
variable {K : Type*} [Field K] [LinearOrder K]

/-- HiGHS: a basis which is set under an index and restored later is the basis reported, whatever happens in between, as long as
nothing is stored under this index. Coefficients must have been set. -/
theorem C81_highs_set {inf : K} {n m k : Nat} {s0 s : HighsLpi K} {h h' : List (LpiOp K HighsStat)} {vs cs : Nat → BaseStat}
    (hr : (HighsLpi.create n m s0).run inf (h ++ .setBasis k vs cs :: h') = some s) (hk : ∀ o ∈ h', o.Keeps k)
    (hc : lastCoeffs (h ++ .setBasis k vs cs :: h') ≠ none) :
    ∃ s', s.step inf (.restoreBasis k) = some s' ∧ (∀ j, s'.varStat j = some (vs j)) ∧ ∀ i, s'.consStat i = some (cs i) := by
  have hd : s.dirtyCoeffs = false := by
    rw [(highs_run_inv hr).coeffs]
    rcases hl : lastCoeffs (h ++ .setBasis k vs cs :: h') with _ | a
    · exact absurd hl hc
    · rfl
  obtain ⟨t, t', -, ht', hs⟩ := foldlM_split hr
  obtain ⟨e1, e2⟩ := highs_run_keeps hs hk
  obtain rfl := Option.some.inj ht'
  have hlt : k < s.numBases := lt_of_lt_of_le (lt_of_lt_of_le (Nat.lt_succ_self k) (le_max_right _ _)) e2
  refine ⟨{ s with basis := some ⟨fun j => HighsLpi.statFrom (vs j), fun i => HighsLpi.statFrom (cs i)⟩ }, ?_, fun j => highs_stat_inv _,
    fun i => highs_stat_inv _⟩
  show (if k < s.numBases ∧ s.dirtyCoeffs = false then _ else _) = _
  rw [if_pos ⟨hlt, hd⟩, e1]
  show Option.bind (setAt t.bases k _ k) _ = _
  rw [setAt_same]
  rfl

/-- HiGHS: a basis which is saved under an index and restored later is the one reported before -/
theorem C81_highs_saved {inf : K} {n m k : Nat} {s0 s1 s : HighsLpi K} {h h' : List (LpiOp K HighsStat)}
    (h1 : (HighsLpi.create n m s0).run inf h = some s1) (hr : s1.run inf (.saveBasis k :: h') = some s) (hk : ∀ o ∈ h', o.Keeps k)
    (hc : lastCoeffs (h ++ .saveBasis k :: h') ≠ none) :
    ∃ s', s.step inf (.restoreBasis k) = some s' ∧ (∀ j, s'.varStat j = s1.varStat j) ∧ ∀ i, s'.consStat i = s1.consStat i := by
  have hrun : (HighsLpi.create n m s0).run inf (h ++ .saveBasis k :: h') = some s := by
    unfold HighsLpi.run at h1 hr ⊢
    rw [List.foldlM_append, h1]
    exact hr
  have hd : s.dirtyCoeffs = false := by
    rw [(highs_run_inv hrun).coeffs]
    rcases hl : lastCoeffs (h ++ .saveBasis k :: h') with _ | a
    · exact absurd hl hc
    · rfl
  obtain ⟨t, t', ht, ht', hs⟩ := foldlM_split (h := []) hr
  obtain rfl := Option.some.inj ht
  obtain ⟨e1, e2⟩ := highs_run_keeps hs hk
  obtain ⟨b, hb, ht'⟩ := Option.bind_eq_some_iff.mp ht'
  obtain rfl := Option.some.inj ht'
  have hlt : k < s.numBases := lt_of_lt_of_le (lt_of_lt_of_le (Nat.lt_succ_self k) (le_max_right _ _)) e2
  refine ⟨{ s with basis := some b }, ?_, fun j => ?_, fun i => ?_⟩
  · show (if k < s.numBases ∧ s.dirtyCoeffs = false then _ else _) = _
    rw [if_pos ⟨hlt, hd⟩, e1]
    show Option.bind (setAt s1.bases k _ k) _ = _
    rw [setAt_same]
    rfl
  · show _ = s1.basis.bind _
    rw [hb]; rfl
  · show _ = s1.basis.bind _
    rw [hb]; rfl

/-- SoPlex: a basis which is set under an index and restored later is the basis reported -/
theorem C81_soplex_set {debug : Bool} {fe se infty : K} {n m k : Nat} {s : SoplexLpi K} {h h' : List (LpiOp K SpxStat)} {vs cs : Nat → BaseStat}
    (hr : (SoplexLpi.create debug fe se infty n m).run (h ++ .setBasis k vs cs :: h') = some s) (hk : ∀ o ∈ h', o.Keeps k) :
    ∃ s', s.step (.restoreBasis k) = some s' ∧ (∀ j < n, s'.varStat j = some (vs j)) ∧ ∀ i < m, s'.consStat i = some (cs i) := by
  obtain ⟨t, t', ht, ht', hs⟩ := foldlM_split hr
  have hi := soplex_run_inv ht
  obtain ⟨e1, e2⟩ := soplex_run_keeps hs hk
  obtain rfl := Option.some.inj ht'
  have hlt : k < s.numBases := lt_of_lt_of_le (lt_of_lt_of_le (Nat.lt_succ_self k) (le_max_right _ _)) e2
  have e3 := e1.trans (setAt_same _ _ _)
  refine ⟨{ s with basis := some (s.bases k) }, if_pos hlt, fun j hj => ?_, fun i hi' => ?_⟩
  · show SoplexLpi.statFor ((s.bases k).cols j) = _
    rw [e3]
    show SoplexLpi.statFor (firstN t.numCols (fun j => SoplexLpi.statFrom (vs j)) (t.bases k).cols j) = _
    rw [firstN_lt (by rw [hi.cols]; exact hj)]
    exact soplex_stat_inv _
  · show SoplexLpi.statFor ((s.bases k).rows i) = _
    rw [e3]
    show SoplexLpi.statFor (firstN t.numRows (fun j => SoplexLpi.statFrom (cs j)) (t.bases k).rows i) = _
    rw [firstN_lt (by rw [hi.rows]; exact hi')]
    exact soplex_stat_inv _

/-- SoPlex: a basis which is saved under an index and restored later is the one reported before -/
theorem C81_soplex_saved {k : Nat} {s1 s : SoplexLpi K} {h' : List (LpiOp K SpxStat)}
    (hr : s1.run (.saveBasis k :: h') = some s) (hk : ∀ o ∈ h', o.Keeps k) :
    ∃ s', s.step (.restoreBasis k) = some s' ∧ (∀ j, s'.varStat j = s1.varStat j) ∧ ∀ i, s'.consStat i = s1.consStat i := by
  obtain ⟨t, t', ht, ht', hs⟩ := foldlM_split (h := []) hr
  obtain rfl := Option.some.inj ht
  obtain ⟨e1, e2⟩ := soplex_run_keeps hs hk
  obtain ⟨b, hb, ht'⟩ := Option.bind_eq_some_iff.mp ht'
  obtain rfl := Option.some.inj ht'
  have hlt : k < s.numBases := lt_of_lt_of_le (lt_of_lt_of_le (Nat.lt_succ_self k) (le_max_right _ _)) e2
  have e3 : s.bases k = b := e1.trans (setAt_same _ _ _)
  refine ⟨{ s with basis := some (s.bases k) }, if_pos hlt, fun j => ?_, fun i => ?_⟩
  · show _ = s1.basis.bind _
    rw [hb, e3]; rfl
  · show _ = s1.basis.bind _
    rw [hb, e3]; rfl

/-- Gurobi: the status of the variables of a basis which is set and restored later. Missing: the status `zero` of variables, and the rows
(see the violations). -/
theorem C81_gurobi_set_partial {infty : K} {n m k : Nat} {s : GurobiLpi K} {h h' : List (LpiOp K Int)} {vs cs : Nat → BaseStat}
    (hr : (GurobiLpi.create infty n m).run (h ++ .setBasis k vs cs :: h') = some s) (hw : ∀ a, .coeffs a ∈ h → a.WF)
    (hk : ∀ o ∈ h', o.Keeps k) :
    ∃ s', s.step (.restoreBasis k) = some s' ∧ ∀ j < n, vs j ≠ .zero → s'.varStat j = some (vs j) := by
  obtain ⟨t, t', ht, ht', hs⟩ := foldlM_split hr
  have hi := gurobi_run_inv hw ht
  obtain ⟨e1, e2, -⟩ := gurobi_run_keeps hs hk
  obtain rfl := Option.some.inj ht'
  have hlt : k < s.numBases := lt_of_lt_of_le (lt_of_lt_of_le (Nat.lt_succ_self k) (le_max_right _ _)) e2
  have e3 := e1.trans (setAt_same _ _ _)
  refine ⟨{ s with basis := some ⟨fun c => if c < t.numCols then GurobiLpi.statFrom (vs c) else (GurobiLpi.rowCodes (cs (c - t.numCols))).2,
    fun i => (GurobiLpi.rowCodes (cs i)).1⟩ }, ?_, fun j hj hz => ?_⟩
  · show (if k < s.numBases then _ else _) = _
    rw [if_pos hlt, e3]
    rfl
  · show GurobiLpi.statFor (if j < t.numCols then GurobiLpi.statFrom (vs j) else _) = _
    rw [if_pos (by rw [hi.cols]; exact hj)]
    exact gurobi_stat_inv hz

/-- Gurobi: a basis which is saved under an index and restored later is the one reported before -/
theorem C81_gurobi_saved {k : Nat} {s1 s : GurobiLpi K} {h' : List (LpiOp K Int)}
    (hr : s1.run (.saveBasis k :: h') = some s) (hk : ∀ o ∈ h', o.Keeps k) :
    ∃ s', s.step (.restoreBasis k) = some s' ∧ (∀ j, s'.varStat j = s1.varStat j) ∧ ∀ i, s'.consStat i = s1.consStat i := by
  obtain ⟨t, t', ht, ht', hs⟩ := foldlM_split (h := []) hr
  obtain rfl := Option.some.inj ht
  obtain ⟨e1, e2, e0⟩ := gurobi_run_keeps hs hk
  obtain ⟨b, hb, ht'⟩ := Option.bind_eq_some_iff.mp ht'
  obtain rfl := Option.some.inj ht'
  have hlt : k < s.numBases := lt_of_lt_of_le (lt_of_lt_of_le (Nat.lt_succ_self k) (le_max_right _ _)) e2
  have e3 : s.bases k = some b := e1.trans (setAt_same _ _ _)
  have e4 : s.numCols = s1.numCols := e0
  refine ⟨{ s with basis := some b }, ?_, fun j => ?_, fun i => ?_⟩
  · show (if k < s.numBases then _ else _) = _
    rw [if_pos hlt, e3]
    rfl
  · show _ = s1.basis.bind _
    rw [hb]; rfl
  · show (if b.rows i = 0 then _ else GurobiLpi.statFor (b.cols (s.numCols + i))) = s1.basis.bind _
    rw [hb, e4]; rfl

/-- The Gurobi back end stores constants of the interface instead of those of the library for the rows of a basis. A row at its lower bound
(with its column, as in the basis set by the Cauchy solver if a constraint is violated) is stored as basic, and reported so. -/
theorem C81_gurobi_rows_violated : ¬ ∀ (n m k : Nat) (s s' : GurobiLpi ℚ) (vs cs : Nat → BaseStat),
    (GurobiLpi.create 64 n m).run [exBounds, .coeffs exLpMat, .setBasis k vs cs] = some s → s.step (.restoreBasis k) = some s' →
    (∀ j, vs j ≠ .zero) → (∀ i, cs i ≠ .zero) → ∀ i < m, s'.consStat i = some (cs i) := by
  intro h
  exact absurd (h 1 1 0 _ _ (fun _ => .basic) (fun _ => .lower) rfl rfl (by simp) (by simp) 0 Nat.one_pos) (by decide +kernel)

/-- The Gurobi back end stores the code 1, which the library does not know, for basic rows: asking for the status of the row fails. -/
theorem C81_gurobi_basic_rows_violated : ¬ ∀ (n m k : Nat) (s s' : GurobiLpi ℚ) (vs cs : Nat → BaseStat),
    (GurobiLpi.create 64 n m).run [exBounds, .coeffs exLpMat, .setBasis k vs cs] = some s → s.step (.restoreBasis k) = some s' →
    (∀ j, vs j ≠ .zero) → (∀ i, cs i ≠ .zero) → ∀ i < m, (s'.consStat i).isSome = true := by
  intro h
  exact absurd (h 1 1 0 _ _ (fun _ => .lower) (fun _ => .basic) rfl rfl (by simp) (by simp) 0 Nat.one_pos) (by decide +kernel)

/-- The Gurobi back end turns nonbasic free variables (status zero) into variables at their upper bound. -/
theorem C81_gurobi_zero_violated : ¬ ∀ (n m k : Nat) (s s' : GurobiLpi ℚ) (vs cs : Nat → BaseStat),
    (GurobiLpi.create 64 n m).run [exBounds, .coeffs exLpMat, .setBasis k vs cs] = some s → s.step (.restoreBasis k) = some s' →
    ∀ j < n, s'.varStat j = some (vs j) := by
  intro h
  exact absurd (h 1 1 0 _ _ (fun _ => .zero) (fun _ => .basic) rfl rfl 0 Nat.one_pos) (by decide +kernel)

/-- HiGHS: after a solve, a variable is reported as basic, at its lower bound, at its upper bound or free and nonbasic exactly if it is
so in the basis of the library. -/
theorem C81_highs_reported {inf : K} {s s' : HighsLpi K} {vars cons : Nat → HighsStat} (h : s.step inf (.solve vars cons) = some s') (j : Nat) :
    (s'.varStat j = some .basic ↔ vars j = .basic) ∧ (s'.varStat j = some .lower ↔ vars j = .lower) ∧
      (s'.varStat j = some .upper ↔ vars j = .upper) ∧ (s'.varStat j = some .zero ↔ vars j = .zero) ∧
      (s'.consStat j = some .basic ↔ cons j = .basic) ∧ (s'.consStat j = some .lower ↔ cons j = .lower) ∧
      (s'.consStat j = some .upper ↔ cons j = .upper) ∧ (s'.consStat j = some .zero ↔ cons j = .zero) := by
  have hb : s'.basis = some ⟨vars, cons⟩ := by
    obtain ⟨t, -, h⟩ := Option.bind_eq_some_iff.mp h
    obtain rfl := Option.some.inj h
    rfl
  have hv : s'.varStat j = HighsLpi.statFor (vars j) := by unfold HighsLpi.varStat; rw [hb]; rfl
  have hc : s'.consStat j = HighsLpi.statFor (cons j) := by unfold HighsLpi.consStat; rw [hb]; rfl
  rw [hv, hc]
  cases vars j <;> cases cons j <;> simp [HighsLpi.statFor]

/-- SoPlex: after a solve, a variable is reported as basic exactly if it is so in the basis of the library; fixed variables are reported
at their upper bound. -/
theorem C81_soplex_reported {s s' : SoplexLpi K} {vars cons : Nat → SpxStat} (h : s.step (.solve vars cons) = some s') (j : Nat) :
    (s'.varStat j = some .basic ↔ vars j = .basic) ∧ (s'.varStat j = some .lower ↔ vars j = .onLower) ∧
      (s'.varStat j = some .upper ↔ vars j = .onUpper ∨ vars j = .fixed) ∧ (s'.varStat j = some .zero ↔ vars j = .zero) ∧
      (s'.consStat j = some .basic ↔ cons j = .basic) ∧ (s'.consStat j = some .lower ↔ cons j = .onLower) ∧
      (s'.consStat j = some .upper ↔ cons j = .onUpper ∨ cons j = .fixed) ∧ (s'.consStat j = some .zero ↔ cons j = .zero) := by
  obtain rfl := Option.some.inj h
  have hv : ∀ t : SoplexLpi K, t.basis = some ⟨vars, cons⟩ → t.varStat j = SoplexLpi.statFor (vars j) ∧ t.consStat j = SoplexLpi.statFor (cons j) := by
    intro t ht
    unfold SoplexLpi.varStat SoplexLpi.consStat
    rw [ht]
    exact ⟨rfl, rfl⟩
  rw [(hv _ rfl).1, (hv _ rfl).2]
  cases vars j <;> cases cons j <;> simp [SoplexLpi.statFor]

/-- Gurobi: after a solve, a variable is reported as basic, at its lower or at its upper bound exactly if it has the corresponding code of
the library; a row is reported as basic exactly if it, or the column holding its value, is. -/
theorem C81_gurobi_reported {s s' : GurobiLpi K} {vars cons : Nat → Int} (h : s.step (.solve vars cons) = some s') (j : Nat) :
    (s'.varStat j = some .basic ↔ vars j = 0) ∧ (s'.varStat j = some .lower ↔ vars j = -1) ∧ (s'.varStat j = some .upper ↔ vars j = -2) ∧
      (s'.consStat j = some .basic ↔ cons j = 0 ∨ vars (s.numCols + j) = 0) := by
  obtain rfl := Option.some.inj h
  have e1 : ∀ c : Int, (GurobiLpi.statFor c = some .basic ↔ c = 0) ∧ (GurobiLpi.statFor c = some .lower ↔ c = -1) ∧
      (GurobiLpi.statFor c = some .upper ↔ c = -2) := by
    intro c
    unfold GurobiLpi.statFor
    by_cases h0 : c = 0
    · subst h0; simp
    by_cases h1 : c = -1
    · subst h1; simp
    by_cases h2 : c = -2
    · subst h2; simp
    simp [h0, h1, h2]
  refine ⟨(e1 _).1, (e1 _).2.1, (e1 _).2.2, ?_⟩
  show (if cons j = 0 then some BaseStat.basic else GurobiLpi.statFor (vars (s.numCols + j))) = some .basic ↔ _
  by_cases h0 : cons j = 0
  · simp [h0]
  · rw [if_neg h0, (e1 _).1]
    simp [h0]

/-! ### The hypotheses are met: a basis is set under index 3, then one saved under index 1, then the first one is restored -/

/-- the calls in between -/
def exBetween {S : Type*} (c : S) : List (LpiOp ℚ S) := [.coeffs exLpMat, .solve (fun _ => c) (fun _ => c), .saveBasis 1, exBounds]

example : ∃ s s', (HighsLpi.create 1 1 exHighs).run 128 ([exBounds] ++ .setBasis 3 (fun _ => .lower) (fun _ => .basic) :: exBetween .upper) = some s ∧
    (∀ o ∈ exBetween HighsStat.upper, o.Keeps 3) ∧ s.varStat 0 = some .upper ∧ s.step 128 (.restoreBasis 3) = some s' ∧
    s'.varStat 0 = some .lower ∧ s'.consStat 0 = some .basic ∧ (s.step 128 (.restoreBasis 2)).isNone = true := by
  refine ⟨_, _, rfl, ?_, rfl, rfl, rfl, rfl, rfl⟩
  intro o ho
  simp only [exBetween, exBounds, List.mem_cons, List.not_mem_nil, or_false] at ho
  rcases ho with rfl | rfl | rfl | rfl <;> simp [LpiOp.Keeps]

example : ∃ s s', (SoplexLpi.create true (1 : ℚ) 1 64 1 1).run ([exBounds] ++ .setBasis 3 (fun _ => .lower) (fun _ => .basic) :: exBetween .onUpper) = some s ∧
    (∀ o ∈ exBetween SpxStat.onUpper, o.Keeps 3) ∧ s.varStat 0 = some .upper ∧ s.step (.restoreBasis 3) = some s' ∧
    s'.varStat 0 = some .lower ∧ s'.consStat 0 = some .basic := by
  refine ⟨_, _, rfl, ?_, rfl, rfl, rfl, rfl⟩
  intro o ho
  simp only [exBetween, exBounds, List.mem_cons, List.not_mem_nil, or_false] at ho
  rcases ho with rfl | rfl | rfl | rfl <;> simp [LpiOp.Keeps]

example : ∃ s s', (GurobiLpi.create (64 : ℚ) 1 1).run ([exBounds] ++ .setBasis 3 (fun _ => .lower) (fun _ => .basic) :: exBetween (-2)) = some s ∧
    (∀ o ∈ exBetween (-2 : Int), o.Keeps 3) ∧ s.varStat 0 = some .upper ∧ s.step (.restoreBasis 3) = some s' ∧ s'.varStat 0 = some .lower := by
  refine ⟨_, _, rfl, ?_, rfl, rfl, rfl⟩
  intro o ho
  simp only [exBetween, exBounds, List.mem_cons, List.not_mem_nil, or_false] at ho
  rcases ho with rfl | rfl | rfl | rfl <;> simp [LpiOp.Keeps]

/-- a solve leaves column 0 fixed and row 0 basic -/
example : ∃ s', (SoplexLpi.create true (1 : ℚ) 1 64 1 1).step (.solve (fun _ => .fixed) fun _ => .basic) = some s' ∧
    s'.varStat 0 = some .upper ∧ s'.consStat 0 = some .basic := ⟨_, rfl, rfl, rfl⟩

example : ∃ s', (GurobiLpi.create (64 : ℚ) 1 1).step (.solve (fun _ => -1) fun _ => 0) = some s' ∧
    s'.varStat 0 = some .lower ∧ s'.consStat 0 = some .basic := ⟨_, rfl, rfl, rfl⟩

end Sleqp
