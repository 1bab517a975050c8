import Verif.Lemmas.LpBackend
import Verif.Lemmas.CauchyLpEx

/-! C80: the linear program solved is the one set last. -/

namespace Sleqp
open Finset
variable {K : Type*} [Field K] [LinearOrder K]

/-- HiGHS: after any successful calls which have set bounds and coefficients, a solve succeeds and solves the linear program described by
the calls: bounds, coefficients and objective set last. The storage is uninitialised at the beginning. -/
theorem C80_highs [IsStrictOrderedRing K] {inf : K} {n m : Nat} {s0 s : HighsLpi K} {h : List (LpiOp K HighsStat)} {lp : LpArrays K}
    (hr : (HighsLpi.create n m s0).run inf h = some s) (hl : lastLp n m h = some lp) (vs cs : Nat → HighsStat) :
    ∃ s', s.step inf (.solve vs cs) = some s' ∧ s'.lib.Solves (inf / 2) lp := by
  obtain ⟨hn, hm, ho, hb, ha⟩ := lastLp_eq hl
  have hi := highs_run_inv hr
  have hc : s.dirtyCoeffs = false := by rw [hi.coeffs, ha]; rfl
  obtain ⟨t, ht, it, d1, d2, d3⟩ := highs_prepare hi hc
  have hct : t.dirtyCoeffs = false := by rw [it.coeffs, ha]; rfl
  refine ⟨{ t with basis := some ⟨vs, cs⟩ }, by show s.prepare.bind _ = _; rw [ht]; rfl, ?_⟩
  subst hn hm
  refine libLp_solves (fun j hj => ?_) (fun j hj => ?_) (fun i hi' => ?_) (fun i hi' => ?_) (fun i _ j _ => ?_) (fun j hj => ?_)
  · rw [← adjustNeg_eq]; exact (it.libCols hct d1 j hj).1.trans ((it.bnds _ hb).1 j hj).1
  · rw [← adjustPos_eq]; exact (it.libCols hct d1 j hj).2.trans ((it.bnds _ hb).1 j hj).2
  · rw [← adjustNeg_eq]; exact (it.libRows hct d2 i hi').1.trans ((it.bnds _ hb).2 i hi').1
  · rw [← adjustPos_eq]; exact (it.libRows hct d2 i hi').2.trans ((it.bnds _ hb).2 i hi').2
  · show t.lib.a i j = _
    rw [it.mat _ ha]
  · rw [ho]; exact (it.libObj hct d3 j hj).trans (it.costs j hj)

/-- HiGHS: without coefficients, a solve is refused -/
theorem C80_highs_coeffs {inf : K} {n m : Nat} {s0 s : HighsLpi K} {h : List (LpiOp K HighsStat)}
    (hr : (HighsLpi.create n m s0).run inf h = some s) (hl : lastCoeffs h = none) (vs cs : Nat → HighsStat) :
    s.step inf (.solve vs cs) = none := by
  have hc : s.dirtyCoeffs = true := by rw [(highs_run_inv hr).coeffs, hl]; rfl
  show s.prepare.bind _ = none
  rw [HighsLpi.prepare, if_pos hc]
  rfl

/-- SoPlex: after any successful calls which have set bounds and coefficients, a solve solves the linear program described by the calls -/
theorem C80_soplex {debug : Bool} {fe se infty : K} {n m : Nat} {s : SoplexLpi K} {h : List (LpiOp K SpxStat)} {lp : LpArrays K}
    (hr : (SoplexLpi.create debug fe se infty n m).run h = some s) (hl : lastLp n m h = some lp) (vs cs : Nat → SpxStat) :
    ∃ s', s.step (.solve vs cs) = some s' ∧ (s'.lib infty).Solves infty lp := by
  obtain ⟨hn, hm, ho, hb, ha⟩ := lastLp_eq hl
  have hi := soplex_run_inv hr
  refine ⟨{ s with basis := some ⟨vs, cs⟩ }, rfl, ?_⟩
  subst hn hm
  refine libLp_solves (fun j hj => ?_) (fun j hj => ?_) (fun i hi' => ?_) (fun i hi' => ?_) (fun i _ j hj => hi.mat _ ha i j hj) (fun j hj => ?_)
  · simp only [SoplexLpi.lib]; rw [((hi.bnds _ hb).1 j hj).1]
  · simp only [SoplexLpi.lib]; rw [((hi.bnds _ hb).1 j hj).2]
  · simp only [SoplexLpi.lib]; rw [((hi.bnds _ hb).2 i hi').1]
  · simp only [SoplexLpi.lib]; rw [((hi.bnds _ hb).2 i hi').2]
  · rw [ho]; exact hi.costs j hj

/-- Gurobi: after any successful calls which have set bounds and coefficients, a solve solves the linear program described by the calls, up to
columns for the row values. Missing: this is proved if all positions ever stored are stored in the coefficients set last; otherwise
see `C80_gurobi_violated`. -/
theorem C80_gurobi_partial {infty : K} {n m : Nat} {s : GurobiLpi K} {h : List (LpiOp K Int)} {lp : LpArrays K}
    (hw : ∀ a, .coeffs a ∈ h → a.WF) (hr : (GurobiLpi.create infty n m).run h = some s) (hl : lastLp n m h = some lp)
    (hk : SparsityKept h) (vs cs : Nat → Int) :
    ∃ s', s.step (.solve vs cs) = some s' ∧ s'.Solves infty lp := by
  obtain ⟨hn, hm, ho, hb, ha⟩ := lastLp_eq hl
  have hi := gurobi_run_inv hw hr
  refine ⟨{ s with basis := some ⟨vs, cs⟩ }, rfl, ?_⟩
  refine gurobi_solves hn hm hi.cols hi.rows (fun j hj => ?_) hi.slackObj (hi.bnds _ hb).1 (hi.bnds _ hb).2 hi.slack (fun i _ j hj => ?_)
  · rw [ho]; exact hi.costs j hj
  · by_cases hst : ∃ e ∈ lp.coeffs.col j, e.1 = i
    · exact hi.stored _ ha i j hj hst
    · have h0 : s.a i j = 0 := by
        refine hi.other i j hj fun a' ha' hst' => hst ?_
        obtain ⟨e, he, rfl⟩ := hst'
        exact hk _ ha a' ha' j (by rw [gurobi_dims hr a' ha']; exact hj) e he
      have h1 : lp.coeffs.value i j = 0 := by
        show valAt (lp.coeffs.col j) i = 0
        unfold valAt
        rw [at?_none_of_forall fun e he h => hst ⟨e, he, h⟩]
        rfl
      exact h0.trans h1.symm

/-- bounds `-4 ≤ x ≤ 4` and `-4 ≤ row ≤ 1` (infinite value: `64`) -/
def exBounds {S : Type*} : LpiOp ℚ S := .bounds (fun _ => -4) (fun _ => 1) (fun _ => -4) (fun _ => 4)

/-- a matrix with one row and one column, without entries -/
def exEmptyMat : Mat ℚ := ⟨1, 1, 0, 1, fun _ => 0, fun _ => 0, fun _ => 1⟩

/-- Changing coefficients in the Gurobi back end only changes those which are stored in the new matrix. The Jacobian `(1)` is replaced by one
without entries: the constraint `-4 ≤ 0 ≤ 1` admits `x = 4`, but the linear program solved still has the constraint `-4 ≤ x ≤ 1`. -/
theorem C80_gurobi_violated : ¬ ∀ (n m : Nat) (s : GurobiLpi ℚ) (h : List (LpiOp ℚ Int)) (lp : LpArrays ℚ),
    (∀ a, .coeffs a ∈ h → a.WF) → (GurobiLpi.create 64 n m).run h = some s → lastLp n m h = some lp → s.Solves 64 lp := by
  intro hall
  have hw : ∀ a, LpiOp.coeffs a ∈ ([exBounds, .coeffs exLpMat, .coeffs exEmptyMat] : List (LpiOp ℚ Int)) → a.WF := by
    intro a ha
    simp only [List.mem_cons, LpiOp.coeffs.injEq, List.not_mem_nil, or_false, exBounds, reduceCtorEq, false_or] at ha
    rcases ha with rfl | rfl
    · refine ⟨rfl, ?_, rfl, by decide, ?_, ?_⟩
      · decide
      · intro j hj
        obtain rfl : j = 0 := Nat.lt_one_iff.mp hj
        exact List.pairwise_singleton _ _
      · intro j hj
        obtain rfl : j = 0 := Nat.lt_one_iff.mp hj
        decide +kernel
    · refine ⟨rfl, ?_, rfl, by decide, ?_, ?_⟩
      · decide
      · intro j hj
        exact List.Pairwise.nil
      · intro j hj e he
        exact absurd he (by simp [Mat.col, exEmptyMat])
  obtain ⟨s, hs⟩ : ∃ s, (GurobiLpi.create (64 : ℚ) 1 1).run [exBounds, .coeffs exLpMat, .coeffs exEmptyMat] = some s := ⟨_, rfl⟩
  obtain ⟨lp, hlp⟩ : ∃ lp, lastLp 1 1 ([exBounds, .coeffs exLpMat, .coeffs exEmptyMat] : List (LpiOp ℚ Int)) = some lp := ⟨_, rfl⟩
  have hsol := hall 1 1 s _ lp hw hs hlp
  obtain rfl := Option.some.inj hs
  obtain rfl := Option.some.inj hlp
  obtain ⟨z, hz, hz4⟩ := hsol.complete (fun _ => 4) ⟨fun j hj => by
      show LpWithin (64 : ℚ) (-4) 4 4
      exact ⟨Or.inr (by decide +kernel), Or.inr le_rfl⟩, fun i hi => by
      obtain rfl : i = 0 := Nat.lt_one_iff.mp hi
      show LpWithin (64 : ℚ) (-4) 1 (∑ j ∈ range 1, exEmptyMat.value 0 j * 4)
      exact ⟨Or.inr (by decide +kernel), Or.inr (by decide +kernel)⟩⟩
  have h4 : z 0 = 4 := hz4 0 Nat.one_pos
  have hrow := hz.rows 0 Nat.one_pos
  have hb := hz.bounds 1 (by decide)
  have h1 : z 1 = 4 := by
    have e0 : (GurobiLpi.setCoeffs 1 exEmptyMat (GurobiLpi.setCoeffs 1 exLpMat (GurobiLpi.create (64 : ℚ) 1 1).a)) 0 0 = 1 := by decide +kernel
    have e1 : (GurobiLpi.setCoeffs 1 exEmptyMat (GurobiLpi.setCoeffs 1 exLpMat (GurobiLpi.create (64 : ℚ) 1 1).a)) 0 1 = -1 := by decide +kernel
    have hrow' : ∑ c ∈ range 2, (GurobiLpi.setCoeffs 1 exEmptyMat (GurobiLpi.setCoeffs 1 exLpMat (GurobiLpi.create (64 : ℚ) 1 1).a)) 0 c * z c = 0 :=
      hrow
    rw [sum_range_succ, sum_range_one, e0, e1] at hrow'
    rw [h4] at hrow'
    linarith
  have hb' : LpWithin (64 : ℚ) (-4) 1 (z 1) := hb
  rw [h1] at hb'
  rcases hb'.2 with h | h
  · exact absurd h (by decide +kernel)
  · exact absurd h (by decide +kernel)

/-- The SoPlex back end passes the tolerances within assertions: they are those of the settings with assertions compiled in, and those of the
library otherwise, whatever the settings are. -/
theorem C80_soplex_tolerances_violated : ¬ ∀ (debug : Bool) (fe se infty : ℚ) (n m : Nat),
    (SoplexLpi.create debug fe se infty n m).feasTol = some (fe * (1 / 10)) := by
  intro h
  exact absurd (h false 1 1 64 1 1) (by decide +kernel)

/-! ### The hypotheses are met: bounds, coefficients and objective are set, a solve, new bounds -/

/-- some state before `create` -/
def exHighs : HighsLpi ℚ :=
  ⟨0, 0, fun _ => 9, fun _ => some 9, fun _ => some 9, fun _ => some 9, fun _ => some 9, false, false, false, false,
    ⟨fun _ => 9, fun _ => some 9, fun _ => some 9, fun _ => some 9, fun _ => some 9, fun _ _ => 9⟩, none, 7, fun _ => none⟩

/-- the calls -/
def exCalls {S : Type*} (c : S) : List (LpiOp ℚ S) :=
  [.objective fun _ => 5, .bounds (fun _ => -64) (fun _ => 2) (fun _ => -1) (fun _ => 64), .coeffs exLpMat, .solve (fun _ => c) (fun _ => c),
    exBounds, .objective fun _ => 3]

example : ∃ s lp, (HighsLpi.create 1 1 exHighs).run 128 (exCalls .basic) = some s ∧ lastLp 1 1 (exCalls HighsStat.basic) = some lp ∧
    s.lib.obj 0 = 5 ∧ s.lib.colLb 0 = some (-1) ∧ s.lib.colUb 0 = none ∧ lp.obj 0 = 3 ∧ lp.varsUb 0 = 4 ∧
    ∃ s', s.step 128 (.solve (fun _ => .basic) (fun _ => .lower)) = some s' ∧ s'.lib.obj 0 = 3 ∧ s'.lib.colUb 0 = some 4 ∧ s'.lib.a 0 0 = 1 :=
  ⟨_, _, rfl, rfl, by decide +kernel, by decide +kernel, by decide +kernel, rfl, rfl, _, rfl, by decide +kernel, by decide +kernel, by decide +kernel⟩

example : ∃ s lp, (SoplexLpi.create true (1 : ℚ) 1 64 1 1).run (exCalls .basic) = some s ∧ lastLp 1 1 (exCalls SpxStat.basic) = some lp ∧
    (s.lib 64).obj 0 = 3 ∧ (s.lib 64).colUb 0 = some 4 ∧ (s.lib 64).a 0 0 = 1 :=
  ⟨_, _, rfl, rfl, by decide +kernel, by decide +kernel, by decide +kernel⟩

example : ∃ s lp, (GurobiLpi.create (64 : ℚ) 1 1).run (exCalls 0) = some s ∧ lastLp 1 1 (exCalls (0 : Int)) = some lp ∧
    SparsityKept (exCalls (0 : Int)) ∧ s.a 0 0 = 1 ∧ s.a 0 1 = -1 ∧ s.ub 0 = 4 ∧ s.ub 1 = 1 := by
  refine ⟨_, _, rfl, rfl, ?_, by decide +kernel, by decide +kernel, by decide +kernel, by decide +kernel⟩
  intro a ha a' ha' j hj e he
  obtain rfl : exLpMat = a := Option.some.inj ha
  simp only [exCalls, exBounds, List.mem_cons, LpiOp.coeffs.injEq, List.not_mem_nil, or_false, reduceCtorEq, false_or] at ha'
  subst ha'
  exact ⟨e, he, rfl⟩

end Sleqp
