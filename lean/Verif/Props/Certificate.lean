import Verif.Lemmas.Certificate

/-!
C106: what the status "optimal" says about the user's problem.  The loop of the solver tests
numbers of the scaled problem (`Model/Iteration.lean`, `Model/Solver.lean`), the user gets the
unscaled iterate (`Model/Events.lean`, `restoreIterate`); here both are composed with the meaning
of the residuals (C12, C14, C15).
-/

namespace Sleqp

open Finset

variable {K : Type*} [Field K] [LinearOrder K] [IsStrictOrderedRing K] {σ : Type*}

/-- The numbers tested by the loop at the end belong to the iterate `it` of the problem with
bounds `p`. -/
structure NumbersOf (n m : Nat) (p : Bounds K) (it : Iterate K) (d : PointData K) : Prop where
  feas : it.feasibilityResiduum m p = some d.feasRes
  slack : it.slacknessResiduum p = some d.slackRes
  stat : it.stationarityResiduum n m = some d.statRes

/-- the last iterate of a run with status "optimal" is an approximate solution of the problem seen
by the loop -/
theorem optimal_approx {pO pR : Params K} {R : Rule K σ} {max : Option Nat} {enable rej : Bool} {innerFuel fuel : Nat}
    {env : Nat → OuterEnv K} {S S' : Solver K σ}
    (hrun : runSolvingLoop pO pR R max enable rej innerFuel env fuel S = .done S') (hst : S'.status = .optimal)
    (htol : 0 ≤ pO.feasTol) {n m : Nat} {p : Bounds K} {it : Iterate K} (h : it.Fits n m p)
    (hnum : NumbersOf n m p it S'.opt.cur) :
    ApproxKkt n m p it (fun _ => pO.feasTol) (fun _ => pO.statTol) pO.slackTol := by
  obtain ⟨-, h1, h2, h3⟩ := (C22_final_status hrun).2.2.1 hst
  obtain ⟨k1, k2, k3, k4⟩ := C14_optimal_kkt_partial h htol hnum.feas hnum.slack hnum.stat
    ((C14_is_optimal_iff_partial _ _ _ _ _ _).mpr ⟨h1, h2, h3⟩)
  exact ⟨k1, k2, k3, k4⟩

/-- C106 without scaling and preprocessing: if the solver ends with status "optimal", the iterate
returned to the user satisfies the optimality conditions of the user's problem within the
tolerances of the settings.  Missing: preprocessing (see C38), rounding, residuals that are not
numbers (see `C14_nan_violated`). -/
theorem C106_unscaled_partial {pO pR : Params K} {R : Rule K σ} {max : Option Nat} {enable rej : Bool}
    {innerFuel fuel : Nat} {env : Nat → OuterEnv K} {S S' : Solver K σ}
    (hrun : runSolvingLoop pO pR R max enable rej innerFuel env fuel S = .done S') (hst : S'.status = .optimal)
    (htol : 0 ≤ pO.feasTol) {n m : Nat} {p : Bounds K} {it : Iterate K} (h : it.Fits n m p)
    (hnum : NumbersOf n m p it S'.opt.cur) (lsq : Bool) :
    ∃ sol, restoreIterate some none lsq it = some sol ∧
      ApproxKkt n m p sol (fun _ => pO.feasTol) (fun _ => pO.statTol) pO.slackTol ∧
      (InBounds n p it → InBounds n p sol) :=
  ⟨it, rfl, optimal_approx hrun hst htol h hnum, id⟩

/-- C106 with scaling: if the solver ends with status "optimal", the iterate returned to the user
exists and satisfies the optimality conditions of the user's problem within the tolerances of the
settings times the scales: that of constraint `i` times `2 ^ alpha i`, that of component `j` of the
gradient times `2 ^ (objW - beta j)`, that of the complementarity products times `2 ^ objW`.  It is
within the bounds if the last iterate of the loop was within the scaled ones. -/
theorem C106_scaled_partial {pO pR : Params K} {R : Rule K σ} {max : Option Nat} {enable rej : Bool}
    {innerFuel fuel : Nat} {env : Nat → OuterEnv K} {S S' : Solver K σ}
    (hrun : runSolvingLoop pO pR R max enable rej innerFuel env fuel S = .done S') (hst : S'.status = .optimal)
    (htol : 0 ≤ pO.feasTol) {n m : Nat} {s : Scaling} (hs : s.For n m) {p t p' : Bounds K}
    (hp : VOk n p.varsLb ∧ VOk n p.varsUb ∧ VOk m p.consLb ∧ VOk m p.consUb)
    (ht : t.varsLb.dim = n ∧ t.varsUb.dim = n ∧ t.consLb.dim = m ∧ t.consUb.dim = m)
    (hf : s.flushBounds p t = some p') {it : Iterate K} (h : it.Fits n m p')
    (hnum : NumbersOf n m p' it S'.opt.cur) (lsq : Bool) :
    ∃ sol, restoreIterate some (some s) lsq it = some sol ∧ sol.Fits n m p ∧
      ApproxKkt n m p sol (fun i => pO.feasTol * 2 ^ s.alpha i) (fun j => pO.statTol * 2 ^ (s.objW - s.beta j))
        (pO.slackTol * 2 ^ s.objW) ∧
      (InBounds n p' it → InBounds n p sol) := by
  obtain ⟨sol, h1, h2, h3⟩ := unscale_data hs hp ht hf h lsq
  exact ⟨sol, h1, h2, approx_unscaled h2 h h3 (optimal_approx hrun hst htol h hnum), (C33_kkt h2 h h3).1.mp⟩

/-- larger tolerances -/
theorem ApproxKkt.mono {n m : Nat} {p : Bounds K} {it : Iterate K} {f f' s s' : Nat → K} {l l' : K}
    (h : ApproxKkt n m p it f s l) (hf : ∀ i < m, f i ≤ f' i) (hs : ∀ j < n, s j ≤ s' j) (hl : l ≤ l') :
    ApproxKkt n m p it f' s' l' where
  cons i hi := ⟨le_trans (sub_le_sub_left (hf i hi) _) (h.cons i hi).1,
    le_trans (h.cons i hi).2 (by simpa using hf i hi)⟩
  grad j hj := lt_of_lt_of_le (h.grad j hj) (hs j hj)
  consSlack i hi := ⟨fun hz => lt_of_lt_of_le ((h.consSlack i hi).1 hz) hl,
    fun hz => lt_of_lt_of_le ((h.consSlack i hi).2 hz) hl⟩
  varsSlack j hj := ⟨fun hz => lt_of_lt_of_le ((h.varsSlack j hj).1 hz) hl,
    fun hz => lt_of_lt_of_le ((h.varsSlack j hj).2 hz) hl⟩

/-- C106 for weights that only tighten the tests: no constraint is divided by more than 1, the
objective neither, and no variable is scaled less than the objective. -/
theorem C106_tight_partial {pO pR : Params K} {R : Rule K σ} {max : Option Nat} {enable rej : Bool}
    {innerFuel fuel : Nat} {env : Nat → OuterEnv K} {S S' : Solver K σ}
    (hrun : runSolvingLoop pO pR R max enable rej innerFuel env fuel S = .done S') (hst : S'.status = .optimal)
    (htol : 0 ≤ pO.feasTol ∧ 0 ≤ pO.statTol ∧ 0 ≤ pO.slackTol) {n m : Nat} {s : Scaling} (hs : s.For n m)
    (hw : s.objW ≤ 0 ∧ (∀ i < m, s.alpha i ≤ 0) ∧ ∀ j < n, s.objW ≤ s.beta j) {p t p' : Bounds K}
    (hp : VOk n p.varsLb ∧ VOk n p.varsUb ∧ VOk m p.consLb ∧ VOk m p.consUb)
    (ht : t.varsLb.dim = n ∧ t.varsUb.dim = n ∧ t.consLb.dim = m ∧ t.consUb.dim = m)
    (hf : s.flushBounds p t = some p') {it : Iterate K} (h : it.Fits n m p')
    (hnum : NumbersOf n m p' it S'.opt.cur) (lsq : Bool) :
    ∃ sol, restoreIterate some (some s) lsq it = some sol ∧
      ApproxKkt n m p sol (fun _ => pO.feasTol) (fun _ => pO.statTol) pO.slackTol := by
  obtain ⟨sol, h1, -, h2, -⟩ := C106_scaled_partial hrun hst htol.1 hs hp ht hf h hnum lsq
  have hle : ∀ {e : K} {k : ℤ}, 0 ≤ e → k ≤ 0 → e * 2 ^ k ≤ e := by
    intro e k he hk
    exact mul_le_of_le_one_right he (zpow_le_one_of_nonpos₀ (by norm_num) hk)
  exact ⟨sol, h1, h2.mono (fun i hi => hle htol.1 (hw.2.1 i hi))
    (fun j hj => hle htol.2.1 (sub_nonpos.mpr (hw.2.2 j hj))) (hle htol.2.2 hw.1)⟩

/-! ### Violations

`min x` with `0 ≤ x ≤ 5` and `1 ≤ x ≤ 100` (`exP`), all tolerances 1/100. -/

/-- one variable, one constraint, objective and constraint `x`, with the given values -/
def exPoint (x f g c a y z : ℚ) : Iterate ℚ :=
  { primal := ⟨1, 1, [(0, x)]⟩, objVal := f, objGrad := ⟨1, 1, [(0, g)]⟩, consVal := ⟨1, 1, [(0, c)]⟩
    consJac := { numRows := 1, numCols := 1, nnz := 1, cap := 1, ptr := fun j => if j = 0 then 0 else 1,
                 row := fun _ => 0, val := fun _ => a }
    consDual := ⟨1, 1, [(0, y)]⟩, varsDual := ⟨1, 1, [(0, z)]⟩ }

/-- the environment of a run that ends at once -/
def exStill (d : PointData ℚ) (_ : Nat) : OuterEnv ℚ :=
  { timeUp := false, inner := fun _ => { quietEnv d with curSlack := d.slackRes, curStat := d.statRes }
    restPt := d, optPt := d, checkReject := false, userAbort := false }

/-- a new solver whose iterate has the numbers `d` -/
def exAt (d : PointData ℚ) : Solver ℚ Unit := { exSolver with opt := exFresh () d }

/-- that run ends with status "optimal" and the numbers `d` -/
theorem exStill_run {d : PointData ℚ}
    (h : ((runSolvingLoop exParams exParams exDirect (some 20) true false 21 (exStill d) 10 (exAt d)).check
      fun S' => decide (S'.status = .optimal ∧ S'.opt.cur.feasRes = d.feasRes ∧ S'.opt.cur.slackRes = d.slackRes ∧
        S'.opt.cur.statRes = d.statRes)) = true) :
    ∃ S', runSolvingLoop exParams exParams exDirect (some 20) true false 21 (exStill d) 10 (exAt d) = .done S' ∧
      S'.status = .optimal ∧ S'.opt.cur.feasRes = d.feasRes ∧ S'.opt.cur.slackRes = d.slackRes ∧
        S'.opt.cur.statRes = d.statRes := by
  obtain ⟨S', h1, h2⟩ := SOut.check_spec h
  exact ⟨S', h1, of_decide_eq_true h2⟩

/-- The scaled bounds of `exP`. -/
def exPScaled (b a : ℤ) : Bounds ℚ :=
  ⟨⟨1, 0, []⟩, ⟨1, 1, [(0, 5 * 2 ^ b)]⟩, ⟨1, 1, [(0, 1 * 2 ^ a)]⟩, ⟨1, 1, [(0, 100 * 2 ^ a)]⟩⟩

theorem exPoint_fits (x f g c a y z : ℚ) (b e : ℤ) : (exPoint x f g c a y z).Fits 1 1 (exPScaled b e) where
  cons := ⟨⟨by unfold Srt exPoint; simp, by simp [exPoint], by simp [exPoint]⟩,
    ⟨by unfold Srt exPScaled; simp, by simp [exPScaled], by simp [exPScaled]⟩,
    ⟨by unfold Srt exPScaled; simp, by simp [exPScaled], by simp [exPScaled]⟩, rfl, rfl, rfl, by
      intro i hi
      obtain rfl : i = 0 := by omega
      show (1 : ℚ) * 2 ^ e ≤ 100 * 2 ^ e
      exact (le_scaled e).mpr (by norm_num)⟩
  vars := ⟨⟨by unfold Srt exPoint; simp, by simp [exPoint], by simp [exPoint]⟩,
    ⟨by unfold Srt exPScaled; simp, by simp [exPScaled], by simp [exPScaled]⟩,
    ⟨by unfold Srt exPScaled; simp, by simp [exPScaled], by simp [exPScaled]⟩, rfl, rfl, rfl, by
      intro i hi
      obtain rfl : i = 0 := by omega
      show (0 : ℚ) ≤ 5 * 2 ^ b
      exact (mul_pos (by norm_num) (pow2_pos b)).le⟩
  wcd := ⟨by unfold Srt exPoint; simp, by simp [exPoint], by simp [exPoint]⟩
  dcd := rfl
  wvd := ⟨by unfold Srt exPoint; simp, by simp [exPoint], by simp [exPoint]⟩
  dvd := rfl
  wg := ⟨by unfold Srt exPoint; simp, by simp [exPoint], by simp [exPoint]⟩
  dg := rfl
  wj := by
    constructor
    · rfl
    · intro j hj; simp [exPoint] at hj ⊢; simp [hj]
    · rfl
    · simp [exPoint]
    · intro j hj
      have : j = 0 := by simp [exPoint] at hj; exact hj
      subst this
      show Srt [((0 : Nat), a)]
      unfold Srt; simp
    · intro j hj
      have : j = 0 := by simp [exPoint] at hj; exact hj
      subst this
      show ∀ e ∈ [((0 : Nat), a)], e.1 < 1
      simp
  rows := rfl
  cols := rfl

/-- the scaled problem of `exP` for weights `b` of the variable and `e` of the constraint -/
theorem exP_scaled (o b e : ℤ) : (⟨o, [b], [e]⟩ : Scaling).flushBounds exP exP = some (exPScaled (-b) (-e)) := by
  simp [Scaling.flushBounds, Scaling.scalePoint, Scaling.scaleConsVal, applyScaling, exP, exPScaled, Vec.copy, ldexp, Vec.resize, Vec.reserve, Vec.nnz,
    Vec.clear, Vec.pushAll, Vec.push]

/-- A run of the solver on the scaled problem of `exP` ends with status "optimal" at an iterate
within the bounds, which the user gets as `sol`. -/
def Reports (s : Scaling) (sol : Iterate ℚ) : Prop :=
  ∃ S S' env p' it, runSolvingLoop exParams exParams exDirect (some 20) true false 21 env 10 S = .done S' ∧
    S'.status = .optimal ∧ s.flushBounds exP exP = some p' ∧ it.Fits 1 1 p' ∧ InBounds 1 p' it ∧
    NumbersOf 1 1 p' it S'.opt.cur ∧ restoreIterate some (some s) false it = some sol

theorem exP_ok : VOk 1 exP.varsLb ∧ VOk 1 exP.varsUb ∧ VOk 1 exP.consLb ∧ VOk 1 exP.consUb :=
  ⟨⟨exFits.vars.wl, rfl⟩, ⟨exFits.vars.wu, rfl⟩, ⟨exFits.cons.wl, rfl⟩, ⟨exFits.cons.wu, rfl⟩⟩

theorem reports {o b e : ℤ} {d : PointData ℚ} {x f g c a y z : ℚ}
    (h : ((runSolvingLoop exParams exParams exDirect (some 20) true false 21 (exStill d) 10 (exAt d)).check
      fun S' => decide (S'.status = .optimal ∧ S'.opt.cur.feasRes = d.feasRes ∧ S'.opt.cur.slackRes = d.slackRes ∧
        S'.opt.cur.statRes = d.statRes)) = true)
    (h1 : (exPoint x f g c a y z).feasibilityResiduum 1 (exPScaled (-b) (-e)) = some d.feasRes)
    (h2 : (exPoint x f g c a y z).slacknessResiduum (exPScaled (-b) (-e)) = some d.slackRes)
    (h3 : (exPoint x f g c a y z).stationarityResiduum 1 1 = some d.statRes)
    (h4 : 0 ≤ x ∧ x ≤ 5 * 2 ^ (-b)) :
    ∃ sol, Reports ⟨o, [b], [e]⟩ sol ∧ ScaledData ⟨o, [b], [e]⟩ false exP (exPScaled (-b) (-e)) sol (exPoint x f g c a y z) := by
  obtain ⟨S', r1, r2, r3, r4, r5⟩ := exStill_run h
  have hf := exPoint_fits x f g c a y z (-b) (-e)
  obtain ⟨sol, u1, -, u2⟩ := unscale_data (s := ⟨o, [b], [e]⟩) (n := 1) (m := 1) ⟨rfl, rfl⟩ exP_ok ⟨rfl, rfl, rfl, rfl⟩
    (exP_scaled o b e) hf false
  refine ⟨sol, ⟨_, S', _, _, _, r1, r2, exP_scaled o b e, hf, ?_, ⟨?_, ?_, ?_⟩, u1⟩, u2⟩
  · intro j hj
    obtain rfl : j = 0 := by omega
    exact h4
  · rw [r3]; exact h1
  · rw [r4]; exact h2
  · rw [r5]; exact h3

/-- C106 violated by the code: with the weight 10 for the constraint, `x = 0` is reported as
optimal, although the constraint `x ≥ 1` is violated by 1, a hundred times the tolerance. -/
theorem C106_feasibility_violated : ∃ sol, Reports ⟨0, [0], [10]⟩ sol ∧ exParams.feasTol = 1/100 ∧
    sol.primal.value 0 = 0 ∧ sol.consVal.value 0 = 0 ∧ exP.consLb.value 0 = 1 := by
  obtain ⟨sol, h1, h2⟩ := reports (o := 0) (b := 0) (e := 10) (d := ⟨0, 1/1024, 1/1024, 0, 0⟩)
    (x := 0) (f := 0) (g := 1) (c := 0) (a := 1/1024) (y := 0) (z := -1)
    (by decide +kernel) (by decide +kernel) (by decide +kernel) (by decide +kernel) (by norm_num)
  refine ⟨sol, h1, rfl, ?_, ?_, by decide +kernel⟩
  · have := h2.primal 0
    rwa [show (exPoint 0 0 1 0 (1/1024) 0 (-1)).primal.value 0 = 0 by decide +kernel, eq_comm, scaled_eq_zero] at this
  · have := h2.consVal 0
    rwa [show (exPoint 0 0 1 0 (1/1024) 0 (-1)).consVal.value 0 = 0 by decide +kernel, eq_comm, scaled_eq_zero] at this

/-- C106 violated by the code: with the weight -10 for the variable, the interior point `x = 3` is
reported as optimal with multipliers 0, although the gradient is 1, a hundred times the
tolerance. -/
theorem C106_stationarity_violated : ∃ sol, Reports ⟨0, [-10], [0]⟩ sol ∧ exParams.statTol = 1/100 ∧
    sol.primal.value 0 = 3 ∧ sol.consDual.value 0 = 0 ∧ sol.varsDual.value 0 = 0 ∧ sol.objGrad.value 0 = 1 := by
  obtain ⟨sol, h1, h2⟩ := reports (o := 0) (b := -10) (e := 0) (d := ⟨3, 0, 0, 0, 1/1024⟩)
    (x := 3072) (f := 3) (g := 1/1024) (c := 3) (a := 1/1024) (y := 0) (z := 0)
    (by decide +kernel) (by decide +kernel) (by decide +kernel) (by decide +kernel) (by norm_num)
  refine ⟨sol, h1, rfl, ?_, ?_, ?_, ?_⟩
  · have := h2.primal 0
    rw [show (exPoint 3072 3 (1/1024) 3 (1/1024) 0 0).primal.value 0 = 3 * 2 ^ (-(-10 : ℤ)) by decide +kernel] at this
    exact (mul_right_cancel₀ (pow2_pos _).ne' this).symm
  · have := h2.consDual 0
    rwa [show (exPoint 3072 3 (1/1024) 3 (1/1024) 0 0).consDual.value 0 = 0 by decide +kernel, eq_comm, scaled_eq_zero] at this
  · have := h2.varsDual 0
    rwa [show (exPoint 3072 3 (1/1024) 3 (1/1024) 0 0).varsDual.value 0 = 0 by decide +kernel, eq_comm, scaled_eq_zero] at this
  · have := h2.objGrad 0
    rw [show (exPoint 3072 3 (1/1024) 3 (1/1024) 0 0).objGrad.value 0 = 1 * 2 ^ (-10 - 0 : ℤ) by decide +kernel] at this
    exact (mul_right_cancel₀ (pow2_pos _).ne' this).symm

/-- C106 violated by the code: with the weight 10 for the objective, the interior point `x = 3` is
reported as optimal with the multiplier -1 for the bound `x ≥ 0`, although the bound is not active:
the product of multiplier and distance is 3, three hundred times the tolerance. -/
theorem C106_slackness_violated : ∃ sol, Reports ⟨10, [0], [0]⟩ sol ∧ exParams.slackTol = 1/100 ∧
    sol.primal.value 0 = 3 ∧ exP.varsLb.value 0 = 0 ∧ sol.varsDual.value 0 = -1 := by
  obtain ⟨sol, h1, h2⟩ := reports (o := 10) (b := 0) (e := 0) (d := ⟨3/1024, 0, 0, 3/1024, 0⟩)
    (x := 3) (f := 3/1024) (g := 1/1024) (c := 3) (a := 1) (y := 0) (z := -1/1024)
    (by decide +kernel) (by decide +kernel) (by decide +kernel) (by decide +kernel) (by norm_num)
  refine ⟨sol, h1, rfl, ?_, by decide +kernel, ?_⟩
  · have := h2.primal 0
    rw [show (exPoint 3 (3/1024) (1/1024) 3 1 0 (-1/1024)).primal.value 0 = 3 * 2 ^ (-0 : ℤ) by decide +kernel] at this
    exact (mul_right_cancel₀ (pow2_pos _).ne' this).symm
  · have := h2.varsDual 0
    rw [show (exPoint 3 (3/1024) (1/1024) 3 1 0 (-1/1024)).varsDual.value 0 = -1 * 2 ^ (0 - 10 : ℤ) by decide +kernel] at this
    exact (mul_right_cancel₀ (pow2_pos _).ne' this).symm

/-! ### The hypotheses of the theorems are met -/

/-- any reported solution of the sample problem meets the hypotheses of `C106_scaled_partial` -/
theorem Reports.certified {o b e : ℤ} {sol : Iterate ℚ} (h : Reports ⟨o, [b], [e]⟩ sol) :
    ApproxKkt 1 1 exP sol (fun _ => 1/100 * 2 ^ e) (fun _ => 1/100 * 2 ^ (o - b)) (1/100 * 2 ^ o) := by
  obtain ⟨S, S', env, p', it, r1, r2, r3, r4, -, r5, r6⟩ := h
  obtain ⟨sol', h1, -, h2, -⟩ := C106_scaled_partial r1 r2 (by decide +kernel) (n := 1) (m := 1) (s := ⟨o, [b], [e]⟩) ⟨rfl, rfl⟩ exP_ok
    ⟨rfl, rfl, rfl, rfl⟩ r3 r4 r5 false
  rw [r6] at h1
  cases h1
  exact h2.mono (fun i hi => by obtain rfl : i = 0 := by omega
                                exact le_refl _)
    (fun j hj => by obtain rfl : j = 0 := by omega
                    exact le_refl _) le_rfl

/-- the solution `x = 1` with weights that tighten the tests: it satisfies the tolerances of the
settings (`C106_tight_partial`) -/
example : ∃ sol, Reports ⟨-1, [0], [-1]⟩ sol ∧ ApproxKkt 1 1 exP sol (fun _ => 1/100) (fun _ => 1/100) (1/100) ∧
    sol.primal.value 0 = 1 := by
  obtain ⟨sol, h1, h2⟩ := reports (o := -1) (b := 0) (e := -1) (d := ⟨2, 0, 0, 0, 0⟩)
    (x := 1) (f := 2) (g := 2) (c := 2) (a := 2) (y := -1) (z := 0)
    (by decide +kernel) (by decide +kernel) (by decide +kernel) (by decide +kernel) (by norm_num)
  refine ⟨sol, h1, ?_, ?_⟩
  · obtain ⟨S, S', env, p', it, r1, r2, r3, r4, -, r5, r6⟩ := h1
    obtain ⟨sol', k1, k2⟩ := C106_tight_partial r1 r2 (by decide +kernel) (s := ⟨-1, [0], [-1]⟩) ⟨rfl, rfl⟩
      (by decide +kernel) exP_ok ⟨rfl, rfl, rfl, rfl⟩ r3 r4 r5 false
    rw [r6] at k1
    cases k1
    exact k2
  · have := h2.primal 0
    rw [show (exPoint 1 2 2 2 2 (-1) 0).primal.value 0 = 1 * 2 ^ (-0 : ℤ) by decide +kernel] at this
    exact (mul_right_cancel₀ (pow2_pos _).ne' this).symm

/-- without scaling: the solution `x = 1` (`C106_unscaled_partial`) -/
example : ApproxKkt 1 1 exP exIt (fun _ => 1/100) (fun _ => 1/100) (1/100) := by
  obtain ⟨S', r1, r2, r3, r4, r5⟩ := exStill_run (d := ⟨1, 0, 0, 0, 0⟩) (by decide +kernel)
  obtain ⟨sol, k1, k2, -⟩ := C106_unscaled_partial r1 r2 (by decide +kernel) exFits
    ⟨by rw [r3]; decide +kernel, by rw [r4]; decide +kernel, by rw [r5]; decide +kernel⟩ false
  cases k1
  exact k2

end Sleqp
