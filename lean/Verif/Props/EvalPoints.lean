import Verif.Lemmas.EvalPoints
import Verif.Props.FixedVar
import Verif.Props.Presolve
import Verif.Props.Scale
import Mathlib.Tactic.NormNum

/-! C110: the user's functions are evaluated within the variable bounds. -/

namespace Sleqp

section
variable {K : Type*} [Field K] [LinearOrder K] [IsStrictOrderedRing K]

omit [Field K] [LinearOrder K] [IsStrictOrderedRing K] in
theorem createWF (n k : Nat) : (Vec.create n k : Vec K).WF := ⟨List.Pairwise.nil, by simp [Vec.create], by simp [Vec.create, Vec.nnz]⟩

theorem restBounds_spec {q : PointEnv K} (hp : q.bounds.Sized q.numVars q.numCons) {b : Bounds K} (h : q.restBounds = some b) :
    b.Sized (q.numVars + q.numCons) 0 ∧
    (∀ j < q.numVars, b.varsLb.value j = q.bounds.varsLb.value j ∧ b.varsUb.value j = q.bounds.varsUb.value j) ∧
    ∀ i < q.numCons, b.varsLb.value (q.numVars + i) = q.bounds.consLb.value i ∧ b.varsUb.value (q.numVars + i) = q.bounds.consUb.value i := by
  obtain ⟨lb, l1, l2, l3, l4, l5⟩ := C03_concat q.bounds.varsLb q.bounds.consLb (Vec.create (q.bounds.varsLb.dim + q.bounds.consLb.dim) 0) hp.wvl hp.wcl
  obtain ⟨ub, u1, u2, u3, u4, u5⟩ := C03_concat q.bounds.varsUb q.bounds.consUb (Vec.create (q.bounds.varsUb.dim + q.bounds.consUb.dim) 0) hp.wvu hp.wcu
  unfold PointEnv.restBounds restBound at h
  rw [l1, Option.bind_some, u1] at h
  cases h
  rw [hp.dvl] at l4 l5
  rw [hp.dvu] at u4 u5
  have d1 := hp.dvl
  have d2 := hp.dvu
  have d3 := hp.dcl
  have d4 := hp.dcu
  refine ⟨⟨l2, u2, createWF _ _, createWF _ _, by simp only; omega, by simp only; omega, rfl, rfl⟩, fun j hj => ⟨l4 j hj, u4 j hj⟩, fun i hi => ⟨l5 i, u5 i⟩⟩

/-- the invariant -/
abbrev PtInv (q : PointEnv K) : PhaseState (Vec K) (Vec K) → Prop :=
  PInv (PointInBox q.numVars q.bounds.varsLb q.bounds.varsUb) (fun x => x.dim = q.numVars)
      (fun z => PointInBox q.numVars q.bounds.varsLb q.bounds.varsUb (q.vars z) ∧ z.WF ∧ z.dim = q.numVars + q.numCons) (fun z => z.dim = q.numVars + q.numCons)

theorem vars_spec (q : PointEnv K) (z : Vec K) (hz : z.WF) (hd : z.dim = q.numVars + q.numCons) :
    (q.vars z).WF ∧ (q.vars z).dim = q.numVars ∧ ∀ j < q.numVars, (q.vars z).value j = z.value j := by
  obtain ⟨x, s, h1, xw, -, xd, -, hx, -⟩ := splitPrimal_spec q.numVars q.numCons z hz hd
  unfold PointEnv.vars
  rw [h1]
  exact ⟨xw, xd, fun j hj => valAt_congr (hx j hj)⟩

theorem points_start (q : PointEnv K) (hp : q.bounds.Sized q.numVars q.numCons) (hz : 0 ≤ q.zeroEps)
    (hv : ClearBounds q.numVars q.bounds.varsLb q.bounds.varsUb q.zeroEps) (primal : Vec K) (rejects : Bool) (hs : primal.WF ∧ primal.dim = q.numVars)
    (s s' : PhaseState (Vec K) (Vec K)) (hi : s.opt.iterate.x.dim = q.numVars) (ht : s.opt.trial.x.dim = q.numVars)
    (hl : SetsWithin (PointInBox q.numVars q.bounds.varsLb q.bounds.varsUb) s.opt.log)
    (hl' : SetsWithin (fun z => PointInBox q.numVars q.bounds.varsLb q.bounds.varsUb (q.vars z) ∧ z.WF ∧ z.dim = q.numVars + q.numCons) s.rest.log)
    (ht' : s.rest.trial.x.dim = q.numVars + q.numCons)
    (hi' : s.inRest = true → PointInBox q.numVars q.bounds.varsLb q.bounds.varsUb (q.vars s.rest.iterate.x) ∧ s.rest.iterate.x.WF ∧ s.rest.iterate.x.dim = q.numVars + q.numCons)
    (h : q.start primal rejects s = some s') : PtInv q s' := by
  unfold PointEnv.start at h
  split_ifs at h with h0
  obtain ⟨x, h1, h2⟩ := Option.bind_eq_some_iff.mp h
  have hx := clip_inBox hz ⟨hp.wvl, hp.dvl⟩ ⟨hp.wvu, hp.dvu⟩ hv hs hi h1
  simp only at h2
  split_ifs at h2
  cases h2
  refine ⟨?_, hl', ht', hi'⟩
  have h3 : EInv (PointInBox q.numVars q.bounds.varsLb q.bounds.varsUb) (fun x => x.dim = q.numVars)
      ({ s.opt with iterate := { s.opt.iterate with x := x } } : EvalState (Vec K)) := ⟨hx, ht, hl⟩
  exact EInv.foldl _ (fun _ p h => h.evalIterate p) _ _ (h3.setValue (fun _ => hx) _)

theorem points_step (q : PointEnv K) (pr : EvalParams) (hp : q.bounds.Sized q.numVars q.numCons) (hz : 0 ≤ q.zeroEps)
    (hv : ClearBounds q.numVars q.bounds.varsLb q.bounds.varsUb q.zeroEps) (hc : ClearBounds q.numCons q.bounds.consLb q.bounds.consUb q.zeroEps)
    (o : PointOp K) (ho : o.Sized q.numVars q.numCons) (s s' : PhaseState (Vec K) (Vec K)) (hs : PtInv q s) (h : q.step pr s o = some s') : PtInv q s' := by
  have hBD : ∀ x, PointInBox q.numVars q.bounds.varsLb q.bounds.varsUb x → x.dim = q.numVars := fun x hx => hx.2.1
  have hpr : ∀ z, (PointInBox q.numVars q.bounds.varsLb q.bounds.varsUb (q.vars z) ∧ z.WF ∧ z.dim = q.numVars + q.numCons) →
      PointInBox q.numVars q.bounds.varsLb q.bounds.varsUb (q.vars z) := fun z hz => hz.1
  cases o with
  | start primal rejects =>
    exact points_start q hp hz hv primal rejects ho s s' hs.opt.it.2.1 hs.opt.tr hs.opt.log hs.log hs.tr hs.it h
  | check c =>
    obtain ⟨c', -, h2⟩ := Option.bind_eq_some_iff.mp h
    unfold PhaseState.step at h2
    simp only at h2
    split_ifs at h2
    obtain ⟨o, h3, rfl⟩ := Option.map_eq_some_iff.mp h2
    exact ⟨hs.opt.checkAt h3, hs.log, hs.tr, hs.it⟩
  | optimize e =>
    obtain ⟨e', h1, h2⟩ := Option.bind_eq_some_iff.mp h
    obtain ⟨b1, b2⟩ := stepData_env hp hz hv ⟨hs.opt.it.1, hs.opt.it.2.1⟩ hs.opt.tr ho h1
    unfold PhaseState.step at h2
    simp only at h2
    split_ifs at h2
    obtain ⟨⟨o, acc⟩, h3, rfl⟩ := Option.map_eq_some_iff.mp h2
    exact ⟨hs.opt.iteration hBD b1 b2 h3, hs.log, hs.tr, hs.it⟩
  | enter c =>
    obtain ⟨z, h1, h2⟩ := Option.bind_eq_some_iff.mp h
    unfold PhaseState.step at h2
    simp only at h2
    split_ifs at h2
    cases h2
    obtain ⟨z', z1, z2, z3, z4, -, -⟩ := C25_transform q.numVars q.numCons q.bounds.consLb q.bounds.consUb s.opt.iterate.x c (Vec.create (q.numVars + q.numCons) 0)
      hp.wcl hp.wcu hs.opt.it.1 ho.1 hp.dcl hp.dcu hs.opt.it.2.1 ho.2 rfl (fun i hi => (hc i hi).1)
    rw [h1] at z1
    cases z1
    obtain ⟨v1, v2, v3⟩ := vars_spec q z z2 z3
    exact hs.enter ⟨⟨v1, v2, fun j hj => by rw [v3 j hj, z4 j hj]; exact hs.opt.it.2.2 j hj⟩, z2, z3⟩
  | checkRest c =>
    obtain ⟨c', -, h2⟩ := Option.bind_eq_some_iff.mp h
    unfold PhaseState.step at h2
    simp only at h2
    split_ifs at h2 with hr
    obtain ⟨o, h3, rfl⟩ := Option.map_eq_some_iff.mp h2
    have h4 : EInv (fun z => PointInBox q.numVars q.bounds.varsLb q.bounds.varsUb (q.vars z) ∧ z.WF ∧ z.dim = q.numVars + q.numCons)
        (fun z => z.dim = q.numVars + q.numCons) s.rest := ⟨hs.it hr, hs.tr, hs.log⟩
    exact hs.restDone hpr (h4.checkAt h3)
  | restore e =>
    obtain ⟨b, h0, h'⟩ := Option.bind_eq_some_iff.mp h
    obtain ⟨e', h1, h2⟩ := Option.bind_eq_some_iff.mp h'
    unfold PhaseState.step at h2
    simp only at h2
    split_ifs at h2 with hr
    obtain ⟨⟨o, acc⟩, h3, rfl⟩ := Option.map_eq_some_iff.mp h2
    obtain ⟨r1, r2, r3⟩ := restBounds_spec hp h0
    have hcl : ClearBounds (q.numVars + q.numCons) b.varsLb b.varsUb q.zeroEps := by
      intro j hj
      by_cases hj' : j < q.numVars
      · rw [(r2 j hj').1, (r2 j hj').2]
        exact hv j hj'
      · obtain ⟨i, rfl⟩ := Nat.exists_eq_add_of_le (not_lt.mp hj')
        rw [(r3 i (by omega)).1, (r3 i (by omega)).2]
        exact hc i (by omega)
    obtain ⟨b1, b2⟩ := stepData_env r1 hz hcl ⟨(hs.it hr).2.1, (hs.it hr).2.2⟩ hs.tr ho h1
    have key : ∀ z, PointInBox (q.numVars + q.numCons) b.varsLb b.varsUb z →
        PointInBox q.numVars q.bounds.varsLb q.bounds.varsUb (q.vars z) ∧ z.WF ∧ z.dim = q.numVars + q.numCons := by
      rintro z ⟨z1, z2, z3⟩
      obtain ⟨v1, v2, v3⟩ := vars_spec q z z1 z2
      refine ⟨⟨v1, v2, fun j hj => ?_⟩, z1, z2⟩
      rw [v3 j hj, ← (r2 j hj).1, ← (r2 j hj).2]
      exact z3 j (by omega)
    have h4 : EInv (fun z => PointInBox q.numVars q.bounds.varsLb q.bounds.varsUb (q.vars z) ∧ z.WF ∧ z.dim = q.numVars + q.numCons)
        (fun z => z.dim = q.numVars + q.numCons) s.rest := ⟨hs.it hr, hs.tr, hs.log⟩
    exact hs.restDone hpr (h4.iteration (fun z hz => hz.2.2) (key _ b1) (key _ b2) h3)
  | leave =>
    unfold PointEnv.step PhaseState.step at h
    simp only at h
    split_ifs at h with hr
    cases h
    exact hs.leave hpr hr
  | finish rejects =>
    unfold PointEnv.step at h
    simp only at h
    split_ifs at h with hr
    obtain ⟨o, h3, rfl⟩ := Option.map_eq_some_iff.mp h
    exact ⟨(hs.opt.restoreOriginal h3).1, hs.log, hs.tr, hs.it⟩

theorem points_run (q : PointEnv K) (pr : EvalParams) (hp : q.bounds.Sized q.numVars q.numCons) (hz : 0 ≤ q.zeroEps)
    (hv : ClearBounds q.numVars q.bounds.varsLb q.bounds.varsUb q.zeroEps) (hc : ClearBounds q.numCons q.bounds.consLb q.bounds.consUb q.zeroEps) :
    ∀ (ops : List (PointOp K)) (s s' : PhaseState (Vec K) (Vec K)), PtInv q s → (∀ o ∈ ops, o.Sized q.numVars q.numCons) →
      ops.foldlM (fun (s : PhaseState (Vec K) (Vec K)) o => q.step pr s o) s = some s' → PtInv q s'
  | [], _, _, h, _, hr => by cases hr; exact h
  | o :: ops, s, s', h, ho, hr => by
    rw [List.foldlM_cons] at hr
    obtain ⟨s1, h1, h2⟩ := Option.bind_eq_some_iff.mp hr
    exact points_run q pr hp hz hv hc ops s1 s' (points_step q pr hp hz hv hc o (ho o (List.mem_cons_self ..)) s s1 h h1)
      (fun o ho' => ho o (List.mem_cons_of_mem _ ho')) h2

/-- Partial (missing: values set for checking derivatives, see `C110_check_violated`; layers between solver and user, see below). Over any sequence of solves, whatever steps are
computed and whatever the function rejects, every value of the user's function set by the solver is within the bounds of the variables, in the optimization phase as well as in the
restoration phase: initial points, trial points, second-order corrections, accepted and rejected points, and the points restored at the end. -/
theorem C110_within_partial (q : PointEnv K) (pr : EvalParams) (hp : q.bounds.Sized q.numVars q.numCons) (hz : 0 ≤ q.zeroEps)
    (hv : ClearBounds q.numVars q.bounds.varsLb q.bounds.varsUb q.zeroEps) (hc : ClearBounds q.numCons q.bounds.consLb q.bounds.consUb q.zeroEps) (primal : Vec K)
    (rejects : Bool) (ops : List (PointOp K)) (hops : ∀ o ∈ PointOp.start primal rejects :: ops, o.Sized q.numVars q.numCons) (s : PhaseState (Vec K) (Vec K))
    (h : q.run pr (.start primal rejects :: ops) q.initial = some s) :
    ∀ x r rej, EvalCall.set x r rej ∈ s.opt.log → r ≠ .checkingDeriv → PointInBox q.numVars q.bounds.varsLb q.bounds.varsUb x := by
  have hB : PInv (PointInBox q.numVars q.bounds.varsLb q.bounds.varsUb) (fun x => x.dim = q.numVars)
      (fun z => PointInBox q.numVars q.bounds.varsLb q.bounds.varsUb (q.vars z) ∧ z.WF ∧ z.dim = q.numVars + q.numCons) (fun z => z.dim = q.numVars + q.numCons) s := by
    unfold PointEnv.run at h
    rw [List.foldlM_cons] at h
    obtain ⟨s1, h1, h2⟩ := Option.bind_eq_some_iff.mp h
    exact points_run q pr hp hz hv hc ops s1 s (points_start q hp hz hv primal rejects (hops _ (List.mem_cons_self ..)) q.initial s1 rfl rfl
      (fun x r j hm => by cases hm) (fun x r j hm => by cases hm) rfl (fun hh => by cases hh) h1) (fun o ho => hops o (List.mem_cons_of_mem _ ho)) h2
  exact hB.opt.log

/-! ### layers between the solver and the user -/

/-- C110: with a scaled problem, points within the scaled bounds are handed to the user's function as points within the bounds of the original problem. -/
theorem C110_scaled {s : Scaling} {n m : Nat} (hs : s.For n m) {lb ub lb' ub' : Vec K} (hl : VOk n lb) (hu : VOk n ub) (hl' : s.scalePoint lb = some lb')
    (hu' : s.scalePoint ub = some ub') {cache y : Vec K} (hc : cache.dim = n) (hy : PointInBox n lb' ub' y) :
    ∃ x, s.funcPoint cache y = some x ∧ PointInBox n lb ub x := by
  obtain ⟨x, h1, h2, h3⟩ := C33_point (m := m) hs hc ⟨hy.1, hy.2.1⟩
  refine ⟨x, h1, h2.1, h2.2, fun j hj => ?_⟩
  obtain ⟨b1, b2⟩ := hy.2.2 j hj
  unfold Scaling.scalePoint at hl' hu'
  rw [applyScaling_eq hl hs.vars] at hl'
  rw [applyScaling_eq hu hs.vars] at hu'
  cases hl'
  cases hu'
  rw [scaledBy_value] at b1 b2
  have e : ∀ v : K, v = v * 2 ^ (-1 * (s.varW[j]?).getD 0 + 0) * 2 ^ s.beta j := by
    intro v
    rw [mul_assoc, ← zpow_add₀ two_ne_zero, show -1 * (s.varW[j]?).getD 0 + 0 + s.beta j = 0 by unfold Scaling.beta; ring, zpow_zero, mul_one]
  rw [h3 j, e (lb.value j), e (ub.value j)]
  exact ⟨(le_scaled _).2 b1, (le_scaled _).2 b2⟩

/-- Partial (missing: problems of which bounds are removed, see `C110_preprocess_violated`; positive tolerances). If preprocessing removes no bound of a variable, points within the
variable bounds of the preprocessed problem are handed to the user's function as points within the bounds of the original problem; it may fix variables, convert constraints to bounds
and remove constraints. -/
theorem C110_preprocessed_partial {p : Prob K} (hp : p.WF) {inf : K} (hinf : 0 < inf) (hfc : p.FiniteCoeffs inf) {x0 : Nat → K}
    (hl0 : p.LinFeasible x0) (hf0 : p.FiniteAt inf x0) {row : Nat → Nat} {val : Nat → K} {s : Presolve K} {q : Prob K}
    (h : preprocess inf 0 0 p row val = .ok (s, q)) (hno : ∀ j < p.numVars, s.varReq j ≠ .redLower ∧ s.varReq j ≠ .redUpper) {y : Vec K}
    (hy : PointInBox q.numVars q.varLb q.varUb y) :
    ∃ x, fixedPoint p.numVars (s.fixedList p.numVars) y = some x ∧ PointInBox p.numVars p.varLb p.varUb x := by
  obtain ⟨_, h2, _, q2, q3, q4, q5, q6, tv, q7⟩ := preprocess_ok hp hinf hfc ⟨hl0, hf0⟩ h
  obtain ⟨f1, f2, -⟩ := fixedList_spec s p.numVars
  have hfl : ∀ e ∈ s.fixedList p.numVars, e.1 < p.numVars := fun e he => ((f2 e.1 e.2).mp he).1
  obtain ⟨x, x1, x2, x3, x4⟩ := C35_point f1 hfl hy.1 (by rw [hy.2.1]; exact q3)
  refine ⟨x, x1, x2.1, x2.2, fun j hj => ?_⟩
  have hfs : ((s.fixedList p.numVars).map Prod.fst).Pairwise (· < ·) := List.pairwise_map.mpr f1
  by_cases hm : j ∈ (s.fixedList p.numVars).map Prod.fst
  · obtain ⟨e, he, rfl⟩ := List.mem_map.mp hm
    rw [x3 e he, ← h2.fixedOk e.1 hj e.2 ((f2 e.1 e.2).mp he).2 x0 ⟨hl0, hf0⟩]
    exact hl0.1 e.1 hj
  · obtain ⟨k, rfl⟩ := oldIdx_surj hfs hm
    have hk : k < q.numVars := oldIdx_lt' hfs (fun r hr => by obtain ⟨e, he, rfl⟩ := List.mem_map.mp hr; exact hfl e he)
      (by rw [List.length_map]; exact q3.symm) hj
    obtain ⟨b1, b2⟩ := hy.2.2 k hk
    rw [x4 k]
    have c1 := ((tv.varLb k hk _).mp b1).1
    have c2 := ((tv.varUb k hk _).mp b2).1
    rw [if_neg (hno _ hj).1] at c1
    rw [if_neg (hno _ hj).2] at c2
    exact ⟨c1, c2⟩

end

/-! ### a history -/

/-- one variable in `[1, 3]` and a constraint with values in `[0, 2]` -/
def exPoints : PointEnv ℚ := ⟨1, 1, 1 / 1000, 1 / 100, ⟨⟨1, 1, [(0, 1)]⟩, ⟨1, 1, [(0, 3)]⟩, ⟨1, 1, []⟩, ⟨1, 1, [(0, 2)]⟩⟩⟩

/-- an iteration with the steps `d` (trial point) and `c` (second-order correction) -/
def exStepData (d c : Vec ℚ) (trialOk socOk : Bool) : StepData ℚ := ⟨false, 0, false, d, Vec.create 1 0, false, trialOk, c, Vec.create 1 0, false, false, socOk, false, false, false⟩

/-- a solve from 7 (clipped to 3): a rejected step to -5 (clipped to 1), a correction to 2, restoration with a step of the variable to 9 (clipped to 3), the return, the end, and
another solve from 0 -/
def exPointOps : List (PointOp ℚ) :=
  [.optimize (exStepData ⟨1, 1, [(0, -8)]⟩ ⟨1, 1, [(0, -1)]⟩ false true), .enter ⟨1, 1, [(0, 5)]⟩,
    .restore (exStepData ⟨2, 2, [(0, 7), (1, -1)]⟩ ⟨2, 2, []⟩ true false), .leave, .finish false, .start ⟨1, 1, []⟩ false]

def setPoints (log : List (EvalCall (Vec ℚ))) : List (ℚ × ValReason) :=
  log.filterMap fun | .set x r _ => some (x.value 0, r) | _ => none

example : (exPoints.run ⟨true, true, false, false, true⟩ (.start ⟨1, 1, [(0, 7)]⟩ false :: exPointOps) exPoints.initial).map (fun s => setPoints s.opt.log) =
    some [(3, .init), (1, .trying), (2, .trying), (2, .accepted), (3, .trying), (3, .accepted), (3, .none), (1, .init)] := by decide +kernel

example : exPoints.bounds.Sized 1 1 ∧ ClearBounds 1 exPoints.bounds.varsLb exPoints.bounds.varsUb exPoints.zeroEps ∧
    ClearBounds 1 exPoints.bounds.consLb exPoints.bounds.consUb exPoints.zeroEps := by
  refine ⟨⟨by decide +kernel, by decide +kernel, by decide +kernel, by decide +kernel, rfl, rfl, rfl, rfl⟩, ?_, ?_⟩ <;> unfold ClearBounds <;> decide +kernel

/-! ### violations -/

/-- C110 violated by the code: a derivative check evaluates the user's functions outside of the bounds. With a variable in `[1, 3]` and the initial point 3, the point `3 + 3/100` is
set (the perturbation is not directed into the bounds), as a value which is not in the domain the user declared. -/
theorem C110_check_violated :
    (exPoints.run ⟨true, true, false, false, false⟩ [.start ⟨1, 1, [(0, 3)]⟩ false, .check ⟨0, false, [.obj], false⟩] exPoints.initial).map
        (fun s => setPoints s.opt.log) = some [(3, .init), (303 / 100, .checkingDeriv), (3, .checkingDeriv)] ∧ exPoints.bounds.varsUb.value 0 = 3 := by
  constructor <;> decide +kernel

/-- the points of the solver for a problem -/
def Prob.pointEnv {K : Type*} (q : Prob K) (zeroEps perturbation : K) : PointEnv K := ⟨q.numVars, q.numGen + q.numLin, zeroEps, perturbation, ⟨q.varLb, q.varUb, q.consLb, q.consUb⟩⟩

/-- two variables, `x ∈ [0, 10]`, `y ∈ [0, 1]`, with `x + y ≥ 3` -/
def exImplied : Prob ℚ where
  numVars := 2
  numGen := 0
  numLin := 1
  varLb := ⟨2, 2, []⟩
  varUb := ⟨2, 2, [(0, 10), (1, 1)]⟩
  genLb := ⟨0, 0, []⟩
  genUb := ⟨0, 0, []⟩
  linLb := ⟨1, 1, [(0, 3)]⟩
  linUb := ⟨1, 1, [(0, 1000)]⟩
  consLb := ⟨1, 1, [(0, 3)]⟩
  consUb := ⟨1, 1, [(0, 1000)]⟩
  coeffs := ⟨1, 2, 2, 2, fun k => [0, 1, 2].getD k 2, fun _ => 0, fun _ => 1⟩

/-- C110 violated by the code: with preprocessing enabled, the user's functions are evaluated outside of the bounds in the course of the iterations. For `x ∈ [0, 10]`, `y ∈ [0, 1]` and
the constraint `x + y ≥ 3`, the constraint implies `x ≥ 2`; the bound `x ≥ 0` is removed from the problem as redundant. Trial points satisfy the remaining variable bounds, but linear
constraints only approximately or not at all: a step from `(5, 1)` by `(-7, 0)` leads to the evaluation at `(-2, 1)`. -/
theorem C110_preprocess_violated : exImplied.WF ∧ exImplied.LinFeasible (fun j => [5, 1].getD j 0) ∧ exImplied.varLb.value 0 = 0 ∧
    ∃ s q, preprocess 1000 0 0 exImplied (fun _ => 0) (fun _ => 0) = .ok (s, q) ∧ s.result = .success ∧ s.fixedList 2 = [] ∧
      ((q.pointEnv 0 (1 / 100)).run ⟨true, true, false, false, true⟩
        [.start ⟨2, 2, [(0, 5), (1, 1)]⟩ false, .optimize (exStepData ⟨2, 2, [(0, -7)]⟩ ⟨2, 2, []⟩ false false)] (q.pointEnv 0 (1 / 100)).initial).map
        (fun t => setPoints t.opt.log) = some [(5, .init), (-2, .trying), (5, .trying), (5, .rejected)] := by
  refine ⟨by decide +kernel, by decide +kernel, by decide +kernel, ?_⟩
  obtain ⟨⟨s, q⟩, e1, e2⟩ := okAnd_spec (e := preprocess 1000 0 0 exImplied (fun _ => 0) (fun _ => 0))
    (P := fun r => r.1.result = .success ∧ r.1.fixedList 2 = [] ∧
      ((r.2.pointEnv 0 (1 / 100)).run ⟨true, true, false, false, true⟩
        [.start ⟨2, 2, [(0, 5), (1, 1)]⟩ false, .optimize (exStepData ⟨2, 2, [(0, -7)]⟩ ⟨2, 2, []⟩ false false)] (r.2.pointEnv 0 (1 / 100)).initial).map
        (fun t => setPoints t.opt.log) = some [(5, .init), (-2, .trying), (5, .trying), (5, .rejected)]) (by decide +kernel)
  exact ⟨s, q, e1, e2⟩

/-- the hypotheses of `C110_preprocessed_partial` are met by the problem with the constraint `x + y ≥ 0` instead, which is removed -/
example : ∃ s q, preprocess 1000 0 0 { exImplied with linLb := ⟨1, 1, []⟩, consLb := ⟨1, 1, []⟩ } (fun _ => 0) (fun _ => 0) = .ok (s, q) ∧
    ∀ j < 2, s.varReq j ≠ .redLower ∧ s.varReq j ≠ .redUpper := by
  obtain ⟨⟨s, q⟩, e1, e2⟩ := okAnd_spec (e := preprocess 1000 0 0 { exImplied with linLb := ⟨1, 1, []⟩, consLb := ⟨1, 1, []⟩ } (fun _ => 0) (fun _ => 0))
    (P := fun r => (List.range 2).map r.1.varReq = [.required, .required]) (by decide +kernel)
  refine ⟨s, q, e1, fun j hj => ?_⟩
  have h2 : s.varReq 0 = .required ∧ s.varReq 1 = .required := by simpa [List.range_succ] using e2
  interval_cases j
  · rw [h2.1]; decide
  · rw [h2.2]; decide

end Sleqp
