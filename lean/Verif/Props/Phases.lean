import Verif.Lemmas.Phases
import Verif.Props.EvalProtocol
import Verif.Props.Restoration
import Verif.Props.Feas

/-! C98: changing between the optimization and the restoration phase. -/

namespace Sleqp

variable {P Q : Type*}

/-! ### any sequence of phases -/

/-- Partial (missing: as for C82, a registered callback together with a preprocessed problem, and second-order corrections at rejected points or with dynamic
functions). After any sequence of derivative checks, iterations and changes of the phase, the user's function is at the current iterate (in the restoration phase: at its
variables); in the optimization phase all parts of the iterate were evaluated there, also right after the return from the restoration phase, which sets no value.
Along the way, in both phases, every evaluation of the user's function is made while it is at the point the result is used for, which it did not reject. -/
theorem C98_phases_partial (pr : EvalParams) (proj : Q → P) (s s' : PhaseState P Q) (hcb : (pr.callback && pr.preprocess) = false)
    (hs : s.opt.Synced) (hr : s.inRest = false) (he : EvalsAtSet s.opt.log) (hf : ReadsFresh s.opt.log)
    (he' : EvalsAtSet s.rest.log) (hf' : ReadsFresh s.rest.log) (h : s.Reach pr proj s') :
    s'.Consistent proj ∧ EvalsAtSet s'.opt.log ∧ ReadsFresh s'.opt.log := by
  have hi : s'.Inv proj := phase_reach hcb
    ⟨(okFrom_iff _).2 ⟨he, hf⟩, (okFrom_iff _).2 ⟨he', hf'⟩, fun _ => hs, fun hh => (by rw [hr] at hh; cases hh)⟩ h
  refine ⟨?_, (okFrom_iff _).1 hi.ok⟩
  unfold PhaseState.Consistent
  cases hq : s'.inRest with
  | false => exact hi.opt hq
  | true =>
    obtain ⟨h1, h2⟩ := hi.rest hq
    have h3 := h2.func
    have h4 := h2.last
    rw [h1.2.1] at h3 h4
    exact ⟨h3, h4⟩

/-- On the return from the restoration phase the iterate is the point to which the restoration phase led. -/
theorem C98_point (pr : EvalParams) (proj : Q → P) (s s' : PhaseState P Q) (h : s.step pr proj .leave = some s') :
    s.inRest = true ∧ s'.inRest = false ∧ s'.opt.iterate.x = proj s.rest.iterate.x := by
  unfold PhaseState.step at h
  cases hq : s.inRest with
  | false => simp [hq] at h
  | true =>
    simp only [hq, if_true, Option.some.injEq] at h
    subst h
    exact ⟨rfl, rfl, rfl⟩

/-- a state after the evaluation of the initial point 0; lifted points are pairs -/
def exPhase : PhaseState Nat (Nat × Nat) := ⟨exEvalState, ⟨none, ⟨(0, 0), fun _ => none⟩, ⟨(0, 0), fun _ => none⟩, []⟩, none, none, false⟩

/-- a step of the restoration solver to `z`, accepted or not -/
def exRestEnv (z : Nat × Nat) (ok : Bool) : StepEnv (Nat × Nat) := ⟨false, 0, false, z, false, ok, z, false, false, false, false, false, false⟩

/-- an accepted step, restoration with an accepted and a rejected step, the return, another step, a second restoration which fails at once -/
def exPhaseOps : List (PhaseState.Op Nat (Nat × Nat)) :=
  [.optimize (exStepEnv 1 false true false), .enter (1, 7), .checkRest ⟨(9, 9), false, [.obj], false⟩, .restore (exRestEnv (2, 8) true), .restore (exRestEnv (5, 8) false), .leave,
    .optimize (exStepEnv 3 false false false), .enter (2, 5), .leave]

/-- the hypotheses are met by this solve, in which the user's function is at 2 at the end -/
example : exPhase.opt.Synced ∧ EvalsAtSet exPhase.opt.log ∧ ReadsFresh exPhase.opt.log ∧ EvalsAtSet exPhase.rest.log ∧ ReadsFresh exPhase.rest.log ∧
    (exPhase.run ⟨true, true, false, false, true⟩ Prod.fst exPhaseOps).map
      (fun s => (s.inRest, s.opt.iterate.x, s.opt.func, s.opt.iterate.src .cons, s.opt.iterate.src .obj)) = some (false, 2, some 2, some 2, some 2) := by
  have h := C82_start (P := Nat) 0 (fun _ => none) (fun _ => none) 0
  refine ⟨h.1, h.2.2.1, h.2.2.2, ?_, ?_, by decide +kernel⟩
  · intro pre part x post hh
    have : pre ++ EvalCall.eval part x :: post = [] := hh.symm
    simp at this
  · intro part x src hm
    cases hm

/-- such states are reached -/
example : ∃ s', exPhase.Reach ⟨true, true, false, false, true⟩ Prod.fst s' ∧ s'.inRest = false ∧ s'.opt.iterate.x = 2 :=
  ⟨_, .step .leave (.step (.restore (exRestEnv (2, 8) true)) (.step (.enter (1, 7)) (.step (.optimize (exStepEnv 1 false true false)) .refl
    (fun _ => ⟨rfl, rfl⟩) rfl) rfl rfl) trivial rfl) trivial rfl, rfl, rfl⟩

/-- operations along a solve meet the conditions of `Reach` if they are legal one after the other -/
theorem phase_run_reach {pr : EvalParams} {proj : Q → P} (s : PhaseState P Q) (ops : List (PhaseState.Op P Q)) :
    ∀ t s', s.Reach pr proj t → (∀ pre o post u, ops = pre ++ o :: post → t.run pr proj pre = some u → u.OpOk pr proj o) →
      t.run pr proj ops = some s' → s.Reach pr proj s' := by
  induction ops with
  | nil => intro t s' h _ hr; cases hr; exact h
  | cons o os ih =>
    intro t s' h ho hr
    simp only [PhaseState.run, List.foldlM_cons, Option.bind_eq_bind, Option.bind_eq_some_iff] at hr
    obtain ⟨u, hu, hr⟩ := hr
    refine ih u s' (.step o h (ho [] o os t rfl rfl) hu) ?_ hr
    intro pre o' post v hv hv'
    refine ho (o :: pre) o' post v (by rw [hv]; rfl) ?_
    simp only [PhaseState.run, List.foldlM_cons, Option.bind_eq_bind, hu, Option.bind_some]
    exact hv'

/-! ### values on the return -/

variable {K : Type*} [Field K] [LinearOrder K]

/-- the lifted point set last -/
def lastLifted (z : Vec K) : List (RestCall K) → Vec K
  | [] => z
  | .set z' :: cs => lastLifted z' cs
  | _ :: cs => lastLifted z cs

/-- The state of the restoration function at the lifted point `z`: what is cached was computed at the point of the user's function, and this is the
part of `z` belonging to the variables. -/
structure RestCached (pr : RestProblem K) (z : Vec K) (st : RestState K) : Prop where
  part : IsVarPart pr.numVars z st.probPoint
  val : st.hasVal = true → st.consVal = pr.consVal st.probPoint
  jac : st.hasJac = true → st.consJac = pr.consJac st.probPoint

theorem restCached_calls {pr : RestProblem K} (cs : List (RestCall K)) :
    ∀ {z : Vec K} {st st' : RestState K}, RestCached pr z st → (∀ z', RestCall.set z' ∈ cs → z'.WF ∧ z'.dim = pr.numVars + pr.numCons) →
      st.calls pr cs = some st' → RestCached pr (lastLifted z cs) st' := by
  induction cs with
  | nil => intro z st st' h _ hr; cases hr; exact h
  | cons c cs ih =>
    intro z st st' h hl hr
    simp only [RestState.calls, List.foldlM_cons, Option.bind_eq_bind, Option.bind_eq_some_iff] at hr
    obtain ⟨u, hu, hr⟩ := hr
    have hl' := fun z' hz' => hl z' (List.mem_cons_of_mem _ hz')
    cases c with
    | set z' =>
      obtain ⟨hz, hd⟩ := hl z' List.mem_cons_self
      obtain ⟨x, s, h1, xw, sw, xd, sd, hx, hs⟩ := splitPrimal_spec pr.numVars pr.numCons z' hz hd
      simp only [RestState.call, RestState.set, h1, Option.map_some, Option.some.injEq] at hu
      subst hu
      refine ih (z := z') ⟨⟨xw, xd, fun j hj => ?_⟩, ?_, ?_⟩ hl' hr
      · unfold Vec.value valAt; rw [hx j hj]
      · intro hh; cases hh
      · intro hh; cases hh
    | val =>
      simp only [RestState.call, RestState.computeVal, Option.some.injEq] at hu
      refine ih (z := z) ?_ hl' hr
      cases hv : st.hasVal with
      | true => simp only [hv, if_true] at hu; subst hu; exact h
      | false =>
        simp only [hv, Bool.false_eq_true, if_false] at hu
        subst hu
        exact ⟨h.part, fun _ => rfl, h.jac⟩
    | jac =>
      simp only [RestState.call, RestState.computeJac, Option.some.injEq] at hu
      refine ih (z := z) ?_ hl' hr
      cases hv : st.hasJac with
      | true => simp only [hv, if_true] at hu; subst hu; exact h
      | false =>
        simp only [hv, Bool.false_eq_true, if_false] at hu
        subst hu
        exact ⟨h.part, h.val, fun _ => rfl⟩

theorem computeBoth {pr : RestProblem K} {z : Vec K} {st : RestState K} (h : RestCached pr z st) :
    ((st.computeVal pr).computeJac pr).probPoint = st.probPoint ∧ ((st.computeVal pr).computeJac pr).consVal = pr.consVal st.probPoint ∧
    ((st.computeVal pr).computeJac pr).consJac = pr.consJac st.probPoint ∧ (st.computeVal pr).consVal = pr.consVal st.probPoint := by
  unfold RestState.computeVal RestState.computeJac
  have h2 := h.val
  have h3 := h.jac
  cases hv : st.hasVal <;> cases hj : st.hasJac <;> simp_all

/-- Entering the restoration phase from a point `x` with its constraint values and Jacobian, at a lifted point `z0` above `x`, and returning after any history of
the restoration function at the lifted point set last (or `z0`): the point handed back consists of the variables of that lifted point, and objective, gradient,
constraint values and Jacobian handed back are those of the user's function at that point, also if it was cached. -/
theorem C98_values (pr : RestProblem K) (obj : Vec K → K) (grad : Vec K → Vec K) (st0 st1 st : RestState K) (z0 : Vec K)
    (hz : z0.WF) (hd : z0.dim = pr.numVars + pr.numCons) (hx : IsVarPart pr.numVars z0 st0.probPoint)
    (hi : st0.init pr z0 (pr.consVal st0.probPoint) (pr.consJac st0.probPoint) = some st1) (cs : List (RestCall K))
    (hl : ∀ z', RestCall.set z' ∈ cs → z'.WF ∧ z'.dim = pr.numVars + pr.numCons) (hr : st1.calls pr cs = some st) :
    ∃ x p, IsVarPart pr.numVars (lastLifted z0 cs) x ∧ IsVarPart pr.numVars (lastLifted z0 cs) p ∧
      leaveRestoration pr obj grad (lastLifted z0 cs) st = some (x, obj p, grad p, pr.consVal p, pr.consJac p) := by
  have h1 : RestCached pr z0 st1 := by
    simp only [RestState.init, Option.map_eq_some_iff] at hi
    obtain ⟨xs, -, rfl⟩ := hi
    exact ⟨hx, fun _ => rfl, fun _ => rfl⟩
  have h := restCached_calls cs h1 hl hr
  have hzl : (lastLifted z0 cs).WF ∧ (lastLifted z0 cs).dim = pr.numVars + pr.numCons := by
    clear hr hi h h1 hx
    induction cs generalizing z0 with
    | nil => exact ⟨hz, hd⟩
    | cons c cs ih =>
      have hl' := fun z' hz' => hl z' (List.mem_cons_of_mem _ hz')
      cases c with
      | set z' => exact ih z' (hl z' List.mem_cons_self).1 (hl z' List.mem_cons_self).2 hl'
      | val => exact ih z0 hz hd hl'
      | jac => exact ih z0 hz hd hl'
  obtain ⟨x, x1, x2, x3, x4⟩ := C25_restore pr.numVars pr.numCons (lastLifted z0 cs) (Vec.create pr.numVars 0) hzl.1 hzl.2 rfl
  obtain ⟨b1, b2, b3, -⟩ := computeBoth h
  refine ⟨x, st.probPoint, ⟨x2, x3, x4⟩, h.part, ?_⟩
  unfold leaveRestoration
  rw [x1]
  simp only [Option.map_some]
  rw [b1, b2, b3]

variable [IsStrictOrderedRing K]

/-- If an accepted point ends the restoration phase, the constraint values handed back, those at the point the optimization phase continues from, are within the
tolerance of their bounds; otherwise one of them is not. -/
theorem C98_feasible (pr : RestProblem K) (hpr : pr.Ok) (obj : Vec K → K) (grad : Vec K → Vec K) (lb ub : Vec K) (feasEps : K) (he : 0 ≤ feasEps)
    (hlb : lb.WF) (hub : ub.WF) (dl : lb.dim = pr.numCons) (du : ub.dim = pr.numCons) (hle : ∀ i < pr.numCons, lb.value i ≤ ub.value i)
    (st : RestState K) (z : Vec K) (h : RestCached pr z st) (x : Vec K) (o : K) (g c : Vec K) (j : Mat K)
    (hret : leaveRestoration pr obj grad z st = some (x, o, g, c, j)) :
    ∃ b, restorationEnds pr lb ub feasEps st = some b ∧
      (b = true ↔ ∀ i < pr.numCons, lb.value i - feasEps ≤ c.value i ∧ c.value i ≤ ub.value i + feasEps) := by
  obtain ⟨b1, b2, b3, b4⟩ := computeBoth h
  simp only [leaveRestoration, Option.map_eq_some_iff, Prod.mk.injEq] at hret
  obtain ⟨x', -, -, -, -, hc, -⟩ := hret
  rw [b2] at hc
  subst hc
  have hb : Boxed pr.numCons (pr.consVal st.probPoint) lb ub :=
    ⟨hpr.cWF _ h.part.1 h.part.2.1, hlb, hub, hpr.cDim _ h.part.1 h.part.2.1, dl, du, hle⟩
  obtain ⟨m, hm, -⟩ := C12_max_violation hb
  refine ⟨decide (m ≤ feasEps), ?_, ?_⟩
  · unfold restorationEnds
    rw [b4, hm]
    rfl
  · rw [decide_eq_true_iff]
    exact C12_max_violation_le_iff hb he hm

/-- an entry at `(2, 1)` above the point 2 of the demo problem, followed by values set to `(3, 1)` and `(1, 1)` and evaluations: handed back is the point 1 with its
constraint value 1, which is feasible for the bounds `[0, 1]` -/
example :
    (((⟨⟨1, 0, []⟩, ⟨1, 0, []⟩, ⟨1, 0, []⟩, demoRest.consJac ⟨1, 0, []⟩, false, false, ⟨1, 1, [(0, 2)]⟩⟩ : RestState ℚ).init demoRest ⟨2, 2, [(0, 2), (1, 1)]⟩
      ⟨1, 1, [(0, 2)]⟩ (demoRest.consJac ⟨1, 0, []⟩)).bind fun st =>
      (st.calls demoRest [.val, .set ⟨2, 2, [(0, 3), (1, 1)]⟩, .val, .jac, .set ⟨2, 2, [(0, 1), (1, 1)]⟩, .val]).bind fun st =>
        (leaveRestoration demoRest (fun x => x.value 0 * 10) (fun x => x) ⟨2, 2, [(0, 1), (1, 1)]⟩ st).bind fun r =>
          (restorationEnds demoRest ⟨1, 0, []⟩ ⟨1, 1, [(0, 1)]⟩ 0 st).map fun b => decide (r.1.value 0 = 1 ∧ r.2.1 = 10 ∧ r.2.2.2.1.value 0 = 1 ∧ b = true)) = some true := by
  decide +kernel

end Sleqp
