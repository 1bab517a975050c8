import Verif.Lemmas.EvalProtocol

/-!
C82: what the solver uses as the objective, the gradient, ... at a point was evaluated while the function was set
to this point and did not reject it; between iterations the function is at the current iterate; and the function
is told truthfully why its value is set.
-/

namespace Sleqp

variable {P : Type*}

/-! ### the initial point -/

/-- If the function does not reject the initial point, the solver starts with a completely evaluated iterate at
which the function is, and all evaluations were made there. -/
theorem C82_start (x : P) (i t : EvalPart → Option P) (y : P) :
    let s := (EvalState.start ⟨none, ⟨x, i⟩, ⟨y, t⟩, []⟩ false).1
    s.Synced ∧ s.iterate.x = x ∧ EvalsAtSet s.log ∧ ReadsFresh s.log := by
  refine ⟨⟨rfl, rfl, ?_⟩, rfl, (okFrom_iff _).1 ?_⟩
  · intro p hp
    cases p <;>
      simp_all [EvalState.start, EvalState.setAndEvaluate, storedParts, EvalState.evalIterate, EvalState.setValue, EvalSlot.put]
  · simp [EvalState.start, EvalState.setAndEvaluate, storedParts, EvalState.evalIterate, EvalState.setValue, EvalSlot.put, okFrom]

/-- A function which rejects the initial point is evaluated there nevertheless: `sleqp_set_and_evaluate` reports the
rejection but evaluates the objective, the gradient, the constraints and the Jacobian first; only afterwards the
solve ends with an error. -/
theorem C82_initial_rejected_violated :
    ∃ s : EvalState Nat, s.log = [] ∧ (s.start true).2 = false ∧ ¬ EvalsAtSet (s.start true).1.log := by
  refine ⟨⟨none, ⟨0, fun _ => none⟩, ⟨0, fun _ => none⟩, []⟩, rfl, rfl, fun h => ?_⟩
  exact absurd (h [.set 0 .init true] .obj 0 [.eval .grad 0, .eval .cons 0, .eval .jac 0] rfl) (by decide)

/-! ### one iteration -/

/-- Partial (missing: a registered callback together with a preprocessed problem, see `C82_callback_violated`).
After an iteration, the function is at the current iterate, all parts of which were evaluated there. The
function was told truthfully which points were tried, accepted, and returned to: a point set as accepted is the
new iterate, and was tried and not rejected before; after a rejected step the value is the old iterate. -/
theorem C82_iteration_partial (pr : EvalParams) (e : StepEnv P) (s s' : EvalState P) (acc : Bool)
    (hcb : (pr.callback && pr.preprocess) = false) (hs : s.Synced) (h : s.iteration pr e = some (s', acc)) :
    s'.Synced ∧ ∃ l, s'.log = s.log ++ l ∧ IterationTold acc s.iterate.x s'.iterate.x l := by
  obtain ⟨l, h1, h2, h3, -⟩ := evalIteration_spec pr e s s' acc hcb hs h
  exact ⟨h2, l, h1, h3⟩

/-- An iteration ends with an error only if the function rejects a point which it must not reject: the new iterate,
the old iterate it returns to, or the point restored for the callback. -/
theorem C82_no_error (pr : EvalParams) (e : StepEnv P) (s : EvalState P) (h1 : e.acceptRejects = false)
    (h2 : e.resetRejects = false) (h3 : e.restoreRejects = false) : (s.iteration pr e).isSome := by
  have hR : ∀ t : EvalState P, (t.rejectStep e).isSome := by intro t; simp [EvalState.rejectStep, h2]
  have hA : ∀ t : EvalState P, (t.acceptStep pr e).isSome := by
    intro t
    unfold EvalState.acceptStep EvalState.restoreOriginal
    cases pr.callback <;> cases pr.preprocess <;> simp [h1, h3]
  unfold EvalState.iteration
  dsimp only
  split
  · rfl
  split
  · rfl
  split
  · rw [Option.isSome_map]; exact hA _
  split
  · split
    · rw [Option.isSome_map]; exact hR _
    split
    · rw [Option.isSome_map]; exact hA _
    · rw [Option.isSome_map]; exact hR _
  · rw [Option.isSome_map]; exact hR _

/-! ### a whole solve -/

/-- The trouble with second-order corrections is avoided: either none are computed, or the function is not
dynamic and rejects no trial point. -/
def SocHarmless (pr : EvalParams) (envs : List (StepEnv P)) : Prop :=
  (pr.hasCons && pr.performSoc) = true → pr.dynamic = false ∧ ∀ e ∈ envs, e.trialRejects = false

/-- Partial (missing: see the three violations below). Along a whole solve (derivative check, iterations, restoration
of the original iterate), every evaluation is made while the function is at the point it is used for, which it
did not reject; whatever is read from an iterate was evaluated at this iterate; at the end the function is at
the final iterate. -/
theorem C82_solve_partial (pr : EvalParams) (checks : List (CheckEnv P)) (envs : List (StepEnv P)) (rj : Bool)
    (s s' : EvalState P) (hcb : (pr.callback && pr.preprocess) = false) (hsoc : SocHarmless pr envs)
    (hs : s.Synced) (he : EvalsAtSet s.log) (hr : ReadsFresh s.log) (h : s.solve pr checks envs rj = some s') :
    s'.Synced ∧ EvalsAtSet s'.log ∧ ReadsFresh s'.log := by
  have key : ∀ t t' : EvalState P, ∀ l, t'.log = t.log ++ l → t.Synced → okFrom none t.log →
      okFrom (some (t.iterate.x, false)) l → okFrom none t'.log := by
    intro t t' l hl ht ho hol
    rw [hl, okFrom_append]
    refine ⟨ho, ?_⟩
    have : t.log.foldl setStep none = some (t.iterate.x, false) := ht.2.1
    rw [this]
    exact hol
  have ho : okFrom none s.log := (okFrom_iff _).2 ⟨he, hr⟩
  unfold EvalState.solve at h
  simp only [Option.bind_eq_some_iff] at h
  obtain ⟨s1, hc, s2, hi, hrest⟩ := h
  have hC : s1.Synced ∧ okFrom none s1.log := by
    clear hi hrest he hr
    induction checks generalizing s with
    | nil =>
      simp only [List.foldlM_nil] at hc
      cases hc
      exact ⟨hs, ho⟩
    | cons c cs ih =>
      simp only [List.foldlM_cons, Option.bind_eq_bind, Option.bind_eq_some_iff] at hc
      obtain ⟨t, ht, hc⟩ := hc
      obtain ⟨l, g1, g2, -, -, g5, -⟩ := check_spec hs ht
      exact ih t g2 (key s t l g1 hs ho g5) hc
  have hI : s2.Synced ∧ okFrom none s2.log := by
    clear hc hrest
    obtain ⟨hs1, ho1⟩ := hC
    induction envs generalizing s1 with
    | nil =>
      simp only [List.foldlM_nil] at hi
      cases hi
      exact ⟨hs1, ho1⟩
    | cons e es ih =>
      simp only [List.foldlM_cons, Option.bind_eq_bind, Option.bind_eq_some_iff, Option.map_eq_some_iff] at hi
      obtain ⟨t, ⟨⟨t2, a⟩, ht, rfl⟩, hi⟩ := hi
      obtain ⟨l, g1, g2, -, g4, -⟩ := evalIteration_spec pr e s1 t2 a hcb hs1 ht
      refine ih (fun hb => ⟨(hsoc hb).1, fun e' h' => (hsoc hb).2 e' (List.mem_cons_of_mem _ h')⟩) t2 hi g2 ?_
      exact key s1 t2 l g1 hs1 ho1 (g4 fun hb => ⟨(hsoc hb).1, (hsoc hb).2 e List.mem_cons_self⟩)
  obtain ⟨l, g1, g2, -, -, g5, -⟩ := restore_spec hI.1 hrest
  exact ⟨g2, (okFrom_iff _).1 (key s2 s' l g1 hI.1 hI.2 g5)⟩

/-- an environment: trial points 1, corrections 2, acceptance as given -/
def exStepEnv (x : Nat) (tRej tOk sOk : Bool) : StepEnv Nat where
  done := false
  refinements := 1
  stop := false
  trialX := x
  trialRejects := tRej
  trialOk := tOk
  socX := x + 1
  socRefused := false
  socRejects := false
  socOk := sOk
  acceptRejects := false
  resetRejects := false
  restoreRejects := false

/-- a state after the evaluation of the initial point 0 -/
def exEvalState : EvalState Nat :=
  (EvalState.start ⟨none, ⟨0, fun _ => none⟩, ⟨0, fun _ => none⟩, []⟩ false).1

/-- the hypotheses are met by a solve with an accepted step, an accepted correction, a rejected step with a rejected
correction, a derivative check with a rejected point and a preprocessed problem -/
example :
    exEvalState.Synced ∧ EvalsAtSet exEvalState.log ∧ ReadsFresh exEvalState.log ∧
    SocHarmless ⟨true, true, false, false, true⟩
      [exStepEnv 1 false true false, exStepEnv 3 false false true, exStepEnv 5 false false false] ∧
    (exEvalState.solve ⟨true, true, false, false, true⟩ [⟨7, false, [.obj, .cons], false⟩, ⟨8, true, [.obj], false⟩]
      [exStepEnv 1 false true false, exStepEnv 3 false false true, exStepEnv 5 false false false] false).map
      (fun s => (s.iterate.x, s.func, s.trial.x)) = some (4, some 4, 6) := by
  have h := C82_start (P := Nat) 0 (fun _ => none) (fun _ => none) 0
  exact ⟨h.1, h.2.2.1, h.2.2.2, fun _ => ⟨rfl, by simp [exStepEnv]⟩, by decide +kernel⟩

/-! ### violations -/

/-- If the user registered a callback for accepted iterates and the problem is preprocessed, the function is left at the
iterate before the step: the original iterate is restored from the old iterate, since the callback runs before
the iterates are swapped, and this sets and evaluates the function there. The Hessian products of the next iteration
are evaluated at the old point and used as those at the new iterate. -/
theorem C82_callback_violated :
    ∃ (pr : EvalParams) (e : StepEnv Nat) (s s' s2 : EvalState Nat), pr.callback = true ∧ pr.preprocess = true ∧
      s.Synced ∧ EvalsAtSet s.log ∧ s.iteration pr e = some (s', true) ∧ EvalsAtSet s'.log ∧
      s'.iterate.x = 1 ∧ s'.func = some 0 ∧ s'.iteration pr e = some (s2, true) ∧ ¬ EvalsAtSet s2.log := by
  have h := C82_start (P := Nat) 0 (fun _ => none) (fun _ => none) 0
  have hr : (exEvalState.iteration ⟨true, false, false, true, true⟩ (exStepEnv 1 false true false)).bind (fun r =>
      (r.1.iteration ⟨true, false, false, true, true⟩ (exStepEnv 1 false true false)).map fun q =>
        (r.2, evalsOk none r.1.log, r.1.iterate.x, r.1.func, q.2, evalsOk none q.1.log)) =
      some (true, true, 1, some 0, true, false) := by decide +kernel
  simp only [Option.bind_eq_some_iff, Option.map_eq_some_iff, Prod.mk.injEq] at hr
  obtain ⟨⟨s', a⟩, h1, ⟨s2, b⟩, h2, rfl, h3, h4, h5, rfl, h6⟩ := hr
  exact ⟨⟨true, false, false, true, true⟩, exStepEnv 1 false true false, exEvalState, s', s2, rfl, rfl, h.1, h.2.2.1, h1,
    (evalsOk_iff _).1 h3, h4, h5, h2, fun hh => by rw [(evalsOk_iff _).2 hh] at h6; cases h6⟩

/-- If the function rejects the trial point, a second-order correction is computed nevertheless, from the constraint
values stored in the trial iterate; these were never evaluated at the trial point. -/
theorem C82_soc_rejected_violated :
    ∃ (pr : EvalParams) (e : StepEnv Nat) (s s' : EvalState Nat) (acc : Bool), pr.callback = false ∧ pr.dynamic = false ∧
      s.Synced ∧ ReadsFresh s.log ∧ s.iteration pr e = some (s', acc) ∧ ¬ ReadsFresh s'.log := by
  have h := C82_start (P := Nat) 0 (fun _ => none) (fun _ => none) 0
  refine ⟨⟨true, true, false, false, false⟩, exStepEnv 1 true false false, exEvalState, _, _, rfl, rfl, h.1, h.2.2.2, rfl,
    fun hh => ?_⟩
  exact absurd (hh .cons 1 none (by decide +kernel)) (by decide)

/-- For a dynamic function, the model value of a second-order correction is computed with a Hessian product evaluated
at the trial point, where the function was evaluated before, and used as that at the iterate. -/
theorem C82_soc_dynamic_violated :
    ∃ (pr : EvalParams) (e : StepEnv Nat) (s s' : EvalState Nat) (acc : Bool), pr.callback = false ∧
      e.trialRejects = false ∧ s.Synced ∧ EvalsAtSet s.log ∧ s.iteration pr e = some (s', acc) ∧
      ¬ EvalsAtSet s'.log := by
  have h := C82_start (P := Nat) 0 (fun _ => none) (fun _ => none) 0
  have hr : (exEvalState.iteration ⟨true, true, true, false, false⟩ (exStepEnv 1 false false false)).map
      (fun r => evalsOk none r.1.log) = some false := by decide +kernel
  simp only [Option.map_eq_some_iff] at hr
  obtain ⟨⟨s', a⟩, h1, h2⟩ := hr
  exact ⟨⟨true, true, true, false, false⟩, exStepEnv 1 false false false, exEvalState, s', a, rfl, rfl, h.1, h.2.2.1, h1,
    fun hh => by rw [(evalsOk_iff _).2 hh] at h2; cases h2⟩

/-- The function is never told that a second-order correction is tried (`TRYING_SOC_ITERATE`): corrections are set with
the same reason as ordinary trial points. -/
theorem C82_soc_reason_violated :
    (∀ (pr : EvalParams) (e : StepEnv Nat) (s s' : EvalState Nat) (acc : Bool), (pr.callback && pr.preprocess) = false →
      s.Synced → s.iteration pr e = some (s', acc) → valuesSet .tryingSoc s'.log = valuesSet .tryingSoc s.log) ∧
    ∃ (pr : EvalParams) (e : StepEnv Nat) (s s' : EvalState Nat), s.Synced ∧ e.trialOk = false ∧
      s.iteration pr e = some (s', true) ∧ s'.iterate.x = e.socX := by
  refine ⟨fun pr e s s' acc hcb hs h => ?_, ?_⟩
  · obtain ⟨l, h1, -, -, -, h5⟩ := evalIteration_spec pr e s s' acc hcb hs h
    rw [h1, valuesSet_append, h5, List.append_nil]
  · have h := C82_start (P := Nat) 0 (fun _ => none) (fun _ => none) 0
    exact ⟨⟨true, true, false, false, false⟩, exStepEnv 1 false false true, exEvalState, _, h.1, rfl, rfl, rfl⟩

end Sleqp
