import Verif.Spec.EvalPoints
import Verif.Lemmas.EvalProtocol
import Verif.Props.Soc
import Verif.Props.Restoration

/-! Helper lemmas for C110. -/

namespace Sleqp

section
variable {P Q : Type*}

/-- the current iterate and all values set satisfy `B`, the vector of the trial iterate satisfies `D` -/
structure EInv (B D : P → Prop) (s : EvalState P) : Prop where
  it : B s.iterate.x
  tr : D s.trial.x
  log : SetsWithin B s.log

theorem setsWithin_append {B : P → Prop} (l m : List (EvalCall P)) : SetsWithin B (l ++ m) ↔ SetsWithin B l ∧ SetsWithin B m := by
  unfold SetsWithin
  constructor
  · exact fun h => ⟨fun x r j hm => h x r j (List.mem_append_left _ hm), fun x r j hm => h x r j (List.mem_append_right _ hm)⟩
  · rintro ⟨h1, h2⟩ x r j hm
    rcases List.mem_append.mp hm with h | h
    · exact h1 x r j h
    · exact h2 x r j h

theorem setsWithin_set {B : P → Prop} {x : P} {r : ValReason} {j : Bool} (h : r ≠ .checkingDeriv → B x) : SetsWithin B [.set x r j] := by
  intro y r' j' hm
  simp only [List.mem_singleton, EvalCall.set.injEq] at hm
  obtain ⟨rfl, rfl, rfl⟩ := hm
  exact h

theorem setsWithin_eval {B : P → Prop} {p : EvalPart} {x : P} : SetsWithin B [.eval p x] := by
  intro y r' j' hm
  simp at hm

theorem setsWithin_read {B : P → Prop} {p : EvalPart} {x : P} {v : Option P} : SetsWithin B [.read p x v] := by
  intro y r' j' hm
  simp at hm

variable {B D : P → Prop} {s s' : EvalState P}

theorem EInv.setValue (h : EInv B D s) {x : P} {r : ValReason} (hx : r ≠ .checkingDeriv → B x) (j : Bool) : EInv B D (s.setValue x r j) :=
  ⟨h.it, h.tr, (setsWithin_append _ _).2 ⟨h.log, setsWithin_set hx⟩⟩

theorem EInv.evalFor (h : EInv B D s) (p : EvalPart) (x : P) : EInv B D (s.evalFor p x) :=
  ⟨h.it, h.tr, (setsWithin_append _ _).2 ⟨h.log, setsWithin_eval⟩⟩

theorem EInv.evalIterate (h : EInv B D s) (p : EvalPart) : EInv B D (s.evalIterate p) :=
  ⟨h.it, h.tr, (setsWithin_append _ _).2 ⟨h.log, setsWithin_eval⟩⟩

theorem EInv.evalTrial (h : EInv B D s) (p : EvalPart) : EInv B D (s.evalTrial p) :=
  ⟨h.it, h.tr, (setsWithin_append _ _).2 ⟨h.log, setsWithin_eval⟩⟩

theorem EInv.readIterate (h : EInv B D s) (p : EvalPart) : EInv B D (s.readIterate p) :=
  ⟨h.it, h.tr, (setsWithin_append _ _).2 ⟨h.log, setsWithin_read⟩⟩

theorem EInv.readTrial (h : EInv B D s) (p : EvalPart) : EInv B D (s.readTrial p) :=
  ⟨h.it, h.tr, (setsWithin_append _ _).2 ⟨h.log, setsWithin_read⟩⟩

theorem EInv.foldl (f : EvalState P → EvalPart → EvalState P) (hf : ∀ s p, EInv B D s → EInv B D (f s p)) :
    ∀ (l : List EvalPart) (s : EvalState P), EInv B D s → EInv B D (l.foldl f s)
  | [], _, h => h
  | p :: l, s, h => EInv.foldl f hf l (f s p) (hf s p h)

theorem EInv.computeTrial : ∀ (n : Nat) (s : EvalState P), EInv B D s → EInv B D (s.computeTrial n)
  | 0, _, h => (EInv.foldl _ (fun _ p h => h.readIterate p) _ _ h).evalFor _ _
  | n + 1, _, h =>
    EInv.computeTrial n _ (EInv.foldl _ (fun _ p h => h.evalIterate p) _ _ ((EInv.foldl _ (fun _ p h => h.readIterate p) _ _ h).evalFor _ _))

theorem EInv.tryPoint (h : EInv B D s) (hx : B s.trial.x) (j : Bool) : EInv B D (s.tryPoint j) ∧ (s.tryPoint j).trial.x = s.trial.x := by
  unfold EvalState.tryPoint
  cases j with
  | true => exact ⟨h.setValue (fun _ => hx) _, rfl⟩
  | false =>
    refine ⟨EInv.foldl _ (fun _ p h => h.readTrial p) _ _ (EInv.foldl _ (fun _ p h => h.evalTrial p) _ _ (h.setValue (fun _ => hx) _)), rfl⟩

theorem EInv.restoreOriginal {pr : EvalParams} {j : Bool} (h : EInv B D s) (hr : s.restoreOriginal pr j = some s') :
    EInv B D s' ∧ s'.trial = s.trial := by
  unfold EvalState.restoreOriginal at hr
  by_cases hp : pr.preprocess
  · rw [if_pos hp] at hr
    simp only at hr
    cases j with
    | true => simp at hr
    | false =>
      simp only [Bool.false_eq_true, if_false, Option.some.injEq] at hr
      subst hr
      exact ⟨EInv.foldl _ (fun _ p h => h.evalFor p _) _ _ (h.setValue (fun _ => h.it) _), rfl⟩
  · rw [if_neg hp] at hr
    cases hr
    exact ⟨h, rfl⟩

theorem EInv.rejectStep {e : StepEnv P} (h : EInv B D s) (hr : s.rejectStep e = some s') : EInv B D s' := by
  unfold EvalState.rejectStep at hr
  simp only at hr
  by_cases hj : e.resetRejects = true
  · simp [hj] at hr
  · rw [if_neg hj] at hr
    cases hr
    exact h.setValue (fun _ => h.it) _

theorem EInv.acceptStep {pr : EvalParams} {e : StepEnv P} (hBD : ∀ x, B x → D x) (h : EInv B D s) (hx : B s.trial.x) (hr : s.acceptStep pr e = some s') : EInv B D s' := by
  unfold EvalState.acceptStep at hr
  simp only at hr
  by_cases hj : e.acceptRejects = true
  · simp [hj] at hr
  · rw [if_neg hj] at hr
    have h1 : EInv B D ([EvalPart.grad, .cons, .jac].foldl EvalState.evalTrial (s.setValue s.trial.x .accepted e.acceptRejects)) :=
      EInv.foldl _ (fun _ p h => h.evalTrial p) _ _ (h.setValue (fun _ => hx) _)
    generalize ht : [EvalPart.grad, .cons, .jac].foldl EvalState.evalTrial (s.setValue s.trial.x .accepted e.acceptRejects) = t at hr h1
    have hx' : B t.trial.x := by rw [← ht]; exact hx
    obtain ⟨u, hu, rfl⟩ := Option.map_eq_some_iff.mp hr
    have h2 : EInv B D u ∧ u.trial = t.trial := by
      by_cases hc : pr.callback = true
      · rw [if_pos hc] at hu
        exact h1.restoreOriginal hu
      · rw [if_neg hc] at hu
        cases hu
        exact ⟨h1, rfl⟩
    exact ⟨by show B u.trial.x; rw [h2.2]; exact hx', hBD _ h2.1.it, h2.1.log⟩

theorem EInv.computeSoc {pr : EvalParams} {e : StepEnv P} (hBD : ∀ x, B x → D x) (h : EInv B D s) (hx : B s.trial.x) (hs : B e.socX) :
    EInv B D (s.computeSoc pr e) ∧ B (s.computeSoc pr e).trial.x := by
  unfold EvalState.computeSoc
  simp only
  have h1 := (h.readIterate .cons).readTrial .cons
  by_cases hd : pr.dynamic = true
  · rw [if_pos hd]
    exact ⟨h1.evalFor _ _, hx⟩
  · rw [if_neg hd]
    exact ⟨⟨h1.it, hBD _ hs, h1.log⟩, hs⟩

theorem EInv.finishIteration {pr : EvalParams} {e : StepEnv P} {acc : Bool} (hBD : ∀ x, B x → D x) (h : EInv B D s) (hx : B s.trial.x) (hs : B e.socX)
    (hr : s.finishIteration pr e = some (s', acc)) : EInv B D s' := by
  unfold EvalState.finishIteration at hr
  simp only at hr
  obtain ⟨h1, x1⟩ := h.tryPoint hx e.trialRejects
  have hx1 : B (s.tryPoint e.trialRejects).trial.x := by rw [x1]; exact hx
  have acc_case : ∀ {t : EvalState P} {b : Bool}, EInv B D t → B t.trial.x → (t.acceptStep pr e).map (·, b) = some (s', acc) → EInv B D s' := by
    intro t b ht hxt hm
    obtain ⟨u, hu, hh⟩ := Option.map_eq_some_iff.mp hm
    cases hh
    exact ht.acceptStep hBD hxt hu
  have rej_case : ∀ {t : EvalState P} {b : Bool}, EInv B D t → (t.rejectStep e).map (·, b) = some (s', acc) → EInv B D s' := by
    intro t b ht hm
    obtain ⟨u, hu, hh⟩ := Option.map_eq_some_iff.mp hm
    cases hh
    exact ht.rejectStep hu
  split_ifs at hr with c1 c2 c3 c4
  · exact acc_case h1 hx1 hr
  · exact rej_case (h1.computeSoc hBD hx1 hs).1 hr
  · obtain ⟨h2, x2⟩ := h1.computeSoc (pr := pr) hBD hx1 hs
    obtain ⟨h3, x3⟩ := h2.tryPoint x2 e.socRejects
    exact acc_case h3 (by rw [x3]; exact x2) hr
  · obtain ⟨h2, x2⟩ := h1.computeSoc (pr := pr) hBD hx1 hs
    exact rej_case (h2.tryPoint x2 e.socRejects).1 hr
  · exact rej_case h1 hr

theorem EInv.iteration {pr : EvalParams} {e : StepEnv P} {acc : Bool} (hBD : ∀ x, B x → D x) (h : EInv B D s) (hx : B e.trialX) (hs : B e.socX)
    (hr : s.iteration pr e = some (s', acc)) : EInv B D s' := by
  rw [iteration_eq] at hr
  have h1 : EInv B D ([EvalPart.obj, .grad, .cons, .jac].foldl EvalState.readIterate s) := EInv.foldl _ (fun _ p h => h.readIterate p) _ _ h
  by_cases hd : e.done = true
  · rw [if_pos hd] at hr
    cases hr
    exact h1
  · rw [if_neg hd] at hr
    simp only at hr
    have h2 := EInv.computeTrial (if pr.dynamic then e.refinements else 0) _ h1
    generalize ([EvalPart.obj, .grad, .cons, .jac].foldl EvalState.readIterate s).computeTrial (if pr.dynamic then e.refinements else 0) = t at hr h2
    have h3 : EInv B D ({ t with trial := { t.trial with x := e.trialX } } : EvalState P) := ⟨h2.it, hBD _ hx, h2.log⟩
    by_cases hst : e.stop = true
    · rw [if_pos hst] at hr
      cases hr
      exact h3
    · rw [if_neg hst] at hr
      exact h3.finishIteration hBD hx hs hr

theorem EInv.checkAt {c : CheckEnv P} (h : EInv B D s) (hr : s.checkAt c = some s') : EInv B D s' := by
  unfold EvalState.checkAt at hr
  simp only at hr
  have h1 : EInv B D (s.setValue c.x .checkingDeriv c.rejects) := h.setValue (fun hh => absurd rfl hh) _
  have h2 : EInv B D (if c.rejects = true then s.setValue c.x .checkingDeriv c.rejects
      else List.foldl (fun s p => s.evalFor p c.x) (s.setValue c.x .checkingDeriv c.rejects) c.parts) := by
    split_ifs
    · exact h1
    · exact EInv.foldl _ (fun _ p h => h.evalFor p _) _ _ h1
  by_cases hj : c.resetRejects = true
  · simp [hj] at hr
  · rw [if_neg hj] at hr
    cases hr
    exact h2.setValue (fun hh => absurd rfl hh) _

/-! ### both phases -/

structure PInv (B D : P → Prop) (B' D' : Q → Prop) (s : PhaseState P Q) : Prop where
  opt : EInv B D s.opt
  log : SetsWithin B' s.rest.log
  tr : D' s.rest.trial.x
  it : s.inRest = true → B' s.rest.iterate.x

variable {B' D' : Q → Prop} {proj : Q → P}

theorem PInv.needVal {s : PhaseState P Q} (h : PInv B D B' D' s) (x : P) : PInv B D B' D' (s.needVal x) := by
  unfold PhaseState.needVal
  cases s.val with
  | some _ => exact h
  | none => exact ⟨h.opt.evalFor _ _, h.log, h.tr, h.it⟩

theorem PInv.needJac {s : PhaseState P Q} (h : PInv B D B' D' s) (x : P) : PInv B D B' D' (s.needJac x) := by
  unfold PhaseState.needJac
  cases s.jac with
  | some _ => exact h
  | none => exact ⟨h.opt.evalFor _ _, h.log, h.tr, h.it⟩

theorem PInv.restCall {s : PhaseState P Q} (hpr : ∀ z, B' z → B (proj z)) (h : PInv B D B' D' s) (c : EvalCall Q) (hc : SetsWithin B' [c]) :
    PInv B D B' D' (s.restCall proj c) := by
  cases c with
  | set q r j =>
    exact ⟨h.opt.setValue (fun hr => hpr _ (hc q r j (List.mem_singleton.mpr rfl) hr)) _, h.log, h.tr, h.it⟩
  | eval p q =>
    cases p with
    | obj => exact h.needVal _
    | grad => exact (h.needVal _).needJac _
    | cons => exact h
    | jac => exact h
    | hess => exact h.needJac _
  | read p q v => exact h

theorem PInv.restCalls (hpr : ∀ z, B' z → B (proj z)) :
    ∀ (l : List (EvalCall Q)) (s : PhaseState P Q), PInv B D B' D' s → SetsWithin B' l → PInv B D B' D' (l.foldl (PhaseState.restCall proj) s)
  | [], _, h, _ => h
  | c :: l, s, h, hl => by
    have hl' := (setsWithin_append [c] l).1 hl
    exact PInv.restCalls hpr l _ (h.restCall hpr c hl'.1) hl'.2

theorem PInv.restDone {s : PhaseState P Q} {r : EvalState Q} (hpr : ∀ z, B' z → B (proj z)) (h : PInv B D B' D' s) (hr : EInv B' D' r) :
    PInv B D B' D' (s.restDone proj r) := by
  have hl : SetsWithin B' (r.log.drop s.rest.log.length) := fun x a j hm => hr.log x a j (List.mem_of_mem_drop hm)
  have h1 := PInv.restCalls hpr (r.log.drop s.rest.log.length) s h hl
  exact ⟨h1.opt, hr.log, hr.tr, fun _ => hr.it⟩

theorem PInv.enter {s : PhaseState P Q} (h : PInv B D B' D' s) {z : Q} (hz : B' z) : PInv B D B' D' (s.enter z) := by
  refine ⟨h.opt, (setsWithin_append _ _).2 ⟨h.log, ?_⟩, h.tr, fun _ => hz⟩
  exact (setsWithin_append [_] _).2 ⟨setsWithin_set fun _ => hz, (setsWithin_append [_] _).2 ⟨setsWithin_eval, setsWithin_eval⟩⟩

theorem PInv.leave {s : PhaseState P Q} (hpr : ∀ z, B' z → B (proj z)) (h : PInv B D B' D' s) (hr : s.inRest = true) : PInv B D B' D' (s.leave proj) := by
  have hx := hpr _ (h.it hr)
  have h1 := (h.needVal (proj s.rest.iterate.x)).needJac (proj s.rest.iterate.x)
  have h2 : EInv B D (s.leave proj).opt := by
    refine EInv.foldl _ (fun _ p h => h.evalIterate p) _ _ ⟨hx, h1.opt.tr, h1.opt.log⟩
  exact ⟨h2, h1.log, h1.tr, fun hh => by cases hh⟩

end

/-! ### points -/

section
variable {K : Type*} [Field K] [LinearOrder K] [IsStrictOrderedRing K]

theorem trial_inBox {n m : Nat} {p : Bounds K} (hp : p.Sized n m) {z : K} (hz : 0 ≤ z) (hcl : ClearBounds n p.varsLb p.varsUb z) {x step tmp out t : Vec K}
    (hx : x.WF ∧ x.dim = n) (hs : step.WF ∧ step.dim = n) (hod : out.dim = n) (h : trialFromStep z p x step tmp out = some t) :
    PointInBox n p.varsLb p.varsUb t := by
  obtain ⟨t', h1, h2, h3, h4, -⟩ := C68_trial_point hp hz hcl hx.1 hx.2 hs.1 hs.2 tmp hod
  rw [h] at h1
  cases h1
  exact ⟨h2, h3, h4⟩

theorem clip_inBox {n : Nat} {lb ub x out t : Vec K} {z : K} (hz : 0 ≤ z) (hl : lb.WF ∧ lb.dim = n) (hu : ub.WF ∧ ub.dim = n) (hcl : ClearBounds n lb ub z)
    (hx : x.WF ∧ x.dim = n) (ho : out.dim = n) (h : x.clip lb ub z out = some t) : PointInBox n lb ub t := by
  obtain ⟨t', h1, h2, h3, -, h5⟩ := C05_clip_tolerance_partial x lb ub out hz hx.1 hl.1 hu.1 (hl.2.trans hx.2.symm) (hu.2.trans hx.2.symm) (ho.trans hx.2.symm)
    (fun i hi => (hcl i (by have := hx.2; omega)).1) (fun i hi => (hcl i (by have := hx.2; omega)).2.1) (fun i hi => (hcl i (by have := hx.2; omega)).2.2)
  rw [h] at h1
  cases h1
  exact ⟨h2, h3.trans hx.2, fun j hj => h5 j (by have := hx.2; omega)⟩

theorem stepData_env {n m : Nat} {p : Bounds K} (hp : p.Sized n m) {z : K} (hz : 0 ≤ z) (hcl : ClearBounds n p.varsLb p.varsUb z) {s : EvalState (Vec K)} {e : StepData K}
    (hx : s.iterate.x.WF ∧ s.iterate.x.dim = n) (ht : s.trial.x.dim = n) (hs : (e.step.WF ∧ e.step.dim = n) ∧ e.socStep.WF ∧ e.socStep.dim = n) {e' : StepEnv (Vec K)}
    (h : e.env z p s = some e') : PointInBox n p.varsLb p.varsUb e'.trialX ∧ PointInBox n p.varsLb p.varsUb e'.socX := by
  obtain ⟨t, h1, h2⟩ := Option.bind_eq_some_iff.mp h
  obtain ⟨y, h3, rfl⟩ := Option.map_eq_some_iff.mp h2
  have b1 := trial_inBox hp hz hcl hx hs.1 ht h1
  exact ⟨b1, trial_inBox hp hz hcl hx hs.2 b1.2.1 h3⟩

end

end Sleqp
