import Verif.Spec.EvalProtocol

/-! Helper lemmas for C82. -/

namespace Sleqp

variable {P : Type*}

/-- Both requirements on a record of calls, for a record that starts with the value `cur`. -/
def okFrom : Option (P × Bool) → List (EvalCall P) → Prop
  | _, [] => True
  | _, .set x _ r :: l => okFrom (some (x, r)) l
  | cur, .eval _ x :: l => cur = some (x, false) ∧ okFrom cur l
  | cur, .read _ x src :: l => src = some x ∧ okFrom cur l

theorem okFrom_append (cur : Option (P × Bool)) (l m : List (EvalCall P)) :
    okFrom cur (l ++ m) ↔ okFrom cur l ∧ okFrom (l.foldl setStep cur) m := by
  induction l generalizing cur with
  | nil => simp [okFrom]
  | cons c l ih => cases c <;> simp [okFrom, ih, setStep, and_assoc]

theorem okFrom_iff (log : List (EvalCall P)) : okFrom none log ↔ EvalsAtSet log ∧ ReadsFresh log := by
  constructor
  · intro h
    refine ⟨?_, ?_⟩
    · rintro pre part x post rfl
      exact ((okFrom_append _ _ _).1 h).2.1
    · intro part x src hm
      obtain ⟨pre, post, rfl⟩ := List.append_of_mem hm
      exact ((okFrom_append _ _ _).1 h).2.1
  · rintro ⟨he, hr⟩
    suffices H : ∀ pre post, pre ++ post = log → okFrom (lastSet pre) post from H [] log rfl
    intro pre post
    induction post generalizing pre with
    | nil => intro _; trivial
    | cons c l ih =>
      intro h
      have h2 := ih (pre ++ [c]) (by rw [List.append_assoc]; exact h)
      have h3 : lastSet (pre ++ [c]) = setStep (lastSet pre) c := by simp [lastSet]
      rw [h3] at h2
      cases c with
      | set x r rej => exact h2
      | eval p x => exact ⟨he pre p x l h.symm, h2⟩
      | read p x src => exact ⟨hr p x src (by rw [← h]; simp), h2⟩

theorem lastSet_append (l m : List (EvalCall P)) : lastSet (l ++ m) = m.foldl setStep (lastSet l) :=
  List.foldl_append

theorem valuesSet_append (r : ValReason) (l m : List (EvalCall P)) :
    valuesSet r (l ++ m) = valuesSet r l ++ valuesSet r m := List.filterMap_append

/-- What an operation that does not set a value adds to the record. -/
structure Extends (s s' : EvalState P) (l : List (EvalCall P)) : Prop where
  log : s'.log = s.log ++ l
  func : s'.func = s.func
  last : ∀ c, l.foldl setStep c = c
  vals : ∀ r, valuesSet r l = []

theorem computeTrial_spec (n : Nat) (s : EvalState P) (hs : s.Synced) :
    ∃ l, Extends s (s.computeTrial n) l ∧ (s.computeTrial n).Synced ∧ (s.computeTrial n).iterate.x = s.iterate.x ∧
      (s.computeTrial n).trial = s.trial ∧ okFrom (some (s.iterate.x, false)) l := by
  obtain ⟨h1, h2, h3⟩ := hs
  have ho := h3 .obj (by decide)
  have hg := h3 .grad (by decide)
  have hc := h3 .cons (by decide)
  have hj := h3 .jac (by decide)
  induction n generalizing s with
  | zero =>
    refine ⟨_, ⟨by simp [EvalState.computeTrial, storedParts, EvalState.readIterate, EvalState.evalFor]; rfl, rfl,
      by simp [setStep], by simp [valuesSet]⟩, ⟨h1, ?_, h3⟩, rfl, rfl, by simp [okFrom, ho, hg, hc, hj]⟩
    simpa [EvalState.computeTrial, storedParts, EvalState.readIterate, EvalState.evalFor, lastSet_append, setStep] using h2
  | succ n ih =>
    obtain ⟨l, ⟨e1, e2, e3, e4⟩, hsy, hx, ht, hok⟩ := ih
      (storedParts.foldl EvalState.evalIterate
        ((storedParts.foldl EvalState.readIterate s).evalFor .hess s.iterate.x)) h1
      (by simpa [storedParts, EvalState.readIterate, EvalState.evalFor, EvalState.evalIterate, lastSet_append, setStep,
            EvalSlot.put] using h2)
      (by
        intro p hp
        cases p <;> simp_all [storedParts, EvalState.readIterate, EvalState.evalFor, EvalState.evalIterate, EvalSlot.put])
      (by simpa [storedParts, EvalState.readIterate, EvalState.evalFor, EvalState.evalIterate, EvalSlot.put] using h1)
      (by simpa [storedParts, EvalState.readIterate, EvalState.evalFor, EvalState.evalIterate, EvalSlot.put] using h1)
      (by simpa [storedParts, EvalState.readIterate, EvalState.evalFor, EvalState.evalIterate, EvalSlot.put] using h1)
      (by simpa [storedParts, EvalState.readIterate, EvalState.evalFor, EvalState.evalIterate, EvalSlot.put] using h1)
    refine ⟨[.read .obj s.iterate.x (s.iterate.src .obj), .read .grad s.iterate.x (s.iterate.src .grad),
        .read .cons s.iterate.x (s.iterate.src .cons), .read .jac s.iterate.x (s.iterate.src .jac),
        .eval .hess s.iterate.x, .eval .obj s.iterate.x, .eval .grad s.iterate.x, .eval .cons s.iterate.x,
        .eval .jac s.iterate.x] ++ l, ⟨?_, e2, ?_, ?_⟩, hsy, hx, ht, ?_⟩
    · rw [show s.computeTrial (n + 1) = EvalState.computeTrial _ n from rfl, e1]
      simp [storedParts, EvalState.readIterate, EvalState.evalFor, EvalState.evalIterate, EvalSlot.put]
    · intro c
      simp [setStep, e3]
    · intro r
      rw [valuesSet_append, e4]
      simp [valuesSet]
    · rw [okFrom_append]
      refine ⟨by simp [okFrom, ho, hg, hc, hj], ?_⟩
      exact hok

/-- The part of an iteration after the trial point was computed. -/
def EvalState.finishIteration (pr : EvalParams) (e : StepEnv P) (s : EvalState P) : Option (EvalState P × Bool) :=
  let s := s.tryPoint e.trialRejects
  if !e.trialRejects && e.trialOk then (s.acceptStep pr e).map (·, true)
  else if pr.hasCons && pr.performSoc then
    let s := s.computeSoc pr e
    if e.socRefused then (s.rejectStep e).map (·, false)
    else
      let s := s.tryPoint e.socRejects
      if !e.socRejects && e.socOk then (s.acceptStep pr e).map (·, true)
      else (s.rejectStep e).map (·, false)
  else (s.rejectStep e).map (·, false)

theorem iteration_eq (pr : EvalParams) (e : StepEnv P) (s : EvalState P) :
    s.iteration pr e =
      if e.done then some ([EvalPart.obj, .grad, .cons, .jac].foldl EvalState.readIterate s, false)
      else
        let s2 := ([EvalPart.obj, .grad, .cons, .jac].foldl EvalState.readIterate s).computeTrial
          (if pr.dynamic then e.refinements else 0)
        let s3 : EvalState P := { s2 with trial := { s2.trial with x := e.trialX } }
        if e.stop then some (s3, false) else s3.finishIteration pr e := rfl

theorem evalAccept_spec {pr : EvalParams} {e : StepEnv P} {s s' : EvalState P}
    (hcb : (pr.callback && pr.preprocess) = false) (hobj : s.trial.src .obj = some s.trial.x)
    (h : s.acceptStep pr e = some s') :
    s'.log = s.log ++ [.set s.trial.x .accepted false, .eval .grad s.trial.x, .eval .cons s.trial.x,
      .eval .jac s.trial.x] ∧ s'.Synced ∧ s'.iterate.x = s.trial.x := by
  unfold EvalState.acceptStep at h
  cases hr : e.acceptRejects with
  | true => simp [hr] at h
  | false =>
    have h4 : ∀ t : EvalState P, (if pr.callback then t.restoreOriginal pr e.restoreRejects else some t) = some t := by
      intro t
      unfold EvalState.restoreOriginal
      cases hc : pr.callback <;> cases hp : pr.preprocess <;> simp_all
    simp only [hr, h4] at h
    simp only [EvalState.setValue, Bool.false_eq_true, if_false, Option.map_some, Option.some.injEq] at h
    subst h
    refine ⟨by simp [EvalState.evalTrial, EvalSlot.put], ⟨rfl, ?_, ?_⟩, rfl⟩
    · simp [EvalState.evalTrial, EvalSlot.put, lastSet, setStep]
    · intro p hp
      cases p <;> simp_all [EvalState.evalTrial, EvalSlot.put]

theorem evalReject_spec {e : StepEnv P} {s s' : EvalState P} (hsrc : ∀ p, p ≠ .hess → s.iterate.src p = some s.iterate.x)
    (h : s.rejectStep e = some s') :
    s'.log = s.log ++ [.set s.iterate.x .rejected false] ∧ s'.Synced ∧ s'.iterate.x = s.iterate.x := by
  unfold EvalState.rejectStep at h
  cases hr : e.resetRejects with
  | true => simp [hr] at h
  | false =>
    simp only [hr, EvalState.setValue, Bool.false_eq_true, if_false, Option.some.injEq] at h
    subst h
    exact ⟨rfl, ⟨rfl, by simp [lastSet, setStep], hsrc⟩, rfl⟩

/-- the record of an attempt -/
def tryLog (x : P) (rejects : Bool) : List (EvalCall P) :=
  .set x .trying rejects :: if rejects then [] else
    [.eval .obj x, .eval .cons x, .read .obj x (some x), .read .cons x (some x)]

theorem try_spec (s : EvalState P) (rejects : Bool) :
    (s.tryPoint rejects).log = s.log ++ tryLog s.trial.x rejects ∧ (s.tryPoint rejects).iterate = s.iterate ∧
      (s.tryPoint rejects).trial.x = s.trial.x ∧
      (rejects = false → (s.tryPoint rejects).trial.src .obj = some s.trial.x ∧
        (s.tryPoint rejects).trial.src .cons = some s.trial.x) := by
  cases rejects <;>
    simp [EvalState.tryPoint, EvalState.setValue, EvalState.evalTrial, EvalState.readTrial, EvalSlot.put, tryLog]

theorem soc_spec (pr : EvalParams) (e : StepEnv P) (s : EvalState P) :
    ∃ l, (s.computeSoc pr e).log = s.log ++ l ∧ (s.computeSoc pr e).iterate = s.iterate ∧
      (∀ r, valuesSet r l = []) ∧ (pr.dynamic = false → l = [.read .cons s.iterate.x (s.iterate.src .cons),
        .read .cons s.trial.x (s.trial.src .cons)]) := by
  unfold EvalState.computeSoc
  cases hd : pr.dynamic with
  | true =>
    refine ⟨[.read .cons s.iterate.x (s.iterate.src .cons), .read .cons s.trial.x (s.trial.src .cons),
      .eval .hess s.iterate.x], ?_, rfl, by simp [valuesSet], by simp⟩
    simp [EvalState.evalFor, EvalState.readIterate, EvalState.readTrial]
  | false =>
    refine ⟨[.read .cons s.iterate.x (s.iterate.src .cons), .read .cons s.trial.x (s.trial.src .cons)], ?_, rfl,
      by simp [valuesSet], fun _ => rfl⟩
    simp [EvalState.readIterate, EvalState.readTrial]

theorem valuesSet_tryLog (x : P) (b : Bool) (r : ValReason) :
    valuesSet r (tryLog x b) = if r = .trying then [x] else [] := by
  cases b <;> cases r <;> simp [valuesSet, tryLog]

theorem evalFinish_spec (pr : EvalParams) (e : StepEnv P) (s s' : EvalState P) (acc : Bool)
    (hcb : (pr.callback && pr.preprocess) = false) (hs : s.Synced) (h : s.finishIteration pr e = some (s', acc)) :
    ∃ l, s'.log = s.log ++ l ∧ s'.Synced ∧ IterationTold acc s.iterate.x s'.iterate.x l ∧
      (((pr.hasCons && pr.performSoc) = true → pr.dynamic = false ∧ e.trialRejects = false) →
        okFrom (some (s.iterate.x, false)) l) ∧ valuesSet .tryingSoc l = [] := by
  obtain ⟨-, -, h3⟩ := hs
  obtain ⟨t1, t2, t3, t4⟩ := try_spec s e.trialRejects
  unfold EvalState.finishIteration at h
  have hvr : ∀ x : P, valuesSet .accepted [EvalCall.set x .rejected false] = [] ∧
      valuesSet .rejected [EvalCall.set x .rejected false] = [x] := fun x => by simp [valuesSet]
  by_cases hA : (!e.trialRejects && e.trialOk) = true
  · simp only [hA, if_true, Option.map_eq_some_iff, Prod.mk.injEq] at h
    obtain ⟨s1, h, rfl, rfl⟩ := h
    have hr : e.trialRejects = false := by revert hA; cases e.trialRejects <;> simp
    obtain ⟨a1, a2, a3⟩ := evalAccept_spec hcb (by rw [t3]; exact (t4 hr).1) h
    rw [t1, List.append_assoc, t3] at a1
    refine ⟨_, a1, a2, ⟨?_, ?_, by simp, ?_⟩, ?_, ?_⟩
    · simp [valuesSet_append, valuesSet_tryLog, a3, t3]; simp [valuesSet]
    · rw [a3, t3]; simp [tryLog, hr]
    · left; simp [valuesSet_append, valuesSet_tryLog]; simp [valuesSet]
    · intro _
      simp [hr, tryLog, okFrom]
    · simp [valuesSet_append, valuesSet_tryLog]; simp [valuesSet]
  · simp only [hA] at h
    by_cases hB : (pr.hasCons && pr.performSoc) = true
    · simp only [hB, if_true, Bool.false_eq_true, if_false] at h
      obtain ⟨ls, c1, c2, c3, c4⟩ := soc_spec pr e (s.tryPoint e.trialRejects)
      rw [t1, List.append_assoc] at c1
      have hokS : (pr.dynamic = false ∧ e.trialRejects = false) → ∀ m,
          okFrom (some (s.trial.x, false)) m → okFrom (some (s.iterate.x, false)) (tryLog s.trial.x e.trialRejects ++ ls ++ m) := by
        rintro ⟨hd, hr⟩ m hm
        have hc := (t4 hr).2
        rw [c4 hd, t2, t3, hc, hr, h3 .cons (by decide)]
        simpa [tryLog, okFrom] using hm
      by_cases hC : e.socRefused = true
      · simp only [hC, if_true, Option.map_eq_some_iff, Prod.mk.injEq] at h
        obtain ⟨s1, h, rfl, rfl⟩ := h
        obtain ⟨a1, a2, a3⟩ := evalReject_spec (by rw [c2, t2]; exact h3) h
        rw [c1, c2, t2, List.append_assoc] at a1
        refine ⟨_, a1, a2, ⟨?_, by simp, fun _ => by rw [a3, c2, t2], ?_⟩, ?_, ?_⟩
        · simp [valuesSet_append, valuesSet_tryLog, c3]; simp [valuesSet]
        · right; refine ⟨rfl, ?_⟩; simp [valuesSet_append, valuesSet_tryLog, c3]; simp [valuesSet]
        · intro hh; exact hokS (hh hB) _ (by simp [okFrom])
        · simp [valuesSet_append, valuesSet_tryLog, c3]; simp [valuesSet]
      · simp only [hC, Bool.false_eq_true, if_false] at h
        obtain ⟨u1, u2, u3, u4⟩ := try_spec ((s.tryPoint e.trialRejects).computeSoc pr e) e.socRejects
        rw [c1, List.append_assoc] at u1
        by_cases hD : (!e.socRejects && e.socOk) = true
        · simp only [hD, if_true, Option.map_eq_some_iff, Prod.mk.injEq] at h
          obtain ⟨s1, h, rfl, rfl⟩ := h
          have hr : e.socRejects = false := by revert hD; cases e.socRejects <;> simp
          obtain ⟨a1, a2, a3⟩ := evalAccept_spec hcb (by rw [u3]; exact (u4 hr).1) h
          rw [u1, List.append_assoc, u3] at a1
          refine ⟨_, a1, a2, ⟨?_, ?_, by simp, ?_⟩, ?_, ?_⟩
          · simp [valuesSet_append, valuesSet_tryLog, a3, u3, c3]; simp [valuesSet]
          · rw [a3, u3]; simp [tryLog, hr]
          · left; simp [valuesSet_append, valuesSet_tryLog, c3]; simp [valuesSet]
          · intro hh
            rw [List.append_assoc]
            exact hokS (hh hB) _ (by simp [hr, tryLog, okFrom])
          · simp [valuesSet_append, valuesSet_tryLog, c3]; simp [valuesSet]
        · simp only [hD, Bool.false_eq_true, if_false, Option.map_eq_some_iff, Prod.mk.injEq] at h
          obtain ⟨s1, h, rfl, rfl⟩ := h
          obtain ⟨a1, a2, a3⟩ := evalReject_spec (by rw [u2, c2, t2]; exact h3) h
          rw [u1, u2, c2, t2, List.append_assoc] at a1
          refine ⟨_, a1, a2, ⟨?_, by simp, fun _ => by rw [a3, u2, c2, t2], ?_⟩, ?_, ?_⟩
          · simp [valuesSet_append, valuesSet_tryLog, c3]; simp [valuesSet]
          · right; refine ⟨rfl, ?_⟩; simp [valuesSet_append, valuesSet_tryLog, c3]; simp [valuesSet]
          · intro hh
            rw [List.append_assoc]
            exact hokS (hh hB) _ (by cases e.socRejects <;> simp [tryLog, okFrom])
          · simp [valuesSet_append, valuesSet_tryLog, c3]; simp [valuesSet]
    · simp only [hB, Bool.false_eq_true, if_false, Option.map_eq_some_iff, Prod.mk.injEq] at h
      obtain ⟨s1, h, rfl, rfl⟩ := h
      obtain ⟨a1, a2, a3⟩ := evalReject_spec (by rw [t2]; exact h3) h
      rw [t1, t2, List.append_assoc] at a1
      refine ⟨_, a1, a2, ⟨?_, by simp, fun _ => by rw [a3, t2], ?_⟩, ?_, ?_⟩
      · simp [valuesSet_append, valuesSet_tryLog]; simp [valuesSet]
      · right; refine ⟨rfl, ?_⟩; simp [valuesSet_append, valuesSet_tryLog]; simp [valuesSet]
      · intro _
        cases e.trialRejects <;> simp [tryLog, okFrom]
      · simp [valuesSet_append, valuesSet_tryLog]; simp [valuesSet]

theorem evalIteration_spec (pr : EvalParams) (e : StepEnv P) (s s' : EvalState P) (acc : Bool)
    (hcb : (pr.callback && pr.preprocess) = false) (hs : s.Synced) (h : s.iteration pr e = some (s', acc)) :
    ∃ l, s'.log = s.log ++ l ∧ s'.Synced ∧ IterationTold acc s.iterate.x s'.iterate.x l ∧
      (((pr.hasCons && pr.performSoc) = true → pr.dynamic = false ∧ e.trialRejects = false) →
        okFrom (some (s.iterate.x, false)) l) ∧ valuesSet .tryingSoc l = [] := by
  rw [iteration_eq] at h
  obtain ⟨h1, h2, h3⟩ := hs
  have hl0 : ([EvalPart.obj, .grad, .cons, .jac].foldl EvalState.readIterate s).log = s.log ++
      [.read .obj s.iterate.x (s.iterate.src .obj), .read .grad s.iterate.x (s.iterate.src .grad),
        .read .cons s.iterate.x (s.iterate.src .cons), .read .jac s.iterate.x (s.iterate.src .jac)] := by
    simp [EvalState.readIterate]
  have hok0 : okFrom (some (s.iterate.x, false))
      [.read .obj s.iterate.x (s.iterate.src .obj), .read .grad s.iterate.x (s.iterate.src .grad),
        .read .cons s.iterate.x (s.iterate.src .cons), .read .jac s.iterate.x (s.iterate.src .jac)] := by
    simp [okFrom, h3]
  have hs0 : ([EvalPart.obj, .grad, .cons, .jac].foldl EvalState.readIterate s).Synced :=
    ⟨h1, by rw [hl0, lastSet_append, h2]; rfl, h3⟩
  by_cases hd : e.done = true
  · simp only [hd, if_true, Option.some.injEq, Prod.mk.injEq] at h
    obtain ⟨rfl, rfl⟩ := h
    exact ⟨_, hl0, hs0, ⟨by simp [valuesSet], by simp, fun _ => rfl, by simp [valuesSet]⟩, fun _ => hok0, by simp [valuesSet]⟩
  · simp only [hd, Bool.false_eq_true, if_false] at h
    obtain ⟨l1, ⟨e1, -, e3, e4⟩, hsy, hx, -, hok⟩ := computeTrial_spec (if pr.dynamic then e.refinements else 0) _ hs0
    rw [hl0, List.append_assoc] at e1
    have hx' : (([EvalPart.obj, .grad, .cons, .jac].foldl EvalState.readIterate s).computeTrial
      (if pr.dynamic then e.refinements else 0)).iterate.x = s.iterate.x := hx
    have hok1 : okFrom (some (s.iterate.x, false)) ([EvalCall.read .obj s.iterate.x (s.iterate.src .obj),
        .read .grad s.iterate.x (s.iterate.src .grad), .read .cons s.iterate.x (s.iterate.src .cons),
        .read .jac s.iterate.x (s.iterate.src .jac)] ++ l1) := by
      rw [okFrom_append]
      exact ⟨hok0, hok⟩
    by_cases hp : e.stop = true
    · simp only [hp, if_true, Option.some.injEq, Prod.mk.injEq] at h
      obtain ⟨rfl, rfl⟩ := h
      refine ⟨_, e1, hsy, ⟨?_, by simp, fun _ => hx', ?_⟩, fun _ => hok1, ?_⟩
      · rw [valuesSet_append, e4]; simp [valuesSet]
      · rw [valuesSet_append, e4]; simp [valuesSet]
      · rw [valuesSet_append, e4]; simp [valuesSet]
    · simp only [hp, Bool.false_eq_true, if_false] at h
      have hf := fun hs => evalFinish_spec pr e _ s' acc hcb hs h
      obtain ⟨l, f1, f2, ⟨g1, g2, g3, g4⟩, f4, f5⟩ := hf hsy
      dsimp only at f1 g3 g4 f4
      rw [e1, List.append_assoc] at f1
      rw [hx'] at g3 g4 f4
      have hv : ∀ r, valuesSet r ([EvalCall.read .obj s.iterate.x (s.iterate.src .obj),
        .read .grad s.iterate.x (s.iterate.src .grad), .read .cons s.iterate.x (s.iterate.src .cons),
        .read .jac s.iterate.x (s.iterate.src .jac)] ++ l1) = [] := by
        intro r; rw [valuesSet_append, e4]; simp [valuesSet]
      refine ⟨_, f1, f2, ⟨?_, ?_, g3, ?_⟩, ?_, ?_⟩
      · rw [valuesSet_append, hv, g1]; rfl
      · intro ha; exact List.mem_append_right _ (g2 ha)
      · rw [valuesSet_append, hv]; exact g4
      · intro hh
        rw [okFrom_append]
        refine ⟨hok1, ?_⟩
        rw [List.foldl_append, e3]
        exact f4 hh
      · rw [valuesSet_append, hv, f5]; rfl

theorem check_spec {c : CheckEnv P} {s s' : EvalState P} (hs : s.Synced) (h : s.checkAt c = some s') :
    ∃ l, s'.log = s.log ++ l ∧ s'.Synced ∧ s'.iterate.x = s.iterate.x ∧ s'.trial = s.trial ∧
      okFrom (some (s.iterate.x, false)) l ∧ valuesSet .accepted l = [] := by
  obtain ⟨h1, h2, h3⟩ := hs
  have hfold : ∀ (ps : List EvalPart) (t : EvalState P), ps.foldl (fun s p => s.evalFor p c.x) t =
      { t with log := t.log ++ ps.map (fun p => EvalCall.eval p c.x) } := by
    intro ps
    induction ps with
    | nil => intro t; simp
    | cons p ps ih => intro t; rw [List.foldl_cons, ih]; simp [EvalState.evalFor]
  have hset : ∀ (ps : List EvalPart) (cur : Option (P × Bool)),
      (ps.map (fun p => EvalCall.eval p c.x)).foldl setStep cur = cur := by
    intro ps
    induction ps with
    | nil => intro _; rfl
    | cons p ps ih => intro cur; exact ih cur
  have hok : ∀ ps : List EvalPart, okFrom (some (c.x, false)) (ps.map (fun p => EvalCall.eval p c.x)) := by
    intro ps
    induction ps with
    | nil => trivial
    | cons p ps ih => exact ⟨rfl, ih⟩
  have hva : ∀ ps : List EvalPart, valuesSet .accepted (ps.map (fun p => EvalCall.eval p c.x)) = [] := by
    intro ps
    induction ps with
    | nil => rfl
    | cons p ps ih => exact ih
  unfold EvalState.checkAt at h
  cases hr : c.resetRejects with
  | true => simp [hr] at h
  | false =>
    cases hj : c.rejects with
    | true =>
      simp only [hr, hj, EvalState.setValue, Bool.false_eq_true, if_false, if_true, Option.some.injEq] at h
      subst h
      refine ⟨_, by rw [List.append_assoc], ⟨rfl, by simp [lastSet, setStep], h3⟩, rfl, rfl, by simp [okFrom],
        by simp [valuesSet]⟩
    | false =>
      simp only [hr, hj, EvalState.setValue, Bool.false_eq_true, if_false, Option.some.injEq, hfold] at h
      subst h
      refine ⟨_, by rw [List.append_assoc, List.append_assoc], ⟨rfl, by simp [lastSet, setStep], h3⟩, rfl, rfl, ?_, ?_⟩
      · refine (okFrom_append _ [EvalCall.set c.x .checkingDeriv false] _).2 ⟨trivial, ?_⟩
        refine (okFrom_append _ _ _).2 ⟨hok _, trivial⟩
      · rw [valuesSet_append, valuesSet_append, hva]; simp [valuesSet]

theorem restore_spec {pr : EvalParams} {rj : Bool} {s s' : EvalState P} (hs : s.Synced)
    (h : s.restoreOriginal pr rj = some s') :
    ∃ l, s'.log = s.log ++ l ∧ s'.Synced ∧ s'.iterate.x = s.iterate.x ∧ s'.trial = s.trial ∧
      okFrom (some (s.iterate.x, false)) l ∧ valuesSet .accepted l = [] := by
  obtain ⟨h1, h2, h3⟩ := hs
  unfold EvalState.restoreOriginal at h
  by_cases hp : pr.preprocess = true
  · cases rj with
    | true => simp [hp] at h
    | false =>
      simp only [hp, if_true, Bool.false_eq_true, if_false, Option.some.injEq] at h
      subst h
      refine ⟨[.set s.iterate.x .none false, .eval .obj s.iterate.x, .eval .grad s.iterate.x, .eval .cons s.iterate.x,
        .eval .jac s.iterate.x], by simp [storedParts, EvalState.setValue, EvalState.evalFor], ⟨rfl, ?_, h3⟩, rfl, rfl,
        by simp [okFrom], by simp [valuesSet]⟩
      simp [storedParts, EvalState.setValue, EvalState.evalFor, lastSet, setStep]
  · simp only [hp, Bool.false_eq_true, if_false, Option.some.injEq] at h
    subst h
    exact ⟨[], by simp, ⟨h1, h2, h3⟩, rfl, rfl, trivial, rfl⟩

/-- computable form of `EvalsAtSet`, for examples -/
def evalsOk [DecidableEq P] : Option (P × Bool) → List (EvalCall P) → Bool
  | _, [] => true
  | _, .set x _ r :: l => evalsOk (some (x, r)) l
  | cur, .eval _ x :: l => decide (cur = some (x, false)) && evalsOk cur l
  | cur, .read _ _ _ :: l => evalsOk cur l

theorem evalsOk_append [DecidableEq P] (cur : Option (P × Bool)) (l m : List (EvalCall P)) :
    evalsOk cur (l ++ m) = (evalsOk cur l && evalsOk (l.foldl setStep cur) m) := by
  induction l generalizing cur with
  | nil => simp [evalsOk]
  | cons c l ih => cases c <;> simp [evalsOk, ih, setStep, Bool.and_assoc]

theorem evalsOk_iff [DecidableEq P] (log : List (EvalCall P)) : evalsOk none log = true ↔ EvalsAtSet log := by
  constructor
  · rintro h pre part x post rfl
    rw [evalsOk_append] at h
    simp only [evalsOk, Bool.and_eq_true, decide_eq_true_eq] at h
    exact h.2.1
  · intro he
    suffices H : ∀ pre post, pre ++ post = log → evalsOk (lastSet pre) post = true from H [] log rfl
    intro pre post
    induction post generalizing pre with
    | nil => intro _; rfl
    | cons c l ih =>
      intro h
      have h2 := ih (pre ++ [c]) (by rw [List.append_assoc]; exact h)
      have h3 : lastSet (pre ++ [c]) = setStep (lastSet pre) c := by simp [lastSet]
      rw [h3] at h2
      cases c with
      | set x r rej => exact h2
      | eval p x =>
        simp only [evalsOk, Bool.and_eq_true, decide_eq_true_eq]
        exact ⟨he pre p x l h.symm, h2⟩
      | read p x src => exact h2

end Sleqp
