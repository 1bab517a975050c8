import Verif.Spec.Phases
import Verif.Lemmas.EvalProtocol

/-! Helper lemmas for C98. -/

namespace Sleqp

variable {P Q : Type*}

/-- Relation between the user's function and the value `cur` of the restoration function set last. -/
structure PhaseState.Tied (proj : Q → P) (s : PhaseState P Q) (cur : Option (Q × Bool)) : Prop where
  func : s.opt.func = cur.map fun c => proj c.1
  last : lastSet s.opt.log = cur.map fun c => (proj c.1, c.2)
  ok : okFrom none s.opt.log
  val : s.val = none ∨ s.val = s.opt.func
  jac : s.jac = none ∨ s.jac = s.opt.func

theorem okFrom_push_eval {s : EvalState P} {x : P} (p : EvalPart) (h : okFrom none s.log) (hl : lastSet s.log = some (x, false)) :
    okFrom none (s.evalFor p x).log ∧ lastSet (s.evalFor p x).log = some (x, false) := by
  refine ⟨(okFrom_append _ _ _).2 ⟨h, ?_⟩, ?_⟩
  · exact ⟨hl, trivial⟩
  · show lastSet (s.log ++ _) = _
    rw [lastSet_append, hl]; rfl

theorem needVal_tied {proj : Q → P} {s : PhaseState P Q} {q : Q} (h : s.Tied proj (some (q, false))) :
    (s.needVal (proj q)).Tied proj (some (q, false)) ∧ (s.needVal (proj q)).val = some (proj q) ∧
      (s.needVal (proj q)).rest = s.rest ∧ (s.needVal (proj q)).inRest = s.inRest ∧ (s.needVal (proj q)).opt.trial = s.opt.trial := by
  obtain ⟨h1, h2, h3, h4, h5⟩ := h
  unfold PhaseState.needVal
  cases hv : s.val with
  | some x =>
    refine ⟨⟨h1, h2, h3, h4, h5⟩, ?_, rfl, rfl, rfl⟩
    rcases h4 with h4 | h4
    · rw [hv] at h4; cases h4
    · rw [h4, h1]; rfl
  | none =>
    obtain ⟨a, b⟩ := okFrom_push_eval .cons h3 h2
    exact ⟨⟨h1, b, a, Or.inr rfl, h5⟩, h1, rfl, rfl, rfl⟩

theorem needJac_tied {proj : Q → P} {s : PhaseState P Q} {q : Q} (h : s.Tied proj (some (q, false))) :
    (s.needJac (proj q)).Tied proj (some (q, false)) ∧ (s.needJac (proj q)).jac = some (proj q) ∧ (s.needJac (proj q)).val = s.val ∧
      (s.needJac (proj q)).rest = s.rest ∧ (s.needJac (proj q)).inRest = s.inRest ∧ (s.needJac (proj q)).opt.trial = s.opt.trial := by
  obtain ⟨h1, h2, h3, h4, h5⟩ := h
  unfold PhaseState.needJac
  cases hv : s.jac with
  | some x =>
    refine ⟨⟨h1, h2, h3, h4, h5⟩, ?_, rfl, rfl, rfl, rfl⟩
    rcases h5 with h5 | h5
    · rw [hv] at h5; cases h5
    · rw [h5, h1]; rfl
  | none =>
    obtain ⟨a, b⟩ := okFrom_push_eval .jac h3 h2
    exact ⟨⟨h1, b, a, h4, Or.inr rfl⟩, h1, rfl, rfl, rfl, rfl⟩

theorem restCalls_tied {proj : Q → P} (l : List (EvalCall Q)) :
    ∀ {s : PhaseState P Q} {cur : Option (Q × Bool)}, s.Tied proj cur → okFrom cur l →
      (l.foldl (PhaseState.restCall proj) s).Tied proj (l.foldl setStep cur) ∧
      (l.foldl (PhaseState.restCall proj) s).inRest = s.inRest := by
  induction l with
  | nil => intro s cur h _; exact ⟨h, rfl⟩
  | cons c l ih =>
    intro s cur h ho
    cases c with
    | set q r rej =>
      refine ih (s := s.restCall proj (.set q r rej)) (cur := some (q, rej)) ⟨rfl, ?_, ?_, Or.inl rfl, Or.inl rfl⟩ ho
      · show lastSet (s.opt.log ++ _) = _
        rw [lastSet_append]; rfl
      · exact (okFrom_append _ _ _).2 ⟨h.ok, trivial⟩
    | eval p q =>
      obtain ⟨rfl, ho⟩ := ho
      cases p with
      | obj =>
        obtain ⟨a, -, -, b, -⟩ := needVal_tied h
        obtain ⟨c, d⟩ := ih a ho
        exact ⟨c, d.trans b⟩
      | grad =>
        obtain ⟨a, -, -, b, -⟩ := needVal_tied h
        obtain ⟨a', -, -, -, b', -⟩ := needJac_tied a
        obtain ⟨c, d⟩ := ih a' ho
        exact ⟨c, d.trans (b'.trans b)⟩
      | hess =>
        obtain ⟨a, -, -, -, b, -⟩ := needJac_tied h
        obtain ⟨c, d⟩ := ih a ho
        exact ⟨c, d.trans b⟩
      | cons => exact ih h ho
      | jac => exact ih h ho
    | read p x src => exact ih h ho.2

theorem restDone_tied {proj : Q → P} {s : PhaseState P Q} {r : EvalState Q} {l : List (EvalCall Q)} (h : s.Tied proj (lastSet s.rest.log))
    (hl : r.log = s.rest.log ++ l) (ho : okFrom (lastSet s.rest.log) l) :
    (s.restDone proj r).Tied proj (lastSet r.log) ∧ (s.restDone proj r).inRest = s.inRest ∧ (s.restDone proj r).rest = r := by
  obtain ⟨⟨a, b, c, d, e⟩, f⟩ := restCalls_tied l h ho
  unfold PhaseState.restDone
  rw [hl, List.drop_left, lastSet_append]
  exact ⟨⟨a, b, c, d, e⟩, f, rfl⟩

theorem okFrom_extend {s t : EvalState P} {l : List (EvalCall P)} (h : okFrom none s.log) (hs : s.Synced) (hl : t.log = s.log ++ l)
    (ho : okFrom (some (s.iterate.x, false)) l) : okFrom none t.log := by
  rw [hl, okFrom_append]
  refine ⟨h, ?_⟩
  have : s.log.foldl setStep none = some (s.iterate.x, false) := hs.2.1
  rw [this]; exact ho

/-- The invariant kept in both phases. -/
structure PhaseState.Inv (proj : Q → P) (s : PhaseState P Q) : Prop where
  ok : okFrom none s.opt.log
  okRest : okFrom none s.rest.log
  opt : s.inRest = false → s.opt.Synced
  rest : s.inRest = true → s.rest.Synced ∧ s.Tied proj (lastSet s.rest.log)

theorem phase_step {pr : EvalParams} {proj : Q → P} {s s' : PhaseState P Q} {o : PhaseState.Op P Q}
    (hcb : (pr.callback && pr.preprocess) = false) (h : s.Inv proj) (ho : s.OpOk pr proj o)
    (hst : s.step pr proj o = some s') : s'.Inv proj := by
  obtain ⟨h1, h2, h3, h4⟩ := h
  cases hr : s.inRest with
  | false =>
    have hs := h3 hr
    cases o with
    | checkOpt c =>
      simp only [PhaseState.step, hr, Bool.false_eq_true, if_false, Option.map_eq_some_iff] at hst
      obtain ⟨t, ht, rfl⟩ := hst
      obtain ⟨l, g1, g2, -, -, g5, -⟩ := check_spec hs ht
      exact ⟨okFrom_extend h1 hs g1 g5, h2, fun _ => g2, fun hh => (by cases hh)⟩
    | optimize e =>
      simp only [PhaseState.step, hr, Bool.false_eq_true, if_false, Option.map_eq_some_iff] at hst
      obtain ⟨⟨t, a⟩, ht, rfl⟩ := hst
      obtain ⟨l, g1, g2, -, g4, -⟩ := evalIteration_spec pr e s.opt t a hcb hs ht
      exact ⟨okFrom_extend h1 hs g1 (g4 ho), h2, fun _ => g2, fun hh => (by cases hh)⟩
    | enter z =>
      simp only [PhaseState.step, hr, Bool.false_eq_true, if_false, Option.some.injEq] at hst
      subst hst
      have hl : lastSet (s.rest.log ++ [.set z .init false, .eval .obj z, .eval .grad z]) = some (z, false) := by
        rw [lastSet_append]; rfl
      have hz : proj z = s.opt.iterate.x := ho
      have hf : s.opt.func = some s.opt.iterate.x := hs.1
      refine ⟨h1, ?_, fun hh => (by cases hh), fun _ => ⟨⟨rfl, hl, fun _ _ => rfl⟩, ?_⟩⟩
      · refine (okFrom_append _ _ _).2 ⟨h2, ?_⟩
        simp [okFrom]
      · show (s.enter z).Tied proj (lastSet (s.rest.log ++ [.set z .init false, .eval .obj z, .eval .grad z]))
        rw [hl]
        refine ⟨?_, ?_, h1, Or.inr ?_, Or.inr ?_⟩
        · show s.opt.func = some (proj z)
          rw [hz, hf]
        · show lastSet s.opt.log = some (proj z, false)
          rw [hz, hs.2.1]
        · show s.opt.iterate.src .cons = s.opt.func
          rw [hf, hs.2.2 .cons (by decide)]
        · show s.opt.iterate.src .jac = s.opt.func
          rw [hf, hs.2.2 .jac (by decide)]
    | checkRest c => simp [PhaseState.step, hr] at hst
    | restore e => simp [PhaseState.step, hr] at hst
    | leave => simp [PhaseState.step, hr] at hst
  | true =>
    obtain ⟨hs, ht⟩ := h4 hr
    have hlast : lastSet s.rest.log = some (s.rest.iterate.x, false) := hs.2.1
    have done : ∀ (r : EvalState Q) l, r.log = s.rest.log ++ l → r.Synced → okFrom (some (s.rest.iterate.x, false)) l →
        (s.restDone proj r).Inv proj := by
      intro r l e1 e2 e3
      obtain ⟨a, b, c⟩ := restDone_tied ht e1 (by rw [hlast]; exact e3)
      exact ⟨a.ok, okFrom_extend h2 hs e1 e3, fun hh => (by rw [b, hr] at hh; cases hh), fun _ => ⟨e2, a⟩⟩
    cases o with
    | checkOpt c => simp [PhaseState.step, hr] at hst
    | optimize e => simp [PhaseState.step, hr] at hst
    | enter z => simp [PhaseState.step, hr] at hst
    | checkRest c =>
      simp only [PhaseState.step, hr, if_true, Option.map_eq_some_iff] at hst
      obtain ⟨t, ht', rfl⟩ := hst
      obtain ⟨l, g1, g2, -, -, g5, -⟩ := check_spec hs ht'
      exact done t l g1 g2 g5
    | restore e =>
      simp only [PhaseState.step, hr, if_true, Option.map_eq_some_iff] at hst
      obtain ⟨⟨t, a⟩, ht', rfl⟩ := hst
      obtain ⟨l, g1, g2, -, g4, -⟩ := evalIteration_spec (PhaseState.restParams pr) e s.rest t a rfl hs ht'
      exact done t l g1 g2 (g4 (by simp [PhaseState.restParams]))
    | leave =>
      simp only [PhaseState.step, hr, if_true, Option.some.injEq] at hst
      subst hst
      rw [hlast] at ht
      obtain ⟨a1, a2, a3, -, -⟩ := needVal_tied ht
      obtain ⟨b1, b2, b3, b4, -, -⟩ := needJac_tied a1
      have key : (s.leave proj).opt.Synced ∧ okFrom none (s.leave proj).opt.log ∧ (s.leave proj).rest = s.rest := by
        obtain ⟨c1, c2, c3, -, -⟩ := b1
        unfold PhaseState.leave
        dsimp only
        generalize (s.needVal (proj s.rest.iterate.x)).needJac (proj s.rest.iterate.x) = t at *
        refine ⟨⟨c1, ?_, ?_⟩, ?_, b4.trans a3⟩
        · simp only [List.foldl_cons, List.foldl_nil, EvalState.evalIterate]
          rw [lastSet_append, lastSet_append, c2]; rfl
        · intro p hp
          have c1' : t.opt.func = some (proj s.rest.iterate.x) := c1
          cases p with
          | obj => simpa [EvalState.evalIterate, EvalSlot.put] using c1'
          | grad => simpa [EvalState.evalIterate, EvalSlot.put] using c1'
          | cons => simpa [EvalState.evalIterate, EvalSlot.put] using b3.trans a2
          | jac => simpa [EvalState.evalIterate, EvalSlot.put] using b2
          | hess => exact absurd rfl hp
        · simp only [List.foldl_cons, List.foldl_nil, EvalState.evalIterate, List.append_assoc]
          refine (okFrom_append _ _ _).2 ⟨c3, ?_⟩
          exact ⟨c2, c2, trivial⟩
      refine ⟨key.2.1, by rw [key.2.2]; exact h2, fun _ => key.1, fun hh => by cases hh⟩

theorem phase_reach {pr : EvalParams} {proj : Q → P} {s s' : PhaseState P Q} (hcb : (pr.callback && pr.preprocess) = false)
    (h : s.Inv proj) (hr : s.Reach pr proj s') : s'.Inv proj := by
  induction hr with
  | refl => exact h
  | step o _ ho hst ih => exact phase_step hcb ih ho hst

end Sleqp
