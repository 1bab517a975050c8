import Verif.Lemmas.PyErrors

/-! C103: exceptions raised by a Python program's functions and callbacks reach the caller of `solve`. -/

namespace Sleqp

/-- C103: when `solve` returns without exception, none of the functions and callbacks called raised one. -/
theorem C103_normal {s : PyState} (hs : s.History) (steps : List LibStep) (h : (s.solve steps).1 = none) :
    ∀ c ∈ (s.solve steps).2.calls, c.2 = none := by
  rcases solve_cases (history_inv hs) steps with ⟨_, hc⟩ | ⟨h', _⟩
  · exact hc.calls
  · rw [h] at h'; cases h'

/-- C103, for exceptions that are true in Python and callbacks that do not unregister themselves before raising: an exception raised by a
function or a callback ends the solve - the call is the last one, and no earlier one raised -, and the exception raised by `solve` has it as the end
of its chain of causes, below an `EvaluationError` or a `CallbackError`. Missing: the other cases, see the violations below. -/
theorem C103_cause_partial {s : PyState} (hs : s.History) (steps : List LibStep) (hst : StaysRegistered steps) {src : CallSrc} {e : UserExc}
    (he : (src, some e) ∈ (s.solve steps).2.calls) (ht : e.truthy = true) :
    (∃ R, (s.solve steps).1 = some R ∧ Blames R src e) ∧
    ∃ l, (s.solve steps).2.calls = l ++ [(src, some e)] ∧ ∀ c ∈ l, c.2 = none := by
  have last : ∀ (l : List (CallSrc × Option UserExc)) (c : CallSrc × Option UserExc), (∀ c ∈ l, c.2 = none) →
      (src, some e) ∈ l ++ [c] → c = (src, some e) := by
    intro l c hl hm
    rcases List.mem_append.mp hm with hm | hm
    · cases hl _ hm
    · exact (List.mem_singleton.mp hm).symm
  rcases solve_cases (history_inv hs) steps with ⟨_, hc⟩ | ⟨hr, hf⟩
  · cases hc.calls _ he
  · rw [hr]
    cases hf with
    | lib hc => cases hc.calls _ he
    | func e' l inv hc hl hf her =>
      rw [hc] at he
      have h := last l _ hl he
      rw [h] at hc
      cases h
      refine ⟨⟨_, rfl, some "Error during solution process", none, ?_⟩, l, hc, hl⟩
      rw [raised_func (by rw [her]), hf, her]
      simp only [withCause, if_pos ht]
      rfl
    | callback h' e' l inv hc hl hx her hreg =>
      rw [hc] at he
      have h := last l _ hl he
      rw [h] at hc
      cases h
      refine ⟨⟨_, rfl, some "Error during solution process", some "", ?_⟩, l, hc, hl⟩
      rcases firstCbExc_cases hx with ⟨_, h⟩ | ⟨h, _⟩
      · rw [raised_callback her, h]
        simp only [withCause, if_pos ht]
        rfl
      · exact absurd (hreg hst) h

/-- C103: an exception of the user at the end of the chain of causes was raised by the last function or callback called during this very
solve; exceptions of earlier solves are not blamed. -/
theorem C103_blame {s : PyState} (hs : s.History) (steps : List LibStep) {R : Raised} (hR : (s.solve steps).1 = some R) {e : UserExc}
    (he : R.root = some e) : ∃ src, (s.solve steps).2.calls.getLast? = some (src, some e) ∧ Blames R src e := by
  rcases solve_cases (history_inv hs) steps with ⟨h, _⟩ | ⟨hr, hf⟩
  · rw [h] at hR; cases hR
  · rw [hr] at hR
    obtain rfl := Option.some.inj hR
    have cause : ∀ (k : PyKind) (m : Option String) (o : Option UserExc), (withCause k m o).root = some e →
        withCause k m o = .caused k m (.user e) := by
      intro k m o h
      obtain rfl := withCause_root h
      simp only [withCause] at h ⊢
      by_cases ht : e.truthy = true
      · rw [if_pos ht]
      · rw [if_neg ht] at h; cases h
    cases hf with
    | lib hc =>
      by_cases h1 : (s.solve steps).2.err.type = .funcEvalError
      · rw [raised_func h1] at he
        have := withCause_root (o := (s.solve steps).2.funcExc) he
        rw [hc.funcExc] at this; cases this
      · by_cases h2 : (s.solve steps).2.err.type = .callbackError
        · rw [raised_callback h2] at he
          have := withCause_root (o := (s.solve steps).2.firstCbExc) he
          rw [firstCbExc_none hc.cbExc] at this; cases this
        · rw [raised_other h1 h2] at he; cases he
    | func e' l inv hc hl hf her =>
      have h1 : (s.solve steps).2.err.type = .funcEvalError := by rw [her]
      rw [raised_func h1] at he ⊢
      have := withCause_root (o := (s.solve steps).2.funcExc) he
      rw [hf] at this
      obtain rfl := Option.some.inj this
      exact ⟨.func, by rw [hc]; simp, _, _, by rw [cause _ _ _ he]; rfl⟩
    | callback h' e' l inv hc hl hx her hreg =>
      rw [raised_callback her] at he ⊢
      have := withCause_root (o := (s.solve steps).2.firstCbExc) he
      rcases firstCbExc_cases hx with ⟨_, h⟩ | ⟨_, h⟩
      · rw [h] at this
        obtain rfl := Option.some.inj this
        exact ⟨.callback h', by rw [hc]; simp, _, _, by rw [cause _ _ _ he]; rfl⟩
      · rw [h] at this; cases this

/-- The library's own kind of error for a failure that ends the solve. -/
theorem solve_of_failure {s : PyState} {pre post : List LibStep} {st : LibStep} {s' : PyState} (hpre : (PyState.run pre s.reset).1 = true)
    (hst : (PyState.run pre s.reset).2.step st = (false, s')) :
    (s.solve (pre ++ st :: post)).1 = some s'.raised := by
  unfold PyState.solve
  rw [pyRun_append hpre, pyRun_cons, hst]
  simp

/-- C103: an error of the library itself, after steps that succeeded, is reported under its own kind, with its message (errors of kind callback
carry none), and nobody's exception is named as cause. -/
theorem C103_library {s : PyState} (hs : s.History) {pre post : List LibStep} (hpre : (s.solve pre).1 = none) (t : ErrType) (m : String) :
    ∃ m', (s.solve (pre ++ .fail t m :: post)).1 = some (.caused .exception m' (.plain t.kind (some (if t = .callbackError then "" else m)))) := by
  have hok : (PyState.run pre s.reset).1 = true := by
    unfold PyState.solve at hpre
    by_contra h
    rw [if_neg h] at hpre; cases hpre
  have hc := (run_result pre (reset_clean (history_inv hs))).1 hok
  refine ⟨some "Error during solution process", ?_⟩
  rw [solve_of_failure hok rfl]
  by_cases h1 : t = .funcEvalError
  · subst h1
    rw [raised_func rfl]
    show some (Raised.caused _ _ (withCause _ _ (PyState.run pre s.reset).2.funcExc)) = _
    rw [hc.funcExc]; rfl
  · by_cases h2 : t = .callbackError
    · subst h2
      rw [raised_callback rfl]
      have : PyState.firstCbExc { (PyState.run pre s.reset).2 with err := ⟨.callbackError, some m⟩ } = none := firstCbExc_none hc.cbExc
      rw [this]; rfl
    · rw [raised_other h1 h2, if_neg h2]

/-- C103: a result of the user's function that fails the checks is reported as `AssertionError` with the message of the check, when all functions
wrapped around the user's are the library's internal ones. -/
theorem C103_bad_result {s : PyState} {pre post : List LibStep} (hpre : (s.solve pre).1 = none) (outer : List FuncLayer)
    (ho : ∀ l ∈ outer, l.internal = true) (m : String) :
    ∃ m', (s.solve (pre ++ .eval outer (some m) none :: post)).1 = some (.caused .exception m' (.plain .assertionError (some m))) := by
  have hok : (PyState.run pre s.reset).1 = true := by
    unfold PyState.solve at hpre
    by_contra h
    rw [if_neg h] at hpre; cases hpre
  refine ⟨some "Error during solution process", ?_⟩
  have h := evalLayers_bad m outer ho (PyState.run pre s.reset).2.err
  have hst : (PyState.run pre s.reset).2.step (.eval outer (some m) none) =
      (false, { (PyState.run pre s.reset).2 with
        err := ⟨.failedAssertion, some m⟩, calls := (PyState.run pre s.reset).2.calls ++ [(.func, none)] }) := by
    simp only [PyState.step, h, Option.none_or]
  rw [solve_of_failure hok hst]
  rfl

theorem op_grows {s : PyState} (hs : s.Inv) (ev : Nat) {o : HandleOp} (ho : ∀ h, o ≠ .remove h) :
    (s.hs ev).cbs.length ≤ ((s.op o).hs ev).cbs.length := by
  cases o with
  | remove h => exact absurd rfl (ho h)
  | add e =>
    rcases solverAdd_cases s.hs e s.next hs.cap with ⟨x, hx⟩ | ⟨H, hH, hc, _⟩
    · simp only [PyState.op, hx]; exact Nat.le_refl _
    · simp only [PyState.op, hH]
      unfold setHandler
      split
      · rename_i h; subst h; rw [hc]; simp
      · exact Nat.le_refl _

theorem ops_grow (ops : List HandleOp) (ev : Nat) {s : PyState} (hs : s.Inv) (ho : ∀ h, HandleOp.remove h ∉ ops) :
    (s.hs ev).cbs.length ≤ ((ops.foldl PyState.op s).hs ev).cbs.length := by
  induction ops generalizing s with
  | nil => exact Nat.le_refl _
  | cons o t ih =>
    refine Nat.le_trans (op_grows hs ev (o := o) ?_) (ih (op_keeps hs o).inv ?_)
    · intro h hh; exact ho h (by rw [hh]; exact List.mem_cons_self)
    · intro h hh; exact ho h (List.mem_cons_of_mem _ hh)

theorem dispatch_quiet (beh : Nat → CbRun) (ev : Nat) (hb : ∀ h, (beh h).raises = none ∧ ∀ h', HandleOp.remove h' ∉ (beh h).ops)
    (fuel pos : Nat) {s : PyState} (hs : s.Clean) (hl : pos + fuel ≤ (s.hs ev).cbs.length) : (s.dispatch beh ev fuel pos).1 = true := by
  induction fuel generalizing s pos with
  | zero => rfl
  | succ fuel ih =>
    unfold PyState.dispatch Handler.get
    rw [List.getElem?_eq_getElem (by omega)]
    have hk := ops_keep (beh (s.hs ev).cbs[pos]).ops hs.inv
    have hg := ops_grow (beh (s.hs ev).cbs[pos]).ops ev hs.inv (hb _).2
    have hcb : s.callback (s.hs ev).cbs[pos] (beh (s.hs ev).cbs[pos]) =
        (true, { (beh (s.hs ev).cbs[pos]).ops.foldl PyState.op s with
          calls := s.calls ++ [(.callback (s.hs ev).cbs[pos], none)] }) := by
      simp only [PyState.callback, (hb _).1]
    dsimp only
    rw [hcb, if_pos rfl]
    refine ih (pos + 1) ⟨⟨hk.inv.cap, hk.inv.mem, hk.inv.nodupC, hk.inv.lt, hk.inv.inj, hk.inv.nodup⟩,
          hk.funcExc.trans hs.funcExc, hk.cbExc hs.cbExc, ?_⟩ (by
        show _ ≤ (((beh (s.hs ev).cbs[pos]).ops.foldl PyState.op s).hs ev).cbs.length; omega)
    intro c hc
    rcases List.mem_append.mp hc with hc | hc
    · exact hs.calls c hc
    · rw [List.mem_singleton] at hc; rw [hc]

/-- C103, for callbacks that remove no callbacks: when nothing goes wrong, `solve` returns without exception. Missing: callbacks that
unregister callbacks, see `C103_one_shot_violated`. -/
theorem C103_quiet_partial {s : PyState} (hs : s.History) (steps : List LibStep) (hq : ∀ st ∈ steps, st.Quiet) : (s.solve steps).1 = none := by
  have key : ∀ (steps : List LibStep) (s : PyState), s.Clean → (∀ st ∈ steps, st.Quiet) → (PyState.run steps s).1 = true := by
    intro steps
    induction steps with
    | nil => exact fun _ _ _ => rfl
    | cons st t ih =>
      intro s hs hq
      have h1 : (s.step st).1 = true := by
        have h := hq st List.mem_cons_self
        cases st with
        | eval outer bad raises =>
          obtain ⟨rfl, rfl, ho⟩ := h
          simp only [PyState.step, evalLayers_good outer ho s.err]
        | event ev beh => exact dispatch_quiet beh ev h _ 0 hs (by show 0 + (s.hs ev).cbs.length ≤ _; omega)
        | fail t m => exact h.elim
      rw [pyRun_cons, if_pos h1]
      exact ih _ ((step_result hs st).1 h1) fun st hst => hq st (List.mem_cons_of_mem _ hst)
  unfold PyState.solve
  dsimp only
  rw [if_pos (key steps _ (reset_clean (history_inv hs)) hq)]

/-! ### violations -/

/-- A solver with one callback for each of the first two events. -/
def exPy : PyState := List.foldl PyState.act (PyState.init ⟨.internalError, some ""⟩) [.op (.add 0), .op (.add 1)]

theorem exPy_history : exPy.History := ⟨_, _, rfl⟩

/-- A callback that does nothing. -/
def idle : CbRun := ⟨[], none⟩

/-- C103 violated: a callback that unregisters itself and then raises an exception makes `solve` fail with a `CallbackError` without cause; the
exception is lost, as it is stored at a handle that is no longer in the list searched. -/
theorem C103_unregister_violated :
    ∃ (s : PyState) (steps : List LibStep) (e : UserExc), s.History ∧ e.truthy = true ∧ (.callback 0, some e) ∈ (s.solve steps).2.calls ∧
      ∃ R, (s.solve steps).1 = some R ∧ R.root = none :=
  ⟨exPy, [.event 0 fun _ => ⟨[.remove 0], some ⟨7, true⟩⟩], ⟨7, true⟩, exPy_history, rfl, by decide +kernel, _, rfl, by decide +kernel⟩

/-- C103 violated: a callback that unregisters itself and raises nothing makes `solve` fail with a `ValueError` when another callback is registered
for the event, as the library goes on to a position that no longer exists. -/
theorem C103_one_shot_violated :
    ∃ (s : PyState) (steps : List LibStep), s.History ∧ (∀ c ∈ (s.solve steps).2.calls, c.2 = none) ∧ (∀ t m, LibStep.fail t m ∉ steps) ∧
      ∃ m m', (s.solve steps).1 = some (.caused .exception m (.plain .valueError m')) :=
  ⟨exPy.op (.add 0), [.event 0 fun h => if h = 0 then ⟨[.remove 0], none⟩ else idle], ⟨_, [.op (.add 0), .op (.add 1), .op (.add 0)], rfl⟩,
    by decide +kernel, fun t m h => by simp at h, _, _, rfl⟩

/-- C103 violated: exceptions that are false in Python (classes defining `__bool__` or `__len__`) are not named as cause. -/
theorem C103_falsy_violated :
    ∃ (s : PyState) (steps : List LibStep) (e : UserExc), s.History ∧ StaysRegistered steps ∧ (.func, some e) ∈ (s.solve steps).2.calls ∧
      ∃ R, (s.solve steps).1 = some R ∧ R.root = none :=
  ⟨exPy, [.eval [] none (some ⟨3, false⟩)], ⟨3, false⟩, exPy_history, fun ev beh h => by simp at h, by decide +kernel, _, rfl, by decide +kernel⟩

/-- C103 violated: whenever a function raises an exception, the message of the `EvaluationError` is indeterminate: the library prints the
message into the buffer that holds the previous message, which is one of the arguments printed. -/
theorem C103_message_violated {s : PyState} (hs : s.History) (steps : List LibStep) (hst : StaysRegistered steps) {e : UserExc}
    (he : (.func, some e) ∈ (s.solve steps).2.calls) (ht : e.truthy = true) :
    ∃ m, (s.solve steps).1 = some (.caused .exception m (.caused .evaluationError none (.user e))) := by
  have h := (C103_cause_partial hs steps hst he ht).2
  rcases solve_cases (history_inv hs) steps with ⟨_, hc⟩ | ⟨hr, hf⟩
  · cases hc.calls _ he
  · rw [hr]
    obtain ⟨l', hl', _⟩ := h
    cases hf with
    | lib hc => cases hc.calls _ he
    | func e' l inv hc hl hf her =>
      rw [hc] at hl'
      have h2 := (List.append_inj' hl' rfl).2
      cases h2
      rw [raised_func (by rw [her]), hf, her]
      exact ⟨some "Error during solution process", by simp only [withCause, if_pos ht]⟩
    | callback h' e' l inv hc hl hx her hreg =>
      rw [hc] at hl'
      have h2 := (List.append_inj' hl' rfl).2
      cases h2

/-- C103 violated: an exception raised by one of the user's methods for numbers of nonzeros while the solver is created is lost, whatever it is:
an `AttributeError` is swallowed (no exception is raised, as if the method did not exist), and any other gives an `EvaluationError` without cause. -/
theorem C103_create_violated (outer : List FuncLayer) (ho : ∀ l ∈ outer, l.bad = none) (err : ErrState) (e : UserExc) :
    pyCreate outer err (.error (e, true)) = none ∧
    ∃ R, pyCreate outer err (.error (e, false)) = some R ∧ R = .plain .evaluationError none := by
  refine ⟨?_, _, ?_, rfl⟩
  · simp [pyCreate, tryCall, evalLayers_good outer ho err]
  · simp [pyCreate, tryCall, evalLayers_raises e outer none err, ErrState.exception, ErrType.kind]

/-! ### the hypotheses are met -/

/-- A solve with two quiet steps and a callback that raises an exception. -/
def exSteps : List LibStep :=
  [.eval [⟨true, none⟩] none none, .event 0 fun _ => ⟨[.add 1], none⟩, .event 1 fun h => if h = 1 then ⟨[.add 2], some ⟨9, true⟩⟩ else idle]

theorem exSteps_stays : StaysRegistered exSteps := by
  intro ev beh h k hk
  simp only [exSteps, List.mem_cons, LibStep.event.injEq, List.not_mem_nil, or_false, reduceCtorEq, false_or] at h
  rcases h with ⟨rfl, rfl⟩ | ⟨rfl, rfl⟩
  · simp
  · dsimp only
    split <;> simp [idle]

example : ∃ R, (exPy.solve exSteps).1 = some R ∧ Blames R (.callback 1) ⟨9, true⟩ :=
  (C103_cause_partial exPy_history exSteps exSteps_stays (by decide +kernel) rfl).1

example : (exPy.solve exSteps).2.calls = [(.func, none), (.callback 0, none), (.callback 1, some ⟨9, true⟩)] := by decide +kernel

/-- After a failed solve, the next one does not blame the old exception. -/
example : ((exPy.act (.solve exSteps)).solve [.fail .mathError "x"]).1 =
    some (.caused .exception (some "Error during solution process") (.plain .arithmeticError (some "x"))) := by rfl

example : (exPy.solve [.eval [⟨true, none⟩] none none, .event 0 fun _ => ⟨[.add 1], none⟩]).1 = none :=
  C103_quiet_partial exPy_history _ (by
    intro st h
    simp only [List.mem_cons, List.not_mem_nil, or_false] at h
    rcases h with rfl | rfl
    · exact ⟨rfl, rfl, by simp⟩
    · intro h; exact ⟨rfl, by simp⟩)

example : ∃ m', (exPy.solve ([.eval [] none none] ++ .eval [⟨true, none⟩] (some "Returned infinite function value") none :: [])).1 =
    some (.caused .exception m' (.plain .assertionError (some "Returned infinite function value"))) :=
  C103_bad_result (by rfl) _ (by simp) _

example : (exPy.solve [.eval [⟨true, none⟩, ⟨false, none⟩] none (some ⟨4, true⟩)]).1 =
    some (.caused .exception (some "Error during solution process") (.caused .evaluationError none (.user ⟨4, true⟩))) := by rfl

end Sleqp
