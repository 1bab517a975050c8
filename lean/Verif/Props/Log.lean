import Verif.Spec.Log

/-!
C115: log messages reach the handler which was set.
-/

namespace Sleqp

variable {H : Type*}

theorem logRun_append (s : LogState H) (a b : List (LogOp H)) :
    s.run (a ++ b) = (((s.run a).1.run b).1, (s.run a).2 ++ ((s.run a).1.run b).2) := by
  induction a generalizing s with
  | nil => rfl
  | cons o a ih =>
    show (((s.step o).1.run (a ++ b)).1, (s.step o).2 ++ ((s.step o).1.run (a ++ b)).2) = _
    rw [ih]
    show (_, _) = (_, ((s.step o).2 ++ ((s.step o).1.run a).2) ++ _)
    rw [List.append_assoc]
    rfl

theorem logRun_state (s : LogState H) (ops : List (LogOp H)) : (s.run ops).1 = ⟨levelAfter s.level ops, handlerAfter s.handler ops⟩ := by
  induction ops generalizing s with
  | nil => rfl
  | cons o ops ih =>
    show ((s.step o).1.run ops).1 = _
    rw [ih]
    cases o <;> rfl

/-- C115: whatever was logged and set before, a message is passed to the handler set last, with its level and its text
(the first 2047 characters), if its level is not above the level set last, and to no handler otherwise; what was
delivered before remains delivered, in order. -/
theorem C115_delivery (s : LogState H) (ops : List (LogOp H)) (l : LogLevel) (text : List Char) :
    (s.run (ops ++ [.msg l text])).2 = (s.run ops).2 ++
      if l.code ≤ levelAfter s.level ops then [(handlerAfter s.handler ops, l, text.take 2047)] else [] := by
  rw [logRun_append]
  show _ ++ (((s.run ops).1.step (.msg l text)).2 ++ []) = _
  rw [List.append_nil, logRun_state s ops]
  rfl

/-- C115: the same for messages with their place in the source: the text begins with the place and a text of
reasonable length is complete. -/
theorem C115_trace (s : LogState H) (ops : List (LogOp H)) (l : LogLevel) (file : List Char) (line : Nat) (text : List Char)
    (ht : text.length ≤ 2047) (hf : file.length + line.repr.toList.length ≤ 2000) :
    (s.run (ops ++ [.trace l file line text])).2 = (s.run ops).2 ++
      if l.code ≤ levelAfter s.level ops then
        [(handlerAfter s.handler ops, l, file ++ ':' :: line.repr.toList ++ ' ' :: text)] else [] := by
  rw [logRun_append]
  show _ ++ (((s.run ops).1.step (.trace l file line text)).2 ++ []) = _
  rw [List.append_nil, logRun_state s ops]
  have : traceText file line text = file ++ ':' :: line.repr.toList ++ ' ' :: text := by
    unfold traceText logText
    rw [List.take_of_length_le ht]
    refine List.take_of_length_le ?_
    simp only [List.length_append, List.length_cons]
    omega
  simp only [LogState.step, this]

/-- C115: setting a level or a handler delivers nothing. -/
theorem C115_quiet (s : LogState H) (ops : List (LogOp H)) (h : ∀ o ∈ ops, (∃ v, o = .setLevel v) ∨ ∃ g, o = .setHandler g) : (s.run ops).2 = [] := by
  induction ops generalizing s with
  | nil => rfl
  | cons o ops ih =>
    show (s.step o).2 ++ ((s.step o).1.run ops).2 = []
    rw [ih _ fun o ho => h o (List.mem_cons_of_mem _ ho), List.append_nil]
    rcases h o (by simp) with ⟨v, rfl⟩ | ⟨g, rfl⟩ <;> rfl

theorem setLevels_inv (s : PyLog) (ls : List Int) (ho : s.ours = true) (hh : s.lib.handler = .python) :
    (s.setLevels ls).ours = true ∧ (s.setLevels ls).lib.handler = .python := by
  induction ls generalizing s with
  | nil => exact ⟨ho, hh⟩
  | cons lv ls ih =>
    show ((s.setLevel lv).1.setLevels ls).ours = true ∧ _
    apply ih
    · unfold PyLog.setLevel
      rw [if_pos ho]
      split <;> exact ho
    · unfold PyLog.setLevel
      rw [if_pos ho]
      split <;> exact hh

/-- C115 (part): whatever levels of the Python logger were set before, also illegal ones: when the level set last is one
of those of the `logging` module (or none was set), a message of the library becomes a record of the corresponding level
if and only if the effective level of the logger admits this.  Missing: other levels (see `C115_custom_violated`) and a
logger created before the module was loaded (see `C115_import_violated`). -/
theorem C115_python_partial (lib : Int) (ls : List Int) (last : Int) (hl : last ∈ pyStandard) (parent : Int) (l : LogLevel) (text : List Char) :
    (((PyLog.load lib none).setLevels ls).setLevel last).2 = false ∧
    ((((PyLog.load lib none).setLevels ls).setLevel last).1).message parent l text =
      if (if last = 0 then parent else last) ≤ l.python then [.record l.python (text.take 2047)] else [] := by
  obtain ⟨h1, h2⟩ := setLevels_inv (PyLog.load lib none) ls rfl rfl
  generalize (PyLog.load lib none).setLevels ls = s at h1 h2
  obtain ⟨⟨c, h⟩, o, lv⟩ := s
  dsimp only at h1 h2
  subst h1 h2
  simp only [pyStandard, List.mem_cons, List.not_mem_nil, or_false] at hl
  rcases hl with rfl | rfl | rfl | rfl | rfl | rfl <;> refine ⟨rfl, ?_⟩ <;> cases l <;>
    simp [PyLog.setLevel, pyLogLevel, PyLog.message, LogState.step, LogLevel.code, LogLevel.python, logText]

/-- C115: after loading, before any level is set, the messages admitted by the parents of the logger are recorded. -/
theorem C115_loaded (lib parent : Int) (l : LogLevel) (text : List Char) :
    (PyLog.load lib none).message parent l text = if parent ≤ l.python then [.record l.python (text.take 2047)] else [] := by
  cases l <;> simp [PyLog.load, PyLog.message, LogState.step, LogLevel.code, LogLevel.python, logText] <;> rfl

/-! ### Violations -/

/-- Setting another level than those of the `logging` module raises an error after the level of the logger was changed:
the logger now admits warnings (level 40 is replaced by 25), but the library still suppresses them. -/
theorem C115_custom_violated : ¬ ∀ (lib : Int) (ls : List Int) (parent : Int) (l : LogLevel) (text : List Char),
    ((PyLog.load lib none).setLevels ls).level ≠ 0 →
    ((PyLog.load lib none).setLevels ls).message parent l text =
      if ((PyLog.load lib none).setLevels ls).level ≤ l.python then [.record l.python (text.take 2047)] else [] := by
  intro h
  have := h 4 [40, 25] 30 .warn [] (by decide)
  revert this
  decide

/-- If the program asked for the logger before loading the module, for instance to set its level, the handler is not
installed: all messages go to the error stream. -/
theorem C115_import_violated : ¬ ∀ (lib : Int) (existing : Option Int) (last : Int) (parent : Int) (l : LogLevel) (text : List Char),
    last ∈ pyStandard → (((PyLog.load lib existing).setLevel last).1).message parent l text =
      if (if last = 0 then parent else last) ≤ l.python then [.record l.python (text.take 2047)] else [] := by
  intro h
  have := h 4 (some 40) 40 30 .debug [] (by decide)
  revert this
  decide

/-! ### Examples -/

/-- a warning is delivered, a message of level `debug` is not -/
example : ((⟨4, 0⟩ : LogState Nat).run [.setLevel 3, .setHandler 7, .msg .warn ['a'], .msg .debug ['b']]).2 = [(7, .warn, ['a'])] := rfl

example : (((PyLog.load 4 none).setLevels [10, 99]).setLevel 20).1.message 30 .info ['x'] = [.record 20 ['x']] :=
  (C115_python_partial 4 [10, 99] 20 (by decide) 30 .info ['x']).2

end Sleqp
