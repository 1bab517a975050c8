import Verif.Spec.MexMain
import Verif.Props.Vec
import Mathlib.Algebra.Field.Rat
import Mathlib.Data.Rat.Cast.Order

/-! C112: what a MATLAB program gets back from a call. -/

namespace Sleqp

/-- text without `%` is printed as it is -/
theorem printf_plain {m : List Char} (h : '%' ∉ m) (args : List (List Char)) : printf m args = some m := by
  induction m with
  | nil => cases args <;> rfl
  | cons c m ih =>
    have hc : c ≠ '%' := fun e => h (by rw [e]; exact List.mem_cons_self)
    have hm := ih fun e => h (List.mem_cons_of_mem _ e)
    rw [printf]
    · rw [hm]; rfl
    all_goals (intros; simp_all)

/-- are all conversions in a text `%s`, `%d` or `%%`, and their arguments among `n`? -/
def fmtOk : List Char → Nat → Bool
  | [], _ => true
  | '%' :: '%' :: r, n => fmtOk r n
  | '%' :: 's' :: r, n + 1 => fmtOk r n
  | '%' :: 'd' :: r, n + 1 => fmtOk r n
  | '%' :: _, _ => false
  | _ :: r, n => fmtOk r n

theorem printf_fmtOk (fmt : List Char) (args : List (List Char)) (h : fmtOk fmt args.length = true) : ∃ m, printf fmt args = some m := by
  induction fmt, args using printf.induct with
  | case1 args => exact ⟨[], by cases args <;> rfl⟩
  | case2 r args ih =>
    obtain ⟨m, hm⟩ := ih (by simpa only [fmtOk] using h)
    exact ⟨'%' :: m, by rw [printf, hm]; rfl⟩
  | case3 r a args ih =>
    obtain ⟨m, hm⟩ := ih (by simpa only [fmtOk, List.length_cons] using h)
    exact ⟨a ++ m, by rw [printf, hm]; rfl⟩
  | case4 r a args ih =>
    obtain ⟨m, hm⟩ := ih (by simpa only [fmtOk, List.length_cons] using h)
    exact ⟨a ++ m, by rw [printf, hm]; rfl⟩
  | case5 r args h1 h2 h3 =>
    exfalso
    rw [fmtOk] at h
    · cases h
    · exact h1
    · intro r' n e hr
      rcases args with _ | ⟨a, args⟩
      · cases e
      · exact h2 _ _ _ rfl hr
    · intro r' n e hr
      rcases args with _ | ⟨a, args⟩
      · cases e
      · exact h3 _ _ _ rfl hr
  | case6 c r args h1 h2 h3 h4 ih =>
    have hc : c ≠ '%' := fun e => h4 e
    have h' : fmtOk r args.length = true := by
      rw [fmtOk] at h
      · exact h
      all_goals (intros; simp_all)
    obtain ⟨m, hm⟩ := ih h'
    refine ⟨c :: m, ?_⟩
    rw [printf]
    · rw [hm]; rfl
    all_goals (intros; simp_all)

section
variable {α β : Type*}

/-- the entry of a command in the table -/
theorem find_command (c : MexCmd) : mexCommands.find? (fun d => decide (c.signature.1 = d.name)) =
    some ⟨c.signature.1, c, c.signature.2.1, c.signature.2.2⟩ := by
  cases c <;> decide

theorem mexFunction_command (c : MexCmd) (args : List (CallArg β)) (run : MexCmd → List (CallArg β) → MexOutcome α)
    (hn : args.length = c.signature.2.2) : mexFunction c.signature.2.1 (.text c.signature.1 :: args) run =
      match run c args with
      | .ok a => .returned a
      | .error t m => mexRaise (mexIdent t) (errText m) [] := by
  have hl : ¬ 256 ≤ c.signature.1.length := by cases c <;> decide
  simp only [mexFunction]
  rw [if_neg hl, find_command]
  dsimp only
  rw [if_neg (not_not.mpr rfl), if_neg (not_not.mpr hn.symm)]
  rfl

/-- C112: a command called by its name, with the documented numbers of arguments and results, is run with these
arguments; its results are returned. -/
theorem C112_run (c : MexCmd) (args : List (CallArg β)) (run : MexCmd → List (CallArg β) → MexOutcome α) {a : α}
    (hn : args.length = c.signature.2.2) (hr : run c args = .ok a) :
    mexFunction c.signature.2.1 (.text c.signature.1 :: args) run = .returned a := by
  rw [mexFunction_command c args run hn, hr]

/-- C112 (part): an error of a command is raised in MATLAB under the identifier of its type, with its message, if this
has no more than 2047 characters and no percent sign.  Missing: messages with a percent sign (see
`C112_percent_violated`). -/
theorem C112_error_partial (c : MexCmd) (args : List (CallArg β)) (run : MexCmd → List (CallArg β) → MexOutcome α) {t : ErrType}
    {m : List Char} (hn : args.length = c.signature.2.2) (hr : run c args = .error t m) (hl : m.length ≤ 2047) (hp : '%' ∉ m) :
    mexFunction c.signature.2.1 (.text c.signature.1 :: args) run = .raised (mexIdent t) m := by
  have hm : errText m = m := List.take_of_length_le hl
  rw [mexFunction_command c args run hn, hr]
  dsimp only
  unfold mexRaise
  rw [hm, printf_plain hp]

/-- C112: different types of errors have different identifiers, none of which is the one for wrong calls. -/
theorem C112_identifiers (s t : ErrType) : (mexIdent s = mexIdent t → s = t) ∧ mexIdent t ≠ mexIdentDefault := by
  cases s <;> cases t <;> decide

/-- C112: all other calls (no or no valid name, wrong numbers of results or arguments) raise an error with the
identifier for wrong calls, and no command is run. -/
theorem C112_wrong_call (nlhs : Nat) (args : List (CallArg β))
    (h : ∀ c : MexCmd, ∀ rest, args = .text c.signature.1 :: rest → ¬ (nlhs = c.signature.2.1 ∧ rest.length = c.signature.2.2)) :
    ∃ m, ∀ run : MexCmd → List (CallArg β) → MexOutcome α, mexFunction nlhs args run = .raised mexIdentDefault m := by
  have hraise : ∀ (fmt : List Char) (as : List (List Char)), fmtOk fmt as.length = true →
      ∃ m, (mexRaise mexIdentDefault fmt as : MexReply α) = .raised mexIdentDefault m := by
    intro fmt as h
    obtain ⟨m, hm⟩ := printf_fmtOk fmt as h
    exact ⟨m, by unfold mexRaise; rw [hm]⟩
  rcases args with _ | ⟨name | b, rest⟩
  · obtain ⟨m, hm⟩ := hraise "Need at least one argument".toList [] (by decide)
    exact ⟨m, fun run => hm⟩
  · by_cases hl : 256 ≤ name.length
    · obtain ⟨m, hm⟩ := hraise "Failed to extract command name".toList [] (by decide)
      exact ⟨m, fun run => by
        simp only [mexFunction]
        rw [if_pos hl]
        exact hm⟩
    · have key : ∀ c ∈ mexCommands, ∃ d : MexCmd, c.name = d.signature.1 ∧ c.nlhs = d.signature.2.1 ∧ c.nrhs = d.signature.2.2 := by
        intro c hc
        simp only [mexCommands, List.mem_cons, List.not_mem_nil, or_false] at hc
        rcases hc with rfl | rfl | rfl | rfl
        · exact ⟨.info, rfl, rfl, rfl⟩
        · exact ⟨.solve, rfl, rfl, rfl⟩
        · exact ⟨.solveDyn, rfl, rfl, rfl⟩
        · exact ⟨.solveLsq, rfl, rfl, rfl⟩
      rcases hf : mexCommands.find? (fun c => decide (name = c.name)) with _ | c
      · obtain ⟨m, hm⟩ := hraise "Invalid command %s".toList [name.toList] (by show fmtOk _ 1 = true; decide)
        refine ⟨m, fun run => ?_⟩
        simp only [mexFunction]
        rw [if_neg hl, hf]
        exact hm
      · obtain ⟨d, d1, d2, d3⟩ := key c (List.mem_of_find?_eq_some hf)
        have hname : name = c.name := by simpa using List.find?_some hf
        have hh := h d rest (by rw [hname, d1])
        by_cases h1 : c.nlhs ≠ nlhs
        · obtain ⟨m, hm⟩ := hraise "Invalid number of return values for function '%s', expected %d, received %d".toList
            [name.toList, decText c.nlhs, decText nlhs] (by show fmtOk _ 3 = true; decide)
          refine ⟨m, fun run => ?_⟩
          simp only [mexFunction]
          rw [if_neg hl, hf]
          dsimp only
          rw [if_pos h1]
          exact hm
        · have h2 : c.nrhs ≠ rest.length := fun e => hh ⟨by rw [← d2]; exact (not_not.mp h1).symm, by rw [← d3]; exact e.symm⟩
          obtain ⟨m, hm⟩ := hraise "Invalid number of parameters for function '%s', expected %d, received %d".toList
            [name.toList, decText c.nrhs, decText rest.length] (by show fmtOk _ 3 = true; decide)
          refine ⟨m, fun run => ?_⟩
          simp only [mexFunction]
          rw [if_neg hl, hf]
          dsimp only
          rw [if_neg h1, if_pos h2]
          exact hm
  · obtain ⟨m, hm⟩ := hraise "First argument needs to be a string".toList [] (by decide)
    exact ⟨m, fun run => hm⟩

end

/-- C112: the numbers which stand for statuses in the results are those of the generated class `Status`, different
statuses have different numbers. -/
theorem C112_status (s t : SStatus) : (s.mexName, s.code) ∈ statusEntries ∧ (s.code = t.code → s = t) := by
  cases s <;> cases t <;> decide

/-- C112: the number which stands for the state of a variable or constraint is the combination of the numbers
`Lower` and `Upper` of the generated class `ActiveState`. -/
theorem C112_states (s : ActiveState) : ∃ i l u, ("Inactive", i) ∈ activeStateEntries ∧ ("Lower", l) ∈ activeStateEntries ∧
    ("Upper", u) ∈ activeStateEntries ∧ s.code = (match s with
      | .inactive => i
      | .lower => l
      | .upper => u
      | .both => l ||| u) := by
  cases s <;> exact ⟨0, 1, 2, by decide, by decide, by decide, rfl⟩

variable {K : Type*} [Field K] [LinearOrder K] [IsStrictOrderedRing K]

theorem isDense_toRaw {v : Vec K} (h : v.WF) : IsDense v v.toRaw :=
  ⟨toRaw_length v, fun i hi => toRaw_get v h i hi⟩

/-- C112 (part): the solution and the fields of the structure returned are the dense primal point, the dense multipliers
of the constraints, the elapsed time, the number of iterations, the status and the states of variables and constraints.
Missing: the multipliers of the variables under the name `vars_dual` (see `C112_name_violated`); they are found under
another name. -/
theorem C112_results_partial {n m : Nat} {it : Iterate K} {w : WSet} {elapsed : K} {iters : Nat} {status : SStatus}
    (hp : it.primal.WF) (hc : it.consDual.WF) (hv : it.varsDual.WF) :
    IsDense it.primal (mexOutput n m it w elapsed iters status).1 ∧
    (∃ l, (mexOutput n m it w elapsed iters status).2.field "primal" = some l ∧ IsDense it.primal l) ∧
    (∃ l, (mexOutput n m it w elapsed iters status).2.field "cons_dual" = some l ∧ IsDense it.consDual l) ∧
    (∃ l, (mexOutput n m it w elapsed iters status).2.field "vars_dal" = some l ∧ IsDense it.varsDual l) ∧
    (mexOutput n m it w elapsed iters status).2.field "elapsed" = some [elapsed] ∧
    (mexOutput n m it w elapsed iters status).2.field "iterations" = some [(iters : K)] ∧
    (mexOutput n m it w elapsed iters status).2.field "status" = some [(status.code : K)] ∧
    (∃ l, (mexOutput n m it w elapsed iters status).2.field "working_vars" = some l ∧ l.length = n ∧
      ∀ j < n, l[j]? = some ((w.varState j).code : K)) ∧
    (∃ l, (mexOutput n m it w elapsed iters status).2.field "working_cons" = some l ∧ l.length = m ∧
      ∀ i < m, l[i]? = some ((w.consState i).code : K)) := by
  refine ⟨isDense_toRaw hp, ⟨_, rfl, isDense_toRaw hp⟩, ⟨_, rfl, isDense_toRaw hc⟩, ⟨_, rfl, isDense_toRaw hv⟩, rfl, rfl, rfl,
    ⟨_, rfl, by simp, fun j hj => by simp [hj]⟩, ⟨_, rfl, by simp, fun j hj => by simp [hj]⟩⟩

/-! ### Violations -/

/-- C112 is violated: the stored message of an error is used as format text.  When a function of the user raises an
exception whose report contains a percent sign, the behaviour is undefined. -/
theorem C112_percent_violated : ¬ ∀ (report : List Char) (args : List (CallArg Unit)) (run : MexCmd → List (CallArg Unit) → MexOutcome Unit),
    args.length = 3 → report.length ≤ 500 → run .solve args = .error .funcEvalError (mexExceptionText report) →
    mexFunction 2 (.text "solve" :: args) run = .raised (mexIdent .funcEvalError) (mexExceptionText report) := by
  intro h
  have := h "only 50% done".toList [.other (), .other (), .other ()]
    (fun _ _ => .error .funcEvalError (mexExceptionText "only 50% done".toList)) rfl (by decide) rfl
  have h2 : mexFunction 2 (.text "solve" :: [.other (), .other (), .other ()])
    (fun _ _ => (.error .funcEvalError (mexExceptionText "only 50% done".toList) : MexOutcome Unit)) = (.undef : MexReply Unit) := rfl
  rw [h2] at this
  cases this

/-- C112 is violated: the structure returned has no field `vars_dual` (the name used by the library for the multipliers
of the variables bounds, in line with `cons_dual`): it is misspelt. -/
theorem C112_name_violated : ¬ ∀ (n m : Nat) (it : Iterate ℚ) (w : WSet) (elapsed : ℚ) (iters : Nat) (status : SStatus),
    ((mexOutput n m it w elapsed iters status).2.field "vars_dual").isSome = true := by
  intro h
  have := h 0 0 ⟨Vec.create 0 0, 0, Vec.create 0 0, Vec.create 0 0, Mat.create 0 0 0 (fun _ => 0) fun _ => 0, Vec.create 0 0, Vec.create 0 0⟩
    (WSet.create 0 0 id) 0 0 .optimal
  exact absurd this (by decide)

/-! ### The hypotheses are met -/

/-- an error for an illegal argument -/
example : mexFunction (α := Unit) (β := Unit) 2 (.text "solve" :: [.other (), .other (), .other ()])
    (fun _ _ => .error .illegalArgument "Inconsistent bounds".toList) = .raised (mexIdent .illegalArgument) "Inconsistent bounds".toList :=
  C112_error_partial .solve [.other (), .other (), .other ()] (fun _ _ => .error .illegalArgument "Inconsistent bounds".toList) rfl rfl (by decide) (by decide)

/-- two results are needed -/
example : ∃ m, ∀ run : MexCmd → List (CallArg Unit) → MexOutcome Unit,
    mexFunction 1 (.text "solve" :: [.other (), .other (), .other ()]) run = .raised mexIdentDefault m :=
  C112_wrong_call 1 _ fun c rest h => by
    cases c <;> simp_all [MexCmd.signature]

end Sleqp
