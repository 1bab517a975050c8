import Verif.Spec.AmplRun
import Verif.Props.MexMain

/-!
C113: what a run of the AMPL driver leaves behind.
-/

namespace Sleqp

variable {K : Type*} [Field K] [LinearOrder K]

theorem amplRun_success {copies : Bool} {name : String} {showObj : K → List Char} {t : AmplStages K} {s : AmplSolved K} (h : t.Success s) :
    amplRun copies name showObj t = match amplReport copies name showObj t s with
      | some f => .exit true (some f)
      | none => .undef := by
  obtain ⟨h1, h2, h3, h4, h5, h6⟩ := h
  simp only [amplRun, h1, h2, h3, h4, h5, h6, Bool.not_true, Bool.false_eq_true, if_false]
  rfl

/-- C113: the exit code tells whether all stages succeeded. -/
theorem C113_exit {copies ok : Bool} {name : String} {showObj : K → List Char} {t : AmplStages K} {f : Option (SolFile K)}
    (h : amplRun copies name showObj t = .exit ok f) : (ok = true ↔ ∃ s, t.Success s) ∧ (ok = false ↔ ∃ m, t.Failure m) := by
  have key : (∃ s, t.Success s) ∨ ((∃ m, t.Failure m) ∧ ∃ g, amplRun copies name showObj t = .exit false g) := by
    unfold amplRun
    cases h1 : t.stub with
    | false => exact .inr ⟨⟨[], .inl h1⟩, none, rfl⟩
    | true =>
      cases h2 : t.dims with
      | false => exact .inr ⟨⟨[], .inr (.inl h2)⟩, none, rfl⟩
      | true =>
        rcases h3 : t.data with m | _
        · exact .inr ⟨⟨m, .inr (.inr (.inl h3))⟩, none, rfl⟩
        rcases h4 : t.problem with m | _
        · exact .inr ⟨⟨m, .inr (.inr (.inr (.inl h4)))⟩, none, rfl⟩
        rcases h5 : t.solver with m | _
        · exact .inr ⟨⟨m, .inr (.inr (.inr (.inr (.inl h5))))⟩, none, rfl⟩
        rcases h6 : t.solve with m | s
        · exact .inr ⟨⟨m, .inr (.inr (.inr (.inr (.inr h6))))⟩, _, rfl⟩
        · exact .inl ⟨s, h1, h2, h3, h4, h5, h6⟩
  have excl : ∀ s m, t.Success s → ¬ t.Failure m := by
    rintro s m ⟨h1, h2, h3, h4, h5, h6⟩ hf
    unfold AmplStages.Failure at hf
    rw [h1, h2, h3, h4, h5, h6] at hf
    simp at hf
  rcases key with ⟨s, hs⟩ | ⟨⟨m, hm⟩, g, hg⟩
  · have hok : ok = true := by
      rw [amplRun_success hs] at h
      cases hr : amplReport copies name showObj t s with
      | none => rw [hr] at h; cases h
      | some x => rw [hr] at h; cases h; rfl
    subst hok
    exact ⟨⟨fun _ => ⟨s, hs⟩, fun _ => rfl⟩, ⟨(fun e => by cases e), fun ⟨m, hm⟩ => absurd hm (excl s m hs)⟩⟩
  · rw [hg] at h
    cases h
    exact ⟨⟨(fun e => by cases e), fun ⟨s, hs⟩ => absurd hm (excl s m hs)⟩, ⟨fun _ => ⟨m, hm⟩, fun _ => rfl⟩⟩

/-- C113 (part): when the solve itself fails, a solution file without values is written whose result belongs to the
class of failures and whose message is that of the error, up to the size of the buffer.  Missing: failures of the
earlier stages (see `C113_early_violated`). -/
theorem C113_error_partial {copies : Bool} {name : String} {showObj : K → List Char} {t : AmplStages K} {m : List Char}
    (h1 : t.stub = true) (h2 : t.dims = true) (h3 : t.data = .ok ()) (h4 : t.problem = .ok ()) (h5 : t.solver = .ok ())
    (h6 : t.solve = .error m) (hl : name.toList.length + m.length ≤ 509) :
    ∃ f, amplRun copies name showObj t = .exit false (some f) ∧ AmplClass.failure.has f.result ∧
      f.message = name.toList ++ ": ".toList ++ m ∧ f.primal = none ∧ f.dual = none := by
  refine ⟨amplReportError name m, ?_, ⟨by show 500 ≤ 502; decide, by show 502 < 600; decide⟩, ?_, rfl, rfl⟩
  · simp only [amplRun, h1, h2, h3, h4, h5, h6, Bool.not_true, Bool.false_eq_true, if_false]
  · have hm : errText m = m := List.take_of_length_le (by omega)
    show bufText _ = _
    rw [hm]
    refine List.take_of_length_le ?_
    have hc : (": ".toList).length = 2 := by decide
    rw [List.length_append, List.length_append, hc]
    omega

theorem amplResult_class (st : SStatus) : st.amplClass.has (amplResult st) := by
  cases st <;> simp only [SStatus.amplClass, AmplClass.has, amplResult] <;> decide

theorem amplState_sstatus (st : ActiveState) : amplState st = st.sstatus := by cases st <;> rfl

/-- C113 (part): when all stages succeed, a solution file is written which describes the result, and the exit code is
success, if the AMPL library copies the states handed over to it.  Missing: it does not, it keeps pointers (see
`C113_states_violated`). -/
theorem C113_solution_partial [IsStrictOrderedRing K] {name : String} {showObj : K → List Char} {t : AmplStages K} {s : AmplSolved K}
    (h : t.Success s) (hp : s.iter.primal.WF) (hd : s.iter.consDual.WF) :
    ∃ f, amplRun true name showObj t = .exit true (some f) ∧ f.Describes t s := by
  rw [amplRun_success h]
  refine ⟨_, rfl, ⟨amplResult_class _, ⟨_, rfl, isDense_toRaw hp⟩, ⟨_, rfl, ?_, fun i hi => ?_⟩, ⟨_, rfl, ?_, fun j hj => ?_⟩,
    ⟨_, rfl, ?_, fun j hj => ?_⟩⟩⟩
  · rw [List.length_map]
    exact (isDense_toRaw hd).1
  · rw [List.getElem?_map, (isDense_toRaw hd).2 i hi, Option.map_some]
    unfold amplDual
    cases t.maximize <;> simp
  · simp
  · simp [hj, amplState_sstatus]
  · simp
  · simp [hj, amplState_sstatus]

/-- C113: the message of a solution file for a solve which ended without error starts with the name of the solver and a
text for the status. -/
theorem C113_message {name : String} {showObj : K → List Char} {t : AmplStages K} {s : AmplSolved K} {f : SolFile K}
    (h : amplReport true name showObj t s = some f) (hl : name.toList.length ≤ 400) :
    (name.toList ++ ": ".toList ++ (amplStatusText s.status).toList) <+: f.message := by
  have hf : f.message = bufText (name.toList ++ ": ".toList ++ (amplStatusText s.status).toList ++
      (if amplResult s.status = 501 then []
        else bufText (", objective: ".toList ++ showObj (amplReportedObj s.iter.objVal) ++ ", iterations: ".toList ++
          decText s.iterations))) := by
    cases h
    rfl
  have h1 : ∀ st : SStatus, (amplStatusText st).toList.length ≤ 100 := fun st => by cases st <;> decide
  have hc : (": ".toList).length = 2 := by decide
  rw [hf]
  unfold bufText
  rw [List.prefix_take_iff]
  refine ⟨List.prefix_append _ _, ?_⟩
  have := h1 s.status
  rw [List.length_append, List.length_append, hc]
  omega

/-- C113: results with different numbers have different texts. -/
theorem C113_texts (a b : SStatus) (h : amplStatusText a = amplStatusText b) : amplResult a = amplResult b := by
  revert h
  cases a <;> cases b <;> decide

/-! ### Violations -/

/-- C113 is violated: the arrays with the states of variables and constraints are released before the solution file is
written, although the AMPL library only keeps pointers to them.  Every successful run reads released memory. -/
theorem C113_states_violated {name : String} {showObj : K → List Char} {t : AmplStages K} {s : AmplSolved K} (h : t.Success s) :
    amplRun false name showObj t = .undef := by
  rw [amplRun_success h]
  rfl

/-- C113 is violated: when the model has contradictory bounds, or when it cannot be read, the run ends without a
solution file.  AMPL gets no message, no result and keeps those of an earlier solve. -/
theorem C113_early_violated : ¬ ∀ (t : AmplStages ℚ) (m : List Char), t.problem = .error m →
    ∃ ok f, amplRun true "SLEQP" (fun _ => []) t = .exit ok (some f) := by
  intro h
  obtain ⟨ok, f, hf⟩ := h ⟨1, 0, false, true, true, .ok (), .error "Inconsistent bounds".toList, .ok (), .error []⟩ _ rfl
  cases hf

/-! ### The hypotheses are met -/

/-- a run which finds an optimal solution of a problem in one variable -/
def exAmplStages : AmplStages ℚ :=
  ⟨1, 0, false, true, true, .ok (), .ok (), .ok (), .ok ⟨.optimal, 3, ⟨⟨1, 1, [(0, 2)]⟩, 4, Vec.create 1 0, Vec.create 0 0,
    Mat.create 0 1 0 (fun _ => 0) fun _ => 0, Vec.create 0 0, Vec.create 1 0⟩, WSet.create 1 0 id⟩⟩

example : ∃ s, exAmplStages.Success s ∧ s.iter.primal.WF ∧ s.iter.consDual.WF :=
  ⟨_, ⟨rfl, rfl, rfl, rfl, rfl, rfl⟩, (C02_isValid_iff _).mp (by decide +kernel),
    (C02_isValid_iff _).mp (by decide +kernel)⟩

example : ∃ f, amplRun true "SLEQP" (fun _ : ℚ => []) { exAmplStages with solve := .error "Failed to evaluate".toList } = .exit false (some f) :=
  (C113_error_partial (K := ℚ) (t := { exAmplStages with solve := .error "Failed to evaluate".toList }) rfl rfl rfl rfl rfl rfl (by decide)).imp fun _ h => h.1

end Sleqp
