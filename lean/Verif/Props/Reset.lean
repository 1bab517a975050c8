import Verif.Lemmas.Reset

/-!
C104: after a reset a solve runs as on a new solver.  C105: a further solve continues from the
current solution.
-/

namespace Sleqp

variable {K : Type*} [Field K] [LinearOrder K] {σ X Y : Type*}

/-- The test of optimality at a vector with multipliers. -/
def World.Optimal (w : World X Y K) (p : Params K) (x : X) (y : Y) : Prop :=
  w.feas x ≤ p.feasTol ∧ w.stat x y < p.statTol ∧ w.slack x y < p.slackTol

theorem checkOptimal_iff (p : Params K) (w : World X Y K) (x : X) (y : Y) (s : PSolver K σ)
    (h : s.cur = w.pt x y) : (s.prepare p).checkOptimal p = true ↔ w.Optimal p x y := by
  show (if !decide (s.cur.feasRes ≤ p.feasTol) then false
    else if decide (s.cur.statRes ≥ p.statTol) then false
    else if decide (s.cur.slackRes ≥ p.slackTol) then false else true) = true ↔ _
  rw [h]
  unfold World.Optimal World.pt
  by_cases h1 : w.feas x ≤ p.feasTol <;> by_cases h2 : w.stat x y ≥ p.statTol <;>
    by_cases h3 : w.slack x y ≥ p.slackTol <;> simp [h1, h2, h3] <;>
    first | exact ⟨not_le.mp h2, not_le.mp h3⟩ | exact not_le.mp h2 | exact not_le.mp h3 | skip

/-! ### C104 -/

/-- A reset solver and a new one run alike, for every user function, clock, limit and abort
request: same kind of result, status, iteration count, remaining budget, phase, final point,
trust radii, penalty parameter and step rule, and the same start of the next solve.  The
conditions: the step rules are in their initial state, the start of the solve is still the
initial point (it is not after a restoration phase), the objective there lies above the lower limit
or the stored feasibility residual is still zero, the objective at the start of each restoration
phase lies above the limit, and the initial point is optimal with the
multipliers left over iff it is with those of a new solver.  Each condition is needed, see the
violations below. -/
theorem C104_reset_partial {q : SolveParams K σ} {rule0 : σ} {x0 : X} {y0 : Y}
    {restPt : PointData K} {w : World X Y K} {c s r : Session X Y K σ}
    (hc : Session.create q rule0 x0 y0 restPt w false = some c) (hr : s.reset q = some r)
    (hst : s.core.status ≠ .infeasible) (hph : s.core.phase = .optimization)
    (hro : s.core.opt.rule = rule0) (hrr : s.core.rest.rule = rule0) (hx : s.primal = x0)
    (hlow : q.pO.objLower < w.obj x0 ∨ s.core.opt.feasRes = 0)
    (hopt : w.Optimal q.pO x0 s.dual ↔ w.Optimal q.pO x0 y0)
    (max : Option Nat) (enable : Bool) (innerFuel fuel : Nat) (env : SolveEnv X Y K)
    (hrest : enable = true → ∀ k, q.pR.objLower < (env.outer k).restPt.objVal) :
    CallSim (c.solve q w max enable innerFuel env fuel) (r.solve q w max enable innerFuel env fuel) := by
  unfold Session.create PSolver.create at hc
  unfold Session.reset PSolver.reset at hr
  cases ho : initialTrustRadius q.choice q.sqrtO with
  | none => rw [ho] at hc; cases hc
  | some ro =>
    cases hR : initialTrustRadius q.choice q.sqrtR with
    | none => rw [ho, hR] at hc; cases hc
    | some rr =>
      rw [ho, hR] at hc hr
      simp only [Option.map_some, Option.bind_some, Option.some.injEq] at hc hr
      subst hc
      subst hr
      unfold Session.solve
      simp only [Bool.false_eq_true, if_false]
      rw [if_neg (by decide : ¬ SStatus.unknown = .infeasible), if_neg hst]
      cases env.initReject with
      | true => exact .error
      | false =>
        simp only [Bool.false_eq_true, if_false]
        rw [hx]
        refine sessionLoop_sim innerFuel fuel 0 x0 _ _ hrest ?_
        refine ⟨hph, rfl, rfl, rfl, ⟨rfl, rfl, rfl, rfl, rfl, hro⟩, ⟨rfl, rfl, rfl, rfl, rfl, hrr⟩,
          fun _ => ⟨⟨rfl, rfl, rfl, rfl, rfl, hro⟩, ?_, ?_, hlow⟩, fun h => by cases h⟩
        · exact ⟨rfl, rfl, rfl⟩
        · rw [Bool.eq_iff_iff, checkOptimal_iff q.pO w x0 s.dual _ rfl,
            checkOptimal_iff q.pO w x0 y0 _ rfl]
          exact hopt

/-- Sessions that arise from a new one by solves, with arbitrary limits, users and clocks, and
resets. -/
inductive Session.From (q : SolveParams K σ) (w : World X Y K) (enable : Bool)
    (c : Session X Y K σ) : Session X Y K σ → Prop
  | start : Session.From q w enable c c
  | solve {s s' : Session X Y K σ} {max innerFuel env fuel} : Session.From q w enable c s →
      s.solve q w max enable innerFuel env fuel = .done s' → Session.From q w enable c s'
  | reset {s s' : Session X Y K σ} : Session.From q w enable c s → s.reset q = some s' →
      Session.From q w enable c s'

theorem sessionLoop_end {q : SolveParams K σ} {innerFuel : Nat} {env : SolveEnv X Y K} {fuel : Nat} :
    ∀ {k : Nat} {x : X} {s : Solver K σ} {s' : Session X Y K σ},
      sessionLoop q innerFuel env fuel k x s = .done s' →
      s'.core.phase = .optimization ∧ s'.core.status ≠ .infeasible ∧
      (s.phase = .optimization → s.enableRest = false → s'.primal = x) := by
  induction fuel with
  | zero => intro k x s s' h; cases h
  | succ fuel ih =>
    intro k x s s' h
    unfold sessionLoop at h
    cases hp : outerPass q.pO q.pR q.rule innerFuel (env.outer k) s with
    | more s1 =>
      rw [hp] at h
      obtain ⟨h1, h2, _⟩ := ih h
      refine ⟨h1, h2, fun h3 h4 => ?_⟩
      obtain ⟨_, _, ⟨_, _, _, _, _, _, h5, _⟩ | ⟨h5, _⟩⟩ := outerPass_more hp
      · rw [h4] at h5; cases h5
      · rw [h3] at h5; cases h5
    | done s1 =>
      rw [hp] at h
      simp only [CallOut.done.injEq] at h
      subst h
      obtain ⟨h1, h2⟩ := outerPass_done hp
      refine ⟨h1, ?_, fun h3 _ => by rw [h3]; rfl⟩
      have hcode : ∀ {a : PStatus} {b : SStatus}, abortCode a = some b → b ≠ .infeasible := by
        intro a b hab
        cases a <;> simp [abortCode] at hab <;> simp [← hab]
      show s1.status ≠ .infeasible
      rcases h2 with ⟨_, h3, _⟩ | ⟨_, h3, _⟩ | ⟨_, _, _, _, _, _, _, h3⟩ | ⟨_, _, _, _, _, _, _, h3⟩
      · rw [h3]; decide
      · rw [h3]; decide
      · rcases h3 with ⟨_, h3⟩ | ⟨_, h3⟩ | ⟨_, h3⟩ | h3
        · rw [h3]; decide
        · rw [h3]; decide
        · rw [h3]; decide
        · exact hcode h3
      · exact hcode h3
    | error => rw [hp] at h; cases h
    | fail => rw [hp] at h; cases h
    | outOfFuel => rw [hp] at h; cases h

/-- a run that starts below the objective limit with a small stored residual does not change
the latter -/
theorem problemSolve_unb {p : Params K} {R : Rule K σ} {max : Option Nat} {l : Bool}
    {env : Nat → IterEnv K} {fuel n : Nat} {s s' : PSolver K σ}
    (h : problemSolve p R max l env fuel s = .done n s') (h1 : s.cur.objVal ≤ p.objLower)
    (h2 : s.feasRes ≤ p.feasTol) : s'.feasRes = s.feasRes := by
  have hu : performIteration p R (s.startSolve l) (env 0) =
      some (.ok, { s.startSolve l with status := .unbounded }) := by
    unfold performIteration
    rw [if_neg (by simp [PSolver.startSolve]), if_pos]
    unfold PSolver.checkUnbounded
    rw [Bool.and_eq_true, decide_eq_true_eq, decide_eq_true_eq]
    exact ⟨h1, h2⟩
  unfold problemSolve at h
  cases fuel with
  | zero => cases h
  | succ fuel =>
    unfold loop at h
    cases hp : loopPass p R max (env 0) (s.startSolve l) with
    | more s2 =>
      obtain ⟨_, _, _, _, _, _, h7, h8⟩ := loopPass_more hp
      rw [hu] at h8
      simp only [Option.some.injEq, Prod.mk.injEq, true_and] at h8
      rw [← h8] at h7
      cases h7
    | done perf s2 =>
      rw [hp] at h
      simp only [Out.done.injEq] at h
      obtain ⟨_, rfl⟩ := h
      rcases loopPass_done hp with ⟨_, ⟨_, h3⟩ | ⟨_, h3⟩ | ⟨_, h3⟩⟩ | ⟨_, _, _, ret, s3, h3, h4⟩
      · rw [h3]; rfl
      · rw [h3]; rfl
      · rw [h3]; rfl
      · rw [hu] at h3
        simp only [Option.some.injEq, Prod.mk.injEq] at h3
        rcases h4 with ⟨_, h4⟩ | ⟨_, _, h4⟩ | ⟨_, _, h4⟩ <;> rw [h4, ← h3.2] <;> rfl
    | error => rw [hp] at h; cases h
    | fail => rw [hp] at h; cases h

theorem sessionLoop_unb {q : SolveParams K σ} {innerFuel : Nat} {env : SolveEnv X Y K} {fuel k : Nat}
    {x : X} {s : Solver K σ} {s' : Session X Y K σ}
    (h : sessionLoop q innerFuel env fuel k x s = .done s') (hp : s.phase = .optimization)
    (he : s.enableRest = false) (h1 : s.opt.cur.objVal ≤ q.pO.objLower)
    (h2 : s.opt.feasRes ≤ q.pO.feasTol) : s'.core.opt.feasRes = s.opt.feasRes := by
  cases fuel with
  | zero => cases h
  | succ fuel =>
    unfold sessionLoop at h
    cases ho : outerPass q.pO q.pR q.rule innerFuel (env.outer k) s with
    | more s1 =>
      obtain ⟨_, _, ⟨_, _, _, _, _, _, h5, _⟩ | ⟨h5, _⟩⟩ := outerPass_more ho
      · rw [he] at h5; cases h5
      · rw [hp] at h5; cases h5
    | done s1 =>
      rw [ho] at h
      simp only [CallOut.done.injEq] at h
      subst h
      show s1.opt.feasRes = _
      have hl : ∀ st : SStatus, ({ s with status := st }.leave (env.outer k)).opt = s.opt := by
        intro st
        unfold Solver.leave
        simp only [hp]
      have ho' := ho
      unfold outerPass at ho
      by_cases ht : (env.outer k).timeUp = true
      · rw [if_pos ht, OPass.done.injEq] at ho
        rw [← ho, hl]
      rw [if_neg ht] at ho
      by_cases hz : s.remaining = some 0
      · rw [if_pos hz, OPass.done.injEq] at ho
        rw [← ho, hl]
      obtain ⟨_, ⟨h3, _⟩ | ⟨h3, _⟩ | ⟨_, n, o, h3, _, h4, _⟩ | ⟨h3, _⟩⟩ := outerPass_done ho'
      · exact absurd h3 ht
      · exact absurd h3 hz
      · rw [h4]
        exact problemSolve_unb (s := s.opt.atIter s.iterations) h3 h1 h2
      · rw [hp] at h3; cases h3
    | error => rw [ho] at h; cases h
    | fail => rw [ho] at h; cases h
    | outOfFuel => rw [ho] at h; cases h

/-- A solver created for a problem which the preprocessing found infeasible reports this in every
solve, before and after resets, and changes nothing. -/
theorem C104_infeasible {q : SolveParams K σ} {rule0 : σ} {x0 : X} {y0 : Y} {restPt : PointData K}
    {w w' : World X Y K} {c : Session X Y K σ}
    (hc : Session.create q rule0 x0 y0 restPt w true = some c) (max : Option Nat)
    (enableRest : Bool) (innerFuel fuel : Nat) (env : SolveEnv X Y K) :
    c.core.status = .infeasible ∧
      c.solve q w' max enableRest innerFuel env fuel = .done c ∧
      ∀ r, c.reset q = some r → r.core.status = .infeasible ∧
        r.solve q w' max enableRest innerFuel env fuel = .done r := by
  have h : c.core.status = .infeasible := by
    unfold Session.create at hc
    cases h1 : PSolver.create q.choice q.sqrtO rule0 (w.pt x0 y0) with
    | none => rw [h1] at hc; cases hc
    | some o =>
      cases h2 : PSolver.create q.choice q.sqrtR rule0 restPt with
      | none => rw [h1, h2] at hc; cases hc
      | some r =>
        rw [h1, h2] at hc
        simp only [Option.bind_some, Option.map_some, Option.some.injEq] at hc
        rw [← hc]
        rfl
  refine ⟨h, if_pos h, fun r hr => ?_⟩
  have h' : r.core.status = .infeasible := by
    unfold Session.reset at hr
    cases h1 : c.core.opt.reset q.choice q.sqrtO with
    | none => rw [h1] at hr; cases hr
    | some o =>
      cases h2 : c.core.rest.reset q.choice q.sqrtR with
      | none => rw [h1, h2] at hr; cases hr
      | some r' =>
        rw [h1, h2] at hr
        simp only [Option.bind_some, Option.map_some, Option.some.injEq] at hr
        rw [← hr]
        exact h
  exact ⟨h', if_pos h'⟩

/-- Whatever was solved before: with the direct step rule and without restoration, a solve after a
reset runs as the first solve of a new solver, provided the left-over multipliers do not change
the optimality of the initial point. -/
theorem C104_history_partial {q : SolveParams K Unit} {x0 : X} {y0 : Y} {restPt : PointData K}
    {w : World X Y K} {c s r : Session X Y K Unit}
    (hc : Session.create q () x0 y0 restPt w false = some c) (hs : Session.From q w false c s)
    (hr : s.reset q = some r) (htol : 0 ≤ q.pO.feasTol)
    (hopt : w.Optimal q.pO x0 s.dual ↔ w.Optimal q.pO x0 y0)
    (max : Option Nat) (innerFuel fuel : Nat) (env : SolveEnv X Y K) :
    CallSim (c.solve q w max false innerFuel env fuel) (r.solve q w max false innerFuel env fuel) := by
  have key : s.core.phase = .optimization ∧ s.core.status ≠ .infeasible ∧ s.primal = x0 ∧
      (q.pO.objLower < w.obj x0 ∨ s.core.opt.feasRes = 0) := by
    clear hr hopt r
    induction hs with
    | start =>
      unfold Session.create at hc
      cases h1 : PSolver.create q.choice q.sqrtO () (w.pt x0 y0) with
      | none => rw [h1] at hc; cases hc
      | some o =>
        cases h2 : PSolver.create q.choice q.sqrtR () restPt with
        | none => rw [h1, h2] at hc; cases hc
        | some r =>
          rw [h1, h2] at hc
          simp only [Option.bind_some, Option.map_some, Option.some.injEq] at hc
          subst hc
          refine ⟨rfl, (by simp), rfl, Or.inr ?_⟩
          unfold PSolver.create at h1
          cases h3 : initialTrustRadius q.choice q.sqrtO with
          | none => rw [h3] at h1; cases h1
          | some r3 =>
            rw [h3, Option.map_some, Option.some.injEq] at h1
            show o.feasRes = 0
            rw [← h1]
    | @solve s s' max innerFuel env fuel _ h ih =>
      obtain ⟨i1, i2, i3, i4⟩ := ih
      unfold Session.solve at h
      rw [if_neg i2] at h
      cases he : env.initReject with
      | true => rw [he] at h; cases h
      | false =>
        rw [he] at h
        simp only [Bool.false_eq_true, if_false] at h
        obtain ⟨h1, h2, h3⟩ := sessionLoop_end h
        refine ⟨h1, h2, (h3 i1 rfl).trans i3, ?_⟩
        rcases i4 with i4 | i4
        · exact Or.inl i4
        by_cases hlo : q.pO.objLower < w.obj x0
        · exact Or.inl hlo
        right
        rw [sessionLoop_unb h i1 rfl (by
          show w.obj s.primal ≤ _
          rw [i3]; exact not_lt.mp hlo) (by
          show s.core.opt.feasRes ≤ _
          rw [i4]; exact htol)]
        exact i4
    | @reset s s' _ h ih =>
      unfold Session.reset at h
      cases h1 : s.core.opt.reset q.choice q.sqrtO with
      | none => rw [h1] at h; cases h
      | some o =>
        cases h2 : s.core.rest.reset q.choice q.sqrtR with
        | none => rw [h1, h2] at h; cases h
        | some r =>
          rw [h1, h2] at h
          simp only [Option.bind_some, Option.map_some, Option.some.injEq] at h
          subst h
          refine ⟨ih.1, ih.2.1, ih.2.2.1, ?_⟩
          unfold PSolver.reset at h1
          cases h3 : initialTrustRadius q.choice q.sqrtO with
          | none => rw [h3] at h1; cases h1
          | some r3 =>
            rw [h3, Option.map_some, Option.some.injEq] at h1
            show _ ∨ o.feasRes = 0
            rw [← h1]
            exact ih.2.2.2
  exact C104_reset_partial hc hr key.2.1 key.1 rfl rfl key.2.2.1 key.2.2.2 hopt max false innerFuel fuel env
    (fun h => by cases h)

/-- decidable test of a result -/
def CallOut.check (o : CallOut X Y K σ) (f : Session X Y K σ → Bool) : Bool :=
  match o with
  | .done s => f s
  | _ => false

theorem CallOut.check_spec {o : CallOut X Y K σ} {f : Session X Y K σ → Bool}
    (h : o.check f = true) : ∃ s, o = .done s ∧ f s = true := by
  cases o <;> simp_all [CallOut.check]

/-- the session after a call, if it succeeds -/
def CallOut.get? : CallOut X Y K σ → Option (Session X Y K σ)
  | .done s => some s
  | _ => none

/-- decidable test of an optional result -/
def sessCheck (o : Option (Session X Y K σ)) (f : Session X Y K σ → Bool) : Bool :=
  match o with
  | some s => f s
  | none => false

theorem sessCheck_spec {o : Option (Session X Y K σ)} {f : Session X Y K σ → Bool}
    (h : sessCheck o f = true) : ∃ s, o = some s ∧ f s = true := by
  cases o <;> simp_all [sessCheck]

/-- sample settings with a given step rule -/
def exQ {τ : Type*} (R : Rule ℚ τ) : SolveParams ℚ τ :=
  { pO := exParams, pR := exParams, rule := R, choice := .wide, sqrtO := 1, sqrtR := 1 }

/-- a problem whose initial point (vector 0) has objective 8 and violation 1; vector 1 has
objective 3 and violation 2; the residuals with multipliers `y` are `y` -/
def exW : World Nat ℚ ℚ :=
  ⟨fun x => if x = 0 then 8 else 3, fun x => x + 1, fun x => x + 1, fun _ y => y, fun _ y => y⟩

/-- one run of the optimization solver with the given iterations -/
def exRun (inner : Nat → IterEnv ℚ) (y : ℚ) : SolveEnv Nat ℚ ℚ :=
  { outer := fun _ => { timeUp := false, inner := inner, restPt := ⟨5, 0, 0, 1, 1⟩
                        optPt := ⟨3, 2, 2, 1, 1⟩, checkReject := false, userAbort := false }
    restored := fun _ => 1, dualEnd := y, initReject := false }

/-- two iterations, both accepted, the first of which raises the penalty parameter to 100 -/
def exTwo (k : Nat) : IterEnv ℚ :=
  if k = 0 then { quietEnv ⟨7, 1, 1, 1, 1⟩ with modelTrial := 17, newPenalty := 100 }
  else { quietEnv ⟨6, 1, 1, 1, 1⟩ with modelTrial := 106, newPenalty := 100 }

/-- an iteration with a trial point far above the initial point -/
def exBad : IterEnv ℚ := { quietEnv ⟨60, 1, 1, 1, 1⟩ with modelTrial := 17 }

/-- a first solve, a reset and a second solve beside the second solve alone -/
theorem exCompare {τ : Type*} {q : SolveParams ℚ τ} {rule0 : τ} {x0 : Nat} {y0 : ℚ}
    {pt : PointData ℚ} {w : World Nat ℚ ℚ} {m1 m2 : Option Nat} {e1 e2 : Bool} {n1 n2 f1 f2 : Nat}
    {v1 v2 : SolveEnv Nat ℚ ℚ} {f g : Session Nat ℚ ℚ τ → Bool}
    (h : sessCheck (Session.create q rule0 x0 y0 pt w false) (fun c =>
      ((c.solve q w m1 e1 n1 v1 f1).check fun s => sessCheck (s.reset q) fun r =>
        (r.solve q w m2 e2 n2 v2 f2).check f) && (c.solve q w m2 e2 n2 v2 f2).check g) = true) :
    ∃ c s r c' r', Session.create q rule0 x0 y0 pt w false = some c ∧
      c.solve q w m1 e1 n1 v1 f1 = .done s ∧ s.reset q = some r ∧
      c.solve q w m2 e2 n2 v2 f2 = .done c' ∧ r.solve q w m2 e2 n2 v2 f2 = .done r' ∧
      g c' = true ∧ f r' = true := by
  obtain ⟨c, h1, h2⟩ := sessCheck_spec h
  rw [Bool.and_eq_true] at h2
  obtain ⟨s, h3, h4⟩ := CallOut.check_spec h2.1
  obtain ⟨r, h5, h6⟩ := sessCheck_spec h4
  obtain ⟨r', h7, h8⟩ := CallOut.check_spec h6
  obtain ⟨c', h9, h10⟩ := CallOut.check_spec h2.2
  exact ⟨c, s, r, c', r', h1, h3, h5, h9, h7, h10, h8⟩

/-- The code violates C104: the step rule is never reset (`sleqp_step_rule_reset` has no caller).
With the window rule (25 entries) a solver makes two iterations, during which the penalty
parameter rises, and is reset.  In the next solve it accepts a trial point of merit value 70
against 18 at the initial point, since merit values of the old penalty parameter remain in its
window; a new solver rejects this trial point. -/
theorem C104_window_violated :
    ∃ c s r c' r', Session.create (exQ (.window 100000 (1/100))) (Ring.create 25 fun _ => (0, 0))
        0 1 ⟨5, 0, 0, 1, 1⟩ exW false = some c ∧
      c.solve (exQ (.window 100000 (1/100))) exW (some 2) false 5 (exRun exTwo 1) 5 = .done s ∧
      s.reset (exQ (.window 100000 (1/100))) = some r ∧
      c.solve (exQ (.window 100000 (1/100))) exW (some 1) false 5 (exRun (fun _ => exBad) 1) 5 = .done c' ∧
      r.solve (exQ (.window 100000 (1/100))) exW (some 1) false 5 (exRun (fun _ => exBad) 1) 5 = .done r' ∧
      c'.core.opt.cur.objVal = 8 ∧ r'.core.opt.cur.objVal = 60 := by
  obtain ⟨c, s, r, c', r', h1, h2, h3, h4, h5, h6, h7⟩ := exCompare (q := exQ (.window 100000 (1/100))) (rule0 := Ring.create 25 fun _ => (0, 0))
    (x0 := 0) (y0 := 1) (pt := ⟨5, 0, 0, 1, 1⟩) (w := exW) (m1 := some 2) (e1 := false) (n1 := 5)
    (v1 := exRun exTwo 1) (f1 := 5) (m2 := some 1) (e2 := false) (n2 := 5)
    (v2 := exRun (fun _ => exBad) 1) (f2 := 5)
    (f := fun s => decide (s.core.opt.cur.objVal = 60))
    (g := fun s => decide (s.core.opt.cur.objVal = 8)) (by decide +kernel)
  exact ⟨c, s, r, c', r', h1, h2, h3, h4, h5, of_decide_eq_true h6, of_decide_eq_true h7⟩

/-- The same with the rule that compares with the last minimum (its constant 2). -/
theorem C104_minstep_violated :
    ∃ c s r c' r', Session.create (exQ (.minstep (1/100))) ⟨false, 0, 0, 0, 0, 0, 0, 2⟩
        0 1 ⟨5, 0, 0, 1, 1⟩ exW false = some c ∧
      c.solve (exQ (.minstep (1/100))) exW (some 2) false 5 (exRun exTwo 1) 5 = .done s ∧
      s.reset (exQ (.minstep (1/100))) = some r ∧
      c.solve (exQ (.minstep (1/100))) exW (some 1) false 5 (exRun (fun _ => exBad) 1) 5 = .done c' ∧
      r.solve (exQ (.minstep (1/100))) exW (some 1) false 5 (exRun (fun _ => exBad) 1) 5 = .done r' ∧
      c'.core.opt.cur.objVal = 8 ∧ r'.core.opt.cur.objVal = 60 := by
  obtain ⟨c, s, r, c', r', h1, h2, h3, h4, h5, h6, h7⟩ := exCompare (q := exQ (.minstep (1/100))) (rule0 := ⟨false, 0, 0, 0, 0, 0, 0, 2⟩)
    (x0 := 0) (y0 := 1) (pt := ⟨5, 0, 0, 1, 1⟩) (w := exW) (m1 := some 2) (e1 := false) (n1 := 5)
    (v1 := exRun exTwo 1) (f1 := 5) (m2 := some 1) (e2 := false) (n2 := 5)
    (v2 := exRun (fun _ => exBad) 1) (f2 := 5)
    (f := fun s => decide (s.core.opt.cur.objVal = 60))
    (g := fun s => decide (s.core.opt.cur.objVal = 8)) (by decide +kernel)
  exact ⟨c, s, r, c', r', h1, h2, h3, h4, h5, of_decide_eq_true h6, of_decide_eq_true h7⟩

/-- a feasible start which is optimal with multiplier 1 -/
def exW1 : World Nat ℚ ℚ :=
  ⟨fun _ => 8, fun _ => 0, fun _ => 0, fun _ _ => 0, fun _ y => 1 - y⟩

/-- The code violates C104: the multipliers stored in the iterate survive the reset.  After a solve
of one iteration the reset solver finds the initial point optimal without an iteration; a new
solver, whose multipliers are zero, makes an iteration and stops at the iteration limit. -/
theorem C104_multipliers_violated :
    ∃ c s r c' r', Session.create (exQ exDirect) () 0 0 ⟨5, 0, 0, 1, 1⟩ exW1 false = some c ∧
      c.solve (exQ exDirect) exW1 (some 1) false 5 (exRun (fun _ => { exBad with modelTrial := 7 }) 1) 5 =
        .done s ∧ s.reset (exQ exDirect) = some r ∧
      c.solve (exQ exDirect) exW1 (some 1) false 5 (exRun (fun _ => { exBad with modelTrial := 7 }) 1) 5 =
        .done c' ∧
      r.solve (exQ exDirect) exW1 (some 1) false 5 (exRun (fun _ => { exBad with modelTrial := 7 }) 1) 5 =
        .done r' ∧
      (c'.core.status = .abortIter ∧ c'.core.iterations = 1) ∧
      r'.core.status = .optimal ∧ r'.core.iterations = 0 := by
  obtain ⟨c, s, r, c', r', h1, h2, h3, h4, h5, h6, h7⟩ := exCompare (q := exQ exDirect) (rule0 := ())
    (x0 := 0) (y0 := 0) (pt := ⟨5, 0, 0, 1, 1⟩) (w := exW1) (m1 := some 1) (e1 := false) (n1 := 5)
    (v1 := exRun (fun _ => { exBad with modelTrial := 7 }) 1) (f1 := 5) (m2 := some 1) (e2 := false) (n2 := 5)
    (v2 := exRun (fun _ => { exBad with modelTrial := 7 }) 1) (f2 := 5)
    (f := fun s => decide (s.core.status = .optimal ∧ s.core.iterations = 0))
    (g := fun s => decide (s.core.status = .abortIter ∧ s.core.iterations = 1)) (by decide +kernel)
  exact ⟨c, s, r, c', r', h1, h2, h3, h4, h5, of_decide_eq_true h6, of_decide_eq_true h7⟩

/-- a locally infeasible iteration; the time is up in the restoration phase -/
def exLost : SolveEnv Nat ℚ ℚ :=
  { exRun (fun _ => { quietEnv ⟨0, 5, 5, 1, 1⟩ with lpNorm := 0, trialNorm := 0 }) 1 with
    outer := fun k =>
      { (exRun (fun _ => { quietEnv ⟨0, 5, 5, 1, 1⟩ with lpNorm := 0, trialNorm := 0 }) 1).outer k with
        timeUp := decide (k = 1) } }

/-- The code violates C104: a restoration phase overwrites the initial point of the solver, and
the reset does not bring it back.  After such a solve the reset solver starts at the point at
which the restoration ended (objective 3), not at the initial point (objective 8). -/
theorem C104_restoration_violated :
    ∃ c s r c' r', Session.create (exQ exDirect) () 0 1 ⟨5, 0, 0, 1, 1⟩ exW false = some c ∧
      c.solve (exQ exDirect) exW (some 5) true 5 exLost 5 = .done s ∧ s.reset (exQ exDirect) = some r ∧
      c.solve (exQ exDirect) exW (some 0) true 5 exLost 5 = .done c' ∧
      r.solve (exQ exDirect) exW (some 0) true 5 exLost 5 = .done r' ∧
      c'.core.opt.cur.objVal = 8 ∧ r'.core.opt.cur.objVal = 3 := by
  obtain ⟨c, s, r, c', r', h1, h2, h3, h4, h5, h6, h7⟩ := exCompare (q := exQ exDirect) (rule0 := ())
    (x0 := 0) (y0 := 1) (pt := ⟨5, 0, 0, 1, 1⟩) (w := exW) (m1 := some 5) (e1 := true) (n1 := 5)
    (v1 := exLost) (f1 := 5) (m2 := some 0) (e2 := true) (n2 := 5)
    (v2 := exLost) (f2 := 5)
    (f := fun s => decide (s.core.opt.cur.objVal = 3))
    (g := fun s => decide (s.core.opt.cur.objVal = 8)) (by decide +kernel)
  exact ⟨c, s, r, c', r', h1, h2, h3, h4, h5, of_decide_eq_true h6, of_decide_eq_true h7⟩

/-- non-vacuity: with the direct rule the sample history meets the hypotheses, and the two solves
make an iteration each and reject the bad trial point. -/
example : ∃ c s r c' r', Session.create (exQ exDirect) () 0 1 ⟨5, 0, 0, 1, 1⟩ exW false = some c ∧
    Session.From (exQ exDirect) exW false c s ∧ s.reset (exQ exDirect) = some r ∧
    s.core.opt.penalty = 100 ∧
    0 ≤ (exQ exDirect).pO.feasTol ∧
    (exW.Optimal (exQ exDirect).pO 0 s.dual ↔ exW.Optimal (exQ exDirect).pO 0 1) ∧
    c.solve (exQ exDirect) exW (some 1) false 5 (exRun (fun _ => exBad) 1) 5 = .done c' ∧
    r.solve (exQ exDirect) exW (some 1) false 5 (exRun (fun _ => exBad) 1) 5 = .done r' ∧
    c'.core.opt.cur.objVal = 8 ∧ r'.core.opt.cur.objVal = 8 := by
  obtain ⟨c, s, r, c', r', h1, h2, h3, h4, h5, h6, h7⟩ := exCompare (q := exQ exDirect) (rule0 := ())
    (x0 := 0) (y0 := 1) (pt := ⟨5, 0, 0, 1, 1⟩) (w := exW) (m1 := some 2) (e1 := false) (n1 := 5)
    (v1 := exRun exTwo 1) (f1 := 5) (m2 := some 1) (e2 := false) (n2 := 5)
    (v2 := exRun (fun _ => exBad) 1) (f2 := 5)
    (f := fun s => decide (s.core.opt.cur.objVal = 8))
    (g := fun s => decide (s.core.opt.cur.objVal = 8)) (by decide +kernel)
  obtain ⟨s2, h8, h9⟩ := CallOut.check_spec (o := c.solve (exQ exDirect) exW (some 2) false 5
    (exRun exTwo 1) 5) (f := fun s => decide (s.core.opt.penalty = 100)) (by
      have : Session.create (exQ exDirect) () 0 1 ⟨5, 0, 0, 1, 1⟩ exW false =
          some ⟨⟨.optimization, .unknown, false, none, 0, false, exFresh () (exW.pt 0 1),
            exFresh () ⟨5, 0, 0, 1, 1⟩⟩, 0, 1⟩ := by
        unfold Session.create
        rw [show (exQ exDirect).choice = .wide from rfl, show (exQ exDirect).sqrtO = 1 from rfl,
          show (exQ exDirect).sqrtR = 1 from rfl, exFresh_create, exFresh_create]
        rfl
      rw [this, Option.some.injEq] at h1
      subst h1
      decide +kernel)
  rw [h2, CallOut.done.injEq] at h8
  subst h8
  refine ⟨c, s, r, c', r', h1, .solve .start h2, h3, of_decide_eq_true h9, (by decide +kernel), ?_, h4, h5,
    of_decide_eq_true h6, of_decide_eq_true h7⟩
  have : ∀ y, ¬ exW.Optimal (exQ exDirect).pO 0 y := fun y h =>
    absurd h.1 (by decide +kernel)
  exact ⟨fun h => absurd h (this _), fun h => absurd h (this _)⟩

/-! ### C105 -/

section

variable {p : Params K} {R : Rule K σ}

/-- a pass does not depend on a limit that is not reached -/
theorem loopPass_limit {m m' : Nat} {e : IterEnv K} {s : PSolver K σ} (h : s.elapsed < m)
    (h' : s.elapsed < m') : loopPass p R (some m) e s = loopPass p R (some m') e s := by
  unfold loopPass
  have a : ((some m).any fun m => decide (s.elapsed ≥ m)) = false := by simp [h]
  have b : ((some m').any fun m => decide (s.elapsed ≥ m)) = false := by simp [h']
  rw [a, b]

/-- a run with the limit `m1` is the beginning of the run with the limit `m1 + m2` -/
theorem loop_prefix {m1 m2 f2 : Nat} {env : Nat → IterEnv K} {n : Nat} {s1 : PSolver K σ} (j : Nat) :
    ∀ (k : Nat) (s : PSolver K σ), k + j = m1 → s.elapsed = k → s.status = .running →
      loop p R (some m1) env (j + 1) k s = .done n s1 → s1.status = .abortIter →
      n = m1 ∧ s1.elapsed = m1 ∧ s1.abortLocal = s.abortLocal ∧
      loop p R (some (m1 + m2)) env (j + f2) k s =
        loop p R (some (m1 + m2)) env f2 m1 { s1 with status := .running } := by
  induction j with
  | zero =>
    intro k s hk he hr h hs
    unfold loop at h
    cases hp : loopPass p R (some m1) (env k) s with
    | more s' =>
      have := (loopPass_more hp).2.1 m1 rfl
      omega
    | done perf s' =>
      rw [hp] at h
      simp only [Out.done.injEq] at h
      obtain ⟨h1, rfl⟩ := h
      rcases loopPass_done hp with ⟨rfl, ⟨_, h2⟩ | ⟨_, h2⟩ | ⟨_, h2⟩⟩ | ⟨_, _, h2, _⟩
      · rw [h2] at hs; cases hs
      · subst h2
        have : { ({ s with status := .abortIter } : PSolver K σ) with status := PStatus.running } = s := by
          cases s; simp only at hr; rw [hr]
        rw [this]
        have hkm : k = m1 := by omega
        subst hkm
        refine ⟨h1.symm, he, rfl, ?_⟩
        rw [Nat.zero_add]
      · rw [h2] at hs; cases hs
      · have := h2 m1 rfl
        omega
    | error => rw [hp] at h; cases h
    | fail => rw [hp] at h; cases h
  | succ j ih =>
    intro k s hk he hr h hs
    unfold loop at h
    rw [show j + 1 + f2 = (j + f2) + 1 by omega]
    rw [show loop p R (some (m1 + m2)) env (j + f2 + 1) k s =
      (match loopPass p R (some (m1 + m2)) (env k) s with
      | .more s' => loop p R (some (m1 + m2)) env (j + f2) (k + 1) s'
      | .done performed s' => .done (if performed then k + 1 else k) s'
      | .error => .error
      | .fail => .fail) from rfl]
    rw [← loopPass_limit (m := m1) (by omega) (by omega)]
    cases hp : loopPass p R (some m1) (env k) s with
    | more s' =>
      rw [hp] at h
      simp only
      obtain ⟨_, _, _, _, _, _, h7, h8⟩ := loopPass_more hp
      obtain ⟨_, _, _, h9⟩ := performIteration_running h8 h7
      obtain ⟨d, _, h10, h11, _⟩ := finish_spec h9
      have hel : s'.elapsed = k + 1 := by rw [h11, ← he]; rfl
      obtain ⟨d', _, _, _, _, _, _, _, _, _, _, _, _, h12⟩ := reach_pass hp
      obtain ⟨i1, i2, i3, i4⟩ := ih (k + 1) s' (by omega) hel h7 h hs
      exact ⟨i1, i2, i3.trans h12, i4⟩
    | done perf s' =>
      rw [hp] at h
      simp only [Out.done.injEq] at h
      obtain ⟨h1, rfl⟩ := h
      rcases loopPass_done hp with ⟨rfl, ⟨_, h2⟩ | ⟨⟨m, h3, h4⟩, _⟩ | ⟨_, h2⟩⟩ |
        ⟨_, _, _, ret, s2, h2, ⟨_, h3⟩ | ⟨_, _, h3⟩ | ⟨_, h4, h3⟩⟩
      · rw [h2] at hs; cases hs
      · cases h3; omega
      · rw [h2] at hs; cases hs
      · rw [h3] at hs; cases hs
      · rw [h3] at hs; cases hs
      · subst h3
        exfalso
        obtain ⟨_, ⟨_, _, h5⟩ | ⟨_, ⟨_, _, h5⟩ | ⟨_, _, h5⟩ | ⟨_, _, _, h5, _⟩ | ⟨_, _, h5⟩⟩⟩ :=
          performIteration_cases h2
        · rw [h5] at hs; cases hs
        · rw [h5] at hs; cases hs
        · rw [h5] at hs
          rw [show ((s.prepare p).estimated (env k)).status = s.status from rfl, hr] at hs
          cases hs
        · rw [h5] at hs; cases hs
        · obtain ⟨d, _, _⟩ := finish_spec h5
          unfold PSolver.finish at h5
          cases hd : decideStep p R (s.ready p (env k)) (env k) with
          | none => rw [hd] at h5; cases h5
          | some d2 =>
            rw [hd] at h5
            simp only [Option.map_some, Option.some.injEq] at h5
            rw [← h5] at hs
            rw [show s.status = .abortIter from hs] at hr
            cases hr
    | error => rw [hp] at h; cases h
    | fail => rw [hp] at h; cases h

end

/-- The solver of a single problem does continue: a run that ends at the limit `m1`, followed by
a run with the limit `m2`, is the run with the limit `m1 + m2`, provided no abort was requested in
the last iteration of the first run.  Results agree in kind, status, number of passes, point,
radii, penalty parameter and step rule; the counters of iterations and of accepted, corrected,
rejected and failed steps add up. -/
theorem C105_resume_partial {p : Params K} {R : Rule K σ} {m1 m2 f2 n : Nat} {l : Bool}
    {env : Nat → IterEnv K} {s s1 : PSolver K σ}
    (h : problemSolve p R (some m1) l env (m1 + 1) s = .done n s1) (hs : s1.status = .abortIter)
    (ha : s1.abortNext = false) :
    OutSim p ⟨m1, s1.numAccepted, s1.numSoc, s1.numRejected, s1.numFailedEqp⟩ m1
      (problemSolve p R (some m2) l (fun k => env (m1 + k)) f2 s1)
      (problemSolve p R (some (m1 + m2)) l env (m1 + f2) s) := by
  unfold problemSolve at h ⊢
  obtain ⟨_, h2, h3, h4⟩ := loop_prefix (m2 := m2) (f2 := f2) m1 0 _ (by omega) rfl rfl h hs
  rw [h4]
  have := loop_sim (p := p) (R := R)
    (d := ⟨m1, s1.numAccepted, s1.numSoc, s1.numRejected, s1.numFailedEqp⟩)
    (maxA := some m2) (maxB := some (m1 + m2)) (by simp [Nat.add_comm])
    (envA := fun k => env (m1 + k)) (envB := env) (n0 := m1) (fun k => by simp [Nat.add_comm]) f2 0
    (s1.startSolve l) { s1 with status := .running } rfl
    { status := rfl, tr := rfl, ltr := rfl, pen := rfl, feasible := rfl, resets := rfl, abort := ha
      local_ := h3, rule := rfl, elapsed := by
        show s1.elapsed = 0 + m1
        rw [h2]; omega
      accepted := (Nat.zero_add _).symm, soc := (Nat.zero_add _).symm
      rejected := (Nat.zero_add _).symm, failedEqp := (Nat.zero_add _).symm
      point := ⟨rfl, rfl, rfl⟩, opt := rfl, unb := Or.inr rfl }
  rw [Nat.zero_add] at this
  exact this

/-- Where a solve ends has no influence on the next one: each call of the solve function begins at
the point kept from the creation of the solver (or from the last restoration phase). -/
theorem C105_start_partial {q : SolveParams K σ} {w : World X Y K} {max : Option Nat} {enable : Bool}
    {innerFuel fuel : Nat} {env : SolveEnv X Y K} (s : Session X Y K σ) (pt : PointData K)
    (hst : s.core.status ≠ .infeasible) :
    Session.solve q w max enable innerFuel env fuel
        { s with core := { s.core with opt := { s.core.opt with cur := pt } } } =
      s.solve q w max enable innerFuel env fuel := by
  unfold Session.solve
  rw [if_neg hst, if_neg hst]
  rfl

/-- The code violates C105: the documentation says that a solve performs iterations starting from
the current solution.  After an iteration the solution has objective 7; a further solve with no
iterations allowed throws it away and returns the initial point of objective 8. -/
theorem C105_restart_violated :
    ∃ c s s', Session.create (exQ exDirect) () 0 1 ⟨5, 0, 0, 1, 1⟩ exW false = some c ∧
      c.solve (exQ exDirect) exW (some 1) false 5 (exRun exTwo 1) 5 = .done s ∧
      s.solve (exQ exDirect) exW (some 0) false 5 (exRun exTwo 1) 5 = .done s' ∧
      s.core.opt.cur.objVal = 7 ∧ s'.core.opt.cur.objVal = 8 := by
  obtain ⟨c, h1, h2⟩ := sessCheck_spec
    (o := Session.create (exQ exDirect) () 0 1 ⟨5, 0, 0, 1, 1⟩ exW false)
    (f := fun c => (c.solve (exQ exDirect) exW (some 1) false 5 (exRun exTwo 1) 5).check fun s =>
      decide (s.core.opt.cur.objVal = 7) &&
      (s.solve (exQ exDirect) exW (some 0) false 5 (exRun exTwo 1) 5).check fun s' =>
        decide (s'.core.opt.cur.objVal = 8)) (by decide +kernel)
  obtain ⟨s, h3, h4⟩ := CallOut.check_spec h2
  rw [Bool.and_eq_true] at h4
  obtain ⟨s', h5, h6⟩ := CallOut.check_spec h4.2
  exact ⟨c, s, s', h1, h3, h5, of_decide_eq_true h4.1, of_decide_eq_true h6⟩

/-- two iterations, the second with a trial point between the first two points -/
def exBack (k : Nat) : IterEnv ℚ :=
  if k = 0 then exTwo 0
  else { quietEnv ⟨15/2, 1, 1, 1, 1⟩ with modelTrial := 106, newPenalty := 100 }

/-- Nor do two solves with the limits 1 and 1 amount to one with the limit 2: the latter rejects
the second step and ends at objective 7; the second of the two solves compares the step with the
initial point, accepts it and ends at 15/2. -/
theorem C105_sum_violated :
    ∃ c s s' t, Session.create (exQ exDirect) () 0 1 ⟨5, 0, 0, 1, 1⟩ exW false = some c ∧
      c.solve (exQ exDirect) exW (some 1) false 5 (exRun exBack 1) 5 = .done s ∧
      s.solve (exQ exDirect) exW (some 1) false 5 (exRun (fun k => exBack (1 + k)) 1) 5 = .done s' ∧
      c.solve (exQ exDirect) exW (some 2) false 5 (exRun exBack 1) 5 = .done t ∧
      s'.core.opt.cur.objVal = 15/2 ∧ t.core.opt.cur.objVal = 7 := by
  obtain ⟨c, h1, h2⟩ := sessCheck_spec
    (o := Session.create (exQ exDirect) () 0 1 ⟨5, 0, 0, 1, 1⟩ exW false)
    (f := fun c => (c.solve (exQ exDirect) exW (some 1) false 5 (exRun exBack 1) 5).check fun s =>
      (s.solve (exQ exDirect) exW (some 1) false 5 (exRun (fun k => exBack (1 + k)) 1) 5).check fun s' =>
        (c.solve (exQ exDirect) exW (some 2) false 5 (exRun exBack 1) 5).check fun t =>
        decide (s'.core.opt.cur.objVal = 15/2 ∧ t.core.opt.cur.objVal = 7))
    (by decide +kernel)
  obtain ⟨s, h3, h4⟩ := CallOut.check_spec h2
  obtain ⟨s', h5, h6⟩ := CallOut.check_spec h4
  obtain ⟨t, h7, h8⟩ := CallOut.check_spec h6
  exact ⟨c, s, s', t, h1, h3, h5, h7, of_decide_eq_true h8⟩

/-- non-vacuity: a run of two iterations that ends at its limit, without an abort request -/
example : ∃ s1, problemSolve exParams exDirect (some 2) true exTwo 3 (exFresh () ⟨8, 1, 1, 1, 1⟩) =
      .done 2 s1 ∧ s1.status = .abortIter ∧ s1.abortNext = false ∧ s1.cur.objVal = 6 := by
  obtain ⟨n, s1, h1, h2⟩ := Out.check_spec (o := problemSolve exParams exDirect (some 2) true exTwo 3
    (exFresh () ⟨8, 1, 1, 1, 1⟩)) (f := fun n s => decide (n = 2 ∧ s.status = .abortIter ∧
      s.abortNext = false ∧ s.cur.objVal = 6)) (by decide +kernel)
  obtain ⟨rfl, h3⟩ := of_decide_eq_true h2
  exact ⟨s1, h1, h3⟩

/-- The hypothesis of `C104_infeasible` can be met. -/
example : (Session.create (exQ exDirect) () 0 1 ⟨5, 0, 0, 1, 1⟩ exW true).isSome = true := by
  decide +kernel

end Sleqp
