import Verif.Model.Reset
import Verif.Props.Solver

/-!
Two runs of the solver loop side by side: states that differ in the members the loop does not
read run alike.
-/

namespace Sleqp

variable {K : Type*} [Field K] [LinearOrder K] {σ X Y : Type*}

/-- Numbers by which the counters of two runs differ. -/
structure Counts where
  elapsed : Nat
  accepted : Nat
  soc : Nat
  rejected : Nat
  failedEqp : Nat

/-- `b` is ahead of `a` by the counts `d` and agrees with it in all the loop reads. -/
structure Sim (p : Params K) (d : Counts) (a b : PSolver K σ) : Prop where
  status : b.status = a.status
  tr : b.trustRadius = a.trustRadius
  ltr : b.lpTrustRadius = a.lpTrustRadius
  pen : b.penalty = a.penalty
  feasible : b.numFeasible = a.numFeasible
  resets : b.numResets = a.numResets
  abort : b.abortNext = a.abortNext
  local_ : b.abortLocal = a.abortLocal
  rule : b.rule = a.rule
  elapsed : b.elapsed = a.elapsed + d.elapsed
  accepted : b.numAccepted = a.numAccepted + d.accepted
  soc : b.numSoc = a.numSoc + d.soc
  rejected : b.numRejected = a.numRejected + d.rejected
  failedEqp : b.numFailedEqp = a.numFailedEqp + d.failedEqp
  point : b.cur.SameAt a.cur
  opt : (b.prepare p).checkOptimal p = (a.prepare p).checkOptimal p
  unb : p.objLower < a.cur.objVal ∨ b.feasRes = a.feasRes

/-- The members that are up to date after a full iteration. -/
structure Sync (a b : PSolver K σ) : Prop where
  feas : b.feasRes = a.feasRes
  cur : b.cur = a.cur
  step : b.stepType = a.stepType
  boundary : b.boundaryStep = a.boundaryStep
  merit : b.meritValue = a.meritValue

variable {p : Params K} {R : Rule K σ} {d : Counts} {a b a' b' : PSolver K σ} {e : IterEnv K}

omit [Field K] [LinearOrder K] in
theorem PointData.ext' {x y : PointData K} (h : x.SameAt y) (h1 : x.slackRes = y.slackRes)
    (h2 : x.statRes = y.statRes) : x = y := by
  obtain ⟨h3, h4, h5⟩ := h
  cases x; cases y
  simp_all

theorem Sim.checkUnbounded (h : Sim p d a b) : b.checkUnbounded p = a.checkUnbounded p := by
  unfold PSolver.checkUnbounded
  rw [h.point.1]
  rcases h.unb with h1 | h1
  · rw [decide_eq_false (not_le.mpr h1)]; rfl
  · rw [h1]

theorem decideStep_congr (h1 : b.rule = a.rule) (h2 : b.meritValue = a.meritValue)
    (h3 : b.penalty = a.penalty) (h4 : b.cur = a.cur) (h5 : b.trustRadius = a.trustRadius) :
    decideStep p R b e = decideStep p R a e := by
  unfold decideStep tryTrial trySoc
  simp only [h1, h2, h3, h4, h5]

theorem Sim.merit (h : Sim p d a b) : b.cur.merit b.penalty = a.cur.merit a.penalty := by
  rw [h.pen]; exact h.point.merit _

theorem Sim.prepare (h : Sim p d a b) : Sim p d (a.prepare p) (b.prepare p) where
  status := h.status
  tr := h.tr
  ltr := h.ltr
  pen := h.pen
  feasible := by
    show (if b.cur.feasRes ≤ p.feasTol then b.numFeasible + 1 else b.numFeasible) =
      (if a.cur.feasRes ≤ p.feasTol then a.numFeasible + 1 else a.numFeasible)
    rw [h.point.2.2, h.feasible]
  resets := h.resets
  abort := h.abort
  local_ := h.local_
  rule := h.rule
  elapsed := h.elapsed
  accepted := h.accepted
  soc := h.soc
  rejected := h.rejected
  failedEqp := h.failedEqp
  point := h.point
  opt := h.opt
  unb := Or.inr h.point.2.2

theorem Sim.estimatedCur (h : Sim p d a b) : (b.estimated e).cur = (a.estimated e).cur :=
  PointData.ext' h.point rfl rfl

/-- states with equal current points -/
theorem Sim.ofCur (h1 : b.cur = a.cur) :
    b.cur.SameAt a.cur ∧ (b.prepare p).checkOptimal p = (a.prepare p).checkOptimal p := by
  refine ⟨by rw [h1]; exact ⟨rfl, rfl, rfl⟩, ?_⟩
  show (if !decide (b.cur.feasRes ≤ p.feasTol) then false
    else if decide (b.cur.statRes ≥ p.statTol) then false
    else if decide (b.cur.slackRes ≥ p.slackTol) then false else true) =
    (if !decide (a.cur.feasRes ≤ p.feasTol) then false
    else if decide (a.cur.statRes ≥ p.statTol) then false
    else if decide (a.cur.slackRes ≥ p.slackTol) then false else true)
  rw [h1]

theorem Sim.estimated (h : Sim p d a b) :
    Sim p d ((a.prepare p).estimated e) ((b.prepare p).estimated e) := by
  have h1 := h.prepare
  have h2 := h1.estimatedCur (e := e)
  exact { h1 with point := (Sim.ofCur (p := p) h2).1, opt := (Sim.ofCur h2).2 }

theorem Sim.ready (h : Sim p d a b) : Sim p d (a.ready p e) (b.ready p e) := by
  have h1 := h.estimated (e := e)
  exact { h1 with
    failedEqp := by
      show b.numFailedEqp + _ = a.numFailedEqp + _ + _
      rw [h.failedEqp]; omega }

/-- an iteration from two states that agree -/
theorem performIteration_sim (h : Sim p d a b) :
    (performIteration p R a e = none ∧ performIteration p R b e = none) ∨
    ∃ r a' b', performIteration p R a e = some (r, a') ∧ performIteration p R b e = some (r, b') ∧
      Sim p d a' b' ∧ (r = .ok → a'.status = .running → Sync a' b') ∧
      (a'.status = .locallyInfeasible → b'.feasRes = a'.feasRes) := by
  by_cases h0 : a.status ≠ .running
  · left
    unfold performIteration
    rw [if_pos h0, if_pos (by rw [h.status]; exact h0)]
    exact ⟨rfl, rfl⟩
  have h0b : ¬ b.status ≠ .running := by rw [h.status]; exact h0
  have hrun : a.status = .running := not_not.mp h0
  unfold performIteration
  rw [if_neg h0, if_neg h0b, h.checkUnbounded]
  by_cases hu : a.checkUnbounded p
  · rw [if_pos hu, if_pos hu]
    right
    refine ⟨_, _, _, rfl, rfl, { h with status := rfl }, fun _ h1 => ?_, fun h1 => ?_⟩ <;> cases h1
  rw [if_neg hu, if_neg hu]
  simp only
  rw [h.opt]
  by_cases ho : (a.prepare p).checkOptimal p
  · rw [if_pos ho, if_pos ho]
    right
    refine ⟨_, _, _, rfl, rfl, { h.prepare with status := rfl }, fun _ h1 => ?_, fun h1 => ?_⟩ <;>
      cases h1
  rw [if_neg ho, if_neg ho]
  by_cases hr : e.ret ≠ .ok
  · rw [if_pos hr, if_pos hr]
    right
    refine ⟨_, _, _, rfl, rfl, h.estimated, fun h1 _ => absurd h1 hr, fun _ => ?_⟩
    exact h.point.2.2
  rw [if_neg hr, if_neg hr]
  have h1 := h.ready (e := e)
  have hf : (b.ready p e).feasRes = (a.ready p e).feasRes := h.point.2.2
  have hlb : (locallyInfeasible p (b.ready p e).feasRes e && (b.ready p e).abortLocal) =
      (locallyInfeasible p (a.ready p e).feasRes e && (a.ready p e).abortLocal) := by
    rw [hf, h1.local_]
  by_cases hl : (locallyInfeasible p (a.ready p e).feasRes e && (a.ready p e).abortLocal) = true
  · rw [if_pos hl, if_pos (hlb.trans hl)]
    right
    have hab : ((b.ready p e).abortNext || e.abortReq) = ((a.ready p e).abortNext || e.abortReq) := by
      rw [h1.abort]
    refine ⟨_, _, _, rfl, rfl, { h1 with status := rfl, abort := hab }, fun _ h2 => ?_, fun _ => hf⟩
    cases h2
  rw [if_neg hl, if_neg (by rw [hlb]; exact hl)]
  have hcur : (b.ready p e).cur = (a.ready p e).cur := h.prepare.estimatedCur
  have hmer : (b.ready p e).meritValue = (a.ready p e).meritValue := h.merit
  have hd : decideStep p R (b.ready p e) e = decideStep p R (a.ready p e) e :=
    decideStep_congr h1.rule hmer h1.pen hcur h1.tr
  unfold PSolver.finish
  rw [hd]
  cases hc : decideStep p R (a.ready p e) e with
  | none => left; exact ⟨rfl, rfl⟩
  | some dec =>
    right
    refine ⟨_, _, _, rfl, rfl, ?_, fun _ _ => ?_, fun h2 => ?_⟩
    · exact
      { status := h1.status
        tr := by
          show (if p.performNewton then _ else _) = (if p.performNewton then _ else _)
          rw [h1.tr]
        ltr := by
          show updateLpTrustRadius _ _ _ _ _ = updateLpTrustRadius _ _ _ _ _
          rw [h1.ltr]
        pen := rfl
        feasible := by
          show (if e.globalReset then 0 else _) = (if e.globalReset then 0 else _)
          rw [h1.feasible]
        resets := by
          show (if e.globalReset then _ + 1 else _) = (if e.globalReset then _ + 1 else _)
          rw [h1.resets]
        abort := by
          show (_ || _) = (_ || _)
          rw [h1.abort]
        local_ := h1.local_
        rule := rfl
        elapsed := by
          show (b.ready p e).elapsed + 1 = (a.ready p e).elapsed + 1 + d.elapsed
          rw [h1.elapsed]; omega
        accepted := by
          show (b.ready p e).numAccepted + _ = (a.ready p e).numAccepted + _ + d.accepted
          rw [h1.accepted]; omega
        soc := by
          show (b.ready p e).numSoc + _ = (a.ready p e).numSoc + _ + d.soc
          rw [h1.soc]; omega
        rejected := by
          show (b.ready p e).numRejected + _ = (a.ready p e).numRejected + _ + d.rejected
          rw [h1.rejected]; omega
        failedEqp := h1.failedEqp
        point := by
          show PointData.SameAt (if dec.accepted then dec.newPt else (b.ready p e).cur)
            (if dec.accepted then dec.newPt else (a.ready p e).cur)
          rw [hcur]; exact ⟨rfl, rfl, rfl⟩
        opt := (Sim.ofCur (by
          show (if dec.accepted then dec.newPt else (b.ready p e).cur) =
            (if dec.accepted then dec.newPt else (a.ready p e).cur)
          rw [hcur])).2
        unb := Or.inr hf }
    · exact
      { feas := hf
        cur := by
          show (if dec.accepted then dec.newPt else (b.ready p e).cur) =
            (if dec.accepted then dec.newPt else (a.ready p e).cur)
          rw [hcur]
        step := rfl
        boundary := by
          show isGeq _ _ _ = isGeq _ _ _
          rw [h1.tr]
        merit := hmer }
    · have h3 : a.status = .locallyInfeasible := h2
      rw [hrun] at h3; cases h3

/-- one pass from two states that agree -/
theorem loopPass_sim {maxA maxB : Option Nat} (hm : maxB = maxA.map (· + d.elapsed))
    (h : Sim p d a b) :
    (∃ a' b', loopPass p R maxA e a = .more a' ∧ loopPass p R maxB e b = .more b' ∧
      Sim p d a' b' ∧ Sync a' b') ∨
    (∃ f a' b', loopPass p R maxA e a = .done f a' ∧ loopPass p R maxB e b = .done f b' ∧
      Sim p d a' b' ∧ (a'.status = .locallyInfeasible → b'.feasRes = a'.feasRes ∨
        a.status = .locallyInfeasible) ∧ (f = false → Sync a b → Sync a' b')) ∨
    (loopPass p R maxA e a = .error ∧ loopPass p R maxB e b = .error) ∨
    (loopPass p R maxA e a = .fail ∧ loopPass p R maxB e b = .fail) := by
  unfold loopPass
  by_cases h1 : e.timeBefore
  · rw [if_pos h1, if_pos h1]
    right; left
    refine ⟨_, _, _, rfl, rfl, { h with status := rfl }, fun h2 => ?_, fun _ h2 => { h2 with }⟩
    cases h2
  rw [if_neg h1, if_neg h1]
  have hlim : (maxB.any fun m => b.elapsed ≥ m) = (maxA.any fun m => a.elapsed ≥ m) := by
    subst hm
    cases maxA with
    | none => rfl
    | some m =>
      show decide (b.elapsed ≥ m + d.elapsed) = decide (a.elapsed ≥ m)
      rw [h.elapsed]
      exact decide_eq_decide.mpr ⟨fun _ => by omega, fun _ => by omega⟩
  rw [hlim]
  by_cases h2 : (maxA.any fun m => a.elapsed ≥ m) = true
  · rw [if_pos h2, if_pos h2]
    right; left
    refine ⟨_, _, _, rfl, rfl, { h with status := rfl }, fun h2 => ?_, fun _ h2 => { h2 with }⟩
    cases h2
  rw [if_neg h2, if_neg h2]
  by_cases h3 : a.abortNext
  · rw [if_pos h3, if_pos (h.abort.trans h3)]
    right; left
    refine ⟨_, _, _, rfl, rfl, { h with status := rfl }, fun h2 => ?_, fun _ h2 => { h2 with }⟩
    cases h2
  rw [if_neg h3, if_neg (by rw [h.abort]; exact h3)]
  rcases performIteration_sim (R := R) (e := e) h with ⟨h4, h5⟩ | ⟨r, a', b', h4, h5, h6, h7, h8⟩
  · rw [h4, h5]
    right; right; right
    exact ⟨rfl, rfl⟩
  rw [h4, h5]
  simp only
  by_cases h9 : r = .abortTime ∨ e.timeAfter = true
  · rw [if_pos h9, if_pos h9]
    right; left
    refine ⟨_, _, _, rfl, rfl, { h6 with status := rfl }, fun h2 => ?_, fun hf => ?_⟩
    · cases h2
    · cases hf
  rw [if_neg h9, if_neg h9]
  by_cases h10 : r ≠ .ok
  · rw [if_pos h10, if_pos h10]
    right; right; left
    exact ⟨rfl, rfl⟩
  rw [if_neg h10, if_neg h10]
  by_cases h11 : a'.lpTrustRadius ≤ p.deadpoint ∨ a'.trustRadius ≤ p.deadpoint
  · rw [if_pos h11, if_pos (by rw [h6.ltr, h6.tr]; exact h11)]
    right; left
    refine ⟨_, _, _, rfl, rfl, { h6 with status := rfl }, fun h2 => ?_, fun hf => ?_⟩
    · cases h2
    · cases hf
  have h11b : ¬(b'.lpTrustRadius ≤ p.deadpoint ∨ b'.trustRadius ≤ p.deadpoint) := by
    rw [h6.ltr, h6.tr]; exact h11
  rw [if_neg h11, if_neg h11b]
  by_cases h12 : a'.status ≠ .running
  · have h12b : b'.status ≠ .running := by rw [h6.status]; exact h12
    rw [if_pos h12, if_pos h12b]
    right; left
    exact ⟨_, _, _, rfl, rfl, h6, fun h2 => Or.inl (h8 h2), fun hf => by cases hf⟩
  · have h12b : ¬ b'.status ≠ .running := by rw [h6.status]; exact h12
    rw [if_neg h12, if_neg h12b]
    left
    exact ⟨_, _, rfl, rfl, h6, h7 (not_not.mp h10) (not_not.mp h12)⟩

/-- Results of two runs that agree, the second being `n0` passes ahead. -/
inductive OutSim (p : Params K) (d : Counts) (n0 : Nat) : Out K σ → Out K σ → Prop
  | outOfFuel : OutSim p d n0 .outOfFuel .outOfFuel
  | done {n : Nat} {a b : PSolver K σ} : Sim p d a b →
      (a.status = .locallyInfeasible → b.feasRes = a.feasRes) → OutSim p d n0 (.done n a) (.done (n + n0) b)
  | error : OutSim p d n0 .error .error
  | fail : OutSim p d n0 .fail .fail

theorem loop_sim {maxA maxB : Option Nat} (hm : maxB = maxA.map (· + d.elapsed))
    {envA envB : Nat → IterEnv K} {n0 : Nat} (henv : ∀ k, envB (k + n0) = envA k) (fuel : Nat) :
    ∀ (k : Nat) (a b : PSolver K σ), a.status = .running → Sim p d a b →
      OutSim p d n0 (loop p R maxA envA fuel k a) (loop p R maxB envB fuel (k + n0) b) := by
  induction fuel with
  | zero => intro k a b _ _; exact .outOfFuel
  | succ fuel ih =>
    intro k a b hst h
    unfold loop
    rw [henv]
    rcases loopPass_sim (R := R) (e := envA k) hm h with ⟨a', b', h1, h2, h3, h4⟩ |
      ⟨f, a', b', h1, h2, h3, h4, _⟩ | ⟨h1, h2⟩ | ⟨h1, h2⟩
    · rw [h1, h2]
      simp only
      have hst' : a'.status = .running := by
        obtain ⟨_, _, _, _, _, _, h7, _⟩ := loopPass_more h1
        exact h7
      have := ih (k + 1) a' b' hst' h3
      rw [show k + 1 + n0 = k + n0 + 1 by omega] at this
      exact this
    · rw [h1, h2]
      simp only
      have hn : (if f then k + n0 + 1 else k + n0) = (if f then k + 1 else k) + n0 := by
        cases f
        · rfl
        · simp only [if_true]; omega
      rw [hn]
      refine .done h3 fun h5 => ?_
      rcases h4 h5 with h6 | h6
      · exact h6
      · rw [hst] at h6; cases h6
    · rw [h1, h2]; exact .error
    · rw [h1, h2]; exact .fail

/-! ### the outer loop -/

/-- Agreement in what a problem solver keeps from one solve to the next. -/
structure Base (a b : PSolver K σ) : Prop where
  tr : b.trustRadius = a.trustRadius
  ltr : b.lpTrustRadius = a.lpTrustRadius
  pen : b.penalty = a.penalty
  feasible : b.numFeasible = a.numFeasible
  resets : b.numResets = a.numResets
  rule : b.rule = a.rule

/-- Agreement in all that a solve reads. -/
structure Ready (p : Params K) (a b : PSolver K σ) : Prop extends Base a b where
  point : b.cur.SameAt a.cur
  opt : (b.prepare p).checkOptimal p = (a.prepare p).checkOptimal p
  unb : p.objLower < a.cur.objVal ∨ b.feasRes = a.feasRes

theorem Sim.base (h : Sim p d a b) : Base a b :=
  ⟨h.tr, h.ltr, h.pen, h.feasible, h.resets, h.rule⟩

theorem Sim.toReady (h : Sim p d a b) : Ready p a b := ⟨h.base, h.point, h.opt, h.unb⟩

theorem Ready.start (h : Ready p a b) (n m : Nat) (l : Bool) :
    Sim p ⟨0, 0, 0, 0, 0⟩ ((a.atIter n).startSolve l) ((b.atIter m).startSolve l) where
  status := rfl
  tr := h.tr
  ltr := h.ltr
  pen := h.pen
  feasible := h.feasible
  resets := h.resets
  abort := rfl
  local_ := rfl
  rule := h.rule
  elapsed := rfl
  accepted := rfl
  soc := rfl
  rejected := rfl
  failedEqp := rfl
  point := h.point
  opt := h.opt
  unb := h.unb

theorem problemSolve_sim (h : Ready p a b) (n m : Nat) (max : Option Nat) (l : Bool)
    (env : Nat → IterEnv K) (fuel : Nat) :
    OutSim p ⟨0, 0, 0, 0, 0⟩ 0 (problemSolve p R max l env fuel (a.atIter n))
      (problemSolve p R max l env fuel (b.atIter m)) := by
  unfold problemSolve
  have hm : max = max.map (· + 0) := by cases max <;> rfl
  exact loop_sim (d := ⟨0, 0, 0, 0, 0⟩) hm (fun _ => rfl) fuel 0 _ _ rfl (h.start n m l)

/-- Two solvers that agree at the beginning of a pass. -/
structure SSim (pO pR : Params K) (A B : Solver K σ) : Prop where
  phase : B.phase = A.phase
  enable : B.enableRest = A.enableRest
  remaining : B.remaining = A.remaining
  iterations : B.iterations = A.iterations
  optB : Base A.opt B.opt
  restB : Base A.rest B.rest
  inOpt : A.phase = .optimization → Ready pO A.opt B.opt
  inRest : A.phase = .restoration → Ready pR A.rest B.rest ∧ B.opt.feasRes = A.opt.feasRes

/-- Two solvers that agree at the end of a solve. -/
structure SameEnd (A B : Solver K σ) : Prop where
  phase : B.phase = A.phase
  status : B.status = A.status
  enable : B.enableRest = A.enableRest
  remaining : B.remaining = A.remaining
  iterations : B.iterations = A.iterations
  optB : Base A.opt B.opt
  restB : Base A.rest B.rest
  point : B.opt.cur.SameAt A.opt.cur

/-- Results of a pass that agree. -/
inductive OSim (pO pR : Params K) : OPass K σ → OPass K σ → Prop
  | more {A B : Solver K σ} : SSim pO pR A B → OSim pO pR (.more A) (.more B)
  | done {A B : Solver K σ} : SameEnd A B → OSim pO pR (.done A) (.done B)
  | error : OSim pO pR .error .error
  | fail : OSim pO pR .fail .fail
  | outOfFuel : OSim pO pR .outOfFuel .outOfFuel

variable {pO pR : Params K} {A B : Solver K σ} {oe : OuterEnv K}

/-- leaving the loop -/
theorem SSim.leave (h : SSim pO pR A B) (st : SStatus) :
    SameEnd ({ A with status := st }.leave oe) ({ B with status := st }.leave oe) := by
  unfold Solver.leave
  cases hp : A.phase with
  | optimization =>
    have hb : B.phase = .optimization := h.phase.trans hp
    simp only [hp, hb]
    exact ⟨by simp only [hp, hb], rfl, h.enable, h.remaining, h.iterations, h.optB, h.restB,
      (h.inOpt hp).point⟩
  | restoration =>
    have hb : B.phase = .restoration := h.phase.trans hp
    simp only [hp, hb]
    exact ⟨rfl, rfl, h.enable, h.remaining, h.iterations, { h.optB with }, h.restB, ⟨rfl, rfl, rfl⟩⟩

/-- the accounting of iterations -/
theorem account_cases (A B : Solver K σ) (n : Nat) (h1 : B.remaining = A.remaining)
    (h2 : B.iterations = A.iterations) :
    (A.account n = none ∧ B.account n = none) ∨
    ∃ r, A.account n = some { A with iterations := A.iterations + n, remaining := r } ∧
      B.account n = some { B with iterations := A.iterations + n, remaining := r } := by
  unfold Solver.account
  rw [h1, h2]
  cases hr : A.remaining with
  | none =>
    right
    refine ⟨none, ?_, ?_⟩
    · simp only [hr]
    · simp only [h1.trans hr]
  | some m =>
    simp only
    by_cases hn : n ≤ m
    · rw [if_pos hn, if_pos hn]; right; exact ⟨_, rfl, rfl⟩
    · rw [if_neg hn, if_neg hn]; left; exact ⟨rfl, rfl⟩

/-- a pass of the outer loop from two states that agree -/
theorem outerPass_sim (hrest : A.enableRest = true → pR.objLower < oe.restPt.objVal) (R : Rule K σ) (fuel : Nat)
    (h : SSim pO pR A B) :
    OSim pO pR (outerPass pO pR R fuel oe A) (outerPass pO pR R fuel oe B) := by
  unfold outerPass
  by_cases ht : oe.timeUp
  · rw [if_pos ht, if_pos ht]
    exact .done (h.leave _)
  rw [if_neg ht, if_neg ht]
  by_cases hz : A.remaining = some 0
  · rw [if_pos hz, if_pos (h.remaining.trans hz)]
    exact .done (h.leave _)
  have hzb : ¬ B.remaining = some 0 := by rw [h.remaining]; exact hz
  rw [if_neg hz, if_neg hzb]
  cases hp : A.phase with
  | optimization =>
    have hb : B.phase = .optimization := h.phase.trans hp
    simp only [hb]
    rw [h.remaining, h.enable, h.iterations]
    have hs := problemSolve_sim (R := R) (h.inOpt hp) A.iterations A.iterations A.remaining
      A.enableRest oe.inner fuel
    generalize problemSolve pO R A.remaining A.enableRest oe.inner fuel (A.opt.atIter A.iterations)
      = oa at hs
    generalize problemSolve pO R A.remaining A.enableRest oe.inner fuel (B.opt.atIter A.iterations)
      = ob at hs
    cases hs with
    | outOfFuel => exact .outOfFuel
    | error => exact .error
    | fail => exact .fail
    | @done n o o' hsim hloc =>
      simp only
      rw [show o'.elapsed = o.elapsed from hsim.elapsed, hsim.status]
      rcases account_cases (A.withOpt o) (B.withOpt o') o.elapsed h.remaining h.iterations with
        ⟨h1, h2⟩ | ⟨r, h1, h2⟩
      · rw [h1, h2]; exact .fail
      rw [h1, h2]
      simp only
      have hS : SSim pO pR
          { A.withOpt o with iterations := (A.withOpt o).iterations + o.elapsed, remaining := r }
          { B.withOpt o' with iterations := (A.withOpt o).iterations + o.elapsed, remaining := r } :=
        ⟨h.phase, h.enable, rfl, rfl, hsim.base, h.restB, fun _ => hsim.toReady,
          fun hr => by rw [show A.phase = .restoration from hr] at hp; cases hp⟩
      cases hc : abortCode o.status with
      | some st => exact .done (hS.leave st)
      | none =>
        simp only
        have hE : ∀ st, SameEnd
          { A.withOpt o with iterations := (A.withOpt o).iterations + o.elapsed, remaining := r, status := st }
          { B.withOpt o' with iterations := (A.withOpt o).iterations + o.elapsed, remaining := r, status := st } :=
          fun st => ⟨h.phase, rfl, h.enable, rfl, rfl, hsim.base, h.restB, hsim.point⟩
        unfold optBranch
        cases hst : o.status with
        | optimal => exact .done (hE _)
        | abortManual => exact .done (hE _)
        | unbounded => exact .done (hE _)
        | locallyInfeasible =>
          simp only
          show OSim pO pR (if A.enableRest then _ else _) (if B.enableRest then _ else _)
          rw [h.enable]
          by_cases he : A.enableRest
          · rw [if_pos he, if_pos he]
            refine .more ⟨rfl, h.enable, rfl, rfl, hsim.base, { h.restB with }, fun hq => (by cases hq),
              fun _ => ⟨?_, hloc hst⟩⟩
            exact { toBase := { h.restB with }, point := ⟨rfl, rfl, rfl⟩, opt := rfl
                    unb := Or.inl (hrest he) }
          · rw [if_neg he, if_neg he]
            exact .more hS
        | _ => exact .fail
  | restoration =>
    have hb : B.phase = .restoration := h.phase.trans hp
    simp only [hb]
    rw [h.remaining, h.enable, h.iterations]
    have hs := problemSolve_sim (R := R) (h.inRest hp).1 A.iterations A.iterations A.remaining
      A.enableRest oe.inner fuel
    generalize problemSolve pR R A.remaining A.enableRest oe.inner fuel (A.rest.atIter A.iterations)
      = oa at hs
    generalize problemSolve pR R A.remaining A.enableRest oe.inner fuel (B.rest.atIter A.iterations)
      = ob at hs
    cases hs with
    | outOfFuel => exact .outOfFuel
    | error => exact .error
    | fail => exact .fail
    | @done n o o' hsim hloc =>
      simp only
      rw [show o'.elapsed = o.elapsed from hsim.elapsed, hsim.status]
      have key : ∀ A0 B0 : Solver K σ, B0.remaining = A0.remaining → B0.iterations = A0.iterations →
          A0.phase = .restoration → B0.phase = .restoration → B0.enableRest = A0.enableRest →
          Base A0.opt B0.opt → B0.opt.feasRes = A0.opt.feasRes →
          OSim pO pR (match (A0.withRest o).account o.elapsed with
            | none => .fail
            | some s1 => match abortCode o.status with
              | some st => .done ({ s1 with status := st }.leave oe)
              | none => restBranch pO oe o.status s1)
          (match (B0.withRest o').account o.elapsed with
            | none => .fail
            | some s1 => match abortCode o.status with
              | some st => .done ({ s1 with status := st }.leave oe)
              | none => restBranch pO oe o.status s1) := by
        intro A0 B0 g1 g2 g3 g4 g5 g6 g7
        rcases account_cases (A0.withRest o) (B0.withRest o') o.elapsed g1 g2 with
          ⟨h1, h2⟩ | ⟨r, h1, h2⟩
        · rw [h1, h2]; exact .fail
        rw [h1, h2]
        simp only
        have hS : SSim pO pR
            { A0.withRest o with iterations := (A0.withRest o).iterations + o.elapsed, remaining := r }
            { B0.withRest o' with iterations := (A0.withRest o).iterations + o.elapsed, remaining := r } :=
          ⟨g4.trans g3.symm, g5, rfl, rfl, g6, hsim.base,
            fun hr => (by rw [show A0.phase = .optimization from hr] at g3; cases g3),
            fun _ => ⟨hsim.toReady, g7⟩⟩
        cases hc : abortCode o.status with
        | some st => exact .done (hS.leave st)
        | none =>
          simp only
          unfold restBranch
          have hM : ∀ en : Bool, SSim pO pR
            { A0.withRest o with
              iterations := (A0.withRest o).iterations + o.elapsed, remaining := r, enableRest := en
              phase := .optimization, opt := { A0.opt with cur := oe.optPt } }
            { B0.withRest o' with
              iterations := (A0.withRest o).iterations + o.elapsed, remaining := r, enableRest := en
              phase := .optimization, opt := { B0.opt with cur := oe.optPt } } := fun en =>
            ⟨rfl, rfl, rfl, rfl, { g6 with }, hsim.base,
              fun _ => { toBase := { g6 with }, point := ⟨rfl, rfl, rfl⟩, opt := rfl
                         unb := Or.inr g7 },
              fun hq => by cases hq⟩
          have hM2 := hM A0.enableRest
          cases hst : o.status with
          | abortManual =>
            refine .more ⟨rfl, g5, rfl, rfl, hM2.optB, hM2.restB, hM2.inOpt, hM2.inRest⟩
          | optimal =>
            simp only
            by_cases hf : (!oe.checkReject && decide (oe.optPt.feasRes ≤ pO.feasTol)) = true
            · rw [if_pos hf, if_pos hf]
              refine .more ⟨rfl, g5, rfl, rfl, hM2.optB, hM2.restB, hM2.inOpt, hM2.inRest⟩
            · rw [if_neg hf, if_neg hf]
              exact .more (hM false)
          | _ => exact .fail
      cases hu : oe.userAbort with
      | false =>
        simp only [Bool.false_eq_true, if_false]
        exact key A B h.remaining h.iterations hp hb h.enable h.optB (h.inRest hp).2
      | true =>
        simp only [if_true]
        exact key A.userAbort B.userAbort h.remaining h.iterations hp hb h.enable { h.optB with }
          (h.inRest hp).2

/-- Results of a call that agree. -/
inductive CallSim : CallOut X Y K σ → CallOut X Y K σ → Prop
  | outOfFuel : CallSim .outOfFuel .outOfFuel
  | done {s t : Session X Y K σ} : SameEnd s.core t.core → t.primal = s.primal → t.dual = s.dual →
      CallSim (.done s) (.done t)
  | error : CallSim .error .error
  | fail : CallSim .fail .fail

theorem sessionLoop_sim {q : SolveParams K σ} {env : SolveEnv X Y K} (innerFuel : Nat)
    (fuel : Nat) :
    ∀ (k : Nat) (x : X) (A B : Solver K σ),
      (A.enableRest = true → ∀ k, q.pR.objLower < (env.outer k).restPt.objVal) →
      SSim q.pO q.pR A B →
      CallSim (sessionLoop q innerFuel env fuel k x A) (sessionLoop q innerFuel env fuel k x B) := by
  induction fuel with
  | zero => intro k x A B _ _; exact .outOfFuel
  | succ fuel ih =>
    intro k x A B hrest h
    unfold sessionLoop
    have hp := outerPass_sim (fun he => hrest he k) q.rule innerFuel h
    have hen : ∀ s', outerPass q.pO q.pR q.rule innerFuel (env.outer k) A = .more s' →
        s'.enableRest = true → A.enableRest = true := by
      intro s' hs' he
      obtain ⟨_, _, ⟨_, _, _, _, _, _, h1, _⟩ | ⟨_, _, _, _, _, _, _, _, _, h1⟩⟩ := outerPass_more hs'
      · exact h1
      · rcases h1 with ⟨_, h1⟩ | ⟨_, _, _, h1⟩ | ⟨_, h1⟩
        · exact h1 ▸ he
        · exact h1 ▸ he
        · rw [h1] at he; cases he
    generalize outerPass q.pO q.pR q.rule innerFuel (env.outer k) A = oa at hp hen ⊢
    generalize outerPass q.pO q.pR q.rule innerFuel (env.outer k) B = ob at hp
    cases hp with
    | more h1 =>
      simp only
      rw [h.phase]
      exact ih _ _ _ _ (fun he => hrest (hen _ rfl he)) h1
    | done h1 =>
      simp only
      rw [h.phase]
      exact .done h1 rfl rfl
    | error => exact .error
    | fail => exact .fail
    | outOfFuel => exact .outOfFuel

end Sleqp
