import Verif.Spec.State
import Verif.Props.Solver
import Verif.Props.Feas
import Mathlib.Tactic.IntervalCases

/-!
C102: the state reported by the solver describes its current iterate.
-/

namespace Sleqp

variable {K : Type*} [Field K] [LinearOrder K] [IsStrictOrderedRing K] {σ : Type*}

/-! ### scalar states -/

/-- the stored feasibility residual is that of the current point -/
def PSolver.Fresh (s : PSolver K σ) : Prop := s.feasRes = s.cur.feasRes

section
variable {p : Params K} {R : Rule K σ} {max : Option Nat} {abortLocal : Bool}
  {env : Nat → IterEnv K} {fuel : Nat} {s s' : PSolver K σ} {n : Nat}

theorem finish_fresh {e : IterEnv K} (hf : s.Fresh) (h : s.finish p R e = some s')
    (hr : s'.stepType = .rejected) : s'.Fresh := by
  unfold PSolver.finish at h
  obtain ⟨d, hd, rfl⟩ := Option.map_eq_some_iff.mp h
  have hr' : d.stepType = .rejected := hr
  have hacc : d.accepted = false := by
    rcases decideStep_cases hd with ⟨_, h2, _⟩ | ⟨_, _, _, h3⟩
    · exact absurd hr' h2
    · rcases h3 with ⟨_, h4, _⟩ | ⟨h4, _⟩
      · rw [hr'] at h4; cases h4
      · exact h4
  unfold PSolver.Fresh
  simp only [hacc, Bool.false_eq_true, if_false]
  exact hf

theorem performIteration_fresh {e : IterEnv K} {ret : Ret}
    (hf : s.stepType = .rejected → s.Fresh) (h : performIteration p R s e = some (ret, s'))
    (hr : s'.stepType = .rejected) : s'.Fresh := by
  unfold performIteration at h
  simp only at h
  split_ifs at h with h1 h2 h3 h4 h5
  · cases h; exact hf hr
  · cases h; rfl
  · cases h; rfl
  · cases h; rfl
  · obtain ⟨s3, h6, h7⟩ := Option.map_eq_some_iff.mp h
    cases h7
    exact finish_fresh (s := s.ready p e) rfl h6 hr

/-- an iteration that ends the solve at its current point -/
theorem performIteration_end {e : IterEnv K} {ret : Ret} (hs : s.status = .running)
    (h : performIteration p R s e = some (ret, s'))
    (hr : s'.status = .optimal ∨ s'.status = .locallyInfeasible) :
    s'.Fresh ∧ s'.meritValue = s'.cur.merit s'.penalty ∧
    (s'.status = .optimal → s'.slackRes = s'.cur.slackRes ∧ s'.statRes = s'.cur.statRes) := by
  unfold performIteration at h
  simp only at h
  split_ifs at h with h1 h2 h3 h4 h5
  · cases h; rcases hr with hr | hr <;> cases hr
  · cases h; exact ⟨rfl, rfl, fun _ => ⟨rfl, rfl⟩⟩
  · simp only [Option.some.injEq, Prod.mk.injEq] at h
    rw [← h.2] at hr ⊢
    have h6 : ((s.prepare p).estimated e).status = s.status := rfl
    rw [h6, hs] at hr
    rcases hr with hr | hr <;> cases hr
  · cases h; exact ⟨rfl, rfl, fun h6 => by cases h6⟩
  · obtain ⟨s3, h6, h7⟩ := Option.map_eq_some_iff.mp h
    cases h7
    obtain ⟨d, _, h8, _⟩ := finish_spec h6
    rw [h8] at hr
    have : (s.ready p e).status = s.status := rfl
    rw [this, hs] at hr
    rcases hr with hr | hr <;> cases hr

theorem reach_fresh {s0 : PSolver K σ} (h0 : s0.stepType = .none) {k : Nat}
    (h : Reach p R max env s0 k s) (hr : s.stepType = .rejected) : s.Fresh := by
  induction h with
  | start => rw [h0] at hr; cases hr
  | pass _ hm ih =>
    obtain ⟨_, _, _, _, _, _, _, h8⟩ := loopPass_more hm
    exact performIteration_fresh ih h8 hr

theorem pass_fresh {e : IterEnv K} {perf : Bool} (hf : s.stepType = .rejected → s.Fresh)
    (h : loopPass p R max e s = .done perf s') (hend : s'.stepType = .rejected) : s'.Fresh := by
  rcases loopPass_done h with ⟨_, h1⟩ | ⟨_, _, _, ret, s1, h1, h2⟩
  · rcases h1 with ⟨_, rfl⟩ | ⟨_, rfl⟩ | ⟨_, rfl⟩ <;> exact hf hend
  · have h3 : s1.stepType = .rejected → s1.Fresh := fun hr => performIteration_fresh hf h1 hr
    rcases h2 with ⟨_, rfl⟩ | ⟨_, _, rfl⟩ | ⟨rfl, _, rfl⟩ <;> exact h3 hend

theorem pass_end {e : IterEnv K} {perf : Bool} (hs : s.status = .running)
    (h : loopPass p R max e s = .done perf s')
    (hend : s'.status = .optimal ∨ s'.status = .locallyInfeasible) :
    s'.Fresh ∧ s'.meritValue = s'.cur.merit s'.penalty ∧
    (s'.status = .optimal → s'.slackRes = s'.cur.slackRes ∧ s'.statRes = s'.cur.statRes) := by
  rcases loopPass_done h with ⟨_, h1⟩ | ⟨_, _, _, ret, s1, h1, h2⟩
  · rcases h1 with ⟨_, rfl⟩ | ⟨_, rfl⟩ | ⟨_, rfl⟩ <;> rcases hend with h3 | h3 <;> cases h3
  · rcases h2 with ⟨_, rfl⟩ | ⟨_, _, rfl⟩ | ⟨rfl, _, rfl⟩
    · rcases hend with h3 | h3 <;> cases h3
    · rcases hend with h3 | h3 <;> cases h3
    · exact performIteration_end hs h1 hend

/-- C102, proved part for the numbers: the reported objective value is that of the current
point.  After a solve that ended optimal or locally infeasible, or whose last step was
rejected, so is the reported feasibility residual; in the first two cases the reported merit
value is the one of this point for the reported penalty parameter; after a solve that ended
optimal the slackness and stationarity residuals are those of this point as well.  Missing:
the other cases, in which the code reports the residuals of the previous point
(`C102_stale_violated`) or those for the previous multipliers
(`C102_multipliers_violated`). -/
theorem C102_numbers_partial (q : RayleighSource K)
    (h : problemSolve p R max abortLocal env fuel s = .done n s') :
    s'.realState q .objVal = some s'.cur.objVal ∧
    (s'.status = .optimal ∨ s'.status = .locallyInfeasible ∨ s'.stepType = .rejected →
      s'.realState q .feasRes = some s'.cur.feasRes) ∧
    (s'.status = .optimal ∨ s'.status = .locallyInfeasible →
      ∃ rho, s'.realState q .penalty = some rho ∧
        s'.realState q .meritVal = some (s'.cur.objVal + rho * s'.cur.totalViol)) ∧
    (s'.status = .optimal → s'.realState q .slackRes = some s'.cur.slackRes ∧
      s'.realState q .statRes = some s'.cur.statRes) := by
  obtain ⟨k, s1, perf, h1, h2, _, h4, _⟩ := solve_done h
  refine ⟨rfl, fun hend => ?_, fun h6 => ?_, fun h6 => ?_⟩
  · have hf : s'.Fresh := by
      rcases hend with h5 | h5 | h5
      · exact (pass_end h2 h4 (Or.inl h5)).1
      · exact (pass_end h2 h4 (Or.inr h5)).1
      · exact pass_fresh (fun hr => reach_fresh (by rfl) h1 hr) h4 h5
    exact congrArg some hf
  · exact ⟨s'.penalty, rfl, congrArg some (pass_end h2 h4 h6).2.1⟩
  · obtain ⟨a, b⟩ := (pass_end h2 h4 (Or.inl h6)).2.2 h6
    exact ⟨congrArg some a, congrArg some b⟩

end

/-- instance: the second iteration finds the accepted point optimal -/
example : ∃ n s', problemSolve exParams exDirect (some 10) true
      (fun _ => { quietEnv ⟨1, 0, 0, 0, 0⟩ with modelTrial := 0 }) 11
      (exFresh () ⟨4, 1, 1, 1, 1⟩) = .done n s' ∧ s'.status = .optimal ∧
    s'.realState (.steihaug 1 1) .meritVal = some 1 := by
  obtain ⟨n, s', h1, h2⟩ := Out.check_spec (o := problemSolve exParams exDirect (some 10) true
    (fun _ => { quietEnv ⟨1, 0, 0, 0, 0⟩ with modelTrial := 0 }) 11
    (exFresh () ⟨4, 1, 1, 1, 1⟩))
    (f := fun _ s' => decide (s'.status = .optimal ∧
      s'.realState (.steihaug 1 1) .meritVal = some 1)) (by decide +kernel)
  exact ⟨n, s', h1, of_decide_eq_true h2⟩

/-! ### vector states -/

theorem isNorm_trunc {eps r : K} {n : Nat} {v : Vec K} {f : Nat → K} (he : 0 ≤ eps)
    (hm : IsMaxZero r n fun i => |f i|)
    (hv : ∀ i < n, v.value i = if |f i| ≤ eps then 0 else f i) : IsNorm eps r n v := by
  obtain ⟨h0, h1, h2⟩ := hm
  refine ⟨fun i hi => ?_, ?_⟩
  · rw [hv i hi]
    split
    · rw [abs_zero]; exact h0
    · exact h1 i hi
  · rcases h2 with h2 | ⟨i, hi, h2⟩
    · left; rw [h2]; exact he
    · by_cases h3 : |f i| ≤ eps
      · left; rw [← h2]; exact h3
      · right; exact ⟨i, hi, by rw [hv i hi, if_neg h3]; exact h2⟩

theorem abs_sub_clip {c lb ub : K} (h : lb ≤ ub) :
    |c - max (min c ub) lb| = viol c lb ub := by
  unfold viol
  rcases le_total c ub with h1 | h1
  · rw [min_eq_left h1]
    rcases le_total c lb with h2 | h2
    · rw [max_eq_right h2, abs_of_nonpos (by linarith), max_eq_left (a := lb - c) (by linarith),
        max_eq_left (by linarith)]
      ring
    · rw [max_eq_left h2, sub_self, abs_zero, max_eq_right]
      exact max_le (by linarith) (by linarith)
  · rw [min_eq_right h1, max_eq_left h, abs_of_nonneg (by linarith),
      max_eq_right (b := c - ub) (by linarith), max_eq_left (by linarith)]

theorem abs_slackCur (v lb ub d : K) :
    (if 0 ≤ d then max (ub - v) 0 * |d| else max (v - lb) 0 * |d|) = |slackCur v lb ub d| := by
  unfold slackCur
  by_cases h : 0 ≤ d
  · rw [if_pos h, if_pos h, abs_mul, abs_of_nonneg (le_max_right (ub - v) 0)]
  · rw [if_neg h, if_neg h, abs_mul, abs_of_nonneg (le_max_right (v - lb) 0)]

/-- The vectors reported by the solver belong to the current iterate: each query succeeds for
every vector handed over, the result has the right dimension, its entries are the
stationarity, feasibility and complementarity residuals of the iterate, and its largest
absolute value is the residual of the iterate (up to entries of at most `eps`, which are
dropped). -/
theorem C102_vectors {n m : Nat} {p : Bounds K} {it : Iterate K} {pt : PointData K}
    (h : it.Fits n m p) (hd : pt.Describes n m p it) {eps : K} (he : 0 ≤ eps) (r0 : Vec K) :
    (∃ v, vecState n m p it eps r0 .statResiduals = some v ∧ v.WF ∧ v.dim = n ∧
      (∀ j < n, v.value j =
        let y := (∑ i ∈ Finset.range m, it.consDual.value i * it.consJac.value i j) +
          it.varsDual.value j + it.objGrad.value j;
        if |y| ≤ eps then 0 else y) ∧ IsNorm eps pt.statRes n v) ∧
    (∃ v, vecState n m p it eps r0 .feasResiduals = some v ∧ v.WF ∧ v.dim = m ∧
      (∀ i < m, v.value i = it.consVal.value i -
        max (min (it.consVal.value i) (p.consUb.value i)) (p.consLb.value i)) ∧
      IsNorm 0 pt.feasRes m v) ∧
    (∃ vc vx, vecState n m p it eps r0 .consSlackResiduals = some vc ∧ vc.WF ∧ vc.dim = m ∧
      vecState n m p it eps r0 .varSlackResiduals = some vx ∧ vx.WF ∧ vx.dim = n ∧
      (∀ i < m, vc.value i =
        let y := slackCur (it.consVal.value i) (p.consLb.value i) (p.consUb.value i)
          (it.consDual.value i);
        if |y| ≤ eps then 0 else y) ∧
      (∀ j < n, vx.value j =
        let y := slackCur (it.primal.value j) (p.varsLb.value j) (p.varsUb.value j)
          (it.varsDual.value j);
        if |y| ≤ eps then 0 else y) ∧
      (∀ i < m, |vc.value i| ≤ pt.slackRes) ∧ (∀ j < n, |vx.value j| ≤ pt.slackRes) ∧
      (pt.slackRes ≤ eps ∨ (∃ i < m, |vc.value i| = pt.slackRes) ∨
        ∃ j < n, |vx.value j| = pt.slackRes)) := by
  refine ⟨?_, ?_, ?_⟩
  · obtain ⟨cache, e, hlen, hval⟩ := C14_stationarity_cache h
    obtain ⟨r, e2, hr⟩ := C14_stationarity_residuum h
    rw [hd.stat] at e2; cases e2
    obtain ⟨v, e3, w, d, hv⟩ := setFromRaw_spec eps r0 cache
    have hv' : ∀ j < n, v.value j =
        if |(∑ i ∈ Finset.range m, it.consDual.value i * it.consJac.value i j) +
          it.varsDual.value j + it.objGrad.value j| ≤ eps then 0 else
          (∑ i ∈ Finset.range m, it.consDual.value i * it.consJac.value i j) +
          it.varsDual.value j + it.objGrad.value j := by
      intro j hj
      rw [hv j, hval j hj]
    refine ⟨v, ?_, w, d.trans hlen, hv', isNorm_trunc he hr hv'⟩
    simp only [vecState, Iterate.stationarityResiduals, e, Option.bind_some, e3]
  · obtain ⟨v, e, w, d, hv⟩ := C12_violation_values h.cons r0
    obtain ⟨r, e2, hr⟩ := C12_max_violation h.cons
    have hfe := hd.feas
    unfold Iterate.feasibilityResiduum at hfe
    rw [hfe] at e2; cases e2
    refine ⟨v, e, w, d, fun i _ => hv i, ?_⟩
    have hab : ∀ i < m, |v.value i| =
        viol (it.consVal.value i) (p.consLb.value i) (p.consUb.value i) := by
      intro i hi
      rw [hv i]
      exact abs_sub_clip (h.cons.le i hi)
    obtain ⟨a, b, c⟩ := hr
    refine ⟨fun i hi => by rw [hab i hi]; exact b i hi, ?_⟩
    rcases c with c | ⟨i, hi, c⟩
    · left; exact c.le
    · right; exact ⟨i, hi, by rw [hab i hi]; exact c⟩
  · obtain ⟨vc, e1, w1, d1, hc⟩ := C15_residual_vector h.cons.wc h.cons.wl h.cons.wu h.wcd
      h.cons.dc h.cons.dl h.cons.du h.dcd r0 he
    obtain ⟨vx, e2, w2, d2, hx⟩ := C15_residual_vector h.vars.wc h.vars.wl h.vars.wu h.wvd
      h.vars.dc h.vars.dl h.vars.du h.dvd r0 he
    obtain ⟨r, e3, h0, hr⟩ := C15_residuum h
    rw [hd.slack] at e3; cases e3
    obtain ⟨hr1, hr2⟩ := (hr _ h0).mp le_rfl
    refine ⟨vc, vx, e1, w1, d1, e2, w2, d2, fun i _ => hc i, fun j _ => hx j, ?_, ?_, ?_⟩
    · intro i hi
      rw [hc i]
      split
      · rw [abs_zero]; exact h0
      · exact hr1 i hi
    · intro i hi
      rw [hx i]
      split
      · rw [abs_zero]; exact h0
      · exact hr2 i hi
    · obtain ⟨r1, f1, _, _, c1⟩ := C15_slack_residuum h.cons.wc h.cons.wl h.cons.wu h.wcd
        h.cons.dc h.cons.dl h.cons.du h.dcd
      obtain ⟨r2, f2, _, _, c2⟩ := C15_slack_residuum h.vars.wc h.vars.wl h.vars.wu h.wvd
        h.vars.dc h.vars.dl h.vars.du h.dvd
      simp only [abs_slackCur] at c1 c2
      have hs := hd.slack
      simp only [Iterate.slacknessResiduum, f1, f2, Option.bind_some, Option.map_some,
        Option.some.injEq] at hs
      by_cases hle : pt.slackRes ≤ eps
      · exact Or.inl hle
      · right
        push Not at hle
        have hpos : 0 < pt.slackRes := lt_of_le_of_lt he hle
        rcases max_choice (max 0 r1) r2 with hm | hm
        · left
          rcases max_choice 0 r1 with hm2 | hm2
          · rw [hm, hm2] at hs; exact absurd hs hpos.ne
          · rw [hm, hm2] at hs
            rcases c1 with c1 | ⟨i, hi, c1⟩
            · rw [← hs, c1] at hpos; exact absurd hpos (lt_irrefl 0)
            · refine ⟨i, hi, ?_⟩
              rw [hc i, if_neg (by rw [c1, hs]; exact not_le.mpr hle), c1, hs]
        · right
          rw [hm] at hs
          rcases c2 with c2 | ⟨i, hi, c2⟩
          · rw [← hs, c2] at hpos; exact absurd hpos (lt_irrefl 0)
          · refine ⟨i, hi, ?_⟩
            rw [hx i, if_neg (by rw [c2, hs]; exact not_le.mpr hle), c2, hs]

/-- instance: the sample iterate with the numbers computed for it -/
example : ∃ pt : PointData ℚ, pt.Describes 1 1 exP exIt ∧
    (vecState 1 1 exP exIt 0 ⟨5, 0, []⟩ .feasResiduals).isSome := by
  obtain ⟨a, ha, _⟩ := C12_max_violation exFits.cons
  obtain ⟨b, hb, _⟩ := C15_residuum exFits
  obtain ⟨c, hc, _⟩ := C14_stationarity_residuum exFits
  have hd : PointData.Describes 1 1 exP ⟨exIt.objVal, 0, a, b, c⟩ exIt := ⟨rfl, ha, hb, hc⟩
  obtain ⟨_, ⟨v, hv, _⟩, _⟩ := C102_vectors exFits hd le_rfl ⟨5, 0, []⟩
  exact ⟨_, hd, by rw [hv]; rfl⟩

/-! ### the remaining answers -/

/-- The integer states: number of the iteration, kind of the last step and whether it
reached the boundary of the trust region, under the numbers of the public enumeration. -/
theorem C102_integers (s : Solver K σ) :
    s.intState 1 = .value s.opt.iteration ∧
    (s.intState 0 = .value 1 ↔ s.opt.boundaryStep = true) ∧
    (s.intState 0 = .value 0 ↔ s.opt.boundaryStep = false) ∧
    (s.intState 2 = .value 0 ↔ s.opt.stepType = .none) ∧
    (s.intState 2 = .value 1 ↔ s.opt.stepType = .accepted) ∧
    (s.intState 2 = .value 2 ↔ s.opt.stepType = .acceptedFull) ∧
    (s.intState 2 = .value 3 ↔ s.opt.stepType = .acceptedSoc) ∧
    (s.intState 2 = .value 4 ↔ s.opt.stepType = .rejected) := by
  refine ⟨rfl, ?_, ?_, ?_, ?_, ?_, ?_, ?_⟩
  all_goals
    simp only [Solver.intState, IntState.ofCode, PSolver.intState, StateAnswer.value.injEq]
  · cases s.opt.boundaryStep <;> decide
  · cases s.opt.boundaryStep <;> decide
  all_goals cases s.opt.stepType <;> decide

theorem RealState.ofCode_iff (c : Int) : (RealState.ofCode c).isSome ↔ 0 ≤ c ∧ c < 10 := by
  constructor
  · unfold RealState.ofCode
    split <;> intro h <;> first | omega | cases h
  · rintro ⟨h1, h2⟩
    interval_cases c <;> rfl

theorem IntState.ofCode_iff (c : Int) : (IntState.ofCode c).isSome ↔ 0 ≤ c ∧ c < 3 := by
  constructor
  · unfold IntState.ofCode
    split <;> intro h <;> first | omega | cases h
  · rintro ⟨h1, h2⟩
    interval_cases c <;> rfl

theorem VecState.ofCode_iff (c : Int) : (VecState.ofCode c).isSome ↔ 0 ≤ c ∧ c < 4 := by
  constructor
  · unfold VecState.ofCode
    split <;> intro h <;> first | omega | cases h
  · rintro ⟨h1, h2⟩
    interval_cases c <;> rfl

/-- A query is answered for exactly the numbers of the public enumerations. -/
theorem C102_codes (s : Solver K σ) (q : RayleighSource K) (code : Int) :
    (s.realState q code = .illegalArgument ↔ ¬(0 ≤ code ∧ code < 10)) ∧
    (s.intState code = .illegalArgument ↔ ¬(0 ≤ code ∧ code < 3)) ∧
    (VecState.ofCode code = none ↔ ¬(0 ≤ code ∧ code < 4)) := by
  rw [← RealState.ofCode_iff, ← IntState.ofCode_iff, ← VecState.ofCode_iff]
  refine ⟨?_, ?_, by simp⟩
  · unfold Solver.realState
    cases RealState.ofCode code <;> simp
  · unfold Solver.intState
    cases IntState.ofCode code <;> simp

/-- The answers are given under the numbers of the public enumerations: first the trust radii,
the objective and merit value, the residuals of feasibility, stationarity and complementarity, the
penalty parameter and the Rayleigh quotients; the vectors of residuals in the order stationarity,
feasibility, complementarity of the constraints and of the variables. -/
theorem C102_direct (s : Solver K σ) (q : RayleighSource K) :
    s.realState q 0 = .value (some s.opt.trustRadius) ∧
    s.realState q 1 = .value (some s.opt.lpTrustRadius) ∧
    s.realState q 2 = .value (some s.opt.cur.objVal) ∧
    s.realState q 3 = .value (some s.opt.meritValue) ∧
    s.realState q 4 = .value (some s.opt.feasRes) ∧
    s.realState q 5 = .value (some s.opt.statRes) ∧
    s.realState q 6 = .value (some s.opt.slackRes) ∧
    s.realState q 7 = .value (some s.opt.penalty) ∧
    (∀ mn mx, s.realState (.steihaug mn mx) 8 = .value (some mn) ∧
      s.realState (.steihaug mn mx) 9 = .value (some mx)) ∧
    [0, 1, 2, 3].map VecState.ofCode = [some .statResiduals, some .feasResiduals,
      some .consSlackResiduals, some .varSlackResiduals] :=
  ⟨rfl, rfl, rfl, rfl, rfl, rfl, rfl, rfl, fun _ _ => ⟨rfl, rfl⟩, rfl⟩

/-! ### violations -/

/-- The code violates C102: a solve is ended by its limit of one iteration after an accepted
step from a feasible point to one that violates its constraints by 5.  The solver reports the
objective value (and the residual vectors) of the new point, but the feasibility residual 0,
the stationarity residual and the merit value of the previous one. -/
theorem C102_stale_violated :
    ∃ s', problemSolve exParams exDirect (some 1) true
        (fun _ => { quietEnv ⟨-80, 5, 5, 3, 2⟩ with modelTrial := 10 }) 2
        (exFresh () ⟨40, 0, 0, 1, 1⟩) = .done 1 s' ∧
      s'.status = .abortIter ∧ s'.stepType = .accepted ∧
      s'.cur.feasRes = 5 ∧ s'.realState (.steihaug 1 1) .feasRes = some 0 ∧
      s'.cur.statRes = 2 ∧ s'.realState (.steihaug 1 1) .statRes = some 1 ∧
      s'.realState (.steihaug 1 1) .objVal = some (-80) ∧
      s'.realState (.steihaug 1 1) .meritVal = some 40 := by
  obtain ⟨n, s', h1, h2⟩ := Out.check_spec (o := problemSolve exParams exDirect (some 1) true
    (fun _ => { quietEnv ⟨-80, 5, 5, 3, 2⟩ with modelTrial := 10 }) 2
    (exFresh () ⟨40, 0, 0, 1, 1⟩))
    (f := fun n s' => decide (n = 1 ∧ s'.status = .abortIter ∧ s'.stepType = .accepted ∧
      s'.cur.feasRes = 5 ∧ s'.realState (.steihaug 1 1) .feasRes = some 0 ∧
      s'.cur.statRes = 2 ∧ s'.realState (.steihaug 1 1) .statRes = some 1 ∧
      s'.realState (.steihaug 1 1) .objVal = some (-80) ∧
      s'.realState (.steihaug 1 1) .meritVal = some 40)) (by decide +kernel)
  have h3 := of_decide_eq_true h2
  obtain ⟨rfl, h4⟩ := h3
  exact ⟨s', h1, h4⟩

/-- The code violates C102: an iteration computes the residuals first and then overwrites the
multipliers of the current point, so that after a rejected step the reported slackness and
stationarity residuals are those for the previous multipliers: the solver returns a point with
multipliers for which both residuals are 0, and reports 1 for both. -/
theorem C102_multipliers_violated :
    ∃ s', problemSolve exParams exDirect (some 1) true
        (fun _ => { quietEnv ⟨40, 1, 1, 1, 1⟩ with modelTrial := 5, curSlack := 0, curStat := 0 }) 2
        (exFresh () ⟨0, 1, 1, 1, 1⟩) = .done 1 s' ∧
      s'.stepType = .rejected ∧ s'.cur.slackRes = 0 ∧ s'.cur.statRes = 0 ∧
      s'.realState (.steihaug 1 1) .slackRes = some 1 ∧
      s'.realState (.steihaug 1 1) .statRes = some 1 := by
  obtain ⟨n, s', h1, h2⟩ := Out.check_spec (o := problemSolve exParams exDirect (some 1) true
    (fun _ => { quietEnv ⟨40, 1, 1, 1, 1⟩ with modelTrial := 5, curSlack := 0, curStat := 0 }) 2
    (exFresh () ⟨0, 1, 1, 1, 1⟩))
    (f := fun n s' => decide (n = 1 ∧ s'.stepType = .rejected ∧ s'.cur.slackRes = 0 ∧
      s'.cur.statRes = 0 ∧ s'.realState (.steihaug 1 1) .slackRes = some 1 ∧
      s'.realState (.steihaug 1 1) .statRes = some 1)) (by decide +kernel)
  have h3 := of_decide_eq_true h2
  obtain ⟨rfl, h4⟩ := h3
  exact ⟨s', h1, h4⟩

/-- The code violates C102: after a rejected step the reported merit value belongs to the
penalty parameter before the iteration, not to the reported one: objective 0, violation 1 and
penalty parameter 100 are reported along with the merit value 10. -/
theorem C102_merit_violated :
    ∃ s', problemSolve exParams exDirect (some 1) true
        (fun _ => { quietEnv ⟨40, 1, 1, 1, 1⟩ with modelTrial := 5, newPenalty := 100 }) 2
        (exFresh () ⟨0, 1, 1, 1, 1⟩) = .done 1 s' ∧
      s'.stepType = .rejected ∧ s'.cur.totalViol = 1 ∧
      s'.realState (.steihaug 1 1) .objVal = some 0 ∧
      s'.realState (.steihaug 1 1) .penalty = some 100 ∧
      s'.realState (.steihaug 1 1) .meritVal = some 10 := by
  obtain ⟨n, s', h1, h2⟩ := Out.check_spec (o := problemSolve exParams exDirect (some 1) true
    (fun _ => { quietEnv ⟨40, 1, 1, 1, 1⟩ with modelTrial := 5, newPenalty := 100 }) 2
    (exFresh () ⟨0, 1, 1, 1, 1⟩))
    (f := fun n s' => decide (n = 1 ∧ s'.stepType = .rejected ∧ s'.cur.totalViol = 1 ∧
      s'.realState (.steihaug 1 1) .objVal = some 0 ∧
      s'.realState (.steihaug 1 1) .penalty = some 100 ∧
      s'.realState (.steihaug 1 1) .meritVal = some 10)) (by decide +kernel)
  have h3 := of_decide_eq_true h2
  obtain ⟨rfl, h4⟩ := h3
  exact ⟨s', h1, h4⟩

/-- outer environment: locally infeasible at first, then restoration without success -/
def exStuck (k : Nat) : OuterEnv ℚ :=
  if k = 0 then exOuter 0
  else { exOuter 1 with
    inner := fun j => { quietEnv ⟨5 - 2 * (j : ℚ), 0, 0, 1, 1⟩ with modelTrial := 0 }
    userAbort := false }

/-- The code violates C102: the queries always go to the solver of the optimization phase.
A run of two iterations spent in the restoration phase reports iteration 0, and the
feasibility residual 5 of the point at which the restoration began for a current point that
is feasible. -/
theorem C102_restoration_violated :
    ∃ s', runSolvingLoop exParams exParams exDirect (some 2) true false 21 exStuck 10 exSolver =
        .done s' ∧ s'.iterations = 2 ∧ s'.intState 1 = .value 0 ∧
      s'.opt.cur.feasRes = 0 ∧ s'.realState (.steihaug 1 1) 4 = .value (some 5) := by
  obtain ⟨s', h1, h2⟩ := SOut.check_spec (o := runSolvingLoop exParams exParams exDirect (some 2)
    true false 21 exStuck 10 exSolver)
    (f := fun s' => decide (s'.iterations = 2 ∧ s'.intState 1 = .value 0 ∧
      s'.opt.cur.feasRes = 0 ∧ s'.realState (.steihaug 1 1) 4 = .value (some 5)))
    (by decide +kernel)
  exact ⟨s', h1, of_decide_eq_true h2⟩

/-- The code violates C102: for least-squares problems solved by the Gauss-Newton solver the
Rayleigh quotients are never set, and for trlib they are not set before its first solve; the
query succeeds with an indeterminate value. -/
theorem C102_rayleigh_violated (s : Solver K σ) :
    s.realState .gaussNewton 8 = .value none ∧ s.realState .gaussNewton 9 = .value none ∧
    s.realState (.trlib none) 8 = .value none ∧ s.realState (.trlib none) 9 = .value none :=
  ⟨rfl, rfl, rfl, rfl⟩

end Sleqp
