import Verif.Lemmas.Ampl
import Verif.Lemmas.AmplFunc
import Mathlib.Algebra.BigOperators.Ring.Finset
import Mathlib.Algebra.Order.Field.Rat
import Mathlib.Tactic.Linarith
import Mathlib.Tactic.LinearCombination
import Mathlib.Tactic.Ring

/-! C85: AMPL models are solved as written. -/

namespace Sleqp
open Finset AmplFunc
variable {K : Type*} [Field K] [LinearOrder K] {A : Asl K}

/-- A trial point is rejected exactly if the objective or the constraints cannot be evaluated there or are not finite; other points are never
rejected. -/
theorem C85_reject (s : AmplFunc K) (x : Nat → K) :
    ((s.set A true x).2 = true ↔ ¬ ((A.obj x).Fine ∧ (A.cons x).Fine)) ∧ (s.set A false x).2 = false := by
  refine ⟨?_, rfl⟩
  unfold AmplFunc.set doObj doCons AslEval.Fine
  dsimp only
  rcases A.obj x with _ | _ | v <;> rcases A.cons x with _ | _ | w <;> simp [AslEval.isError, AslEval.bad]

/-- After a point was set and not rejected, whatever was asked for in between, the constraint values returned are the ones at this point. -/
theorem C85_cons {s0 s : AmplFunc K} {t : Bool} {x : Nat → K} {ops : List (Op K)} (hacc : (s0.set A t x).2 = false)
    (hops : ∀ op ∈ ops, ¬ op.isSet) (hr : (s0.set A t x).1.run A ops = some s) : (s.getCons A).2 = A.cons x := by
  have h := at_run hops (at_set hacc).1 hr
  unfold getCons
  split
  · rename_i hc
    exact (h.cons (h.cached hc).1).2
  · show A.cons s.x = _
    rw [h.point]

/-- ... the gradient is the one of the objective which is minimised ... -/
theorem C85_grad {s0 s : AmplFunc K} {t : Bool} {x : Nat → K} {ops : List (Op K)} (hacc : (s0.set A t x).2 = false)
    (hops : ∀ op ∈ ops, ¬ op.isSet) (hr : (s0.set A t x).1.run A ops = some s) (j : Nat) : (s.getGrad A).2 j = A.sign * A.grad x j := by
  have h := at_run hops (at_set hacc).1 hr
  unfold getGrad Asl.sign
  dsimp only
  rw [h.point]
  split <;> ring

/-- ... and the product with the Hessian is the one of the Lagrangian of the problem in which this objective is minimised. -/
theorem C85_hess {s0 s : AmplFunc K} {t : Bool} {x : Nat → K} {ops : List (Op K)} (hacc : (s0.set A t x).2 = false)
    (hops : ∀ op ∈ ops, ¬ op.isSet) (hr : (s0.set A t x).1.run A ops = some s) (ho : (A.obj x).NoError) (hc : (A.cons x).NoError)
    (d mult : Nat → K) :
    ∃ s' y, s.getHess A d mult = some (s', y) ∧
      ∀ j, y j = A.sign * A.hessObj x d j + ∑ i ∈ range A.numNonlin, mult i * A.hessCons i x d j := by
  have h := at_run hops (at_set hacc).1 hr
  have hoe : (A.obj s.x).isError = false := by
    rw [h.point]
    unfold AslEval.NoError at ho
    rcases hq : A.obj x with _ | _ | v
    · exact absurd hq ho
    · rfl
    · rfl
  have hce : (A.cons s.x).isError = false := by
    rw [h.point]
    unfold AslEval.NoError at hc
    rcases hq : A.cons x with _ | _ | v
    · exact absurd hq hc
    · rfl
    · rfl
  have hens : ∃ s', s.ensureEval A = some s' := by
    unfold ensureEval
    have h1 : ∃ s1, (if s.evalObj then some s else if (A.obj s.x).isError then none else some (s.doObj A)) = some s1 ∧ s1.x = s.x := by
      by_cases h1 : s.evalObj = true
      · exact ⟨s, if_pos h1, rfl⟩
      · exact ⟨s.doObj A, by rw [if_neg h1, if_neg (by rw [hoe]; exact Bool.false_ne_true)], rfl⟩
    obtain ⟨s1, h1, h2⟩ := h1
    rw [h1, Option.bind_some]
    by_cases h3 : s1.evalCons = true
    · rw [if_pos h3]; exact ⟨_, rfl⟩
    · rw [if_neg h3, if_neg (by rw [h2, hce]; exact Bool.false_ne_true)]; exact ⟨_, rfl⟩
  obtain ⟨s', hs'⟩ := hens
  obtain ⟨a1, a2, a3, -, -⟩ := at_ensure h hs'
  have e1 : s'.seenObj = x := a1.obj a2
  have e2 : s'.seenCons = x := (a1.cons a3).1
  have hsum : ∀ f : Nat → K, ((List.range A.numNonlin).map f).sum = ∑ i ∈ range A.numNonlin, f i := by
    intro f
    generalize A.numNonlin = n
    induction n with
    | zero => rfl
    | succ n ih => rw [List.range_succ, List.map_append, List.sum_append, ih, Finset.sum_range_succ]; simp
  unfold getHess
  rw [hs', Option.map_some]
  refine ⟨_, _, rfl, fun j => ?_⟩
  dsimp only
  rw [e1, e2, hsum]
  unfold Asl.sign
  split
  · have : ∑ i ∈ range A.numNonlin, mult i * -1 * A.hessCons i x d j = -∑ i ∈ range A.numNonlin, mult i * A.hessCons i x d j := by
      rw [← Finset.sum_neg_distrib]
      exact Finset.sum_congr rfl fun i _ => by ring
    rw [this]; ring
  · ring

/-- The objective returned is the one which is minimised, at the point set last.
Missing: points other than trial points at which the objective is asked for, then a product with the Hessian, then the objective again, see
`C85_obj_violated`. -/
theorem C85_obj_partial {s0 s : AmplFunc K} {t : Bool} {x : Nat → K} {ops : List (Op K)} (hacc : (s0.set A t x).2 = false)
    (hops : ∀ op ∈ ops, ¬ op.isSet) (hr : (s0.set A t x).1.run A ops = some s) (hno : t = true ∨ ¬ ObjBeforeHess ops) :
    (s.getObj A).2 = A.minObj x := by
  obtain ⟨h0, h1, h2⟩ := at_set hacc
  have h := at_run hops h0 hr
  have hform : A.minForm = fun v => A.sign * (v + A.offset) := by
    funext v
    unfold Asl.minForm Asl.sign
    split <;> ring
  unfold getObj Asl.minObj
  rw [hform]
  split
  · rename_i hc
    have : s.objVal = A.obj x := by
      cases t with
      | true => exact (stored_run hops h0 (h1 rfl).1 (h1 rfl).2 hr).2
      | false =>
        refine unstored_run hops h0 (h2 rfl).1 (h2 rfl).2 ?_ hr hc
        rcases hno with h3 | h3
        · cases h3
        · exact h3
    dsimp only
    rw [this]
  · dsimp only
    rw [h.point]

/-- The Jacobian of the nonlinear constraints has the entries computed by AMPL. -/
theorem C85_jacobian {numNonlin : Nat} {es : List (Nat × Nat × K)} {dest : Mat K} (hd : dest.numRows = numNonlin)
    (hc : ∀ e ∈ es, e.2.1 < dest.numCols) (hs : TripletsSorted es) :
    ∃ m, amplConsJac numNonlin es dest = some m ∧ m.WF ∧ m.numRows = numNonlin ∧ m.numCols = dest.numCols ∧ HasTriplets m 0 es := by
  obtain ⟨m, h1, h2, h3, h4, h5⟩ := fromTriplets_spec (keep := fun r => if r < numNonlin then some r else none)
    (m := dest.clear.reserve es.length) (es := es)
    (by
      intro r s r' s' h1 h2 h3
      split at h1
      · split at h2
        · obtain rfl := Option.some.inj h1
          obtain rfl := Option.some.inj h2
          exact h3
        · cases h2
      · cases h1)
    (by simp [Mat.clear, Mat.reserve]) rfl (le_max_right _ _)
    (by
      refine fun e he => ⟨hc e he, fun r hr => ?_⟩
      split at hr
      · obtain rfl := Option.some.inj hr
        show e.1 < dest.numRows
        rw [hd]; assumption
      · cases hr) hs
  have h3' : m.numRows = numNonlin := h3.trans hd
  have h4' : m.numCols = dest.numCols := h4
  refine ⟨m, h1, h2, h3', h4', fun i hi j hj => ?_⟩
  rw [h3'] at hi
  rw [h4'] at hj
  obtain ⟨h6, h7⟩ := h5 i j hj
  rw [Nat.zero_add]
  refine ⟨fun v hv => h6 i v hv (if_pos hi), fun hv => h7 fun r v hr hk => ?_⟩
  split at hk
  · obtain rfl := Option.some.inj hk
    exact hv v hr
  · cases hk

/-- The matrix of the linear constraints has the entries computed by AMPL. -/
theorem C85_linear_coeffs {numCons numNonlin numVars : Nat} {es : List (Nat × Nat × K)} (row : Nat → Nat) (val : Nat → K)
    (hc : ∀ e ∈ es, e.1 < numCons ∧ e.2.1 < numVars) (hs : TripletsSorted es) :
    ∃ m, amplLinearCoeffs numCons numNonlin numVars es row val = some m ∧ m.WF ∧ m.numRows = numCons - numNonlin ∧ m.numCols = numVars ∧
      HasTriplets m numNonlin es := by
  obtain ⟨m, h1, h2, h3, h4, h5⟩ := fromTriplets_spec (keep := fun r => if r < numNonlin then none else some (r - numNonlin))
    (m := Mat.create (numCons - numNonlin) numVars es.length row val) (es := es)
    (by
      intro r s r' s' h1 h2 h3
      split at h1
      · cases h1
      · split at h2
        · cases h2
        · obtain rfl := Option.some.inj h1
          obtain rfl := Option.some.inj h2
          omega)
    rfl rfl (le_refl _)
    (by
      refine fun e he => ⟨(hc e he).2, fun r hr => ?_⟩
      split at hr
      · cases hr
      · obtain rfl := Option.some.inj hr
        have := (hc e he).1
        show e.1 - numNonlin < numCons - numNonlin
        omega) hs
  have h3' : m.numRows = numCons - numNonlin := h3
  have h4' : m.numCols = numVars := h4
  refine ⟨m, h1, h2, h3', h4', fun i hi j hj => ?_⟩
  rw [h4'] at hj
  obtain ⟨h6, h7⟩ := h5 i j hj
  refine ⟨fun v hv => h6 _ v hv ?_, fun hv => h7 fun r v hr hk => ?_⟩
  · rw [if_neg (by omega)]
    congr 1
    omega
  · split at hk
    · cases hk
    · have := Option.some.inj hk
      exact hv v (by rw [show numNonlin + i = r by omega]; exact hr)

section
variable [IsStrictOrderedRing K]

/-- Constants in linear constraints are moved into the bounds: a point respects the new bounds exactly if it respects the constraint as
written.
Missing: infinite upper bounds if the constant exceeds `inf / 2`, see `C85_bounds_violated`, and finite bounds which are moved beyond
`inf / 2`. -/
theorem C85_bounds_partial {inf c lb ub : K} {n i : Nat} {a : Nat → Nat → K} {vals x0 : Nat → K}
    (hinf : 0 < inf) (hval : vals i = ∑ j ∈ range n, a i j * x0 j + c) (hc : c ≤ inf / 2)
    (hl : lb = -inf ∨ (-(inf / 2) < lb ∧ -(inf / 2) < lb - c)) (hu : ub = inf ∨ (-inf < ub ∧ ub < inf / 2 ∧ ub - c < inf / 2)) (x : Nat → K) :
    RespectsBounds inf (amplShiftBounds inf (amplLinearOffset a n vals x0 i) lb ub) (∑ j ∈ range n, a i j * x j) ↔
      RespectsBounds inf (lb, ub) (∑ j ∈ range n, a i j * x j + c) := by
  have hoff : amplLinearOffset a n vals x0 i = c := by
    have hsum : ∀ (n : Nat) (f : Nat → K), ((List.range n).map f).sum = ∑ i ∈ range n, f i := by
      intro n f
      induction n with
      | zero => rfl
      | succ n ih => rw [List.range_succ, List.map_append, List.sum_append, ih, Finset.sum_range_succ]; simp
    unfold amplLinearOffset
    rw [hval, hsum]
    ring
  rw [hoff]
  generalize ∑ j ∈ range n, a i j * x j = v
  unfold RespectsBounds amplShiftBounds
  dsimp only
  have h1 : ub ≠ -inf := by
    rcases hu with rfl | hu
    · intro h; linarith
    · exact ne_of_gt hu.1
  rw [if_pos h1]
  refine and_congr ?_ ?_
  · rcases hl with rfl | ⟨hl1, hl2⟩
    · rw [if_neg (not_not.mpr rfl)]
      constructor <;> · intro _ h; exfalso; linarith
    · rw [if_pos (by intro h; linarith)]
      exact ⟨fun h _ => by linarith [h hl2], fun h _ => by linarith [h hl1]⟩
  · rcases hu with rfl | ⟨-, hu2, hu3⟩
    · constructor <;> · intro _ h; exfalso; linarith
    · exact ⟨fun h _ => by linarith [h hu3], fun h _ => by linarith [h hu2]⟩

end

/-- Duals reported to AMPL fit the objective as written by the user, whether it is minimised or maximised. -/
theorem C85_duals {n m : Nat} {g : Nat → K} {J : Nat → Nat → K} {y z : Nat → K} (h : StationaryMin n m (fun j => A.sign * g j) J y z) :
    StationaryAmpl n m g J (fun i => amplDual A.maximize (y i)) fun j => amplDual A.maximize (z j) := by
  intro j hj
  have h1 := h j hj
  unfold Asl.sign at h1
  unfold amplDual
  dsimp only at h1 ⊢
  split
  · rename_i hm
    simp only [hm, if_true] at h1
    linear_combination (-1) * h1
  · rename_i hm
    simp only [hm, if_false, Bool.false_eq_true] at h1
    have : ∑ i ∈ range m, y i * -1 * J i j = -∑ i ∈ range m, y i * J i j := by
      rw [← Finset.sum_neg_distrib]
      exact Finset.sum_congr rfl fun i _ => by ring
    rw [this]
    linear_combination h1

/-- The objective printed at the end is the one of the user, if it is minimised.
Missing: maximisation, see `C85_message_violated`. -/
theorem C85_message_partial (h : A.maximize = false) {x : Nat → K} {v w : K} (hv : A.obj x = .val v) (hw : A.minObj x = .val w) :
    amplReportedObj w = v + A.offset := by
  unfold Asl.minObj AslEval.map Asl.sign at hw
  rw [hv] at hw
  simp only [h, Bool.false_eq_true, if_false, one_mul, AslEval.val.injEq] at hw
  exact hw.symm

/-- The result code is in the range AMPL reserves for: solved (below 100), infeasible (200 to 299), unbounded (300 to 399), stopped by a limit
(400 to 499), exactly if the solver ended so. -/
theorem C85_result (st : SStatus) :
    (amplResult st < 100 ↔ st = .optimal) ∧ ((200 ≤ amplResult st ∧ amplResult st < 300) ↔ st = .infeasible) ∧
      ((300 ≤ amplResult st ∧ amplResult st < 400) ↔ st = .unbounded) ∧
      ((400 ≤ amplResult st ∧ amplResult st < 500) ↔ st = .abortIter ∨ st = .abortTime) := by
  cases st <;> decide

/-- The states reported for variables and constraints, as numbered by AMPL: 3 at the lower bound, 4 at the upper bound, 5 equal (both), 6 between
the bounds. -/
theorem C85_states (st : ActiveState) :
    (amplState st = 3 ↔ st = .lower) ∧ (amplState st = 4 ↔ st = .upper) ∧ (amplState st = 5 ↔ st = .both) ∧ (amplState st = 6 ↔ st = .inactive) := by
  cases st <;> decide

/-! ### Violations -/

/-- a maximisation problem in one variable without constraints: `x²` -/
def exAsl : Asl ℚ :=
  ⟨1, 0, 0, true, 0, fun x => .val (x 0 * x 0), fun _ => .val fun _ => 0, fun x _ => 2 * x 0, fun _ d _ => 2 * d 0, fun _ _ _ _ => 0⟩

/-- The AMPL function does not store the objective when it is computed outside of trial points, but marks it as computed. If it is asked for,
then a product with the Hessian, and then the objective once more, the value stored for an earlier point is returned. Here: the objective at 3
is 0, the value the storage was initialised with. -/
theorem C85_obj_violated : ¬ ∀ (A : Asl ℚ) (s0 s : AmplFunc ℚ) (x : Nat → ℚ) (ops : List (Op ℚ)),
    (∀ op ∈ ops, ¬ op.isSet) → (s0.set A false x).1.run A ops = some s → (s.getObj A).2 = A.minObj x := by
  intro h
  have h1 := h exAsl (AmplFunc.create fun _ => 0) _ (fun _ => 3) [.obj, .hess (fun _ => 1) fun _ => 0]
    (by simp [Op.isSet]) rfl
  have h2 : (AslEval.val (-0) : AslEval ℚ) = .val (-9) := by
    refine Eq.trans ?_ (h1.trans ?_)
    · show _ = AslEval.val _
      congr 1
      decide +kernel
    · show AslEval.val _ = _
      congr 1
      decide +kernel
  injection h2 with h2
  exact absurd h2 (by decide +kernel)

/-- For a maximisation problem, the message printed at the end shows the negative of the objective. -/
theorem C85_message_violated : ¬ ∀ (A : Asl ℚ) (x : Nat → ℚ) (v w : ℚ), A.obj x = .val v → A.minObj x = .val w →
    amplReportedObj w = v + A.offset := by
  intro h
  exact absurd (h exAsl (fun _ => 3) 9 (-9) (by show AslEval.val _ = _; congr 1; decide +kernel)
    (by show AslEval.val _ = _; congr 1; decide +kernel)) (by decide +kernel)

/-- An infinite upper bound of a linear constraint is shifted by the constant of the constraint, because it is compared to minus infinity. If the
constant exceeds half of the value standing for infinity, a finite bound results. -/
theorem C85_bounds_violated : ¬ ∀ (inf c lb ub v : ℚ), 0 < inf → lb = -inf → ub = inf → |c| < inf →
    (RespectsBounds inf (amplShiftBounds inf c lb ub) v ↔ RespectsBounds inf (lb, ub) (v + c)) := by
  intro h
  have h1 := (h 100 80 (-100) 100 30 (by decide +kernel) (by decide +kernel) rfl (by decide +kernel)).mpr
    ⟨fun h => absurd h (by decide +kernel), fun h => absurd h (by decide +kernel)⟩
  exact absurd (h1.2 (by decide +kernel)) (by decide +kernel)

/-! ### The hypotheses are met -/

/-- trial point 3 of the maximisation problem: objective, Hessian, objective -/
example : ∃ s, ((AmplFunc.create fun _ => 0 : AmplFunc ℚ).set exAsl true fun _ => 3).2 = false ∧
    ((AmplFunc.create fun _ => 0 : AmplFunc ℚ).set exAsl true fun _ => 3).1.run exAsl [.obj, .hess (fun _ => 1) fun _ => 0, .obj] = some s ∧
    (s.getObj exAsl).2 = .val (-9) ∧ (s.getGrad exAsl).2 0 = -6 := by
  refine ⟨_, rfl, rfl, ?_, ?_⟩
  · show AslEval.val _ = _
    congr 1
    decide +kernel
  · decide +kernel

/-- a Jacobian with rows 0 (nonlinear) and 1 (linear), and columns 0, 1, 2 of which 1 is empty -/
def exTriplets : List (Nat × Nat × ℚ) := [(0, 0, 5), (1, 0, 6), (1, 2, 7)]

example : TripletsSorted exTriplets ∧ (∀ e ∈ exTriplets, e.1 < 2 ∧ e.2.1 < 3) := by
  refine ⟨?_, ?_⟩
  · unfold TripletsSorted exTriplets
    decide
  · unfold exTriplets
    decide

example : (amplConsJac 1 exTriplets (Mat.create 1 3 0 (fun _ => 0) fun _ => 0)).map (fun m => (m.value 0 0, m.value 0 1, m.value 0 2, m.nnz)) =
    some (5, 0, 0, 1) := by decide +kernel

example : (amplLinearCoeffs 2 1 3 exTriplets (fun _ => 0) fun _ => 0).map (fun m => (m.value 0 0, m.value 0 1, m.value 0 2, m.nnz)) =
    some (6, 0, 7, 2) := by decide +kernel

/-- `2 ≤ x + 1` becomes `1 ≤ x`, without upper bound -/
example : amplShiftBounds (100 : ℚ) (amplLinearOffset (fun _ _ => 1) 1 (fun _ => 4) (fun _ => 3) 0) 2 100 = (1, 99) := by decide +kernel

/-- maximise `x` for `x ≤ 1`: the multiplier of the solver is 1, and so is the one reported -/
example : StationaryMin 1 1 (fun j => exAsl.sign * (fun _ => (1 : ℚ)) j) (fun _ _ => 1) (fun _ => 1) (fun _ => 0) ∧ amplDual true (1 : ℚ) = 1 ∧
    amplDual false (1 : ℚ) = -1 := by
  refine ⟨fun j _ => ?_, by decide +kernel, by decide +kernel⟩
  rw [Finset.sum_range_one]
  show exAsl.sign * 1 + 1 * 1 + 0 = 0
  decide +kernel

end Sleqp
