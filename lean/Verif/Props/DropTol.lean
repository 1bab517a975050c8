import Mathlib.Algebra.Order.Field.Rat
import Mathlib.Tactic.Ring
import Mathlib.Tactic.FieldSimp
import Verif.Model.StepRule
import Verif.Model.Restoration
import Verif.Model.Bfgs
import Verif.Model.Sr1
import Verif.Model.Newton

/-!
The drop tolerance `zero_eps` (default `1e-20`, settings.c:21) removes small entries from sums of sparse vectors
(sparse/vec.c, `sleqp_vec_add_scaled`). Several properties stated for exact sums hold for `zero_eps = 0` only. The witnesses
below use the default value.
-/

namespace Sleqp

/-- `ZERO_EPS_DEFAULT`, settings.c:21 -/
def zeroEpsDefault : ℚ := 1 / 10 ^ 20

/-- an iterate with constraint value `1e-20` -/
def exDropIter : Iterate ℚ :=
  ⟨⟨1, 0, []⟩, 0, ⟨1, 0, []⟩, ⟨1, 1, [(0, zeroEpsDefault)]⟩, ⟨1, 1, 0, 0, fun _ => 0, fun _ => 0, fun _ => 0⟩, ⟨1, 0, []⟩, ⟨1, 0, []⟩⟩

/-- a constraint with both bounds zero, one variable in `[-1, 1]` -/
def exDropBounds : Bounds ℚ := ⟨⟨1, 1, [(0, -1)]⟩, ⟨1, 1, [(0, 1)]⟩, ⟨1, 0, []⟩, ⟨1, 0, []⟩⟩

/-- With the default drop tolerance the linear and the quadratic model of the merit function differ from the merit function at the
zero step: a constraint value of `1e-20` counts as a violation in the merit function, while the models drop it when the slope is
added (merit.c:80-111). -/
theorem C16_drop_violated : ∃ (p : Bounds ℚ) (it : Iterate ℚ) (d : Direction ℚ) (v l q : ℚ),
    (∀ i, d.primal.value i = 0) ∧ d.objGrad = 0 ∧ (∀ i, d.consJac.value i = 0) ∧ meritFunc 1 p it 1 = some v ∧
    meritLinear 1 p it d 1 zeroEpsDefault (Vec.create 1 0) = some l ∧
    meritQuadratic 1 p it d 1 zeroEpsDefault (Vec.create 1 0) = some q ∧ l < v ∧ q < v :=
  ⟨exDropBounds, exDropIter, ⟨⟨1, 0, []⟩, 0, ⟨1, 0, []⟩, ⟨1, 0, []⟩⟩, zeroEpsDefault, 0, 0, fun _ => rfl, rfl, fun _ => rfl,
    by decide +kernel, by decide +kernel, by decide +kernel, by decide +kernel, by decide +kernel⟩

/-- one variable `x`, one constraint `c(x) = x` -/
def exDropRest : RestProblem ℚ := ⟨1, 1, fun x => x, fun _ => ⟨1, 1, 1, 1, fun j => j, fun _ => 0, fun _ => 1⟩⟩

/-- the restoration function before its first use -/
def exDropRestState : RestState ℚ :=
  ⟨⟨1, 0, []⟩, ⟨1, 0, []⟩, ⟨1, 0, []⟩, ⟨1, 1, 0, 0, fun _ => 0, fun _ => 0, fun _ => 0⟩, false, false, ⟨1, 0, []⟩⟩

/-- With the default drop tolerance the restoration objective can be zero although the point is infeasible: for the constraint
`x = 0` at `(x, s) = (1e-20, 0)`, which satisfies the lifted bounds, the residual `c(x) - s` is dropped (restoration.c:148-166). -/
theorem C25_drop_violated : ∃ (pr : RestProblem ℚ) (st : RestState ℚ) (z : Vec ℚ), z.value 0 ≠ 0 ∧ z.value 1 = 0 ∧
    (∀ x, pr.consVal x = x) ∧
    ((Lsq.create (restUser pr zeroEpsDefault) st 0 zeroEpsDefault).bind fun f => ((f.point.set pr z).map f.setValue).bind fun f =>
      (Lsq.objVal (restUser pr zeroEpsDefault) f).map Prod.fst) = some 0 :=
  ⟨exDropRest, exDropRestState, ⟨2, 1, [(0, zeroEpsDefault)]⟩, by decide +kernel, by decide +kernel, fun _ => rfl, by decide +kernel⟩

/-- With the default drop tolerance the damped BFGS model is neither linear nor positive definite: after the pair `s = y = 1`, for which
the matrix is the identity, the product with the direction `1e-20` is zero, while the product with `2e-20` is `2e-20`
(quasi_newton/bfgs.c:291-346). -/
theorem C26_drop_violated : ∃ s y d d2 : Vec ℚ, d.value 0 ≠ 0 ∧ d2.value 0 = 2 * d.value 0 ∧
    ((BfgsBlock.create 1 5 true false (0 : ℚ)).bind fun b => (b.push zeroEpsDefault s y).bind fun b =>
      (b.prod zeroEpsDefault d).bind fun r => (r.dot d).map fun x => (r.value 0, x)) = some (0, 0) ∧
    ((BfgsBlock.create 1 5 true false (0 : ℚ)).bind fun b => (b.push zeroEpsDefault s y).bind fun b =>
      (b.prod zeroEpsDefault d2).map fun r => r.value 0) = some (d2.value 0) :=
  ⟨⟨1, 1, [(0, 1)]⟩, ⟨1, 1, [(0, 1)]⟩, ⟨1, 1, [(0, zeroEpsDefault)]⟩, ⟨1, 1, [(0, 2 * zeroEpsDefault)]⟩,
    by decide +kernel, by decide +kernel, by decide +kernel, by decide +kernel⟩

/-- With the default drop tolerance the SR1 model is not linear: after the pair `s = 1`, `y = -1`, for which the matrix is `-1`, the
product with the direction `1e-20` is zero, while the product with `2e-20` is `-2e-20` (quasi_newton/sr1.c:482-533). -/
theorem C27_drop_violated : ∃ s y d d2 : Vec ℚ, d.value 0 ≠ 0 ∧ d2.value 0 = 2 * d.value 0 ∧
    ((Sr1Block.create 1 5 (0 : ℚ)).bind fun b => (b.push (fun v => |v.value 0|) zeroEpsDefault s y).bind fun b =>
      (b.hessProd zeroEpsDefault d).map fun r => r.value 0) = some 0 ∧
    ((Sr1Block.create 1 5 (0 : ℚ)).bind fun b => (b.push (fun v => |v.value 0|) zeroEpsDefault s y).bind fun b =>
      (b.hessProd zeroEpsDefault d2).map fun r => r.value 0) = some (-d2.value 0) :=
  ⟨⟨1, 1, [(0, 1)]⟩, ⟨1, 1, [(0, -1)]⟩, ⟨1, 1, [(0, zeroEpsDefault)]⟩, ⟨1, 1, [(0, 2 * zeroEpsDefault)]⟩,
    by decide +kernel, by decide +kernel, by decide +kernel, by decide +kernel⟩

/-- the projection onto the vectors orthogonal to `(-1e-20, 1)` -/
def exDropProj (d : Vec ℚ) : Vec ℚ :=
  let t := (d.value 0 + zeroEpsDefault * d.value 1) / (1 + zeroEpsDefault ^ 2)
  ⟨2, 2, [(0, t), (1, zeroEpsDefault * t)]⟩

/-- identity as Hessian; no square root is taken -/
def exDropTr : TrEnv ℚ :=
  ⟨fun d _ => some d, fun d _ => some (exDropProj d), fun _ => 0, zeroEpsDefault, 1 / 10 ^ 8, -1, fun _ => false, Vec.create 2 2⟩

/-- `exDropProj` is the orthogonal projection onto the multiples of `(1, 1e-20)`. -/
theorem exDropProj_spec (d : Vec ℚ) :
    (-zeroEpsDefault) * (exDropProj d).value 0 + (exDropProj d).value 1 = 0 ∧
      (d.value 0 - (exDropProj d).value 0) + zeroEpsDefault * (d.value 1 - (exDropProj d).value 1) = 0 := by
  have e0 : (exDropProj d).value 0 = (d.value 0 + zeroEpsDefault * d.value 1) / (1 + zeroEpsDefault ^ 2) := rfl
  have e1 : (exDropProj d).value 1 = zeroEpsDefault * ((d.value 0 + zeroEpsDefault * d.value 1) / (1 + zeroEpsDefault ^ 2)) := rfl
  have h : (1 + zeroEpsDefault ^ 2) ≠ 0 := by decide +kernel
  rw [e0, e1]
  constructor
  · ring
  · field_simp
    ring

/-- With the default drop tolerance the step of the trust-region solver can leave the null space: with the identity as Hessian, the
active gradient `(-1e-20, 1)` and the objective gradient `-(1, 1e-20)`, the minimiser `(1, 1e-20)` loses its small entry when the
step is summed up (tr/steihaug_solver.c:403-477). -/
theorem C48_drop_violated : ∃ (e : TrEnv ℚ) (grad : Vec ℚ), e.zeroEps = zeroEpsDefault ∧ (∀ d r, e.hp d r = some d) ∧
    (∀ d r, e.proj d r = some (exDropProj d)) ∧
    ∃ x, x ≠ 0 ∧ ((steihaug e 3 grad (Vec.create 2 2) 10).map fun r => (-zeroEpsDefault) * r.step.value 0 + r.step.value 1) = some x :=
  ⟨exDropTr, ⟨2, 2, [(0, -1), (1, -zeroEpsDefault)]⟩, rfl, fun _ _ => rfl, fun _ _ => rfl, -zeroEpsDefault, by decide +kernel,
    by decide +kernel⟩

/-- the Jacobian `(-1e-20 1)` -/
def exDropJac : Mat ℚ := ⟨1, 2, 2, 2, fun j => j, fun _ => 0, fun k => if k = 0 then -zeroEpsDefault else 1⟩

/-- the iterate zero with objective gradient `-(1, 1e-20)` and constraint value zero -/
def exDropNewton : Iterate ℚ :=
  ⟨⟨2, 0, []⟩, 0, ⟨2, 2, [(0, -1), (1, -zeroEpsDefault)]⟩, ⟨1, 0, []⟩, exDropJac, ⟨1, 0, []⟩, ⟨2, 0, []⟩⟩

/-- previous contents of the working step -/
def exDropOld : WorkStep ℚ :=
  ⟨⟨0, 0, []⟩, ⟨0, 0, []⟩, ⟨⟨2, 0, []⟩, 0, false⟩, 0, ⟨1, 0, []⟩, ⟨1, 0, []⟩, ⟨1, 0, []⟩⟩

/-- With the default drop tolerance the step of the equality-constrained problem can move an active constraint: at the point zero with
the active constraint `-1e-20 x + y = 0`, where the first step is zero, the direction returned has the second entry zero but not the first, so its
linearised constraint value is not zero (newton.c:442-594). -/
theorem C70_drop_violated : ∃ (e : TrEnv ℚ) (it : Iterate ℚ) (p : Bounds ℚ), e.zeroEps = zeroEpsDefault ∧
    (∀ d r, e.hp d r = some d) ∧ (∀ d r, e.proj d r = some (exDropProj d)) ∧ it.consJac = exDropJac ∧
    exDropJac.value 0 0 = -zeroEpsDefault ∧ exDropJac.value 0 1 = 1 ∧
    ∃ x, x ≠ 0 ∧ (((WSet.create 2 1 fun _ => 0).addCons 0 .both).bind fun w =>
      (workStep (fun _ => some ⟨2, 0, []⟩) (fun x => x) (1 / 10 ^ 10) zeroEpsDefault 10 w p it (Vec.create 1 0) exDropOld).bind fun s =>
        (newtonDirection e 3 1 1 it.objGrad it.consJac s (Vec.create 2 2) (Vec.create 2 2) (Dir.create 2 1)).map fun D =>
          (s.rhs.value 0, s.init.step.value 0, s.init.step.value 1, exDropJac.value 0 0 * D.primal.value 0 + exDropJac.value 0 1 * D.primal.value 1)) =
      some (0, 0, 0, x) :=
  ⟨exDropTr, exDropNewton, ⟨⟨2, 2, [(0, -10), (1, -10)]⟩, ⟨2, 2, [(0, 10), (1, 10)]⟩, ⟨1, 0, []⟩, ⟨1, 0, []⟩⟩, rfl, fun _ _ => rfl,
    fun _ _ => rfl, rfl, by decide +kernel, by decide +kernel, -zeroEpsDefault / (1 + zeroEpsDefault ^ 2), by decide +kernel, by decide +kernel⟩

end Sleqp
