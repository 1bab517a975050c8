import Verif.Model.Feas
import Verif.Model.Mat

/-! Model of `/repo/src/main/direction.c` and `/repo/src/main/merit.c`. -/

namespace Sleqp
variable {K : Type*} [Field K] [LinearOrder K]

/-- `struct SleqpDirection`, direction.c:12-19 -/
structure Dir (K : Type*) where
  primal : Vec K
  objGrad : K
  consJac : Vec K
  hess : Vec K

namespace Dir

/-- `sleqp_direction_create`, direction.c:21-42. -/
def create (n m : Nat) : Dir K := ⟨Vec.create n 0, 0, Vec.create m 0, Vec.create n 0⟩

/-- `sleqp_direction_reset`, direction.c:44-82. `hp direction product` is `sleqp_problem_hess_prod` with fixed multipliers. -/
def reset (d : Dir K) (numCons : Nat) (grad : Vec K) (jac : Mat K) (hp : Vec K → Vec K → Option (Vec K)) (zeroEps : K) :
    Option (Dir K) :=
  (d.primal.dot grad).bind fun og =>
    (if 0 < numCons then
      (jac.multVec d.primal).bind fun res => d.consJac.setFromRaw zeroEps ((List.range numCons).map res)
     else some d.consJac.clear).bind fun cj =>
      (hp d.primal d.hess).bind fun h => some ⟨d.primal, og, cj, h⟩

/-- `sleqp_direction_scale`, direction.c:171-181. -/
def scale (d : Dir K) (f : K) : Dir K := ⟨d.primal.scale f, d.objGrad * f, d.consJac.scale f, d.hess.scale f⟩

/-- `sleqp_direction_set_zero`, direction.c:183-193. -/
def setZero (d : Dir K) : Dir K := ⟨d.primal.clear, 0, d.consJac.clear, d.hess.clear⟩

/-- `sleqp_direction_add_scaled`, direction.c:195-229. -/
def addScaled (first second : Dir K) (f g eps : K) (result : Dir K) : Option (Dir K) :=
  (first.primal.addScaled second.primal f g eps result.primal).bind fun p =>
    (first.consJac.addScaled second.consJac f g eps result.consJac).bind fun c =>
      (first.hess.addScaled second.hess f g eps result.hess).bind fun h =>
        some ⟨p, f * first.objGrad + g * second.objGrad, c, h⟩

/-- `sleqp_direction_copy`, direction.c:231-243. -/
def copy (source target : Dir K) : Option (Dir K) :=
  (source.primal.copy target.primal).bind fun p =>
    (source.consJac.copy target.consJac).bind fun c =>
      (source.hess.copy target.hess).bind fun h => some ⟨p, source.objGrad, c, h⟩

end Dir

/-- the parts of problem and iterate used by the merit functions and line searches -/
structure MeritEnv (K : Type*) where
  numCons : Nat
  objVal : K
  cons : Vec K
  consLb : Vec K
  consUb : Vec K
  /-- `merit->combined_cons_val` or `linesearch->combined_cons_val`, only its storage matters -/
  work : Vec K
  zeroEps : K
  penalty : K

/-- `sleqp_merit_func`, merit.c:59-78. -/
def MeritEnv.func (e : MeritEnv K) : Option K :=
  (totalViolation e.numCons e.cons e.consLb e.consUb).bind fun v => some (e.objVal + e.penalty * v)

/-- `sleqp_merit_linear`, merit.c:80-111. -/
def MeritEnv.linear (e : MeritEnv K) (d : Dir K) : Option K :=
  (d.consJac.addScaled e.cons 1 1 e.zeroEps e.work).bind fun c =>
    (totalViolation e.numCons c e.consLb e.consUb).bind fun v => some (e.objVal + d.objGrad + e.penalty * v)

/-- `sleqp_merit_quadratic`, merit.c:113-137. -/
def MeritEnv.quadratic (e : MeritEnv K) (d : Dir K) : Option K :=
  (e.linear d).bind fun l => (d.primal.dot d.hess).bind fun b => some (l + 1 / 2 * b)

end Sleqp
