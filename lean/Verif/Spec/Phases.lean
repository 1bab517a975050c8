import Verif.Model.Phases
import Verif.Spec.EvalProtocol
import Verif.Spec.Vec
import Verif.Spec.Mat

/-! Specification for C98: what holds whenever a phase was left. -/

namespace Sleqp

variable {P Q : Type*}

/-- In the optimization phase: the user's function is at the current iterate, all parts of which were evaluated there. In the restoration phase: it is at
the variables of the current iterate of the restoration problem. -/
def PhaseState.Consistent (proj : Q → P) (s : PhaseState P Q) : Prop :=
  if s.inRest then s.opt.func = some (proj s.rest.iterate.x) ∧ lastSet s.opt.log = some (proj s.rest.iterate.x, false)
  else s.opt.Synced

/-- Operations with harmless second-order corrections (see `SocHarmless`), and entering the restoration phase at a lifted point whose variables
are the current iterate. -/
def PhaseState.OpOk (pr : EvalParams) (proj : Q → P) (s : PhaseState P Q) : Op P Q → Prop
  | .optimize e => (pr.hasCons && pr.performSoc) = true → pr.dynamic = false ∧ e.trialRejects = false
  | .enter z => proj z = s.opt.iterate.x
  | _ => True

/-- `s'` is reached from `s` by such operations, none of which fails. -/
inductive PhaseState.Reach (pr : EvalParams) (proj : Q → P) (s : PhaseState P Q) : PhaseState P Q → Prop
  | refl : Reach pr proj s s
  | step {t t' : PhaseState P Q} (o : Op P Q) : Reach pr proj s t → t.OpOk pr proj o → t.step pr proj o = some t' →
      Reach pr proj s t'

end Sleqp
