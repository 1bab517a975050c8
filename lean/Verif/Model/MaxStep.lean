import Verif.Model.Feas
import Verif.Model.StepRule

/-! Model of `sleqp_max_step_length` in `/repo/src/main/util.c`. -/

namespace Sleqp
variable {K : Type*} [Field K] [LinearOrder K]

/-- loop body for the upper bounds, util.c:150-190, at values `x`, `d`, `u` -/
def limitUpper (step x d u : K) : K :=
  if (0 < d ∧ 0 < u - x) ∨ (d < 0 ∧ u - x < 0) then min step ((u - x) / d) else step

/-- loop body for the lower bounds, util.c:198-238, at values `x`, `d`, `l` -/
def limitLower (step x d l : K) : K :=
  if (d < 0 ∧ l - x < 0) ∨ (0 < d ∧ 0 < l - x) then min step ((l - x) / d) else step

/-- `sleqp_max_step_length`, util.c:126-242; failing asserts are `none`. -/
def maxStepLength (x d l u : Vec K) (init : K) : Option K :=
  if l.dim = x.dim ∧ u.dim = x.dim ∧ d.dim = x.dim ∧ 0 < init then
    let s := (merge3 x.ents d.ents u.ents).foldl (fun s t => limitUpper s (val3 t).1 (val3 t).2.1 (val3 t).2.2) init
    let s := (merge3 x.ents d.ents l.ents).foldl (fun s t => limitLower s (val3 t).1 (val3 t).2.1 (val3 t).2.2) s
    if 0 ≤ s then some s else none
  else none

end Sleqp
