import Mathlib.Algebra.Order.Field.Rat
import Verif.Model.StepRule

/-!
Step rules across a change of the penalty parameter.
-/

namespace Sleqp

/-- The step rules are not reset when the penalty parameter changes, so the merit values they remember belong to different
penalties. With the window rule a step from merit value 1 to 0 is accepted first; when the next iteration starts after an increase of the
penalty with merit value 5 at the same (infeasible) point, a trial of value 4 is accepted, above the merit value of the first iterate
(step/step_rule_window.c:152-198; `sleqp_step_rule_reset` is never called). -/
theorem C18_penalty_violated : ∃ f0 t1 f2 t2 m2 : ℚ, t1 < f0 ∧ t1 < f2 ∧ m2 < f2 ∧ f0 < t2 ∧
    ((windowApply (10 ^ 20) (1 / 10) (Ring.create 2 fun _ => (0, 0)) f0 t1 t1).bind fun r =>
      (windowApply (10 ^ 20) (1 / 10) r.2.2 f2 t2 m2).map fun r' => (r.1, r'.1)) = some (true, true) :=
  ⟨1, 0, 5, 4, 4, by decide +kernel, by decide +kernel, by decide +kernel, by decide +kernel, by decide +kernel⟩

end Sleqp
