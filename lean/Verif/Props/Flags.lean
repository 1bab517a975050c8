import Verif.Model.Flags

/-! C49: function flags of wrapped functions. -/

namespace Sleqp
open FuncFlags

/-- the wrappers applied by the solver in front of the Hessian approximation: scaling, fixing variables -/
inductive Wrap | scale | fix

/-- flags after a chain of wrappers -/
def wrapped (ty : FuncType) : FuncFlags → List Wrap → FuncFlags
  | f, [] => f
  | f, .scale :: w => wrapped ty (scaledFlags f ty) w
  | f, .fix :: w => wrapped ty (fixedFlags f ty) w

/-- C49: every function a user can create keeps its Hessian flags through every chain of scaling and
fixing variables: neither inexact nor declared positive semidefinite for regular and dynamic functions, both for
least-squares functions. Flags cannot be set through the public API, so these are all. -/
theorem C49_user_partial (ty : FuncType) (ws : List Wrap) :
    (wrapped ty (createdFlags ty) ws).inexact = (createdFlags ty).inexact ∧
    (wrapped ty (createdFlags ty) ws).psd = (createdFlags ty).psd := by
  have key : ∀ (ws : List Wrap) (f : FuncFlags), f.inexact = (createdFlags ty).inexact → f.psd = (createdFlags ty).psd →
      (wrapped ty f ws).inexact = (createdFlags ty).inexact ∧ (wrapped ty f ws).psd = (createdFlags ty).psd := by
    intro ws
    induction ws with
    | nil => exact fun f h1 h2 => ⟨h1, h2⟩
    | cons w ws ih =>
      rintro ⟨a, b, c, d⟩ h1 h2
      simp only at h1 h2
      subst h1 h2
      cases w <;> cases ty <;> cases c <;> cases d <;> exact ih _ rfl rfl
  exact key ws _ rfl rfl

/-- C49: for regular functions the flags are carried over exactly iff the function has both or neither. -/
theorem C49_regular_partial (f : FuncFlags) :
    ((scaledFlags f .regular).inexact = f.inexact ∧ (scaledFlags f .regular).psd = f.psd ↔ f.inexact = f.psd) ∧
    ((fixedFlags f .regular).inexact = f.inexact ∧ (fixedFlags f .regular).psd = f.psd ↔ f.inexact = f.psd) := by
  obtain ⟨a, b, c, d⟩ := f
  cases a <;> cases b <;> cases c <;> cases d <;> decide

/-- C49: wrapping an SR1 function (inexact, not positive semidefinite) declares its Hessian positive semidefinite, whereupon the
automatic choice of the subproblem solver is conjugate gradients instead of trlib. -/
theorem C49_regular_violated :
    (quasiNewtonFlags false).psd = false ∧ (scaledFlags (quasiNewtonFlags false) .regular).psd = true ∧
    autoUsesCg (quasiNewtonFlags false) = false ∧ autoUsesCg (scaledFlags (quasiNewtonFlags false) .regular) = true := by decide

/-- C49: scaling a dynamic function drops both flags, fixing variables of one drops the inexact flag. -/
theorem C49_dynamic_violated (f : FuncFlags) :
    (scaledFlags f .dynamic).inexact = false ∧ (scaledFlags f .dynamic).psd = false ∧
    (fixedFlags f .dynamic).inexact = false ∧ (fixedFlags f .dynamic).psd = f.psd := by
  obtain ⟨a, b, c, d⟩ := f
  cases a <;> cases b <;> cases c <;> cases d <;> decide

/-- C49: testing for several flags succeeds if any one of them is present; setting and removing act on exactly the
named flags. -/
theorem C49_operations (f g : FuncFlags) :
    (f.has g = true ↔ (f.inexact ∧ g.inexact) ∨ (f.psd ∧ g.psd) ∨ (f.internal ∧ g.internal) ∨ (f.hessInternal ∧ g.hessInternal)) ∧
    ((f.add g).psd ↔ f.psd ∨ g.psd) ∧ ((f.remove g).psd ↔ f.psd ∧ ¬ g.psd) ∧
    ((f.add g).inexact ↔ f.inexact ∨ g.inexact) ∧ ((f.remove g).inexact ↔ f.inexact ∧ ¬ g.inexact) := by
  obtain ⟨a, b, c, d⟩ := f
  obtain ⟨a', b', c', d'⟩ := g
  refine ⟨?_, ?_, ?_, ?_, ?_⟩ <;> simp [has, add, remove, or_assoc]

/-- non-vacuity: a least-squares function, scaled and with fixed variables -/
example : (wrapped .lsq (createdFlags .lsq) [.scale, .fix]).psd = true := by decide

end Sleqp
