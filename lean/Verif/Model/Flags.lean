import Mathlib.Data.Nat.Basic

/-!
Model of the function flags of `/repo/src/main/func.c` and of their use by the wrappers in
`/repo/src/main/problem_scaling.c`, `/repo/src/main/preprocessor/fixed_var_func.c`, `/repo/src/main/lsq.c`,
`/repo/src/main/dyn.c` and `/repo/src/main/quasi_newton`.
-/

namespace Sleqp

/-- a set of `SLEQP_FUNC_FLAGS`, func.h:15-21 (one field per bit) -/
structure FuncFlags where
  inexact : Bool
  psd : Bool
  internal : Bool
  hessInternal : Bool
deriving DecidableEq, Repr

namespace FuncFlags

/-- a new function, `sleqp_func_create`, func.c:39-77 -/
def none : FuncFlags := ⟨false, false, false, false⟩

/-- `sleqp_func_flags_add`, func.c:279-285. -/
def add (f g : FuncFlags) : FuncFlags :=
  ⟨f.inexact || g.inexact, f.psd || g.psd, f.internal || g.internal, f.hessInternal || g.hessInternal⟩

/-- `sleqp_func_flags_remove`, func.c:287-293. -/
def remove (f g : FuncFlags) : FuncFlags :=
  ⟨f.inexact && !g.inexact, f.psd && !g.psd, f.internal && !g.internal, f.hessInternal && !g.hessInternal⟩

/-- `sleqp_func_has_flags`, func.c:295-299: `!!(func->flags & flags)`. -/
def has (f g : FuncFlags) : Bool :=
  (f.inexact && g.inexact) || (f.psd && g.psd) || (f.internal && g.internal) || (f.hessInternal && g.hessInternal)

/-- `sleqp_func_flags_set`, func.c:266-277. -/
def set (f g : FuncFlags) (value : Bool) : FuncFlags := if value then f.add g else f.remove g

/-- `sleqp_func_flags_copy`, func.c:301-309. -/
def copy (source target flags : FuncFlags) : FuncFlags := target.set flags (source.has flags)

def INEXACT : FuncFlags := ⟨true, false, false, false⟩
def PSD : FuncFlags := ⟨false, true, false, false⟩
def INTERNAL : FuncFlags := ⟨false, false, true, false⟩
def HESS_INTERNAL : FuncFlags := ⟨false, false, false, true⟩

end FuncFlags

open FuncFlags

/-- kinds of functions, `SLEQP_FUNC_TYPE` -/
inductive FuncType | regular | lsq | dynamic
deriving DecidableEq, Repr

/-- flags of a function created by `sleqp_func_create`, `sleqp_lsq_func_create` (lsq.c:292-371) or `sleqp_dyn_func_create`
(dyn.c:232-290) -/
def createdFlags : FuncType → FuncFlags
  | .regular => none
  | .lsq => none.add ((PSD.add INEXACT).add HESS_INTERNAL)
  | .dynamic => none

/-- flags of the scaled function: `func_create`, `lsq_func_create`, `dyn_func_create`, problem_scaling.c:415-445. -/
def scaledFlags (f : FuncFlags) : FuncType → FuncFlags
  | .regular => (copy f (createdFlags .regular) (INEXACT.add PSD)).add INTERNAL
  | .lsq => (createdFlags .lsq).add INTERNAL
  | .dynamic => (createdFlags .dynamic).add INTERNAL

/-- flags of the function with fixed variables: `sleqp_fixed_var_func_create`, `sleqp_fixed_var_lsq_func_create`,
`sleqp_fixed_var_dyn_func_create`, preprocessor/fixed_var_func.c:553-607. -/
def fixedFlags (f : FuncFlags) : FuncType → FuncFlags
  | .regular => (copy f (createdFlags .regular) (INEXACT.add PSD)).add INTERNAL
  | .lsq => (createdFlags .lsq).add INTERNAL
  | .dynamic => (copy f (createdFlags .dynamic) PSD).add INTERNAL

/-- flags of the quasi-Newton function: `sleqp_bfgs_create`, quasi_newton/bfgs.c:828-859, `sleqp_sr1_create`,
quasi_newton/sr1.c:680-710; `bfgs` selects. -/
def quasiNewtonFlags (bfgs : Bool) : FuncFlags :=
  if bfgs then none.add ((PSD.add HESS_INTERNAL).add INEXACT) else none.add (INEXACT.add HESS_INTERNAL)

/-- the solver for trust-region subproblems chosen automatically, newton.c:92-109: `true` for conjugate gradients (which
requires a positive semidefinite Hessian), `false` for trlib -/
def autoUsesCg (f : FuncFlags) : Bool := f.has PSD

end Sleqp
