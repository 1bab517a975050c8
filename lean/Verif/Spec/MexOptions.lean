import Verif.Model.MexOptions
import Verif.Spec.Settings

/-! Specification vocabulary for the options of the MATLAB interface. -/

namespace Sleqp

/-- an option is given as a single number `x` -/
def IsNumber (a : Option (MxArray (Ext ℚ))) (x : Ext ℚ) : Prop :=
  (∃ rows cols, a = some (.leaf (.dense rows cols [x]))) ∨
  ∃ s : Mat (Ext ℚ), a = some (.leaf (.sparse s)) ∧ s.numRows * s.numCols = 1 ∧ 0 < s.nnz ∧ s.val 0 = x

/-- An option is taken over: if it is not given, the setting keeps its value, otherwise it is given as a number, and the setting has the corresponding
value. -/
def Taken {α : Type*} (opts : MexOpts) (name : List Char) (corresponds : Ext ℚ → α → Prop) (old new : α) : Prop :=
  (opts name = none ∧ new = old) ∨ ∃ x, IsNumber (opts name) x ∧ corresponds x new

/-- names of the real settings in MATLAB: those of settings files with one abbreviation -/
def mexNameReal (i : Fin 15) : List Char := if i = 3 then "deriv_pert".toList else realName i

/-- names of the enumeration settings in MATLAB: those of settings files, except for one which contains spaces -/
def mexNameEnum (i : Fin 13) : List Char := if i = 12 then "aug_jac_method".toList else enumName i

/-- the integer a number denotes, without its fractional part -/
def IsInt (x : Ext ℚ) (z : Int) : Prop :=
  ∃ q : ℚ, x = .fin q ∧ |(z : ℚ)| ≤ |q| ∧ |q| < |(z : ℚ)| + 1 ∧ 0 ≤ q * z ∧ -2 ^ 31 ≤ z ∧ z < 2 ^ 31

end Sleqp
