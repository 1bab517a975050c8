import Verif.Model.Mex
import Verif.Spec.Vec
import Verif.Spec.Mat

/-! Specification vocabulary for the arrays of MATLAB. -/

namespace Sleqp

section
variable {V : Type*}

/-- an array as MATLAB keeps it -/
def MxLeaf.WF : MxLeaf V → Prop
  | .dense rows cols data => data.length = rows * cols
  | .sparse s => s.WF
  | .other _ => True

/-- the elements of an ordinary array of doubles -/
def MxLeaf.Data (a : MxLeaf V) (data : List V) : Prop := ∃ rows cols, a = .dense rows cols data

/-- the elements of an ordinary array of doubles, or of the arrays in a cell array, one after the other -/
def MxArray.Data : MxArray V → List V → Prop
  | .leaf a, data => a.Data data
  | .cell as, data => ∃ ds : List (List V), List.Forall₂ MxLeaf.Data as ds ∧ data = ds.flatten

end

section
variable {K : Type*} [Field K] [LinearOrder K]

/-- a vector with the numbers `f 0`, …, `f (n - 1)`, those of size at most `zeroEps` replaced by zero -/
def HoldsUpTo (zeroEps : K) (n : Nat) (f : Nat → K) (v : Vec K) : Prop :=
  v.WF ∧ v.dim = n ∧ ∀ i < n, v.value i = if |f i| ≤ zeroEps then 0 else f i

/-- no entry above the diagonal -/
def LowerTri (s : Mat K) : Prop := ∀ j < s.numCols, ∀ e ∈ s.col j, j ≤ e.1

/-- the symmetric matrix whose lower triangle is given -/
def symmEntry (s : Mat K) (i j : Nat) : K := s.value (max i j) (min i j)

end
end Sleqp

namespace Sleqp
variable {K : Type*} [Field K] [LinearOrder K]

/-- the lower bound at an index: the one given, if any; infinite ones are the number the library uses for infinity -/
def lowerAt (inf : K) (given : Option (List (Ext K))) (i : Nat) : Ext K :=
  match given with
  | none => .fin (-inf)
  | some l => if l[i]? = some .ninf then .fin (-inf) else l.getD i (.fin 0)

/-- the upper bound at an index -/
def upperAt (inf : K) (given : Option (List (Ext K))) (i : Nat) : Ext K :=
  match given with
  | none => .fin inf
  | some l => if l[i]? = some .pinf then .fin inf else l.getD i (.fin 0)

/-- the bounds given (if any) are arrays with `n` numbers, none of them `bad` or NaN -/
def GivenBounds (n : Nat) (bad : Ext K) (a : Option (MxArray (Ext K))) (given : Option (List (Ext K))) : Prop :=
  (a = none ∧ given = none) ∨ ∃ b l, a = some b ∧ given = some l ∧ b.Data l ∧ l.length = n ∧ .nan ∉ l ∧ bad ∉ l

end Sleqp
