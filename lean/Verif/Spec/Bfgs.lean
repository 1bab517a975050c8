import Mathlib.Data.Matrix.Mul
import Mathlib.Algebra.Order.Field.Basic
import Mathlib.LinearAlgebra.Matrix.Symmetric
import Verif.Model.Vec

/-!
Textbook specification of the quasi-Newton models: matrices over `Fin n`.
-/

namespace Sleqp
open Matrix

variable {K : Type*} [Field K] [LinearOrder K] {n : Nat}

/-- the coordinates of a sparse vector -/
def dense (n : Nat) (v : Vec K) : Fin n → K := fun i => v.value i

/-- BFGS update of `B` by the step `s` and the gradient difference `r`, where the part
taken over from `B` is multiplied by `c` (`c = 1` without sizing):
`c (B - B s sᵀ B / sᵀ B s) + r rᵀ / rᵀ s` -/
def bfgsUpdate (B : Matrix (Fin n) (Fin n) K) (s r : Fin n → K) (c : K) : Matrix (Fin n) (Fin n) K :=
  c • (B - (1 / (s ⬝ᵥ B *ᵥ s)) • vecMulVec (B *ᵥ s) (B *ᵥ s)) + (1 / (r ⬝ᵥ s)) • vecMulVec r r

/-- Powell damping: mix `y` with `B s` if `y · s < 0.2 sᵀ B s` -/
def powell (damped : Bool) (B : Matrix (Fin n) (Fin n) K) (s y : Fin n → K) : Fin n → K :=
  if damped ∧ y ⬝ᵥ s < 1 / 5 * (s ⬝ᵥ B *ᵥ s) then
    let t := (4 / 5 * (s ⬝ᵥ B *ᵥ s)) / (s ⬝ᵥ B *ᵥ s - y ⬝ᵥ s)
    t • y + (1 - t) • (B *ᵥ s)
  else y

/-- centred Oren–Luenberger sizing, cut to `[0.1, 1]`; `prev` holds `y · s`, `s · s` and
`r · s` of the previous pair -/
def olSizing (ol : Bool) (prev : Option (K × K × K)) (B : Matrix (Fin n) (Fin n) K) (s y : Fin n → K) : K :=
  match ol, prev with
  | true, some (ys, ss, rs) =>
    min (max ((1 / 2 * ys / ss + 1 / 2 * (y ⬝ᵥ s) / (s ⬝ᵥ s)) /
      (1 / 2 * rs / ss + 1 / 2 * (s ⬝ᵥ B *ᵥ s))) (1 / 10)) 1
  | _, _ => 1

/-- one pair of the memory -/
def bfgsStep (damped ol : Bool) (st : Matrix (Fin n) (Fin n) K × Option (K × K × K))
    (p : (Fin n → K) × (Fin n → K)) : Matrix (Fin n) (Fin n) K × Option (K × K × K) :=
  let r := powell damped st.1 p.1 p.2
  (bfgsUpdate st.1 p.1 r (olSizing ol st.2 st.1 p.1 p.2),
    some (p.2 ⬝ᵥ p.1, p.1 ⬝ᵥ p.1, r ⬝ᵥ p.1))

/-- factor of the initial identity, from the newest pair -/
def bfgsScale (damped : Bool) (s y : Fin n → K) : K :=
  if y ⬝ᵥ s = 0 then 1
  else if damped then min (max ((s ⬝ᵥ s) / (y ⬝ᵥ s)) (1 / 1000000)) 1
  else max ((s ⬝ᵥ s) / (y ⬝ᵥ s)) (1 / 1000000)

/-- state of the recursion after the pairs `ps` (oldest first), starting with the
identity times `c` -/
def bfgsFold (damped ol : Bool) (c : K) (ps : List ((Fin n → K) × (Fin n → K))) :
    Matrix (Fin n) (Fin n) K × Option (K × K × K) :=
  ps.foldl (bfgsStep damped ol) (c • (1 : Matrix (Fin n) (Fin n) K), none)

/-- the limited-memory BFGS matrix of the pairs `ps` (oldest first) -/
def bfgsMatrix (damped ol : Bool) (ps : List ((Fin n → K) × (Fin n → K))) : Matrix (Fin n) (Fin n) K :=
  match ps.getLast? with
  | none => 1
  | some p => (bfgsFold damped ol (bfgsScale damped p.1 p.2) ps).1

/-- symmetric and positive on nonzero vectors -/
def SymPos (B : Matrix (Fin n) (Fin n) K) : Prop :=
  B.IsSymm ∧ ∀ d : Fin n → K, d ≠ 0 → 0 < d ⬝ᵥ B *ᵥ d

end Sleqp
