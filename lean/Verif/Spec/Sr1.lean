import Verif.Spec.Bfgs

/-! Textbook specification of the limited-memory SR1 matrix. -/

namespace Sleqp
open Matrix

variable {K : Type*} [Field K] [LinearOrder K] {n : Nat}

/-- the pair is skipped: `s` and `a = y - B s` are (almost) orthogonal or `s · a = 0` -/
def sr1Skip (nrm : (Fin n → K) → K) (s a : Fin n → K) : Prop :=
  |s ⬝ᵥ a| < 1 / 100000000 * nrm a * nrm s ∨ s ⬝ᵥ a = 0

instance (nrm : (Fin n → K) → K) (s a : Fin n → K) : Decidable (sr1Skip nrm s a) :=
  inferInstanceAs (Decidable (_ ∨ _))

/-- SR1 update `B + a aᵀ / aᵀ s` with `a = y - B s`, unless the pair is skipped -/
def sr1Step (nrm : (Fin n → K) → K) (B : Matrix (Fin n) (Fin n) K) (p : (Fin n → K) × (Fin n → K)) :
    Matrix (Fin n) (Fin n) K :=
  let a := p.2 - B *ᵥ p.1
  if sr1Skip nrm p.1 a then B else B + (1 / (p.1 ⬝ᵥ a)) • vecMulVec a a

/-- factor of the initial identity, from the newest pair -/
def sr1Scale (s y : Fin n → K) : K :=
  if 0 < y ⬝ᵥ s then (y ⬝ᵥ y) / (y ⬝ᵥ s) else 1 / 10000

/-- the limited-memory SR1 matrix of the pairs `ps` (oldest first) -/
def sr1Matrix (nrm : (Fin n → K) → K) (ps : List ((Fin n → K) × (Fin n → K))) : Matrix (Fin n) (Fin n) K :=
  match ps.getLast? with
  | none => 1
  | some p => ps.foldl (sr1Step nrm) (sr1Scale p.1 p.2 • (1 : Matrix (Fin n) (Fin n) K))

end Sleqp
