import Mathlib.Logic.Function.Basic
import Verif.Model.Trlib
import Verif.Spec.Steihaug
import Verif.Spec.Mat

/-!
The operations trlib asks for, as they are documented by the library (the comments on
`trlib_krylov_min` in trlib.h), on ordinary vectors; and the trust-region subproblem it is to solve.
-/

namespace Sleqp
variable {K : Type*} [Field K] [LinearOrder K] {n : Nat}
open Matrix

/-- the vectors and scalar products kept for trlib; `Q` are the columns of the basis, of which the first
`cols` have been set -/
structure TrlibSt (n : Nat) (K : Type*) where
  s : Fin n → K
  g : Fin n → K
  gm : Fin n → K
  v : Fin n → K
  p : Fin n → K
  Hp : Fin n → K
  Q : Nat → Fin n → K
  cols : Nat
  gg : K
  vg : K
  pHp : K

/-- the documented effect of the actions.  The preconditioner is the projection `P`; the gradient of the problem is
`q.g`. -/
def TrProblem.serve (q : TrProblem n K) (sqrt : K → K) (c : TrlibCall K) (x : TrlibSt n K) : TrlibSt n K :=
  match c.action with
  | .init =>
    let v := q.P *ᵥ q.g
    let p := -v
    { s := 0, gm := 0, g := q.g, v := v, p := p, Hp := q.B *ᵥ p, gg := q.g ⬝ᵥ q.g, vg := v ⬝ᵥ q.g, pHp := p ⬝ᵥ q.B *ᵥ p,
      Q := fun _ => (1 / sqrt (v ⬝ᵥ q.g)) • v, cols := if 0 < sqrt (v ⬝ᵥ q.g) then 1 else 0 }
  | .retransf => { x with s := fun i => ∑ j ∈ Finset.range (c.iter + 1), c.h j * x.Q j i }
  | .updateStatio => if c.typ = .cg then { x with s := x.s + c.flt1 • x.p } else x
  | .updateGrad => match c.typ with
    | .cg =>
      let g := x.g + c.flt1 • x.Hp
      let v := q.P *ᵥ g
      { x with Q := Function.update x.Q c.iter (c.flt2 • x.v), cols := c.iter + 1, gm := x.g, g := g, v := v, gg := g ⬝ᵥ g, vg := v ⬝ᵥ g }
    | .lanczos =>
      let s := x.Hp + c.flt1 • x.g + c.flt2 • x.gm
      let v := q.P *ᵥ s
      { x with s := s, gm := c.flt3 • x.g, g := s, v := v, vg := v ⬝ᵥ s }
    | .other => x
  | .updateDir => match c.typ with
    | .cg =>
      let p := c.flt1 • x.v + c.flt2 • x.p
      { x with p := p, Hp := q.B *ᵥ p, pHp := p ⬝ᵥ q.B *ᵥ p }
    | .lanczos =>
      let p := c.flt1 • x.v + c.flt2 • x.p
      { x with p := p, Hp := q.B *ᵥ p, pHp := p ⬝ᵥ q.B *ᵥ p, Q := Function.update x.Q c.iter p, cols := c.iter + 1 }
    | .other => x
  | .convHard =>
    let l := q.B *ᵥ x.s + q.g
    { x with vg := (l + c.flt1 • x.s) ⬝ᵥ (q.P *ᵥ l + c.flt1 • x.s) }
  | .objval => { x with gg := q.val x.s }
  | _ => x

/-- calls as they are expected by the interface, after `cols` columns have been set: each column is set next after, or
again for, the last one; only columns which have been set are combined; directions are updated as documented; and there are
no new Krylov spaces, as they are switched off -/
def TrlibCall.InOrder (c : TrlibCall K) (cols : Nat) : Prop :=
  match c.action with
  | .retransf => c.iter < cols
  | .updateGrad => c.typ = .cg → c.iter = cols ∨ c.iter + 1 = cols
  | .updateDir => (c.typ = .cg → c.flt1 = -1) ∧ (c.typ = .lanczos → c.flt2 = 0 ∧ (c.iter = cols ∨ c.iter + 1 = cols))
  | .newKrylov => False
  | .unknown => False
  | _ => True

/-- states of the library and of the vectors which come up while the library is served as documented -/
inductive TrlibLib.Serving {L : Type*} (lib : TrlibLib L K) (q : TrProblem n K) (sqrt : K → K) : L → TrlibSt n K → Prop where
  | first (x : TrlibSt n K) : (lib.step lib.start 0 0 0).1.ret = .goOn →
      lib.Serving q sqrt (lib.step lib.start 0 0 0).2 (q.serve sqrt (lib.step lib.start 0 0 0).1 x)
  | next {l : L} {x : TrlibSt n K} : lib.Serving q sqrt l x → (lib.step l x.gg x.vg x.pHp).1.ret = .goOn →
      lib.Serving q sqrt (lib.step l x.gg x.vg x.pHp).2 (q.serve sqrt (lib.step l x.gg x.vg x.pHp).1 x)

/-- served as documented, the library initializes first and asks for actions in the expected order -/
def TrlibLib.Orderly {L : Type*} (lib : TrlibLib L K) (q : TrProblem n K) (sqrt : K → K) : Prop :=
  (lib.step lib.start 0 0 0).1.action = .init ∧
  ∀ l x, lib.Serving q sqrt l x → (lib.step l x.gg x.vg x.pHp).1.InOrder x.cols

/-- served as documented, the library never asks for the objective -/
def TrlibLib.NoObjective {L : Type*} (lib : TrlibLib L K) (q : TrProblem n K) (sqrt : K → K) : Prop :=
  ∀ l x, lib.Serving q sqrt l x → (lib.step l x.gg x.vg x.pHp).1.action ≠ .objval

/-- the library served as documented, with at most `fuel` calls -/
def TrlibLib.run {L : Type*} (lib : TrlibLib L K) (q : TrProblem n K) (sqrt : K → K) (timeUp : Nat → Bool) : Nat → Nat → L → TrlibSt n K →
    TrlibEnd (TrlibSt n K) K
  | 0, _, _, _ => .endless
  | fuel + 1, it, l, x =>
    let c := lib.step l x.gg x.vg x.pHp
    if c.1.ret ≠ .goOn then .ended c.1.ret c.1.dual (q.serve sqrt c.1 x)
    else if timeUp it then .timeout
    else lib.run q sqrt timeUp fuel (it + 1) c.2 (q.serve sqrt c.1 x)

/-- before the first call all vectors are zero and no column is set; the library asks to initialize them first -/
def TrlibSt.zero (n : Nat) (K : Type*) [Field K] : TrlibSt n K := ⟨0, 0, 0, 0, 0, 0, fun _ => 0, 0, 0, 0, 0⟩

/-- the callbacks and settings belong to the problem; the cut-off for small entries is zero -/
structure TrlibFor (q : TrProblem n K) (e : TrEnv K) (grad : Vec K) : Prop where
  gradOk : grad.WF ∧ grad.dim = n
  gradQ : dense n grad = q.g
  hp : ∀ d r : Vec K, d.WF ∧ d.dim = n → ∃ h, e.hp d r = some h ∧ (h.WF ∧ h.dim = n) ∧ dense n h = q.B *ᵥ dense n d
  proj : ∀ d r : Vec K, d.WF ∧ d.dim = n → ∃ h, e.proj d r = some h ∧ (h.WF ∧ h.dim = n) ∧ dense n h = q.P *ᵥ dense n d
  zeroEps : e.zeroEps = 0

/-- the memory of a solver for `n` variables, before a solve -/
structure TrlibMem.Ready (n : Nat) (m : TrlibMem K) : Prop where
  vecs : ∀ v ∈ [m.s, m.g, m.gm, m.v, m.p, m.Hp], v.dim = n
  rows : m.Q.numRows = n
  wf : m.Q.WF

/-- `x` minimizes the model over the null space and the trust region -/
def TrProblem.IsSolution (q : TrProblem n K) (radius : K) (x : Fin n → K) : Prop :=
  q.P *ᵥ x = x ∧ x ⬝ᵥ x ≤ radius * radius ∧ ∀ d, q.P *ᵥ d = d → d ⬝ᵥ d ≤ radius * radius → q.val x ≤ q.val d

/-- served as documented, the library solves the subproblem whenever it reports convergence -/
def TrlibLib.Solves {L : Type*} (lib : TrlibLib L K) (q : TrProblem n K) (sqrt : K → K) (radius : K) : Prop :=
  ∀ timeUp fuel dual x, lib.run q sqrt timeUp fuel 0 lib.start (TrlibSt.zero n K) = .ended .converged dual x → q.IsSolution radius x.s

end Sleqp
