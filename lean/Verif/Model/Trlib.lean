import Verif.Model.Steihaug

/-!
Model of `tr/trlib_solver.c`: the trust-region solver which serves the library trlib.  The library
is called in a loop; in each call it asks for an operation on vectors (an action) and reads the
scalar products computed by it.  It is an oracle here, with any state.  Products with the Hessian,
the projection, the square root and the clock are parameters, as in `Verif/Model/Steihaug.lean`.
The check of optimality in debug builds and log messages are left out; failed assertions are `none`.
-/

namespace Sleqp
variable {K : Type*} [Field K] [LinearOrder K]

/-- the actions `TRLIB_CLA_*` of trlib.h -/
inductive TrlibAction where
  | trivial | init | retransf | updateStatio | updateGrad | convHard | newKrylov | updateDir | objval | unknown
  deriving DecidableEq

/-- the type of an iteration, `TRLIB_CLT_CG` and `TRLIB_CLT_L` of trlib.h -/
inductive TrlibType where
  | cg | lanczos | other
  deriving DecidableEq

/-- the codes `TRLIB_CLR_*` of trlib.h: `TRLIB_CLR_CONTINUE`; `TRLIB_CLR_CONV_BOUND` and
`TRLIB_CLR_CONV_INTERIOR`; the errors `TRLIB_CLR_FAIL_FACTOR`, `TRLIB_CLR_FAIL_LINSOLVE`,
`TRLIB_CLR_FAIL_NUMERIC`, `TRLIB_CLR_FAIL_TTR`; and all others, which are less than
`TRLIB_CLR_CONTINUE` -/
inductive TrlibRet where
  | goOn | converged | failed | stopped
  deriving DecidableEq

/-- results of `trlib_krylov_min`, tr/trlib_solver.c:322-352: `h` are the numbers in the work array
from `trlib_h_pointer` on, `dual` is the number with index 7 -/
structure TrlibCall (K : Type*) where
  ret : TrlibRet
  action : TrlibAction
  iter : Nat
  typ : TrlibType
  flt1 : K
  flt2 : K
  flt3 : K
  h : Nat → K
  dual : K

/-- the library, after its work arrays have been cleared (tr/trlib_solver.c:302-308).  A call gets
`g_dot_g`, `v_dot_g`, `p_dot_Hp`; everything else is constant while solving. -/
structure TrlibLib (L : Type*) (K : Type*) where
  start : L
  step : L → K → K → K → TrlibCall K × L

/-- `SolverData`, tr/trlib_solver.c:17-50, with the scalar products of `trlib_loop`; `t` is
`sparse_cache` -/
structure TrlibMem (K : Type*) where
  s : Vec K
  g : Vec K
  gm : Vec K
  h : Vec K
  v : Vec K
  p : Vec K
  Hp : Vec K
  l : Vec K
  hl : Vec K
  hr : Vec K
  t : Vec K
  Q : Mat K
  gg : K
  vg : K
  pHp : K

/-- `matrix_push_column`, tr/trlib_solver.c:98-121 -/
def trlibPush (Q : Mat K) (v : Vec K) (f : K) : Option (Mat K) :=
  ((Q.reserve (Q.nnz + v.nnz)).resize Q.numRows (Q.numCols + 1)).pushAll Q.numCols (v.ents.map fun e => (e.1, e.2 * f))

/-- the last column is dropped if it is to be replaced, tr/trlib_solver.c:445-451, 567-576; with the
assertion behind it -/
def trlibTrim (Q : Mat K) (iter : Nat) : Option (Mat K) :=
  let Q' := if iter + 1 = Q.numCols then Q.resize Q.numRows iter else Q
  if iter = Q'.numCols then some Q' else none

/-- `TRLIB_CLA_INIT`, tr/trlib_solver.c:362-407 -/
def trlibInit (e : TrEnv K) (grad : Vec K) (m : TrlibMem K) : Option (TrlibMem K) :=
  (grad.copy m.g).bind fun g => (e.proj g m.v).bind fun v => (v.copy m.p).bind fun p0 =>
    let p := p0.scale (-1)
    (v.dot g).bind fun vg => (e.hp p m.Hp).bind fun Hp => (p.dot Hp).bind fun pHp =>
      let Q := (m.Q.resize m.Q.numRows 0).clear
      let m' := { m with s := m.s.clear, g := g, gm := m.gm.clear, v := v, p := p, Hp := Hp, gg := g.normSq, vg := vg, pHp := pHp }
      if isPos (e.sqrt vg) e.zeroEps then (trlibPush Q v (1 / e.sqrt vg)).map fun Q' => { m' with Q := Q' }
      else some { m' with Q := Q }

/-- `TRLIB_CLA_RETRANSF`, tr/trlib_solver.c:408-425 -/
def trlibRetransf (e : TrEnv K) (n : Nat) (c : TrlibCall K) (m : TrlibMem K) : Option (TrlibMem K) :=
  (m.h.setFromRaw e.zeroEps ((List.range (c.iter + 1)).map c.h)).bind fun h0 =>
    let h := h0.resize m.Q.numCols
    (m.Q.multVec h).bind fun x => (m.s.setFromRaw e.zeroEps ((List.range n).map x)).map fun s => { m with h := h, s := s }

/-- `TRLIB_CLA_UPDATE_STATIO`, tr/trlib_solver.c:426-440 -/
def trlibStatio (e : TrEnv K) (c : TrlibCall K) (m : TrlibMem K) : Option (TrlibMem K) :=
  if c.typ = .cg then
    (m.s.addScaled m.p 1 c.flt1 e.zeroEps m.t).bind fun t => (t.copy m.s).map fun s => { m with s := s, t := t }
  else some m

/-- `TRLIB_CLA_UPDATE_GRAD`, tr/trlib_solver.c:441-503 -/
def trlibGrad (e : TrEnv K) (c : TrlibCall K) (m : TrlibMem K) : Option (TrlibMem K) :=
  match c.typ with
  | .cg => (trlibTrim m.Q c.iter).bind fun Q0 => (trlibPush Q0 m.v c.flt2).bind fun Q => (m.g.copy m.gm).bind fun gm =>
      (m.g.addScaled m.Hp 1 c.flt1 e.zeroEps m.t).bind fun t => (t.copy m.g).bind fun g => (e.proj g m.v).bind fun v =>
        (v.dot g).map fun vg => { m with Q := Q, gm := gm, g := g, v := v, t := t, gg := g.normSq, vg := vg }
  | .lanczos => (m.Hp.addScaled m.g 1 c.flt1 e.zeroEps m.t).bind fun t => (t.addScaled m.gm 1 c.flt2 e.zeroEps m.s).bind fun s =>
      (m.g.copy m.gm).bind fun gm => (s.copy m.g).bind fun g => (e.proj g m.v).bind fun v =>
        (v.dot g).map fun vg => { m with s := s, gm := gm.scale c.flt3, g := g, v := v, t := t, vg := vg }
  | .other => some m

/-- `TRLIB_CLA_CONV_HARD`, tr/trlib_solver.c:504-535 -/
def trlibHard (e : TrEnv K) (grad : Vec K) (c : TrlibCall K) (m : TrlibMem K) : Option (TrlibMem K) :=
  (e.hp m.s m.t).bind fun t0 => (t0.addScaled grad 1 1 e.zeroEps m.l).bind fun l =>
    (l.addScaled m.s 1 c.flt1 e.zeroEps m.hl).bind fun hl => (e.proj l t0).bind fun t =>
      (t.addScaled m.s 1 c.flt1 e.zeroEps m.hr).bind fun hr => (hl.dot hr).map fun vg =>
        { m with t := t, l := l, hl := hl, hr := hr, vg := vg }

/-- direction and product with the Hessian, tr/trlib_solver.c:548-562, 578-592 -/
def trlibDirection (e : TrEnv K) (c : TrlibCall K) (m : TrlibMem K) : Option (TrlibMem K) :=
  (m.v.addScaled m.p c.flt1 c.flt2 e.zeroEps m.t).bind fun t => (t.copy m.p).bind fun p => (e.hp p m.Hp).bind fun Hp =>
    (p.dot Hp).map fun pHp => { m with p := p, Hp := Hp, t := t, pHp := pHp }

/-- `TRLIB_CLA_UPDATE_DIR`, tr/trlib_solver.c:542-602 -/
def trlibDir (e : TrEnv K) (c : TrlibCall K) (m : TrlibMem K) : Option (TrlibMem K) :=
  match c.typ with
  | .cg => if c.flt1 = -1 then trlibDirection e c m else none
  | .lanczos => if c.flt2 = 0 then
      (trlibTrim m.Q c.iter).bind fun Q0 => (trlibDirection e c m).bind fun m' => (trlibPush Q0 m'.p 1).map fun Q => { m' with Q := Q }
    else none
  | .other => some m

/-- `TRLIB_CLA_OBJVAL`, tr/trlib_solver.c:603-617 -/
def trlibObj (e : TrEnv K) (m : TrlibMem K) : Option (TrlibMem K) :=
  (e.hp m.s m.t).bind fun t => (m.s.dot t).bind fun quad => (m.s.dot m.g).map fun lin => { m with gg := lin + 1 / 2 * quad }

/-- the actions, tr/trlib_solver.c:356-624; an unknown one is handled in the loop -/
def trlibServe (e : TrEnv K) (n : Nat) (grad : Vec K) (c : TrlibCall K) (m : TrlibMem K) : Option (TrlibMem K) :=
  match c.action with
  | .trivial => some m
  | .init => trlibInit e grad m
  | .retransf => trlibRetransf e n c m
  | .updateStatio => trlibStatio e c m
  | .updateGrad => trlibGrad e c m
  | .convHard => trlibHard e grad c m
  | .newKrylov => none
  | .updateDir => trlibDir e c m
  | .objval => trlibObj e m
  | .unknown => none

/-- how the loop ends: by the library, by the time limit, by an unknown action, or not at all -/
inductive TrlibEnd (α : Type*) (K : Type*) where
  | ended (ret : TrlibRet) (dual : K) (m : α)
  | timeout
  | invalid
  | endless

/-- the loop in `trlib_loop`, tr/trlib_solver.c:244-651, with at most `fuel` calls -/
def trlibLoop {L : Type*} (lib : TrlibLib L K) (e : TrEnv K) (n : Nat) (grad : Vec K) : Nat → Nat → L → TrlibMem K →
    Option (TrlibEnd (TrlibMem K) K)
  | 0, _, _, _ => some .endless
  | fuel + 1, it, l, m =>
    let c := lib.step l m.gg m.vg m.pHp
    if c.1.action = .unknown then some .invalid
    else (trlibServe e n grad c.1 m).bind fun m' =>
      if c.1.ret ≠ .goOn then some (.ended c.1.ret c.1.dual m')
      else if e.timeUp it then some .timeout
      else trlibLoop lib e n grad fuel (it + 1) c.2 m'

/-- results of `trlib_solve`: a step and the multiplier of the trust region, the code
`SLEQP_ABORT_TIME`, an error, or none at all -/
inductive TrlibResult (K : Type*) where
  | step (x : Vec K) (dual : K)
  | timeout
  | failed
  | endless

/-- `trlib_solve`, tr/trlib_solver.c:664-746, and the start of `trlib_loop` -/
def trlibSolve {L : Type*} (lib : TrlibLib L K) (e : TrEnv K) (n : Nat) (grad newton : Vec K) (m : TrlibMem K) (fuel : Nat) :
    Option (TrlibResult K) :=
  (trlibLoop lib e n grad fuel 0 lib.start
      { m with Q := m.Q.clear, p := m.p.clear, Hp := m.Hp.clear, gg := 0, vg := 0, pHp := 0 }).bind fun r =>
    match r with
    | .ended ret dual m' => (e.proj m'.s newton.clear).map fun x => if ret = .failed then .failed else .step x dual
    | .timeout => some .timeout
    | .invalid => some .failed
    | .endless => some .endless

/-- `sleqp_trlib_solver_create`, tr/trlib_solver.c:748-819: the vectors and the matrix for the basis of the
Krylov space, with `maxIter` the limit on iterations; `row` and `val` are the uninitialised arrays -/
def trlibCreate (n : Nat) (maxIter : Int) (row : Nat → Nat) (val : Nat → K) : TrlibMem K :=
  let v := Vec.create n 0
  let k := if maxIter = -1 then n else min n maxIter.toNat
  ⟨v, v, v, v, v, v, v, v, v, v, v, Mat.create n (k + 1) 0 row val, 0, 0, 0⟩

end Sleqp
