import Verif.Model.Steihaug

/-!
Model of `tr/lsqr.c`: the iterative solution of least-squares problems within a trust region. The
products with the matrix and its transpose, the square root and the clock are parameters; log
messages (and the residuals computed for them in debug builds) are left out. A failed assertion and
a division by zero are `none`.
-/

namespace Sleqp
variable {K : Type*} [Field K] [LinearOrder K]

/-- callbacks and settings of an LSQR solver -/
structure LsqrEnv (K : Type*) where
  /-- `prod_forward`: direction and product -/
  fwd : Vec K → Vec K → Option (Vec K)
  /-- `prod_adjoint`: direction and product -/
  adj : Vec K → Vec K → Option (Vec K)
  /-- C `sqrt`; `hypot` is the root of the sum of the squares -/
  sqrt : K → K
  eps : K
  zeroEps : K
  relTol : K
  /-- `none` for `SLEQP_NONE` -/
  radius : Option K
  /-- is the time limit exceeded in this iteration? -/
  timeUp : Nat → Bool
  fdim : Nat
  adim : Nat

/-- the vectors of a `SleqpLSQRSolver`, tr/lsqr.c:11-36; `t` is `sparse_cache` -/
structure LsqrMem (K : Type*) where
  u : Vec K
  v : Vec K
  w : Vec K
  p : Vec K
  q : Vec K
  d : Vec K
  t : Vec K

/-- `sleqp_lsqr_solver_create`, tr/lsqr.c:38-81: the vectors `u` and `p` have dimension zero -/
def lsqrCreate (fdim : Nat) : LsqrMem K :=
  ⟨Vec.create 0 0, Vec.create fdim 0, Vec.create fdim 0, Vec.create 0 0, Vec.create fdim 0, Vec.create fdim 0, Vec.create 0 0⟩

/-- `sleqp_lsqr_solver_resize`, tr/lsqr.c:91-109 -/
def lsqrResize (s : LsqrMem K) (fdim adim : Nat) : LsqrMem K :=
  { s with v := s.v.resize fdim, w := s.w.resize fdim, q := s.q.resize fdim, d := s.d.resize fdim, u := s.u.resize adim, p := s.p.resize adim }

/-- `normalize`, tr/lsqr.c:111-122 -/
def lsqrNormalize (sqrt : K → K) (v : Vec K) : Vec K × K :=
  (if sqrt v.normSq ≠ 0 then v.scale (1 / sqrt v.normSq) else v, sqrt v.normSq)

/-- `forward_product`, tr/lsqr.c:124-133 -/
def LsqrEnv.forward (e : LsqrEnv K) (d p : Vec K) : Option (Vec K) :=
  if d.dim = e.fdim ∧ p.dim = e.adim then e.fwd d p else none

/-- `adjoint_product`, tr/lsqr.c:135-144 -/
def LsqrEnv.adjoint (e : LsqrEnv K) (d p : Vec K) : Option (Vec K) :=
  if d.dim = e.adim ∧ p.dim = e.fdim then e.adj d p else none

/-- local variables of the loop in `sleqp_lsqr_solver_solve` -/
structure LsqrState (K : Type*) where
  x : Vec K
  mem : LsqrMem K
  alpha : K
  phib : K
  rhob : K

/-- the next vectors of the bidiagonalization, tr/lsqr.c:236-245, with their norms `beta`, `alpha` -/
def lsqrBidiag (e : LsqrEnv K) (s : LsqrMem K) (alpha : K) : Option (LsqrMem K × K × K) :=
  (e.forward s.v s.p).bind fun p => (p.addScaled s.u 1 (-alpha) e.zeroEps s.t).bind fun t1 => (t1.copy s.u).bind fun u0 =>
    let u := lsqrNormalize e.sqrt u0
    (e.adjoint u.1 s.q).bind fun q => (q.addScaled s.v 1 (-u.2) e.zeroEps t1).bind fun t2 => (t2.copy s.v).map fun v0 =>
      let v := lsqrNormalize e.sqrt v0
      ({ s with u := u.1, v := v.1, p := p, q := q, t := t2 }, u.2, v.2)

/-- outcome of one iteration -/
inductive LsqrNext (K : Type*) where
  | done (x : Vec K)
  | timeout
  | go (s : LsqrState K)

/-- is the new point outside of the trust region, tr/lsqr.c:260 -/
def LsqrEnv.outside (e : LsqrEnv K) (norm : K) : Option K := e.radius.filter fun r => isGt norm r e.eps

/-- the second half of an iteration, tr/lsqr.c:256-318: `b` are the new vectors of the
bidiagonalization, `c`, `sn`, `rho` the rotation -/
def lsqrAdvance (e : LsqrEnv K) (it : Nat) (s : LsqrState K) (b : LsqrMem K) (alpha rho c sn : K) : Option (LsqrNext K) :=
  (s.x.addScaled s.mem.w 1 (c * s.phib / rho) e.zeroEps b.t).bind fun t =>
    match e.outside (e.sqrt t.normSq) with
    | some r => (s.x.addScaled t (-1) 1 e.zeroEps b.d).bind fun d =>
        (bdrySol e.sqrt e.zeroEps r s.x d t).bind fun t' => (t'.copy s.x).map .done
    | none => (t.copy s.x).bind fun x =>
        (b.v.addScaled s.mem.w 1 (-(sn * alpha) / rho) e.zeroEps t).bind fun t' => (t'.copy s.mem.w).map fun w =>
          if sn * s.phib * alpha * |c| ≤ e.relTol then .done x
          else if e.timeUp it then .timeout
          else .go ⟨x, { b with w := w, t := t' }, alpha, sn * s.phib, -c * alpha⟩

/-- one iteration of the loop in `sleqp_lsqr_solver_solve`, tr/lsqr.c:172-333 -/
def lsqrPass (e : LsqrEnv K) (it : Nat) (s : LsqrState K) : Option (LsqrNext K) :=
  (lsqrBidiag e s.mem s.alpha).bind fun b =>
    let rho := e.sqrt (s.rhob * s.rhob + b.2.1 * b.2.1)
    (cdiv s.rhob rho).bind fun c => (cdiv b.2.1 rho).bind fun sn => lsqrAdvance e it s b.1 b.2.2 rho c sn

/-- continue the loop; `none` in the result stands for the code `SLEQP_ABORT_TIME` -/
def lsqrNext (loop : LsqrState K → Option (Option (Vec K))) : LsqrNext K → Option (Option (Vec K))
  | .done x => some (some x)
  | .timeout => some none
  | .go s => loop s

/-- the loop in `sleqp_lsqr_solver_solve`, tr/lsqr.c:172-333: at most `k` further iterations -/
def lsqrLoop (e : LsqrEnv K) : Nat → Nat → LsqrState K → Option (Option (Vec K))
  | 0, _, s => some (some s.x)
  | k + 1, it, s => (lsqrPass e it s).bind (lsqrNext (lsqrLoop e k (it + 1)))

/-- the state before the first iteration, tr/lsqr.c:182-222 -/
def lsqrStart (e : LsqrEnv K) (s : LsqrMem K) (rhs sol : Vec K) : Option (LsqrState K) :=
  if rhs.dim = e.adim ∧ sol.dim = e.fdim then
    (rhs.copy s.u).bind fun u0 =>
      let u := lsqrNormalize e.sqrt u0
      (e.adjoint u.1 s.v).bind fun v0 =>
        let v := lsqrNormalize e.sqrt v0
        (v.1.copy s.w).map fun w => ⟨sol.clear, { s with u := u.1, v := v.1, w := w }, v.2, u.2, v.2⟩
  else none

/-- `sleqp_lsqr_solver_solve`, tr/lsqr.c:172-333; `some none` stands for the code
`SLEQP_ABORT_TIME` -/
def lsqrSolve (e : LsqrEnv K) (s : LsqrMem K) (rhs sol : Vec K) : Option (Option (Vec K)) :=
  (lsqrStart e s rhs sol).bind (lsqrLoop e e.fdim 1)

end Sleqp
