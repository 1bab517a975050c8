import Verif.Model.Cauchy
import Verif.Model.Feas
import Verif.Model.Mat

/-!
Model of `cauchy/standard_cauchy.c`: the linear program of a problem with constraints, its step, working set and
multipliers.

The LP solver is a parameter: a function from the data of the linear program to a solution (`none`: any other status
than optimal, which raises an error). Every call of `solve` has its own function, so bases, time limits and the choice among several
optimal solutions are arbitrary. Arrays are functions on `Nat`. The iterate captured by the solver is a copy: it is assumed not to be changed
before the next call of `set_iterate`. Checks that exist only with numeric asserts (`sleqp_assert_is_leq`, …) are omitted.
-/

namespace Sleqp

/-- `SLEQP_BASESTAT`, lp/lpi_types.h:17-23 -/
inductive BaseStat
  | lower | basic | upper | zero
  deriving DecidableEq, Repr

/-- `SLEQP_CAUCHY_OBJTYPE`, cauchy/cauchy_types.h:8-14 -/
inductive LpObj
  | default | feas | mixed
  deriving DecidableEq, Repr

/-- the data held by an LP interface: set by `sleqp_lpi_set_bounds`, `sleqp_lpi_set_coeffs`, `sleqp_lpi_set_objective`,
lp/lpi.c:136-143 -/
structure LpArrays (K : Type*) where
  numVars : Nat
  numCons : Nat
  obj : Nat → K
  consLb : Nat → K
  consUb : Nat → K
  varsLb : Nat → K
  varsUb : Nat → K
  coeffs : Mat K

/-- what an LP interface answers after `sleqp_lpi_solve` -/
structure LpSol (K : Type*) where
  objVal : K
  primal : Nat → K
  varStats : Nat → BaseStat
  consStats : Nat → BaseStat
  varsDual : Nat → K
  consDual : Nat → K

/-- problem and settings -/
structure LpEnv (K : Type*) where
  numVars : Nat
  numCons : Nat
  inf : K
  eps : K
  zeroEps : K
  bounds : Bounds K
  /-- `sleqp_problem_has_nonlinear_cons` -/
  nonlinear : Bool
  /-- `SLEQP_SETTINGS_BOOL_LP_RESOLVES` -/
  resolves : Bool
  /-- `SLEQP_SETTINGS_BOOL_ALWAYS_WARM_START_LP` -/
  warm : Bool

/-- `CauchyData`, cauchy/standard_cauchy.c:28-68. `cons_dual` is the part of `vars_dual` behind the first
`num_lp_variables` cells. `saved` tells which bases the LP interface stores. -/
structure CauchyLp (K : Type*) where
  radius : K
  iterate : Option (Iterate K)
  objective : Nat → K
  consLb : Nat → K
  consUb : Nat → K
  varsLb : Nat → K
  varsUb : Nat → K
  lp : LpArrays K
  red : LpArrays K
  hasCoeffs : Bool
  useReduced : Bool
  dirtyStats : Bool
  dirtyPrimal : Bool
  dirtyDual : Bool
  sol : LpSol K
  redSol : LpSol K
  varStats : Nat → BaseStat
  consStats : Nat → BaseStat
  primal : Nat → K
  dual : Nat → K
  hasBasis : LpObj → Bool
  saved : LpObj → Bool
  current : Option LpObj
  firstSolve : Bool

variable {K : Type*} [Field K] [LinearOrder K]

/-- number of variables of the linear program: two slacks for each constraint -/
def LpEnv.numLp (e : LpEnv K) : Nat := e.numVars + 2 * e.numCons

/-- `cauchy_data_create`, cauchy/standard_cauchy.c:134-201: applied to uninitialised storage -/
def CauchyLp.create (e : LpEnv K) (s : CauchyLp K) : CauchyLp K :=
  { s with
    iterate := none, hasCoeffs := false, useReduced := false
    dirtyStats := false, dirtyPrimal := false, dirtyDual := false
    varsLb := fun j => if e.numVars ≤ j then 0 else s.varsLb j
    varsUb := fun j => if e.numVars ≤ j then e.inf else s.varsUb j
    lp := { s.lp with numVars := e.numLp, numCons := e.numCons }
    hasBasis := fun _ => false, saved := fun _ => false, current := none, firstSolve := true }

/-- cursors and arrays of the loops computing bounds -/
structure BndLoop (K : Type*) where
  kx : List (Nat × K)
  kl : List (Nat × K)
  ku : List (Nat × K)
  lo : Nat → K
  hi : Nat → K

/-- loop body of `create_cons_bounds`, cauchy/standard_cauchy.c:259-325 -/
def consBoundsBody (inf : K) (s : BndLoop K) (i : Nat) : Option (BndLoop K) :=
  let kx := cursorTo i s.kx
  let kl := cursorTo i s.kl
  let ku := cursorTo i s.ku
  let c := cursorVal i kx
  let l := cursorVal i kl
  let u := cursorVal i ku
  if !isInfinite inf l && !isInfinite inf (-u) && isFinite inf c then
    let hi := if isInfinite inf u then inf else u - c
    let lo := if isInfinite inf (-l) then -inf else l - c
    if lo ≤ hi then some ⟨kx, kl, ku, WSet.upd s.lo i lo, WSet.upd s.hi i hi⟩ else none
  else none

/-- loop body of `create_var_bounds`, cauchy/standard_cauchy.c:327-396 -/
def varBoundsBody (inf radius : K) (s : BndLoop K) (j : Nat) : Option (BndLoop K) :=
  let kx := cursorTo j s.kx
  let kl := cursorTo j s.kl
  let ku := cursorTo j s.ku
  let x := cursorVal j kx
  let l := cursorVal j kl
  let u := cursorVal j ku
  if !isInfinite inf l && !isInfinite inf (-u) && isFinite inf x then
    let hi := if isInfinite inf u then radius else min (u - x) radius
    let lo := if isInfinite inf (-l) then -radius else max (l - x) (-radius)
    if lo ≤ hi then some ⟨kx, kl, ku, WSet.upd s.lo j lo, WSet.upd s.hi j hi⟩ else none
  else none

/-- `create_cons_bounds`, cauchy/standard_cauchy.c:259-325 -/
def CauchyLp.createConsBounds (e : LpEnv K) (s : CauchyLp K) (it : Iterate K) : Option (CauchyLp K) :=
  ((List.range e.numCons).foldlM (consBoundsBody e.inf)
    ⟨it.consVal.ents, e.bounds.consLb.ents, e.bounds.consUb.ents, s.consLb, s.consUb⟩).map fun b =>
    { s with consLb := b.lo, consUb := b.hi }

/-- `create_var_bounds`, cauchy/standard_cauchy.c:327-396 -/
def CauchyLp.createVarBounds (e : LpEnv K) (s : CauchyLp K) (it : Iterate K) : Option (CauchyLp K) :=
  if 0 < s.radius then
    ((List.range e.numVars).foldlM (varBoundsBody e.inf s.radius)
      ⟨it.primal.ents, e.bounds.varsLb.ents, e.bounds.varsUb.ents, s.varsLb, s.varsUb⟩).map fun b =>
      { s with varsLb := b.lo, varsUb := b.hi }
  else none

/-- `create_default_objective`, cauchy/standard_cauchy.c:398-430 -/
def CauchyLp.createObjective (e : LpEnv K) (s : CauchyLp K) (grad : Option (Vec K)) (penalty : K) : Option (CauchyLp K) :=
  let o : Nat → K := fun j => if j < e.numVars then 0 else if j < e.numLp then penalty else s.objective j
  match grad with
  | none => some { s with objective := o }
  | some g => if g.dim = e.numVars then
      some { s with objective := g.ents.foldl (fun o t => WSet.upd o t.1 t.2) o } else none

/-- `append_identities`, cauchy/standard_cauchy.c:203-243 -/
def appendIdentities (J : Mat K) (n m : Nat) : Option (Mat K) :=
  if m = J.numRows ∧ n = J.numCols then
    ((J.reserve (J.nnz + 2 * m)).resize J.numRows (J.numCols + 2 * m)).assembleFrom n
      (((List.range m).map fun i => [(i, 1)]) ++ (List.range m).map fun i => [(i, -1)])
  else none

/-- `remove_identities`, cauchy/standard_cauchy.c:245-257 -/
def removeIdentities (J : Mat K) (n m : Nat) : Option (Mat K) :=
  if m = J.numRows ∧ n + 2 * m = J.numCols then some (J.resize m n) else none

/-- `set_default_coefficients`, cauchy/standard_cauchy.c:432-460; the matrix of the iterate is returned -/
def CauchyLp.setCoeffs (e : LpEnv K) (s : CauchyLp K) (J : Mat K) : Option (CauchyLp K × Mat K) :=
  if !e.nonlinear && s.hasCoeffs then some (s, J)
  else
    (appendIdentities J J.numCols J.numRows).bind fun A =>
    if A.isValid then
      (removeIdentities A J.numCols J.numRows).bind fun J' =>
      if J'.isValid then some ({ s with lp := { s.lp with coeffs := A }, hasCoeffs := true }, J') else none
    else none

/-- `sleqp_lpi_set_bounds` on the default interface, lp/lpi.c:111-125 -/
def CauchyLp.setBounds (s : CauchyLp K) : CauchyLp K :=
  { s with lp := { s.lp with consLb := s.consLb, consUb := s.consUb, varsLb := s.varsLb, varsUb := s.varsUb } }

/-- `standard_cauchy_set_iterate`, cauchy/standard_cauchy.c:462-498; also the iterate, whose matrix was extended
and restored -/
def CauchyLp.setIterate (e : LpEnv K) (s : CauchyLp K) (it : Iterate K) (radius : K) : Option (CauchyLp K × Iterate K) :=
  if 0 < radius then
    (({ s with radius := radius } : CauchyLp K).createVarBounds e it).bind fun s1 =>
    (s1.createConsBounds e it).bind fun s2 =>
    (s2.setBounds.setCoeffs e it.consJac).map fun r =>
      ({ r.1 with iterate := some { it with consJac := r.2 } }, { it with consJac := r.2 })
  else none

/-- `standard_cauchy_set_trust_radius`, cauchy/standard_cauchy.c:500-524 -/
def CauchyLp.setRadius (e : LpEnv K) (s : CauchyLp K) (radius : K) : Option (CauchyLp K) :=
  s.iterate.bind fun it =>
    (({ s with radius := radius } : CauchyLp K).createVarBounds e it).map fun s1 => s1.setBounds

/-- the first `k` cells are overwritten -/
def overlay {α : Type*} (k : Nat) (new old : Nat → α) : Nat → α := fun i => if i < k then new i else old i

/-- base status part of `cauchy_fetch_components`, cauchy/standard_cauchy.c:526-564 -/
def CauchyLp.fetchStats (e : LpEnv K) (s : CauchyLp K) : CauchyLp K :=
  let a := if s.useReduced then s.redSol else s.sol
  let k := if s.useReduced then e.numVars else e.numLp
  if s.dirtyStats then
    { s with varStats := overlay k a.varStats s.varStats, consStats := overlay e.numCons a.consStats s.consStats, dirtyStats := false }
  else s

/-- primal part of `cauchy_fetch_components`, cauchy/standard_cauchy.c:526-564 -/
def CauchyLp.fetchPrimal (e : LpEnv K) (s : CauchyLp K) : CauchyLp K :=
  let a := if s.useReduced then s.redSol else s.sol
  let k := if s.useReduced then e.numVars else e.numLp
  if s.dirtyPrimal then { s with primal := overlay k a.primal s.primal, dirtyPrimal := false } else s

/-- dual part of `cauchy_fetch_components`, cauchy/standard_cauchy.c:526-564; the second array is written
behind the first `num_lp_variables` cells, also for the reduced problem -/
def CauchyLp.fetchDual (e : LpEnv K) (s : CauchyLp K) : CauchyLp K :=
  let a := if s.useReduced then s.redSol else s.sol
  let k := if s.useReduced then e.numVars else e.numLp
  if s.dirtyDual then
    { s with
      dual := fun j => if j < k then a.varsDual j
        else if e.numLp ≤ j ∧ j < e.numLp + e.numCons then a.consDual (j - e.numLp) else s.dual j
      dirtyDual := false }
  else s

/-- `cauchy_cons_state`, cauchy/standard_cauchy.c:664-698 -/
def lpConsState (cons lowerSlack upperSlack : BaseStat) (equal : Bool) : Option ActiveState :=
  if lowerSlack = .lower ∨ upperSlack = .lower then
    some (if cons = .basic ∨ cons = .zero then .inactive
      else if lowerSlack = .lower ∧ upperSlack = .lower then
        if equal then .both else if cons = .lower then .lower else if cons = .upper then .upper else .inactive
      else .inactive)
  else none

/-- the state of constraint `i` for the current base status -/
def CauchyLp.consState (e : LpEnv K) (s : CauchyLp K) (i : Nat) (l u : K) : Option ActiveState :=
  lpConsState (s.consStats i) (s.varStats (e.numVars + i)) (s.varStats (e.numVars + e.numCons + i)) (isEq l u e.eps)

/-- loop of `needs_reduced_resolve`, cauchy/standard_cauchy.c:700-787, over the constraints left; the loop ends early at a nonzero
slack -/
def CauchyLp.resolveLoop (e : LpEnv K) (s : CauchyLp K) : List Nat → List (Nat × K) → List (Nat × K) → Bool → Option Bool
  | [], _, _, needs => some needs
  | i :: is, kl, ku, needs =>
    (s.consState e i (cursorVal i (cursorTo i kl)) (cursorVal i (cursorTo i ku))).bind fun st =>
      if st ≠ .inactive then s.resolveLoop e is (cursorTo i kl) (cursorTo i ku) needs
      else if s.primal (e.numVars + i) = 0 ∧ s.primal (e.numVars + e.numCons + i) = 0 then
        s.resolveLoop e is (cursorTo i kl) (cursorTo i ku) (needs || decide (s.dual (e.numLp + i) ≠ 0))
      else some false

/-- `switch_to_reduced_problem`, cauchy/standard_cauchy.c:566-662, without the initial basis; `S` is the LP solver -/
def CauchyLp.switchReduced (e : LpEnv K) (S : LpArrays K → Option (LpSol K)) (s0 : CauchyLp K) : Option (CauchyLp K) :=
  s0.iterate.bind fun it =>
  let s := (s0.fetchStats e).fetchPrimal e
  let diff : Nat → K := fun i => s.primal (e.numVars + i) - s.primal (e.numVars + e.numCons + i)
  let cl : Nat → K := fun i => if i < e.numCons then s.consLb i + diff i else s.consLb i
  let cu : Nat → K := fun i => if i < e.numCons then s.consUb i + diff i else s.consUb i
  let red : LpArrays K := ⟨e.numVars, e.numCons, s.objective, cl, cu, s.varsLb, s.varsUb, it.consJac⟩
  (S red).map fun a =>
    { s with consLb := cl, consUb := cu, red := red, redSol := a, useReduced := true
             dirtyStats := true, dirtyPrimal := true, dirtyDual := true }

/-- the number of nonbasic variables and constraints counted by `check_basis`, cauchy/standard_cauchy.c:789-821, is
that of the variables -/
def CauchyLp.checkBasis (e : LpEnv K) (s : CauchyLp K) : Bool :=
  decide ((List.range e.numLp).countP (fun j => decide (s.varStats j ≠ .basic)) +
    (List.range e.numCons).countP (fun i => decide (s.consStats i ≠ .basic)) = e.numLp)

/-- the basis handed to the LP solver -/
inductive BasisCall
  | restore (t : LpObj) | slack
  deriving DecidableEq, Repr

/-- `restore_basis`, cauchy/standard_cauchy.c:823-840 -/
def CauchyLp.restoreBasis (s : CauchyLp K) (t : LpObj) : CauchyLp K × Option BasisCall :=
  if s.current ≠ some t ∧ s.hasBasis t = true then (s, some (.restore t))
  else if s.firstSolve then ({ s with firstSolve := false }, some .slack) else (s, none)

/-- choice of the basis in `standard_cauchy_solve`, cauchy/standard_cauchy.c:842-945 -/
def CauchyLp.warmStart (e : LpEnv K) (s : CauchyLp K) (t : LpObj) : CauchyLp K × Option BasisCall :=
  if e.warm then
    match t with
    | .mixed => if s.current ≠ some .mixed then s.restoreBasis .default else (s, none)
    | t => s.restoreBasis t
  else (s, none)

/-- base status of the variables in `create_and_set_slack_basis`, cauchy/standard_cauchy.c:71-132 -/
def CauchyLp.slackVarStats (e : LpEnv K) (s : CauchyLp K) (j : Nat) : BaseStat :=
  if j < e.numVars then .lower
  else if j < e.numVars + e.numCons then if 0 < s.consLb (j - e.numVars) then .basic else .lower
  else if 0 < s.consLb (j - e.numVars - e.numCons) then .lower
  else if s.consUb (j - e.numVars - e.numCons) < 0 then .basic else .lower

/-- base status of the constraints in `create_and_set_slack_basis`, cauchy/standard_cauchy.c:71-132 -/
def CauchyLp.slackConsStats (s : CauchyLp K) (i : Nat) : BaseStat :=
  if 0 < s.consLb i then .lower else if s.consUb i < 0 then .upper else .basic

/-- `standard_cauchy_solve`, cauchy/standard_cauchy.c:842-945; `S` and `S'` are the LP solvers for the default and the reduced
problem -/
def CauchyLp.solve (e : LpEnv K) (S S' : LpArrays K → Option (LpSol K)) (s : CauchyLp K) (grad : Option (Vec K)) (penalty : K) (t : LpObj) :
    Option (CauchyLp K × Option BasisCall) :=
  (s.createObjective e grad penalty).bind fun s1 =>
  let w := ({ s1 with lp := { s1.lp with obj := s1.objective } } : CauchyLp K).warmStart e t
  let s2 := { w.1 with current := some t }
  (S s2.lp).bind fun a =>
  let s3 := ({ s2 with sol := a, dirtyStats := true, dirtyPrimal := true, dirtyDual := true, useReduced := false } : CauchyLp K).fetchStats e
  if s3.checkBasis e then
    let s4 := { s3 with saved := fun u => if e.warm ∧ u = t then true else s3.saved u
                        hasBasis := fun u => if u = t then true else s3.hasBasis u }
    if e.resolves ∧ t = .default then
      let s5 := (s4.fetchPrimal e).fetchDual e
      (s5.resolveLoop e (List.range e.numCons) e.bounds.consLb.ents e.bounds.consUb.ents false).bind fun r =>
        if r then (s5.switchReduced e S').map fun s6 => (s6, w.2) else some (s5, w.2)
    else some (s4, w.2)
  else none

/-- `standard_cauchy_obj_val`, cauchy/standard_cauchy.c:947-959 -/
def CauchyLp.objVal (s : CauchyLp K) : Option K := s.iterate.map fun it => s.sol.objVal + it.objVal

/-- loop body of `cauchy_working_set_add_vars`, cauchy/standard_cauchy.c:961-1028: cursors and working set -/
def addVarsBody (e : LpEnv K) (radius : K) (stats : Nat → BaseStat) (s : List (Nat × K) × List (Nat × K) × List (Nat × K) × WSet) (i : Nat) :
    Option (List (Nat × K) × List (Nat × K) × List (Nat × K) × WSet) :=
  let kx := cursorTo i s.1
  let kl := cursorTo i s.2.1
  let ku := cursorTo i s.2.2.1
  let x := cursorVal i kx
  let l := cursorVal i kl
  let u := cursorVal i ku
  if stats i ≠ .zero then
    (if isEq l u e.eps then s.2.2.2.addVar i .both
      else if stats i = .lower ∧ x - l < radius then s.2.2.2.addVar i .lower
      else if stats i = .upper ∧ u - x < radius then s.2.2.2.addVar i .upper
      else some s.2.2.2).map fun w => (kx, kl, ku, w)
  else none

/-- `cauchy_working_set_add_vars`, cauchy/standard_cauchy.c:961-1028 (the base status is fetched) -/
def CauchyLp.addVars (e : LpEnv K) (s : CauchyLp K) (it : Iterate K) (w : WSet) : Option WSet :=
  ((List.range e.numVars).foldlM (addVarsBody e s.radius s.varStats)
    (it.primal.ents, e.bounds.varsLb.ents, e.bounds.varsUb.ents, w)).map fun r => r.2.2.2

/-- loop body of `cauchy_working_set_add_cons`, cauchy/standard_cauchy.c:1030-1084 -/
def addConsBody (e : LpEnv K) (s : CauchyLp K) (r : List (Nat × K) × List (Nat × K) × WSet) (i : Nat) :
    Option (List (Nat × K) × List (Nat × K) × WSet) :=
  let kl := cursorTo i r.1
  let ku := cursorTo i r.2.1
  (s.consState e i (cursorVal i kl) (cursorVal i ku)).bind fun st =>
    (if st ≠ .inactive then r.2.2.addCons i st else some r.2.2).map fun w => (kl, ku, w)

/-- `cauchy_working_set_add_cons`, cauchy/standard_cauchy.c:1030-1084 (the base status is fetched) -/
def CauchyLp.addCons (e : LpEnv K) (s : CauchyLp K) (w : WSet) : Option WSet :=
  ((List.range e.numCons).foldlM (addConsBody e s) (e.bounds.consLb.ents, e.bounds.consUb.ents, w)).map fun r => r.2.2

/-- loop body of `get_reduced_working_set`, cauchy/standard_cauchy.c:1086-1128 -/
def addReducedBody (e : LpEnv K) (s : CauchyLp K) (w : WSet) (i : Nat) : Option WSet :=
  if s.consStats i = .basic ∨ s.consStats i = .zero then some w
  else if s.primal (e.numVars + i) = 0 ∧ s.primal (e.numVars + e.numCons + i) = 0 then
    if s.consStats i = .lower then w.addCons i .lower
    else if s.consStats i = .upper then w.addCons i .upper else some w
  else some w

/-- `standard_cauchy_working_set`, cauchy/standard_cauchy.c:1140-1168, with `get_reduced_working_set`,
cauchy/standard_cauchy.c:1086-1128, and `get_simple_working_set`, cauchy/standard_cauchy.c:1130-1138. -/
def CauchyLp.workingSet (e : LpEnv K) (s0 : CauchyLp K) (it : Iterate K) (w0 : WSet) : Option (CauchyLp K × WSet) :=
  let s := s0.fetchStats e
  (s.addVars e it w0.reset).bind fun w1 =>
  (if s.useReduced then (List.range e.numCons).foldlM (addReducedBody e s) w1 else s.addCons e w1).bind fun w =>
  if w.valid = some true then some (s, w) else none

/-- `standard_cauchy_lp_step`, cauchy/standard_cauchy.c:1170-1188 -/
def CauchyLp.lpStep (e : LpEnv K) (s0 : CauchyLp K) (direction : Vec K) : Option (CauchyLp K × Vec K) :=
  let s := s0.fetchPrimal e
  (Vec.setFromRaw e.zeroEps direction ((List.range e.numVars).map s.primal)).map fun d => (s, d)

/-- first loop of `standard_cauchy_locally_infeasible`, cauchy/standard_cauchy.c:1190-1324: is a trust region bound active? -/
def CauchyLp.radiusLoop (e : LpEnv K) (s : CauchyLp K) :
    List Nat → List (Nat × K) → List (Nat × K) → List (Nat × K) → Option Bool
  | [], _, _, _ => some false
  | i :: is, kx, kl, ku =>
    let x := cursorVal i (cursorTo i kx)
    let l := cursorVal i (cursorTo i kl)
    let u := cursorVal i (cursorTo i ku)
    if s.varStats i ≠ .zero then
      if isEq l u e.eps then s.radiusLoop e is (cursorTo i kx) (cursorTo i kl) (cursorTo i ku)
      else if s.varStats i = .lower ∧ x - l ≥ s.radius then some true
      else if s.varStats i = .upper ∧ u - x ≥ s.radius then some true
      else s.radiusLoop e is (cursorTo i kx) (cursorTo i kl) (cursorTo i ku)
    else none

/-- second loop of `standard_cauchy_locally_infeasible`, cauchy/standard_cauchy.c:1190-1324 (the cursors are not
used) -/
def feasibleBody (e : LpEnv K) (s : CauchyLp K) (feas : Bool) (i : Nat) : Option Bool :=
  if s.consStats i = .basic then some feas
  else if s.varStats (e.numVars + i) ≠ .basic ∨ s.varStats (e.numVars + e.numCons + i) ≠ .basic then
    some (feas && decide (s.varStats (e.numVars + i) = .lower ∧ s.varStats (e.numVars + e.numCons + i) = .lower))
  else none

/-- `standard_cauchy_locally_infeasible`, cauchy/standard_cauchy.c:1190-1324 -/
def CauchyLp.locallyInfeasible (e : LpEnv K) (s0 : CauchyLp K) : Option (CauchyLp K × Bool) :=
  s0.iterate.bind fun it =>
  if s0.useReduced then none
  else
    let s := s0.fetchStats e
    if 0 < s.radius then
      (s.radiusLoop e (List.range e.numVars) it.primal.ents e.bounds.varsLb.ents e.bounds.varsUb.ents).bind fun active =>
      ((List.range e.numCons).foldlM (feasibleBody e s) true).map fun feas => (s, !(feas || active))
    else none

/-- the test of one entry in `trim_duals_to_working_set`, cauchy/standard_cauchy.c:1326-1379: is it kept? -/
def trimKeep (st : ActiveState) (v : K) : Bool :=
  match st with
  | .inactive => false
  | .upper => !decide (v < 0)
  | .lower => !decide (v > 0)
  | .both => true

/-- `trim_duals_to_working_set`, cauchy/standard_cauchy.c:1326-1379: the entries kept are moved to the front of the
arrays -/
def trimDuals (states : Nat → ActiveState) (dual : Vec K) : Vec K :=
  { dual with ents := dual.ents.filter fun t => trimKeep (states t.1) t.2 }

/-- one half of `standard_cauchy_estimate_duals`, cauchy/standard_cauchy.c:1381-1442: multipliers from the array written by the LP
interface -/
def lpDuals (e : LpEnv K) (k : Nat) (raw : Nat → K) (states : Nat → ActiveState) (dual : Vec K) : Option (Vec K) :=
  if dual.dim = k then
    (Vec.setFromRaw e.zeroEps dual ((List.range k).map raw)).map fun d => trimDuals states (d.scale (-1))
  else none

/-- `standard_cauchy_estimate_duals`, cauchy/standard_cauchy.c:1381-1442, with both vectors given: multipliers of the variables and of
the constraints. The array `vars_dual` is overwritten twice. -/
def CauchyLp.estimateDuals (e : LpEnv K) (s : CauchyLp K) (w : WSet) (consDual varsDual : Vec K) : Option (CauchyLp K × Vec K × Vec K) :=
  (lpDuals e e.numVars s.sol.varsDual w.varState varsDual).bind fun vd =>
  (lpDuals e e.numCons s.sol.consDual w.consState consDual).map fun cd =>
    ({ s with dual := overlay e.numCons s.sol.consDual (overlay e.numLp s.sol.varsDual s.dual) }, vd, cd)

/-- `standard_cauchy_violation`, cauchy/standard_cauchy.c:1444-1465 -/
def CauchyLp.violation (e : LpEnv K) (s0 : CauchyLp K) : CauchyLp K × K :=
  let s := { s0 with primal := overlay e.numLp s0.sol.primal s0.primal }
  (s, (List.range' e.numVars (2 * e.numCons)).foldl (fun v j => v + s.primal j) 0)

/-! ### Histories -/

/-- a call -/
inductive LpOp (K : Type*)
  | setIterate (it : Iterate K) (radius : K)
  | setRadius (radius : K)
  | solve (S S' : LpArrays K → Option (LpSol K)) (grad : Option (Vec K)) (penalty : K) (t : LpObj)
  | lpStep (d : Vec K)
  | workingSet (it : Iterate K) (w : WSet)
  | locallyInfeasible
  | estimateDuals (w : WSet) (consDual varsDual : Vec K)
  | violation

/-- the state after a call; the assert of `sleqp_cauchy_solve`, cauchy/cauchy.c:57-69, asks for a trust radius, which is set
with an iterate -/
def LpOp.apply (e : LpEnv K) (s : CauchyLp K) : LpOp K → Option (CauchyLp K)
  | .setIterate it radius => (s.setIterate e it radius).map Prod.fst
  | .setRadius radius => s.setRadius e radius
  | .solve S S' grad penalty t => if s.iterate.isSome then (s.solve e S S' grad penalty t).map Prod.fst else none
  | .lpStep d => (s.lpStep e d).map Prod.fst
  | .workingSet it w => (s.workingSet e it w).map Prod.fst
  | .locallyInfeasible => (s.locallyInfeasible e).map Prod.fst
  | .estimateDuals w cd vd => (s.estimateDuals e w cd vd).map Prod.fst
  | .violation => some (s.violation e).1

/-- the state after a sequence of calls -/
def LpOp.run (e : LpEnv K) (s : CauchyLp K) (ops : List (LpOp K)) : Option (CauchyLp K) := ops.foldlM (LpOp.apply e) s

end Sleqp
