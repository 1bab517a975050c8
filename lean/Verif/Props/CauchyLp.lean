import Verif.Lemmas.CauchyLpEx
import Verif.Lemmas.PresolveRun

/-! C73: the LP-based Cauchy step. -/

namespace Sleqp
open Finset
variable {K : Type*} [Field K] [LinearOrder K] [IsStrictOrderedRing K]
variable {e : LpEnv K} {J0 : Nat → Nat → K} {s0 s : CauchyLp K} {it : Iterate K} {r penalty : K} {grad : Option (Vec K)}
variable {ops qs : List (LpOp K)} {S S' : LpArrays K → Option (LpSol K)} {t : LpObj}

/-- C73. After any history of calls that ends with `solve` and queries, `lp_step` succeeds. Up to values of absolute value at most
`zero_eps`, which are dropped, the step it returns minimises the linear model of the penalty function
over the trust region and the bounds of the variables, for the iterate, trust radius, gradient and penalty parameter given last. The step
itself is in this region, too. -/
theorem C73_step (hb : LpBounds e) (hops : ∀ op ∈ ops, op.Ok e J0) (hsolve : (LpOp.solve S S' grad penalty t).Ok e J0)
    (hqs : ∀ q ∈ qs, q.isQuery) (hcur : LpOp.current ops = some (it, r))
    (hrun : LpOp.run e (CauchyLp.create e s0) (ops ++ .solve S S' grad penalty t :: qs) = some s) (d : Vec K) :
    ∃ s' d', s.lpStep e d = some (s', d') ∧ d'.WF ∧ d'.dim = e.numVars ∧ InRegion e it r d'.value ∧
      ∃ p, OptStep e it r grad penalty p ∧ ∀ j < e.numVars, d'.value j = if |p j| ≤ e.zeroEps then 0 else p j := by
  have hsol := solved_run hb hops hsolve hqs hcur hrun
  obtain ⟨h1, h2⟩ := solved_fetchPrimal hsol
  have hopt := solved_primal hb hsolve.2.2.2 h1 h2
  obtain ⟨d', hd1, hd2, hd3, hd4⟩ := setFromRaw_spec e.zeroEps d ((List.range e.numVars).map (s.fetchPrimal e).primal)
  have hval : ∀ j < e.numVars, d'.value j = if |(s.fetchPrimal e).primal j| ≤ e.zeroEps then 0 else (s.fetchPrimal e).primal j := by
    intro j hj
    rw [hd4, List.getElem?_map, List.getElem?_range hj]
    rfl
  refine ⟨s.fetchPrimal e, d', ?_, hd2, by rw [hd3]; simp, fun j hj => ?_, _, hopt, hval⟩
  · unfold CauchyLp.lpStep; dsimp only; rw [hd1]; rfl
  · rw [hval j hj]
    split
    · exact inRegion_zero hsol.fits hsol.rpos j hj
    · exact hopt.1 j hj

/-- C73. The value reported is that of the linear model at every minimiser. -/
theorem C73_value (hb : LpBounds e) (hops : ∀ op ∈ ops, op.Ok e J0) (hsolve : (LpOp.solve S S' grad penalty t).Ok e J0)
    (hqs : ∀ q ∈ qs, q.isQuery) (hcur : LpOp.current ops = some (it, r))
    (hrun : LpOp.run e (CauchyLp.create e s0) (ops ++ .solve S S' grad penalty t :: qs) = some s) :
    ∃ v, s.objVal = some v ∧ (∃ p, OptStep e it r grad penalty p) ∧
      ∀ p, OptStep e it r grad penalty p → v = it.objVal + linModel e it grad penalty p := by
  have hsol := solved_run hb hops hsolve hqs hcur hrun
  obtain ⟨h1, -, h3, -⟩ := solved_opt hb hsolve.2.2.2 hsol
  obtain ⟨J', hJ⟩ : ∃ J', s.iterate = some { it with consJac := J' } := by
    obtain ⟨J', h⟩ := hsol.iter
    exact ⟨J', h.2⟩
  refine ⟨s.sol.objVal + it.objVal, ?_, ⟨_, h1⟩, fun p hp => ?_⟩
  · unfold CauchyLp.objVal; rw [hJ]; rfl
  · rw [h3, le_antisymm (h1.2 p hp.1) (hp.2 _ h1.1), add_comm]

/-- C73. With a positive penalty parameter, the violation reported is the total violation of the linearised constraints at a minimiser -/
theorem C73_violation (hb : LpBounds e) (hops : ∀ op ∈ ops, op.Ok e J0) (hsolve : (LpOp.solve S S' grad penalty t).Ok e J0)
    (hqs : ∀ q ∈ qs, q.isQuery) (hcur : LpOp.current ops = some (it, r))
    (hrun : LpOp.run e (CauchyLp.create e s0) (ops ++ .solve S S' grad penalty t :: qs) = some s) (hp : 0 < penalty) :
    ∃ p, OptStep e it r grad penalty p ∧ (s.violation e).2 = linViol e it p := by
  have hsol := solved_run hb hops hsolve hqs hcur hrun
  obtain ⟨h1, -, -, h4⟩ := solved_opt hb hsolve.2.2.2 hsol
  refine ⟨_, h1, ?_⟩
  rw [← h4 hp]
  have hfold : ∀ (l : List Nat) (f : Nat → K) (v : K), l.foldl (fun v j => v + f j) v = v + (l.map f).sum := by
    intro l f
    induction l with
    | nil => intro v; simp
    | cons a l ih => intro v; rw [List.foldl_cons, ih, List.map_cons, List.sum_cons, add_assoc]
  show (List.range' e.numVars (2 * e.numCons)).foldl (fun v j => v + overlay e.numLp s.sol.primal s.primal j) 0 = _
  rw [hfold, zero_add, List.range'_eq_map_range, List.map_map]
  have : ((List.range (2 * e.numCons)).map ((overlay e.numLp s.sol.primal s.primal) ∘ fun x => e.numVars + x)).sum =
      ∑ k ∈ range (2 * e.numCons), s.sol.primal (e.numVars + k) := by
    rw [← List.sum_toFinset _ List.nodup_range, List.toFinset_range]
    refine sum_congr rfl fun k hk => ?_
    rw [mem_range] at hk
    exact overlay_lt (show e.numVars + k < e.numLp by unfold LpEnv.numLp; omega)
  rw [this, two_mul, sum_range_add, sum_add_distrib]
  congr 1
  exact sum_congr rfl fun k _ => by rw [add_assoc]

/-- C73. The reported value is at most the merit value of the iterate: the predicted reduction, from which the solver computes its criticality bound, is not
negative. It is zero exactly if the zero step is a minimiser. -/
theorem C73_reduction (hb : LpBounds e) (hops : ∀ op ∈ ops, op.Ok e J0) (hsolve : (LpOp.solve S S' grad penalty t).Ok e J0)
    (hqs : ∀ q ∈ qs, q.isQuery) (hcur : LpOp.current ops = some (it, r))
    (hrun : LpOp.run e (CauchyLp.create e s0) (ops ++ .solve S S' grad penalty t :: qs) = some s) {v : K} (hv : s.objVal = some v) :
    v ≤ it.objVal + penalty * linViol e it (fun _ => 0) ∧
      (v = it.objVal + penalty * linViol e it (fun _ => 0) ↔ OptStep e it r grad penalty fun _ => 0) := by
  have hsol := solved_run hb hops hsolve hqs hcur hrun
  obtain ⟨v', h1, ⟨p, hp⟩, h3⟩ := C73_value hb hops hsolve hqs hcur hrun
  have : v = v' := by rw [hv] at h1; injection h1
  subst this
  have hz := inRegion_zero hsol.fits hsol.rpos
  have hm : linModel e it grad penalty (fun _ => 0) = penalty * linViol e it (fun _ => 0) := by
    unfold linModel gradPart
    cases grad <;> simp
  have hle := hp.2 _ hz
  rw [hm] at hle
  rw [h3 p hp]
  refine ⟨by linarith, fun h => ⟨hz, fun d hd => ?_⟩, fun h => ?_⟩
  · rw [hm]
    have := hp.2 d hd
    linarith
  · have h5 := h.2 p hp.1
    rw [hm] at h5
    linarith

/-- C73. The larger the penalty parameter, the smaller the violation reported for the same iterate, trust radius and gradient, whatever the
histories. -/
theorem C73_violation_antitone (hb : LpBounds e) (hops : ∀ op ∈ ops, op.Ok e J0) (hsolve : (LpOp.solve S S' grad penalty t).Ok e J0)
    (hqs : ∀ q ∈ qs, q.isQuery) (hcur : LpOp.current ops = some (it, r))
    (hrun : LpOp.run e (CauchyLp.create e s0) (ops ++ .solve S S' grad penalty t :: qs) = some s) (hp : 0 < penalty)
    {s0' s' : CauchyLp K} {ops' qs' : List (LpOp K)} {T T' : LpArrays K → Option (LpSol K)} {penalty' : K} {t' : LpObj}
    (hops' : ∀ op ∈ ops', op.Ok e J0) (hsolve' : (LpOp.solve T T' grad penalty' t').Ok e J0) (hqs' : ∀ q ∈ qs', q.isQuery)
    (hcur' : LpOp.current ops' = some (it, r))
    (hrun' : LpOp.run e (CauchyLp.create e s0') (ops' ++ .solve T T' grad penalty' t' :: qs') = some s') (hlt : penalty < penalty') :
    (s'.violation e).2 ≤ (s.violation e).2 := by
  obtain ⟨p, h1, h2⟩ := C73_violation hb hops hsolve hqs hcur hrun hp
  obtain ⟨p', h1', h2'⟩ := C73_violation hb hops' hsolve' hqs' hcur' hrun' (hp.trans hlt)
  rw [h2, h2']
  have a := h1.2 p' h1'.1
  have b := h1'.2 p h1.1
  unfold linModel at a b
  by_contra hc
  have hc' : linViol e it p < linViol e it p' := not_le.mp hc
  have : (penalty' - penalty) * linViol e it p < (penalty' - penalty) * linViol e it p' := mul_lt_mul_of_pos_left hc' (by linarith)
  linarith

/-- C73. `set_iterate` changes the iterate only in the storage of its Jacobian: the columns are the same. It succeeds after any history. -/
theorem C73_set_iterate (hb : LpBounds e) (hops : ∀ op ∈ ops, op.Ok e J0) (hset : (LpOp.setIterate it r).Ok e J0)
    (hrun : LpOp.run e (CauchyLp.create e s0) ops = some s) :
    ∃ s' J', s.setIterate e it r = some (s', { it with consJac := J' }) ∧ SameMat e.numVars e.numCons it.consJac J' := by
  have h := lpHist_run hb hops lpHist_create hrun
  obtain ⟨h1, h2, h3, h4⟩ := hset
  obtain ⟨s1, J', a1, a2, -⟩ := setIterate_spec hb h1 h2 h3 h.base h4
  exact ⟨s1, J', a1, a2⟩

/-- C73. With an iterate set, the trust radius can be changed and, with LP solvers that solve every feasible bounded linear program, the step can be
computed: no assert fails. -/
theorem C73_total (hb : LpBounds e) (hops : ∀ op ∈ ops, op.Ok e J0) (hcur : LpOp.current ops = some (it, r))
    (hrun : LpOp.run e (CauchyLp.create e s0) ops = some s) :
    (∀ r', 0 < r' → r' < e.inf → (LpOp.run e (CauchyLp.create e s0) (ops ++ [.setRadius r'])).isSome) ∧
    ((LpOp.solve S S' grad penalty t).Ok e J0 → LpComplete e.inf S → LpComplete e.inf S' →
      (LpOp.run e (CauchyLp.create e s0) (ops ++ [.solve S S' grad penalty t])).isSome) := by
  have h := (lpHist_run hb hops lpHist_create hrun).some it r hcur
  have happ : ∀ op, LpOp.run e (CauchyLp.create e s0) (ops ++ [op]) = op.apply e s := by
    intro op
    unfold LpOp.run at hrun ⊢
    rw [List.foldlM_append, hrun]
    show List.foldlM (LpOp.apply e) s [op] = _
    rw [List.foldlM_cons]
    cases op.apply e s <;> rfl
  refine ⟨fun r' h1 h2 => ?_, fun h1 h2 h3 => ?_⟩
  · obtain ⟨s1, a, -⟩ := setRadius_spec hb h1 h2 h
    rw [happ]
    show (s.setRadius e r').isSome = true
    rw [a]; rfl
  · obtain ⟨s1, b, a⟩ := solve_some hb h h1.2.2.1 h1.2.2.2 h1.1 h2 h3 t
    rw [happ]
    show (if s.iterate.isSome then (s.solve e S S' grad penalty t).map Prod.fst else none).isSome = true
    obtain ⟨J', hJ⟩ := h.iter
    rw [hJ.2, a]; rfl

/-! ### Bases -/

theorem basis_fetchStats : (s.fetchStats e).hasBasis = s.hasBasis ∧ (s.fetchStats e).saved = s.saved := by
  unfold CauchyLp.fetchStats
  dsimp only
  split <;> exact ⟨rfl, rfl⟩

theorem basis_fetchPrimal : (s.fetchPrimal e).hasBasis = s.hasBasis ∧ (s.fetchPrimal e).saved = s.saved := by
  unfold CauchyLp.fetchPrimal
  dsimp only
  split <;> exact ⟨rfl, rfl⟩

theorem basis_fetchDual : (s.fetchDual e).hasBasis = s.hasBasis ∧ (s.fetchDual e).saved = s.saved := by
  unfold CauchyLp.fetchDual
  dsimp only
  split <;> exact ⟨rfl, rfl⟩

theorem basis_restore (u : LpObj) : (s.restoreBasis u).1.hasBasis = s.hasBasis ∧ (s.restoreBasis u).1.saved = s.saved ∧
    ∀ v, (s.restoreBasis u).2 = some (.restore v) → s.hasBasis v = true := by
  unfold CauchyLp.restoreBasis
  split
  · rename_i h
    exact ⟨rfl, rfl, fun v hv => by injection hv with hv; injection hv with hv; rw [← hv]; exact h.2⟩
  · split
    · exact ⟨rfl, rfl, fun v hv => by cases hv⟩
    · exact ⟨rfl, rfl, fun v hv => by cases hv⟩

theorem basis_warm (t : LpObj) : (s.warmStart e t).1.hasBasis = s.hasBasis ∧ (s.warmStart e t).1.saved = s.saved ∧
    ∀ v, (s.warmStart e t).2 = some (.restore v) → e.warm = true ∧ s.hasBasis v = true := by
  unfold CauchyLp.warmStart
  split
  · rename_i hw
    split
    · split
      · exact ⟨(basis_restore _).1, (basis_restore _).2.1, fun v hv => ⟨hw, (basis_restore _).2.2 v hv⟩⟩
      · exact ⟨rfl, rfl, fun v hv => by cases hv⟩
    · exact ⟨(basis_restore _).1, (basis_restore _).2.1, fun v hv => ⟨hw, (basis_restore _).2.2 v hv⟩⟩
  · exact ⟨rfl, rfl, fun v hv => by cases hv⟩

/-- the effect of `solve` on the stored bases -/
theorem basis_solve {b : Option BasisCall} {s' : CauchyLp K} (h : s.solve e S S' grad penalty t = some (s', b)) :
    s'.hasBasis = (fun u => if u = t then true else s.hasBasis u) ∧ s'.saved = (fun u => if e.warm ∧ u = t then true else s.saved u) ∧
      ∀ v, b = some (.restore v) → e.warm = true ∧ s.hasBasis v = true := by
  unfold CauchyLp.solve at h
  obtain ⟨s1, h1, h⟩ := Option.bind_eq_some_iff.mp h
  have hs1 : s1.hasBasis = s.hasBasis ∧ s1.saved = s.saved := by
    unfold CauchyLp.createObjective at h1
    dsimp only at h1
    split at h1
    · injection h1 with h1; rw [← h1]; exact ⟨rfl, rfl⟩
    · split at h1
      · injection h1 with h1; rw [← h1]; exact ⟨rfl, rfl⟩
      · cases h1
  dsimp only at h
  obtain ⟨w1, w2, w3⟩ := basis_warm (s := { s1 with lp := { s1.lp with obj := s1.objective } }) (e := e) t
  have w1' : (CauchyLp.warmStart e { s1 with lp := { s1.lp with obj := s1.objective } } t).1.hasBasis = s.hasBasis := by rw [w1]; exact hs1.1
  have w2' : (CauchyLp.warmStart e { s1 with lp := { s1.lp with obj := s1.objective } } t).1.saved = s.saved := by rw [w2]; exact hs1.2
  have w3' : ∀ v, (CauchyLp.warmStart e { s1 with lp := { s1.lp with obj := s1.objective } } t).2 = some (.restore v) →
      e.warm = true ∧ s.hasBasis v = true := by rw [← hs1.1]; exact w3
  clear w1 w2 w3
  obtain ⟨a, -, h⟩ := Option.bind_eq_some_iff.mp h
  split at h
  · split at h
    · obtain ⟨c, -, h⟩ := Option.bind_eq_some_iff.mp h
      split at h
      · obtain ⟨s6, h6, h⟩ := Option.map_eq_some_iff.mp h
        injection h with ha hb
        subst ha
        unfold CauchyLp.switchReduced at h6
        obtain ⟨it', -, h6⟩ := Option.bind_eq_some_iff.mp h6
        dsimp only at h6
        obtain ⟨a', -, h6⟩ := Option.map_eq_some_iff.mp h6
        subst hb
        rw [← h6]
        simp only [basis_fetchPrimal, basis_fetchStats, basis_fetchDual, w1', w2']
        exact ⟨trivial, trivial, w3'⟩
      · injection h with h
        injection h with ha hb
        subst hb
        rw [← ha]
        simp only [basis_fetchPrimal, basis_fetchStats, basis_fetchDual, w1', w2']
        exact ⟨trivial, trivial, w3'⟩
    · injection h with h
      injection h with ha hb
      subst hb
      rw [← ha]
      simp only [basis_fetchStats, w1', w2']
      exact ⟨trivial, trivial, w3'⟩
  · cases h

theorem basis_step {op : LpOp K} (h : ∀ u, s.hasBasis u = true → e.warm = true → s.saved u = true) {s' : CauchyLp K}
    (hs : op.apply e s = some s') : ∀ u, s'.hasBasis u = true → e.warm = true → s'.saved u = true := by
  have hquery : op.isQuery → ∀ u, s'.hasBasis u = true → e.warm = true → s'.saved u = true := by
    intro hq
    obtain ⟨-, -, -, -, -, -, -, -, e9, e10⟩ := lpReady_query hq hs
    rw [e9, e10]; exact h
  have hvar : ∀ {x y : CauchyLp K} {it : Iterate K}, x.createVarBounds e it = some y → y.hasBasis = x.hasBasis ∧ y.saved = x.saved := by
    intro x y it hxy
    unfold CauchyLp.createVarBounds at hxy
    split at hxy
    · obtain ⟨b, -, rfl⟩ := Option.map_eq_some_iff.mp hxy
      exact ⟨rfl, rfl⟩
    · cases hxy
  cases op with
  | setIterate it r =>
    obtain ⟨x, hx, rfl⟩ := Option.map_eq_some_iff.mp hs
    unfold CauchyLp.setIterate at hx
    split at hx
    · obtain ⟨s1, h1, hx⟩ := Option.bind_eq_some_iff.mp hx
      obtain ⟨s2, h2, hx⟩ := Option.bind_eq_some_iff.mp hx
      obtain ⟨q, h3, rfl⟩ := Option.map_eq_some_iff.mp hx
      obtain ⟨b, -, rfl⟩ := Option.map_eq_some_iff.mp h2
      have hq : q.1.hasBasis = s1.hasBasis ∧ q.1.saved = s1.saved := by
        unfold CauchyLp.setCoeffs at h3
        split at h3
        · injection h3 with h3; rw [← h3]; exact ⟨rfl, rfl⟩
        · obtain ⟨A, -, h3⟩ := Option.bind_eq_some_iff.mp h3
          split at h3
          · obtain ⟨J', -, h3⟩ := Option.bind_eq_some_iff.mp h3
            split at h3
            · injection h3 with h3; rw [← h3]; exact ⟨rfl, rfl⟩
            · cases h3
          · cases h3
      show ∀ u, q.1.hasBasis u = true → e.warm = true → q.1.saved u = true
      rw [hq.1, hq.2, (hvar h1).1, (hvar h1).2]; exact h
    · cases hx
  | setRadius r =>
    have hs' : s.setRadius e r = some s' := hs
    unfold CauchyLp.setRadius at hs'
    obtain ⟨it', -, hs'⟩ := Option.bind_eq_some_iff.mp hs'
    obtain ⟨s1, h1, rfl⟩ := Option.map_eq_some_iff.mp hs'
    show ∀ u, s1.hasBasis u = true → e.warm = true → s1.saved u = true
    rw [(hvar h1).1, (hvar h1).2]; exact h
  | solve S S' grad penalty t =>
    have hs' : (if s.iterate.isSome then (s.solve e S S' grad penalty t).map Prod.fst else none) = some s' := hs
    split at hs'
    · obtain ⟨⟨x, b⟩, hx, rfl⟩ := Option.map_eq_some_iff.mp hs'
      obtain ⟨h1, h2, -⟩ := basis_solve hx
      intro u hu hw
      dsimp only at hu ⊢
      rw [h1] at hu
      rw [h2]
      by_cases hut : u = t
      · exact if_pos ⟨hw, hut⟩
      · replace hu : (if u = t then true else s.hasBasis u) = true := hu
        rw [if_neg hut] at hu
        show (if e.warm = true ∧ u = t then true else s.saved u) = true
        rw [if_neg (fun c => hut c.2)]; exact h u hu hw
    · cases hs'
  | lpStep _ => exact hquery trivial
  | workingSet _ _ => exact hquery trivial
  | locallyInfeasible => exact hquery trivial
  | estimateDuals _ _ _ => exact hquery trivial
  | violation => exact hquery trivial

/-- C73, without changes of the settings during the run: after any history, `solve` restores only bases that were saved before. -/
theorem C73_basis_partial (hrun : LpOp.run e (CauchyLp.create e s0) ops = some s) {s' : CauchyLp K} {u : LpObj}
    (h : s.solve e S S' grad penalty t = some (s', some (.restore u))) : s.saved u = true := by
  have key : ∀ u, s.hasBasis u = true → e.warm = true → s.saved u = true := by
    exact foldlM_pres (fun s : CauchyLp K => ∀ u, s.hasBasis u = true → e.warm = true → s.saved u = true) (LpOp.apply e) ops
      (fun _ _ _ _ h h' => basis_step h h') hrun fun u hu => by cases hu
  obtain ⟨-, -, h3⟩ := basis_solve h
  obtain ⟨h4, h5⟩ := h3 u rfl
  exact key u h5 h4

/-- A run to which the theorems above apply: minimise `d` for `1/2 ≤ d ≤ 5` and a trust radius that was reduced to one. -/
example : ∃ s, LpOp.run exLpEnv (CauchyLp.create exLpEnv exLpState) (exLpOps ++ exLpSolve :: [.violation]) = some s ∧
    (∃ s' d', s.lpStep exLpEnv ⟨1, 0, []⟩ = some (s', d') ∧ InRegion exLpEnv exLpIterate 1 d'.value ∧ d'.ents = [(0, 1/2)]) ∧
    s.objVal = some (15 / 2) ∧ (s.violation exLpEnv).2 = 0 ∧ ∃ p, OptStep exLpEnv exLpIterate 1 exLpGrad 2 p := by
  obtain ⟨s, h1, h2⟩ := Option.bind_eq_some_iff.mp exLp_run
  obtain ⟨⟨x, y⟩, h3, h4⟩ := Option.map_eq_some_iff.mp h2
  injection h4 with h4 h5
  injection h5 with h5 h6
  obtain ⟨s', d', a1, a2, a3, a4, p, a5, a6⟩ := C73_step exLpEnv_bounds exLpOps_ok exLpSolve_ok (by simp [LpOp.isQuery]) rfl h1 ⟨1, 0, []⟩
  have : (s', d') = (x, y) := by rw [a1] at h3; injection h3
  injection this with e1 e2
  exact ⟨s, h1, ⟨s', d', a1, a4, by rw [e2]; exact h4⟩, h5, h6, p, a5⟩

/-- and the value is the merit value minus a positive reduction -/
example : ∃ s v, LpOp.run exLpEnv (CauchyLp.create exLpEnv exLpState) (exLpOps ++ exLpSolve :: [.violation]) = some s ∧ s.objVal = some v ∧
    v ≤ exLpIterate.objVal + 2 * linViol exLpEnv exLpIterate fun _ => 0 := by
  obtain ⟨s, h1, h2⟩ := Option.bind_eq_some_iff.mp exLp_run
  obtain ⟨v, h3, -⟩ := C73_value exLpEnv_bounds exLpOps_ok exLpSolve_ok (by simp [LpOp.isQuery]) rfl h1
  exact ⟨s, v, h1, h3, (C73_reduction exLpEnv_bounds exLpOps_ok exLpSolve_ok (by simp [LpOp.isQuery]) rfl h1 h3).1⟩

/-- `solve` marks a basis as stored also if warm starts are switched off, when it does not store it. If the user
switches warm starts on during a run (`SLEQP_SETTINGS_BOOL_ALWAYS_WARM_START_LP`), the solver asks the LP interface for a basis that was never saved: here after a
step computed without warm starts and one for the feasibility objective with warm starts. -/
theorem C73_basis_toggle_violated :
    ((LpOp.run { exLpEnv with warm := false } (CauchyLp.create exLpEnv exLpState) (exLpOps ++ [exLpSolve])).bind fun s1 =>
      (LpOp.run exLpEnv s1 [.solve (exFeasLit.solver exFeasSol) (fun _ => none) none 2 .feas]).bind fun s2 =>
      (s2.solve exLpEnv (exLpLit.solver exLpSol) (fun _ => none) exLpGrad 2 .default).map fun p => (p.2, s2.saved .default)) =
    some (some (.restore .default), false) ∧
    LpCorrect exLpEnv.inf (exLpLit.solver exLpSol) ∧ LpCorrect exLpEnv.inf (exFeasLit.solver exFeasSol) :=
  ⟨by decide +kernel, exLp_correct, exFeas_correct⟩

/-- With constant settings the same calls restore a basis saved before: the hypotheses of `C73_basis_partial` are met. -/
example : ((LpOp.run exLpEnv (CauchyLp.create exLpEnv exLpState)
      (exLpOps ++ [exLpSolve, .solve (exFeasLit.solver exFeasSol) (fun _ => none) none 2 .feas])).bind fun s2 =>
      (s2.solve exLpEnv (exLpLit.solver exLpSol) (fun _ => none) exLpGrad 2 .default).map fun p => (p.2, s2.saved .default)) =
    some (some (.restore .default), true) := by decide +kernel

end Sleqp
