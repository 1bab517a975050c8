import Verif.Lemmas.CauchyLpExtra
import Verif.Lemmas.CauchyLpEx

/-! C74: working sets of the LP-based Cauchy step. -/

namespace Sleqp
open Finset
variable {K : Type*} [Field K] [LinearOrder K] [IsStrictOrderedRing K]
variable {e : LpEnv K} {J0 : Nat → Nat → K} {s0 s : CauchyLp K} {it : Iterate K} {r penalty : K} {grad : Option (Vec K)}
variable {ops qs : List (LpOp K)} {S S' : LpArrays K → Option (LpSol K)} {t : LpObj}

/-- the working set of a state between `solve` and the next change of the problem -/
theorem workingSet_spec (hb : LpBounds e) (hp : 0 ≤ penalty) (h : LpSolved e it r grad penalty s) (hfar : FarBounds e it r) {it' : Iterate K}
    (hit' : it'.primal = it.primal) {w0 : WSet} {l0 : List WEntry} (hw0 : WRep e.numVars e.numCons w0 l0)
    (hfix : ∀ j < e.numVars, isEq (e.bounds.varsLb.value j) (e.bounds.varsUb.value j) e.eps = true → s.answer.varStats j ≠ .basic) :
    ∃ w st, s.workingSet e it' w0 = some (s.fetchStats e, w) ∧
      WRep e.numVars e.numCons w (entries false (lpVarState e it r s.answer.varStats) e.numVars ++ entries true st e.numCons) ∧
      (entries false (lpVarState e it r s.answer.varStats) e.numVars ++ entries true st e.numCons).length ≤ e.numVars ∧
      (∀ i < e.numCons, st i = if s.useReduced then redSt s.redSol i else lpConsSt e s.sol i) ∧
      (∀ z y : Nat → K, (∀ j < e.numVars, lpVarState e it r s.answer.varStats j = .inactive → z j = 0) → (∀ i < e.numCons, st i = .inactive → y i = 0) →
        (∀ j < e.numVars, z j + ∑ i ∈ range e.numCons, y i * it.consJac.value i j = 0) →
        (∀ j < e.numVars, z j = 0) ∧ ∀ i < e.numCons, y i = 0) ∧
      (∀ x ∈ entries false (lpVarState e it r s.answer.varStats) e.numVars ++ entries true st e.numCons, EntryMet e it s.answer.primal x) := by
  obtain ⟨hf, hds⟩ := solved_fetchStats h
  obtain ⟨f1, f2, f3, f4, f5⟩ := extra_fetchStats (e := e) (s := s)
  obtain ⟨o1, o2, -⟩ := solved_opt hb hp h
  have hrad : (s.fetchStats e).radius = r := hf.radius
  have hx : it'.primal.WF := by rw [hit']; exact h.fits.primal.1
  obtain ⟨hw1, hw2⟩ := (⟨hw0.nv, hw0.nc⟩ : w0.numVars = e.numVars ∧ w0.numCons = e.numCons)
  have hreset := wrep_reset hw1 hw2
  by_cases hu : s.useReduced = true
  · obtain ⟨d1, d2, d3⟩ := h.red hu
    have hans : s.answer = s.redSol := by unfold CauchyLp.answer; rw [if_pos hu]
    rw [hans] at hfix ⊢
    have hu' : (s.fetchStats e).useReduced = true := by rw [f1]; exact hu
    obtain ⟨st1, st2⟩ := hf.redStats hds hu'
    rw [f3] at st1 st2
    obtain ⟨w1, a1, a2⟩ := addVars_spec (s := s.fetchStats e) (it := it') (m := e.numCons) hb.sized hx
      (fun j hj => by rw [st1 j hj]; exact d1.vars.nonzero d3 h.rinf hj) hreset
    have hvs : entries false (lpVarState e it' (s.fetchStats e).radius (s.fetchStats e).varStats) e.numVars =
        entries false (lpVarState e it r s.redSol.varStats) e.numVars := by
      unfold entries
      refine List.filterMap_congr fun j hj => ?_
      have hj' := List.mem_range.mp hj
      have : lpVarState e it' (s.fetchStats e).radius (s.fetchStats e).varStats j = lpVarState e it r s.redSol.varStats j := by
        unfold lpVarState; rw [hrad, hit', st1 j hj']
      unfold entryOf; rw [this]
    rw [hvs] at a2
    obtain ⟨w2, b1, b2⟩ := addReduced_spec (s := s.fetchStats e) a2
    have hst : ∀ i < e.numCons, redConsState e (s.fetchStats e) i = redSt s.redSol i := by
      intro i hi
      have l1 : e.numVars + i < e.numLp := by unfold LpEnv.numLp; omega
      have l2 : e.numVars + e.numCons + i < e.numLp := by unfold LpEnv.numLp; omega
      have z1 := hf.slack (.inr hu') (e.numVars + i) (by omega) l1
      have z2 := hf.slack (.inr hu') (e.numVars + e.numCons + i) (by omega) l2
      rw [f2, h.zero hu _ (by omega) l1] at z1
      rw [f2, h.zero hu _ (by omega) l2] at z2
      unfold redConsState redSt
      rw [if_pos ⟨z1, z2⟩, st2 i hi]
    have hv : ∀ j < e.numVars, lpVarState e it r s.redSol.varStats j ≠ .inactive → s.redSol.varStats j ≠ .basic :=
      fun j hj hne => lpVarState_nonbasic (hfix j hj) hne
    have hc : ∀ i < e.numCons, redConsState e (s.fetchStats e) i ≠ .inactive → s.redSol.consStats i ≠ .basic :=
      fun i hi hne => redSt_nonbasic (by rw [← hst i hi]; exact hne)
    have hlen := red_size d1 d3 hv hc
    refine ⟨w2, redConsState e (s.fetchStats e), ?_, b2, hlen, fun i hi => by rw [hst i hi, if_pos hu], ?_, ?_⟩
    · unfold CauchyLp.workingSet
      dsimp only
      rw [a1, Option.bind_some, if_pos hu', b1, Option.bind_some, C30_valid b2, if_pos hlen, if_pos rfl]
    · intro z y hz hy hzy
      have := d3.indep z y (fun j hj hbas => ?_) (fun i hi hbas => ?_) (fun j hj => ?_)
      · rw [d1.nv, d1.nc] at this; exact this
      · rw [d1.nv] at hj
        refine hz j hj ?_
        by_contra hne
        exact hv j hj hne hbas
      · rw [d1.nc] at hi
        refine hy i hi ?_
        by_contra hne
        exact hc i hi hne hbas
      · rw [d1.nv] at hj
        rw [d1.nc, ← hzy j hj]
        congr 1
        exact sum_congr rfl fun i hi => by rw [d1.jac i (mem_range.mp hi) j hj]
    · intro x hx
      rcases List.mem_append.mp hx with hx | hx
      · obtain ⟨x1, x2, x3, x4⟩ := mem_entries.mp hx
        have := d1.vars.met d3 hfar (o2 hu).1 x2 (by rw [← x3]; exact x4)
        rw [← x3, ← x1] at this; exact this
      · obtain ⟨x1, x2, x3, x4⟩ := mem_entries.mp hx
        rw [hst _ x2] at x3
        have := redSt_met d1 d3 x2 (by rw [← x3]; exact x4)
        rw [← x3, ← x1] at this; exact this
  · have hu0 : s.useReduced = false := by simpa using hu
    have hans : s.answer = s.sol := by unfold CauchyLp.answer; rw [hu0]; rfl
    rw [hans] at hfix ⊢
    have hu' : (s.fetchStats e).useReduced = false := by rw [f1]; exact hu0
    obtain ⟨st1, st2⟩ := hf.stats hds hu'
    rw [f2] at st1 st2
    have hlt : ∀ j < e.numVars, j < e.numLp := fun j hj => by unfold LpEnv.numLp; omega
    have d1 := h.data
    have d3 := h.sol
    obtain ⟨w1, a1, a2⟩ := addVars_spec (s := s.fetchStats e) (it := it') (m := e.numCons) hb.sized hx
      (fun j hj => by rw [st1 j (hlt j hj)]; exact d1.vars.nonzero d3 h.rinf hj) hreset
    have hvs : entries false (lpVarState e it' (s.fetchStats e).radius (s.fetchStats e).varStats) e.numVars =
        entries false (lpVarState e it r s.sol.varStats) e.numVars := by
      unfold entries
      refine List.filterMap_congr fun j hj => ?_
      have hj' := List.mem_range.mp hj
      have : lpVarState e it' (s.fetchStats e).radius (s.fetchStats e).varStats j = lpVarState e it r s.sol.varStats j := by
        unfold lpVarState; rw [hrad, hit', st1 j (hlt j hj')]
      unfold entryOf; rw [this]
    rw [hvs] at a2
    obtain ⟨w2, b1, b2⟩ := addCons_spec (s := s.fetchStats e) (st := lpConsSt e s.sol) hb.sized (fun i hi => by
      unfold CauchyLp.consState
      rw [st2 i hi, st1 _ (by unfold LpEnv.numLp; omega), st1 _ (by unfold LpEnv.numLp; omega)]
      exact lpConsSt_eq hb.inf d1 d3 hi) a2
    have hv : ∀ j < e.numVars, lpVarState e it r s.sol.varStats j ≠ .inactive → s.sol.varStats j ≠ .basic :=
      fun j hj hne => lpVarState_nonbasic (hfix j hj) hne
    have hc := fun i hi => lpConsSt_nonbasic hb.inf d1 d3 (i := i) hi
    have hlen := lp_size d1 d3 hv hc
    refine ⟨w2, lpConsSt e s.sol, ?_, b2, hlen, fun i hi => by rw [if_neg hu], ?_, ?_⟩
    · unfold CauchyLp.workingSet
      dsimp only
      rw [a1, Option.bind_some, if_neg (by rw [hu']; decide), b1, Option.bind_some, C30_valid b2, if_pos hlen, if_pos rfl]
    · intro z y hz hy hzy
      refine lp_indep d1 d3 (fun j hj hbas => ?_) (fun i hi hbas => ?_) hzy
      · refine hz j hj ?_
        by_contra hne
        exact hv j hj hne hbas
      · refine hy i hi ?_
        by_contra hne
        obtain ⟨c1, c2, c3⟩ := hc i hi hne
        rcases hbas with q | q | q
        · exact c1 q
        · exact c2 q
        · exact c3 q
    · intro x hx
      rcases List.mem_append.mp hx with hx | hx
      · obtain ⟨x1, x2, x3, x4⟩ := mem_entries.mp hx
        have := d1.vars.met d3 hfar o1.1 x2 (by rw [← x3]; exact x4)
        rw [← x3, ← x1] at this; exact this
      · obtain ⟨x1, x2, x3, x4⟩ := mem_entries.mp hx
        have := lpConsSt_met hb d1 d3 x2 (by rw [← x3]; exact x4)
        rw [← x3, ← x1] at this; exact this

/-- C74. After any history that ends with `solve` and queries, asking for the working set succeeds. The working set is valid, has at most as many entries
as there are variables, in increasing order, their gradients are linearly independent, and all of them are met at a step minimising the linear
model. This step is the one returned by `lp_step`, up to dropped values, if the violation was not asked for before or the problem was not solved again
in reduced form. Variables that are not basic in the answer of the LP solver and not at the bound of the trust region are in the working
set, and fixed ones are there as equations.
Missing: the case that a variable with equal bounds is basic in the answer of the LP solver (`hfix`), see `C74_fixed_violated`. -/
theorem C74_working_set_partial (hb : LpBounds e) (hops : ∀ op ∈ ops, op.Ok e J0) (hsolve : (LpOp.solve S S' grad penalty t).Ok e J0)
    (hqs : ∀ q ∈ qs, q.isQuery) (hcur : LpOp.current ops = some (it, r))
    (hrun : LpOp.run e (CauchyLp.create e s0) (ops ++ .solve S S' grad penalty t :: qs) = some s) (hfar : FarBounds e it r) {it' : Iterate K}
    (hit' : it'.primal = it.primal) {w0 : WSet} {l0 : List WEntry} (hw0 : WRep e.numVars e.numCons w0 l0)
    (hfix : ∀ j < e.numVars, isEq (e.bounds.varsLb.value j) (e.bounds.varsUb.value j) e.eps = true → s.answer.varStats j ≠ .basic) :
    ∃ s' w l p, s.workingSet e it' w0 = some (s', w) ∧ WRep e.numVars e.numCons w l ∧ w.valid = some true ∧ w.Ordered ∧ l.length ≤ e.numVars ∧
      (∀ c : Nat → K, (∀ j < e.numVars, ∑ k ∈ range l.length, c k * workMat l it.consJac.value k j = 0) → ∀ k < l.length, c k = 0) ∧
      OptStep e it r grad penalty p ∧ (∀ x ∈ l, EntryMet e it p x) ∧
      (s.useReduced = false ∨ .violation ∉ qs →
        ∀ d, ∃ s'' d', s.lpStep e d = some (s'', d') ∧ ∀ j < e.numVars, d'.value j = if |p j| ≤ e.zeroEps then 0 else p j) ∧
      (∀ j < e.numVars, s.answer.varStats j ≠ .basic → |p j| < r → w.varState j ≠ .inactive) ∧
      (∀ j < e.numVars, isEq (e.bounds.varsLb.value j) (e.bounds.varsUb.value j) e.eps = true → w.varState j = .both) := by
  have h := solved_run hb hops hsolve hqs hcur hrun
  obtain ⟨-, hfresh⟩ := extra_run hb hops hsolve hqs hcur hrun
  have hp := hsolve.2.2.2
  obtain ⟨o1, o2, -⟩ := solved_opt hb hp h
  obtain ⟨w, st, h1, h2, h3, h4, h5, h6⟩ := workingSet_spec hb hp h hfar hit' hw0 hfix
  obtain ⟨hv, hc⟩ := entries_states h2
  have hopt : OptStep e it r grad penalty s.answer.primal := by
    unfold CauchyLp.answer
    cases hu : s.useReduced with
    | true => exact o2 hu
    | false => exact o1
  refine ⟨_, w, _, s.answer.primal, h1, h2, by rw [C30_valid h2, if_pos h3], entries_ordered h2, h3, fun c hc0 => ?_, hopt, h6, fun hq d => ?_, fun j hj hnb hin => ?_,
    fun j hj heq => ?_⟩
  · refine work_indep h2 it.consJac.value (fun z y hz hy hzy => h5 z y ?_ ?_ hzy) c hc0
    · intro j hj hi; exact hz j hj (by rw [hv j hj]; exact hi)
    · intro i hi hi'; exact hy i hi (by rw [hc i hi]; exact hi')
  · obtain ⟨d', hd1, hd2, hd3, hd4⟩ := setFromRaw_spec e.zeroEps d ((List.range e.numVars).map (s.fetchPrimal e).primal)
    refine ⟨s.fetchPrimal e, d', by unfold CauchyLp.lpStep; dsimp only; rw [hd1]; rfl, fun j hj => ?_⟩
    have : (s.fetchPrimal e).primal j = s.answer.primal j := by
      have hlt : j < e.numLp := by unfold LpEnv.numLp; omega
      have hf := hfresh hq
      unfold LpFresh at hf
      unfold CauchyLp.fetchPrimal
      dsimp only
      split
      · dsimp only
        unfold CauchyLp.answer
        refine overlay_lt ?_
        split
        · exact hj
        · exact hlt
      · rename_i hd
        exact hf (by simpa using hd) j hj
    rw [hd4, List.getElem?_map, List.getElem?_range hj]
    show (if |(s.fetchPrimal e).primal j| ≤ e.zeroEps then 0 else (s.fetchPrimal e).primal j) = _
    rw [this]
  · rw [hv j hj]
    unfold CauchyLp.answer at hnb hin ⊢
    cases hu : s.useReduced with
    | true =>
      rw [hu] at hnb hin
      obtain ⟨d1, d2, d3⟩ := h.red hu
      exact d1.vars.active d3 h.rinf hj hnb hin
    | false =>
      rw [hu] at hnb hin
      exact h.data.vars.active h.sol h.rinf hj hnb hin
  · rw [hv j hj]
    unfold lpVarState
    rw [if_pos heq]

/-- C74. Which constraints are in the working set, unless the problem was solved again in reduced form: those that are not basic in the answer of
the LP solver, have no bound that could be active at infinity, and none of whose slacks is basic. Equations are in the working set as equations only.
Missing: the reduced form, see `C74_equation_violated`, and the case that a variable with equal bounds is basic. -/
theorem C74_constraints_partial (hb : LpBounds e) (hops : ∀ op ∈ ops, op.Ok e J0) (hsolve : (LpOp.solve S S' grad penalty t).Ok e J0)
    (hqs : ∀ q ∈ qs, q.isQuery) (hcur : LpOp.current ops = some (it, r))
    (hrun : LpOp.run e (CauchyLp.create e s0) (ops ++ .solve S S' grad penalty t :: qs) = some s) (hfar : FarBounds e it r) {it' : Iterate K}
    (hit' : it'.primal = it.primal) {w0 : WSet} {l0 : List WEntry} (hw0 : WRep e.numVars e.numCons w0 l0)
    (hfix : ∀ j < e.numVars, isEq (e.bounds.varsLb.value j) (e.bounds.varsUb.value j) e.eps = true → s.answer.varStats j ≠ .basic)
    (hred : s.useReduced = false) :
    ∃ s' w, s.workingSet e it' w0 = some (s', w) ∧ ∀ i < e.numCons,
      (w.consState i ≠ .inactive ↔ s.sol.consStats i ≠ .basic ∧ s.sol.consStats i ≠ .zero ∧ s.sol.varStats (e.numVars + i) ≠ .basic ∧
        s.sol.varStats (e.numVars + e.numCons + i) ≠ .basic) ∧
      (isEq (e.bounds.consLb.value i) (e.bounds.consUb.value i) e.eps = true → w.consState i ≠ .inactive → w.consState i = .both) := by
  have h := solved_run hb hops hsolve hqs hcur hrun
  obtain ⟨w, st, h1, h2, h3, h4, h5, h6⟩ := workingSet_spec hb hsolve.2.2.2 h hfar hit' hw0 hfix
  obtain ⟨hv, hc⟩ := entries_states h2
  refine ⟨_, w, h1, fun i hi => ?_⟩
  rw [hc i hi, h4 i hi, hred, if_neg (by decide)]
  refine ⟨⟨fun hne => ?_, fun ⟨c1, c2, c3, c4⟩ => lpConsSt_active hb.inf h.data h.sol hi c1 c2 c3 c4⟩, fun heq hne => ?_⟩
  · obtain ⟨c1, c2, c3, c4, c5⟩ := lpConsState_active (lpConsSt_eq hb.inf h.data h.sol hi) hne
    exact ⟨c3, c4, by rw [c1]; decide, by rw [c2]; decide⟩
  · obtain ⟨c1, c2, c3, c4, c5⟩ := lpConsState_active (lpConsSt_eq hb.inf h.data h.sol hi) hne
    rw [c5, if_pos heq]

/-! ### Fixed variables -/

/-- minimise `d` for a variable fixed to zero, with the equation `d = 0` -/
def exFixLit : LpLit := ⟨[1, 2, 2], [0, 0, 0], [0, 1000, 1000], [0], [0], [[1, 1, -1]]⟩
def exFixSol : LpSolLit := ⟨0, [0, 0, 0], [.basic, .lower, .lower], [.lower], [0, 1, 3], [1]⟩

theorem exFix_correct : LpCorrect 1000 (exFixLit.solver exFixSol) :=
  solver_correct (by decide +kernel) (lpSolves_ex rfl rfl (by decide +kernel) (by decide +kernel) (by decide +kernel) (by decide +kernel))

def exFixEnv : LpEnv ℚ := { exLpEnv with bounds := ⟨⟨1, 0, []⟩, ⟨1, 0, []⟩, ⟨1, 0, []⟩, ⟨1, 0, []⟩⟩ }
def exFixIterate : Iterate ℚ := { exLpIterate with consVal := ⟨1, 0, []⟩ }

theorem exFixEnv_bounds : LpBounds exFixEnv where
  inf := by decide +kernel
  sized := ⟨(C02_isValid_iff _).mp (by decide +kernel), (C02_isValid_iff _).mp (by decide +kernel), (C02_isValid_iff _).mp (by decide +kernel),
    (C02_isValid_iff _).mp (by decide +kernel), rfl, rfl, rfl, rfl⟩
  vars := by decide +kernel
  cons := by decide +kernel

theorem exFixIterate_ok : LpIterate exFixEnv exFixIterate where
  primal := ⟨(C02_isValid_iff _).mp (by decide +kernel), rfl⟩
  consVal := ⟨(C02_isValid_iff _).mp (by decide +kernel), rfl⟩
  jac := (C09_isValid_iff _ rfl (by decide)).mp (by decide +kernel)
  rows := rfl
  cols := rfl
  xfin := by decide +kernel
  cfin := by decide +kernel
  box := by decide +kernel

/-- Every variable with equal bounds is put into the working set, also if it is basic in the answer of the LP solver. For one variable fixed to zero and
one equation `x = 0`, an LP solver may answer with the variable basic and the equation not. Both are put into the
working set: two entries for one variable. The working set is not valid, and the assert in `standard_cauchy_working_set` fails. -/
theorem C74_fixed_violated :
    LpBounds exFixEnv ∧ (LpOp.setIterate exFixIterate 1).Ok exFixEnv (fun _ _ => 0) ∧
    (LpOp.solve (exFixLit.solver exFixSol) (fun _ => none) exLpGrad 2 .default).Ok exFixEnv (fun _ _ => 0) ∧ FarBounds exFixEnv exFixIterate 1 ∧
    ∃ s, LpOp.run exFixEnv (CauchyLp.create exFixEnv exLpState) [.setIterate exFixIterate 1, .solve (exFixLit.solver exFixSol) (fun _ => none) exLpGrad 2 .default] = some s ∧
      s.workingSet exFixEnv exFixIterate (WSet.create 1 1 fun _ => 0) = none := by
  refine ⟨exFixEnv_bounds, ⟨exFixIterate_ok, by decide +kernel, by decide +kernel, fun h => by cases h⟩,
    ⟨exFix_correct, fun _ _ h => (by cases h), exGradOk, by decide +kernel⟩, by unfold FarBounds; decide +kernel, ?_⟩
  have : ((LpOp.run exFixEnv (CauchyLp.create exFixEnv exLpState) [.setIterate exFixIterate 1, .solve (exFixLit.solver exFixSol) (fun _ => none) exLpGrad 2 .default]).map
      fun s => (s.workingSet exFixEnv exFixIterate (WSet.create 1 1 fun _ => 0)).isNone) = some true := by decide +kernel
  obtain ⟨s, h1, h2⟩ := Option.map_eq_some_iff.mp this
  exact ⟨s, h1, Option.isNone_iff_eq_none.mp h2⟩

/-! ### Equations in the reduced problem -/

/-- minimise `2 d + s⁺ + s⁻` for `0 ≤ d ≤ 1` and `d + s⁺ - s⁻ = 0`; a slack is basic -/
def exEqLit : LpLit := ⟨[2, 1, 1], [0, 0, 0], [1, 1000, 1000], [0], [0], [[1, 1, -1]]⟩
def exEqSol : LpSolLit := ⟨0, [0, 0, 0], [.lower, .basic, .lower], [.lower], [1, 0, 2], [1]⟩

/-- the reduced problem: minimise `2 d` for `0 ≤ d ≤ 1` and `d = 0`; the variable is basic -/
def exEqRedLit : LpLit := ⟨[2], [0], [1], [0], [0], [[1]]⟩
def exEqRedSol : LpSolLit := ⟨0, [0], [.basic], [.upper], [0], [2]⟩

theorem exEq_correct : LpCorrect 1000 (exEqLit.solver exEqSol) := by
  refine solver_correct (by decide +kernel) (lpSolves_check (by decide +kernel) ?_ ?_)
  · intro v h1 h2 j hj
    have a0 := h1 0 (by decide) (by decide +kernel)
    have a2 := h1 2 (by decide) (by decide +kernel)
    have a3 := h2 0 (by decide) (by decide +kernel)
    unfold LpArrays.row at a3
    have c0 : exEqLit.toLp.coeffs.value 0 0 = 1 := by decide +kernel
    have c1 : exEqLit.toLp.coeffs.value 0 1 = 1 := by decide +kernel
    have c2 : exEqLit.toLp.coeffs.value 0 2 = -1 := by decide +kernel
    rw [show exEqLit.toLp.numVars = 3 from rfl, sum_range_succ, sum_range_succ, sum_range_succ, sum_range_zero, c0, c1, c2] at a3
    rw [show exEqLit.toLp.numVars = 3 from rfl] at hj
    interval_cases j
    · exact a0
    · linarith
    · exact a2
  · intro z y h1 h2 h3
    have a1 := h1 1 (by decide) (by decide +kernel)
    have b0 := h3 0 (by decide)
    have b1 := h3 1 (by decide)
    have b2 := h3 2 (by decide)
    have c0 : exEqLit.toLp.coeffs.value 0 0 = 1 := by decide +kernel
    have c1 : exEqLit.toLp.coeffs.value 0 1 = 1 := by decide +kernel
    have c2 : exEqLit.toLp.coeffs.value 0 2 = -1 := by decide +kernel
    rw [show exEqLit.toLp.numCons = 1 from rfl, sum_range_one] at b0 b1 b2
    rw [c0] at b0
    rw [c1] at b1
    rw [c2] at b2
    rw [show exEqLit.toLp.numVars = 3 from rfl, show exEqLit.toLp.numCons = 1 from rfl]
    refine ⟨fun j hj => ?_, fun i hi => ?_⟩
    · interval_cases j <;> linarith
    · interval_cases i; linarith

theorem exEqRed_correct : LpCorrect 1000 (exEqRedLit.solver exEqRedSol) := by
  have c0 : exEqRedLit.toLp.coeffs.value 0 0 = 1 := by decide +kernel
  refine solver_correct (by decide +kernel) (lpSolves_check (by decide +kernel) ?_ ?_)
  · intro v h1 h2 j hj
    have a3 := h2 0 (by decide) (by decide +kernel)
    unfold LpArrays.row at a3
    rw [show exEqRedLit.toLp.numVars = 1 from rfl, sum_range_one, c0, one_mul] at a3
    rw [show exEqRedLit.toLp.numVars = 1 from rfl] at hj
    interval_cases j
    exact a3
  · intro z y h1 h2 h3
    have a1 := h1 0 (by decide) (by decide +kernel)
    have b0 := h3 0 (by decide)
    rw [show exEqRedLit.toLp.numCons = 1 from rfl, sum_range_one, c0] at b0
    rw [show exEqRedLit.toLp.numVars = 1 from rfl, show exEqRedLit.toLp.numCons = 1 from rfl]
    refine ⟨fun j hj => ?_, fun i hi => ?_⟩
    · interval_cases j; exact a1
    · interval_cases i; linarith

def exEqEnv : LpEnv ℚ := { exLpEnv with bounds := ⟨⟨1, 0, []⟩, ⟨1, 1, [(0, 10)]⟩, ⟨1, 0, []⟩, ⟨1, 0, []⟩⟩ }
def exEqGrad : Option (Vec ℚ) := some ⟨1, 1, [(0, 2)]⟩
def exEqSolve : LpOp ℚ := .solve (exEqLit.solver exEqSol) (exEqRedLit.solver exEqRedSol) exEqGrad 1 .default

theorem exEqEnv_bounds : LpBounds exEqEnv where
  inf := by decide +kernel
  sized := ⟨(C02_isValid_iff _).mp (by decide +kernel), (C02_isValid_iff _).mp (by decide +kernel), (C02_isValid_iff _).mp (by decide +kernel),
    (C02_isValid_iff _).mp (by decide +kernel), rfl, rfl, rfl, rfl⟩
  vars := by decide +kernel
  cons := by decide +kernel

theorem exEqIterate_ok : LpIterate exEqEnv exFixIterate where
  primal := ⟨(C02_isValid_iff _).mp (by decide +kernel), rfl⟩
  consVal := ⟨(C02_isValid_iff _).mp (by decide +kernel), rfl⟩
  jac := (C09_isValid_iff _ rfl (by decide)).mp (by decide +kernel)
  rows := rfl
  cols := rfl
  xfin := by decide +kernel
  cfin := by decide +kernel
  box := by decide +kernel

theorem exEqOps_ok : ∀ op ∈ [LpOp.setIterate exFixIterate 1], op.Ok exEqEnv fun _ _ => 0 := by
  intro op h
  rw [List.mem_singleton] at h
  rw [h]
  exact ⟨exEqIterate_ok, by decide +kernel, by decide +kernel, fun h => by cases h⟩

theorem exEqSolve_ok : exEqSolve.Ok exEqEnv fun _ _ => 0 :=
  ⟨exEq_correct, exEqRed_correct, fun g h => by injection h with h; subst h; exact ⟨(C02_isValid_iff _).mp (by decide +kernel), rfl⟩, by decide +kernel⟩

theorem exEqFar : FarBounds exEqEnv exFixIterate 1 := by unfold FarBounds; decide +kernel

/-- If the problem is solved again in reduced form (the default), equations are put into the working set as constraints active at their
lower or upper bound, not as equations: multipliers of one sign only are allowed for them. Here the equation `x = 0` is at its upper bound. -/
theorem C74_equation_violated :
    LpBounds exEqEnv ∧ (∀ op ∈ [LpOp.setIterate exFixIterate 1], op.Ok exEqEnv fun _ _ => 0) ∧ exEqSolve.Ok exEqEnv (fun _ _ => 0) ∧
    FarBounds exEqEnv exFixIterate 1 ∧ exEqEnv.bounds.consLb.value 0 = exEqEnv.bounds.consUb.value 0 ∧
    ∃ s s' w, LpOp.run exEqEnv (CauchyLp.create exEqEnv exLpState) ([.setIterate exFixIterate 1] ++ exEqSolve :: []) = some s ∧
      s.workingSet exEqEnv exFixIterate (WSet.create 1 1 fun _ => 0) = some (s', w) ∧ w.consState 0 = .upper := by
  refine ⟨exEqEnv_bounds, exEqOps_ok, exEqSolve_ok, exEqFar, rfl, ?_⟩
  have : ((LpOp.run exEqEnv (CauchyLp.create exEqEnv exLpState) ([.setIterate exFixIterate 1] ++ exEqSolve :: [])).bind
      fun s => (s.workingSet exEqEnv exFixIterate (WSet.create 1 1 fun _ => 0)).map fun r => r.2.consState 0) = some .upper := by decide +kernel
  obtain ⟨s, h1, h2⟩ := Option.bind_eq_some_iff.mp this
  obtain ⟨⟨s', w⟩, h3, h4⟩ := Option.map_eq_some_iff.mp h2
  exact ⟨s, s', w, h1, h3, h4⟩

/-! ### Non-vacuity -/

/-- the hypotheses of `C74_working_set_partial` are met, with a problem solved again in reduced form -/
example : ∃ s s' w l p, LpOp.run exEqEnv (CauchyLp.create exEqEnv exLpState) ([.setIterate exFixIterate 1] ++ exEqSolve :: []) = some s ∧
    s.useReduced = true ∧ s.workingSet exEqEnv exFixIterate (WSet.create 1 1 fun _ => 0) = some (s', w) ∧ WRep 1 1 w l ∧ l.length = 1 ∧
      OptStep exEqEnv exFixIterate 1 exEqGrad 1 p ∧ ∀ x ∈ l, EntryMet exEqEnv exFixIterate p x := by
  have : ((LpOp.run exEqEnv (CauchyLp.create exEqEnv exLpState) ([.setIterate exFixIterate 1] ++ exEqSolve :: [])).bind
      fun s => (s.workingSet exEqEnv exFixIterate (WSet.create 1 1 fun _ => 0)).map fun r => (r.2.size, s.useReduced)) = some (1, true) := by decide +kernel
  obtain ⟨s, h1, h2⟩ := Option.bind_eq_some_iff.mp this
  obtain ⟨⟨x, y⟩, h3, h4⟩ := Option.map_eq_some_iff.mp h2
  injection h4 with h4 h5
  obtain ⟨s', w, l, p, a1, a2, a3, a4, a5, a6, a7, a8, -⟩ := C74_working_set_partial exEqEnv_bounds exEqOps_ok exEqSolve_ok (by simp) rfl h1 exEqFar rfl
    (wrep_create 1 1 fun _ => 0) (fun j hj heq => by
      have : j = 0 := by have : j < 1 := hj; omega
      subst this
      exact absurd heq (by decide +kernel))
  have : (s', w) = (x, y) := by rw [a1] at h3; injection h3
  injection this with e1 e2
  exact ⟨s, s', w, l, p, h1, h5, a1, a2, by rw [← a2.size, e2]; exact h4, a7, a8⟩

/-- and those of `C74_constraints_partial`: here the constraint is active at its lower bound -/
example : ∃ s s' w, LpOp.run exLpEnv (CauchyLp.create exLpEnv exLpState) (exLpOps ++ exLpSolve :: [.violation]) = some s ∧
    s.workingSet exLpEnv exLpIterate (WSet.create 1 1 fun _ => 0) = some (s', w) ∧ w.consState 0 ≠ .inactive := by
  have : ((LpOp.run exLpEnv (CauchyLp.create exLpEnv exLpState) (exLpOps ++ exLpSolve :: [.violation])).map
      fun s => (s.useReduced, s.sol.consStats 0, s.sol.varStats 1, s.sol.varStats 2)) = some (false, .lower, .lower, .lower) := by decide +kernel
  obtain ⟨s, h1, h2⟩ := Option.map_eq_some_iff.mp this
  simp only [Prod.mk.injEq] at h2
  obtain ⟨e1, e2, e3, e4⟩ := h2
  obtain ⟨s', w, a1, a2⟩ := C74_constraints_partial exLpEnv_bounds exLpOps_ok exLpSolve_ok (by simp [LpOp.isQuery]) rfl h1
    (by unfold FarBounds; decide +kernel) (it' := exLpIterate) rfl (wrep_create 1 1 fun _ => 0) (fun j hj heq => by
      have : j = 0 := by have : j < 1 := hj; omega
      subst this
      exact absurd heq (by decide +kernel)) e1
  exact ⟨s, s', w, h1, a1, (a2 0 (by decide)).1.mpr ⟨by rw [e2]; decide, by rw [e2]; decide,
    by show s.sol.varStats 1 ≠ _; rw [e3]; decide, by show s.sol.varStats 2 ≠ _; rw [e4]; decide⟩⟩

end Sleqp
