import Verif.Lemmas.CauchyLpState
import Verif.Lemmas.QnVec

/-! C73: histories of calls to the LP-based Cauchy solver. -/

namespace Sleqp
open Finset
variable {K : Type*} [Field K] [LinearOrder K] [IsStrictOrderedRing K]
variable {e : LpEnv K} {J0 : Nat → Nat → K} {s0 s : CauchyLp K} {it : Iterate K} {r : K}

/-- state after a history -/
structure LpHist (e : LpEnv K) (J0 : Nat → Nat → K) (c : Option (Iterate K × K)) (s : CauchyLp K) : Prop where
  base : LpBase e J0 s
  none : c = none → s.iterate = none
  some : ∀ it r, c = some (it, r) → LpReady e J0 it r s

theorem lpReady_query {op : LpOp K} (hq : op.isQuery) {s' : CauchyLp K} (hs : op.apply e s = some s') :
    s'.lp = s.lp ∧ s'.varsLb = s.varsLb ∧ s'.varsUb = s.varsUb ∧ s'.consLb = s.consLb ∧ s'.consUb = s.consUb ∧
      s'.hasCoeffs = s.hasCoeffs ∧ s'.iterate = s.iterate ∧ s'.radius = s.radius ∧ s'.hasBasis = s.hasBasis ∧ s'.saved = s.saved := by
  have hst : ∀ t : CauchyLp K, t = s.fetchStats e → t.lp = s.lp ∧ t.varsLb = s.varsLb ∧ t.varsUb = s.varsUb ∧ t.consLb = s.consLb ∧
      t.consUb = s.consUb ∧ t.hasCoeffs = s.hasCoeffs ∧ t.iterate = s.iterate ∧ t.radius = s.radius ∧ t.hasBasis = s.hasBasis ∧ t.saved = s.saved := by
    rintro t rfl
    unfold CauchyLp.fetchStats
    dsimp only
    split <;> exact ⟨rfl, rfl, rfl, rfl, rfl, rfl, rfl, rfl, rfl, rfl⟩
  cases op with
  | setIterate _ _ => exact hq.elim
  | setRadius _ => exact hq.elim
  | solve _ _ _ _ _ => exact hq.elim
  | lpStep d =>
    obtain ⟨x, hx, rfl⟩ := Option.map_eq_some_iff.mp hs
    obtain ⟨y, -, rfl⟩ := Option.map_eq_some_iff.mp hx
    dsimp only
    unfold CauchyLp.fetchPrimal
    dsimp only
    split <;> exact ⟨rfl, rfl, rfl, rfl, rfl, rfl, rfl, rfl, rfl, rfl⟩
  | workingSet it' w =>
    obtain ⟨x, hx, rfl⟩ := Option.map_eq_some_iff.mp hs
    unfold CauchyLp.workingSet at hx
    obtain ⟨w1, -, hx⟩ := Option.bind_eq_some_iff.mp hx
    obtain ⟨w2, -, hx⟩ := Option.bind_eq_some_iff.mp hx
    split at hx
    · injection hx with hx
      rw [← hx]; exact hst _ rfl
    · cases hx
  | locallyInfeasible =>
    obtain ⟨x, hx, rfl⟩ := Option.map_eq_some_iff.mp hs
    unfold CauchyLp.locallyInfeasible at hx
    obtain ⟨it', -, hx⟩ := Option.bind_eq_some_iff.mp hx
    split at hx
    · cases hx
    · dsimp only at hx
      split at hx
      · obtain ⟨a, -, hx⟩ := Option.bind_eq_some_iff.mp hx
        obtain ⟨b, -, hx⟩ := Option.map_eq_some_iff.mp hx
        rw [← hx]; exact hst _ rfl
      · cases hx
  | estimateDuals w cd vd =>
    obtain ⟨x, hx, rfl⟩ := Option.map_eq_some_iff.mp hs
    unfold CauchyLp.estimateDuals at hx
    obtain ⟨a, -, hx⟩ := Option.bind_eq_some_iff.mp hx
    obtain ⟨b, -, hx⟩ := Option.map_eq_some_iff.mp hx
    rw [← hx]
    exact ⟨rfl, rfl, rfl, rfl, rfl, rfl, rfl, rfl, rfl, rfl⟩
  | violation =>
    injection hs with hs
    rw [← hs]; exact ⟨rfl, rfl, rfl, rfl, rfl, rfl, rfl, rfl, rfl, rfl⟩

theorem lpHist_step (hb : LpBounds e) {c : Option (Iterate K × K)} (h : LpHist e J0 c s) {op : LpOp K} (hop : op.Ok e J0) {s' : CauchyLp K}
    (hs : op.apply e s = some s') : LpHist e J0 (LpOp.next c op) s' := by
  have hquery : op.isQuery → LpHist e J0 c s' := by
    intro hq
    obtain ⟨e1, e2, e3, e4, e5, e6, e7, e8, -, -⟩ := lpReady_query hq hs
    have hbase : LpBase e J0 s' := by
      refine ⟨?_, ?_, ?_, ?_, ?_, ?_, ?_⟩
      · rw [e1]; exact h.base.nv
      · rw [e1]; exact h.base.nc
      · rw [e2]; exact h.base.slb
      · rw [e3]; exact h.base.sub
      · rw [e6, e1]; exact h.base.jac
      · rw [e6, e1]; exact h.base.pos
      · rw [e6, e1]; exact h.base.neg
    refine ⟨hbase, fun hc => by rw [e7]; exact h.none hc, fun it r hc => ?_⟩
    have hr := h.some it r hc
    exact ⟨hbase, by rw [e6]; exact hr.coeffs, hr.fits, hr.rpos, hr.rinf, by rw [e8]; exact hr.radius, by rw [e7]; exact hr.iter,
      by rw [e1]; exact hr.data, by rw [e2, e1]; exact hr.vlb, by rw [e3, e1]; exact hr.vub, by rw [e4, e1]; exact hr.clb,
      by rw [e5, e1]; exact hr.cub⟩
  cases op with
  | setIterate it r =>
    obtain ⟨h1, h2, h3, h4⟩ := hop
    obtain ⟨s1, J', a1, a2, a3⟩ := setIterate_spec hb h1 h2 h3 h.base h4
    have : some s1 = some s' := by
      rw [← hs]; show _ = (s.setIterate e it r).map Prod.fst; rw [a1]; rfl
    injection this with this
    subst this
    refine ⟨a3.base, fun hc => (by cases hc), fun it' r' hc => ?_⟩
    injection hc with hc; injection hc with hc1 hc2
    rw [← hc1, ← hc2]; exact a3
  | setRadius r =>
    obtain ⟨h1, h2⟩ := hop
    cases c with
    | none =>
      have hi := h.none rfl
      have : s.setRadius e r = some s' := hs
      unfold CauchyLp.setRadius at this
      obtain ⟨it', hit', -⟩ := Option.bind_eq_some_iff.mp this
      rw [hi] at hit'; cases hit'
    | some p =>
      obtain ⟨it, r0⟩ := p
      obtain ⟨s1, a1, a2⟩ := setRadius_spec hb h1 h2 (h.some it r0 rfl)
      have : some s1 = some s' := by rw [← hs]; exact a1.symm
      injection this with this
      subst this
      refine ⟨a2.base, fun hc => (by cases hc), fun it' r' hc => ?_⟩
      injection hc with hc; injection hc with hc1 hc2
      rw [← hc1, ← hc2]; exact a2
  | solve S S' grad penalty t =>
    obtain ⟨h1, h2, h3, h4⟩ := hop
    have hs' : (if s.iterate.isSome then (s.solve e S S' grad penalty t).map Prod.fst else none) = some s' := hs
    cases c with
    | none => rw [h.none rfl] at hs'; cases hs'
    | some p =>
      obtain ⟨it, r0⟩ := p
      have hr := h.some it r0 rfl
      split at hs'
      · obtain ⟨⟨x, b⟩, hx, rfl⟩ := Option.map_eq_some_iff.mp hs'
        obtain ⟨a1, a2⟩ := solve_solved hb.inf hr h3 h1 h2 hx
        refine ⟨a1.base, fun hc => (by cases hc), fun it' r' hc => ?_⟩
        injection hc with hc; injection hc with hc1 hc2
        rw [← hc1, ← hc2]; exact a1
      · cases hs'
  | lpStep _ => exact hquery trivial
  | workingSet _ _ => exact hquery trivial
  | locallyInfeasible => exact hquery trivial
  | estimateDuals _ _ _ => exact hquery trivial
  | violation => exact hquery trivial

theorem lpHist_run (hb : LpBounds e) {c : Option (Iterate K × K)} {ops : List (LpOp K)} (hops : ∀ op ∈ ops, op.Ok e J0) (h : LpHist e J0 c s)
    {s' : CauchyLp K} (hs : LpOp.run e s ops = some s') : LpHist e J0 (ops.foldl LpOp.next c) s' := by
  induction ops generalizing s c with
  | nil => injection hs with hs; rw [← hs]; exact h
  | cons op ops ih =>
    unfold LpOp.run at hs
    rw [List.foldlM_cons] at hs
    obtain ⟨s1, h1, h2⟩ := Option.bind_eq_some_iff.mp hs
    exact ih (fun o ho => hops o (by simp [ho])) (lpHist_step hb h (hops op (by simp)) h1) h2

theorem lpHist_create : LpHist e J0 none (CauchyLp.create e s0) :=
  ⟨lpBase_create e J0 s0, fun _ => rfl, fun _ _ h => by cases h⟩

/-- a history, ending with `solve` and queries -/
theorem solved_run (hb : LpBounds e) {ops qs : List (LpOp K)} {S S' : LpArrays K → Option (LpSol K)} {grad : Option (Vec K)} {penalty : K} {t : LpObj}
    (hops : ∀ op ∈ ops, op.Ok e J0) (hsolve : (LpOp.solve S S' grad penalty t).Ok e J0) (hqs : ∀ q ∈ qs, q.isQuery)
    (hcur : LpOp.current ops = some (it, r))
    (hrun : LpOp.run e (CauchyLp.create e s0) (ops ++ .solve S S' grad penalty t :: qs) = some s) : LpSolved e it r grad penalty s := by
  unfold LpOp.run at hrun
  rw [List.foldlM_append] at hrun
  obtain ⟨s1, h1, h2⟩ := Option.bind_eq_some_iff.mp hrun
  rw [List.foldlM_cons] at h2
  obtain ⟨s2, h3, h4⟩ := Option.bind_eq_some_iff.mp h2
  have hist := lpHist_run hb hops lpHist_create h1
  have hr := hist.some it r hcur
  obtain ⟨a1, a2, a3, -⟩ := hsolve
  have h3' : (if s1.iterate.isSome then (s1.solve e S S' grad penalty t).map Prod.fst else none) = some s2 := h3
  have hsol : LpSolved e it r grad penalty s2 := by
    split at h3'
    · obtain ⟨⟨x, b⟩, hx, rfl⟩ := Option.map_eq_some_iff.mp h3'
      exact (solve_solved hb.inf hr a3 a1 a2 hx).2
    · cases h3'
  clear h2 h3 h3' hrun
  induction qs generalizing s2 with
  | nil => injection h4 with h4; rw [← h4]; exact hsol
  | cons q qs ih =>
    rw [List.foldlM_cons] at h4
    obtain ⟨s3, h5, h6⟩ := Option.bind_eq_some_iff.mp h4
    exact ih (fun x hx => hqs x (by simp [hx])) s3 h6 (solved_query hsol (hqs q (by simp)) h5)

end Sleqp
