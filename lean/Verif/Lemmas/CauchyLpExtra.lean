import Verif.Lemmas.CauchyLpWork

/-! More about states between `solve` and the next change of the problem: the reduced problem, fetched solutions. -/

namespace Sleqp
open Finset
variable {K : Type*} [Field K] [LinearOrder K] [IsStrictOrderedRing K]
variable {e : LpEnv K} {J0 : Nat → Nat → K} {s0 s : CauchyLp K} {it : Iterate K} {r : K} {grad : Option (Vec K)} {penalty : K}

theorem lpConsState_inactive {c l u : BaseStat} {b : Bool} (h : lpConsState c l u b = some .inactive) :
    c = .basic ∨ c = .zero ∨ l ≠ .lower ∨ u ≠ .lower := by
  cases c <;> cases l <;> cases u <;> cases b <;> simp_all [lpConsState]

/-- why the problem is solved again: an inactive constraint with a multiplier -/
theorem resolve_why {is : List Nat} {kl ku : List (Nat × K)} {b : Bool} (h : s.resolveLoop e is kl ku b = some true) :
    b = true ∨ ∃ i ∈ is, s.dual (e.numLp + i) ≠ 0 ∧ (s.consStats i = .basic ∨ s.consStats i = .zero ∨
      s.varStats (e.numVars + i) ≠ .lower ∨ s.varStats (e.numVars + e.numCons + i) ≠ .lower) := by
  induction is generalizing kl ku b with
  | nil => injection h with h; exact .inl h
  | cons i is ih =>
    unfold CauchyLp.resolveLoop at h
    obtain ⟨st, h1, h2⟩ := Option.bind_eq_some_iff.mp h
    by_cases hst : st ≠ .inactive
    · rw [if_pos hst] at h2
      rcases ih h2 with c | ⟨k, hk, c⟩
      · exact .inl c
      · exact .inr ⟨k, by simp [hk], c⟩
    · rw [if_neg hst] at h2
      have hst' : st = .inactive := not_not.mp hst
      split at h2
      · rcases ih h2 with c | ⟨k, hk, c⟩
        · rw [Bool.or_eq_true, decide_eq_true_eq] at c
          rcases c with c | c
          · exact .inl c
          · refine .inr ⟨i, by simp, c, ?_⟩
            unfold CauchyLp.consState at h1
            rw [hst'] at h1
            exact lpConsState_inactive h1
        · exact .inr ⟨k, by simp [hk], c⟩
      · cases h2

/-- the answer of the LP solver that counts -/
def CauchyLp.answer (s : CauchyLp K) : LpSol K := if s.useReduced then s.redSol else s.sol

/-- after `solve` -/
structure LpExtra (e : LpEnv K) (t : LpObj) (s : CauchyLp K) : Prop where
  mode : s.useReduced = true → e.resolves = true ∧ t = .default
  why : s.useReduced = true → ∃ i < e.numCons, s.sol.consDual i ≠ 0 ∧
    (s.sol.varStats (e.numVars + i) = .basic ∨ s.sol.varStats (e.numVars + e.numCons + i) = .basic)

/-- the values fetched are those of the answer -/
def LpFresh (e : LpEnv K) (s : CauchyLp K) : Prop := s.dirtyPrimal = false → ∀ j < e.numVars, s.primal j = s.answer.primal j

theorem cons_dual_status {lp : LpArrays K} {a : LpSol K} (ha : LpSolves e.inf lp a) {i : Nat} (hi : i < lp.numCons) (hd : a.consDual i ≠ 0) :
    a.consStats i ≠ .basic ∧ a.consStats i ≠ .zero := by
  refine ⟨fun h => hd (ha.consBasic i hi h), fun h => ?_⟩
  obtain ⟨z1, z2⟩ := ha.consZero i hi h
  rcases lt_or_gt_of_ne hd with c | c
  · exact absurd (ha.consNeg i hi c).1 (not_lt.mpr z2)
  · exact absurd (ha.consPos i hi c).1 (not_lt.mpr z1)

theorem solve_extra (hinf : 0 < e.inf) (hs : LpReady e J0 it r s) (hg : GradOk e grad) {S S' : LpArrays K → Option (LpSol K)}
    (hS : LpCorrect e.inf S) {t : LpObj} {s' : CauchyLp K} {b : Option BasisCall}
    (h : s.solve e S S' grad penalty t = some (s', b)) : LpExtra e t s' ∧ LpFresh e s' := by
  obtain ⟨o, f, b', ho, -, heq⟩ := solve_eq (s := s) hg penalty t S S'
  rw [heq] at h
  obtain ⟨a, ha, h⟩ := Option.bind_eq_some_iff.mp h
  have hsol := hS _ _ ha
  obtain ⟨r1, r2, r3, r4⟩ := solved_first (f := f) (t := t) hs ho hsol
  have hd := lpData_obj (o := o) hs.data
  have hlt : ∀ j < e.numVars, j < e.numLp := fun j hj => by unfold LpEnv.numLp; omega
  split at h
  · split at h
    · rename_i hres
      obtain ⟨c, hc, h⟩ := Option.bind_eq_some_iff.mp h
      cases c with
      | true =>
        rw [if_pos rfl] at h
        obtain ⟨s6, h6, h7⟩ := Option.map_eq_some_iff.mp h
        injection h7 with h7 _
        subst h7
        have hz := resolve_slacks hinf hs hsol hc
        obtain ⟨J', hJ, hi⟩ := r3.iter
        rw [switchReduced_eq S' hi rfl rfl (fun j h1 h2 => by rw [← hz j h1 h2]; exact overlay_lt h2)] at h6
        obtain ⟨a', ha', h6⟩ := Option.map_eq_some_iff.mp h6
        subst h6
        refine ⟨⟨fun _ => hres, fun _ => ?_⟩, fun hc => (by cases hc)⟩
        rcases resolve_why hc with c | ⟨i, hi, c1, c2⟩
        · cases c
        · have hi' := List.mem_range.mp hi
          have l1 : e.numVars + i < e.numLp := by unfold LpEnv.numLp; omega
          have l2 : e.numVars + e.numCons + i < e.numLp := by unfold LpEnv.numLp; omega
          have d1 : a.consDual i ≠ 0 := by
            have : (lpState' e s o f t a).dual (e.numLp + i) = a.consDual i := by
              show (if e.numLp + i < e.numLp then _ else if e.numLp ≤ e.numLp + i ∧ e.numLp + i < e.numLp + e.numCons then a.consDual (e.numLp + i - e.numLp) else _) = _
              rw [if_neg (by omega), if_pos (by omega), Nat.add_sub_cancel_left]
            rw [← this]; exact c1
          have e0 : (lpState' e s o f t a).consStats i = a.consStats i := overlay_lt hi'
          have e1 : (lpState' e s o f t a).varStats (e.numVars + i) = a.varStats (e.numVars + i) := overlay_lt l1
          have e2 : (lpState' e s o f t a).varStats (e.numVars + e.numCons + i) = a.varStats (e.numVars + e.numCons + i) := overlay_lt l2
          rw [e0, e1, e2] at c2
          obtain ⟨n1, n2⟩ := cons_dual_status hsol (show i < s.lp.numCons by rw [hs.data.nc]; exact hi') d1
          refine ⟨i, hi', d1, ?_⟩
          rcases c2 with c | c | c | c
          · exact absurd c n1
          · exact absurd c n2
          · rcases slack_stat hinf hd hsol (j := e.numVars + i) (by omega) l1 with q | q
            · exact .inl q
            · exact absurd q.1 c
          · rcases slack_stat hinf hd hsol (j := e.numVars + e.numCons + i) (by omega) l2 with q | q
            · exact .inr q
            · exact absurd q.1 c
      | false =>
        rw [if_neg (by decide)] at h
        injection h with h; injection h with h _
        subst h
        exact ⟨⟨fun hc => (by cases hc), fun hc => (by cases hc)⟩, fun _ j hj => overlay_lt (hlt j hj)⟩
    · injection h with h; injection h with h _
      subst h
      exact ⟨⟨fun hc => (by cases hc), fun hc => (by cases hc)⟩, fun hc => (by cases hc)⟩
  · cases h

/-! ### queries -/

theorem extra_fetchStats : (s.fetchStats e).useReduced = s.useReduced ∧ (s.fetchStats e).sol = s.sol ∧ (s.fetchStats e).redSol = s.redSol ∧
    (s.fetchStats e).primal = s.primal ∧ (s.fetchStats e).dirtyPrimal = s.dirtyPrimal := by
  unfold CauchyLp.fetchStats
  dsimp only
  split <;> exact ⟨rfl, rfl, rfl, rfl, rfl⟩

theorem extra_query {op : LpOp K} (hq : op.isQuery) {s' : CauchyLp K} (hs : op.apply e s = some s') :
    s'.useReduced = s.useReduced ∧ s'.sol = s.sol ∧ s'.redSol = s.redSol ∧
      (s.useReduced = false ∨ op ≠ .violation → LpFresh e s → LpFresh e s') := by
  have hlt : ∀ j < e.numVars, j < e.numLp := fun j hj => by unfold LpEnv.numLp; omega
  have hst : ∀ t : CauchyLp K, t = s.fetchStats e → t.useReduced = s.useReduced ∧ t.sol = s.sol ∧ t.redSol = s.redSol ∧
      (s.useReduced = false ∨ op ≠ .violation → LpFresh e s → LpFresh e t) := by
    rintro t rfl
    obtain ⟨h1, h2, h3, h4, h5⟩ := extra_fetchStats (e := e) (s := s)
    refine ⟨h1, h2, h3, fun _ hf => ?_⟩
    unfold LpFresh CauchyLp.answer at hf ⊢
    rw [h1, h2, h3, h4, h5]; exact hf
  cases op with
  | setIterate _ _ => exact hq.elim
  | setRadius _ => exact hq.elim
  | solve _ _ _ _ _ => exact hq.elim
  | lpStep d =>
    obtain ⟨x, hx, rfl⟩ := Option.map_eq_some_iff.mp hs
    obtain ⟨y, -, rfl⟩ := Option.map_eq_some_iff.mp hx
    dsimp only
    unfold CauchyLp.fetchPrimal
    dsimp only
    split
    · refine ⟨rfl, rfl, rfl, fun _ _ _ j hj => ?_⟩
      unfold CauchyLp.answer
      dsimp only
      cases hu : s.useReduced with
      | true => exact overlay_lt (by simpa using hj)
      | false => exact overlay_lt (by simpa using hlt j hj)
    · exact ⟨rfl, rfl, rfl, fun _ h => h⟩
  | workingSet it' w =>
    obtain ⟨x, hx, rfl⟩ := Option.map_eq_some_iff.mp hs
    unfold CauchyLp.workingSet at hx
    obtain ⟨w1, -, hx⟩ := Option.bind_eq_some_iff.mp hx
    obtain ⟨w2, -, hx⟩ := Option.bind_eq_some_iff.mp hx
    split at hx
    · injection hx with hx
      rw [← hx]; exact hst _ rfl
    · cases hx
  | locallyInfeasible =>
    obtain ⟨x, hx, rfl⟩ := Option.map_eq_some_iff.mp hs
    unfold CauchyLp.locallyInfeasible at hx
    obtain ⟨it', -, hx⟩ := Option.bind_eq_some_iff.mp hx
    split at hx
    · cases hx
    · dsimp only at hx
      split at hx
      · obtain ⟨a, -, hx⟩ := Option.bind_eq_some_iff.mp hx
        obtain ⟨b, -, hx⟩ := Option.map_eq_some_iff.mp hx
        rw [← hx]; exact hst _ rfl
      · cases hx
  | estimateDuals w cd vd =>
    obtain ⟨x, hx, rfl⟩ := Option.map_eq_some_iff.mp hs
    unfold CauchyLp.estimateDuals at hx
    obtain ⟨a, -, hx⟩ := Option.bind_eq_some_iff.mp hx
    obtain ⟨b, -, hx⟩ := Option.map_eq_some_iff.mp hx
    rw [← hx]
    exact ⟨rfl, rfl, rfl, fun _ h => h⟩
  | violation =>
    injection hs with hs
    rw [← hs]
    refine ⟨rfl, rfl, rfl, fun h _ _ j hj => ?_⟩
    rcases h with h | h
    · unfold CauchyLp.answer
      have : ((s.violation e).1).useReduced = false := h
      rw [this]
      exact overlay_lt (hlt j hj)
    · exact absurd rfl h

/-- a history, ending with `solve` and queries -/
theorem extra_run (hb : LpBounds e) {ops qs : List (LpOp K)} {S S' : LpArrays K → Option (LpSol K)} {t : LpObj}
    (hops : ∀ op ∈ ops, op.Ok e J0) (hsolve : (LpOp.solve S S' grad penalty t).Ok e J0) (hqs : ∀ q ∈ qs, q.isQuery)
    (hcur : LpOp.current ops = some (it, r))
    (hrun : LpOp.run e (CauchyLp.create e s0) (ops ++ .solve S S' grad penalty t :: qs) = some s) :
    LpExtra e t s ∧ (s.useReduced = false ∨ .violation ∉ qs → LpFresh e s) := by
  unfold LpOp.run at hrun
  rw [List.foldlM_append] at hrun
  obtain ⟨s1, h1, h2⟩ := Option.bind_eq_some_iff.mp hrun
  rw [List.foldlM_cons] at h2
  obtain ⟨s2, h3, h4⟩ := Option.bind_eq_some_iff.mp h2
  have hist := lpHist_run hb hops lpHist_create h1
  have hr := hist.some it r hcur
  obtain ⟨a1, a2, a3, -⟩ := hsolve
  have h3' : (if s1.iterate.isSome then (s1.solve e S S' grad penalty t).map Prod.fst else none) = some s2 := h3
  have hsol : LpExtra e t s2 ∧ LpFresh e s2 := by
    split at h3'
    · obtain ⟨⟨x, b⟩, hx, rfl⟩ := Option.map_eq_some_iff.mp h3'
      exact solve_extra hb.inf hr a3 a1 hx
    · cases h3'
  clear h2 h3 h3' hrun
  obtain ⟨hx, hf⟩ := hsol
  refine ⟨?_, ?_⟩
  · clear hf
    induction qs generalizing s2 with
    | nil => injection h4 with h4; rw [← h4]; exact hx
    | cons q qs ih =>
      rw [List.foldlM_cons] at h4
      obtain ⟨s3, h5, h6⟩ := Option.bind_eq_some_iff.mp h4
      obtain ⟨q1, q2, -, -⟩ := extra_query (hqs q (by simp)) h5
      exact ih (fun x hx => hqs x (by simp [hx])) s3 h6 ⟨by rw [q1]; exact hx.mode, by rw [q1, q2]; exact hx.why⟩
  · clear hx
    have key : ∀ (qs : List (LpOp K)) (s2 : CauchyLp K), (∀ q ∈ qs, q.isQuery) → List.foldlM (LpOp.apply e) s2 qs = some s → LpFresh e s2 →
        s.useReduced = s2.useReduced ∧ (s.useReduced = false ∨ .violation ∉ qs → LpFresh e s) := by
      intro qs
      induction qs with
      | nil => intro s2 _ h4 hf; injection h4 with h4; rw [← h4]; exact ⟨rfl, fun _ => hf⟩
      | cons q qs ih =>
        intro s2 hqs h4 hf
        rw [List.foldlM_cons] at h4
        obtain ⟨s3, h5, h6⟩ := Option.bind_eq_some_iff.mp h4
        obtain ⟨q1, q2, q3, q4⟩ := extra_query (hqs q (by simp)) h5
        have hu : s.useReduced = s2.useReduced := by
          rw [← q1]
          clear ih hf q2 q3 q4 q1 h5 h4
          induction qs generalizing s3 with
          | nil => injection h6 with h6; rw [h6]
          | cons q' qs ih' =>
            rw [List.foldlM_cons] at h6
            obtain ⟨s4, h7, h8⟩ := Option.bind_eq_some_iff.mp h6
            obtain ⟨p1, -⟩ := extra_query (hqs q' (by simp)) h7
            rw [← p1]
            refine ih' ?_ s4 h8
            intro x hx
            rcases List.mem_cons.mp hx with hx | hx
            · exact hqs x (by simp [hx])
            · exact hqs x (by simp [hx])
        refine ⟨hu, fun h => ?_⟩
        have hf3 : LpFresh e s3 := by
          refine q4 ?_ hf
          rcases h with h | h
          · left; rw [← hu]; exact h
          · right; intro hc; exact h (by rw [hc]; simp)
        refine (ih s3 (fun x hx => hqs x (by simp [hx])) h6 hf3).2 ?_
        rcases h with h | h
        · exact .inl h
        · right; intro hc; exact h (by simp [hc])
    exact (key qs s2 hqs h4 hf).2

end Sleqp
