import Verif.Spec.CauchyStep
import Verif.Props.CauchyLpWork
import Verif.Props.Feas
import Verif.Props.Penalty

/-! C76: the Cauchy direction. -/

namespace Sleqp
open Finset
variable {K : Type*} [Field K] [LinearOrder K] [IsStrictOrderedRing K]
variable {e : LpEnv K} {J0 : Nat → Nat → K} {s0 s : CauchyLp K} {it : Iterate K} {r penalty : K} {grad : Option (Vec K)}

/-- a state after a history that ends with `solve` and the queries `qs` -/
def LpAfter (e : LpEnv K) (J0 : Nat → Nat → K) (s0 : CauchyLp K) (it : Iterate K) (r : K) (grad : Option (Vec K)) (penalty : K) (t : LpObj)
    (qs : List (LpOp K)) (s : CauchyLp K) : Prop :=
  ∃ ops S S', (∀ op ∈ ops, op.Ok e J0) ∧ (LpOp.solve S S' grad penalty t).Ok e J0 ∧ (∀ q ∈ qs, q.isQuery) ∧ LpOp.current ops = some (it, r) ∧
    LpOp.run e (CauchyLp.create e s0) (ops ++ .solve S S' grad penalty t :: qs) = some s

omit [IsStrictOrderedRing K] in
theorem run_snoc {ops : List (LpOp K)} {op : LpOp K} {s1 s2 : CauchyLp K} (h : LpOp.run e s1 ops = some s) (h' : op.apply e s = some s2) :
    LpOp.run e s1 (ops ++ [op]) = some s2 := by
  unfold LpOp.run at h ⊢
  rw [List.foldlM_append, h]
  show List.foldlM (LpOp.apply e) s [op] = _
  rw [List.foldlM_cons, h']
  rfl

omit [IsStrictOrderedRing K] in
theorem current_snoc (ops : List (LpOp K)) (op : LpOp K) : LpOp.current (ops ++ [op]) = LpOp.next (LpOp.current ops) op := by
  unfold LpOp.current
  rw [List.foldl_append]; rfl

omit [IsStrictOrderedRing K] in
theorem next_query {q : LpOp K} (h : q.isQuery) (c : Option (Iterate K × K)) : LpOp.next c q = c := by
  cases q <;> first | rfl | exact h.elim

omit [IsStrictOrderedRing K] in
theorem next_queries {qs : List (LpOp K)} (h : ∀ q ∈ qs, q.isQuery) (c : Option (Iterate K × K)) : qs.foldl LpOp.next c = c := by
  induction qs with
  | nil => rfl
  | cons q qs ih => rw [List.foldl_cons, next_query (h q (by simp))]; exact ih fun x hx => h x (by simp [hx])

omit [IsStrictOrderedRing K] in
theorem ok_query {q : LpOp K} (h : q.isQuery) : q.Ok e J0 := by
  cases q <;> first | trivial | exact h.elim

omit [IsStrictOrderedRing K] in
theorem after_at {t : LpObj} {qs : List (LpOp K)} (h : LpAfter e J0 s0 it r grad penalty t qs s) : LpAt e J0 s0 (some (it, r)) s := by
  obtain ⟨ops, S, S', h1, h2, h3, h4, h5⟩ := h
  refine ⟨_, fun op hop => ?_, ?_, h5⟩
  · rcases List.mem_append.mp hop with c | c
    · exact h1 op c
    · rcases List.mem_cons.mp c with c | c
      · rw [c]; exact h2
      · exact ok_query (h3 op c)
  · unfold LpOp.current at h4 ⊢
    rw [List.foldl_append, h4, List.foldl_cons]
    exact next_queries h3 _

omit [IsStrictOrderedRing K] in
theorem after_query {t : LpObj} {qs : List (LpOp K)} (h : LpAfter e J0 s0 it r grad penalty t qs s) {q : LpOp K} (hq : q.isQuery) {s' : CauchyLp K}
    (hs : q.apply e s = some s') : LpAfter e J0 s0 it r grad penalty t (qs ++ [q]) s' := by
  obtain ⟨ops, S, S', h1, h2, h3, h4, h5⟩ := h
  refine ⟨ops, S, S', h1, h2, fun x hx => ?_, h4, ?_⟩
  · rcases List.mem_append.mp hx with c | c
    · exact h3 x c
    · rw [List.mem_singleton.mp c]; exact hq
  · have := run_snoc h5 hs
    rw [List.append_assoc, List.cons_append] at this
    exact this

theorem at_iterate (hb : LpBounds e) (h : LpAt e J0 s0 (some (it, r)) s) : LpReady e J0 it r s := by
  obtain ⟨ops, h1, h2, h3⟩ := h
  exact (lpHist_run hb h1 lpHist_create h3).some it r h2

theorem after_solve (hb : LpBounds e) (h : LpAt e J0 s0 (some (it, r)) s) {S S' : LpArrays K → Option (LpSol K)} {t : LpObj}
    (hok : (LpOp.solve S S' grad penalty t).Ok e J0) {s' : CauchyLp K} {b : Option BasisCall} (hs : s.solve e S S' grad penalty t = some (s', b)) :
    LpAfter e J0 s0 it r grad penalty t [] s' := by
  obtain ⟨J', hJ⟩ := (at_iterate hb h).iter
  obtain ⟨ops, h1, h2, h3⟩ := h
  refine ⟨ops, S, S', h1, hok, by simp, h2, run_snoc h3 ?_⟩
  show (if s.iterate.isSome then (s.solve e S S' grad penalty t).map Prod.fst else none) = some s'
  rw [hJ.2, hs]; rfl

omit [IsStrictOrderedRing K] in
theorem at_setIterate {c : Option (Iterate K × K)} (h : LpAt e J0 s0 c s) (hok : (LpOp.setIterate it r).Ok e J0) {s' : CauchyLp K} {it' : Iterate K}
    (hs : s.setIterate e it r = some (s', it')) : LpAt e J0 s0 (some (it, r)) s' := by
  obtain ⟨ops, h1, h2, h3⟩ := h
  refine ⟨ops ++ [.setIterate it r], fun op hop => ?_, by rw [current_snoc]; rfl, run_snoc h3 ?_⟩
  · rcases List.mem_append.mp hop with c | c
    · exact h1 op c
    · rw [List.mem_singleton.mp c]; exact hok
  · show (s.setIterate e it r).map Prod.fst = some s'
    rw [hs]; rfl

theorem after_solved (hb : LpBounds e) {t : LpObj} {qs : List (LpOp K)} (h : LpAfter e J0 s0 it r grad penalty t qs s) :
    LpSolved e it r grad penalty s ∧ LpExtra e t s ∧ (s.useReduced = false ∨ .violation ∉ qs → LpFresh e s) ∧ 0 ≤ penalty := by
  obtain ⟨ops, S, S', h1, h2, h3, h4, h5⟩ := h
  obtain ⟨a, b⟩ := extra_run hb h1 h2 h3 h4 h5
  exact ⟨solved_run hb h1 h2 h3 h4 h5, a, b, h2.2.2.2⟩

/-- the violation reported is that of the answer of the LP solver, not of the reduced problem -/
theorem after_violation (hb : LpBounds e) {t : LpObj} {qs : List (LpOp K)} (h : LpAfter e J0 s0 it r grad penalty t qs s) (hp : 0 < penalty) :
    (s.violation e).2 = linViol e it s.sol.primal ∧ OptStep e it r grad penalty s.sol.primal ∧
      LpAfter e J0 s0 it r grad penalty t (qs ++ [.violation]) (s.violation e).1 := by
  obtain ⟨a, -, -, b⟩ := after_solved hb h
  obtain ⟨h1, -, -, h4⟩ := solved_opt hb b a
  refine ⟨?_, h1, after_query (q := .violation) h trivial rfl⟩
  rw [← h4 hp]
  have hfold : ∀ (l : List Nat) (f : Nat → K) (v : K), l.foldl (fun v j => v + f j) v = v + (l.map f).sum := by
    intro l f
    induction l with
    | nil => intro v; simp
    | cons a l ih => intro v; rw [List.foldl_cons, ih, List.map_cons, List.sum_cons, add_assoc]
  show (List.range' e.numVars (2 * e.numCons)).foldl (fun v j => v + overlay e.numLp s.sol.primal s.primal j) 0 = _
  rw [hfold, zero_add, List.range'_eq_map_range, List.map_map]
  have : ((List.range (2 * e.numCons)).map ((overlay e.numLp s.sol.primal s.primal) ∘ fun x => e.numVars + x)).sum =
      ∑ k ∈ range (2 * e.numCons), s.sol.primal (e.numVars + k) := by
    rw [← List.sum_toFinset _ List.nodup_range, List.toFinset_range]
    refine sum_congr rfl fun k hk => ?_
    rw [mem_range] at hk
    exact overlay_lt (show e.numVars + k < e.numLp by unfold LpEnv.numLp; omega)
  rw [this, two_mul, sum_range_add, sum_add_distrib]
  congr 1
  exact sum_congr rfl fun k _ => by rw [add_assoc]

/-- step and working set read one after the other -/
theorem fetch_spec (hb : LpBounds e) (hnf : NoFixed e) {t : CauchyDir K} {o : LpObj} {qs : List (LpOp K)}
    (h : LpAfter e J0 s0 it r (some it.objGrad) penalty o qs t.cauchy)
    (hq : t.cauchy.useReduced = false ∨ .violation ∉ qs) (hfar : FarBounds e it r) (hit : t.iterate.primal = it.primal) {l0 : List WEntry}
    (hw : WRep e.numVars e.numCons t.work l0) :
    ∃ s' d w qs', t.fetch e = some { t with cauchy := s', step := d, work := w } ∧ CauchyDirFor e it r penalty d w t.cauchy.answer.primal ∧
      LpAfter e J0 s0 it r (some it.objGrad) penalty o qs' s' ∧ (.violation ∉ qs → .violation ∉ qs') ∧ s'.useReduced = t.cauchy.useReduced ∧ s'.sol = t.cauchy.sol ∧
      s'.redSol = t.cauchy.redSol := by
  obtain ⟨hsol, hx, hfresh, hp⟩ := after_solved hb h
  obtain ⟨o1, o2, -⟩ := solved_opt hb hp hsol
  have hopt : OptStep e it r (some it.objGrad) penalty t.cauchy.answer.primal := by
    unfold CauchyLp.answer
    cases hu : t.cauchy.useReduced with
    | true => exact o2 hu
    | false => exact o1
  obtain ⟨d', hd1, hd2, hd3, hd4⟩ := setFromRaw_spec e.zeroEps t.step ((List.range e.numVars).map (t.cauchy.fetchPrimal e).primal)
  have hstep : t.cauchy.lpStep e t.step = some (t.cauchy.fetchPrimal e, d') := by unfold CauchyLp.lpStep; dsimp only; rw [hd1]; rfl
  have hprim : ∀ j < e.numVars, (t.cauchy.fetchPrimal e).primal j = t.cauchy.answer.primal j := by
    intro j hj
    have hlt : j < e.numLp := by unfold LpEnv.numLp; omega
    have hf := hfresh hq
    unfold LpFresh at hf
    unfold CauchyLp.fetchPrimal
    dsimp only
    split
    · dsimp only
      unfold CauchyLp.answer
      refine overlay_lt ?_
      split
      · exact hj
      · exact hlt
    · rename_i hd
      exact hf (by simpa using hd) j hj
  have hap : (LpOp.lpStep t.step).apply e t.cauchy = some (t.cauchy.fetchPrimal e) := by
    show (t.cauchy.lpStep e t.step).map Prod.fst = _
    rw [hstep]; rfl
  have h' := after_query h (q := .lpStep t.step) trivial hap
  obtain ⟨x1, x2, x3, -⟩ := extra_query (op := LpOp.lpStep t.step) trivial hap
  obtain ⟨hsol', -, -, -⟩ := after_solved hb h'
  have hans : (t.cauchy.fetchPrimal e).answer = t.cauchy.answer := by unfold CauchyLp.answer; rw [x1, x2, x3]
  obtain ⟨w, st, h1, h2, h3, h4, h5, h6⟩ := workingSet_spec hb hp hsol' hfar hit hw fun j hj heq => absurd heq (by rw [hnf j hj]; decide)
  obtain ⟨hv, hc⟩ := entries_states h2
  have hap' : (LpOp.workingSet t.iterate t.work).apply e (t.cauchy.fetchPrimal e) = some ((t.cauchy.fetchPrimal e).fetchStats e) := by
    show ((t.cauchy.fetchPrimal e).workingSet e t.iterate t.work).map Prod.fst = _
    rw [h1]; rfl
  obtain ⟨y1, y2, y3, -⟩ := extra_query (op := LpOp.workingSet t.iterate t.work) trivial hap'
  rw [hans] at h2 h3 h5 h6 hv
  refine ⟨_, d', w, _, by unfold CauchyDir.fetch; rw [hstep, Option.bind_some, h1]; rfl, ⟨hopt, ⟨hd2, by rw [hd3]; simp, fun j hj => ?_⟩,
    ⟨_, h2, by rw [C30_valid h2, if_pos h3], h3, fun c hc0 => ?_, h6⟩⟩, after_query (q := .workingSet t.iterate t.work) h' trivial hap', fun hv => by simp [hv], y1.trans x1, y2.trans x2, y3.trans x3⟩
  · rw [hd4, List.getElem?_map, List.getElem?_range hj]
    show (if |(t.cauchy.fetchPrimal e).primal j| ≤ e.zeroEps then 0 else (t.cauchy.fetchPrimal e).primal j) = _
    rw [hprim j hj]; rfl
  · refine work_indep h2 it.consJac.value (fun z y hz hy hzy => h5 z y ?_ ?_ hzy) c hc0
    · intro j hj hi; exact hz j hj (by rw [hv j hj]; exact hi)
    · intro i hi hi'; exact hy i hi (by rw [hc i hi]; exact hi')

/-- the loops increasing the penalty parameter -/
theorem lpPenaltyLoop_spec (hb : LpBounds e) {c : LpCalls K} (hc : c.Correct e.inf) {stop : K → Bool}
    (hg : it.objGrad.WF ∧ it.objGrad.dim = e.numVars) :
    ∀ (fuel k : Nat) {s s' : CauchyLp K} {p p' : K}, LpAt e J0 s0 (some (it, r)) s → 0 < p →
      lpPenaltyLoop e c it.objGrad stop fuel k s p = some (s', p') →
      ∃ n ≤ fuel, p' = p * 10 ^ n ∧ (n = 0 → s' = s ∧ fuel = 0) ∧ (0 < n → ∃ qs, LpAfter e J0 s0 it r (some it.objGrad) p' .mixed qs s') ∧
        (n < fuel → stop (linViol e it s'.sol.primal / e.numCons) = true) ∧
        ∀ i, i + 1 < n → ∃ q, OptStep e it r (some it.objGrad) (p * 10 ^ (i + 1)) q ∧ stop (linViol e it q / e.numCons) = false
  | 0, k, s, s', p, p', _, _, h => by
    unfold lpPenaltyLoop at h
    injection h with h; injection h with h1 h2
    exact ⟨0, le_rfl, by rw [← h2]; simp, fun _ => ⟨h1.symm, rfl⟩, fun h => absurd h (by omega), fun h => absurd h (by omega), fun i hi => absurd hi (by omega)⟩
  | fuel + 1, k, s, s', p, p', hs, hp, h => by
    unfold lpPenaltyLoop at h
    obtain ⟨⟨s1, b⟩, h1, h2⟩ := Option.bind_eq_some_iff.mp h
    have hp10 : 0 < p * 10 := by positivity
    have ha := after_solve hb hs (grad := some it.objGrad) ⟨hc.mixed k, hc.red, fun g hg' => by injection hg' with hg'; rw [← hg']; exact hg, hp10.le⟩ h1
    obtain ⟨v1, v2, v3⟩ := after_violation hb ha hp10
    dsimp only at h2
    rw [v1] at h2
    split at h2
    · rename_i hstop
      injection h2 with h2; injection h2 with e1 e2
      refine ⟨1, by omega, by rw [← e2]; simp, fun h => absurd h (by omega), fun _ => ⟨[] ++ [.violation], ?_⟩, fun _ => ?_, fun i hi => absurd hi (by omega)⟩
      · rw [← e1, ← e2]; exact v3
      · rw [← e1]; exact hstop
    · rename_i hstop
      obtain ⟨n, n1, n2, n3, n4, n5, n6⟩ := lpPenaltyLoop_spec hb hc hg fuel (k + 1) (after_at v3) hp10 h2
      refine ⟨n + 1, by omega, by rw [n2]; ring, fun h => absurd h (by omega), fun _ => ?_, fun hlt => n5 (by omega), fun i hi => ?_⟩
      · rcases Nat.eq_zero_or_pos n with c | c
        · obtain ⟨q1, -⟩ := n3 c
          rw [q1, n2, c]
          exact ⟨_, by simpa using v3⟩
        · exact n4 c
      · cases i with
        | zero => exact ⟨_, by simpa using v2, by simpa using hstop⟩
        | succ i =>
          obtain ⟨q, q1, q2⟩ := n6 i (by omega)
          exact ⟨q, by rw [pow_succ, mul_comm (10 ^ (i + 1)) 10, ← mul_assoc]; exact q1, q2⟩

/-- the update of the penalty parameter with the linear programs it solves -/
theorem lpUpdatePenalty_spec (hb : LpBounds e) {c : LpCalls K} (hc : c.Correct e.inf) {tol : K}
    (hg : it.objGrad.WF ∧ it.objGrad.dim = e.numVars) {t : LpObj} {qs : List (LpOp K)} {s s' : CauchyLp K} {p p' : K}
    (ha : LpAfter e J0 s0 it r (some it.objGrad) p t qs s) (hp : 0 < p) (h : lpUpdatePenalty e c tol it.objGrad s p = some (s', p')) :
    LpAt e J0 s0 (some (it, r)) s' ∧ ∃ n ≤ 100, p' = p * 10 ^ n ∧
      ((n = 0 ∧ linViol e it s.sol.primal / e.numCons ≤ tol) ∨ tol < linViol e it s.sol.primal / e.numCons ∧ ∃ v, MinViol e it r v ∧
        (n = 0 ↔ tol < v / e.numCons ∧ linViol e it s.sol.primal / e.numCons - v / e.numCons ≤ tol) ∧
        (0 < n → ∃ qs, LpAfter e J0 s0 it r (some it.objGrad) p' .mixed qs s') ∧
        (0 < n → n < 100 → PenaltyGoal tol (linViol e it s.sol.primal / e.numCons) (v / e.numCons) (linViol e it s'.sol.primal / e.numCons)) ∧
        ∀ i, i + 1 < n → ∃ q, OptStep e it r (some it.objGrad) (p * 10 ^ (i + 1)) q ∧
          ¬ PenaltyGoal tol (linViol e it s.sol.primal / e.numCons) (v / e.numCons) (linViol e it q / e.numCons)) := by
  unfold lpUpdatePenalty at h
  split at h
  swap
  · cases h
  obtain ⟨v1, v2, v3⟩ := after_violation hb ha hp
  dsimp only at h
  rw [v1] at h
  split at h
  · rename_i hcur
    injection h with h; injection h with e1 e2
    rw [← e1, ← e2]
    exact ⟨after_at v3, 0, by omega, by simp, .inl ⟨rfl, hcur⟩⟩
  · rename_i hcur
    obtain ⟨⟨s1, b⟩, h1, h2⟩ := Option.bind_eq_some_iff.mp h
    have hf := after_solve hb (after_at v3) (grad := none) ⟨hc.feas, hc.red, fun g hg' => (by cases hg'), hp.le⟩ h1
    obtain ⟨w1, w2, w3⟩ := after_violation hb hf hp
    have hmin : MinViol e it r (linViol e it s1.sol.primal) := by
      refine ⟨⟨_, w2.1, rfl⟩, fun d hd => ?_⟩
      have := w2.2 d hd
      unfold linModel gradPart at this
      dsimp only at this
      rw [zero_add, zero_add] at this
      exact le_of_mul_le_mul_left this hp
    dsimp only at h2
    rw [w1] at h2
    split at h2
    · rename_i hinf
      obtain ⟨n, n1, n2, n3, n4, n5, n6⟩ := lpPenaltyLoop_spec hb hc hg 100 0 (after_at w3) hp h2
      have hn : 0 < n := by
        rcases Nat.eq_zero_or_pos n with c | c
        · exact absurd (n3 c).2 (by decide)
        · exact c
      obtain ⟨qs', hq⟩ := n4 hn
      refine ⟨after_at hq, n, n1, n2, .inr ⟨not_le.mp hcur, _, hmin, ⟨fun h => absurd h (by omega), fun h => absurd h.1 (not_lt.mpr hinf)⟩, n4, fun _ hlt => ?_, fun i hi => ?_⟩⟩
      · unfold PenaltyGoal; rw [if_pos hinf]; exact of_decide_eq_true (n5 hlt)
      · obtain ⟨q, q1, q2⟩ := n6 i hi
        exact ⟨q, q1, by unfold PenaltyGoal; rw [if_pos hinf]; exact of_decide_eq_false q2⟩
    · rename_i hinf
      split at h2
      · rename_i hd
        injection h2 with h2; injection h2 with e1 e2
        rw [← e1, ← e2]
        exact ⟨after_at w3, 0, by omega, by simp, .inr ⟨not_le.mp hcur, _, hmin, ⟨fun _ => ⟨not_le.mp hinf, hd⟩, fun _ => rfl⟩, fun h => absurd h (by omega),
          fun h => absurd h (by omega), fun i hi => absurd hi (by omega)⟩⟩
      · rename_i hd
        obtain ⟨n, n1, n2, n3, n4, n5, n6⟩ := lpPenaltyLoop_spec hb hc hg 100 0 (after_at w3) hp h2
        have hn : 0 < n := by
          rcases Nat.eq_zero_or_pos n with c | c
          · exact absurd (n3 c).2 (by decide)
          · exact c
        obtain ⟨qs', hq⟩ := n4 hn
        refine ⟨after_at hq, n, n1, n2, .inr ⟨not_le.mp hcur, _, hmin, ⟨fun h => absurd h (by omega), fun h => absurd h.2 hd⟩, n4, fun _ hlt => ?_, fun i hi => ?_⟩⟩
        · unfold PenaltyGoal; rw [if_neg hinf]; exact of_decide_eq_true (n5 hlt)
        · obtain ⟨q, q1, q2⟩ := n6 i hi
          exact ⟨q, q1, by unfold PenaltyGoal; rw [if_neg hinf]; exact of_decide_eq_false q2⟩

/-- with LP solvers that solve every feasible bounded linear program, the update succeeds -/
theorem lpPenaltyLoop_some (hb : LpBounds e) {c : LpCalls K} (hc : c.Correct e.inf) (hC : c.Complete e.inf) {stop : K → Bool}
    (hg : it.objGrad.WF ∧ it.objGrad.dim = e.numVars) :
    ∀ (fuel k : Nat) {s : CauchyLp K} {p : K}, LpAt e J0 s0 (some (it, r)) s → 0 < p →
      ∃ s' p', lpPenaltyLoop e c it.objGrad stop fuel k s p = some (s', p')
  | 0, k, s, p, _, _ => ⟨s, p, rfl⟩
  | fuel + 1, k, s, p, hs, hp => by
    have hp10 : 0 < p * 10 := by positivity
    have hgo : GradOk e (some it.objGrad) := fun g hg' => by injection hg' with hg'; rw [← hg']; exact hg
    obtain ⟨s1, b, h1⟩ := solve_some hb (at_iterate hb hs) hgo hp10.le (hc.mixed k) (hC.mixed k) hC.red .mixed
    have ha := after_solve hb hs (grad := some it.objGrad) ⟨hc.mixed k, hc.red, hgo, hp10.le⟩ h1
    obtain ⟨v1, v2, v3⟩ := after_violation hb ha hp10
    unfold lpPenaltyLoop
    rw [h1, Option.bind_some]
    dsimp only
    split
    · exact ⟨_, _, rfl⟩
    · exact lpPenaltyLoop_some hb hc hC hg fuel (k + 1) (after_at v3) hp10

theorem lpUpdatePenalty_some (hb : LpBounds e) {c : LpCalls K} (hc : c.Correct e.inf) (hC : c.Complete e.inf) {tol : K} (hm : 0 < e.numCons)
    (hg : it.objGrad.WF ∧ it.objGrad.dim = e.numVars) {t : LpObj} {qs : List (LpOp K)} {s : CauchyLp K} {p : K}
    (ha : LpAfter e J0 s0 it r (some it.objGrad) p t qs s) (hp : 0 < p) : ∃ s' p', lpUpdatePenalty e c tol it.objGrad s p = some (s', p') := by
  unfold lpUpdatePenalty
  rw [if_pos hm]
  obtain ⟨v1, v2, v3⟩ := after_violation hb ha hp
  dsimp only
  split
  · exact ⟨_, _, rfl⟩
  · have hgo : GradOk e none := fun g hg' => by cases hg'
    obtain ⟨s1, b, h1⟩ := solve_some hb (at_iterate hb (after_at v3)) hgo hp.le hc.feas hC.feas hC.red .feas
    have hf := after_solve hb (after_at v3) (grad := none) ⟨hc.feas, hc.red, hgo, hp.le⟩ h1
    obtain ⟨w1, w2, w3⟩ := after_violation hb hf hp
    rw [h1, Option.bind_some]
    dsimp only
    split
    · exact lpPenaltyLoop_some hb hc hC hg 100 0 (after_at w3) hp
    · split
      · exact ⟨_, _, rfl⟩
      · exact lpPenaltyLoop_some hb hc hC hg 100 0 (after_at w3) hp

omit [IsStrictOrderedRing K] in
theorem infNorm_nonneg (v : Vec K) : 0 ≤ v.infNorm := by
  unfold Vec.infNorm
  have : ∀ (l : List (Nat × K)) (s : K), 0 ≤ s → 0 ≤ l.foldl (fun s e => max |e.2| s) s := by
    intro l
    induction l with
    | nil => exact fun s h => h
    | cons a l ih => exact fun s h => ih _ (le_max_of_le_right h)
  exact this _ _ le_rfl

/-- the merit value of the iterate is the value of its linear model at the zero step -/
theorem meritFunc_lin (hb : LpBounds e) (hit : LpIterate e it) (penalty : K) :
    meritFunc e.numCons e.bounds it penalty = some (it.objVal + penalty * linViol e it fun _ => 0) := by
  unfold meritFunc
  rw [C12_total_violation ⟨hit.consVal.1, hb.sized.wcl, hb.sized.wcu, hit.consVal.2, hb.sized.dcl, hb.sized.dcu, fun i hi => (hb.cons i hi).2.2⟩]
  have key : ∑ i ∈ range e.numCons, viol (it.consVal.value i) (e.bounds.consLb.value i) (e.bounds.consUb.value i) = linViol e it fun _ => 0 := ?_
  · rw [key]; rfl
  unfold linViol
  refine sum_congr rfl fun i hi => ?_
  rw [mem_range] at hi
  have : it.lin e.numVars (fun _ => 0) i = it.consVal.value i := by unfold Iterate.lin; simp
  rw [this]
  unfold viol violInf
  obtain ⟨c1, c2⟩ := abs_lt.mp (hit.cfin i hi)
  split
  · rename_i h1
    have m1 : e.bounds.consLb.value i - it.consVal.value i ≤ 0 := by linarith
    split
    · rename_i h2
      rw [max_eq_right (max_le m1 (by linarith)), max_eq_right (max_le le_rfl le_rfl)]
    · rw [max_assoc, max_assoc, max_eq_right (le_trans m1 (le_max_right _ _)), max_eq_right (le_max_right (it.consVal.value i - _) 0)]
  · split
    · rename_i h2
      have m2 : it.consVal.value i - e.bounds.consUb.value i ≤ 0 := by linarith
      rw [max_assoc, max_eq_right m2, max_assoc, max_eq_right (le_refl (0:K))]
    · rfl

end Sleqp
