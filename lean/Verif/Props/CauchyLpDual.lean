import Verif.Props.CauchyLpWork
import Verif.Spec.Soc

/-! C75: multipliers of the LP-based Cauchy step. -/

namespace Sleqp
open Finset
variable {K : Type*} [Field K] [LinearOrder K] [IsStrictOrderedRing K]
variable {e : LpEnv K} {J0 : Nat → Nat → K} {s0 s : CauchyLp K} {it : Iterate K} {r penalty : K} {grad : Option (Vec K)}
variable {ops qs : List (LpOp K)} {S S' : LpArrays K → Option (LpSol K)} {t : LpObj}

omit [IsStrictOrderedRing K] in
theorem trimDuals_spec (st : Nat → ActiveState) {d : Vec K} (hd : d.WF) :
    (trimDuals st d).WF ∧ (trimDuals st d).dim = d.dim ∧
      ∀ i, (trimDuals st d).value i = if trimKeep (st i) (d.value i) then d.value i else 0 := by
  have hsub : (d.ents.filter fun t => trimKeep (st t.1) t.2).Sublist d.ents := List.filter_sublist
  have hs : Srt (d.ents.filter fun t => trimKeep (st t.1) t.2) := List.Pairwise.sublist hsub hd.srt
  refine ⟨⟨hs, fun x hx => hd.lt_dim x (hsub.subset hx), le_trans hsub.length_le hd.le_cap⟩, rfl, fun i => ?_⟩
  show valAt (d.ents.filter fun t => trimKeep (st t.1) t.2) i = if trimKeep (st i) (valAt d.ents i) then valAt d.ents i else 0
  by_cases hex : ∃ x ∈ d.ents, x.1 = i
  · obtain ⟨x, hx, rfl⟩ := hex
    rw [valAt_of_mem hd.srt hx]
    by_cases hk : trimKeep (st x.1) x.2 = true
    · rw [if_pos hk]
      exact valAt_of_mem hs (List.mem_filter.mpr ⟨hx, hk⟩)
    · rw [if_neg hk]
      unfold valAt
      rw [at?_none_of_forall (fun y hy hxy => ?_)]
      · rfl
      obtain ⟨h1, h2⟩ := List.mem_filter.mp hy
      have e1 := valAt_of_mem hd.srt h1
      have e2 := valAt_of_mem hd.srt hx
      rw [hxy, e2] at e1
      rw [hxy, ← e1] at h2
      exact hk h2
  · have h0 : valAt d.ents i = 0 := by
      unfold valAt
      rw [at?_none_of_forall (fun y hy hxy => hex ⟨y, hy, hxy⟩)]; rfl
    rw [h0]
    unfold valAt
    rw [at?_none_of_forall (fun y hy hxy => hex ⟨y, hsub.subset hy, hxy⟩)]
    show (0 : K) = _
    split <;> rfl

theorem lpDuals_spec {k : Nat} (raw : Nat → K) (st : Nat → ActiveState) {d : Vec K} (hd : d.dim = k) :
    ∃ d', lpDuals e k raw st d = some d' ∧ d'.WF ∧ d'.dim = k ∧
      ∀ i < k, d'.value i = if trimKeep (st i) (-dropSmall e.zeroEps (raw i)) then -dropSmall e.zeroEps (raw i) else 0 := by
  obtain ⟨v, h1, h2, h3, h4⟩ := setFromRaw_spec e.zeroEps d ((List.range k).map raw)
  obtain ⟨c1, c2⟩ := C03_scale v (-1)
  have hw : (v.scale (-1)).WF := by
    unfold Vec.scale
    rw [if_neg (by simp), if_neg (by intro h; have : (1 : K) + 1 = 0 := by linarith
                                     exact absurd this (by positivity))]
    refine ⟨?_, ?_, ?_⟩
    · show Srt _
      unfold Srt
      rw [List.pairwise_map]; exact h2.srt
    · intro x hx
      obtain ⟨y, hy, rfl⟩ := List.mem_map.mp hx
      exact h2.lt_dim y hy
    · show (List.map _ _).length ≤ _
      rw [List.length_map]; exact h2.le_cap
  obtain ⟨t1, t2, t3⟩ := trimDuals_spec st hw
  refine ⟨trimDuals st (v.scale (-1)), ?_, t1, ?_, fun i hi => ?_⟩
  · unfold lpDuals
    rw [if_pos hd, h1]; rfl
  · rw [t2, c1, h3, List.length_map, List.length_range]
  · have : (v.scale (-1)).value i = -dropSmall e.zeroEps (raw i) := by
      rw [c2, h4, List.getElem?_map, List.getElem?_range hi]
      show (if |raw i| ≤ e.zeroEps then 0 else raw i) * -1 = _
      unfold dropSmall; ring
    rw [t3, this]

/-- C75. For every working set, vectors of the right dimensions and state of the solver, estimating multipliers succeeds, and the multipliers are
supported by the working set: nonpositive at lower, nonnegative at upper bounds, zero outside of the working set. -/
theorem C75_supported (s : CauchyLp K) (w : WSet) {cd vd : Vec K} (hc : cd.dim = e.numCons) (hv : vd.dim = e.numVars) :
    ∃ s' z y, s.estimateDuals e w cd vd = some (s', z, y) ∧ z.WF ∧ z.dim = e.numVars ∧ y.WF ∧ y.dim = e.numCons ∧
      supportsRange w.varState z = true ∧ supportsRange w.consState y = true := by
  obtain ⟨z, z1, z2, z3, z4⟩ := lpDuals_spec (e := e) s.sol.varsDual w.varState hv
  obtain ⟨y, y1, y2, y3, y4⟩ := lpDuals_spec (e := e) s.sol.consDual w.consState hc
  have key : ∀ (st : ActiveState) (v : K), match st with
      | .both => True
      | .lower => (if trimKeep st v then v else 0) ≤ 0
      | .upper => 0 ≤ (if trimKeep st v then v else 0)
      | .inactive => (if trimKeep st v then v else 0) = 0 := by
    intro st v
    cases st with
    | inactive => rfl
    | lower =>
      by_cases h : v > 0
      · simp [trimKeep, h]
      · simp [trimKeep, h, not_lt.mp h]
    | upper =>
      by_cases h : v < 0
      · simp [trimKeep, h]
      · simp [trimKeep, h, not_lt.mp h]
    | both => trivial
  refine ⟨_, z, y, by unfold CauchyLp.estimateDuals; rw [z1, Option.bind_some, y1]; rfl, z2, z3, y2, y3, ?_, ?_⟩
  · rw [C30_supports _ _ z2, z3]
    intro i hi
    have := key (w.varState i) (-dropSmall e.zeroEps (s.sol.varsDual i))
    rw [z4 i hi]
    revert this
    cases w.varState i <;> exact id
  · rw [C30_supports _ _ y2, y3]
    intro i hi
    have := key (w.consState i) (-dropSmall e.zeroEps (s.sol.consDual i))
    rw [y4 i hi]
    revert this
    cases w.consState i <;> exact id

/-- component of the gradient given to `solve` -/
def gradVal (grad : Option (Vec K)) (j : Nat) : K := match grad with | none => 0 | some g => g.value j

theorem isEq_self {x eps : K} (h : 0 ≤ eps) : isEq x x eps = true := by
  unfold isEq relDiff
  rw [decide_eq_true_eq]
  simpa using h

/-- a basic slack has a constraint with a multiplier of the size of the penalty parameter -/
theorem slack_basic_dual (h : LpSolved e it r grad penalty s) {i : Nat} (hi : i < e.numCons)
    (hb : s.sol.varStats (e.numVars + i) = .basic ∨ s.sol.varStats (e.numVars + e.numCons + i) = .basic) : |s.sol.consDual i| = |penalty| := by
  have hsum : ∀ c : K, ∑ k ∈ range s.lp.numCons, s.sol.consDual k * (if k = i then c else 0) = s.sol.consDual i * c := by
    intro c
    rw [sum_eq_single i]
    · rw [if_pos rfl]
    · intro k _ hk; rw [if_neg hk, mul_zero]
    · intro hc; exact absurd (mem_range.mpr (by rw [h.data.nc]; exact hi)) hc
  rcases hb with hb | hb
  · have l1 : e.numVars + i < e.numLp := by unfold LpEnv.numLp; omega
    have l1' : e.numVars + i < s.lp.numVars := by rw [h.data.nv]; exact l1
    have hst := h.sol.stat _ l1'
    rw [h.obj.slack _ (by omega) l1, h.sol.varBasic _ l1' hb, zero_add,
      sum_congr rfl (fun k hk => by rw [h.data.pos k (by rw [← h.data.nc]; exact mem_range.mp hk) i hi]), hsum, mul_one] at hst
    rw [hst]
  · have l1 : e.numVars + e.numCons + i < e.numLp := by unfold LpEnv.numLp; omega
    have l1' : e.numVars + e.numCons + i < s.lp.numVars := by rw [h.data.nv]; exact l1
    have hst := h.sol.stat _ l1'
    rw [h.obj.slack _ (by omega) l1, h.sol.varBasic _ l1' hb, zero_add,
      sum_congr rfl (fun k hk => by rw [h.data.neg k (by rw [← h.data.nc]; exact mem_range.mp hk) i hi]), hsum] at hst
    rw [hst, mul_neg_one, abs_neg]

theorem dropSmall_sub {eps x : K} (h : 0 ≤ eps) : |x - dropSmall eps x| ≤ eps := by
  unfold dropSmall
  split
  · rename_i hx; rw [sub_zero]; exact hx
  · rw [sub_self, abs_zero]; exact h

theorem dropSmall_sign {eps x : K} : (0 ≤ x → 0 ≤ dropSmall eps x) ∧ (x ≤ 0 → dropSmall eps x ≤ 0) ∧ (x = 0 → dropSmall eps x = 0) := by
  unfold dropSmall
  split <;> simp

/-- C75. After any history that ends with `solve` and queries, the multipliers estimated for the working set of this state are
stationary together with the gradient given to `solve`, up to dropped values, if no component of the step is at the
bound of the trust region and the multipliers of the linear program are smaller than the penalty parameter.
Missing: multipliers equal to the penalty parameter, in particular problems solved again in reduced form, see `C75_reduced_violated`. -/
theorem C75_stationary_partial (hb : LpBounds e) (hops : ∀ op ∈ ops, op.Ok e J0) (hsolve : (LpOp.solve S S' grad penalty t).Ok e J0)
    (hqs : ∀ q ∈ qs, q.isQuery) (hcur : LpOp.current ops = some (it, r))
    (hrun : LpOp.run e (CauchyLp.create e s0) (ops ++ .solve S S' grad penalty t :: qs) = some s) (hfar : FarBounds e it r) {it' : Iterate K}
    (hit' : it'.primal = it.primal) {w0 : WSet} {l0 : List WEntry} (hw0 : WRep e.numVars e.numCons w0 l0)
    (hfix : ∀ j < e.numVars, isEq (e.bounds.varsLb.value j) (e.bounds.varsUb.value j) e.eps = true → s.answer.varStats j ≠ .basic)
    (heps : 0 ≤ e.eps) (hzero : 0 ≤ e.zeroEps)
    (hdual : ∀ i < e.numCons, |s.sol.consDual i| < penalty) (hin : ∀ j < e.numVars, |s.sol.primal j| < r)
    {cd vd : Vec K} (hcd : cd.dim = e.numCons) (hvd : vd.dim = e.numVars) :
    ∃ s' w s'' z y, s.workingSet e it' w0 = some (s', w) ∧ s'.estimateDuals e w cd vd = some (s'', z, y) ∧
      ∀ j < e.numVars, |gradVal grad j + ∑ i ∈ range e.numCons, y.value i * it.consJac.value i j + z.value j| ≤
        e.zeroEps * (1 + ∑ i ∈ range e.numCons, |it.consJac.value i j|) := by
  have h := solved_run hb hops hsolve hqs hcur hrun
  obtain ⟨hx, -⟩ := extra_run hb hops hsolve hqs hcur hrun
  have hp := hsolve.2.2.2
  have hnb : ∀ i < e.numCons, s.sol.varStats (e.numVars + i) ≠ .basic ∧ s.sol.varStats (e.numVars + e.numCons + i) ≠ .basic := by
    intro i hi
    have key : ¬ (s.sol.varStats (e.numVars + i) = .basic ∨ s.sol.varStats (e.numVars + e.numCons + i) = .basic) := by
      intro hc
      have := slack_basic_dual h hi hc
      have h2 := hdual i hi
      rw [this, abs_of_nonneg hp] at h2
      exact lt_irrefl _ h2
    exact not_or.mp key
  have hred : s.useReduced = false := by
    by_contra hc
    obtain ⟨i, hi, -, c⟩ := hx.why (by simpa using hc)
    rcases c with c | c
    · exact (hnb i hi).1 c
    · exact (hnb i hi).2 c
  have hans : s.answer = s.sol := by unfold CauchyLp.answer; rw [hred]; rfl
  obtain ⟨w, st, h1, h2, h3, h4, h5, h6⟩ := workingSet_spec hb hp h hfar hit' hw0 hfix
  rw [hans] at h2
  obtain ⟨hv, hc⟩ := entries_states h2
  obtain ⟨f1, f2, f3, f4, f5⟩ := extra_fetchStats (e := e) (s := s)
  obtain ⟨z, z1, z2, z3, z4⟩ := lpDuals_spec (e := e) (s.fetchStats e).sol.varsDual w.varState hvd
  obtain ⟨y, y1, y2, y3, y4⟩ := lpDuals_spec (e := e) (s.fetchStats e).sol.consDual w.consState hcd
  refine ⟨_, w, _, z, y, h1, by unfold CauchyLp.estimateDuals; rw [z1, Option.bind_some, y1]; rfl, fun j hj => ?_⟩
  rw [f2] at y4 z4
  have hlt : ∀ j < e.numVars, j < e.numLp := fun j hj => by unfold LpEnv.numLp; omega
  -- multipliers of the constraints are kept
  have hy : ∀ i < e.numCons, y.value i = -dropSmall e.zeroEps (s.sol.consDual i) := by
    intro i hi
    rw [y4 i hi]
    by_cases h0 : s.sol.consDual i = 0
    · rw [(dropSmall_sign).2.2 h0]; simp
    have hi' : i < s.lp.numCons := by rw [h.data.nc]; exact hi
    obtain ⟨n1, n2⟩ := cons_dual_status h.sol hi' h0
    have hact := lpConsSt_active hb.inf h.data h.sol hi n1 n2 (hnb i hi).1 (hnb i hi).2
    obtain ⟨c1, c2, c3, c4, c5⟩ := lpConsState_active (lpConsSt_eq hb.inf h.data h.sol hi) hact
    have hst : w.consState i = lpConsSt e s.sol i := by rw [hc i hi, h4 i hi, if_neg (by rw [hred]; decide)]
    rw [if_pos]
    rw [hst, c5]
    by_cases heq : isEq (e.bounds.consLb.value i) (e.bounds.consUb.value i) e.eps = true
    · rw [if_pos heq]; rfl
    rw [if_neg heq]
    have hne : e.bounds.consLb.value i ≠ e.bounds.consUb.value i := fun hc => heq (by rw [hc]; exact isEq_self heps)
    cases hs : s.sol.consStats i with
    | basic => exact absurd hs n1
    | zero => exact absurd hs n2
    | lower =>
      rw [if_pos rfl]
      have hnn : 0 ≤ s.sol.consDual i := by
        by_contra hneg
        obtain ⟨u1, u2⟩ := h.sol.consNeg i hi' (not_le.mp hneg)
        obtain ⟨v1, v2⟩ := h.sol.consLower i hi' hs
        rw [h.data.cub i hi] at u1 u2
        rw [h.data.clb i hi] at v1 v2
        rw [lpConsUb_eq u1] at u2
        rw [lpConsLb_eq v1] at v2
        exact hne (by linarith)
      have := (dropSmall_sign (eps := e.zeroEps)).1 hnn
      show (!decide (-dropSmall e.zeroEps (s.sol.consDual i) > 0)) = true
      rw [decide_eq_false (by linarith)]; rfl
    | upper =>
      rw [if_neg (by decide)]
      have hnn : s.sol.consDual i ≤ 0 := by
        by_contra hneg
        obtain ⟨v1, v2⟩ := h.sol.consPos i hi' (not_le.mp hneg)
        obtain ⟨u1, u2⟩ := h.sol.consUpper i hi' hs
        rw [h.data.cub i hi] at u1 u2
        rw [h.data.clb i hi] at v1 v2
        rw [lpConsUb_eq u1] at u2
        rw [lpConsLb_eq v1] at v2
        exact hne (by linarith)
      have := (dropSmall_sign (eps := e.zeroEps)).2.1 hnn
      show (!decide (-dropSmall e.zeroEps (s.sol.consDual i) < 0)) = true
      rw [decide_eq_false (by linarith)]; rfl
  -- those of the variables, too
  have hz : z.value j = -dropSmall e.zeroEps (s.sol.varsDual j) := by
    rw [z4 j hj]
    by_cases h0 : s.sol.varsDual j = 0
    · rw [(dropSmall_sign).2.2 h0]; simp
    have hj' : j < s.lp.numVars := by rw [h.data.nv]; exact hlt j hj
    have n1 : s.sol.varStats j ≠ .basic := fun hc => h0 (h.sol.varBasic j hj' hc)
    have hact := h.data.vars.active h.sol h.rinf hj n1 (hin j hj)
    have hst := hv j hj
    obtain ⟨i1, i2⟩ := abs_lt.mp (hin j hj)
    -- a variable at both of its bounds is fixed
    have hboth : s.sol.primal j = s.lp.varsLb j → s.sol.primal j = s.lp.varsUb j →
        isEq (e.bounds.varsLb.value j) (e.bounds.varsUb.value j) e.eps = true := by
      intro q1 q2
      rw [h.data.vlb j hj] at q1
      rw [h.data.vub j hj] at q2
      unfold lpVarLb at q1
      unfold lpVarUb at q2
      have r1 : s.sol.primal j = e.bounds.varsLb.value j - it.primal.value j := by
        split at q1
        · linarith
        · rcases max_choice (e.bounds.varsLb.value j - it.primal.value j) (-r) with m | m
          · rw [m] at q1; exact q1
          · rw [m] at q1; linarith
      have r2 : s.sol.primal j = e.bounds.varsUb.value j - it.primal.value j := by
        split at q2
        · linarith
        · rcases min_choice (e.bounds.varsUb.value j - it.primal.value j) r with m | m
          · rw [m] at q2; exact q2
          · rw [m] at q2; linarith
      have : e.bounds.varsLb.value j = e.bounds.varsUb.value j := by linarith
      rw [this]; exact isEq_self heps
    rw [if_pos]
    rw [hst]
    unfold lpVarState at hact ⊢
    by_cases heq : isEq (e.bounds.varsLb.value j) (e.bounds.varsUb.value j) e.eps = true
    · rw [if_pos heq]; rfl
    rw [if_neg heq] at hact ⊢
    by_cases c2 : s.sol.varStats j = .lower ∧ it.primal.value j - e.bounds.varsLb.value j < r
    · rw [if_pos c2]
      have hnn : 0 ≤ s.sol.varsDual j := by
        by_contra hneg
        exact heq (hboth (h.sol.varLower j hj' c2.1).2 (h.sol.varNeg j hj' (not_le.mp hneg)).2)
      have := (dropSmall_sign (eps := e.zeroEps)).1 hnn
      show (!decide (-dropSmall e.zeroEps (s.sol.varsDual j) > 0)) = true
      rw [decide_eq_false (by linarith)]; rfl
    · rw [if_neg c2] at hact ⊢
      by_cases c3 : s.sol.varStats j = .upper ∧ e.bounds.varsUb.value j - it.primal.value j < r
      · rw [if_pos c3]
        have hnn : s.sol.varsDual j ≤ 0 := by
          by_contra hneg
          exact heq (hboth (h.sol.varPos j hj' (not_le.mp hneg)).2 (h.sol.varUpper j hj' c3.1).2)
        have := (dropSmall_sign (eps := e.zeroEps)).2.1 hnn
        show (!decide (-dropSmall e.zeroEps (s.sol.varsDual j) < 0)) = true
        rw [decide_eq_false (by linarith)]; rfl
      · rw [if_neg c3] at hact
        exact absurd rfl hact
  -- stationarity of the linear program
  have hstat := h.sol.stat j (by rw [h.data.nv]; exact hlt j hj)
  rw [h.obj.grad j hj, h.data.nc, sum_congr rfl (fun i hi => by rw [h.data.jac i (mem_range.mp hi) j hj])] at hstat
  have hg : gradVal grad j = s.sol.varsDual j + ∑ i ∈ range e.numCons, s.sol.consDual i * it.consJac.value i j := hstat
  have hsplit : gradVal grad j + ∑ i ∈ range e.numCons, y.value i * it.consJac.value i j + z.value j =
      (s.sol.varsDual j - dropSmall e.zeroEps (s.sol.varsDual j)) +
        ∑ i ∈ range e.numCons, (s.sol.consDual i - dropSmall e.zeroEps (s.sol.consDual i)) * it.consJac.value i j := by
    have hys : ∑ i ∈ range e.numCons, y.value i * it.consJac.value i j =
        ∑ i ∈ range e.numCons, -dropSmall e.zeroEps (s.sol.consDual i) * it.consJac.value i j :=
      sum_congr rfl (fun i hi => by rw [hy i (mem_range.mp hi)])
    rw [hys, hg, hz]
    simp only [sub_mul, neg_mul, sum_sub_distrib, sum_neg_distrib]
    ring
  rw [hsplit, mul_add, mul_one, mul_sum]
  refine le_trans (abs_add_le _ _) (add_le_add (dropSmall_sub hzero) (le_trans (abs_sum_le_sum_abs _ _) (sum_le_sum fun i _ => ?_)))
  rw [abs_mul]
  exact mul_le_mul_of_nonneg_right (dropSmall_sub hzero) (abs_nonneg _)

/-- With the problem solved again in reduced form (the default), the working set belongs to the reduced problem, but the multipliers to the
one before. For minimising `2 x` with `0 ≤ x ≤ 10` and the equation `x = 0` at `x = 0` with penalty parameter one, the step is zero and all
constraints are met, but the estimated multipliers are zero: the residuum of the stationarity condition is `2`. With multiplier `-2` of the
equation it would be zero. -/
theorem C75_reduced_violated :
    LpBounds exEqEnv ∧ (∀ op ∈ [LpOp.setIterate exFixIterate 1], op.Ok exEqEnv fun _ _ => 0) ∧ exEqSolve.Ok exEqEnv (fun _ _ => 0) ∧
    FarBounds exEqEnv exFixIterate 1 ∧
    ∃ s s' w s'' z y, LpOp.run exEqEnv (CauchyLp.create exEqEnv exLpState) ([.setIterate exFixIterate 1] ++ exEqSolve :: []) = some s ∧
      (∀ j < 1, |s.sol.primal j| < 1) ∧ linViol exEqEnv exFixIterate s.sol.primal = 0 ∧
      s.workingSet exEqEnv exFixIterate (WSet.create 1 1 fun _ => 0) = some (s', w) ∧
      s'.estimateDuals exEqEnv w ⟨1, 0, []⟩ ⟨1, 0, []⟩ = some (s'', z, y) ∧
      gradVal exEqGrad 0 + y.value 0 * exFixIterate.consJac.value 0 0 + z.value 0 = 2 := by
  refine ⟨exEqEnv_bounds, exEqOps_ok, exEqSolve_ok, exEqFar, ?_⟩
  have : ((LpOp.run exEqEnv (CauchyLp.create exEqEnv exLpState) ([.setIterate exFixIterate 1] ++ exEqSolve :: [])).bind
      fun s => (s.workingSet exEqEnv exFixIterate (WSet.create 1 1 fun _ => 0)).bind fun r =>
        (r.1.estimateDuals exEqEnv r.2 ⟨1, 0, []⟩ ⟨1, 0, []⟩).map fun q =>
          (s.sol.primal 0, gradVal exEqGrad 0 + q.2.2.value 0 * exFixIterate.consJac.value 0 0 + q.2.1.value 0)) = some (0, 2) := by decide +kernel
  obtain ⟨s, h1, h2⟩ := Option.bind_eq_some_iff.mp this
  obtain ⟨⟨s', w⟩, h3, h4⟩ := Option.bind_eq_some_iff.mp h2
  obtain ⟨⟨s'', z, y⟩, h5, h6⟩ := Option.map_eq_some_iff.mp h4
  simp only [Prod.mk.injEq] at h6
  refine ⟨s, s', w, s'', z, y, h1, fun j hj => ?_, ?_, h3, h5, h6.2⟩
  · have : j = 0 := by omega
    rw [this, h6.1]; simp
  · unfold linViol
    show ∑ i ∈ range 1, _ = _
    rw [sum_range_one]
    unfold Iterate.lin
    show violInf _ (_ + ∑ j ∈ range 1, _) _ _ = _
    rw [sum_range_one, h6.1, mul_zero]
    decide +kernel

/-- the hypotheses of `C75_stationary_partial` are met: minimise `d` for `1/2 ≤ d ≤ 5`; the multiplier of the constraint is `-1` -/
example : ∃ s s' w s'' z y, LpOp.run exLpEnv (CauchyLp.create exLpEnv exLpState) (exLpOps ++ exLpSolve :: [.violation]) = some s ∧
    s.workingSet exLpEnv exLpIterate (WSet.create 1 1 fun _ => 0) = some (s', w) ∧
    s'.estimateDuals exLpEnv w ⟨1, 0, []⟩ ⟨1, 0, []⟩ = some (s'', z, y) ∧
      ∀ j < 1, |gradVal exLpGrad j + ∑ i ∈ range 1, y.value i * exLpIterate.consJac.value i j + z.value j| ≤ 0 := by
  have : ((LpOp.run exLpEnv (CauchyLp.create exLpEnv exLpState) (exLpOps ++ exLpSolve :: [.violation])).map
      fun s => (s.sol.consDual 0, s.sol.primal 0)) = some (1, 1/2) := by decide +kernel
  obtain ⟨s, h1, h2⟩ := Option.map_eq_some_iff.mp this
  simp only [Prod.mk.injEq] at h2
  obtain ⟨e1, e2⟩ := h2
  have one : ∀ {j : Nat}, j < 1 → j = 0 := fun h => by omega
  obtain ⟨s', w, s'', z, y, a1, a2, a3⟩ := C75_stationary_partial exLpEnv_bounds exLpOps_ok exLpSolve_ok (by simp [LpOp.isQuery]) rfl h1
    (by unfold FarBounds; decide +kernel) (it' := exLpIterate) rfl (wrep_create 1 1 fun _ => 0) (fun j hj heq => by
      have := one hj
      subst this
      exact absurd heq (by decide +kernel)) (by decide +kernel) (by decide +kernel)
    (fun i hi => by rw [one hi, e1]; norm_num) (fun j hj => by rw [one hj, e2]; norm_num [abs_of_pos]) (cd := ⟨1, 0, []⟩) (vd := ⟨1, 0, []⟩) rfl rfl
  refine ⟨s, s', w, s'', z, y, h1, a1, a2, fun j hj => le_trans (a3 j hj) ?_⟩
  show (0 : ℚ) * _ ≤ 0
  rw [zero_mul]

end Sleqp
