import Verif.Lemmas.Restoration

/-! C25: the restoration problem; C55: entering restoration. -/

namespace Sleqp
open Finset
variable {K : Type*} [Field K] [LinearOrder K] [IsStrictOrderedRing K]

/-- C25: the residual of the restoration problem is `c(x) - s`; components of
magnitude at most `zero_eps` are dropped. -/
theorem C25_residual (eps : K) (heps : 0 ≤ eps) (c s dest : Vec K) (hc : c.WF) (hs : s.WF)
    (hd : c.dim = s.dim) :
    ∃ r, restResidual eps c s dest = some r ∧ r.WF ∧ r.dim = c.dim ∧
      ∀ i, r.value i = if |c.value i - s.value i| ≤ eps then 0 else c.value i - s.value i := by
  obtain ⟨r, h1, h2, h3, h4⟩ := C03_add_scaled c s dest 1 (-1) eps hc hs hd heps
  refine ⟨r, h1, h2, h3, fun i => ?_⟩
  rw [h4 i]
  simp only [one_mul, neg_mul, ← sub_eq_add_neg]

/-- C25: the callbacks of the restoration function are correct least-squares
callbacks for the residual `c(x) - s` with Jacobian `[c'(x) | -I]`, in every state
with well-formed data, whatever the capacity of the vectors they are given.
(In particular the adjoint product is the transpose of the forward product.)
This is for `zero_eps = 0`; a positive drop tolerance is missing. -/
theorem C25_callbacks_partial (pr : RestProblem K) :
    LsqSpec (restUser pr 0) (RestOk pr) (restR pr) (restJ pr) 0 0 0 := by
  refine ⟨fun p dest hp hd he _ => ?_, fun p d dest hp hd hn hdd he _ => ?_,
    fun p y dest hp hy hn hdd he _ => ?_⟩
  · obtain ⟨r, h1, h2, h3, h4⟩ := C25_residual 0 le_rfl (p.computeVal pr).consVal p.consPrimal dest
      hp.cWF hp.sWF (hp.cDim.trans hp.sDim.symm)
    refine ⟨r, h1, h2, (h3.trans hp.cDim).trans hd.symm, addScaled_cap h1, fun i _ => ?_⟩
    rw [h4 i, drop_zero]; rfl
  · obtain ⟨r, h1, h2, h3, h4⟩ := restForward_spec pr.numVars pr.numCons (p.computeJac pr).consJac d dest
      hp.jWF hp.jRows hp.jCols hd hn
    refine ⟨r, h1, h2, h3.trans hdd.symm, ?_, fun i hi => ?_⟩
    · unfold restForward at h1
      rcases hs : splitPrimal pr.numVars pr.numCons d with _ | xs
      · simp [hs] at h1
      · rw [hs] at h1
        simp only [Option.bind_some] at h1
        rcases hm : (p.computeJac pr).consJac.multVec xs.1 with _ | c
        · simp [hm] at h1
        · rw [hm] at h1
          simp only [Option.bind_some] at h1
          rcases hf : Vec.setFromRaw 0 (Vec.create pr.numCons 0) ((List.range pr.numCons).map c) with _ | f
          · simp [hf] at h1
          · rw [hf] at h1
            exact addScaled_cap h1
    · rw [h3] at hi
      rw [h4 i hi]
      show _ = ∑ j ∈ range (pr.numVars + pr.numCons), restJ pr p i j * d.value j
      rw [Finset.sum_range_add]
      have e1 : ∑ j ∈ range pr.numVars, restJ pr p i j * d.value j =
          ∑ j ∈ range pr.numVars, (p.computeJac pr).consJac.value i j * d.value j :=
        Finset.sum_congr rfl fun j hj => by
          unfold restJ; rw [if_pos (Finset.mem_range.mp hj)]
      have e2 : ∑ k ∈ range pr.numCons, restJ pr p i (pr.numVars + k) * d.value (pr.numVars + k) =
          -d.value (pr.numVars + i) := by
        rw [Finset.sum_eq_single i]
        · unfold restJ; rw [if_neg (by omega), if_pos rfl]; ring
        · intro k _ hk
          unfold restJ; rw [if_neg (by omega), if_neg (by omega), zero_mul]
        · intro h; exact absurd (Finset.mem_range.mpr hi) h
      rw [e1, e2, sub_eq_add_neg]
  · obtain ⟨a, a1, a2, a3, a4⟩ := C08_mult_vec_trans (p.computeJac pr).consJac y (Vec.create pr.numVars 0) 0
      le_rfl hp.jWF hy (hp.jRows.trans hn.symm) hp.jCols
    have hdd' : dest.dim = a.dim + y.dim := by
      rw [a3, hp.jCols, hn]; exact hdd
    obtain ⟨r, r1, r2, r3, r4, r5, r6⟩ := concatAdjoint_spec a y dest a2 hy hdd'
    refine ⟨r, ?_, r2, r3, r4, fun j hj => ?_⟩
    · show restAdjoint pr.numVars 0 (p.computeJac pr).consJac y dest = some r
      unfold restAdjoint
      rw [a1]; exact r1
    · rw [r3, hdd] at hj
      have hj' : j < pr.numVars + pr.numCons := hj
      have ad : a.dim = pr.numVars := a3.trans hp.jCols
      show _ = ∑ i ∈ range pr.numCons, restJ pr p i j * y.value i
      by_cases h : j < pr.numVars
      · rw [r5 j (by omega), a4 j (by rw [hp.jCols]; exact h), drop_zero, hp.jRows]
        refine Finset.sum_congr rfl fun i _ => ?_
        unfold restJ; rw [if_pos h]
      · obtain ⟨k, rfl⟩ : ∃ k, j = pr.numVars + k := ⟨j - pr.numVars, by omega⟩
        rw [← ad, r6 k, Finset.sum_eq_single k]
        · unfold restJ; rw [if_neg (by omega), if_pos (by omega)]; ring
        · intro i _ hi
          unfold restJ; rw [if_neg (by omega), if_neg (by omega), zero_mul]
        · intro h'; exact absurd (Finset.mem_range.mpr (by omega)) h'

/-- C25: explicit transposition: `⟨F d, y⟩ = ⟨d, Fᵀ y⟩` for the products computed by
the restoration function.
This is for `zero_eps = 0`; a positive drop tolerance is missing. -/
theorem C25_adjoint_partial (pr : RestProblem K) (p : RestState K) (hp : RestOk pr p)
    (d y dest1 dest2 : Vec K) (hd : d.WF) (hdd : d.dim = pr.numVars + pr.numCons)
    (hy : y.WF) (hyd : y.dim = pr.numCons) (h1 : dest1.dim = pr.numCons) (e1 : dest1.ents = [])
    (h2 : dest2.dim = pr.numVars + pr.numCons) (e2 : dest2.ents = []) :
    ∃ f a, (restUser pr 0).fwd p d dest1 = some f ∧ (restUser pr 0).adj p y dest2 = some a ∧
      ∑ i ∈ range pr.numCons, f.value i * y.value i =
        ∑ j ∈ range (pr.numVars + pr.numCons), d.value j * a.value j := by
  obtain ⟨f, f1, f2⟩ := (C25_callbacks_partial pr).fwd p d dest1 hp hd hdd h1 e1 (Nat.zero_le _)
  obtain ⟨a, a1, a2⟩ := (C25_callbacks_partial pr).adj p y dest2 hp hy hyd h2 e2 (Nat.zero_le _)
  refine ⟨f, a, f1, a1, ?_⟩
  have l : ∀ i ∈ range pr.numCons, f.value i * y.value i =
      ∑ j ∈ range (pr.numVars + pr.numCons), restJ pr p i j * d.value j * y.value i := fun i hi => by
    rw [f2.val i (by rw [f2.dim, h1]; exact Finset.mem_range.mp hi), Finset.sum_mul]; rfl
  have r : ∀ j ∈ range (pr.numVars + pr.numCons), d.value j * a.value j =
      ∑ i ∈ range pr.numCons, restJ pr p i j * d.value j * y.value i := fun j hj => by
    rw [a2.val j (by rw [a2.dim, h2]; exact Finset.mem_range.mp hj), Finset.mul_sum]
    exact Finset.sum_congr rfl fun i _ => by ring
  rw [Finset.sum_congr rfl l, Finset.sum_congr rfl r, Finset.sum_comm]

/-! ### histories of the restoration function -/

/-- the original problem delivers well-formed constraint values and Jacobians -/
structure RestProblem.Ok (pr : RestProblem K) : Prop where
  cWF : ∀ x : Vec K, x.WF → x.dim = pr.numVars → (pr.consVal x).WF
  cDim : ∀ x : Vec K, x.WF → x.dim = pr.numVars → (pr.consVal x).dim = pr.numCons
  jWF : ∀ x : Vec K, x.WF → x.dim = pr.numVars → (pr.consJac x).WF
  jRows : ∀ x : Vec K, x.WF → x.dim = pr.numVars → (pr.consJac x).numRows = pr.numCons
  jCols : ∀ x : Vec K, x.WF → x.dim = pr.numVars → (pr.consJac x).numCols = pr.numVars

/-- calls on the restoration function: move to a lifted point, or evaluate -/
inductive RestOp (K : Type*)
  | set (z : Vec K)
  | objVal
  | objGrad (dest : Vec K)
  | hess (d dest : Vec K)

/-- effect of one call (`sleqp_func_set_value` on the restoration function runs
`restoration_func_set` and then drops the cached residual, lsq.c:47-64) -/
def restStep (pr : RestProblem K) (f : Lsq (RestState K) K) : RestOp K → Option (Lsq (RestState K) K)
  | .set z => (f.point.set pr z).map f.setValue
  | .objVal => Lsq.step (restUser pr 0) f .objVal
  | .objGrad g => Lsq.step (restUser pr 0) f (.objGrad g)
  | .hess d g => Lsq.step (restUser pr 0) f (.hess d g)

/-- a history -/
def restRun (pr : RestProblem K) : Lsq (RestState K) K → List (RestOp K) → Option (Lsq (RestState K) K)
  | f, [] => some f
  | f, o :: os => (restStep pr f o).bind fun f => restRun pr f os

/-- the lifted point of the latest `set` -/
def latestSet (z : Vec K) : List (RestOp K) → Vec K
  | [] => z
  | .set z' :: os => latestSet z' os
  | _ :: os => latestSet z os

/-- arguments of the calls are well formed and of the right dimensions -/
def RestLegal (pr : RestProblem K) (o : RestOp K) : Prop :=
  match o with
  | .set z => z.WF ∧ z.dim = pr.numVars + pr.numCons
  | .objVal => True
  | .objGrad g => g.dim = pr.numVars + pr.numCons
  | .hess d g => d.WF ∧ d.dim = pr.numVars + pr.numCons ∧ g.dim = pr.numVars + pr.numCons

/-- the function is at the lifted point `z` -/
structure RestAt (pr : RestProblem K) (z : Vec K) (f : Lsq (RestState K) K) : Prop where
  inv : LsqInv (restUser pr 0) (RestOk pr) (restR pr) 0 0 0 f
  eps : f.zeroEps = 0
  split : splitPrimal pr.numVars pr.numCons z = some (f.point.probPoint, f.point.consPrimal)
  val : f.point.hasVal = false
  jac : f.point.hasJac = false

theorem restAt_set {pr : RestProblem K} (hpr : pr.Ok) {z : Vec K} (hz : z.WF)
    (hd : z.dim = pr.numVars + pr.numCons) {f : Lsq (RestState K) K} (he : f.zeroEps = 0)
    (rd : f.residual.dim = pr.numCons) (fd : f.forward.dim = pr.numCons)
    (hd' : f.hessProd.dim = pr.numVars + pr.numCons) :
    ∃ f', restStep pr f (.set z) = some f' ∧ RestAt pr z f' := by
  obtain ⟨x, s, h1, xw, sw, xd, sd, _, _⟩ := splitPrimal_spec pr.numVars pr.numCons z hz hd
  show ∃ f', (f.point.set pr z).map f.setValue = some f' ∧ RestAt pr z f'
  unfold RestState.set
  rw [h1]
  refine ⟨_, rfl, ⟨⟨⟨sw, sd, ?_, ?_, ?_, ?_, ?_⟩, rd, fd, hd', Nat.zero_le _, Nat.zero_le _, Nat.zero_le _,
    fun h => absurd h Bool.false_ne_true⟩, he, h1, rfl, rfl⟩⟩
  · exact hpr.cWF x xw xd
  · exact hpr.cDim x xw xd
  · exact hpr.jWF x xw xd
  · exact hpr.jRows x xw xd
  · exact hpr.jCols x xw xd

theorem restAt_step {pr : RestProblem K} (hpr : pr.Ok) {z : Vec K} {f f' : Lsq (RestState K) K}
    (h : RestAt pr z f) {o : RestOp K} (ho : RestLegal pr o) (hst : restStep pr f o = some f') :
    RestAt pr (latestSet z [o]) f' := by
  have lift : ∀ (op : Lsq.Op (RestState K) K), (∀ p, op ≠ .setValue p) →
      (∀ d g, op = .hess d g → d.WF ∧ d.dim = (restUser pr 0).numVars ∧ g.dim = (restUser pr 0).numVars ∧ 0 ≤ g.cap) →
      Lsq.step (restUser pr 0) f op = some f' → RestAt pr z f' := by
    intro op h1 h2 h3
    obtain ⟨a, b, c⟩ := lsqInv_step (C25_callbacks_partial pr) h.inv h.eps.ge h3 h2
      (fun p hp => absurd hp (h1 p)) (le_refl 0)
    have : f'.point = f.point := by
      rw [c]; cases op <;> first | rfl | exact absurd rfl (h1 _)
    exact ⟨a, b.trans h.eps, by rw [this]; exact h.split, by rw [this]; exact h.val, by rw [this]; exact h.jac⟩
  cases o with
  | set z' =>
    obtain ⟨g, g1, g2⟩ := restAt_set hpr ho.1 ho.2 h.eps h.inv.rdim h.inv.fdim h.inv.hdim
    rw [g1] at hst
    cases hst
    exact g2
  | objVal => exact lift .objVal (by simp) (by simp) hst
  | objGrad g => exact lift (.objGrad g) (by simp) (by simp) hst
  | hess d g =>
    refine lift (.hess d g) (by simp) ?_ hst
    intro d' g' e
    cases e
    exact ⟨ho.1, ho.2.1, ho.2.2, Nat.zero_le _⟩

theorem restAt_run {pr : RestProblem K} (hpr : pr.Ok) (os : List (RestOp K)) :
    ∀ {z : Vec K} {f f' : Lsq (RestState K) K}, RestAt pr z f → (∀ o ∈ os, RestLegal pr o) →
      restRun pr f os = some f' → RestAt pr (latestSet z os) f' := by
  induction os with
  | nil => intro z f f' h _ hr; cases hr; exact h
  | cons o os ih =>
    intro z f f' h hl hr
    unfold restRun at hr
    rcases hst : restStep pr f o with _ | g
    · simp [hst] at hr
    · simp only [hst, Option.bind_some] at hr
      have h1 := restAt_step hpr h (hl o List.mem_cons_self) hst
      have h2 := ih h1 (fun o ho => hl o (List.mem_cons_of_mem _ ho)) hr
      have : latestSet (latestSet z [o]) os = latestSet z (o :: os) := by cases o <;> rfl
      rwa [this] at h2

/-- the variable part of a lifted point -/
def IsVarPart (n : Nat) (z x : Vec K) : Prop :=
  x.WF ∧ x.dim = n ∧ ∀ j < n, x.value j = z.value j

/-- C25: after every history of `set` and evaluation calls on the restoration
function (whatever the uninitialised cache flags contained at creation), its objective
is `½ Σ (c(x) - s)²` at the lifted point `(x, s)` of the latest `set`; it is nonnegative,
and zero iff `s = c(x)`.
This is for `zero_eps = 0`; with a positive drop tolerance it fails (`C25_drop_violated`). -/
theorem C25_objective_partial (pr : RestProblem K) (hpr : pr.Ok) (st0 : RestState K)
    (f0 f : Lsq (RestState K) K) (hc : Lsq.create (restUser pr 0) st0 0 0 = some f0)
    (z0 : Vec K) (os : List (RestOp K)) (hl : ∀ o ∈ RestOp.set z0 :: os, RestLegal pr o)
    (hrun : restRun pr f0 (.set z0 :: os) = some f) :
    ∃ x v f', IsVarPart pr.numVars (latestSet z0 os) x ∧ Lsq.objVal (restUser pr 0) f = some (v, f') ∧
      v = (1 / 2) * ∑ i ∈ range pr.numCons,
        ((pr.consVal x).value i - (latestSet z0 os).value (pr.numVars + i)) ^ 2 ∧
      0 ≤ v ∧
      (v = 0 ↔ ∀ i < pr.numCons, (latestSet z0 os).value (pr.numVars + i) = (pr.consVal x).value i) := by
  have hcr : f0.zeroEps = 0 ∧ f0.residual.dim = pr.numCons ∧ f0.forward.dim = pr.numCons ∧
      f0.hessProd.dim = pr.numVars + pr.numCons := by
    unfold Lsq.create at hc
    split at hc
    · cases hc
      refine ⟨rfl, rfl, rfl, ?_⟩
      simp only [ne_eq, not_true_eq_false, if_false]; rfl
    · simp at hc
  obtain ⟨g, g1, g2⟩ := restAt_set hpr (hl _ List.mem_cons_self).1 (hl _ List.mem_cons_self).2
    hcr.1 hcr.2.1 hcr.2.2.1 hcr.2.2.2
  unfold restRun at hrun
  rw [g1] at hrun
  simp only [Option.bind_some] at hrun
  have h := restAt_run hpr os g2 (fun o ho => hl o (List.mem_cons_of_mem _ ho)) hrun
  have hzl : (latestSet z0 os).WF ∧ (latestSet z0 os).dim = pr.numVars + pr.numCons := by
    have : ∀ (os : List (RestOp K)) (z : Vec K), z.WF ∧ z.dim = pr.numVars + pr.numCons →
        (∀ o ∈ os, RestLegal pr o) → (latestSet z os).WF ∧ (latestSet z os).dim = pr.numVars + pr.numCons := by
      intro os
      induction os with
      | nil => intro z hz _; exact hz
      | cons o os ih =>
        intro z hz ho
        have ho' := fun o h => ho o (List.mem_cons_of_mem _ h)
        have h1 := ho o List.mem_cons_self
        cases o with
        | set z' => exact ih z' h1 ho'
        | objVal => exact ih z hz ho'
        | objGrad _ => exact ih z hz ho'
        | hess _ _ => exact ih z hz ho'
    exact this os z0 (hl _ List.mem_cons_self) (fun o ho => hl o (List.mem_cons_of_mem _ ho))
  obtain ⟨x, s, h1, xw, sw, xd, sd, hx, hs⟩ := splitPrimal_spec pr.numVars pr.numCons (latestSet z0 os) hzl.1 hzl.2
  have hsp := h.split
  rw [h1] at hsp
  simp only [Option.some.injEq, Prod.mk.injEq] at hsp
  obtain ⟨hx', hs'⟩ := hsp
  obtain ⟨t, t1, t2, t3, t4, _⟩ := lsqInv_residual (C25_callbacks_partial pr) h.inv
  obtain ⟨w, hv⟩ := t2.res t3
  have hR : ∀ i < pr.numCons, t.residual.value i =
      (pr.consVal x).value i - (latestSet z0 os).value (pr.numVars + i) := by
    intro i hi
    rw [hv i hi, t4]
    unfold restR RestState.computeVal
    rw [h.val, ← hx', ← hs']
    simp only [Bool.false_eq_true, if_false]
    congr 1
    unfold Vec.value valAt; rw [hs i]
  have hval : Lsq.objVal (restUser pr 0) f = some ((1 / 2) * ∑ i ∈ range pr.numCons,
        ((pr.consVal x).value i - (latestSet z0 os).value (pr.numVars + i)) ^ 2, t) := by
    unfold Lsq.objVal
    rw [t1]
    simp only [Option.map_some]
    rw [(C03_norms _ w).2, t2.rdim]
    congr 3
    exact Finset.sum_congr rfl fun i hi => by rw [hR i (Finset.mem_range.mp hi)]
  have hnn : ∀ i ∈ range pr.numCons,
      0 ≤ ((pr.consVal x).value i - (latestSet z0 os).value (pr.numVars + i)) ^ 2 :=
    fun i _ => sq_nonneg _
  refine ⟨x, _, t, ⟨xw, xd, fun j hj => ?_⟩, hval, rfl, ?_, ?_⟩
  · unfold Vec.value valAt; rw [hx j hj]
  · have := Finset.sum_nonneg hnn
    positivity
  · rw [mul_eq_zero, Finset.sum_eq_zero_iff_of_nonneg hnn]
    constructor
    · rintro (h2 | h2)
      · norm_num at h2
      · intro i hi
        have := h2 i (Finset.mem_range.mpr hi)
        rw [sq_eq_zero_iff, sub_eq_zero] at this
        exact this.symm
    · intro h2
      right
      intro i hi
      rw [h2 i (Finset.mem_range.mp hi), sub_self]; ring

/-- `x` satisfies componentwise bounds -/
def Within (n : Nat) (lb ub : Nat → K) (x : Nat → K) : Prop := ∀ i < n, lb i ≤ x i ∧ x i ≤ ub i

/-- C25: the zeros of the restoration objective within the lifted bounds are exactly
the pairs `(x, c(x))` with `x` feasible for the original problem: the bounds are the
concatenated bounds, so `(x, s)` within them with `s = c(x)` says that `x` satisfies
the variable bounds and `c(x)` the constraint bounds. -/
theorem C25_zero_is_feasible (n m : Nat) (vlb vub clb cub : Vec K) (h1 : vlb.WF) (h2 : vub.WF)
    (h3 : clb.WF) (h4 : cub.WF) (d1 : vlb.dim = n) (d2 : vub.dim = n) (d3 : clb.dim = m)
    (d4 : cub.dim = m) (z : Vec K) (x c : Nat → K) (hx : ∀ j < n, z.value j = x j) :
    ∃ lb ub, restBound vlb clb = some lb ∧ restBound vub cub = some ub ∧ lb.dim = n + m ∧
      ub.dim = n + m ∧
      ((Within (n + m) lb.value ub.value z.value ∧ ∀ i < m, z.value (n + i) = c i) ↔
        (Within n vlb.value vub.value x ∧ Within m clb.value cub.value c ∧
          ∀ i < m, z.value (n + i) = c i)) := by
  obtain ⟨lb, l1, l2, l3, l4, l5⟩ := C03_concat vlb clb (Vec.create (vlb.dim + clb.dim) 0) h1 h3
  obtain ⟨ub, u1, u2, u3, u4, u5⟩ := C03_concat vub cub (Vec.create (vub.dim + cub.dim) 0) h2 h4
  refine ⟨lb, ub, l1, u1, by omega, by omega, ?_⟩
  rw [d1] at l4 l5
  rw [d2] at u4 u5
  constructor
  · rintro ⟨hb, hs⟩
    refine ⟨fun j hj => ?_, fun i hi => ?_, hs⟩
    · have := hb j (by omega)
      rw [l4 j hj, u4 j hj, hx j hj] at this; exact this
    · have := hb (n + i) (by omega)
      rw [l5 i, u5 i, hs i hi] at this; exact this
  · rintro ⟨hv, hc, hs⟩
    refine ⟨fun k hk => ?_, hs⟩
    by_cases h : k < n
    · rw [l4 k h, u4 k h, hx k h]; exact hv k h
    · obtain ⟨i, rfl⟩ : ∃ i, k = n + i := ⟨k - n, by omega⟩
      rw [l5 i, u5 i, hs i (by omega)]; exact hc i (by omega)

omit [IsStrictOrderedRing K] in
/-- C25: lifting a point never overruns the target, keeps the variables and adds the
constraint values projected onto their bounds. -/
theorem C25_transform (n m : Nat) (lb ub x c dest : Vec K) (hl : lb.WF) (hu : ub.WF) (hx : x.WF)
    (hc : c.WF) (d1 : lb.dim = m) (d2 : ub.dim = m) (d3 : x.dim = n) (d4 : c.dim = m)
    (d5 : dest.dim = n + m) (hle : ∀ i < m, lb.value i ≤ ub.value i) :
    ∃ z, restTransform n m lb ub x c dest = some z ∧ z.WF ∧ z.dim = n + m ∧
      (∀ j < n, z.value j = x.value j) ∧
      (∀ i < m, z.value (n + i) = min (max (c.value i) (lb.value i)) (ub.value i)) ∧
      (∀ i < m, lb.value i ≤ z.value (n + i) ∧ z.value (n + i) ≤ ub.value i) := by
  have hsm := merge3_srt hc.srt hl.srt hu.srt
  obtain ⟨M, hM⟩ : ∃ M, M = merge3 c.ents lb.ents ub.ents := ⟨_, rfl⟩
  rw [← hM] at hsm
  obtain ⟨L, hL⟩ : ∃ L, L = M.filterMap (liftVal n) := ⟨_, rfl⟩
  have memL : ∀ e ∈ L, ∃ t ∈ M, e = (n + t.1, Vec.clipVal t) := by
    intro e he
    rw [hL] at he
    obtain ⟨t, ht, h⟩ := List.mem_filterMap.mp he
    unfold liftVal at h
    split_ifs at h
    · exact ⟨t, ht, (Option.some.inj h).symm⟩
  have hMlt : ∀ t ∈ M, t.1 < m := by
    rw [hM]
    exact merge3_lt hc.srt hl.srt hu.srt (d4 ▸ hc.lt_dim) (d1 ▸ hl.lt_dim) (d2 ▸ hu.lt_dim)
  have sL : Srt L := by
    rw [hL, Srt, List.pairwise_filterMap]
    refine hsm.imp ?_
    intro a b hab a' ha' b' hb'
    unfold liftVal at ha' hb'
    split_ifs at ha' hb'
    cases ha'; cases hb'
    simp only; omega
  have bL : ∀ e ∈ L, n ≤ e.1 ∧ e.1 < n + m := by
    intro e he
    obtain ⟨t, ht, rfl⟩ := memL e he
    have := hMlt t ht
    simp only; omega
  have lL : L.length ≤ min m (lb.nnz + ub.nnz + c.nnz) := by
    have h1 : L.length ≤ M.length := by rw [hL]; exact List.length_filterMap_le _ _
    have h2 : M.length ≤ m := srt_length_le hsm hMlt
    have h3 : M.length ≤ c.nnz + lb.nnz + ub.nnz := by rw [hM]; exact merge3_length_le _ _ _
    exact le_min (by omega) (by omega)
  obtain ⟨r1, hr1⟩ : ∃ r1, r1 = (dest.clear).reserve (x.nnz + min m (lb.nnz + ub.nnz + c.nnz)) := ⟨_, rfl⟩
  have e1 : r1.ents = [] := by rw [hr1]; rfl
  have dr : r1.dim = n + m := by rw [hr1]; exact d5
  have cr : x.nnz + min m (lb.nnz + ub.nnz + c.nnz) ≤ r1.cap := by rw [hr1]; exact le_max_right _ _
  have hxl : x.ents.length = x.nnz := rfl
  have p1 := Vec.pushAll_ok r1 x.ents (by rw [e1]; exact hx.srt)
    (fun e he => by have := hx.lt_dim e he; omega) (by rw [e1]; simp only [List.length_nil]; omega)
  rw [e1, List.nil_append] at p1
  have sAll : Srt (x.ents ++ L) := srt_append.mpr ⟨hx.srt, sL, fun a ha b hb => by
    have := hx.lt_dim a ha
    have := (bL b hb).1
    omega⟩
  have p2 := Vec.pushAll_ok { r1 with ents := x.ents } L sAll
    (fun e he => by show e.1 < r1.dim; rw [dr]; exact (bL e he).2)
    (by show x.ents.length + L.length ≤ r1.cap; omega)
  have hval : ∀ i < m, valAt (x.ents ++ L) (n + i) = min (max (c.value i) (lb.value i)) (ub.value i) := by
    intro i hi
    have hn : at? x.ents (n + i) = none := at?_none_of_forall fun e he => by
      have := hx.lt_dim e he; omega
    have hb := hle i hi
    have hmm : ∀ a b c : K, b ≤ c → max (min a c) b = min (max a b) c := by
      intro a b c h
      rw [max_min_distrib_right, max_eq_left h]
    rw [← hmm _ _ _ hb]
    unfold valAt
    rw [at?_append, hn, Option.none_or]
    have gen : ∀ (Q : List (Nat × Option K × Option K × Option K)), Srt Q →
        orZero (at? (Q.filterMap (liftVal n)) (n + i)) =
          (match at? Q i with | some v => Vec.clipVal (i, v) | none => 0) := by
      intro Q
      induction Q with
      | nil => intro _; rfl
      | cons t Q ih =>
        intro hs
        have hs' := srt_cons.mp hs
        rw [List.filterMap_cons, at?_cons]
        by_cases ht : t.1 = i
        · rw [if_pos ht]
          have hlv : liftVal n t = if Vec.clipVal t ≠ 0 then some (n + t.1, Vec.clipVal t) else none := rfl
          rw [hlv]
          have htt : t = (i, t.2) := by rw [← ht]
          by_cases hz : Vec.clipVal t = 0
          · rw [if_neg (not_not.mpr hz)]
            simp only
            rw [ih hs'.2]
            have : at? Q i = none := at?_none_of_forall fun e he => by
              have := hs'.1 e he; omega
            rw [this, ← htt, hz]
          · rw [if_pos hz]
            simp only
            rw [at?_cons, if_pos (by simp [ht]), ← htt]; rfl
        · rw [if_neg ht]
          have hlv : liftVal n t = if Vec.clipVal t ≠ 0 then some (n + t.1, Vec.clipVal t) else none := rfl
          rw [hlv]
          by_cases hz : Vec.clipVal t = 0
          · rw [if_neg (not_not.mpr hz)]
            exact ih hs'.2
          · rw [if_pos hz]
            simp only
            rw [at?_cons, if_neg (by simp; omega)]
            exact ih hs'.2
    rw [hL, gen M hsm, hM, merge3_at hc.srt hl.srt hu.srt]
    unfold Vec.value valAt
    rcases hcb : comb3 (at? c.ents i) (at? lb.ents i) (at? ub.ents i) with _ | t
    · obtain ⟨g1, g2, g3⟩ := comb3_eq_none hcb
      simp [g1, g2, g3, orZero]
    · obtain ⟨rfl, _⟩ := comb3_eq_some hcb
      rfl
  refine ⟨{ r1 with ents := x.ents ++ L }, ?_, ⟨sAll, ?_, ?_⟩, dr, fun j hj => ?_, hval, fun i hi => ?_⟩
  · unfold restTransform
    rw [if_pos ⟨d3, d4, d5⟩, ← hr1, ← hM, ← hL]
    simp only
    rw [p1]; exact p2
  · intro e he
    show e.1 < r1.dim
    rw [dr]
    rcases List.mem_append.mp he with h | h
    · have := hx.lt_dim e h; omega
    · exact (bL e h).2
  · show (x.ents ++ L).length ≤ r1.cap
    rw [List.length_append]; omega
  · show valAt (x.ents ++ L) j = valAt x.ents j
    have : at? L j = none := at?_none_of_forall fun e he => by
      have := (bL e he).1; omega
    unfold valAt
    rw [at?_append, this, Option.or_none]
  · have h1 := hval i hi
    change valAt (x.ents ++ L) (n + i) = _ at h1
    change lb.value i ≤ valAt (x.ents ++ L) (n + i) ∧ valAt (x.ents ++ L) (n + i) ≤ ub.value i
    rw [h1]
    exact ⟨le_min (le_max_right _ _) (hle i hi), min_le_right _ _⟩

omit [IsStrictOrderedRing K] in
/-- C25: restoring reads off the variables of a lifted point. -/
theorem C25_restore (n m : Nat) (z dest : Vec K) (hz : z.WF) (d1 : z.dim = n + m) (d2 : dest.dim = n) :
    ∃ x, restRestore n m z dest = some x ∧ x.WF ∧ x.dim = n ∧ ∀ j < n, x.value j = z.value j := by
  obtain ⟨L, hL⟩ : ∃ L, L = z.ents.takeWhile fun e => decide (e.1 < n) := ⟨_, rfl⟩
  have hfil : L = z.ents.filter fun e => decide (e.1 < n) := by
    rw [hL]
    have : ∀ l : List (Nat × K), Srt l →
        l.takeWhile (fun e => decide (e.1 < n)) = l.filter fun e => decide (e.1 < n) := by
      intro l
      induction l with
      | nil => intro _; rfl
      | cons e t ih =>
        intro hs
        have hs' := srt_cons.mp hs
        by_cases h : e.1 < n
        · rw [List.takeWhile_cons_of_pos (by simpa using h), List.filter_cons_of_pos (by simpa using h),
            ih hs'.2]
        · rw [List.takeWhile_cons_of_neg (by simpa using h), List.filter_cons_of_neg (by simpa using h)]
          symm
          rw [List.filter_eq_nil_iff]
          intro a ha
          have := hs'.1 a ha
          simp; omega
    exact this z.ents hz.srt
  have sL : Srt L := hfil ▸ srt_filter _ hz.srt
  have bL : ∀ e ∈ L, e.1 < n := fun e he => by
    rw [hfil] at he
    exact of_decide_eq_true (List.of_mem_filter (p := fun e : Nat × K => decide (e.1 < n)) he)
  obtain ⟨r1, hr1⟩ : ∃ r1, r1 = (dest.clear).reserve (min z.dim n) := ⟨_, rfl⟩
  have e1 : r1.ents = [] := by rw [hr1]; rfl
  have dr : r1.dim = n := by rw [hr1]; exact d2
  have cr : n ≤ r1.cap := by
    have : min z.dim n = n := by rw [d1]; exact min_eq_right (Nat.le_add_right _ _)
    rw [hr1]
    show n ≤ max dest.cap (min z.dim n)
    rw [this]; exact le_max_right _ _
  have lL : L.length ≤ n := srt_length_le sL bL
  have p1 := Vec.pushAll_ok r1 L (by rw [e1]; exact sL) (fun e he => by rw [dr]; exact bL e he)
    (by rw [e1]; simp only [List.length_nil]; omega)
  rw [e1, List.nil_append] at p1
  refine ⟨{ r1 with ents := L }, ?_, ⟨sL, ?_, ?_⟩, dr, fun j hj => ?_⟩
  · unfold restRestore
    rw [if_pos ⟨d1, d2⟩, ← hr1, ← hL]
    exact p1
  · show ∀ e ∈ L, e.1 < r1.dim
    rw [dr]; exact bL
  · show L.length ≤ r1.cap
    omega
  · show valAt L j = valAt z.ents j
    unfold valAt
    rw [hfil, at?_filter_lt _ _ _ hj]

omit [IsStrictOrderedRing K] in
/-- C25: lifting a point and restoring it returns the point. -/
theorem C25_restore_transform (n m : Nat) (lb ub x c dest dest' : Vec K) (hl : lb.WF) (hu : ub.WF)
    (hx : x.WF) (hc : c.WF) (d1 : lb.dim = m) (d2 : ub.dim = m) (d3 : x.dim = n) (d4 : c.dim = m)
    (d5 : dest.dim = n + m) (d6 : dest'.dim = n) (hle : ∀ i < m, lb.value i ≤ ub.value i) :
    ∃ z y, restTransform n m lb ub x c dest = some z ∧ restRestore n m z dest' = some y ∧
      y.dim = n ∧ ∀ j < n, y.value j = x.value j := by
  obtain ⟨z, z1, z2, z3, z4, _⟩ := C25_transform n m lb ub x c dest hl hu hx hc d1 d2 d3 d4 d5 hle
  obtain ⟨y, y1, y2, y3, y4⟩ := C25_restore n m z dest' z2 z3 d6
  exact ⟨z, y, z1, y1, y3, fun j hj => (y4 j hj).trans (z4 j hj)⟩

/-! ### C55: entering restoration -/

theorem enter_first (pr : RestProblem K) (lb ub : Vec K)
    (hl : lb.WF) (hu : ub.WF) (d1 : lb.dim = pr.numCons) (d2 : ub.dim = pr.numCons)
    (hle : ∀ i < pr.numCons, lb.value i ≤ ub.value i)
    (st0 : RestState K) (f : Lsq (RestState K) K) (hf : Lsq.create (restUser pr 0) st0 0 0 = some f)
    (x c : Vec K) (jac : Mat K) (hx : x.WF) (hc : c.WF) (hj : jac.WF) (d3 : x.dim = pr.numVars)
    (d4 : c.dim = pr.numCons) (d5 : jac.numRows = pr.numCons) (d6 : jac.numCols = pr.numVars)
    (grad : Vec K) (d7 : grad.dim = pr.numVars + pr.numCons) :
    ∃ z v g f', enterRestoration pr 0 lb ub f x c jac grad = some (z, v, g, f') ∧
      (∀ j < pr.numVars, z.value j = x.value j) ∧
      (∀ i < pr.numCons, z.value (pr.numVars + i) = min (max (c.value i) (lb.value i)) (ub.value i)) ∧
      v = (1 / 2) * ∑ i ∈ range pr.numCons,
        (c.value i - min (max (c.value i) (lb.value i)) (ub.value i)) ^ 2 ∧
      (∀ j < pr.numVars, g.value j = ∑ i ∈ range pr.numCons,
        jac.value i j * (c.value i - min (max (c.value i) (lb.value i)) (ub.value i))) ∧
      (∀ i < pr.numCons, g.value (pr.numVars + i) =
        -(c.value i - min (max (c.value i) (lb.value i)) (ub.value i))) ∧
      LsqInv (restUser pr 0) (RestOk pr) (restR pr) 0 0 0 f' ∧ f'.zeroEps = 0 := by
  obtain ⟨z, z1, z2, z3, z4, z5, _⟩ := C25_transform pr.numVars pr.numCons lb ub x c
    (Vec.create (pr.numVars + pr.numCons) 0) hl hu hx hc d1 d2 d3 d4 rfl hle
  obtain ⟨y, s, h1, yw, sw, yd, sd, _, hs⟩ := splitPrimal_spec pr.numVars pr.numCons z z2 z3
  obtain ⟨st, hst⟩ : ∃ st, f.point.init pr z c jac = some st ∧ st.consPrimal = s ∧
      st.computeVal pr = st ∧ st.consVal = c ∧ st.computeJac pr = st ∧ st.consJac = jac := by
    unfold RestState.init
    rw [h1]
    exact ⟨_, rfl, rfl, rfl, rfl, rfl, rfl⟩
  obtain ⟨hst, s1, s2, s3, s4, s5⟩ := hst
  have hok : RestOk pr st := by
    refine ⟨by rw [s1]; exact sw, by rw [s1]; exact sd, by rw [s2, s3]; exact hc, by rw [s2, s3]; exact d4,
      by rw [s4, s5]; exact hj, by rw [s4, s5]; exact d5, by rw [s4, s5]; exact d6⟩
  have hinv : LsqInv (restUser pr 0) (RestOk pr) (restR pr) 0 0 0 { f with point := st } := by
    unfold Lsq.create at hf
    split at hf
    · cases hf
      refine ⟨hok, rfl, rfl, ?_, Nat.zero_le _, Nat.zero_le _, Nat.zero_le _,
        fun h => absurd h Bool.false_ne_true⟩
      simp only [ne_eq, not_true_eq_false, if_false]; rfl
    · simp at hf
  have hz0 : f.zeroEps = 0 := by
    unfold Lsq.create at hf
    split at hf
    · cases hf; rfl
    · simp at hf
  obtain ⟨t, t1, t2, t3, t4, _, t6⟩ := lsqInv_residual (C25_callbacks_partial pr) hinv
  have t4' : t.point = st := t4
  obtain ⟨w, hv⟩ := t2.res t3
  have hR : ∀ i < pr.numCons, restR pr st i =
      c.value i - min (max (c.value i) (lb.value i)) (ub.value i) := by
    intro i hi
    unfold restR
    rw [s2, s3, s1, ← z5 i hi]
    congr 1
    unfold Vec.value valAt; rw [hs i]
  have hR' : ∀ i < pr.numCons, t.residual.value i =
      c.value i - min (max (c.value i) (lb.value i)) (ub.value i) := by
    intro i hi; rw [hv i hi, t4', hR i hi]
  have hcr : Lsq.computeResidual (restUser pr 0) t = some t := by
    unfold Lsq.computeResidual; rw [if_pos t3]
  obtain ⟨q, q1, q2⟩ := (C25_callbacks_partial pr).adj t.point t.residual grad.clear.clear t2.pt w t2.rdim d7 rfl
    (Nat.zero_le _)
  have qd : q.dim = pr.numVars + pr.numCons := q2.dim.trans d7
  refine ⟨z, _, q, t, ?_, z4, z5, rfl, fun j hj' => ?_, fun i hi => ?_, t2, t6.trans hz0⟩
  · unfold enterRestoration
    rw [z1]
    simp only [Option.bind_some]
    rw [hst]
    simp only [Option.bind_some]
    unfold Lsq.objVal
    rw [t1]
    simp only [Option.map_some, Option.bind_some]
    unfold Lsq.objGrad Lsq.jacAdjoint
    rw [hcr]
    simp only [Option.bind_some]
    rw [if_pos ⟨t2.rdim, d7⟩, q1, (C03_norms _ w).2, t2.rdim]
    simp only [Option.map_some]
    congr 4
    exact Finset.sum_congr rfl fun i hi => by rw [hR' i (Finset.mem_range.mp hi)]
  · rw [q2.val j (by omega)]
    refine Finset.sum_congr rfl fun i hi => ?_
    rw [hR' i (Finset.mem_range.mp hi), t4']
    unfold restJ
    rw [if_pos hj', s4, s5]
  · rw [q2.val (pr.numVars + i) (by omega)]
    show ∑ k ∈ range pr.numCons, restJ pr t.point k (pr.numVars + i) * t.residual.value k = _
    rw [Finset.sum_eq_single i]
    · rw [hR' i hi]
      unfold restJ; rw [if_neg (by omega), if_pos rfl]; ring
    · intro k _ hk
      unfold restJ; rw [if_neg (by omega), if_neg (by omega), zero_mul]
    · intro h; exact absurd (Finset.mem_range.mpr hi) h

/-- C55 (restricted to the first restoration phase): if the restoration function
has not been evaluated before (no cached residual), entering restoration from an
iterate `x` with constraint values `c` and Jacobian `jac` starts at the lifted point
with objective `½ Σ (c - proj c)²` and the gradient `(jacᵀ r, -r)` of
`r = c - proj c`, where `proj` is the projection onto the constraint bounds.
Missing: later restoration phases, see `C55_second_restoration_violated`. -/
theorem C55_first_restoration_partial (pr : RestProblem K) (lb ub : Vec K)
    (hl : lb.WF) (hu : ub.WF) (d1 : lb.dim = pr.numCons) (d2 : ub.dim = pr.numCons)
    (hle : ∀ i < pr.numCons, lb.value i ≤ ub.value i)
    (st0 : RestState K) (f : Lsq (RestState K) K) (hf : Lsq.create (restUser pr 0) st0 0 0 = some f)
    (x c : Vec K) (jac : Mat K) (hx : x.WF) (hc : c.WF) (hj : jac.WF) (d3 : x.dim = pr.numVars)
    (d4 : c.dim = pr.numCons) (d5 : jac.numRows = pr.numCons) (d6 : jac.numCols = pr.numVars)
    (grad : Vec K) (d7 : grad.dim = pr.numVars + pr.numCons) :
    ∃ z v g f', enterRestoration pr 0 lb ub f x c jac grad = some (z, v, g, f') ∧
      (∀ j < pr.numVars, z.value j = x.value j) ∧
      (∀ i < pr.numCons, z.value (pr.numVars + i) = min (max (c.value i) (lb.value i)) (ub.value i)) ∧
      v = (1 / 2) * ∑ i ∈ range pr.numCons,
        (c.value i - min (max (c.value i) (lb.value i)) (ub.value i)) ^ 2 ∧
      (∀ j < pr.numVars, g.value j = ∑ i ∈ range pr.numCons,
        jac.value i j * (c.value i - min (max (c.value i) (lb.value i)) (ub.value i))) ∧
      (∀ i < pr.numCons, g.value (pr.numVars + i) =
        -(c.value i - min (max (c.value i) (lb.value i)) (ub.value i))) := by
  obtain ⟨z, v, g, f', h1, h2, h3, h4, h5, h6, _⟩ := enter_first pr lb ub hl hu d1 d2 hle st0 f hf x c jac
    hx hc hj d3 d4 d5 d6 grad d7
  exact ⟨z, v, g, f', h1, h2, h3, h4, h5, h6⟩

/-- C55: what later restoration phases start from.  If the least-squares layer still
holds a residual (from the last evaluation of an earlier restoration phase), the
objective value with which the new phase starts is computed from that old residual,
independently of the iterate `x`, its constraint values and its Jacobian. -/
theorem C55_stale_residual_used (pr : RestProblem K) (eps : K) (lb ub : Vec K)
    (f : Lsq (RestState K) K) (hf : f.hasResidual = true) (x c : Vec K) (jac : Mat K) (grad : Vec K)
    (z : Vec K) (v : K) (g : Vec K) (f' : Lsq (RestState K) K)
    (h : enterRestoration pr eps lb ub f x c jac grad = some (z, v, g, f')) :
    v = (1 / 2) * f.residual.normSq := by
  unfold enterRestoration at h
  rcases h1 : restTransform pr.numVars pr.numCons lb ub x c (Vec.create (pr.numVars + pr.numCons) 0) with _ | z1
  · simp [h1] at h
  rw [h1] at h
  simp only [Option.bind_some] at h
  rcases h2 : f.point.init pr z1 c jac with _ | st
  · simp [h2] at h
  rw [h2] at h
  simp only [Option.bind_some, Lsq.objVal, Lsq.computeResidual, hf, if_true, Option.map_some] at h
  obtain ⟨y, _, hy⟩ := Option.map_eq_some_iff.mp h
  simp only [Prod.mk.injEq] at hy
  exact hy.2.1.symm

/-- the problem with one variable and the constraint function `c(x) = x` -/
def demoRest : RestProblem ℚ where
  numVars := 1
  numCons := 1
  consVal x := x
  consJac _ := ⟨1, 1, 1, 1, fun k => k, fun _ => 0, fun _ => 1⟩

/-- an uninitialised `FuncData` of the demo problem -/
def demoRest0 : RestState ℚ :=
  ⟨⟨1, 0, []⟩, ⟨1, 0, []⟩, ⟨1, 0, []⟩, ⟨1, 1, 1, 1, fun k => k, fun _ => 0, fun _ => 1⟩, true, true, ⟨1, 0, []⟩⟩

theorem demoRest_ok : demoRest.Ok := by
  refine ⟨fun x h _ => h, fun x _ h => h, fun x _ _ => ?_, fun _ _ _ => rfl, fun _ _ _ => rfl⟩
  refine ⟨rfl, fun j _ => by simp [demoRest], rfl, le_rfl, fun j _ => ?_, fun j _ e he => ?_⟩
  · simp [demoRest, Mat.col, Srt]
  · simp [demoRest, Mat.col] at he ⊢
    rw [he]

/-- C55 is violated: the second restoration phase starts from stale values.  Problem
`c(x) = x` with constraint bounds `[0, 1]`: a first restoration phase is entered at
`x = 3`, it moves to the feasible lifted point `(1, 1)` and evaluates the objective
there; a second restoration phase entered later at `x = 4` reports objective `0` at
the lifted point `(4, 1)`, where the objective is `9/2`. -/
theorem C55_second_restoration_violated :
    ∃ (f0 f1 f2 f3 : Lsq (RestState ℚ) ℚ) (z1 z2 : Vec ℚ) (v1 v2 : ℚ) (g1 g2 : Vec ℚ),
      Lsq.create (restUser demoRest 0) demoRest0 0 0 = some f0 ∧
      enterRestoration demoRest 0 ⟨1, 0, []⟩ ⟨1, 1, [(0, 1)]⟩ f0 ⟨1, 1, [(0, 3)]⟩ ⟨1, 1, [(0, 3)]⟩
        (demoRest.consJac ⟨1, 1, [(0, 3)]⟩) ⟨2, 2, []⟩ = some (z1, v1, g1, f1) ∧
      restRun demoRest f1 [.set ⟨2, 2, [(0, 1), (1, 1)]⟩, .objVal] = some f2 ∧
      enterRestoration demoRest 0 ⟨1, 0, []⟩ ⟨1, 1, [(0, 1)]⟩ f2 ⟨1, 1, [(0, 4)]⟩ ⟨1, 1, [(0, 4)]⟩
        (demoRest.consJac ⟨1, 1, [(0, 4)]⟩) ⟨2, 2, []⟩ = some (z2, v2, g2, f3) ∧
      z2.value 0 = 4 ∧ z2.value 1 = 1 ∧ v2 = 0 ∧ v2 ≠ (1 / 2) * (z2.value 0 - z2.value 1) ^ 2 := by
  have hlb : (⟨1, 0, []⟩ : Vec ℚ).WF := ⟨by simp [Srt], by simp, by simp⟩
  have hub : (⟨1, 1, [(0, 1)]⟩ : Vec ℚ).WF := ⟨by simp [Srt], by simp, by simp⟩
  have hx3 : (⟨1, 1, [(0, 3)]⟩ : Vec ℚ).WF := ⟨by simp [Srt], by simp, by simp⟩
  have hx4 : (⟨1, 1, [(0, 4)]⟩ : Vec ℚ).WF := ⟨by simp [Srt], by simp, by simp⟩
  have hz : (⟨2, 2, [(0, 1), (1, 1)]⟩ : Vec ℚ).WF := ⟨by simp [Srt], by simp, by simp⟩
  have hle : ∀ i < demoRest.numCons, (⟨1, 0, []⟩ : Vec ℚ).value i ≤ (⟨1, 1, [(0, 1)]⟩ : Vec ℚ).value i := by
    intro i hi
    have : i = 0 := by simpa [demoRest] using hi
    subst this
    decide +kernel
  obtain ⟨f0, h0⟩ : ∃ f0, Lsq.create (restUser demoRest 0) demoRest0 0 0 = some f0 := ⟨_, rfl⟩
  obtain ⟨z1, v1, g1, f1, e1, _, _, _, _, _, i1, i2⟩ := enter_first demoRest ⟨1, 0, []⟩ ⟨1, 1, [(0, 1)]⟩ hlb hub rfl rfl
    hle demoRest0 f0 h0 ⟨1, 1, [(0, 3)]⟩ ⟨1, 1, [(0, 3)]⟩ (demoRest.consJac ⟨1, 1, [(0, 3)]⟩) hx3 hx3
    (demoRest_ok.jWF _ hx3 rfl) rfl rfl rfl rfl ⟨2, 2, []⟩ rfl
  obtain ⟨f2, s1, s2⟩ := restAt_set demoRest_ok hz rfl i2 i1.rdim i1.fdim i1.hdim
  obtain ⟨t, t1, t2, t3, t4, t5, t6⟩ := lsqInv_residual (C25_callbacks_partial demoRest) s2.inv
  have hsp := s2.split
  have hsp' : splitPrimal 1 1 (⟨2, 2, [(0, 1), (1, 1)]⟩ : Vec ℚ) =
      some (⟨1, 1, [(0, 1)]⟩, ⟨1, 1, [(0, 1)]⟩) := rfl
  change splitPrimal 1 1 (⟨2, 2, [(0, 1), (1, 1)]⟩ : Vec ℚ) = _ at hsp
  rw [hsp'] at hsp
  simp only [Option.some.injEq, Prod.mk.injEq] at hsp
  obtain ⟨w, hv⟩ := t2.res t3
  have hres : t.residual.normSq = 0 := by
    rw [(C03_norms _ w).2, t2.rdim]
    refine Finset.sum_eq_zero fun i hi => ?_
    have : i < 1 := Finset.mem_range.mp hi
    have hi0 : i = 0 := by omega
    subst hi0
    rw [hv 0 (by decide), t4]
    unfold restR RestState.computeVal
    rw [s2.val]
    simp only [Bool.false_eq_true, if_false]
    rw [← hsp.1, ← hsp.2]
    show ((⟨1, 1, [(0, 1)]⟩ : Vec ℚ).value 0 - (⟨1, 1, [(0, 1)]⟩ : Vec ℚ).value 0) ^ 2 = 0
    rw [sub_self]; ring
  have hobj : Lsq.step (restUser demoRest 0) f2 .objVal = some t := by
    simp only [Lsq.step, Lsq.objVal, t1, Option.map_some]
  have hrun : restRun demoRest f1 [.set ⟨2, 2, [(0, 1), (1, 1)]⟩, .objVal] = some t := by
    simp only [restRun, s1, Option.bind_some]
    show (Lsq.step (restUser demoRest 0) f2 .objVal).bind _ = _
    rw [hobj]; rfl
  obtain ⟨z2, w1, w2, w3, w4, w5, _⟩ := C25_transform 1 1 ⟨1, 0, []⟩ ⟨1, 1, [(0, 1)]⟩ ⟨1, 1, [(0, 4)]⟩
    ⟨1, 1, [(0, 4)]⟩ (Vec.create 2 0) hlb hub hx4 hx4 rfl rfl rfl rfl rfl hle
  obtain ⟨y, s, y1, yw, sw, yd, sd, _, hs⟩ := splitPrimal_spec 1 1 z2 w2 w3
  obtain ⟨st, hst, hst1, hst2⟩ : ∃ st, t.point.init demoRest z2 ⟨1, 1, [(0, 4)]⟩
      (demoRest.consJac ⟨1, 1, [(0, 4)]⟩) = some st ∧ RestOk demoRest st ∧ True := by
    unfold RestState.init
    change ∃ st, Option.map _ (splitPrimal 1 1 z2) = some st ∧ _
    rw [y1]
    exact ⟨_, rfl, ⟨sw, sd, hx4, rfl, demoRest_ok.jWF _ hx4 rfl, rfl, rfl⟩, trivial⟩
  obtain ⟨q, q1, q2⟩ := (C25_callbacks_partial demoRest).adj st t.residual (⟨2, 2, []⟩ : Vec ℚ) hst1 w t2.rdim rfl rfl
    (Nat.zero_le _)
  have hent : enterRestoration demoRest 0 ⟨1, 0, []⟩ ⟨1, 1, [(0, 1)]⟩ t ⟨1, 1, [(0, 4)]⟩ ⟨1, 1, [(0, 4)]⟩
        (demoRest.consJac ⟨1, 1, [(0, 4)]⟩) ⟨2, 2, []⟩ =
      some (z2, (1 / 2) * t.residual.normSq, q, { t with point := st }) := by
    unfold enterRestoration
    change (restTransform 1 1 _ _ _ _ (Vec.create 2 0)).bind _ = _
    rw [w1]
    simp only [Option.bind_some]
    rw [hst]
    simp only [Option.bind_some, Lsq.objVal, Lsq.computeResidual, t3, if_true, Option.map_some, Lsq.objGrad,
      Lsq.jacAdjoint]
    rw [if_pos ⟨t2.rdim, rfl⟩]
    change Option.map _ (Option.map _ ((restUser demoRest 0).adj st t.residual (⟨2, 2, []⟩ : Vec ℚ))) = _
    rw [q1]; rfl
  have z0 : z2.value 0 = 4 := w4 0 (by decide)
  have z1' : z2.value 1 = 1 := (w5 0 (by decide)).trans (by decide +kernel)
  refine ⟨f0, f1, t, _, z1, z2, v1, _, g1, q, h0, e1, hrun, hent, z0, z1', by rw [hres]; norm_num, ?_⟩
  rw [hres, z0, z1']; norm_num

end Sleqp
