import Verif.Lemmas.GaussNewton
import Verif.Props.Newton

/-! C72: the Gauss-Newton step of the equality-constrained problem. -/

namespace Sleqp
open Matrix
variable {K : Type*} [Field K] [LinearOrder K] [IsStrictOrderedRing K] {n m R : Nat}

/-- what is needed of the step towards the working set -/
structure FirstStep (q : LocalModel n m K) (w : WSet) (l : List WEntry) (J : Nat → Nat → K) (radius : K) (s : WorkStep K) : Prop where
  step : VOk n s.init.step
  mult : VOk m s.multipliers
  rad : 0 ≤ s.init.radius
  norm : dense n s.init.step ⬝ᵥ dense n s.init.step + s.init.radius ^ 2 = radius ^ 2
  orth : ∀ v ∈ nullSpace n l.length (workMat l J), dense n s.init.step ⬝ᵥ v = 0
  mu : ∀ i : Fin m, dense m s.multipliers i = if w.consState i ≠ .inactive then 0
    else if q.ub i < q.c i + (q.J *ᵥ dense n s.init.step) i then 1
    else if q.c i + (q.J *ᵥ dense n s.init.step) i < q.lb i then -1 else 0
  ents : ∀ t ∈ s.multipliers.ents, t.2 ≠ 0

theorem first_step {w : WSet} {l : List WEntry} (h : WRep n m w l) (ho : w.Ordered) {p : Bounds K}
    (hp : p.Sized n m) (ht : Tight p l) {it : Iterate K} (hf : it.Fits n m p) {eps : K} (h0 : 0 ≤ eps) (he : eps ≤ 1 / 5)
    {d0 : Vec K} {solve : Vec K → Option (Vec K)} (hS : MinNormService solve n l it.consJac.value) {radius : K} (hr : 0 < radius)
    {old : WorkStep K} (hod : old.init.step.dim = n) (hom : old.multipliers.dim = m) {q : LocalModel n m K} (hq : IterFor q p it)
    {sqrt : K → K} (hsq : ∀ v, 0 ≤ v → 0 ≤ sqrt v ∧ sqrt v * sqrt v = v) {s : WorkStep K}
    (hs : workStep solve sqrt eps 0 radius w p it d0 old = some s) : FirstStep q w l it.consJac.value radius s := by
  obtain ⟨s', w1, w2, w3, w4, w5, w6, w7, w8, w11, w9, w10, w12⟩ := C69_work_step h ho hp ht hf h0 he le_rfl d0 hS hsq hr hod hom
  rw [hs] at w1
  obtain rfl := Option.some.inj w1
  obtain ⟨r', p1, p2, p3, -⟩ := C69_rhs h ho hp ht hf.vars.wc hf.vars.dc hf.cons.wc hf.cons.dc h0 (le_refl (0 : K)) d0 old.rhs
  rw [w2] at p1
  obtain rfl := Option.some.inj p1
  obtain ⟨d', q1, q2, q3, q4⟩ := hS _ p2 p3
  rw [w3] at q1
  obtain rfl := Option.some.inj q1
  obtain ⟨s'', a', t1, t5, t6, -, -, t2, -, t3, t4, -⟩ := C69_radius (n := n) hsq h0 he hr (d := s.direction) q2 q3 hod
  rw [w4] at t1
  obtain rfl := Option.some.inj t1
  have hjd : ∀ (x : Fin n → K) (i : Fin m), (q.J *ᵥ x) i = ∑ j : Fin n, it.consJac.value i j * x j := fun x i => by
    unfold mulVec dotProduct
    exact Finset.sum_congr rfl fun j _ => by rw [hq.J]
  refine ⟨⟨t5, t6⟩, ⟨w11, w9⟩, t3, ?_, fun v hv => ?_, fun i => ?_, ?_⟩
  · rw [← t4, Finset.sum_range]
    congr 1
    exact Finset.sum_congr rfl fun j _ => by rw [sq]; rfl
  · have hst : dense n s.init.step = a' • dense n s.direction := by funext j; exact t2 j
    have horth : dense n s.direction ⬝ᵥ v = 0 := by
      have := q4.orthogonal (v := fun j => if hj : j < n then v ⟨j, hj⟩ else 0) (mem_nullSpace.mp (by simpa using hv))
      rw [Finset.sum_range] at this
      simpa [dotProduct, dense] using this
    rw [hst, smul_dotProduct, horth, smul_zero]
  · have hc : s.consVal.value i = q.c i + (q.J *ᵥ dense n s.init.step) i := by
      rw [w8 i i.2, dropSmall_zero, w6 i i.2, dropSmall_zero, hjd, Finset.sum_range, ← hq.c]
      rfl
    unfold dense
    rw [w10 i, hc, ← hq.lb, ← hq.ub]
    rfl
  · unfold workStep at hs
    obtain ⟨_, -, hs⟩ := Option.bind_eq_some_iff.mp hs
    obtain ⟨_, -, hs⟩ := Option.bind_eq_some_iff.mp hs
    obtain ⟨_, -, hs⟩ := Option.bind_eq_some_iff.mp hs
    obtain ⟨_, -, hs⟩ := Option.bind_eq_some_iff.mp hs
    obtain ⟨_, -, hs⟩ := Option.bind_eq_some_iff.mp hs
    obtain ⟨mu, hm, hs⟩ := Option.map_eq_some_iff.mp hs
    rw [← hs]
    exact multipliers_ne hm

/-- the least-squares problem set up for the iterate: its matrix is that of the linearised residuals and
violated constraints, restricted to the null space by the projection `P`; its value at `d` is that of
`gnVal` at the first step plus the projection of `d` -/
structure GnSetup (q : LocalModel n m K) (r : Fin R → K) (Jr : Matrix (Fin R) (Fin n) K) (mu : Fin m → K) (d1 : Fin n → K)
    (e : GnEnv K) (s : GnMem K) (k : Nat) (P : Matrix (Fin n) (Fin n) K) (radius : K) : Prop where
  sol : s.sol.dim = n
  rhs : VOk (R + k) s.rhs
  lsqr : s.lsqr.u.dim = R + k ∧ s.lsqr.v.dim = n ∧ s.lsqr.w.dim = n ∧ s.lsqr.p.dim = R + k ∧ s.lsqr.q.dim = n
  ex : ∃ A : Matrix (Fin (R + k)) (Fin n) K, LsqrFor A (gnLsqr e s k radius) ∧ (∀ y, ∃ z, Aᵀ *ᵥ y = P *ᵥ z) ∧
    ∀ d, lsqVal A (dense (R + k) s.rhs) d = gnVal q r Jr mu (d1 + P *ᵥ d) ∧
      lsqGrad A (dense (R + k) s.rhs) d = -(P *ᵥ gnGrad q r Jr mu (d1 + P *ᵥ d))

theorem gn_setup {w : WSet} {l : List WEntry} (h : WRep n m w l) {p : Bounds K} {it : Iterate K} (hf : it.Fits n m p) {q : LocalModel n m K}
    (hq : IterFor q p it) {r : Fin R → K} {Jr : Matrix (Fin R) (Fin n) K} {e : GnEnv K} (hE : GnFor q r Jr l it.consJac.value e) {s : GnMem K}
    (hM : s.Sized n R) {radius : K} {ws : WorkStep K} (hs : FirstStep q w l it.consJac.value radius ws) {P : Matrix (Fin n) (Fin n) K} (hPs : Pᵀ = P)
    (hP : ∀ d t : Vec K, d.WF ∧ d.dim = n → ∃ v, e.proj d t = some v ∧ (v.WF ∧ v.dim = n) ∧ dense n v = P *ᵥ dense n d) :
    ∃ s' k, gnSetIterate e s w p it q.penalty ws = some (s', k) ∧
      GnSetup q r Jr (dense m ws.multipliers) (dense n ws.init.step) e s' k P ws.init.radius := by
  obtain ⟨rem, hrem⟩ : ∃ rem, rem = (List.range m).filter fun k => decide (k ∉ ws.multipliers.ents.map Prod.fst) := ⟨_, rfl⟩
  have hrm : gnRemoved e.numCons ws.multipliers = some rem := by rw [hE.nc, hrem]; exact gnRemoved_spec hs.mult.1 hs.mult.2
  obtain ⟨r1, r2, k, hk, σ, σ1, σ2, σ3⟩ := exists_violated hs.mult.1 hs.mult.2 hs.ents hrem
  have hkm : e.numCons - rem.length = k := by rw [hE.nc]; omega
  set mu := dense m ws.multipliers with hmu
  set d1 := dense n ws.init.step with hd1
  have hmu2 : ∀ i, mu i ≠ 0 → mu i ^ 2 = 1 := by
    intro i hi
    have hm := hs.mu i
    rw [← hmu] at hm
    rw [hm] at hi ⊢
    split
    · rename_i hc; rw [if_pos hc] at hi; exact absurd rfl hi
    · rename_i hc
      rw [if_neg hc] at hi
      split
      · exact one_pow 2
      · rename_i hc2
        rw [if_neg hc2] at hi
        split
        · norm_num
        · rename_i hc3; rw [if_neg hc3] at hi; exact absurd rfl hi
  -- right-hand side: residuals
  obtain ⟨rv, a1, a2, a3⟩ := hE.res s.lsqResiduals hM.lsqResiduals
  obtain ⟨f, b1, b2, b3⟩ := hE.fwd ws.init.step s.fwdLsq hs.step hM.fwdLsq
  obtain ⟨x, c1, c2, c3⟩ := addScaled_dense (r0 := s.lsqRhs) (-1 : K) (-1) a2 b2
  -- right-hand side: constraints
  obtain ⟨res, e1, e2⟩ := C08_mult_vec it.consJac ws.init.step hf.wj hs.step.1 (hf.cols.trans hs.step.2.symm)
  obtain ⟨t, f1, f2, f3, f4⟩ := setFromRaw_spec 0 s.sparse ((List.range m).map res)
  have ht : VOk m t := ⟨f2, by rw [f3]; simp⟩
  have htd : dense m t = q.J *ᵥ d1 := by
    funext i
    show t.value i = _
    rw [f4 i]
    have : ((List.range m).map res)[(i : Nat)]? = some (res i) := by simp
    rw [this, e2, hf.cols, Finset.sum_range]
    have e3 : ∑ j : Fin n, it.consJac.value i j * ws.init.step.value j = (q.J *ᵥ d1) i :=
      Finset.sum_congr rfl fun j _ => by rw [hq.J]; rfl
    rw [e3]
    simp only
    split
    · rename_i h; exact (abs_nonpos_iff.mp h).symm
    · rfl
  obtain ⟨c, g1, g2, g3⟩ := addScaled_dense (r0 := s.linConsVal) (1 : K) 1 (⟨hf.cons.wc, hf.cons.dc⟩ : VOk m it.consVal) ht
  rw [one_smul, one_smul, hq.c, htd] at g3
  have hB : Boxed m c p.consLb p.consUb := ⟨g2.1, hf.cons.wl, hf.cons.wu, g2.2, hf.cons.dl, hf.cons.du, hf.cons.le⟩
  obtain ⟨rr, h1, h2, h3, h4⟩ := C12_feasibility_residuals hB (fun i => decide (w.consState i ≠ .inactive)) true s.linConsRes
  obtain ⟨v, i1, i2, i3, i4⟩ := C07_remove rr ((s.scaledRes.clear).resize k) rem h2 r1 (by rw [h3]; exact r2) (by
    rw [h3, show ((s.scaledRes.clear).resize k).dim = k by unfold Vec.resize; split <;> rfl]; exact hk)
  have hv : VOk k v := ⟨i2, by rw [i3]; unfold Vec.resize; split <;> rfl⟩
  have hvd : dense k v = fun j => q.gap mu d1 (σ j) := by
    funext j
    have e3 : dense k v j = rr.value (σ j) := by
      unfold dense Vec.value valAt
      rw [i4, σ2]
    have hcv : c.value (σ j) = q.c (σ j) + (q.J *ᵥ d1) (σ j) := congrFun g3 (σ j)
    have hm := (σ3 (σ j)).1 ⟨j, rfl⟩
    have hmv := hs.mu (σ j)
    have hlb : p.consLb.value (σ j) = q.lb (σ j) := congrFun hq.lb (σ j)
    have hub : p.consUb.value (σ j) = q.ub (σ j) := congrFun hq.ub (σ j)
    have hle := hf.cons.le (σ j) (σ j).2
    rw [hlb, hub] at hle
    rw [e3, h4, hcv, hlb, hub]
    unfold LocalModel.gap
    rw [← hd1, ← hmu] at hmv
    by_cases hst : w.consState (σ j) = .inactive
    · rw [if_neg (not_not.mpr hst)] at hmv
      simp only [hst, ne_eq, not_true, decide_false, Bool.false_eq_true, if_false, if_true]
      by_cases hu : q.ub (σ j) < q.c (σ j) + (q.J *ᵥ d1) (σ j)
      · rw [if_pos hu] at hmv
        rw [hmv, if_pos one_pos, min_eq_right hu.le, max_eq_left hle]
      · rw [if_neg hu] at hmv
        by_cases hl : q.c (σ j) + (q.J *ᵥ d1) (σ j) < q.lb (σ j)
        · rw [if_pos hl] at hmv
          rw [hmv, if_neg (by linarith [one_pos (α := K)]), min_eq_left (by linarith), max_eq_right hl.le]
        · rw [if_neg hl] at hmv
          exact absurd hmv hm
    · rw [if_pos hst] at hmv
      exact absurd hmv hm
  obtain ⟨j1, j2⟩ := scale_dense hv (-1 * q.penalty)
  obtain ⟨b, k1, k2, k3⟩ := concat_dense c2 j1 ((s.rhs.resize (e.numRes + k)).clear)
  -- matrix
  have hcols : ((s.jac.clear).resize k e.numVars).numCols = n := by
    rw [hE.nv]; unfold Mat.resize; split <;> [rfl; split <;> [rfl; skip]]
    rename_i p1 p2
    show s.jac.clear.numCols = n
    omega
  have hrows : ((s.jac.clear).resize k e.numVars).numRows = k := by unfold Mat.resize; split <;> [rfl; split <;> rfl]
  obtain ⟨mt, l1, l2, l3, l4, l5⟩ := C07_mat_remove_rows it.consJac ((s.jac.clear).resize k e.numVars) rem hf.wj r1
    (by rw [hf.rows]; exact r2) (hf.cols.trans hcols.symm) (by rw [hf.rows, hrows]; exact hk)
  obtain ⟨m1, m2, m3, m4⟩ := C08_scale mt q.penalty l2
  have hnc : mt.numCols = n := l4.trans hcols
  obtain ⟨B, hBd⟩ : ∃ B : Matrix (Fin k) (Fin n) K, ∀ i j, B i j = q.penalty * q.J (σ i) j := ⟨fun i j => q.penalty * q.J (σ i) j, fun _ _ => rfl⟩
  have hmv : ∀ (i : Fin k) (j : Fin n), (mt.scale q.penalty).value i j = B i j := by
    intro i j
    rw [hBd, m4 i j (by rw [hnc]; exact j.2)]
    rw [← hq.J, σ2]
    have := l5 i j (by rw [hnc]; exact j.2)
    unfold Mat.at? at this
    unfold Mat.value valAt
    rw [this]
  refine ⟨{ (gnResize e s k) with
      lsqResiduals := rv, fwdLsq := f, lsqRhs := x, sparse := t, linConsVal := c, linConsRes := rr, scaledRes := v.scale (-1 * q.penalty)
      rhs := b, jac := mt.scale q.penalty }, k, ?_, hM.sol, k2, ?_, ?_⟩
  · unfold gnSetIterate
    rw [hrm, Option.bind_some, hkm]
    unfold gnRhs gnLsqRhs gnConsRhs gnMatrix
    rw [hkm, hE.zeroEps, hE.nc]
    simp only [gnResize]
    rw [a1, Option.bind_some, b1, Option.bind_some, c1]
    simp only [Option.map_some, Option.bind_some, e1, f1, g1, h1, i1, k1, l1]
  · exact hE.nv ▸ hE.nr ▸ lsqrResize_dims s.lsqr e.numVars (e.numRes + k)
  · have hL := gn_lsqrFor (k := k) hE (s := { (gnResize e s k) with
        lsqResiduals := rv, fwdLsq := f, lsqRhs := x, sparse := t, linConsVal := c, linConsRes := rr
        scaledRes := v.scale (-1 * q.penalty), rhs := b, jac := mt.scale q.penalty })
      ⟨a2.2, b2.2, hM.adjLsqDir, hM.adjLsq, hM.adjCons, hM.sol⟩ (by show (s.adjConsDir.resize k).dim = k; unfold Vec.resize; split <;> rfl)
      m1 (by rw [m2, l3, hrows]) (by rw [m3, hnc]) hmv hPs hP ws.init.radius
    refine ⟨_, hL, fun y => ⟨_, by rw [transpose_mul, ← mulVec_mulVec, hPs]⟩, fun d => ?_⟩
    have hgap : q.gap mu (d1 + P *ᵥ d) = q.gap mu d1 + q.J *ᵥ (P *ᵥ d) := by
      funext i
      unfold LocalModel.gap
      rw [mulVec_add, Pi.add_apply, Pi.add_apply]
      ring
    have hres : dense (R + k) b - (gnStack Jr B * P) *ᵥ d =
        -Fin.append (r + Jr *ᵥ (d1 + P *ᵥ d)) (fun j => q.penalty * q.gap mu (d1 + P *ᵥ d) (σ j)) := by
      rw [← mulVec_mulVec, append_mulVec, k3, c3, j2, a3, b3, hvd, hgap]
      funext i
      refine Fin.addCases (fun i => ?_) (fun i => ?_) i
      · simp only [Pi.sub_apply, Pi.neg_apply, Fin.append_left, Pi.add_apply, Pi.smul_apply, smul_eq_mul, mulVec_add]
        ring
      · simp only [Pi.sub_apply, Pi.neg_apply, Fin.append_right, Pi.add_apply, Pi.smul_apply, smul_eq_mul]
        have : (B *ᵥ (P *ᵥ d)) i = q.penalty * (q.J *ᵥ (P *ᵥ d)) (σ i) := by
          show ∑ j, B i j * (P *ᵥ d) j = q.penalty * ∑ j, q.J (σ i) j * (P *ᵥ d) j
          rw [Finset.mul_sum]
          exact Finset.sum_congr rfl fun j _ => by rw [hBd, mul_assoc]
        rw [this]
        ring
    constructor
    · unfold lsqVal gnVal
      rw [hres, neg_dotProduct, dotProduct_neg, neg_neg, append_dot]
      congr 1
      have : (fun j => q.penalty * q.gap mu (d1 + P *ᵥ d) (σ j)) ⬝ᵥ (fun j => q.penalty * q.gap mu (d1 + P *ᵥ d) (σ j)) =
          ∑ j, q.penalty ^ 2 * q.gap mu (d1 + P *ᵥ d) (σ j) ^ 2 := Finset.sum_congr rfl fun j _ => by ring
      rw [this, ← Finset.mul_sum, sum_violated hmu2 σ1 σ3 fun i => q.gap mu (d1 + P *ᵥ d) i ^ 2]
    · unfold lsqGrad gnGrad
      rw [hres, transpose_mul, ← mulVec_mulVec, hPs, mulVec_neg, mulVec_neg, append_mulVec_trans]
      congr 2
      congr 1
      funext j
      have : (Bᵀ *ᵥ fun j => q.penalty * q.gap mu (d1 + P *ᵥ d) (σ j)) j =
          ∑ i, q.penalty ^ 2 * (q.J (σ i) j * q.gap mu (d1 + P *ᵥ d) (σ i)) := by
        show ∑ i, B i j * (q.penalty * q.gap mu (d1 + P *ᵥ d) (σ i)) = _
        refine Finset.sum_congr rfl fun i _ => ?_
        rw [hBd]
        ring
      rw [this, ← Finset.mul_sum, sum_violated hmu2 σ1 σ3 fun i => q.J i j * q.gap mu (d1 + P *ᵥ d) i]
      rw [Pi.smul_apply, smul_eq_mul]
      congr 1
      show ∑ i, mu i ^ 2 * (q.J i j * q.gap mu (d1 + P *ᵥ d) i) = ∑ i, q.J i j * (mu i ^ 2 * q.gap mu (d1 + P *ᵥ d) i)
      exact Finset.sum_congr rfl fun i _ => by ring

/-- the square of the norm of the sum of the first step and a vector of the null space -/
theorem FirstStep.sum {q : LocalModel n m K} {w : WSet} {l : List WEntry} {J : Nat → Nat → K} {radius : K} {s : WorkStep K}
    (h : FirstStep q w l J radius s) {v : Fin n → K} (hv : v ∈ nullSpace n l.length (workMat l J)) :
    (dense n s.init.step + v) ⬝ᵥ (dense n s.init.step + v) = radius ^ 2 - s.init.radius ^ 2 + v ⬝ᵥ v := by
  rw [add_dotProduct, dotProduct_add, dotProduct_add, dotProduct_comm v, h.orth v hv]
  linarith [h.norm]

omit [IsStrictOrderedRing K] in
theorem mem_nullSpace_iff {l : List WEntry} {J : Nat → Nat → K} {v : Fin n → K} :
    v ∈ nullSpace n l.length (workMat l J) ↔ ∀ k (hk : k < l.length), ∑ j : Fin n, l[k].gradient J j * v j = 0 := by
  have hrow : ∀ k (hk : k < l.length) j, workMat l J k j = l[k].gradient J j := fun k hk j => by
    unfold workMat; rw [List.getElem?_eq_getElem hk]; rfl
  constructor
  · intro h k hk
    rw [← h k hk]
    exact Finset.sum_congr rfl fun j _ => by rw [hrow k hk]
  · intro h k hk
    rw [← h k hk]
    exact Finset.sum_congr rfl fun j _ => by rw [hrow k hk]

/-- the direction computed from a solution of the least-squares problem -/
theorem gn_dir {p : Bounds K} {it : Iterate K} (hf : it.Fits n m p) {q : LocalModel n m K} (hq : IterFor q p it) {r : Fin R → K}
    {Jr : Matrix (Fin R) (Fin n) K} {l : List WEntry} {J : Nat → Nat → K} {e : GnEnv K} (hE : GnFor q r Jr l J e) {ws : WorkStep K}
    (hw : VOk n ws.init.step) {out : Dir K} (o2 : out.consJac.WF ∧ out.consJac.dim = m) (o3 : out.hess.WF ∧ out.hess.dim = n) {s : GnMem K}
    {k : Nat} {x : Vec K} (hx : VOk n x) (hl : lsqrSolve (gnLsqr e s k ws.init.radius) s.lsqr s.rhs s.sol = some (some x)) :
    ∃ D, gnDirection e s k it ws out = some (some D) ∧ DirFor q D (dense n ws.init.step + dense n x) := by
  obtain ⟨y, y1, y2, y3⟩ := addScaled_dense (r0 := out.primal) (1 : K) 1 hw hx
  obtain ⟨D, D1, D2⟩ := C62_reset q { out with primal := y } it.objGrad it.consJac e.hp y2 o2 o3 ⟨hf.wg, hf.dg⟩ hq.g hf.wj hf.cols hq.J
    (fun d t hd _ => hE.hp d t hd)
  refine ⟨D, ?_, ?_⟩
  · unfold gnDirection
    rw [hl, Option.bind_some]
    simp only [hE.zeroEps, hE.nc]
    rw [y1, Option.bind_some, D1, Option.map_some]
  · rw [one_smul, one_smul] at y3
    rw [← y3]; exact D2

theorem gnDirection_eq_some {e : GnEnv K} {s : GnMem K} {k : Nat} {it : Iterate K} {ws : WorkStep K} {out D : Dir K}
    (h : gnDirection e s k it ws out = some (some D)) :
    ∃ x, lsqrSolve (gnLsqr e s k ws.init.radius) s.lsqr s.rhs s.sol = some (some x) := by
  unfold gnDirection at h
  obtain ⟨res, h1, h2⟩ := Option.bind_eq_some_iff.mp h
  rcases res with _ | x
  · simp at h2
  · exact ⟨x, h1⟩

/-- the gradient of the least-squares problem does not vanish -/
theorem gn_grad {q : LocalModel n m K} {r : Fin R → K} {Jr : Matrix (Fin R) (Fin n) K} {mu : Fin m → K} {d1 : Fin n → K} {N : Submodule K (Fin n → K)}
    {P : Matrix (Fin n) (Fin n) K} (hPs : Pᵀ = P) (hP : ∀ x ∈ N, P *ᵥ x = x) {k : Nat} {A : Matrix (Fin (R + k)) (Fin n) K} {b : Fin (R + k) → K}
    (hV : ∀ d, lsqVal A b d = gnVal q r Jr mu (d1 + P *ᵥ d) ∧ lsqGrad A b d = -(P *ᵥ gnGrad q r Jr mu (d1 + P *ᵥ d))) :
    Aᵀ *ᵥ b = -(P *ᵥ gnGrad q r Jr mu d1) ∧ ((∃ v ∈ N, gnGrad q r Jr mu d1 ⬝ᵥ v ≠ 0) → Aᵀ *ᵥ b ≠ 0) := by
  have h0 : Aᵀ *ᵥ b = -(P *ᵥ gnGrad q r Jr mu d1) := by
    have := (hV 0).2
    unfold lsqGrad at this
    rwa [mulVec_zero, sub_zero, mulVec_zero, add_zero] at this
  refine ⟨h0, ?_⟩
  rintro ⟨v, hv, hne⟩ hz
  rw [h0, neg_eq_zero] at hz
  apply hne
  rw [← hP v hv, dotProduct_mulVec, ← mulVec_transpose, hPs, hz, zero_dotProduct]

/-- C72: the solver is set up for the iterate. If it returns a direction, this has the parts belonging to
its step. The step leads every active entry, in its linearisation, as far as the first step does. If
the gradient of the squared residuals and violations at the first step is not perpendicular to the null space of
the active gradients, the step is on the boundary of the trust region, or their gradient at the step is perpendicular
to the null space up to the tolerance.
This is for `zero_eps = 0`; a positive drop tolerance is missing. -/
theorem C72_direction_partial {w : WSet} {l : List WEntry} (h : WRep n m w l) (ho : w.Ordered) {p : Bounds K}
    (hp : p.Sized n m) (ht : Tight p l) {it : Iterate K} (hf : it.Fits n m p) {d0 : Vec K} {solve : Vec K → Option (Vec K)}
    (hS : MinNormService solve n l it.consJac.value) {radius : K} (hr : 0 < radius) {old : WorkStep K} (hod : old.init.step.dim = n)
    (hom : old.multipliers.dim = m) {q : LocalModel n m K} (hq : IterFor q p it) {r : Fin R → K} {Jr : Matrix (Fin R) (Fin n) K}
    {e : GnEnv K} (hE : GnFor q r Jr l it.consJac.value e) (h0 : 0 ≤ e.eps) (he : e.eps ≤ 1 / 5) {ws : WorkStep K}
    (hs : workStep solve e.sqrt e.eps 0 radius w p it d0 old = some ws) {s : GnMem K} (hM : s.Sized n R) {out : Dir K}
    (o2 : out.consJac.WF ∧ out.consJac.dim = m) (o3 : out.hess.WF ∧ out.hess.dim = n)
    (hg : ∃ v : Fin n → K, (∀ k (hk : k < l.length), ∑ j : Fin n, l[k].gradient it.consJac.value j * v j = 0) ∧
      gnGrad q r Jr (dense m ws.multipliers) (dense n ws.init.step) ⬝ᵥ v ≠ 0) :
    ∃ s' k, gnSetIterate e s w p it q.penalty ws = some (s', k) ∧ ∀ D, gnDirection e s' k it ws out = some (some D) →
      DirFor q D (dense n D.primal) ∧
      (∀ i (hi : i < l.length), ∑ j : Fin n, l[i].gradient it.consJac.value j * D.primal.value j =
        ∑ j : Fin n, l[i].gradient it.consJac.value j * ws.init.step.value j) ∧
      (dense n D.primal ⬝ᵥ dense n D.primal = radius ^ 2 ∨
        ∀ v : Fin n → K, (∀ k (hk : k < l.length), ∑ j : Fin n, l[k].gradient it.consJac.value j * v j = 0) →
          (gnGrad q r Jr (dense m ws.multipliers) (dense n D.primal) ⬝ᵥ v) ^ 2 ≤ (e.statTol / 100) ^ 2 * (v ⬝ᵥ v)) := by
  have hF := first_step h ho hp ht hf h0 he hS hr hod hom hq hE.sqrt hs
  obtain ⟨P, P1, P2, P3, P4, P5⟩ := hE.proj.matrix
  obtain ⟨s', k, hset, hG⟩ := gn_setup h hf hq hE hM hF P1 P3
  refine ⟨s', k, hset, fun D hD => ?_⟩
  obtain ⟨A, hL, hA, hV⟩ := hG.ex
  obtain ⟨-, hne⟩ := gn_grad P1 P5 hV
  obtain ⟨v, hv, hvg⟩ := hg
  have hne := hne ⟨v, mem_nullSpace_iff.2 hv, hvg⟩
  obtain ⟨x, hx⟩ := gnDirection_eq_some hD
  have hO := C71_solution_partial hL h0 (fun r' h' => by obtain rfl := Option.some.inj h'; exact hF.rad) hG.lsqr hG.rhs hG.sol hne hx
  obtain ⟨D', D1, D2⟩ := gn_dir hf hq hE hF.step o2 o3 hO.ok hx
  rw [hD] at D1
  obtain rfl := Option.some.inj (Option.some.inj D1)
  have hxN : dense n x ∈ nullSpace n l.length (workMat l it.consJac.value) := by
    obtain ⟨y, hy⟩ := hO.range
    obtain ⟨z, hz⟩ := hA y
    rw [hy, hz]; exact P4 z
  rw [D2.primal]
  refine ⟨D2, fun i hi => ?_, ?_⟩
  · have := mem_nullSpace_iff.1 hxN i hi
    rw [← add_zero (∑ j : Fin n, l[i].gradient it.consJac.value j * ws.init.step.value j), ← this, ← Finset.sum_add_distrib]
    refine Finset.sum_congr rfl fun j _ => ?_
    rw [← mul_add]
    exact congrArg _ (congrFun D2.primal j)
  · rcases hO.stat with hst | ⟨r', hr', hst⟩
    · refine Or.inr fun v hv => ?_
      rw [(hV _).2, P5 _ hxN, neg_dotProduct, dotProduct_neg, neg_neg] at hst
      have hvN := mem_nullSpace_iff.2 hv
      conv_lhs => rw [← P5 v hvN, dotProduct_mulVec, ← mulVec_transpose, P1]
      refine le_trans (dot_sq_le _ _) (mul_le_mul_of_nonneg_right (hst.trans (le_of_eq ?_)) (dot_self_nonneg v))
      show (e.statTol * (1 / 100)) ^ 2 = _
      ring
    · obtain rfl := Option.some.inj hr'
      refine Or.inl ?_
      rw [hF.sum hxN, hst]
      ring

/-- C72 (partial): with a tolerance of zero (and a gradient as in `C72_direction_partial`), the computation of the direction ends
properly: with the time limit, or with a direction whose step lies in the trust region. There the sum of
the squared residuals and violations is at most its value at the first step, and at every point of the
trust region reached from there along the projected gradient. -/
theorem C72_decrease_partial {w : WSet} {l : List WEntry} (h : WRep n m w l) (ho : w.Ordered) {p : Bounds K}
    (hp : p.Sized n m) (ht : Tight p l) {it : Iterate K} (hf : it.Fits n m p) {d0 : Vec K} {solve : Vec K → Option (Vec K)}
    (hS : MinNormService solve n l it.consJac.value) {radius : K} (hr : 0 < radius) {old : WorkStep K} (hod : old.init.step.dim = n)
    (hom : old.multipliers.dim = m) {q : LocalModel n m K} (hq : IterFor q p it) {r : Fin R → K} {Jr : Matrix (Fin R) (Fin n) K}
    {e : GnEnv K} (hE : GnFor q r Jr l it.consJac.value e) (h0 : e.eps = 0) {ws : WorkStep K}
    (hs : workStep solve e.sqrt e.eps 0 radius w p it d0 old = some ws) {s : GnMem K} (hM : s.Sized n R) {out : Dir K}
    (o2 : out.consJac.WF ∧ out.consJac.dim = m) (o3 : out.hess.WF ∧ out.hess.dim = n)
    (hg : ∃ v : Fin n → K, (∀ k (hk : k < l.length), ∑ j : Fin n, l[k].gradient it.consJac.value j * v j = 0) ∧
      gnGrad q r Jr (dense m ws.multipliers) (dense n ws.init.step) ⬝ᵥ v ≠ 0) :
    ∃ s' k res, gnSetIterate e s w p it q.penalty ws = some (s', k) ∧ gnDirection e s' k it ws out = some res ∧
      (res = none → ∃ i, e.timeUp i = true) ∧
      ∀ D, res = some D → dense n D.primal ⬝ᵥ dense n D.primal ≤ radius ^ 2 ∧
        gnVal q r Jr (dense m ws.multipliers) (dense n D.primal) ≤ gnVal q r Jr (dense m ws.multipliers) (dense n ws.init.step) ∧
        ∀ g : Fin n → K, (∀ k (hk : k < l.length), ∑ j : Fin n, l[k].gradient it.consJac.value j * g j = 0) →
          (∀ v : Fin n → K, (∀ k (hk : k < l.length), ∑ j : Fin n, l[k].gradient it.consJac.value j * v j = 0) →
            (gnGrad q r Jr (dense m ws.multipliers) (dense n ws.init.step) - g) ⬝ᵥ v = 0) →
          ∀ t : K, (dense n ws.init.step + t • g) ⬝ᵥ (dense n ws.init.step + t • g) ≤ radius ^ 2 →
            gnVal q r Jr (dense m ws.multipliers) (dense n D.primal) ≤
              gnVal q r Jr (dense m ws.multipliers) (dense n ws.init.step + t • g) := by
  have hF := first_step h ho hp ht hf h0.ge (by rw [h0]; norm_num) hS hr hod hom hq hE.sqrt hs
  obtain ⟨P, P1, P2, P3, P4, P5⟩ := hE.proj.matrix
  obtain ⟨s', k, hset, hG⟩ := gn_setup h hf hq hE hM hF P1 P3
  obtain ⟨A, hL, hA, hV⟩ := hG.ex
  obtain ⟨hAb, hne⟩ := gn_grad P1 P5 hV
  obtain ⟨v, hv, hvg⟩ := hg
  have hne := hne ⟨v, mem_nullSpace_iff.2 hv, hvg⟩
  have hrad : ∀ r', (gnLsqr e s' k ws.init.radius).radius = some r' → 0 ≤ r' := fun r' h' => by obtain rfl := Option.some.inj h'; exact hF.rad
  obtain ⟨res, r1, r2, r3⟩ := C71_solve_partial hL h0 hrad hG.lsqr hG.rhs hG.sol hne
  rcases res with _ | x
  · refine ⟨s', k, none, hset, ?_, fun _ => r2 rfl, by simp⟩
    unfold gnDirection
    rw [r1, Option.bind_some]
  · obtain ⟨hO, hGd⟩ := r3 x rfl
    obtain ⟨D, D1, D2⟩ := gn_dir hf hq hE hF.step o2 o3 hO.ok r1
    have hxN : dense n x ∈ nullSpace n l.length (workMat l it.consJac.value) := by
      obtain ⟨y, hy⟩ := hO.range
      obtain ⟨z, hz⟩ := hA y
      rw [hy, hz]; exact P4 z
    have hxv := (hV (dense n x)).1
    rw [P5 _ hxN] at hxv
    refine ⟨s', k, some D, hset, D1, by simp, ?_⟩
    rintro D' hD'
    obtain rfl := Option.some.inj hD'
    rw [D2.primal, ← hxv]
    refine ⟨?_, ?_, fun g hg1 hg2 t ht' => ?_⟩
    · rw [hF.sum hxN]
      have hin := hO.inside _ rfl
      have : ¬ ws.init.radius * ws.init.radius < dense n x ⬝ᵥ dense n x := fun hc => by
        rw [(inside_sq hL h0 hF.rad _).2 hc] at hin
        exact Bool.noConfusion hin
      nlinarith
    · have := hGd 0 (fun r' h' => by rw [zero_smul, dotProduct_zero]; exact mul_self_nonneg r')
      rwa [zero_smul, (hV 0).1, mulVec_zero, add_zero] at this
    · have hgN := mem_nullSpace_iff.2 hg1
      have hPg : P *ᵥ gnGrad q r Jr (dense m ws.multipliers) (dense n ws.init.step) = g :=
        orth_unique (N := nullSpace n l.length (workMat l it.consJac.value)) (P4 _) (fun v hv => by
          rw [sub_dotProduct, sub_eq_zero]
          conv_lhs => rw [← P5 v hv, dotProduct_mulVec, ← mulVec_transpose, P1]) hgN fun v hv => hg2 v (mem_nullSpace_iff.1 hv)
      rw [hPg] at hAb
      have htg : (-t) • Aᵀ *ᵥ dense (R + k) s'.rhs = t • g := by rw [hAb, smul_neg, neg_smul, neg_neg]
      have := hGd (-t) (fun r' h' => by
        obtain rfl := Option.some.inj h'
        rw [htg]
        have h2 := hF.sum (Submodule.smul_mem _ t hgN)
        nlinarith)
      rw [htg, (hV (t • g)).1, P5 _ (Submodule.smul_mem _ t hgN)] at this
      exact this

/-- C72: the function minimised is the sum of the squared linearised residuals and of the squares of the penalised
linearised violations of the constraints outside of the working set, as long as these constraints stay on the side
of their bounds on which the first step leaves them. -/
theorem C72_objective {w : WSet} {l : List WEntry} (h : WRep n m w l) (ho : w.Ordered) {p : Bounds K}
    (hp : p.Sized n m) (ht : Tight p l) {it : Iterate K} (hf : it.Fits n m p) {d0 : Vec K} {solve : Vec K → Option (Vec K)}
    (hS : MinNormService solve n l it.consJac.value) {radius : K} (hr : 0 < radius) {old : WorkStep K} (hod : old.init.step.dim = n)
    (hom : old.multipliers.dim = m) {q : LocalModel n m K} (hq : IterFor q p it) (r : Fin R → K) (Jr : Matrix (Fin R) (Fin n) K)
    {sqrt : K → K} (hsq : ∀ v, 0 ≤ v → 0 ≤ sqrt v ∧ sqrt v * sqrt v = v) {eps : K} (h0 : 0 ≤ eps) (he : eps ≤ 1 / 5) {ws : WorkStep K}
    (hs : workStep solve sqrt eps 0 radius w p it d0 old = some ws) (hle : ∀ i, q.lb i ≤ q.ub i) (d : Fin n → K)
    (hd : ∀ i : Fin m, w.consState i = .inactive →
      SameSide (q.c i + (q.J *ᵥ dense n ws.init.step) i) (q.c i + (q.J *ᵥ d) i) (q.lb i) (q.ub i)) :
    gnVal q r Jr (dense m ws.multipliers) d = (r + Jr *ᵥ d) ⬝ᵥ (r + Jr *ᵥ d) +
      ∑ i : Fin m, if w.consState i = .inactive then (q.penalty * viol (q.c i + (q.J *ᵥ d) i) (q.lb i) (q.ub i)) ^ 2 else 0 := by
  have hF := first_step h ho hp ht hf h0 he hS hr hod hom hq hsq hs
  unfold gnVal
  rw [Finset.mul_sum]
  congr 1
  refine Finset.sum_congr rfl fun i _ => ?_
  have hmu := hF.mu i
  by_cases hi : w.consState i = .inactive
  · rw [if_pos hi, mul_pow]
    rw [if_neg (not_not.2 hi)] at hmu
    congr 1
    unfold LocalModel.gap viol
    have hl := hle i
    rcases hd i hi with ⟨h1, h2, h3, h4⟩ | ⟨h1, h2⟩ | ⟨h1, h2⟩
    · rw [if_neg (not_lt.2 h2), if_neg (not_lt.2 h1)] at hmu
      rw [hmu, max_eq_right (max_le (by linarith) (by linarith))]
      ring
    · rw [if_pos h1] at hmu
      rw [hmu, if_pos one_pos, max_eq_left (le_trans (sub_nonneg.2 h2) (le_max_right _ _)), max_eq_right (by linarith)]
      ring
    · rw [if_neg (not_lt.2 (by linarith)), if_pos h1] at hmu
      rw [hmu, if_neg (by norm_num), max_eq_left (le_trans (sub_nonneg.2 h2) (le_max_left _ _)), max_eq_left (by linarith)]
      ring
  · rw [if_neg hi]
    rw [if_pos hi] at hmu
    rw [hmu]
    ring

/-- C72: the negation for a gradient perpendicular to the null space, for example with as many active gradients as variables (a vertex)
or with vanishing residuals: the computation of the direction divides by zero. There is no test for this case in the Gauss-Newton
step. (In IEEE arithmetic the correction computed is still zero, after the maximum number of iterations of the least-squares solver.) -/
theorem C72_stationary_violated {w : WSet} {l : List WEntry} (h : WRep n m w l) (ho : w.Ordered) {p : Bounds K}
    (hp : p.Sized n m) (ht : Tight p l) {it : Iterate K} (hf : it.Fits n m p) {d0 : Vec K} {solve : Vec K → Option (Vec K)}
    (hS : MinNormService solve n l it.consJac.value) {radius : K} (hr : 0 < radius) {old : WorkStep K} (hod : old.init.step.dim = n)
    (hom : old.multipliers.dim = m) {q : LocalModel n m K} (hq : IterFor q p it) {r : Fin R → K} {Jr : Matrix (Fin R) (Fin n) K}
    {e : GnEnv K} (hE : GnFor q r Jr l it.consJac.value e) (h0 : 0 ≤ e.eps) (he : e.eps ≤ 1 / 5) {ws : WorkStep K}
    (hs : workStep solve e.sqrt e.eps 0 radius w p it d0 old = some ws) {s : GnMem K} (hM : s.Sized n R) (out : Dir K) (hn : 0 < n)
    (hg : ∀ v : Fin n → K, (∀ k (hk : k < l.length), ∑ j : Fin n, l[k].gradient it.consJac.value j * v j = 0) →
      gnGrad q r Jr (dense m ws.multipliers) (dense n ws.init.step) ⬝ᵥ v = 0) :
    ∃ s' k, gnSetIterate e s w p it q.penalty ws = some (s', k) ∧ gnDirection e s' k it ws out = none := by
  have hF := first_step h ho hp ht hf h0 he hS hr hod hom hq hE.sqrt hs
  obtain ⟨P, P1, P2, P3, P4, P5⟩ := hE.proj.matrix
  obtain ⟨s', k, hset, hG⟩ := gn_setup h hf hq hE hM hF P1 P3
  obtain ⟨A, hL, hA, hV⟩ := hG.ex
  obtain ⟨hAb, -⟩ := gn_grad (N := nullSpace n l.length (workMat l it.consJac.value)) P1 P5 hV
  refine ⟨s', k, hset, ?_⟩
  have hz : P *ᵥ gnGrad q r Jr (dense m ws.multipliers) (dense n ws.init.step) = 0 := by
    refine dot_self_zero ?_
    rw [dotProduct_mulVec, ← mulVec_transpose, P1, P5 _ (P4 _), dotProduct_comm]
    exact hg _ (mem_nullSpace_iff.1 (P4 _))
  rw [hz, neg_zero] at hAb
  unfold gnDirection
  rw [C71_zero_gradient_violated hL hn hG.lsqr hG.rhs hG.sol hAb, Option.bind_none]

/-- one residual with value `3` and gradient `(a, b)` -/
noncomputable def exGnEnv (a b : ℝ) : GnEnv ℝ :=
  { numVars := 2, numCons := 1, numRes := 1
    residuals := fun _ => some ⟨1, 1, [(0, 3)]⟩
    jacFwd := fun d _ => some ⟨1, 1, [(0, a * d.value 0 + b * d.value 1)]⟩
    jacAdj := fun d _ => some ⟨2, 2, [(0, a * d.value 0), (1, b * d.value 0)]⟩
    proj := exNewtonEnv.proj
    hp := exNewtonEnv.hp
    sqrt := Real.sqrt, eps := 0, zeroEps := 0, statTol := 1 / 100, timeUp := fun _ => false }

theorem exGnFor (a b : ℝ) : GnFor exNewtonModel ![3] !![a, b] [⟨true, 0, .upper⟩] exNewtonJac.value (exGnEnv a b) := by
  refine ⟨rfl, rfl, rfl, fun t _ => ⟨_, rfl, ⟨⟨List.pairwise_singleton _ _, by simp, by simp⟩, rfl⟩, ?_⟩,
    fun d t hd _ => ⟨_, rfl, ⟨⟨List.pairwise_singleton _ _, by simp, by simp⟩, rfl⟩, ?_⟩,
    fun d t hd _ => ⟨_, rfl, ⟨⟨by simp [Srt], by simp, by simp⟩, rfl⟩, ?_⟩, exNewtonFor.proj, exNewtonFor.hp, real_sqrt_spec, rfl, ?_⟩
  · funext i; fin_cases i; simp [dense, Vec.value, valAt, at?, orZero]
  · funext i; fin_cases i; simp [dense, Vec.value, valAt, at?, orZero, mulVec, dotProduct, Fin.sum_univ_two]
  · funext i; fin_cases i <;> simp [dense, Vec.value, valAt, at?, orZero, mulVec, dotProduct]
  · show (0 : ℝ) ≤ 1 / 100
    norm_num

/-- a solver of the right sizes -/
noncomputable def exGnMem : GnMem ℝ :=
  { lsqResiduals := ⟨1, 0, []⟩, lsqRhs := ⟨1, 0, []⟩, linConsVal := ⟨1, 0, []⟩, linConsRes := ⟨1, 0, []⟩, scaledRes := ⟨1, 0, []⟩, rhs := ⟨0, 0, []⟩
    jac := exNewtonJac, fwdProj := ⟨2, 0, []⟩, fwdLsq := ⟨1, 0, []⟩, fwdCons := ⟨0, 0, []⟩, adjLsqDir := ⟨1, 0, []⟩, adjConsDir := ⟨0, 0, []⟩
    adjLsq := ⟨2, 0, []⟩, adjCons := ⟨2, 0, []⟩, adjProd := ⟨2, 0, []⟩, sol := ⟨2, 0, []⟩, sparse := ⟨2, 0, []⟩
    lsqr := lsqrCreate 2 }

theorem exGnGrad (a b : ℝ) (mu : Fin 1 → ℝ) (d v : Fin 2 → ℝ) (hv : v 0 = 0) :
    gnGrad exNewtonModel ![3] !![a, b] mu d ⬝ᵥ v = b * (3 + (a * d 0 + b * d 1)) * v 1 := by
  simp [gnGrad, exNewtonModel, mulVec, dotProduct, Fin.sum_univ_two, hv]

theorem exGnNull {v : Fin 2 → ℝ} : (∀ k (hk : k < [(⟨true, 0, .upper⟩ : WEntry)].length),
    ∑ j : Fin 2, [(⟨true, 0, .upper⟩ : WEntry)][k].gradient exNewtonJac.value j * v j = 0) ↔ v 0 = 0 := by
  constructor
  · intro h
    have := h 0 (by simp)
    simpa [WEntry.gradient, exJac_val, Fin.sum_univ_two] using this
  · intro h k hk
    obtain rfl : k = 0 := by simp at hk; omega
    simp [WEntry.gradient, exJac_val, Fin.sum_univ_two, h]

/-- the hypotheses of `C72_decrease_partial` and `C72_direction_partial` hold with the gradient `(0, 1)`, those of
`C72_stationary_violated` with the gradient `(1, 0)` -/
example : ∃ (w : WSet) (ws : WorkStep ℝ), WRep 2 1 w [⟨true, 0, .upper⟩] ∧
    (∃ s k D, gnSetIterate (exGnEnv 0 1) exGnMem w exNewtonBounds exNewtonIter 5 ws = some (s, k) ∧
      gnDirection (exGnEnv 0 1) s k exNewtonIter ws (Dir.create 2 1) = some (some D) ∧ dense 2 D.primal ⬝ᵥ dense 2 D.primal ≤ 1) ∧
    ∃ s k, gnSetIterate (exGnEnv 1 0) exGnMem w exNewtonBounds exNewtonIter 5 ws = some (s, k) ∧
      gnDirection (exGnEnv 1 0) s k exNewtonIter ws (Dir.create 2 1) = none := by
  obtain ⟨w, -, h⟩ := wrep_addCons (wrep_create 2 1 fun _ => 0) (i := 0) (st := .upper) (by omega) (by simp) (by decide)
  have ho : w.Ordered := by
    have hsz : w.size = 1 := h.size
    intro k k' h1 h2
    omega
  obtain ⟨hp, ht, hf, hq⟩ := exNewtonHyps
  have wf0 : ∀ k c, (⟨k, c, []⟩ : Vec ℝ).WF := fun k c => ⟨List.Pairwise.nil, by simp, by simp⟩
  obtain ⟨ws, hs, -⟩ := C69_work_step h ho hp ht hf (eps := 0) le_rfl (by norm_num) le_rfl ⟨2, 0, []⟩ exNewtonMin
    real_sqrt_spec (radius := 1) one_pos (old := ⟨⟨0, 0, []⟩, ⟨0, 0, []⟩, ⟨⟨2, 0, []⟩, 0, false⟩, 0, ⟨1, 0, []⟩, ⟨1, 0, []⟩, ⟨1, 0, []⟩⟩) rfl rfl
  have hF := first_step h ho hp ht hf le_rfl (by norm_num) exNewtonMin one_pos rfl rfl hq real_sqrt_spec hs
  have hM : exGnMem.Sized 2 1 := ⟨rfl, rfl, rfl, rfl, rfl, rfl⟩
  refine ⟨w, ws, h, ?_, ?_⟩
  · obtain ⟨s, k, res, a1, a2, a3, a4⟩ := C72_decrease_partial h ho hp ht hf exNewtonMin one_pos rfl rfl hq (exGnFor 0 1) rfl hs hM
      (out := Dir.create 2 1) ⟨wf0 _ _, rfl⟩ ⟨wf0 _ _, rfl⟩ ⟨![0, 1], exGnNull.2 rfl, by
        rw [exGnGrad _ _ _ _ _ rfl]
        have hn := hF.norm
        simp only [dotProduct, Fin.sum_univ_two] at hn
        have : -1 ≤ dense 2 ws.init.step 1 := by nlinarith [sq_nonneg ws.init.radius, mul_self_nonneg (dense 2 ws.init.step 0)]
        have : 0 < 3 + dense 2 ws.init.step 1 := by linarith
        simpa using this.ne'⟩
    rcases res with _ | D
    · obtain ⟨i, hi⟩ := a3 rfl
      exact absurd hi (by simp [exGnEnv])
    · exact ⟨s, k, D, a1, a2, by simpa using (a4 D rfl).1⟩
  · exact C72_stationary_violated h ho hp ht hf exNewtonMin one_pos rfl rfl hq (exGnFor 1 0) le_rfl (by show (0:ℝ) ≤ 1/5; norm_num) hs hM
      (Dir.create 2 1) (by omega) fun v hv => by
        rw [exGnGrad _ _ _ _ _ (exGnNull.1 hv)]
        simp

end Sleqp
