import Verif.Spec.DirectionEps
import Verif.Props.Direction
import Verif.Lemmas.Feas
import Mathlib.Tactic.Linarith
import Mathlib.Tactic.Positivity

/-!
C62 and C63 for any drop tolerance.
-/

namespace Sleqp
variable {K : Type*} [Field K] [LinearOrder K] [IsStrictOrderedRing K]
variable {n m : Nat}
open Matrix

/-! ### lemmas -/

theorem drop_near {x eps : K} (h : 0 ≤ eps) : |(if |x| ≤ eps then 0 else x) - x| ≤ eps := by
  split
  · rename_i hx; rwa [zero_sub, abs_neg]
  · rwa [sub_self, abs_zero]

theorem addScaled_near {a b r0 : Vec K} (f g : K) {eps : K} (heps : 0 ≤ eps) (ha : VOk n a) (hb : VOk n b) :
    ∃ r, Vec.addScaled a b f g eps r0 = some r ∧ VOk n r ∧ ∀ i, |dense n r i - (f * dense n a i + g * dense n b i)| ≤ eps := by
  obtain ⟨r, h1, h2, h3, h4⟩ := C03_add_scaled a b r0 f g eps ha.1 hb.1 (by rw [ha.2, hb.2]) heps
  refine ⟨r, h1, ⟨h2, by rw [h3, ha.2]⟩, fun i => ?_⟩
  unfold dense
  rw [h4 i]
  exact drop_near heps

theorem comb_near {x y x' y' f g r eps δ δ' : K} (hr : |r - (f * x + g * y)| ≤ eps) (hx : |x - x'| ≤ δ) (hy : |y - y'| ≤ δ') :
    |r - (f * x' + g * y')| ≤ |f| * δ + |g| * δ' + eps := by
  have e1 : r - (f * x' + g * y') = f * (x - x') + g * (y - y') + (r - (f * x + g * y)) := by ring
  rw [e1]
  refine (abs_add_le _ _).trans (add_le_add ((abs_add_le _ _).trans (add_le_add ?_ ?_)) hr)
  · rw [abs_mul]; exact mul_le_mul_of_nonneg_left hx (abs_nonneg _)
  · rw [abs_mul]; exact mul_le_mul_of_nonneg_left hy (abs_nonneg _)

theorem total_near {q : LocalModel n m K} {c c' : Fin m → K} {δ : K} (h : ∀ i, |c i - c' i| ≤ δ) :
    |∑ i, viol (c i) (q.lb i) (q.ub i) - ∑ i, viol (c' i) (q.lb i) (q.ub i)| ≤ m * δ := by
  rw [← Finset.sum_sub_distrib]
  refine (Finset.abs_sum_le_sum_abs _ _).trans ?_
  refine (Finset.sum_le_sum fun i _ => (viol_lipschitz _ _ _ _).trans (h i)).trans ?_
  rw [Finset.sum_const, Finset.card_univ, Fintype.card_fin, nsmul_eq_mul]

omit [IsStrictOrderedRing K] in
theorem dirNear_exact {q : LocalModel n m K} {D : Dir K} {d : Fin n → K} [IsStrictOrderedRing K] (h : DirNear q D d ⟨0, 0, 0, 0⟩) : DirFor q D d :=
  ⟨h.okP, h.okC, h.okH, funext fun i => sub_eq_zero.1 (abs_nonpos_iff.1 (h.primal i)), sub_eq_zero.1 (abs_nonpos_iff.1 h.grad),
    funext fun i => sub_eq_zero.1 (abs_nonpos_iff.1 (h.jac i)), funext fun i => sub_eq_zero.1 (abs_nonpos_iff.1 (h.hess i))⟩

/-! ### C62 -/

/-- resetting a direction with any drop tolerance -/
theorem reset_near (q : LocalModel n m K) (D : Dir K) (grad : Vec K) (jac : Mat K) (hp : Vec K → Vec K → Option (Vec K)) {eps : K} (heps : 0 ≤ eps)
    (hP : VOk n D.primal) (hC : VOk m D.consJac) (hH : VOk n D.hess) (hg : VOk n grad) (hgq : dense n grad = q.g)
    (hj : jac.WF) (hjc : jac.numCols = n) (hjq : ∀ i j, jac.value (i : Fin m).val (j : Fin n).val = q.J i j) (hh : HessFor q hp) :
    ∃ D', D.reset m grad jac hp eps = some D' ∧ DirNear q D' (dense n D.primal) ⟨0, 0, eps, 0⟩ := by
  obtain ⟨h, h1, h2, h3⟩ := hh D.primal D.hess hP hH
  obtain ⟨res, r1, r2⟩ := C08_mult_vec jac D.primal hj hP.1 (by rw [hjc, hP.2])
  have hcj : ∃ cj, (if 0 < m then (jac.multVec D.primal).bind fun res => D.consJac.setFromRaw eps ((List.range m).map res)
      else some D.consJac.clear) = some cj ∧ VOk m cj ∧ ∀ i, |dense m cj i - (q.J *ᵥ dense n D.primal) i| ≤ eps := by
    by_cases hm : 0 < m
    · rw [if_pos hm, r1]
      obtain ⟨w, w1, w2, w3, w4⟩ := setFromRaw_spec eps D.consJac ((List.range m).map res)
      refine ⟨w, w1, ⟨w2, by rw [w3]; simp⟩, fun i => ?_⟩
      show |w.value i - _| ≤ _
      have hi := i.isLt
      rw [w4 i]
      simp only [List.getElem?_map, List.getElem?_range hi, Option.map_some]
      have hr : res i = (q.J *ᵥ dense n D.primal) i := by
        rw [r2 i, hjc, Finset.sum_range]
        exact Finset.sum_congr rfl fun j _ => by rw [hjq i j]; rfl
      rw [hr]
      exact drop_near heps
    · rw [if_neg hm]
      obtain rfl : m = 0 := by omega
      exact ⟨_, rfl, (clear_vok hC).1, fun i => i.elim0⟩
  obtain ⟨cj, c1, c2, c3⟩ := hcj
  refine ⟨⟨D.primal, dense n D.primal ⬝ᵥ dense n grad, cj, h⟩, ?_, ⟨hP, c2, h2, fun i => by rw [sub_self, abs_zero], ?_, c3, fun i => ?_⟩⟩
  · unfold Dir.reset
    rw [dot_dense hP hg]
    show (_ : Option (Vec K)).bind _ = _
    rw [c1]
    show (hp D.primal D.hess).bind _ = _
    rw [h1]
    rfl
  · show |dense n D.primal ⬝ᵥ dense n grad - _| ≤ 0
    rw [hgq, dotProduct_comm, sub_self, abs_zero]
  · show |dense n h i - _| ≤ 0
    rw [h3, sub_self, abs_zero]

theorem scale_near {q : LocalModel n m K} {D : Dir K} {d : Fin n → K} {δ : DirErr K} (h : DirNear q D d δ) (f : K) :
    DirNear q (D.scale f) (f • d) ⟨|f| * δ.p, |f| * δ.g, |f| * δ.c, |f| * δ.h⟩ := by
  obtain ⟨p1, p2⟩ := scale_dense h.okP f
  obtain ⟨c1, c2⟩ := scale_dense h.okC f
  obtain ⟨h1, h2⟩ := scale_dense h.okH f
  have key : ∀ {x y δ : K}, |x - y| ≤ δ → |f * x - f * y| ≤ |f| * δ := fun hx => by
    rw [← mul_sub, abs_mul]; exact mul_le_mul_of_nonneg_left hx (abs_nonneg _)
  refine ⟨p1, c1, h1, fun i => ?_, ?_, fun i => ?_, fun i => ?_⟩
  · show |dense n (D.primal.scale f) i - _| ≤ _
    rw [p2]; exact key (h.primal i)
  · show |D.objGrad * f - _| ≤ _
    rw [dotProduct_smul, smul_eq_mul, mul_comm D.objGrad]; exact key h.grad
  · show |dense m (D.consJac.scale f) i - _| ≤ _
    rw [c2, mulVec_smul]; exact key (h.jac i)
  · show |dense n (D.hess.scale f) i - _| ≤ _
    rw [h2, mulVec_smul]; exact key (h.hess i)

theorem combine_near {q : LocalModel n m K} {D E R : Dir K} {d e : Fin n → K} {δ δ' : DirErr K} {eps : K} (heps : 0 ≤ eps) (h : DirNear q D d δ)
    (h' : DirNear q E e δ') (a b : K) :
    ∃ D', D.addScaled E a b eps R = some D' ∧ DirNear q D' (a • d + b • e)
      ⟨|a| * δ.p + |b| * δ'.p + eps, |a| * δ.g + |b| * δ'.g, |a| * δ.c + |b| * δ'.c + eps, |a| * δ.h + |b| * δ'.h + eps⟩ := by
  obtain ⟨p, p1, p2, p3⟩ := addScaled_near (r0 := R.primal) a b heps h.okP h'.okP
  obtain ⟨c, c1, c2, c3⟩ := addScaled_near (r0 := R.consJac) a b heps h.okC h'.okC
  obtain ⟨s, s1, s2, s3⟩ := addScaled_near (r0 := R.hess) a b heps h.okH h'.okH
  refine ⟨⟨p, a * D.objGrad + b * E.objGrad, c, s⟩, ?_, ⟨p2, c2, s2, fun i => comb_near (p3 i) (h.primal i) (h'.primal i), ?_, fun i => ?_, fun i => ?_⟩⟩
  · unfold Dir.addScaled
    rw [p1, Option.bind_some, c1, Option.bind_some, s1]
    rfl
  · show |a * D.objGrad + b * E.objGrad - _| ≤ _
    rw [dotProduct_add, dotProduct_smul, dotProduct_smul, smul_eq_mul, smul_eq_mul]
    have := comb_near (r := a * D.objGrad + b * E.objGrad) (f := a) (g := b) (eps := 0) (by rw [sub_self, abs_zero]) h.grad h'.grad
    rwa [add_zero] at this
  · show |dense m c i - _| ≤ _
    rw [mulVec_add, mulVec_smul, mulVec_smul]
    exact comb_near (c3 i) (h.jac i) (h'.jac i)
  · show |dense n s i - _| ≤ _
    rw [mulVec_add, mulVec_smul, mulVec_smul]
    exact comb_near (s3 i) (h.hess i) (h'.hess i)

omit [IsStrictOrderedRing K] in
theorem copy_near {q : LocalModel n m K} {D T : Dir K} {d : Fin n → K} {δ : DirErr K} (h : DirNear q D d δ) (tp : T.primal.dim = n)
    (tc : T.consJac.dim = m) (th : T.hess.dim = n) : ∃ D', D.copy T = some D' ∧ DirNear q D' d δ := by
  obtain ⟨p, p1, p2, p3⟩ := copy_spec h.okP tp
  obtain ⟨c, c1, c2, c3⟩ := copy_spec h.okC tc
  obtain ⟨s, s1, s2, s3⟩ := copy_spec h.okH th
  refine ⟨⟨p, D.objGrad, c, s⟩, ?_, ⟨p2, c2, s2, fun i => ?_, h.grad, fun i => ?_, fun i => ?_⟩⟩
  · unfold Dir.copy
    rw [p1, Option.bind_some, c1, Option.bind_some, s1]
    rfl
  · show |dense n p i - _| ≤ _
    rw [dense_of_ents p3]; exact h.primal i
  · show |dense m c i - _| ≤ _
    rw [dense_of_ents c3]; exact h.jac i
  · show |dense n s i - _| ≤ _
    rw [dense_of_ents s3]; exact h.hess i

omit [IsStrictOrderedRing K] in
theorem zero_near {q : LocalModel n m K} {D : Dir K} {d : Fin n → K} {δ : DirErr K} [IsStrictOrderedRing K] (h : DirNear q D d δ) :
    DirNear q D.setZero 0 ⟨0, 0, 0, 0⟩ := by
  obtain ⟨p1, p2⟩ := clear_vok h.okP
  obtain ⟨c1, c2⟩ := clear_vok h.okC
  obtain ⟨h1, h2⟩ := clear_vok h.okH
  refine ⟨p1, c1, h1, fun i => ?_, ?_, fun i => ?_, fun i => ?_⟩
  · show |dense n D.primal.clear i - _| ≤ 0
    rw [p2, sub_self, abs_zero]
  · rw [dotProduct_zero]; show |(0 : K) - 0| ≤ 0
    rw [sub_self, abs_zero]
  · show |dense m D.consJac.clear i - _| ≤ 0
    rw [c2, mulVec_zero, sub_self, abs_zero]
  · show |dense n D.hess.clear i - _| ≤ 0
    rw [h2, mulVec_zero, sub_self, abs_zero]

/-- the data used when products are computed are those of the model -/
structure ResetFor (q : LocalModel n m K) (grad : Vec K) (jac : Mat K) (hp : Vec K → Vec K → Option (Vec K)) : Prop where
  okG : VOk n grad
  grad : dense n grad = q.g
  okJ : jac.WF
  cols : jac.numCols = n
  jac : ∀ i j, jac.value (i : Fin m).val (j : Fin n).val = q.J i j
  hess : HessFor q hp

theorem putAt_near {q : LocalModel n m K} {s : Nat → Dir K} {d : Nat → Fin n → K} {δ : Nat → DirErr K} (h : ∀ i, DirNear q (s i) (d i) (δ i)) {k : Nat} {D : Dir K}
    {x : Fin n → K} {ε : DirErr K} (hk : DirNear q D x ε) (i : Nat) : DirNear q (putAt s k D i) (putAt d k x i) (putAt δ k ε i) := by
  unfold putAt
  split
  · exact hk
  · exact h i

theorem dirOp_near {q : LocalModel n m K} {grad : Vec K} {jac : Mat K} {hp : Vec K → Vec K → Option (Vec K)} (hq : ResetFor q grad jac hp) {eps : K}
    (heps : 0 ≤ eps) (op : DirOp K) (hop : op.Ok n) {s : Nat → Dir K} {d : Nat → Fin n → K} {δ : Nat → DirErr K} (h : ∀ i, DirNear q (s i) (d i) (δ i)) :
    ∃ s', op.run m grad jac hp eps s = some s' ∧ ∀ i, DirNear q (s' i) (op.steps n d i) (op.errs eps δ i) := by
  cases op with
  | reset k v =>
    obtain ⟨p, p1, p2, p3⟩ := copy_spec (v := v) hop (h k).okP.2
    obtain ⟨D', r1, r2⟩ := reset_near q { s k with primal := p } grad jac hp heps p2 (h k).okC (h k).okH hq.okG hq.grad hq.okJ hq.cols hq.jac hq.hess
    refine ⟨putAt s k D', by simp only [DirOp.run, p1, Option.bind_some, r1, Option.map_some], putAt_near h ?_⟩
    have e : dense n p = dense n v := dense_of_ents p3
    rw [← e]
    exact r2
  | scale k f => exact ⟨_, rfl, putAt_near h (scale_near (h k) f)⟩
  | zero k => exact ⟨_, rfl, putAt_near h (zero_near (h k))⟩
  | combine i j f g r =>
    obtain ⟨D', r1, r2⟩ := combine_near (R := s r) heps (h i) (h j) f g
    exact ⟨putAt s r D', by simp only [DirOp.run, r1, Option.map_some], putAt_near h r2⟩
  | copy i r =>
    obtain ⟨D', r1, r2⟩ := copy_near (h i) (h r).okP.2 (h r).okC.2 (h r).okH.2
    exact ⟨putAt s r D', by simp only [DirOp.run, r1, Option.map_some], putAt_near h r2⟩

/-- C62, for any drop tolerance and any sequence of operations: resetting, scaling, zeroing, combining and copying directions of a store does not fail, and afterwards all
parts of every direction belong to the step obtained by performing the same operations on the steps, up to errors which are sums of multiples of the tolerance: one
for each combination and Jacobian product, multiplied with the factors of later operations. -/
theorem C62_sequence {q : LocalModel n m K} {grad : Vec K} {jac : Mat K} {hp : Vec K → Vec K → Option (Vec K)} (hq : ResetFor q grad jac hp) {eps : K}
    (heps : 0 ≤ eps) (ops : List (DirOp K)) (hops : ∀ op ∈ ops, op.Ok n) {s : Nat → Dir K} {d : Nat → Fin n → K} {δ : Nat → DirErr K}
    (h : ∀ i, DirNear q (s i) (d i) (δ i)) :
    ∃ s', ops.foldlM (DirOp.run m grad jac hp eps) s = some s' ∧
      ∀ i, DirNear q (s' i) (ops.foldl (DirOp.steps n) d i) (ops.foldl (DirOp.errs eps) δ i) := by
  induction ops generalizing s d δ with
  | nil => exact ⟨s, rfl, h⟩
  | cons op ops ih =>
    obtain ⟨s1, a1, a2⟩ := dirOp_near hq heps op (hops op List.mem_cons_self) h
    obtain ⟨s2, b1, b2⟩ := ih (fun o ho => hops o (List.mem_cons_of_mem _ ho)) a2
    refine ⟨s2, ?_, b2⟩
    rw [List.foldlM_cons, a1]
    exact b1

theorem errs_zero (ops : List (DirOp K)) {δ : Nat → DirErr K} (h : ∀ i, δ i = ⟨0, 0, 0, 0⟩) (i : Nat) : ops.foldl (DirOp.errs (0 : K)) δ i = ⟨0, 0, 0, 0⟩ := by
  induction ops generalizing δ with
  | nil => exact h i
  | cons op ops ih =>
    refine ih fun i => ?_
    cases op <;> simp only [DirOp.errs, putAt] <;> split <;> simp [h]

/-- C62, with tolerance zero: if every direction stands for its step before, this holds after any sequence of operations. -/
theorem C62_sequence_exact {q : LocalModel n m K} {grad : Vec K} {jac : Mat K} {hp : Vec K → Vec K → Option (Vec K)} (hq : ResetFor q grad jac hp)
    (ops : List (DirOp K)) (hops : ∀ op ∈ ops, op.Ok n) {s : Nat → Dir K} {d : Nat → Fin n → K} (h : ∀ i, DirFor q (s i) (d i)) :
    ∃ s', ops.foldlM (DirOp.run m grad jac hp 0) s = some s' ∧ ∀ i, DirFor q (s' i) (ops.foldl (DirOp.steps n) d i) := by
  obtain ⟨s', a, b⟩ := C62_sequence hq le_rfl ops hops (s := s) (d := d) (δ := fun _ => ⟨0, 0, 0, 0⟩) fun i =>
    ⟨(h i).okP, (h i).okC, (h i).okH, fun j => by rw [(h i).primal, sub_self, abs_zero], by rw [(h i).grad, sub_self, abs_zero],
      fun j => by rw [(h i).jac, sub_self, abs_zero], fun j => by rw [(h i).hess, sub_self, abs_zero]⟩
  refine ⟨s', a, fun i => dirNear_exact ?_⟩
  have := b i
  rwa [errs_zero ops (fun _ => rfl)] at this

/-! ### C63 -/

/-- C63, for any drop tolerance: the linear merit value is that of the step up to the error of the gradient product and the penalty parameter times the number of
constraints times the tolerance and the error of the Jacobian product. -/
theorem C63_linear_near {q : LocalModel n m K} {e : MeritEnv K} (he : EnvNear q e) (hpen : 0 ≤ q.penalty) {D : Dir K} {d : Fin n → K} {δ : DirErr K}
    (h : DirNear q D d δ) : ∃ v, e.linear D = some v ∧ |v - q.lin d| ≤ δ.g + q.penalty * (m * (δ.c + e.zeroEps)) := by
  have hd := he.data
  have hc : VOk m e.cons := hd.okC
  obtain ⟨c, c1, c2, c3⟩ := addScaled_near (r0 := e.work) (1 : K) 1 he.eps h.okC hc
  have hcv : dense m e.cons = q.c := hd.c
  have htot : totalViolation e.numCons c e.consLb e.consUb = some (∑ i, viol (dense m c i) (q.lb i) (q.ub i)) := total_dense hd c2
  have hnear := total_near (q := q) (c := dense m c) (c' := fun i => q.c i + (q.J *ᵥ d) i) (δ := δ.c + e.zeroEps) fun i => by
    have := comb_near (δ := δ.c) (δ' := 0) (c3 i) (h.jac i) (y' := q.c i) (by rw [hcv, sub_self, abs_zero])
    simp only [abs_one, one_mul, mul_zero, add_zero] at this
    rwa [add_comm (q.c i)]
  refine ⟨e.objVal + D.objGrad + e.penalty * ∑ i, viol (dense m c i) (q.lb i) (q.ub i), ?_, ?_⟩
  · unfold MeritEnv.linear
    rw [c1, Option.bind_some, htot, Option.bind_some]
  · have hf : e.objVal = q.f := hd.f
    have hp : e.penalty = q.penalty := hd.pen
    unfold LocalModel.lin LocalModel.viol
    rw [hf, hp]
    have e1 : q.f + D.objGrad + q.penalty * ∑ i, viol (dense m c i) (q.lb i) (q.ub i) - (q.f + q.g ⬝ᵥ d + q.penalty * ∑ i, viol (q.c i + (q.J *ᵥ d) i) (q.lb i) (q.ub i)) =
        (D.objGrad - q.g ⬝ᵥ d) + q.penalty * (∑ i, viol (dense m c i) (q.lb i) (q.ub i) - ∑ i, viol (q.c i + (q.J *ᵥ d) i) (q.lb i) (q.ub i)) := by ring
    rw [e1]
    refine (abs_add_le _ _).trans (add_le_add h.grad ?_)
    rw [abs_mul, abs_of_nonneg hpen]
    exact mul_le_mul_of_nonneg_left hnear hpen

/-- the error of a product of two vectors known up to errors -/
theorem dot_near {a b a' b' : Fin n → K} {δ δ' : K} (ha : ∀ i, |a i - a' i| ≤ δ) (hb : ∀ i, |b i - b' i| ≤ δ') :
    |a ⬝ᵥ b - a' ⬝ᵥ b'| ≤ ∑ i, (|a' i| * δ' + δ * |b' i| + δ * δ') := by
  unfold dotProduct
  rw [← Finset.sum_sub_distrib]
  refine (Finset.abs_sum_le_sum_abs _ _).trans (Finset.sum_le_sum fun i _ => ?_)
  have h0 : 0 ≤ δ := le_trans (abs_nonneg _) (ha i)
  have e1 : a i * b i - a' i * b' i = a' i * (b i - b' i) + (a i - a' i) * b' i + (a i - a' i) * (b i - b' i) := by ring
  rw [e1]
  refine (abs_add_le _ _).trans (add_le_add ((abs_add_le _ _).trans (add_le_add ?_ ?_)) ?_)
  · rw [abs_mul]; exact mul_le_mul_of_nonneg_left (hb i) (abs_nonneg _)
  · rw [abs_mul]; exact mul_le_mul_of_nonneg_right (ha i) (abs_nonneg _)
  · rw [abs_mul]; exact mul_le_mul (ha i) (hb i) (abs_nonneg _) h0

/-- C63, for any drop tolerance: the quadratic merit value is that of the step up to the error of the linear one and half the error of the product of step and Hessian
product. -/
theorem C63_quadratic_near {q : LocalModel n m K} {e : MeritEnv K} (he : EnvNear q e) (hpen : 0 ≤ q.penalty) {D : Dir K} {d : Fin n → K} {δ : DirErr K}
    (h : DirNear q D d δ) : ∃ v, e.quadratic D = some v ∧
      |v - q.quad d| ≤ δ.g + q.penalty * (m * (δ.c + e.zeroEps)) + 1 / 2 * ∑ i, (|d i| * δ.h + δ.p * |(q.H *ᵥ d) i| + δ.p * δ.h) := by
  obtain ⟨l, l1, l2⟩ := C63_linear_near he hpen h
  have hdot := dot_near h.primal h.hess
  refine ⟨l + 1 / 2 * (dense n D.primal ⬝ᵥ dense n D.hess), ?_, ?_⟩
  · unfold MeritEnv.quadratic
    rw [l1, Option.bind_some, dot_dense h.okP h.okH]
    rfl
  · unfold LocalModel.quad
    have e1 : l + 1 / 2 * (dense n D.primal ⬝ᵥ dense n D.hess) - (q.lin d + 1 / 2 * (d ⬝ᵥ q.H *ᵥ d)) =
        (l - q.lin d) + 1 / 2 * (dense n D.primal ⬝ᵥ dense n D.hess - d ⬝ᵥ q.H *ᵥ d) := by ring
    rw [e1]
    refine (abs_add_le _ _).trans (add_le_add l2 ?_)
    rw [abs_mul, abs_of_nonneg (by positivity : (0 : K) ≤ 1 / 2)]
    exact mul_le_mul_of_nonneg_left hdot (by positivity)

/-! ### a sample: the model and direction of `Direction.lean`, tolerance 1/2, Jacobian product 9/4 instead of 2 -/

/-- sample environment -/
def exNearEnv : MeritEnv ℚ := { exMeritEnv with zeroEps := 1 / 2 }
/-- sample direction -/
def exNearDir : Dir ℚ := { exDir with consJac := ⟨1, 1, [(0, 9 / 4)]⟩ }

theorem exNearEnvFor : EnvNear exModel exNearEnv := ⟨exEnvFor, by norm_num [exNearEnv]⟩

theorem exNearFor : DirNear exModel exNearDir ![1] ⟨0, 0, 1 / 2, 0⟩ :=
  ⟨exVok 1, exVok _, exVok 2, by decide +kernel, by decide +kernel, by decide +kernel, by decide +kernel⟩

example : exModel.quad ![1] = 13 ∧ exNearEnv.quadratic exNearDir = some (31 / 2) ∧ ∃ v, exNearEnv.quadratic exNearDir = some v ∧ |v - 13| ≤ 10 := by
  refine ⟨by decide +kernel, by decide +kernel, ?_⟩
  obtain ⟨v, h1, h2⟩ := C63_quadratic_near exNearEnvFor (by decide +kernel) exNearFor
  refine ⟨v, h1, ?_⟩
  rw [show exModel.quad ![1] = 13 by decide +kernel] at h2
  refine h2.trans ?_
  decide +kernel

/-- sample Jacobian -/
def exNearJac : Mat ℚ := ⟨1, 1, 1, 1, fun k => if k = 0 then 0 else 1, fun _ => 0, fun _ => 2⟩
/-- sample Hessian products -/
def exNearHp (d _h : Vec ℚ) : Option (Vec ℚ) := some (d.scale 2)

theorem exNearJac_wf : exNearJac.WF := by
  refine ⟨rfl, fun j _ => ?_, rfl, le_rfl, fun j hj => ?_, fun j hj => ?_⟩
  · by_cases h : j = 0 <;> simp [exNearJac, h]
  · obtain rfl : j = 0 := Nat.lt_one_iff.mp hj
    rw [show exNearJac.col 0 = [(0, 2)] from rfl]; simp [Srt]
  · obtain rfl : j = 0 := Nat.lt_one_iff.mp hj
    rw [show exNearJac.col 0 = [(0, 2)] from rfl]; simp [exNearJac]

theorem exNearJac_value (i j : Fin 1) : exNearJac.value i j = exModel.J i j := by
  obtain rfl : i = 0 := Subsingleton.elim _ _
  obtain rfl : j = 0 := Subsingleton.elim _ _
  unfold Mat.value
  rw [show exNearJac.col ((0 : Fin 1) : Nat) = [(0, 2)] from rfl]
  simp [valAt, at?, exModel]

theorem exNearReset : ResetFor exModel ⟨1, 1, [(0, -1)]⟩ exNearJac exNearHp :=
  ⟨exVok _, by decide +kernel, exNearJac_wf, rfl, exNearJac_value, fun v _ hv _ => ⟨_, rfl, (scale_dense hv 2).1, by
    rw [(scale_dense hv 2).2]
    funext i
    obtain rfl : i = 0 := Subsingleton.elim _ _
    simp [exModel, mulVec, dotProduct]⟩⟩

theorem exNearZero : DirNear exModel exDir ![1] ⟨0, 0, 0, 0⟩ :=
  ⟨exVok 1, exVok 2, exVok 2, by decide +kernel, by decide +kernel, by decide +kernel, by decide +kernel⟩

/-- the step 1/10 is stored in direction 0, halved, and added to a copy of it: its Jacobian products are dropped -/
def exNearOps : List (DirOp ℚ) := [.reset 0 ⟨1, 1, [(0, 1 / 10)]⟩, .copy 0 1, .scale 0 (1 / 2), .combine 0 1 1 1 2]

example : ∃ s', exNearOps.foldlM (DirOp.run 1 ⟨1, 1, [(0, -1)]⟩ exNearJac exNearHp (1 / 4)) (fun _ => exDir) = some s' ∧ (s' 2).consJac.ents = [] ∧
    DirNear exModel (s' 2) ![3 / 20] ⟨1 / 4, 0, 5 / 8, 1 / 4⟩ := by
  have h0 : ∀ i : Nat, DirNear exModel ((fun _ => exDir) i) ((fun _ => ![1]) i) ((fun _ => ⟨0, 0, 0, 0⟩) i) := fun _ => exNearZero
  obtain ⟨s', h1, h2⟩ := C62_sequence exNearReset (eps := 1 / 4) (by norm_num) exNearOps (by
    intro op h
    simp only [exNearOps, List.mem_cons, List.not_mem_nil, or_false] at h
    rcases h with rfl | rfl | rfl | rfl
    · exact exVok _
    · trivial
    · trivial
    · exact ⟨by decide, by decide⟩) h0
  refine ⟨s', h1, ?_, ?_⟩
  · have h3 : (exNearOps.foldlM (DirOp.run 1 ⟨1, 1, [(0, -1)]⟩ exNearJac exNearHp (1 / 4)) (fun _ => exDir)).map (fun s => (s 2).consJac.ents) = some [] := by
      decide +kernel
    rw [h1] at h3
    exact Option.some.inj h3
  · have h3 := h2 2
    have e1 : exNearOps.foldl (DirOp.steps 1) (fun _ => ![1]) 2 = ![3 / 20] := by decide +kernel
    have e2 : exNearOps.foldl (DirOp.errs (1 / 4)) (fun _ => ⟨0, 0, 0, 0⟩) 2 = ⟨1 / 4, 0, 5 / 8, 1 / 4⟩ := by
      simp [exNearOps, DirOp.errs, putAt]; norm_num
    rwa [e1, e2] at h3

end Sleqp
