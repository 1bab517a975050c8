import Verif.Spec.Direction
import Verif.Props.Feas
import Verif.Props.Mat
import Verif.Lemmas.QnVec
import Mathlib.Tactic.Ring
import Mathlib.Tactic.FieldSimp

/-!
C62 (the parts of a direction belong together) and C63 (merit functions).
-/

namespace Sleqp
variable {K : Type*} [Field K] [LinearOrder K] [IsStrictOrderedRing K]
variable {n m : Nat}
open Matrix

/-! ### lemmas -/

omit [IsStrictOrderedRing K] in
theorem clear_vok {v : Vec K} (h : VOk n v) : VOk n v.clear ∧ dense n v.clear = 0 :=
  ⟨⟨⟨by simp [Vec.clear, Srt], by simp [Vec.clear], by simp [Vec.clear]⟩, h.2⟩, by funext i; rfl⟩

theorem total_dense {q : LocalModel n m K} {e : MeritEnv K} (he : EnvFor q e) {c : Vec K} (hc : VOk m c) :
    totalViolation e.numCons c e.consLb e.consUb = some (∑ i, viol (dense m c i) (q.lb i) (q.ub i)) := by
  have hb : Boxed m c e.consLb e.consUb := ⟨hc.1, he.okL.1, he.okU.1, hc.2, he.okL.2, he.okU.2, fun i hi => by
    have := he.le ⟨i, hi⟩
    rw [← he.lb, ← he.ub] at this
    exact this⟩
  rw [he.num, C12_total_violation hb, Finset.sum_range, ← he.lb, ← he.ub]
  rfl

/-! ### C62 -/

/-- the Hessian product passed to `reset` is multiplication by `H` -/
def HessFor (q : LocalModel n m K) (hp : Vec K → Vec K → Option (Vec K)) : Prop :=
  ∀ d r : Vec K, VOk n d → VOk n r → ∃ h, hp d r = some h ∧ VOk n h ∧ dense n h = q.H *ᵥ dense n d

/-- C62: resetting a direction (with cut-off zero) computes gradient product, Jacobian product and Hessian product of its step. -/
theorem C62_reset (q : LocalModel n m K) (D : Dir K) (grad : Vec K) (jac : Mat K) (hp : Vec K → Vec K → Option (Vec K))
    (hP : VOk n D.primal) (hC : VOk m D.consJac) (hH : VOk n D.hess) (hg : VOk n grad) (hgq : dense n grad = q.g)
    (hj : jac.WF) (hjc : jac.numCols = n) (hjq : ∀ i j, jac.value (i : Fin m).val (j : Fin n).val = q.J i j) (hh : HessFor q hp) :
    ∃ D', D.reset m grad jac hp 0 = some D' ∧ DirFor q D' (dense n D.primal) := by
  obtain ⟨h, h1, h2, h3⟩ := hh D.primal D.hess hP hH
  obtain ⟨res, r1, r2⟩ := C08_mult_vec jac D.primal hj hP.1 (by rw [hjc, hP.2])
  have hcj : ∃ cj, (if 0 < m then (jac.multVec D.primal).bind fun res => D.consJac.setFromRaw 0 ((List.range m).map res)
      else some D.consJac.clear) = some cj ∧ VOk m cj ∧ dense m cj = q.J *ᵥ dense n D.primal := by
    by_cases hm : 0 < m
    · rw [if_pos hm, r1]
      obtain ⟨w, w1, w2, w3, w4⟩ := setFromRaw_spec 0 D.consJac ((List.range m).map res)
      refine ⟨w, w1, ⟨w2, by rw [w3]; simp⟩, ?_⟩
      funext i
      show w.value i = _
      have hi := i.isLt
      rw [w4 i]
      simp only [List.getElem?_map, List.getElem?_range hi, Option.map_some]
      have hr : res i = (q.J *ᵥ dense n D.primal) i := by
        rw [r2 i, hjc, Finset.sum_range]
        exact Finset.sum_congr rfl fun j _ => by rw [hjq i j]; rfl
      rw [hr]
      split
      · rename_i h0
        exact (abs_nonpos_iff.1 h0).symm
      · rfl
    · rw [if_neg hm]
      obtain rfl : m = 0 := by omega
      exact ⟨_, rfl, (clear_vok hC).1, funext fun i => i.elim0⟩
  obtain ⟨cj, c1, c2, c3⟩ := hcj
  refine ⟨⟨D.primal, dense n D.primal ⬝ᵥ dense n grad, cj, h⟩, ?_, ⟨hP, c2, h2, rfl, ?_, c3, h3⟩⟩
  · unfold Dir.reset
    rw [dot_dense hP hg]
    show (_ : Option (Vec K)).bind _ = _
    rw [c1]
    show (hp D.primal D.hess).bind _ = _
    rw [h1]
    rfl
  · show dense n D.primal ⬝ᵥ dense n grad = _
    rw [hgq, dotProduct_comm]

/-- C62: scaling a direction scales the step it stands for. -/
theorem C62_scale {q : LocalModel n m K} {D : Dir K} {d : Fin n → K} (h : DirFor q D d) (f : K) : DirFor q (D.scale f) (f • d) := by
  obtain ⟨p1, p2⟩ := scale_dense h.okP f
  obtain ⟨c1, c2⟩ := scale_dense h.okC f
  obtain ⟨h1, h2⟩ := scale_dense h.okH f
  exact ⟨p1, c1, h1, by rw [← h.primal]; exact p2, by show D.objGrad * f = _; rw [h.grad, dotProduct_smul, smul_eq_mul, mul_comm],
    by rw [mulVec_smul, ← h.jac]; exact c2, by rw [mulVec_smul, ← h.hess]; exact h2⟩

omit [IsStrictOrderedRing K] in
/-- C62: setting a direction to zero makes it stand for the zero step. -/
theorem C62_zero {q : LocalModel n m K} {D : Dir K} {d : Fin n → K} (h : DirFor q D d) : DirFor q D.setZero 0 := by
  obtain ⟨p1, p2⟩ := clear_vok h.okP
  obtain ⟨c1, c2⟩ := clear_vok h.okC
  obtain ⟨h1, h2⟩ := clear_vok h.okH
  exact ⟨p1, c1, h1, p2, by rw [dotProduct_zero]; rfl, by rw [mulVec_zero]; exact c2, by rw [mulVec_zero]; exact h2⟩

/-- C62: a combination of directions (with cut-off zero) stands for the combination of the steps. -/
theorem C62_add_scaled {q : LocalModel n m K} {D E R : Dir K} {d e : Fin n → K} (h : DirFor q D d) (h' : DirFor q E e) (a b : K) :
    ∃ D', D.addScaled E a b 0 R = some D' ∧ DirFor q D' (a • d + b • e) := by
  obtain ⟨p, p1, p2, p3⟩ := addScaled_dense (r0 := R.primal) a b h.okP h'.okP
  obtain ⟨c, c1, c2, c3⟩ := addScaled_dense (r0 := R.consJac) a b h.okC h'.okC
  obtain ⟨s, s1, s2, s3⟩ := addScaled_dense (r0 := R.hess) a b h.okH h'.okH
  refine ⟨⟨p, a * D.objGrad + b * E.objGrad, c, s⟩, ?_, ⟨p2, c2, s2, ?_, ?_, ?_, ?_⟩⟩
  · unfold Dir.addScaled
    rw [p1, Option.bind_some, c1, Option.bind_some, s1]
    rfl
  · show dense n p = _
    rw [p3, h.primal, h'.primal]
  · show a * D.objGrad + b * E.objGrad = _
    rw [h.grad, h'.grad, dotProduct_add, dotProduct_smul, dotProduct_smul, smul_eq_mul, smul_eq_mul]
  · show dense m c = _
    rw [c3, h.jac, h'.jac, mulVec_add, mulVec_smul, mulVec_smul]
  · show dense n s = _
    rw [s3, h.hess, h'.hess, mulVec_add, mulVec_smul, mulVec_smul]

omit [IsStrictOrderedRing K] in
/-- C62: a copy of a direction stands for the same step. -/
theorem C62_copy {q : LocalModel n m K} {D T : Dir K} {d : Fin n → K} (h : DirFor q D d) (tp : T.primal.dim = n)
    (tc : T.consJac.dim = m) (th : T.hess.dim = n) : ∃ D', D.copy T = some D' ∧ DirFor q D' d := by
  obtain ⟨p, p1, p2, p3⟩ := copy_spec h.okP tp
  obtain ⟨c, c1, c2, c3⟩ := copy_spec h.okC tc
  obtain ⟨s, s1, s2, s3⟩ := copy_spec h.okH th
  refine ⟨⟨p, D.objGrad, c, s⟩, ?_, ⟨p2, c2, s2, ?_, h.grad, ?_, ?_⟩⟩
  · unfold Dir.copy
    rw [p1, Option.bind_some, c1, Option.bind_some, s1]
    rfl
  · rw [← h.primal]; exact dense_of_ents p3
  · rw [← h.jac]; exact dense_of_ents c3
  · rw [← h.hess]; exact dense_of_ents s3

/-! ### C63 -/

/-- C63: the value of the penalty function is the value of its model at the zero step. -/
theorem C63_func {q : LocalModel n m K} {e : MeritEnv K} (he : EnvFor q e) : e.func = some (q.quad 0) := by
  unfold MeritEnv.func
  rw [total_dense he he.okC]
  simp only [Option.bind_some, LocalModel.quad, LocalModel.lin, LocalModel.viol, mulVec_zero, dotProduct_zero, Pi.zero_apply,
    add_zero, mul_zero, he.f, he.pen, he.c]

/-- C63: the linear merit value of a direction is that of the step it stands for. -/
theorem C63_linear {q : LocalModel n m K} {e : MeritEnv K} (he : EnvFor q e) {D : Dir K} {d : Fin n → K} (h : DirFor q D d) :
    e.linear D = some (q.lin d) := by
  obtain ⟨c, c1, c2, c3⟩ := addScaled_dense (r0 := e.work) (1 : K) 1 h.okC he.okC
  unfold MeritEnv.linear
  rw [he.eps, c1, Option.bind_some, total_dense he c2, Option.bind_some]
  simp only [LocalModel.lin, LocalModel.viol, he.f, he.pen, h.grad, c3, h.jac, he.c, one_smul, Pi.add_apply, add_comm]

/-- C63: the quadratic merit value of a direction is that of the step it stands for. -/
theorem C63_quadratic {q : LocalModel n m K} {e : MeritEnv K} (he : EnvFor q e) {D : Dir K} {d : Fin n → K} (h : DirFor q D d) :
    e.quadratic D = some (q.quad d) := by
  unfold MeritEnv.quadratic
  rw [C63_linear he h, Option.bind_some, dot_dense h.okP h.okH, h.primal, h.hess]
  rfl

/-! ### a sample: one variable, one constraint `1 + 2 d ∈ [0, 2]`, model `3 - d + d²`, step `1` -/

/-- sample model -/
def exModel : LocalModel 1 1 ℚ := ⟨3, ![-1], ![1], fun _ _ => 2, fun _ _ => 2, ![0], ![2], 10⟩
/-- sample environment -/
def exMeritEnv : MeritEnv ℚ := ⟨1, 3, ⟨1, 1, [(0, 1)]⟩, ⟨1, 0, []⟩, ⟨1, 1, [(0, 2)]⟩, ⟨1, 0, []⟩, 0, 10⟩
/-- sample direction -/
def exDir : Dir ℚ := ⟨⟨1, 1, [(0, 1)]⟩, -1, ⟨1, 1, [(0, 2)]⟩, ⟨1, 1, [(0, 2)]⟩⟩

theorem exVok (x : ℚ) : VOk 1 (⟨1, 1, [(0, x)]⟩ : Vec ℚ) := ⟨⟨by simp [Srt], by simp, by simp⟩, rfl⟩
theorem exVok0 : VOk 1 (⟨1, 0, []⟩ : Vec ℚ) := ⟨⟨by simp [Srt], by simp, by simp⟩, rfl⟩

theorem exEnvFor : EnvFor exModel exMeritEnv :=
  ⟨rfl, rfl, exVok 1, exVok0, exVok 2, by decide +kernel, by decide +kernel, by decide +kernel, by decide +kernel, rfl, rfl⟩

theorem exDirFor : DirFor exModel exDir ![1] :=
  ⟨exVok 1, exVok 2, exVok 2, by decide +kernel, by decide +kernel, by decide +kernel, by decide +kernel⟩

example : exMeritEnv.quadratic exDir = some 13 := by
  rw [C63_quadratic exEnvFor exDirFor]; decide +kernel

example : exDir.objGrad ≠ 0 ∧ DirFor exModel (exDir.scale (1 / 2)) ((1 / 2 : ℚ) • ![1]) := ⟨by decide, C62_scale exDirFor _⟩

end Sleqp
