import Verif.Spec.Steihaug
import Verif.Props.Direction
import Mathlib.Tactic.Linarith
import Mathlib.Tactic.Positivity
import Mathlib.Tactic.LinearCombination

/-!
Lemmas about Steihaug's method.
-/

namespace Sleqp
variable {K : Type*} [Field K] [LinearOrder K] [IsStrictOrderedRing K]
variable {n : Nat}
open Matrix

/-! ### lemmas about vectors -/

omit [LinearOrder K] [IsStrictOrderedRing K] in
theorem sym_dot {A : Matrix (Fin n) (Fin n) K} (h : Aᵀ = A) (x y : Fin n → K) : x ⬝ᵥ A *ᵥ y = (A *ᵥ x) ⬝ᵥ y := by
  rw [dotProduct_mulVec, ← mulVec_transpose, h]

theorem dot_self_nonneg (x : Fin n → K) : 0 ≤ x ⬝ᵥ x := Finset.sum_nonneg fun i _ => mul_self_nonneg (x i)

theorem dot_self_zero {x : Fin n → K} (h : x ⬝ᵥ x = 0) : x = 0 := by
  funext i
  have := (Finset.sum_eq_zero_iff_of_nonneg fun i _ => mul_self_nonneg (x i)).1 h i (Finset.mem_univ i)
  exact mul_self_eq_zero.1 this

omit [LinearOrder K] [IsStrictOrderedRing K] in
theorem dot_line (z d : Fin n → K) (t : K) :
    (z + t • d) ⬝ᵥ (z + t • d) = z ⬝ᵥ z + 2 * t * (z ⬝ᵥ d) + t * t * (d ⬝ᵥ d) := by
  rw [add_dotProduct, dotProduct_add, dotProduct_add, smul_dotProduct, smul_dotProduct, dotProduct_smul, dotProduct_smul,
    dotProduct_comm d z]
  simp only [smul_eq_mul]; ring

theorem val_line {q : TrProblem n K} (hq : q.Valid) (z d : Fin n → K) (t : K) :
    q.val (z + t • d) = q.val z + t * ((q.g + q.B *ᵥ z) ⬝ᵥ d) + 1 / 2 * (t * t * (d ⬝ᵥ q.B *ᵥ d)) := by
  have h := sym_dot hq.symm z d
  unfold TrProblem.val
  rw [mulVec_add, mulVec_smul, dotProduct_add, dotProduct_add, add_dotProduct, add_dotProduct, dotProduct_smul, dotProduct_smul,
    dotProduct_smul, smul_dotProduct, smul_dotProduct, h, dotProduct_comm d (q.B *ᵥ z), add_dotProduct]
  simp only [smul_eq_mul]; ring

omit [LinearOrder K] [IsStrictOrderedRing K] in
theorem proj_dot {q : TrProblem n K} (hq : q.Valid) (x : Fin n → K) : x ⬝ᵥ q.P *ᵥ x = (q.P *ᵥ x) ⬝ᵥ (q.P *ᵥ x) := by
  rw [← sym_dot hq.projSymm, mulVec_mulVec, hq.proj]

omit [LinearOrder K] [IsStrictOrderedRing K] in
theorem proj_proj {q : TrProblem n K} (hq : q.Valid) (x : Fin n → K) : q.P *ᵥ (q.P *ᵥ x) = q.P *ᵥ x := by
  rw [mulVec_mulVec, hq.proj]

/-- both intersections with the sphere lie on it; they enclose all points of the line inside of the sphere -/
theorem sphere_roots {zz zd dd rr root : K} (hd : 0 < dd) (hin : zz ≤ rr) (h0 : 0 ≤ root)
    (hr : root * root = zd * zd - dd * (zz - rr)) :
    (zz + 2 * (1 / dd * (-zd + root)) * zd + 1 / dd * (-zd + root) * (1 / dd * (-zd + root)) * dd = rr) ∧
    (zz + 2 * (1 / dd * (-zd - root)) * zd + 1 / dd * (-zd - root) * (1 / dd * (-zd - root)) * dd = rr) ∧
    0 ≤ 1 / dd * (-zd + root) ∧ 1 / dd * (-zd - root) ≤ 0 ∧
    ∀ t : K, zz + 2 * t * zd + t * t * dd ≤ rr → 1 / dd * (-zd - root) ≤ t ∧ t ≤ 1 / dd * (-zd + root) := by
  have hle : zd * zd ≤ root * root := by rw [hr]; nlinarith [mul_nonneg hd.le (sub_nonneg.2 hin)]
  have hab : |zd| ≤ root := abs_le_of_sq_le_sq (by rw [sq, sq]; exact hle) h0
  obtain ⟨l, u⟩ := abs_le.1 hab
  have hi : 0 < 1 / dd := one_div_pos.2 hd
  refine ⟨?_, ?_, mul_nonneg hi.le (by linarith), mul_nonpos_of_nonneg_of_nonpos hi.le (by linarith), ?_⟩
  · field_simp
    linear_combination hr
  · field_simp
    linear_combination hr
  · intro t ht
    have h2 : (t * dd + zd) * (t * dd + zd) ≤ root * root := by
      rw [hr]
      nlinarith [mul_le_mul_of_nonneg_left ht hd.le]
    have h3' : |t * dd + zd| ≤ root := abs_le_of_sq_le_sq (by rw [sq, sq]; exact h2) h0
    have h3 := abs_le.1 h3'
    constructor
    · rw [one_div, inv_mul_le_iff₀ hd]; linarith [h3.1]
    · rw [one_div, le_inv_mul_iff₀ hd]; linarith [h3.2]

/-! ### the loop -/

/-- what holds for the local variables at the beginning of each pass -/
structure CgInv (q : TrProblem n K) (relTol radius : K) (s : CgState K) : Prop where
  okz : VOk n s.z
  okr : VOk n s.r
  okg : VOk n s.g
  okd : VOk n s.d
  r : dense n s.r = q.g + q.B *ᵥ dense n s.z
  g : dense n s.g = q.P *ᵥ dense n s.r
  rg : s.rg = dense n s.r ⬝ᵥ dense n s.g
  pz : q.P *ᵥ dense n s.z = dense n s.z
  pd : q.P *ᵥ dense n s.d = dense n s.d
  rd : dense n s.r ⬝ᵥ dense n s.d = -s.rg
  zz : s.zz = dense n s.z ⬝ᵥ dense n s.z
  inside : dense n s.z ⬝ᵥ dense n s.z ≤ radius * radius
  dec : q.val (dense n s.z) ≤ 0
  cau : (dense n s.z = 0 ∧ dense n s.d = -(q.P *ᵥ q.g) ∧ relTol * relTol ≤ s.rg) ∨
    ∀ t : K, q.val (dense n s.z) ≤ q.val (t • (-(q.P *ᵥ q.g)))

/-- `p` is a best point on the line through `z` along `d` within the ball -/
def LineBest (q : TrProblem n K) (radius : K) (z d p : Fin n → K) : Prop :=
  ∀ t : K, (z + t • d) ⬝ᵥ (z + t • d) ≤ radius * radius → q.val p ≤ q.val (z + t • d)

theorem rg_nonneg {q : TrProblem n K} (hq : q.Valid) {tol radius : K} {s : CgState K} (h : CgInv q tol radius s) : 0 ≤ s.rg := by
  rw [h.rg, h.g, proj_dot hq]; exact dot_self_nonneg _

theorem TrFor.root {q : TrProblem n K} {e : TrEnv K} {grad : Vec K} (he : TrFor q e grad) {zz zd dd rr : K} (hd : 0 < dd)
    (hin : zz ≤ rr) : 0 ≤ zd * zd - dd * (zz - rr) ∧ 0 ≤ e.sqrt (zd * zd - dd * (zz - rr)) ∧
      e.sqrt (zd * zd - dd * (zz - rr)) * e.sqrt (zd * zd - dd * (zz - rr)) = zd * zd - dd * (zz - rr) := by
  have : 0 ≤ zd * zd - dd * (zz - rr) := by nlinarith [mul_self_nonneg zd, mul_nonneg hd.le (sub_nonneg.2 hin)]
  exact ⟨this, he.sqrt _ this⟩

/-- the step in the case of negative curvature -/
theorem negCurv_spec {q : TrProblem n K} (hq : q.Valid) {e : TrEnv K} {grad newton : Vec K} (he : TrFor q e grad) {tol radius : K}
    {s : CgState K} (hs : CgInv q tol radius s) {Bd : Vec K} (hB : VOk n Bd) (hBq : dense n Bd = q.B *ᵥ dense n s.d) {dBd : K}
    (hdBd : dBd = dense n s.d ⬝ᵥ q.B *ᵥ dense n s.d) (hneg : dBd ≤ 0) (hd : 0 < dense n s.d ⬝ᵥ dense n s.d) :
    ∃ p, negCurvStep e grad newton radius dBd s Bd = some p ∧ VOk n p ∧ dense n p ⬝ᵥ dense n p = radius * radius ∧
      q.P *ᵥ dense n p = dense n p ∧ LineBest q radius (dense n s.z) (dense n s.d) (dense n p) := by
  obtain ⟨-, r0, r1⟩ := he.root (zd := dense n s.z ⬝ᵥ dense n s.d) hd hs.inside
  obtain ⟨f1, f2, f3, f4, f5⟩ := sphere_roots hd hs.inside r0 r1
  unfold negCurvStep
  rw [dot_dense hs.okz hs.okd, Option.bind_some, dot_dense he.gradOk hs.okd, Option.bind_some, dot_dense hs.okz hB, Option.bind_some,
    normSq_dense hs.okd, if_pos hd, hs.zz, he.zeroEps]
  generalize e.sqrt _ = root at r0 r1 f1 f2 f3 f4 f5 ⊢
  obtain ⟨tau, htau⟩ : ∃ t, t = negCurvTau root (dense n s.d ⬝ᵥ dense n s.d) (dense n s.z ⬝ᵥ dense n s.d)
    (dense n grad ⬝ᵥ dense n s.d) (dense n s.z ⬝ᵥ dense n Bd) dBd := ⟨_, rfl⟩
  rw [← htau]
  obtain ⟨p, p1, p2, p3⟩ := addScaled_dense (r0 := newton) (1 : K) tau hs.okz hs.okd
  refine ⟨p, p1, p2, ?_⟩
  rw [one_smul] at p3
  have hobj : ∀ t : K, tauObj (dense n grad ⬝ᵥ dense n s.d) (dense n s.z ⬝ᵥ dense n Bd) dBd t =
      q.val (dense n s.z + t • dense n s.d) - q.val (dense n s.z) := by
    intro t
    unfold tauObj
    rw [val_line hq, hBq, sym_dot hq.symm, add_dotProduct, he.gradQ, hdBd]
    ring
  have htau' : (tau = 1 / (dense n s.d ⬝ᵥ dense n s.d) * (-(dense n s.z ⬝ᵥ dense n s.d) - root) ∨
      tau = 1 / (dense n s.d ⬝ᵥ dense n s.d) * (-(dense n s.z ⬝ᵥ dense n s.d) + root)) ∧
      q.val (dense n s.z + tau • dense n s.d) ≤
        q.val (dense n s.z + (1 / (dense n s.d ⬝ᵥ dense n s.d) * (-(dense n s.z ⬝ᵥ dense n s.d) - root)) • dense n s.d) ∧
      q.val (dense n s.z + tau • dense n s.d) ≤
        q.val (dense n s.z + (1 / (dense n s.d ⬝ᵥ dense n s.d) * (-(dense n s.z ⬝ᵥ dense n s.d) + root)) • dense n s.d) := by
    unfold negCurvTau at htau
    rw [hobj, hobj] at htau
    split at htau
    · rename_i h
      exact ⟨Or.inl htau, by rw [htau], by rw [htau]; linarith⟩
    · rename_i h
      exact ⟨Or.inr htau, by rw [htau]; linarith, by rw [htau]⟩
  obtain ⟨c1, c2, c3⟩ := htau'
  refine ⟨?_, ?_, ?_⟩
  · rw [p3, dot_line]
    rcases c1 with c | c <;> rw [c]
    · exact f2
    · exact f1
  · rw [p3, mulVec_add, mulVec_smul, hs.pz, hs.pd]
  · intro t ht
    rw [p3]
    rw [dot_line] at ht
    obtain ⟨g1, g2⟩ := f5 t ht
    generalize 1 / (dense n s.d ⬝ᵥ dense n s.d) * (-(dense n s.z ⬝ᵥ dense n s.d) - root) = a at *
    generalize 1 / (dense n s.d ⬝ᵥ dense n s.d) * (-(dense n s.z ⬝ᵥ dense n s.d) + root) = b at *
    rw [val_line hq, ← hdBd] at c2 c3
    rw [val_line hq _ _ t, ← hdBd]
    rw [val_line hq _ _ b, ← hdBd] at c3
    rw [val_line hq _ _ a, ← hdBd] at c2
    rw [val_line hq _ _ tau, ← hdBd]
    -- concavity between `a` and `b`
    generalize (q.g + q.B *ᵥ dense n s.z) ⬝ᵥ dense n s.d = l at *
    generalize hv : tau * l + 1 / 2 * (tau * tau * dBd) = v
    have d2 : v ≤ a * l + 1 / 2 * (a * a * dBd) := by linarith
    have d3 : v ≤ b * l + 1 / 2 * (b * b * dBd) := by linarith
    have : v ≤ t * l + 1 / 2 * (t * t * dBd) := by
      rcases eq_or_lt_of_le (g1.trans g2) with hab | hab
      · have : t = a := le_antisymm (by rw [hab]; exact g2) g1
        rw [this]; exact d2
      · have e1 := mul_le_mul_of_nonneg_left d2 (sub_nonneg.2 g2)
        have e2 := mul_le_mul_of_nonneg_left d3 (sub_nonneg.2 g1)
        have e3 : 0 ≤ (t - a) * (b - t) * (-dBd) * (b - a) :=
          mul_nonneg (mul_nonneg (mul_nonneg (sub_nonneg.2 g1) (sub_nonneg.2 g2)) (by linarith)) (by linarith)
        have e4 : 0 < b - a := by linarith
        refine le_of_mul_le_mul_left ?_ e4
        nlinarith
    linarith

/-- the step to the boundary -/
theorem bdry_spec {q : TrProblem n K} (hq : q.Valid) {e : TrEnv K} {grad newton : Vec K} (he : TrFor q e grad) {tol radius : K}
    {s : CgState K} (hs : CgInv q tol radius s) {alpha dBd : K} (hdBd : dBd = dense n s.d ⬝ᵥ q.B *ᵥ dense n s.d) (hpos : 0 < dBd)
    (hrg : 0 < s.rg) (ha : alpha * dBd = s.rg) (hd : 0 < dense n s.d ⬝ᵥ dense n s.d)
    (hout : radius * radius ≤ (dense n s.z + alpha • dense n s.d) ⬝ᵥ (dense n s.z + alpha • dense n s.d)) :
    ∃ p, bdrySol e.sqrt e.zeroEps radius s.z s.d newton = some p ∧ VOk n p ∧ dense n p ⬝ᵥ dense n p = radius * radius ∧
      q.P *ᵥ dense n p = dense n p ∧ LineBest q radius (dense n s.z) (dense n s.d) (dense n p) := by
  obtain ⟨r2, r0, r1⟩ := he.root (zd := dense n s.z ⬝ᵥ dense n s.d) hd hs.inside
  obtain ⟨f1, -, f3, -, f5⟩ := sphere_roots hd hs.inside r0 r1
  unfold bdrySol
  rw [dot_dense hs.okz hs.okd, Option.bind_some, normSq_dense hs.okd, normSq_dense hs.okz, if_pos ⟨hd, r2⟩, he.zeroEps]
  generalize e.sqrt _ = root at r0 r1 f1 f3 f5 ⊢
  obtain ⟨tau, htau⟩ : ∃ t, t = 1 / (dense n s.d ⬝ᵥ dense n s.d) * (-(dense n s.z ⬝ᵥ dense n s.d) + root) := ⟨_, rfl⟩
  rw [← htau] at f1 f3 f5 ⊢
  obtain ⟨p, p1, p2, p3⟩ := addScaled_dense (r0 := newton) (1 : K) tau hs.okz hs.okd
  rw [one_smul] at p3
  have hapos : 0 < alpha := by
    by_contra h
    exact absurd (mul_nonpos_of_nonpos_of_nonneg (not_lt.1 h) hpos.le) (by rw [ha]; exact not_le.2 hrg)
  have hta : tau ≤ alpha := by
    by_contra h
    have h := not_le.1 h
    rw [dot_line] at hout
    have k1 : (tau - alpha) * (2 * (dense n s.z ⬝ᵥ dense n s.d) + (tau + alpha) * (dense n s.d ⬝ᵥ dense n s.d)) ≤ 0 := by
      nlinarith
    have k2 : 0 ≤ tau * (2 * (dense n s.z ⬝ᵥ dense n s.d) + tau * (dense n s.d ⬝ᵥ dense n s.d)) := by
      nlinarith [hs.inside]
    have k3 := nonpos_of_mul_nonpos_right k1 (by linarith)
    have k4 := nonneg_of_mul_nonneg_right k2 (hapos.trans h)
    nlinarith [mul_pos hapos hd]
  refine ⟨p, p1, p2, by rw [p3, dot_line]; exact f1, by rw [p3, mulVec_add, mulVec_smul, hs.pz, hs.pd], ?_⟩
  intro t ht
  rw [dot_line] at ht
  obtain ⟨-, g2⟩ := f5 t ht
  rw [p3, val_line hq _ _ t, val_line hq _ _ tau, ← hs.r, hs.rd, ← hdBd, ← ha]
  nlinarith [mul_nonneg (mul_nonneg (sub_nonneg.2 g2) (show 0 ≤ 2 * alpha - tau - t by linarith)) hpos.le]

/-- the dual variable of the trust region -/
theorem trDual_spec {q : TrProblem n K} {e : TrEnv K} {grad p : Vec K} (he : TrFor q e grad) (hp : VOk n p) {radius : K}
    (hr : 0 < radius) : ∃ u, trDual e grad p radius = some u ∧ 0 ≤ u ∧
      u * (radius * radius) = max 0 (-(dense n p ⬝ᵥ q.B *ᵥ dense n p + q.g ⬝ᵥ dense n p)) := by
  obtain ⟨h, h1, h2, h3⟩ := he.hp p e.work hp
  unfold trDual
  rw [h1, Option.bind_some, dot_dense hp h2, Option.bind_some, dot_dense hp he.gradOk, Option.bind_some, h3, he.gradQ,
    dotProduct_comm _ q.g]
  have hrr : 0 < radius * radius := mul_pos hr hr
  by_cases hlt : dense n p ⬝ᵥ q.B *ᵥ dense n p + q.g ⬝ᵥ dense n p < 0
  · rw [if_pos hlt, cdiv, if_neg hrr.ne']
    refine ⟨_, rfl, div_nonneg (by linarith) hrr.le, ?_⟩
    rw [div_mul_cancel₀ _ hrr.ne', max_eq_right (by linarith)]
  · rw [if_neg hlt]
    exact ⟨0, rfl, le_rfl, by rw [zero_mul, max_eq_left (by linarith)]⟩

/-- the next point and the updated vectors -/
theorem update_spec {q : TrProblem n K} (hq : q.Valid) {e : TrEnv K} {grad : Vec K} (he : TrFor q e grad) {tol radius : K}
    {s : CgState K} (hs : CgInv q tol radius s) {ray : Rayleigh K} {Bd z : Vec K} (hB : VOk n Bd)
    (hBq : dense n Bd = q.B *ᵥ dense n s.d) {alpha dBd : K} (hdBd : dBd = dense n s.d ⬝ᵥ q.B *ᵥ dense n s.d) (hpos : 0 < dBd)
    (hrg : 0 < s.rg) (ha : alpha * dBd = s.rg) (hz : VOk n z) (hzq : dense n z = dense n s.z + alpha • dense n s.d)
    (hin : dense n z ⬝ᵥ dense n z ≤ radius * radius) :
    ∃ s', cgUpdate e s ray z Bd alpha = some s' ∧ CgInv q tol radius s' ∧ s'.z = z ∧ s'.ray = ray ∧
      dense n s'.d = -dense n s'.g + (s'.rg / s.rg) • dense n s.d := by
  obtain ⟨r, r1, r2, r3⟩ := addScaled_dense (r0 := e.work) (1 : K) alpha hs.okr hB
  obtain ⟨g, g1, g2, g3⟩ := he.proj r e.work r2
  obtain ⟨d, d1, d2, d3⟩ := addScaled_dense (r0 := e.work) (-1 : K) (1 / s.rg * (dense n r ⬝ᵥ dense n g)) g2 hs.okd
  unfold cgUpdate
  rw [he.zeroEps, r1, Option.bind_some, g1, Option.bind_some, cdiv, if_neg hrg.ne', Option.bind_some, dot_dense r2 g2,
    Option.bind_some, d1, Option.bind_some]
  rw [one_smul] at r3
  have hr : dense n r = q.g + q.B *ᵥ dense n z := by
    rw [r3, hs.r, hBq, hzq, mulVec_add, mulVec_smul, add_assoc]
  have hrd : dense n r ⬝ᵥ dense n s.d = 0 := by
    rw [r3, add_dotProduct, smul_dotProduct, hs.rd, hBq, dotProduct_comm, ← hdBd, smul_eq_mul, ha]; ring
  have hval : ∀ t : K, q.val (dense n z) ≤ q.val (dense n s.z + t • dense n s.d) := by
    intro t
    rw [hzq, val_line hq, val_line hq, ← hs.r, hs.rd, ← hdBd, ← ha]
    nlinarith [mul_nonneg (mul_self_nonneg (alpha - t)) hpos.le]
  refine ⟨_, rfl, ⟨hz, r2, g2, d2, hr, g3, rfl, ?_, ?_, ?_, normSq_dense hz, hin, ?_, ?_⟩, rfl, rfl, ?_⟩
  · rw [hzq, mulVec_add, mulVec_smul, hs.pz, hs.pd]
  · show q.P *ᵥ dense n d = dense n d
    rw [d3, mulVec_add, mulVec_smul, mulVec_smul, hs.pd, g3, proj_proj hq]
  · show dense n r ⬝ᵥ dense n d = -(dense n r ⬝ᵥ dense n g)
    rw [d3, dotProduct_add, dotProduct_smul, dotProduct_smul, hrd]
    simp
  · have := hval 0
    rw [zero_smul, add_zero] at this
    exact this.trans hs.dec
  · right
    rcases hs.cau with ⟨c1, c2, -⟩ | c
    · intro t
      have := hval t
      rw [c1, c2, zero_add] at this
      exact this
    · intro t
      have := hval 0
      rw [zero_smul, add_zero] at this
      exact this.trans (c t)
  · show dense n d = -dense n g + _
    rw [d3, neg_one_smul, one_div_mul_eq_div]

/-- the pass `it` is cut short by the iteration limit or the time limit -/
def Cut (e : TrEnv K) (it : Nat) : Prop := (e.maxIter ≠ -1 ∧ e.maxIter ≤ it) ∨ e.timeUp it = true

/-- the Rayleigh quotients are 1 or attained in the null space -/
structure RayOk (q : TrProblem n K) (s : Rayleigh K) : Prop where
  lo : s.lo ≤ 1
  hi : 1 ≤ s.hi
  loAt : s.lo = 1 ∨ ∃ d, d ≠ 0 ∧ q.P *ᵥ d = d ∧ s.lo * (d ⬝ᵥ d) = d ⬝ᵥ q.B *ᵥ d
  hiAt : s.hi = 1 ∨ ∃ d, d ≠ 0 ∧ q.P *ᵥ d = d ∧ s.hi * (d ⬝ᵥ d) = d ⬝ᵥ q.B *ᵥ d

theorem ray_spec {q : TrProblem n K} {s : Rayleigh K} (hs : RayOk q s) {d Bd : Vec K} (hd : VOk n d) (hB : VOk n Bd)
    (hBq : dense n Bd = q.B *ᵥ dense n d) (hP : q.P *ᵥ dense n d = dense n d) :
    ∃ s', collectRayleigh s d Bd = some s' ∧ RayOk q s' ∧
      (dense n d ≠ 0 → s'.lo * (dense n d ⬝ᵥ dense n d) ≤ dense n d ⬝ᵥ q.B *ᵥ dense n d ∧
        dense n d ⬝ᵥ q.B *ᵥ dense n d ≤ s'.hi * (dense n d ⬝ᵥ dense n d)) := by
  unfold collectRayleigh
  rw [normSq_dense hd, dot_dense hd hB, hBq]
  by_cases h0 : dense n d ⬝ᵥ dense n d = 0
  · rw [if_pos h0]
    exact ⟨s, rfl, hs, fun h => absurd (dot_self_zero h0) h⟩
  · rw [if_neg h0]
    have hne : dense n d ≠ 0 := fun h => h0 (by rw [h, dotProduct_zero])
    have hpos : 0 < dense n d ⬝ᵥ dense n d := lt_of_le_of_ne (dot_self_nonneg _) (Ne.symm h0)
    refine ⟨_, rfl, ⟨(min_le_left _ _).trans hs.lo, hs.hi.trans (le_max_left _ _), ?_, ?_⟩, fun _ => ⟨?_, ?_⟩⟩
    · rcases min_choice s.lo ((dense n d ⬝ᵥ q.B *ᵥ dense n d) / (dense n d ⬝ᵥ dense n d)) with h | h
      · show min _ _ = 1 ∨ _
        simp only [h]; exact hs.loAt
      · right
        simp only [h]
        exact ⟨_, hne, hP, div_mul_cancel₀ _ h0⟩
    · rcases max_choice s.hi ((dense n d ⬝ᵥ q.B *ᵥ dense n d) / (dense n d ⬝ᵥ dense n d)) with h | h
      · show max _ _ = 1 ∨ _
        simp only [h]; exact hs.hiAt
      · right
        simp only [h]
        exact ⟨_, hne, hP, div_mul_cancel₀ _ h0⟩
    · rw [← le_div_iff₀ hpos]; exact min_le_right _ _
    · rw [← div_le_iff₀ hpos]; exact le_max_right _ _

/-- what a call achieves; `cut` tells whether it may have been cut short -/
structure TrOut (q : TrProblem n K) (tol radius : K) (cut : Prop) (res : TrResult K) : Prop where
  ok : VOk n res.step
  inside : dense n res.step ⬝ᵥ dense n res.step ≤ radius * radius
  null : q.P *ᵥ dense n res.step = dense n res.step
  dec : q.val (dense n res.step) ≤ 0
  ray : RayOk q res.ray
  dual : ∀ u ∈ res.dual, dense n res.step ⬝ᵥ dense n res.step = radius * radius ∧ 0 ≤ u ∧
    u * (radius * radius) = max 0 (-(dense n res.step ⬝ᵥ q.B *ᵥ dense n res.step + q.g ⬝ᵥ dense n res.step))
  exit : ¬ cut → res.timeout = false ∧ (dense n res.step ⬝ᵥ dense n res.step = radius * radius ∨
    (q.P *ᵥ (q.g + q.B *ᵥ dense n res.step)) ⬝ᵥ (q.P *ᵥ (q.g + q.B *ᵥ dense n res.step)) < tol * tol)
  cauchy : ¬ cut → ∀ t : K, (t • (-(q.P *ᵥ q.g))) ⬝ᵥ (t • (-(q.P *ᵥ q.g))) ≤ radius * radius →
    q.val (dense n res.step) ≤ q.val (t • (-(q.P *ᵥ q.g)))

/-- the state `s'` follows `s` -/
structure CgSucc (q : TrProblem n K) (s s' : CgState K) (alpha : K) : Prop where
  rg : 0 < s.rg
  pos : 0 < dense n s.d ⬝ᵥ q.B *ᵥ dense n s.d
  step : alpha * (dense n s.d ⬝ᵥ q.B *ᵥ dense n s.d) = s.rg
  z : dense n s'.z = dense n s.z + alpha • dense n s.d
  d : dense n s'.d = -dense n s'.g + (s'.rg / s.rg) • dense n s.d

/-- on leaving the loop along a line, the result is good -/
theorem out_of_line {q : TrProblem n K} {tol radius : K} {s : CgState K} (hs : CgInv q tol radius s) {res : TrResult K}
    (ok : VOk n res.step) (hb : dense n res.step ⬝ᵥ dense n res.step = radius * radius)
    (hn : q.P *ᵥ dense n res.step = dense n res.step) (hl : LineBest q radius (dense n s.z) (dense n s.d) (dense n res.step))
    (hray : RayOk q res.ray) (ht : res.timeout = false)
    (hu : ∀ u ∈ res.dual, 0 ≤ u ∧
      u * (radius * radius) = max 0 (-(dense n res.step ⬝ᵥ q.B *ᵥ dense n res.step + q.g ⬝ᵥ dense n res.step))) (cut : Prop) :
    TrOut q tol radius cut res := by
  have h0 : q.val (dense n res.step) ≤ q.val (dense n s.z) := by
    have := hl 0
    rw [zero_smul, add_zero] at this
    exact this hs.inside
  refine ⟨ok, hb.le, hn, h0.trans hs.dec, hray, fun u hu' => ⟨hb, hu u hu'⟩, fun _ => ⟨ht, Or.inl hb⟩, fun _ t ht => ?_⟩
  rcases hs.cau with ⟨c1, c2, -⟩ | c
  · have := hl t
    rw [c1, c2, zero_add] at this
    exact this ht
  · exact h0.trans (c t)

omit [IsStrictOrderedRing K] in
theorem zero_out {q : TrProblem n K} {tol radius : K} {res : TrResult K} {cut : Prop} (hc : cut) (ok : VOk n res.step)
    (h0 : dense n res.step = 0) (hray : RayOk q res.ray) (hd : res.dual = none) (hr : 0 ≤ radius * radius) :
    TrOut q tol radius cut res := by
  refine ⟨ok, by rw [h0, dotProduct_zero]; exact hr, by rw [h0, mulVec_zero], ?_, hray, fun u hu => by rw [hd] at hu; simp at hu,
    fun h => absurd hc h, fun h => absurd hc h⟩
  rw [h0]; simp [TrProblem.val]

theorem cgPass_spec {q : TrProblem n K} (hq : q.Valid) {e : TrEnv K} {grad newton : Vec K} (he : TrFor q e grad)
    (hn : VOk n newton) (hn0 : dense n newton = 0) {radius : K} (hr : 0 < radius) (htol : 0 < e.relTol) {s : CgState K}
    (hs : CgInv q e.relTol radius s) (hray : RayOk q s.ray) (it : Nat) :
    (∃ res, cgPass e grad newton radius it s = some (.done res) ∧ TrOut q e.relTol radius (Cut e it) res) ∨
    (∃ s' alpha, cgPass e grad newton radius it s = some (.go s') ∧ CgInv q e.relTol radius s' ∧ RayOk q s'.ray ∧
      CgSucc q s s' alpha ∧ ¬ Cut e it) := by
  unfold cgPass
  by_cases hm : e.maxIter ≠ -1 ∧ e.maxIter ≤ it
  · rw [if_pos hm]
    exact Or.inl ⟨_, rfl, zero_out (Or.inl hm) hn hn0 hray rfl (mul_pos hr hr).le⟩
  rw [if_neg hm]
  by_cases ht : e.timeUp it = true
  · rw [if_pos ht]
    exact Or.inl ⟨_, rfl, zero_out (Or.inr ht) hn hn0 hray rfl (mul_pos hr hr).le⟩
  rw [if_neg ht]
  have hcut : ¬ Cut e it := fun h => h.elim hm ht
  have hnn := rg_nonneg hq hs
  by_cases hsmall : |s.rg| < e.relTol * e.relTol
  · rw [if_pos hsmall]
    obtain ⟨p, p1, p2, p3⟩ := copy_spec hs.okz hn.2
    have hp : dense n p = dense n s.z := dense_of_ents p3
    rw [p1, Option.bind_some]
    refine Or.inl ⟨_, rfl, p2, by rw [hp]; exact hs.inside, by rw [hp]; exact hs.pz, by rw [hp]; exact hs.dec, hray,
      fun u hu => by simp at hu, fun _ => ⟨rfl, Or.inr ?_⟩, fun _ t _ => ?_⟩
    · show (q.P *ᵥ (q.g + q.B *ᵥ dense n p)) ⬝ᵥ _ < _
      rw [hp, ← hs.r, ← proj_dot hq, ← hs.g, ← hs.rg, ← abs_of_nonneg hnn]
      exact hsmall
    · show q.val (dense n p) ≤ _
      rw [hp]
      rcases hs.cau with ⟨-, -, c⟩ | c
      · exact absurd (lt_of_le_of_lt (c.trans (le_abs_self _)) hsmall) (lt_irrefl _)
      · exact c t
  rw [if_neg hsmall]
  have hrg : 0 < s.rg := by
    rw [abs_of_nonneg hnn, not_lt] at hsmall
    exact lt_of_lt_of_le (mul_pos htol htol) hsmall
  have hd : 0 < dense n s.d ⬝ᵥ dense n s.d := by
    refine lt_of_le_of_ne (dot_self_nonneg _) fun h => ?_
    have := hs.rd
    rw [dot_self_zero h.symm, dotProduct_zero] at this
    linarith
  obtain ⟨Bd, b1, b2, b3⟩ := he.hp s.d e.work hs.okd
  obtain ⟨ray, y1, y2, -⟩ := ray_spec hray hs.okd b2 b3 hs.pd
  rw [b1, Option.bind_some, y1, Option.bind_some, dot_dense hs.okd b2, Option.bind_some, b3]
  obtain ⟨dBd, hdBd⟩ : ∃ x, x = dense n s.d ⬝ᵥ q.B *ᵥ dense n s.d := ⟨_, rfl⟩
  rw [← hdBd]
  by_cases hneg : dBd ≤ 0
  · rw [if_pos hneg]
    obtain ⟨p, p1, p2, p3, p4, p5⟩ := negCurv_spec (newton := newton) hq he hs b2 b3 hdBd hneg hd
    rw [p1, Option.bind_some]
    exact Or.inl ⟨_, rfl, out_of_line hs p2 p3 p4 p5 y2 rfl (fun u hu => by simp at hu) _⟩
  · rw [if_neg hneg]
    have hpos := not_le.1 hneg
    unfold cgPositive
    rw [cdiv, if_neg hpos.ne', Option.bind_some]
    obtain ⟨alpha, ha⟩ : ∃ x, x = s.rg / dBd := ⟨_, rfl⟩
    have ha' : alpha * dBd = s.rg := by rw [ha, div_mul_cancel₀ _ hpos.ne']
    rw [← ha]
    obtain ⟨z, z1, z2, z3⟩ := addScaled_dense (r0 := e.work) (1 : K) alpha hs.okz hs.okd
    rw [one_smul] at z3
    rw [he.zeroEps, z1, Option.bind_some, normSq_dense z2]
    by_cases hout : radius * radius ≤ dense n z ⬝ᵥ dense n z
    · rw [if_pos hout]
      obtain ⟨p, p1, p2, p3, p4, p5⟩ := bdry_spec (newton := newton) hq he hs hdBd hpos hrg ha' hd (by rw [← z3]; exact hout)
      obtain ⟨u, u1, u2, u3⟩ := trDual_spec he p2 hr
      rw [he.zeroEps] at p1
      rw [p1, Option.bind_some, u1, Option.bind_some]
      exact Or.inl ⟨_, rfl, out_of_line hs p2 p3 p4 p5 y2 rfl (fun v hv => by
        rw [Option.mem_some_iff] at hv; subst hv; exact ⟨u2, u3⟩) _⟩
    · rw [if_neg hout]
      obtain ⟨s', s1, s2, s3, s4, s5⟩ := update_spec (ray := ray) hq he hs b2 b3 hdBd hpos hrg ha' z2 z3 (not_le.1 hout).le
      rw [s1, Option.bind_some]
      exact Or.inr ⟨s', alpha, rfl, s2, by rw [s4]; exact y2, ⟨hrg, by rw [← hdBd]; exact hpos, by rw [← hdBd]; exact ha',
        by rw [s3]; exact z3, s5⟩, hcut⟩

theorem cgLoop_spec {q : TrProblem n K} (hq : q.Valid) {e : TrEnv K} {grad newton : Vec K} (he : TrFor q e grad)
    (hn : VOk n newton) (hn0 : dense n newton = 0) {radius : K} (hr : 0 < radius) (htol : 0 < e.relTol) (fuel : Nat) :
    ∀ (it : Nat) {s : CgState K}, CgInv q e.relTol radius s → RayOk q s.ray → ∀ {res}, cgLoop e grad newton radius fuel it s = some res →
      TrOut q e.relTol radius (∃ k, it ≤ k ∧ k < it + fuel ∧ Cut e k) res := by
  induction fuel with
  | zero => intro it s _ _ res h; simp [cgLoop] at h
  | succ fuel ih =>
    intro it s hs hray res h
    rw [cgLoop] at h
    rcases cgPass_spec hq he hn hn0 hr htol hs hray it with ⟨res', h1, h2⟩ | ⟨s', alpha, h1, h2, h3, -, -⟩
    · rw [h1, Option.bind_some, cgNext, Option.some_inj] at h
      subst h
      have hw : Cut e it → ∃ k, it ≤ k ∧ k < it + (fuel + 1) ∧ Cut e k := fun c => ⟨it, le_rfl, by omega, c⟩
      exact ⟨h2.ok, h2.inside, h2.null, h2.dec, h2.ray, h2.dual, fun c => h2.exit (c ∘ hw), fun c => h2.cauchy (c ∘ hw)⟩
    · rw [h1, Option.bind_some, cgNext] at h
      have h2 := ih (it + 1) h2 h3 h
      have hw : (∃ k, it + 1 ≤ k ∧ k < it + 1 + fuel ∧ Cut e k) → ∃ k, it ≤ k ∧ k < it + (fuel + 1) ∧ Cut e k :=
        fun ⟨k, a, b, c⟩ => ⟨k, by omega, by omega, c⟩
      exact ⟨h2.ok, h2.inside, h2.null, h2.dec, h2.ray, h2.dual, fun c => h2.exit (c ∘ hw), fun c => h2.cauchy (c ∘ hw)⟩

omit [IsStrictOrderedRing K] in
theorem val_zero (q : TrProblem n K) : q.val 0 = 0 := by simp [TrProblem.val]

/-- the state before the first pass -/
theorem start_spec {q : TrProblem n K} (hq : q.Valid) {e : TrEnv K} {grad newton : Vec K} (he : TrFor q e grad)
    (hn : VOk n newton) {radius : K} (hr : 0 < radius) :
    (∃ p, (∀ fuel, steihaug e fuel grad newton radius = some ⟨p, none, false, ⟨1, 1⟩⟩) ∧ VOk n p ∧ dense n p = 0 ∧
      (q.P *ᵥ q.g) ⬝ᵥ (q.P *ᵥ q.g) < e.relTol * e.relTol) ∨
    (∃ s, (∀ fuel, steihaug e fuel grad newton radius = cgLoop e grad newton.clear radius fuel 0 s) ∧ CgInv q e.relTol radius s ∧ RayOk q s.ray ∧
      dense n s.d = -dense n s.g ∧ dense n s.z = 0) := by
  obtain ⟨r, r1, r2, r3⟩ := copy_spec he.gradOk he.work
  have hrq : dense n r = q.g := by rw [← he.gradQ]; exact dense_of_ents r3
  obtain ⟨g, g1, g2, g3⟩ := he.proj r e.work r2
  obtain ⟨g', k1, k2, k3⟩ := copy_spec g2 he.work
  have hg' : dense n g' = dense n g := dense_of_ents k3
  obtain ⟨d1, d2⟩ := scale_dense k2 (-1 : K)
  rw [neg_one_smul, hg'] at d2
  have hwok : VOk n e.work.clear := ⟨⟨by simp [Vec.clear, Srt], by simp [Vec.clear], by simp [Vec.clear]⟩, he.work⟩
  have hw0 : dense n e.work.clear = 0 := by funext i; rfl
  have hray : RayOk q (⟨1, 1⟩ : Rayleigh K) := ⟨le_rfl, le_rfl, Or.inl rfl, Or.inl rfl⟩
  have hgq : dense n g = q.P *ᵥ q.g := by rw [g3, hrq]
  have hst : ∀ fuel, steihaug e fuel grad newton radius =
      if dense n g ⬝ᵥ dense n g < e.relTol * e.relTol then
        (e.work.clear.copy newton.clear).bind fun p => some ⟨p, none, false, ⟨1, 1⟩⟩
      else cgLoop e grad newton.clear radius fuel 0 ⟨e.work.clear, r, g, g'.scale (-1), dense n r ⬝ᵥ dense n g, 0, ⟨1, 1⟩⟩ := by
    intro fuel
    unfold steihaug
    rw [r1, Option.bind_some, g1, Option.bind_some, k1, Option.bind_some, normSq_dense d1, d2, neg_dotProduct_neg, dot_dense r2 g2,
      Option.bind_some]
  by_cases hsm : dense n g ⬝ᵥ dense n g < e.relTol * e.relTol
  · obtain ⟨p, p1, p2, p3⟩ := copy_spec hwok (clear_vok hn).1.2
    have hp0 : dense n p = 0 := by rw [dense_of_ents p3]; exact hw0
    exact Or.inl ⟨p, fun fuel => by rw [hst, if_pos hsm, p1, Option.bind_some], p2, hp0, by rw [← hgq]; exact hsm⟩
  · have hrg : dense n r ⬝ᵥ dense n g = dense n g ⬝ᵥ dense n g := by rw [g3, proj_dot hq]
    refine Or.inr ⟨⟨e.work.clear, r, g, g'.scale (-1), dense n r ⬝ᵥ dense n g, 0, ⟨1, 1⟩⟩, fun fuel => by rw [hst, if_neg hsm],
      ⟨hwok, r2, g2, d1, ?_, g3, rfl, ?_, ?_, ?_, ?_, ?_, ?_, Or.inl ⟨hw0, by rw [← hgq]; exact d2, ?_⟩⟩, hray, d2, hw0⟩
    · show dense n r = q.g + q.B *ᵥ dense n e.work.clear
      rw [hw0, mulVec_zero, add_zero, hrq]
    · show q.P *ᵥ dense n e.work.clear = dense n e.work.clear
      rw [hw0, mulVec_zero]
    · show q.P *ᵥ dense n (g'.scale (-1)) = dense n (g'.scale (-1))
      rw [d2, mulVec_neg, g3, proj_proj hq]
    · show dense n r ⬝ᵥ dense n (g'.scale (-1)) = -(dense n r ⬝ᵥ dense n g)
      rw [d2, dotProduct_neg]
    · show (0 : K) = dense n e.work.clear ⬝ᵥ dense n e.work.clear
      rw [hw0, dotProduct_zero]
    · show dense n e.work.clear ⬝ᵥ dense n e.work.clear ≤ _
      rw [hw0, dotProduct_zero]; exact (mul_pos hr hr).le
    · show q.val (dense n e.work.clear) ≤ 0
      rw [hw0, val_zero]
    · show e.relTol * e.relTol ≤ dense n r ⬝ᵥ dense n g
      rw [hrg]; exact not_lt.1 hsm

/-- a pass that is not cut short, with positive curvature and the next point inside of the ball -/
theorem cgPass_go {q : TrProblem n K} (hq : q.Valid) {e : TrEnv K} {grad newton : Vec K} (he : TrFor q e grad) {radius : K}
    {s : CgState K} (hs : CgInv q e.relTol radius s) (hray : RayOk q s.ray) (it : Nat) (hcut : ¬ Cut e it) (hrg : 0 < s.rg)
    (hbig : e.relTol * e.relTol ≤ s.rg) (hpos : 0 < dense n s.d ⬝ᵥ q.B *ᵥ dense n s.d)
    (hin : (dense n s.z + (s.rg / (dense n s.d ⬝ᵥ q.B *ᵥ dense n s.d)) • dense n s.d) ⬝ᵥ
      (dense n s.z + (s.rg / (dense n s.d ⬝ᵥ q.B *ᵥ dense n s.d)) • dense n s.d) < radius * radius) :
    ∃ s', cgPass e grad newton radius it s = some (.go s') ∧ CgInv q e.relTol radius s' ∧ RayOk q s'.ray := by
  unfold cgPass
  rw [if_neg fun h => hcut (Or.inl h), if_neg fun h => hcut (Or.inr h),
    if_neg (not_lt.2 (hbig.trans (le_abs_self _)))]
  obtain ⟨Bd, b1, b2, b3⟩ := he.hp s.d e.work hs.okd
  obtain ⟨ray, y1, y2, -⟩ := ray_spec hray hs.okd b2 b3 hs.pd
  rw [b1, Option.bind_some, y1, Option.bind_some, dot_dense hs.okd b2, Option.bind_some, b3, if_neg (not_le.2 hpos)]
  unfold cgPositive
  rw [cdiv, if_neg hpos.ne', Option.bind_some]
  obtain ⟨z, z1, z2, z3⟩ := addScaled_dense (r0 := e.work) (1 : K) (s.rg / (dense n s.d ⬝ᵥ q.B *ᵥ dense n s.d)) hs.okz hs.okd
  rw [one_smul] at z3
  rw [he.zeroEps, z1, Option.bind_some, normSq_dense z2, if_neg (by rw [z3]; exact not_le.2 hin)]
  obtain ⟨s', s1, s2, s3, s4, s5⟩ := update_spec (ray := ray) hq he hs b2 b3 rfl hpos hrg (div_mul_cancel₀ _ hpos.ne') z2 z3
    (by rw [z3]; exact hin.le)
  rw [s1, Option.bind_some]
  exact ⟨s', rfl, s2, by rw [s4]; exact y2⟩

/-- more passes do not change a result -/
theorem cgLoop_mono {e : TrEnv K} {grad newton : Vec K} {radius : K} (fuel : Nat) : ∀ (it : Nat) {s : CgState K} {res},
    cgLoop e grad newton radius fuel it s = some res → ∀ k, fuel ≤ k → cgLoop e grad newton radius k it s = some res := by
  induction fuel with
  | zero => intro it s res h; simp [cgLoop] at h
  | succ fuel ih =>
    intro it s res h k hk
    obtain ⟨k, rfl⟩ : ∃ j, k = j + 1 := ⟨k - 1, by omega⟩
    rw [cgLoop] at h ⊢
    cases hp : cgPass e grad newton radius it s with
    | none => rw [hp] at h; simp at h
    | some r =>
      rw [hp, Option.bind_some] at h
      rw [Option.bind_some]
      cases r with
      | done r => exact h
      | go s' => exact ih (it + 1) h k (by omega)

end Sleqp
