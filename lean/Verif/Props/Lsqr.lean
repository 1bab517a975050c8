import Verif.Lemmas.Lsqr
import Mathlib.Data.Rat.Sqrt
import Mathlib.Analysis.Real.Sqrt
import Mathlib.LinearAlgebra.Matrix.Notation

/-!
C71: the solution of the linear least-squares problem.
-/

namespace Sleqp
variable {K : Type*} [Field K] [LinearOrder K] [IsStrictOrderedRing K]
variable {n m : Nat}
open Matrix

/-- norm not above the radius, up to the tolerance of the solver -/
def LsqrEnv.Inside (e : LsqrEnv K) (x : Fin n → K) : Prop := ∀ r, e.radius = some r → isGt (e.sqrt (x ⬝ᵥ x)) r e.eps = false

/-- what holds before each iteration -/
structure LsqrInv (A : Matrix (Fin m) (Fin n) K) (b : Fin m → K) (e : LsqrEnv K) (s : LsqrState K) (ut : Fin m → K)
    (us : List (Fin m → K)) (vs : List (Fin n → K)) : Prop where
  gk : Gk A b (dense n s.x) (dense m s.mem.u) (dense n s.mem.v) (dense n s.mem.w) s.alpha s.rhob s.phib ut us vs
  mem : MemOk n m s.mem
  okx : VOk n s.x
  rx : ∃ y, dense n s.x = Aᵀ *ᵥ y
  rw' : ∃ y, dense n s.mem.w = Aᵀ *ᵥ y
  cau : (dense n s.x = 0 ∧ ∃ k : K, k ≠ 0 ∧ Aᵀ *ᵥ b = k • dense n s.mem.w) ∨ ∀ t : K, lsqVal A b (dense n s.x) ≤ lsqVal A b (t • Aᵀ *ᵥ b)
  dec : lsqVal A b (dense n s.x) ≤ b ⬝ᵥ b
  inside : e.Inside (dense n s.x)

/-- the outcomes of an iteration -/
inductive LsqrPassOut (A : Matrix (Fin m) (Fin n) K) (b : Fin m → K) (e : LsqrEnv K) (it : Nat) (s : LsqrState K) (ut : Fin m → K)
    (us : List (Fin m → K)) (vs : List (Fin n → K)) : Prop where
  /-- the trust region is left -/
  | bdry (r : K) (t d : Vec K) (hr : e.radius = some r) (ht : VOk n t) (hd : VOk n d) (hg : isGt (e.sqrt (dense n t ⬝ᵥ dense n t)) r e.eps = true)
      (h1 : dense n t = dense n s.x + dense n d) (h2 : ∃ a : K, dense n d = a • dense n s.mem.w)
      (h3 : (b - A *ᵥ (dense n s.x + dense n d)) ⬝ᵥ A *ᵥ dense n d = 0)
      (h4 : lsqrPass e it s = (bdrySol e.sqrt 0 r s.x d t).bind fun t' => (t'.copy s.x).map .done)
  /-- the tolerance is reached -/
  | done (x : Vec K) (hx : VOk n x) (h1 : ∃ a : K, dense n x = dense n s.x + a • dense n s.mem.w)
      (h2 : (b - A *ᵥ dense n x) ⬝ᵥ A *ᵥ dense n s.mem.w = 0) (h3 : lsqGrad A b (dense n x) ⬝ᵥ lsqGrad A b (dense n x) ≤ e.relTol ^ 2)
      (hi : e.Inside (dense n x)) (h4 : lsqrPass e it s = some (.done x))
  /-- the time limit is reached -/
  | timeout (ht : e.timeUp it = true) (h : lsqrPass e it s = some .timeout)
  /-- another iteration follows -/
  | go (s' : LsqrState K) (ut' : Fin m → K) (h : LsqrInv A b e s' ut' (dense m s.mem.u :: us) (dense n s.mem.v :: vs))
      (h1 : lsqrPass e it s = some (.go s'))

theorem line_le {A : Matrix (Fin m) (Fin n) K} {b : Fin m → K} {x w x' : Fin n → K} {a : K} (hx : x' = x + a • w)
    (h : (b - A *ᵥ x') ⬝ᵥ A *ᵥ w = 0) (t : K) : lsqVal A b x' ≤ lsqVal A b (x + t • w) := by
  have e : x + t • w = (x' - w) + (1 + (t - a)) • w := by
    rw [hx]; funext i; simp only [Pi.add_apply, Pi.sub_apply, Pi.smul_apply, smul_eq_mul]; ring
  have e' : x' = (x' - w) + w := by simp
  rw [e, lsqVal_line (by rw [← e']; exact h), ← e']
  have := mul_nonneg (sq_nonneg (1 - (1 + (t - a)))) (dot_self_nonneg (A *ᵥ w))
  linarith

theorem lsqVal_zero (A : Matrix (Fin m) (Fin n) K) (b : Fin m → K) : lsqVal A b 0 = b ⬝ᵥ b := by simp [lsqVal]

/-- a minimiser on the line is at least as good as all multiples of the gradient -/
theorem LsqrInv.cau_line {A : Matrix (Fin m) (Fin n) K} {b : Fin m → K} {e : LsqrEnv K} {s : LsqrState K} {ut : Fin m → K}
    {us : List (Fin m → K)} {vs : List (Fin n → K)} (hs : LsqrInv A b e s ut us vs) {x : Fin n → K} {a : K}
    (hx : x = dense n s.x + a • dense n s.mem.w) (h : (b - A *ᵥ x) ⬝ᵥ A *ᵥ dense n s.mem.w = 0) :
    (∀ t : K, lsqVal A b x ≤ lsqVal A b (t • Aᵀ *ᵥ b)) ∧ lsqVal A b x ≤ b ⬝ᵥ b := by
  have hl := line_le hx h
  have h0 := hl 0
  rw [zero_smul, add_zero] at h0
  refine ⟨fun t => ?_, h0.trans hs.dec⟩
  rcases hs.cau with ⟨h1, k, -, h2⟩ | h1
  · rw [h2, smul_smul]
    have := hl (t * k)
    rwa [h1, zero_add] at this
  · exact h0.trans (h1 t)

theorem lsqrPass_spec {A : Matrix (Fin m) (Fin n) K} {b : Fin m → K} {e : LsqrEnv K} (he : LsqrFor A e) {s : LsqrState K} {ut : Fin m → K}
    {us : List (Fin m → K)} {vs : List (Fin n → K)} (hs : LsqrInv A b e s ut us vs) (it : Nat) : LsqrPassOut A b e it s ut us vs := by
  obtain ⟨b', beta, alpha, b1, b2, b3, b4, b5⟩ := bidiag_spec he hs.mem s.alpha
  have hpos : 0 < s.rhob * s.rhob + beta * beta := by
    have := mul_self_pos.2 hs.gk.rb
    nlinarith [mul_self_nonneg beta]
  obtain ⟨r0, r1⟩ := he.sqrt _ hpos.le
  obtain ⟨rho, hrho⟩ : ∃ r, r = e.sqrt (s.rhob * s.rhob + beta * beta) := ⟨_, rfl⟩
  rw [← hrho] at r0 r1
  have hr : 0 < rho := lt_of_le_of_ne r0 fun h => by rw [← h, zero_mul] at r1; exact hpos.ne r1
  obtain ⟨c, hc⟩ : ∃ c, c = s.rhob / rho := ⟨_, rfl⟩
  obtain ⟨sn, hsn⟩ : ∃ c, c = beta / rho := ⟨_, rfl⟩
  have hsn0 : 0 ≤ sn := by rw [hsn]; exact div_nonneg b4.nonneg hr.le
  obtain ⟨g1, g2, g3⟩ := gk_step hs.gk b4 b5 hr (c := c) (sn := sn) (by rw [hc]; field_simp) (by rw [hsn]; field_simp) r1
  have hp : lsqrPass e it s = lsqrAdvance e it s b' alpha rho c sn := by
    unfold lsqrPass
    rw [b1, Option.bind_some]
    dsimp only
    rw [← hrho, cdiv_ok hr.ne', Option.bind_some, cdiv_ok hr.ne', Option.bind_some, hc, hsn]
  obtain ⟨t, t1, t2, t3⟩ := addScaled_dense (r0 := b'.t) (1 : K) (c * s.phib / rho) hs.okx hs.mem.w
  rw [one_smul] at t3
  have hline := g1.line
  rw [← t3] at hline
  unfold lsqrAdvance at hp
  rw [he.zeroEps, t1, Option.bind_some, normSq_dense t2] at hp
  cases ho : e.outside (e.sqrt (dense n t ⬝ᵥ dense n t)) with
  | some r =>
    rw [ho] at hp
    obtain ⟨o1, o2⟩ := Option.filter_eq_some_iff.1 ho
    obtain ⟨d, d1, d2, d3⟩ := addScaled_dense (r0 := b'.d) (-1 : K) 1 hs.okx t2
    dsimp only at hp
    rw [d1, Option.bind_some] at hp
    have hd : dense n d = (c * s.phib / rho) • dense n s.mem.w := by rw [d3, t3]; funext i; simp
    refine .bdry r t d o1 t2 d2 o2 ?_ ⟨_, hd⟩ ?_ hp
    · rw [t3, hd]
    · rw [hd, ← t3, mulVec_smul, dotProduct_smul, hline, smul_zero]
  | none =>
    rw [ho] at hp
    dsimp only at hp
    obtain ⟨x, x1, x2, x3⟩ := copy_spec t2 hs.okx.2
    have hx := dense_of_ents (n := n) x3
    obtain ⟨t', a1, a2, a3⟩ := addScaled_dense (r0 := t) (1 : K) (-(sn * alpha) / rho) b2.v hs.mem.w
    obtain ⟨w, w1, w2, w3⟩ := copy_spec a2 hs.mem.w.2
    have hw := dense_of_ents (n := n) w3
    rw [one_smul] at a3
    rw [x1, Option.bind_some, a1, Option.bind_some, w1, Option.map_some] at hp
    have hin : e.Inside (dense n x) := by
      intro r hr'
      rw [hx]
      by_contra hcon
      have : e.outside (e.sqrt (dense n t ⬝ᵥ dense n t)) = some r := Option.filter_eq_some_iff.2 ⟨hr', by simpa using hcon⟩
      rw [ho] at this
      exact absurd this (by simp)
    have hgr := g1.grad
    rw [← t3, ← hx] at hgr
    have hone : alpha * (dense n b'.v ⬝ᵥ dense n b'.v) = alpha := b5.sq
    have hsq : lsqGrad A b (dense n x) ⬝ᵥ lsqGrad A b (dense n x) = (sn * s.phib * alpha * |c|) ^ 2 := by
      rw [hgr, smul_dotProduct, dotProduct_smul, mul_pow, sq_abs]
      simp only [smul_eq_mul]
      linear_combination (sn * s.phib * c) ^ 2 * alpha * hone
    have hnn : 0 ≤ sn * s.phib * alpha * |c| :=
      mul_nonneg (mul_nonneg (mul_nonneg hsn0 hs.gk.pb.le) b5.nonneg) (abs_nonneg c)
    split at hp
    · rename_i hle
      refine .done x x2 ⟨_, hx.trans t3⟩ (by rw [hx]; exact hline) ?_ hin hp
      rw [hsq]
      exact pow_le_pow_left₀ hnn hle 2
    · rename_i hle
      split at hp
      · rename_i htime
        exact .timeout htime hp
      · have hne : sn * s.phib * alpha * |c| ≠ 0 := fun h => hle (by rw [h]; exact he.relTol)
        have hc0 : c ≠ 0 := fun h => hne (by rw [h, abs_zero, mul_zero])
        have ha0 : alpha ≠ 0 := fun h => hne (by rw [h, mul_zero, zero_mul])
        have hs0 : sn ≠ 0 := fun h => hne (by rw [h, zero_mul, zero_mul, zero_mul])
        have hgk := g3 (mul_ne_zero (neg_ne_zero.2 hc0) ha0) (mul_pos (lt_of_le_of_ne hsn0 (Ne.symm hs0)) hs.gk.pb)
        obtain ⟨yx, hyx⟩ := hs.rx
        obtain ⟨yw, hyw⟩ := hs.rw'
        obtain ⟨k1, k2⟩ := hs.cau_line (hx.trans t3) (by rw [hx]; exact hline)
        have hm : MemOk n m { b' with w := w, t := t' } := ⟨b2.u, b2.v, w2, b2.p, b2.q⟩
        refine .go ⟨x, { b' with w := w, t := t' }, alpha, sn * s.phib, -c * alpha⟩ (sn • ut - c • dense m b'.u) ⟨?_, hm, x2, ?_, ?_, Or.inr k1, k2, hin⟩ hp
        · show Gk A b (dense n x) _ _ (dense n w) _ _ _ _ _ _
          rw [hx, t3, hw, a3]
          exact hgk
        · refine ⟨yx + (c * s.phib / rho) • yw, ?_⟩
          show dense n x = _
          rw [hx, t3, hyx, hyw, mulVec_add, mulVec_smul]
        · have hv : dense n b'.v = Aᵀ *ᵥ ((-c * alpha)⁻¹ • (sn • ut - c • dense m b'.u)) := by
            rw [mulVec_smul, hgk.at', smul_smul, inv_mul_cancel₀ hgk.rb, one_smul]
          refine ⟨(-c * alpha)⁻¹ • (sn • ut - c • dense m b'.u) + (-(sn * alpha) / rho) • yw, ?_⟩
          show dense n w = _
          rw [hw, a3, hv, hyw, ← mulVec_smul, ← mulVec_add]

theorem LsqrInv.length {A : Matrix (Fin m) (Fin n) K} {b : Fin m → K} {e : LsqrEnv K} {s : LsqrState K} {ut : Fin m → K}
    {us : List (Fin m → K)} {vs : List (Fin n → K)} (hs : LsqrInv A b e s ut us vs) : vs.length < n := by
  have := conj_length (B := (1 : Matrix (Fin n) (Fin n) K)) transpose_one (l := dense n s.mem.v :: vs)
    (fun y hy => by
      rw [one_mulVec]
      rcases List.mem_cons.1 hy with rfl | hy
      · rw [hs.gk.vv]; exact one_pos
      · rw [hs.gk.vs1 y hy]; exact one_pos)
    (List.pairwise_cons.2 ⟨fun y hy => by rw [one_mulVec, dotProduct_comm]; exact hs.gk.vsv y hy,
      hs.gk.vsp.imp fun h => by rw [one_mulVec]; exact h⟩)
  rw [List.length_cons] at this
  omega

/-- the result of the solver: in the range of the transpose, within the region up to the tolerance, stationary up to the tolerance or on the
boundary -/
structure LsqrOut (A : Matrix (Fin m) (Fin n) K) (b : Fin m → K) (e : LsqrEnv K) (x : Vec K) : Prop where
  ok : x.WF ∧ x.dim = n
  range : ∃ y, dense n x = Aᵀ *ᵥ y
  inside : e.Inside (dense n x)
  stat : lsqGrad A b (dense n x) ⬝ᵥ lsqGrad A b (dense n x) ≤ e.relTol ^ 2 ∨ ∃ r, e.radius = some r ∧ dense n x ⬝ᵥ dense n x = r * r

/-- the result is at least as good as every multiple of the gradient at zero within the region, in particular as zero -/
def LsqrGood (A : Matrix (Fin m) (Fin n) K) (b : Fin m → K) (e : LsqrEnv K) (x : Vec K) : Prop :=
  ∀ t : K, (∀ r, e.radius = some r → (t • Aᵀ *ᵥ b) ⬝ᵥ (t • Aᵀ *ᵥ b) ≤ r * r) → lsqVal A b (dense n x) ≤ lsqVal A b (t • Aᵀ *ᵥ b)

theorem sqrt_sq {sqrt : K → K} (hs : ∀ x : K, 0 ≤ x → 0 ≤ sqrt x ∧ sqrt x * sqrt x = x) {r : K} (hr : 0 ≤ r) : sqrt (r * r) = r := by
  obtain ⟨h0, h1⟩ := hs (r * r) (mul_self_nonneg r)
  rcases mul_self_eq_mul_self_iff.1 h1 with h | h
  · exact h
  · linarith

theorem gt_self {r eps : K} (h0 : 0 ≤ eps) : isGt r r eps = false := by
  simp [isGt, relDiff, h0]

/-- a point on the boundary is in the region -/
theorem inside_bdry {A : Matrix (Fin m) (Fin n) K} {e : LsqrEnv K} (he : LsqrFor A e) (h0 : 0 ≤ e.eps) {r : K} (hr : e.radius = some r)
    (hr0 : 0 ≤ r) {x : Fin n → K} (hx : x ⬝ᵥ x = r * r) : e.Inside x := by
  intro r' hr'
  rw [hr] at hr'
  obtain rfl := Option.some.inj hr'
  rw [hx, sqrt_sq he.sqrt hr0]
  exact gt_self h0

theorem inside_sq {A : Matrix (Fin m) (Fin n) K} {e : LsqrEnv K} (he : LsqrFor A e) (h0 : e.eps = 0) {r : K} (hr0 : 0 ≤ r) (x : Fin n → K) :
    isGt (e.sqrt (x ⬝ᵥ x)) r e.eps = true ↔ r * r < x ⬝ᵥ x := by
  obtain ⟨s0, s1⟩ := he.sqrt _ (dot_self_nonneg x)
  rw [h0, (C01_exact _ _).2.2]
  nth_rewrite 2 [← s1]
  constructor
  · intro h; exact mul_self_lt_mul_self hr0 h
  · intro h; exact lt_of_mul_self_lt_mul_self₀ s0 h

theorem lsqrLoop_some {A : Matrix (Fin m) (Fin n) K} {b : Fin m → K} {e : LsqrEnv K} (he : LsqrFor A e) (h0 : 0 ≤ e.eps)
    (hrad : ∀ r, e.radius = some r → 0 ≤ r) (k : Nat) : ∀ (it : Nat) {s : LsqrState K} {ut : Fin m → K} {us : List (Fin m → K)}
      {vs : List (Fin n → K)}, LsqrInv A b e s ut us vs → n ≤ vs.length + k → ∀ {x}, lsqrLoop e k it s = some (some x) → LsqrOut A b e x := by
  induction k with
  | zero =>
    intro it s ut us vs hs hk
    have := hs.length
    omega
  | succ k ih =>
    intro it s ut us vs hs hk x hx
    rw [lsqrLoop] at hx
    obtain ⟨yx, hyx⟩ := hs.rx
    obtain ⟨yw, hyw⟩ := hs.rw'
    rcases lsqrPass_spec he hs it with ⟨r, t, d, hr, ht, hd, hg, h1, ⟨a, h2⟩, h3, h4⟩ | ⟨x', hx', ⟨a, h1⟩, h2, h3, hi, h4⟩ | ⟨ht, h4⟩ | ⟨s', ut', h, h4⟩
    · rw [h4] at hx
      cases hp : bdrySol e.sqrt 0 r s.x d t with
      | none => rw [hp] at hx; exact absurd hx (by simp)
      | some p =>
        obtain ⟨p1, ⟨tau, p2⟩, p3⟩ := bdrySol_some he.sqrt hs.okx hd hp
        obtain ⟨q, q1, q2, q3⟩ := copy_spec p1 hs.okx.2
        rw [hp, Option.bind_some, q1, Option.map_some, Option.bind_some, lsqrNext] at hx
        obtain rfl := Option.some.inj (Option.some.inj hx)
        have hq := dense_of_ents (n := n) q3
        refine ⟨q2, ⟨yx + (tau * a) • yw, ?_⟩, inside_bdry he h0 hr (hrad r hr) (by rw [hq]; exact p3), Or.inr ⟨r, hr, by rw [hq]; exact p3⟩⟩
        rw [hq, p2, h2, hyx, hyw, mulVec_add, mulVec_smul, smul_smul]
    · rw [h4, Option.bind_some, lsqrNext] at hx
      obtain rfl := Option.some.inj (Option.some.inj hx)
      exact ⟨hx', ⟨yx + a • yw, by rw [h1, hyx, hyw, mulVec_add, mulVec_smul]⟩, hi, Or.inl h3⟩
    · rw [h4, Option.bind_some, lsqrNext] at hx
      exact absurd hx (by simp)
    · rw [h4, Option.bind_some, lsqrNext] at hx
      exact ih (it + 1) h (by rw [List.length_cons]; omega) hx

theorem lsqrLoop_good {A : Matrix (Fin m) (Fin n) K} {b : Fin m → K} {e : LsqrEnv K} (he : LsqrFor A e) (h0 : e.eps = 0)
    (hrad : ∀ r, e.radius = some r → 0 ≤ r) (k : Nat) : ∀ (it : Nat) {s : LsqrState K} {ut : Fin m → K} {us : List (Fin m → K)}
      {vs : List (Fin n → K)}, LsqrInv A b e s ut us vs → n ≤ vs.length + k →
      ∃ res, lsqrLoop e k it s = some res ∧ (res = none → ∃ it' < it + k, e.timeUp it' = true) ∧ ∀ x, res = some x → LsqrGood A b e x := by
  induction k with
  | zero =>
    intro it s ut us vs hs hk
    have := hs.length
    omega
  | succ k ih =>
    intro it s ut us vs hs hk
    rw [lsqrLoop]
    rcases lsqrPass_spec he hs it with ⟨r, t, d, hr, ht, hd, hg, h1, ⟨a, h2⟩, h3, h4⟩ | ⟨x', hx', ⟨a, h1⟩, h2, h3, hi, h4⟩ | ⟨ht, h4⟩ | ⟨s', ut', h, h4⟩
    · have hr0 := hrad r hr
      have hin : dense n s.x ⬝ᵥ dense n s.x ≤ r * r := by
        by_contra hcon
        have := hs.inside r hr
        rw [(inside_sq he h0 hr0 _).2 (not_le.1 hcon)] at this
        exact absurd this (by simp)
      have hout := (inside_sq he h0 hr0 _).1 hg
      rw [h1] at hout
      obtain ⟨p, tau, p1, p2, p3, p4, p5, p6, p7⟩ := bdrySol_inside he.sqrt (r0 := t) hs.okx hd hin hout
      obtain ⟨q, q1, q2, q3⟩ := copy_spec p2 hs.okx.2
      have hq := dense_of_ents (n := n) q3
      rw [h4, p1, Option.bind_some, q1, Option.map_some, Option.bind_some, lsqrNext]
      refine ⟨_, rfl, fun h => absurd h (by simp), fun x hx σ hσ => ?_⟩
      obtain rfl := Option.some.inj hx
      rw [hq, p3]
      have hl := lsqVal_line h3
      have hAd := dot_self_nonneg (A *ᵥ dense n d)
      have mono : ∀ σ ≤ tau, lsqVal A b (dense n s.x + tau • dense n d) ≤ lsqVal A b (dense n s.x + σ • dense n d) := by
        intro σ hσ
        rw [hl, hl]
        have : (1 - tau) ^ 2 ≤ (1 - σ) ^ 2 := pow_le_pow_left₀ (by linarith) (by linarith) 2
        nlinarith [mul_le_mul_of_nonneg_right this hAd]
      have m0 := mono 0 p5
      rw [zero_smul, add_zero] at m0
      rcases hs.cau with ⟨c1, κ, c2, c3⟩ | c1
      · -- the first iteration: the step is a multiple of the gradient
        have ha : a ≠ 0 := by
          rintro rfl
          rw [h2, zero_smul, add_zero] at hout
          exact absurd hin (not_le.2 hout)
        have e1 : σ • Aᵀ *ᵥ b = dense n s.x + (σ * κ / a) • dense n d := by
          rw [c1, zero_add, c3, h2, smul_smul, smul_smul]
          congr 1
          field_simp
        rw [e1]
        apply mono
        apply p7
        rw [← e1]
        exact hσ r hr
      · exact m0.trans (c1 σ)
    · rw [h4, Option.bind_some, lsqrNext]
      refine ⟨_, rfl, fun h => absurd h (by simp), fun x hx σ _ => ?_⟩
      obtain rfl := Option.some.inj hx
      exact (hs.cau_line h1 h2).1 σ
    · rw [h4, Option.bind_some, lsqrNext]
      exact ⟨_, rfl, fun _ => ⟨it, by omega, ht⟩, fun x hx => absurd hx (by simp)⟩
    · rw [h4, Option.bind_some, lsqrNext]
      obtain ⟨res, r1, r2, r3⟩ := ih (it + 1) h (by rw [List.length_cons]; omega)
      refine ⟨res, r1, fun hn => ?_, r3⟩
      obtain ⟨it', i1, i2⟩ := r2 hn
      exact ⟨it', by omega, i2⟩

/-- the start of the iteration -/
theorem lsqrStart_spec {A : Matrix (Fin m) (Fin n) K} {e : LsqrEnv K} (he : LsqrFor A e) {s : LsqrMem K} (hs : s.u.dim = m ∧ s.v.dim = n ∧
      s.w.dim = n ∧ s.p.dim = m ∧ s.q.dim = n) {rhs sol : Vec K} (hb : rhs.WF ∧ rhs.dim = m) (hx : sol.dim = n) :
    ∃ s0, lsqrStart e s rhs sol = some s0 ∧ VOk n s0.x ∧ dense n s0.x = 0 ∧ MemOk n m s0.mem ∧ dense n s0.mem.w = dense n s0.mem.v ∧
      Unit' (dense m rhs) (dense m s0.mem.u) s0.phib ∧ Unit' (Aᵀ *ᵥ dense m s0.mem.u) (dense n s0.mem.v) s0.alpha ∧ s0.rhob = s0.alpha := by
  obtain ⟨u0, c1, c2, c3⟩ := copy_spec (t := s.u) hb hs.1
  obtain ⟨u1, u2⟩ := normalize_spec he.sqrt c2
  obtain ⟨v0, q1, q2, q3⟩ := he.adj _ s.v u1 hs.2.1
  obtain ⟨v1, v2⟩ := normalize_spec he.sqrt q2
  obtain ⟨w, w1, w2, w3⟩ := copy_spec v1 hs.2.2.1
  refine ⟨⟨sol.clear, { s with u := (lsqrNormalize e.sqrt u0).1, v := (lsqrNormalize e.sqrt v0).1, w := w }, (lsqrNormalize e.sqrt v0).2,
    (lsqrNormalize e.sqrt u0).2, (lsqrNormalize e.sqrt v0).2⟩, ?_, ⟨⟨by simp [Vec.clear, Srt], by simp [Vec.clear], by simp [Vec.clear]⟩, hx⟩,
    by funext i; rfl, ⟨u1, v1, w2, hs.2.2.2.1, hs.2.2.2.2⟩, dense_of_ents w3, ?_, ?_, rfl⟩
  · unfold lsqrStart LsqrEnv.adjoint
    rw [if_pos ⟨hb.2.trans he.adim.symm, hx.trans he.fdim.symm⟩, c1, Option.bind_some]
    dsimp only
    rw [if_pos ⟨u1.2.trans he.adim.symm, hs.2.1.trans he.fdim.symm⟩, q1, Option.bind_some, w1, Option.map_some]
  · rw [dense_of_ents c3] at u2
    exact u2
  · rw [q3] at v2
    exact v2

/-- the invariant holds before the first iteration if the gradient at zero is not zero -/
theorem lsqrStart_inv {A : Matrix (Fin m) (Fin n) K} {e : LsqrEnv K} (he : LsqrFor A e) (h0 : 0 ≤ e.eps) (hrad : ∀ r, e.radius = some r → 0 ≤ r)
    {s : LsqrMem K} (hs : s.u.dim = m ∧ s.v.dim = n ∧ s.w.dim = n ∧ s.p.dim = m ∧ s.q.dim = n) {rhs sol : Vec K} (hb : rhs.WF ∧ rhs.dim = m)
    (hx : sol.dim = n) (hg : Aᵀ *ᵥ dense m rhs ≠ 0) :
    ∃ s0, lsqrStart e s rhs sol = some s0 ∧ LsqrInv A (dense m rhs) e s0 (dense m s0.mem.u) [] [] := by
  obtain ⟨s0, a1, a2, a3, a4, a5, a6, a7, a8⟩ := lsqrStart_spec he hs hb hx
  have hbeta : s0.phib ≠ 0 := fun h => hg (by rw [← a6.smul, h, zero_smul, mulVec_zero])
  have halpha : s0.alpha ≠ 0 := fun h => hg (by rw [← a6.smul, mulVec_smul, ← a7.smul, h, zero_smul, smul_zero])
  have hv : dense n s0.mem.v = Aᵀ *ᵥ (s0.alpha⁻¹ • dense m s0.mem.u) := by
    rw [mulVec_smul, ← a7.smul, smul_smul, inv_mul_cancel₀ halpha, one_smul]
  refine ⟨s0, a1, ⟨a6.one hbeta, a7.one halpha, a6.one hbeta, ?_, ?_, ?_, ?_, by simp, .nil, by simp, by simp, by simp, ?_, by simp, ?_, ?_, ?_⟩,
    a4, a2, ⟨0, by rw [a3, mulVec_zero]⟩, ⟨_, a5.trans hv⟩, Or.inl ⟨a3, s0.phib * s0.alpha, mul_ne_zero hbeta halpha, ?_⟩, ?_, ?_⟩
  · rw [a5, a8]; simp
  · rw [a3, mulVec_zero, sub_zero, a6.smul]
  · rw [a8, a7.smul]
  · rw [a6.one hbeta, mul_one, a8]
  · intro z _
    rw [← adj_dot, ← a7.smul, smul_dotProduct, smul_eq_mul]
  · rw [a8]; exact halpha
  · exact lt_of_le_of_ne a6.nonneg (Ne.symm hbeta)
  · exact lt_of_le_of_ne a7.nonneg (Ne.symm halpha)
  · rw [a5, ← smul_smul, a7.smul, ← mulVec_smul, a6.smul]
  · rw [a3, lsqVal_zero]
  · intro r hr
    have : e.sqrt 0 = 0 := by have := sqrt_sq he.sqrt (le_refl (0 : K)); rwa [mul_zero] at this
    have hr0 := hrad r hr
    rw [a3, dotProduct_zero, this]
    by_contra hcon
    have hcon : isGt 0 r e.eps = true := by simpa using hcon
    unfold isGt relDiff at hcon
    have hcon := of_decide_eq_true hcon
    have : (0 - r) / max (max |0| |r|) 1 ≤ 0 := div_nonpos_of_nonpos_of_nonneg (by linarith) (le_trans zero_le_one (le_max_right _ _))
    linarith

/-- C71: whenever a solution is reported, it lies in the range of the transposed matrix and, up to the tolerance, in the trust region; it is
stationary up to the tolerance or lies on the boundary.
This is for `zero_eps = 0`; a positive drop tolerance is missing. -/
theorem C71_solution_partial {A : Matrix (Fin m) (Fin n) K} {e : LsqrEnv K} (he : LsqrFor A e) (h0 : 0 ≤ e.eps) (hrad : ∀ r, e.radius = some r → 0 ≤ r)
    {s : LsqrMem K} (hs : s.u.dim = m ∧ s.v.dim = n ∧ s.w.dim = n ∧ s.p.dim = m ∧ s.q.dim = n) {rhs sol : Vec K} (hb : rhs.WF ∧ rhs.dim = m)
    (hx : sol.dim = n) (hg : Aᵀ *ᵥ dense m rhs ≠ 0) {x : Vec K} (h : lsqrSolve e s rhs sol = some (some x)) : LsqrOut A (dense m rhs) e x := by
  obtain ⟨s0, h1, h2⟩ := lsqrStart_inv he h0 hrad hs hb hx hg
  unfold lsqrSolve at h
  rw [h1, Option.bind_some, he.fdim] at h
  exact lsqrLoop_some he h0 hrad n 1 h2 (by simp) h

/-- C71 (partial): with a tolerance of zero and a gradient different from zero, the solver ends properly: with the time limit, or with a solution
which is at least as good as every multiple of the gradient in the region. -/
theorem C71_solve_partial {A : Matrix (Fin m) (Fin n) K} {e : LsqrEnv K} (he : LsqrFor A e) (h0 : e.eps = 0)
    (hrad : ∀ r, e.radius = some r → 0 ≤ r) {s : LsqrMem K} (hs : s.u.dim = m ∧ s.v.dim = n ∧ s.w.dim = n ∧ s.p.dim = m ∧ s.q.dim = n)
    {rhs sol : Vec K} (hb : rhs.WF ∧ rhs.dim = m) (hx : sol.dim = n) (hg : Aᵀ *ᵥ dense m rhs ≠ 0) :
    ∃ res, lsqrSolve e s rhs sol = some res ∧ (res = none → ∃ it, e.timeUp it = true) ∧
      ∀ x, res = some x → LsqrOut A (dense m rhs) e x ∧ LsqrGood A (dense m rhs) e x := by
  obtain ⟨s0, h1, h2⟩ := lsqrStart_inv he h0.ge hrad hs hb hx hg
  obtain ⟨res, r1, r2, r3⟩ := lsqrLoop_good he h0 hrad n 1 h2 (by simp)
  have hres : lsqrSolve e s rhs sol = some res := by
    unfold lsqrSolve
    rw [h1, Option.bind_some, he.fdim, r1]
  refine ⟨res, hres, fun h => ?_, fun x hx' => ⟨?_, r3 x hx'⟩⟩
  · obtain ⟨it, -, h⟩ := r2 h
    exact ⟨it, h⟩
  · rw [hx'] at hres
    exact C71_solution_partial he h0.ge hrad hs hb hx hg hres

/-- C71: the negation for right-hand sides that are perpendicular to the range (for example zero, at a point with vanishing residuals): `rho` is
zero in the first iteration, and the code divides by it. (In IEEE arithmetic the quotients are NaN, the test of the residual never succeeds, and
all `forward_dim` iterations are run; as all vectors are empty, the result is still zero.) -/
theorem C71_zero_gradient_violated {A : Matrix (Fin m) (Fin n) K} {e : LsqrEnv K} (he : LsqrFor A e) (hn : 0 < n)
    {s : LsqrMem K} (hs : s.u.dim = m ∧ s.v.dim = n ∧ s.w.dim = n ∧ s.p.dim = m ∧ s.q.dim = n) {rhs sol : Vec K} (hb : rhs.WF ∧ rhs.dim = m)
    (hx : sol.dim = n) (hg : Aᵀ *ᵥ dense m rhs = 0) : lsqrSolve e s rhs sol = none := by
  obtain ⟨s0, a1, a2, a3, a4, a5, a6, a7, a8⟩ := lsqrStart_spec he hs hb hx
  have hal : s0.alpha = 0 := by
    by_contra hal
    have h1 : Aᵀ *ᵥ dense m s0.mem.u = 0 := by
      by_cases hp : s0.phib = 0
      · rw [a6.zero hp, mulVec_zero]
      · have := congrArg (s0.phib⁻¹ • ·) hg
        simp only [← a6.smul, mulVec_smul, smul_smul, inv_mul_cancel₀ hp, one_smul, smul_zero] at this
        exact this
    have h2 := a7.smul
    rw [h1] at h2
    have h3 := a7.one hal
    rw [(smul_eq_zero.1 h2).resolve_left hal, dotProduct_zero] at h3
    exact zero_ne_one h3
  obtain ⟨b', beta, alpha, b1, b2, b3, b4, b5⟩ := bidiag_spec he a4 s0.alpha
  have hbe : beta = 0 := by
    by_contra hbe
    have h1 := b4.smul
    rw [hal, zero_smul, a7.zero hal, mulVec_zero, sub_zero] at h1
    have h3 := b4.one hbe
    rw [(smul_eq_zero.1 h1).resolve_left hbe, dotProduct_zero] at h3
    exact zero_ne_one h3
  have hz : e.sqrt 0 = 0 := by have := sqrt_sq he.sqrt (le_refl (0 : K)); rwa [mul_zero] at this
  obtain ⟨k, rfl⟩ : ∃ k, n = k + 1 := ⟨n - 1, by omega⟩
  unfold lsqrSolve
  rw [a1, Option.bind_some, he.fdim, lsqrLoop, lsqrPass, b1, Option.bind_some]
  dsimp only
  rw [hbe, a8, hal, mul_zero, add_zero, hz]
  simp [cdiv]

/-! ### instances: any matrix over the reals -/

/-- store an ordinary vector -/
theorem setFromRaw_ofFn {k : Nat} (f : Fin k → K) (r : Vec K) : ∃ h, r.setFromRaw 0 (List.ofFn f) = some h ∧ (h.WF ∧ h.dim = k) ∧ dense k h = f := by
  obtain ⟨h, h1, h2, h3, h4⟩ := setFromRaw_spec 0 r (List.ofFn f)
  refine ⟨h, h1, ⟨h2, by rw [h3, List.length_ofFn]⟩, ?_⟩
  funext i
  unfold dense
  rw [h4, List.getElem?_ofFn]
  simp only [Fin.is_lt, dif_pos, Fin.eta, abs_nonpos_iff]
  split
  · rename_i h; exact h.symm
  · rfl

/-- the solver with products computed densely -/
noncomputable def exLsqrEnv (A : Matrix (Fin m) (Fin n) ℝ) (eps tol : ℝ) (radius : Option ℝ) (timeUp : Nat → Bool) : LsqrEnv ℝ :=
  ⟨fun d r => r.setFromRaw 0 (List.ofFn (A *ᵥ dense n d)), fun d r => r.setFromRaw 0 (List.ofFn (Aᵀ *ᵥ dense m d)), Real.sqrt, eps, 0, tol, radius,
    timeUp, n, m⟩

theorem exLsqrFor (A : Matrix (Fin m) (Fin n) ℝ) (eps : ℝ) {tol : ℝ} (h : 0 ≤ tol) (radius : Option ℝ) (timeUp : Nat → Bool) :
    LsqrFor A (exLsqrEnv A eps tol radius timeUp) :=
  ⟨rfl, rfl, fun _ r _ _ => setFromRaw_ofFn _ r, fun _ r _ _ => setFromRaw_ofFn _ r,
    fun x hx => ⟨Real.sqrt_nonneg x, Real.mul_self_sqrt hx⟩, rfl, h⟩

omit [IsStrictOrderedRing K] [Field K] [LinearOrder K] in
/-- the vectors of the solver have the right sizes after `sleqp_lsqr_solver_resize` -/
theorem lsqrResize_dims (s : LsqrMem K) (n m : Nat) : (lsqrResize s n m).u.dim = m ∧ (lsqrResize s n m).v.dim = n ∧
    (lsqrResize s n m).w.dim = n ∧ (lsqrResize s n m).p.dim = m ∧ (lsqrResize s n m).q.dim = n := by
  have : ∀ (v : Vec K) k, (v.resize k).dim = k := fun v k => by unfold Vec.resize; split <;> rfl
  exact ⟨this _ _, this _ _, this _ _, this _ _, this _ _⟩

/-- the hypotheses of `C71_solve_partial` hold: three variables, two residuals, radius 1 -/
example : ∃ x, lsqrSolve (exLsqrEnv (n := 3) (m := 2) !![1, 2, 0; 0, 1, 1] 0 (1 / 100) (some 1) fun _ => false) (lsqrResize (lsqrCreate 3) 3 2)
      ⟨2, 1, [(1, 5)]⟩ ⟨3, 0, []⟩ = some (some x) ∧ dense 3 x ⬝ᵥ dense 3 x ≤ 1 := by
  have hF := exLsqrFor (n := 3) (m := 2) !![1, 2, 0; 0, 1, 1] 0 (tol := 1 / 100) (by norm_num) (some 1) fun _ => false
  have hg : (!![1, 2, 0; 0, 1, 1] : Matrix (Fin 2) (Fin 3) ℝ)ᵀ *ᵥ dense 2 (⟨2, 1, [(1, 5)]⟩ : Vec ℝ) ≠ 0 := by
    intro h
    have := congrFun h 2
    simp [mulVec, dotProduct, Fin.sum_univ_two, dense, Vec.value, valAt, at?, orZero] at this
  obtain ⟨res, h1, h2, h3⟩ := C71_solve_partial hF rfl (fun r hr => by obtain rfl := Option.some.inj hr; exact zero_le_one) (lsqrResize_dims (lsqrCreate 3) 3 2)
    (rhs := ⟨2, 1, [(1, 5)]⟩) (sol := ⟨3, 0, []⟩) ⟨⟨List.pairwise_singleton _ _, by simp, by simp⟩, rfl⟩ rfl hg
  cases res with
  | none => obtain ⟨_, h⟩ := h2 rfl; exact absurd h (by simp [exLsqrEnv])
  | some x =>
    refine ⟨x, h1, ?_⟩
    have := (h3 x rfl).1.inside 1 rfl
    by_contra hcon
    rw [(inside_sq hF rfl zero_le_one _).2 (by simpa using hcon)] at this
    exact absurd this (by simp)

/-! ### a start point slightly outside of the region -/

/-- products with the matrix `(12 0; 5 a)` and its transpose; exact roots of squares; default tolerances -/
def exLsqr (eps : ℚ) : LsqrEnv ℚ :=
  ⟨fun d p => p.setFromRaw 0 [12 * d.value 0, 5 * d.value 0 + 100000000 / 99999999999999 * d.value 1],
   fun d p => p.setFromRaw 0 [12 * d.value 0 + 5 * d.value 1, 100000000 / 99999999999999 * d.value 1],
   Rat.sqrt, eps, 0, 1 / 10 ^ 8, some (1 - 1 / 10 ^ 10), fun _ => false, 2, 2⟩

/-- the vectors of the solver after `sleqp_lsqr_solver_resize` -/
def exLsqrMem : LsqrMem ℚ := lsqrResize (lsqrCreate 2) 2 2

/-- C71: the negation, with the default tolerances. After the first iteration the point has norm 1, which does not count as greater than the radius
`1 - 10⁻¹⁰`. The next step (of length about 10⁷) leaves the region, and no point on the line through the two points is in the region, so that the
discriminant is negative: `assert(inner >= 0.)` of `sleqp_tr_compute_bdry_sol` fails. (Without assertions, the square root is NaN and so is the
step.) With a tolerance of zero the same call succeeds. -/
theorem C71_boundary_violated :
    lsqrSolve (exLsqr (1 / 10 ^ 10)) exLsqrMem ⟨2, 1, [(0, 169 / 12)]⟩ ⟨2, 0, []⟩ = none ∧
    lsqrSolve (exLsqr 0) exLsqrMem ⟨2, 1, [(0, 169 / 12)]⟩ ⟨2, 0, []⟩ = some (some ⟨2, 1, [(0, 1 - 1 / 10 ^ 10)]⟩) := by
  constructor <;> decide +kernel

end Sleqp
