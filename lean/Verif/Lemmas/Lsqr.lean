import Verif.Spec.Lsqr
import Verif.Lemmas.Steihaug
import Mathlib.Tactic.Linarith
import Mathlib.Tactic.LinearCombination
import Mathlib.Tactic.FieldSimp
import Verif.Lemmas.Krylov
import Verif.Props.Cmp
import Verif.Lemmas.Bfgs

/-!
The bidiagonalization of Golub and Kahan and the recurrences of LSQR, for ordinary vectors.
-/

namespace Sleqp
variable {K : Type*} [Field K] [LinearOrder K] [IsStrictOrderedRing K]
variable {n m : Nat}
open Matrix

omit [LinearOrder K] [IsStrictOrderedRing K] in
theorem adj_dot (A : Matrix (Fin m) (Fin n) K) (y : Fin m → K) (z : Fin n → K) : (Aᵀ *ᵥ y) ⬝ᵥ z = y ⬝ᵥ A *ᵥ z := by
  rw [mulVec_transpose, dotProduct_mulVec]

/-- the quantities of LSQR before an iteration: `ut` is the normalised residual, `us`, `vs` are the previous vectors of the
bidiagonalization -/
structure Gk (A : Matrix (Fin m) (Fin n) K) (b : Fin m → K) (x : Fin n → K) (u : Fin m → K) (v w : Fin n → K) (alpha rhob phib : K)
    (ut : Fin m → K) (us : List (Fin m → K)) (vs : List (Fin n → K)) : Prop where
  uu : u ⬝ᵥ u = 1
  vv : v ⬝ᵥ v = 1
  utt : ut ⬝ᵥ ut = 1
  aw : A *ᵥ w = rhob • ut + (A *ᵥ v - alpha • u)
  r : b - A *ᵥ x = phib • ut
  at' : Aᵀ *ᵥ ut = rhob • v
  uta : alpha * (ut ⬝ᵥ u) = rhob
  vs1 : ∀ y ∈ vs, y ⬝ᵥ y = 1
  vsp : vs.Pairwise fun y z => y ⬝ᵥ z = 0
  vsv : ∀ y ∈ vs, y ⬝ᵥ v = 0
  usu : ∀ y ∈ us, y ⬝ᵥ u = 0
  hus : ∀ y ∈ us, ∀ z, (∀ x ∈ vs, x ⬝ᵥ z = 0) → y ⬝ᵥ A *ᵥ z = 0
  hu : ∀ z, (∀ x ∈ vs, x ⬝ᵥ z = 0) → u ⬝ᵥ A *ᵥ z = alpha * (v ⬝ᵥ z)
  hvs : ∀ y ∈ vs, ∀ z, (∀ x ∈ us, x ⬝ᵥ z = 0) → u ⬝ᵥ z = 0 → (A *ᵥ y) ⬝ᵥ z = 0
  rb : rhob ≠ 0
  pb : 0 < phib
  al : 0 < alpha

/-- `y` normalised is `z` with norm `a` -/
structure Unit' {k : Nat} (y z : Fin k → K) (a : K) : Prop where
  smul : a • z = y
  nonneg : 0 ≤ a
  one : a ≠ 0 → z ⬝ᵥ z = 1
  zero : a = 0 → z = 0

theorem Unit'.sq {k : Nat} {y z : Fin k → K} {a : K} (h : Unit' y z a) : a * (z ⬝ᵥ z) = a := by
  by_cases ha : a = 0
  · rw [ha, zero_mul]
  · rw [h.one ha, mul_one]

/-- what one iteration yields -/
structure GkStep (A : Matrix (Fin m) (Fin n) K) (b : Fin m → K) (x w : Fin n → K) (a phib : K) (x' v' : Fin n → K) (alpha c sn : K) : Prop where
  eq : x' = x + a • w
  /-- the new residual is perpendicular to the step -/
  line : (b - A *ᵥ x') ⬝ᵥ A *ᵥ w = 0
  /-- norm of the residual -/
  res : lsqVal A b x' = (sn * phib) ^ 2
  /-- gradient at the new point -/
  grad : lsqGrad A b x' = (sn * phib * (-c * alpha)) • v'

theorem gk_step {A : Matrix (Fin m) (Fin n) K} {b : Fin m → K} {x : Fin n → K} {u : Fin m → K} {v w : Fin n → K} {alpha rhob phib : K}
    {ut : Fin m → K} {us : List (Fin m → K)} {vs : List (Fin n → K)} (h : Gk A b x u v w alpha rhob phib ut us vs)
    {u' : Fin m → K} {beta : K} (hu : Unit' (A *ᵥ v - alpha • u) u' beta) {v' : Fin n → K} {alpha' : K}
    (hv : Unit' (Aᵀ *ᵥ u' - beta • v) v' alpha') {rho c sn : K} (h0 : 0 < rho) (hc : c * rho = rhob) (hs : sn * rho = beta)
    (hr : rho * rho = rhob * rhob + beta * beta) :
    GkStep A b x w (c * phib / rho) phib (x + (c * phib / rho) • w) v' alpha' c sn ∧
    (∀ y ∈ v :: vs, y ⬝ᵥ v' = 0) ∧
    (-c * alpha' ≠ 0 → 0 < sn * phib → Gk A b (x + (c * phib / rho) • w) u' v' (v' + (-(sn * alpha') / rho) • w) alpha' (-c * alpha') (sn * phib)
      (sn • ut - c • u') (u :: us) (v :: vs)) := by
  have hcs : c * c + sn * sn = 1 := by
    have h1 : rho * rho ≠ 0 := (mul_pos h0 h0).ne'
    apply mul_right_cancel₀ h1
    linear_combination (c * rho + rhob) * hc + (sn * rho + beta) * hs - hr
  -- the new vector `u'` is perpendicular to the previous ones and to `ut`
  have du : ∀ y, beta * (y ⬝ᵥ u') = y ⬝ᵥ A *ᵥ v - alpha * (y ⬝ᵥ u) := fun y => by
    have := congrArg (y ⬝ᵥ ·) hu.smul
    simpa [dotProduct_smul, dotProduct_sub] using this
  have zu : ∀ y, beta * (y ⬝ᵥ u') = 0 → y ⬝ᵥ u' = 0 := fun y hy => by
    rcases mul_eq_zero.1 hy with hb | hy
    · rw [hu.zero hb, dotProduct_zero]
    · exact hy
  have utu : ut ⬝ᵥ u' = 0 := zu _ (by
    rw [du, ← adj_dot, h.at', smul_dotProduct, h.vv, h.uta, smul_eq_mul, mul_one, sub_self])
  have uu' : u ⬝ᵥ u' = 0 := zu _ (by rw [du, h.hu v h.vsv, h.vv, h.uu, sub_self])
  have usu' : ∀ y ∈ us, y ⬝ᵥ u' = 0 := fun y hy => zu _ (by rw [du, h.hus y hy v h.vsv, h.usu y hy, mul_zero, sub_zero])
  have dv : ∀ y, alpha' * (y ⬝ᵥ v') = u' ⬝ᵥ A *ᵥ y - beta * (y ⬝ᵥ v) := fun y => by
    have := congrArg (y ⬝ᵥ ·) hv.smul
    simp only [dotProduct_smul, dotProduct_sub, smul_eq_mul] at this
    rw [this, dotProduct_comm y, adj_dot]
  have zv : ∀ y, alpha' * (y ⬝ᵥ v') = 0 → y ⬝ᵥ v' = 0 := fun y hy => by
    rcases mul_eq_zero.1 hy with hb | hy
    · rw [hv.zero hb, dotProduct_zero]
    · exact hy
  have vv' : v ⬝ᵥ v' = 0 := zv _ (by
    have e : A *ᵥ v = alpha • u + beta • u' := by rw [hu.smul]; simp
    rw [dv, e, dotProduct_add, dotProduct_smul, dotProduct_smul, dotProduct_comm u' u, uu', h.vv, smul_eq_mul, smul_eq_mul, mul_zero,
      zero_add, hu.sq, mul_one, sub_self])
  have vsv' : ∀ y ∈ vs, y ⬝ᵥ v' = 0 := fun y hy => zv _ (by
    rw [dv, dotProduct_comm u', h.hvs y hy u' usu' uu', h.vsv y hy, mul_zero, sub_zero])
  have vall : ∀ y ∈ v :: vs, y ⬝ᵥ v' = 0 := fun y hy => by
    rcases List.mem_cons.1 hy with rfl | hy
    · exact vv'
    · exact vsv' y hy
  -- the step
  have ew : A *ᵥ w = rho • (c • ut + sn • u') := by
    rw [h.aw, ← hu.smul, ← hc, ← hs]
    funext i
    simp only [Pi.add_apply, Pi.smul_apply, smul_eq_mul]
    ring
  have er : b - A *ᵥ (x + (c * phib / rho) • w) = (sn * phib) • (sn • ut - c • u') := by
    have : b - A *ᵥ (x + (c * phib / rho) • w) = (b - A *ᵥ x) - (c * phib / rho) • A *ᵥ w := by
      rw [mulVec_add, mulVec_smul]; funext i; simp only [Pi.sub_apply, Pi.add_apply]; ring
    rw [this, h.r, ew]
    funext i
    simp only [Pi.sub_apply, Pi.add_apply, Pi.smul_apply, smul_eq_mul]
    field_simp
    linear_combination (-phib * ut i) * hcs
  have sq' : sn * (u' ⬝ᵥ u') = sn := by
    by_cases hb : beta = 0
    · have : sn = 0 := (mul_eq_zero.1 (hs.trans hb)).resolve_right h0.ne'
      rw [this, zero_mul]
    · rw [hu.one hb, mul_one]
  have ut' : ut ⬝ᵥ (sn • ut - c • u') = sn := by
    rw [dotProduct_sub, dotProduct_smul, dotProduct_smul, h.utt, utu, smul_eq_mul, smul_eq_mul]; ring
  have ut'u : (sn • ut - c • u') ⬝ᵥ u' = - (c * (u' ⬝ᵥ u')) := by
    rw [sub_dotProduct, smul_dotProduct, smul_dotProduct, utu, smul_eq_mul, smul_eq_mul]; ring
  have hat : Aᵀ *ᵥ (sn • ut - c • u') = (-c * alpha') • v' := by
    rw [mulVec_sub, mulVec_smul, mulVec_smul, h.at']
    have := hv.smul
    funext i
    have hi := congrFun this i
    simp only [Pi.sub_apply, Pi.smul_apply, smul_eq_mul] at hi ⊢
    have e2 : sn * rhob = c * beta := by rw [← hc, ← hs]; ring
    linear_combination c * hi + v i * e2
  have sub_self_sq : sn * ((sn • ut - c • u') ⬝ᵥ (sn • ut - c • u')) = sn := by
    have : (sn • ut - c • u') ⬝ᵥ (sn • ut - c • u') = sn * sn + c * c * (u' ⬝ᵥ u') := by
      rw [sub_dotProduct, smul_dotProduct, smul_dotProduct, ut', dotProduct_comm u', ut'u]
      simp only [smul_eq_mul]; ring
    rw [this]
    linear_combination c * c * sq' + sn * hcs
  refine ⟨⟨rfl, ?_, ?_, ?_⟩, vall, ?_⟩
  · rw [er, ew, smul_dotProduct, dotProduct_smul, dotProduct_add, dotProduct_smul, dotProduct_smul, dotProduct_comm _ ut, ut', ut'u]
    simp only [smul_eq_mul]
    linear_combination (-(sn * phib) * rho * c) * sq'
  · unfold lsqVal
    rw [er, smul_dotProduct, dotProduct_smul]
    simp only [smul_eq_mul]
    linear_combination (sn * phib * phib) * sub_self_sq
  · unfold lsqGrad
    rw [er, mulVec_smul, hat, smul_smul]
  · intro hrb hpb
    have hsn : sn ≠ 0 := fun h0 => by rw [h0, zero_mul] at hpb; exact lt_irrefl _ hpb
    have hb : beta ≠ 0 := fun hb => hsn ((mul_eq_zero.1 (hs.trans hb)).resolve_right h0.ne')
    have ha : alpha' ≠ 0 := fun h0 => hrb (by rw [h0, mul_zero])
    refine ⟨hu.one hb, hv.one ha, ?_, ?_, er, hat, ?_, ?_, ?_, vall, ?_, ?_, ?_, ?_, hrb, hpb, lt_of_le_of_ne hv.nonneg (Ne.symm ha)⟩
    · exact mul_left_cancel₀ hsn (sub_self_sq.trans (mul_one sn).symm)
    · rw [mulVec_add, mulVec_smul, ew]
      funext i
      simp only [Pi.sub_apply, Pi.add_apply, Pi.smul_apply, smul_eq_mul]
      field_simp
      linear_combination (-alpha' * u' i) * hcs
    · rw [ut'u, hu.one hb]; ring
    · intro y hy
      rcases List.mem_cons.1 hy with rfl | hy
      · exact h.vv
      · exact h.vs1 y hy
    · exact List.pairwise_cons.2 ⟨fun y hy => by rw [dotProduct_comm]; exact h.vsv y hy, h.vsp⟩
    · intro y hy
      rcases List.mem_cons.1 hy with rfl | hy
      · exact uu'
      · exact usu' y hy
    · intro y hy z hz
      have hz' : ∀ x ∈ vs, x ⬝ᵥ z = 0 := fun x hx => hz x (List.mem_cons_of_mem _ hx)
      rcases List.mem_cons.1 hy with rfl | hy
      · rw [h.hu z hz', hz v List.mem_cons_self, mul_zero]
      · exact h.hus y hy z hz'
    · intro z hz
      have e : Aᵀ *ᵥ u' = alpha' • v' + beta • v := by rw [hv.smul]; simp
      rw [← adj_dot, e, add_dotProduct, smul_dotProduct, smul_dotProduct, hz v List.mem_cons_self]
      simp
    · intro y hy z hz hz'
      have hz2 : ∀ x ∈ us, x ⬝ᵥ z = 0 := fun x hx => hz x (List.mem_cons_of_mem _ hx)
      rcases List.mem_cons.1 hy with hy | hy
      · rw [hy]
        have e : A *ᵥ v = alpha • u + beta • u' := by rw [hu.smul]; simp
        rw [e, add_dotProduct, smul_dotProduct, smul_dotProduct, hz u List.mem_cons_self, hz']
        simp
      · exact h.hvs y hy z hz2 (hz u List.mem_cons_self)

/-! ### the functions of the model -/

omit [IsStrictOrderedRing K] in
theorem lsqVal_line {A : Matrix (Fin m) (Fin n) K} {b : Fin m → K} {x d : Fin n → K} (h : (b - A *ᵥ (x + d)) ⬝ᵥ A *ᵥ d = 0) (s : K) :
    lsqVal A b (x + s • d) = lsqVal A b (x + d) + (1 - s) ^ 2 * (A *ᵥ d ⬝ᵥ A *ᵥ d) := by
  have e : b - A *ᵥ (x + s • d) = (b - A *ᵥ (x + d)) + (1 - s) • A *ᵥ d := by
    rw [mulVec_add, mulVec_add, mulVec_smul]
    funext i
    simp only [Pi.sub_apply, Pi.add_apply, Pi.smul_apply, smul_eq_mul]; ring
  unfold lsqVal
  rw [e, dot_line, h]; ring

theorem normalize_spec {e : LsqrEnv K} (hs : ∀ x : K, 0 ≤ x → 0 ≤ e.sqrt x ∧ e.sqrt x * e.sqrt x = x) {k : Nat} {v : Vec K} (hv : VOk k v) :
    VOk k (lsqrNormalize e.sqrt v).1 ∧ Unit' (dense k v) (dense k (lsqrNormalize e.sqrt v).1) (lsqrNormalize e.sqrt v).2 := by
  have hn := normSq_dense hv
  obtain ⟨s0, s1⟩ := hs v.normSq (by rw [hn]; exact dot_self_nonneg _)
  unfold lsqrNormalize
  by_cases h : e.sqrt v.normSq = 0
  · have h0 : dense k v = 0 := dot_self_zero (by rw [← hn, ← s1, h, zero_mul])
    simp only [h, ne_eq, not_true_eq_false, if_false]
    exact ⟨hv, by rw [zero_smul, h0], le_rfl, fun h => absurd rfl h, fun _ => h0⟩
  · obtain ⟨o1, o2⟩ := scale_dense hv (1 / e.sqrt v.normSq)
    simp only [h, ne_eq, not_false_eq_true, if_true]
    refine ⟨o1, ?_, s0, fun _ => ?_, fun h0 => absurd h0 h⟩
    · rw [o2, smul_smul, mul_one_div, div_self h, one_smul]
    · rw [o2, smul_dotProduct, dotProduct_smul, ← hn, smul_eq_mul, smul_eq_mul]
      nth_rewrite 3 [← s1]
      field_simp

/-- sizes of the vectors of the solver -/
structure MemOk (n m : Nat) (s : LsqrMem K) : Prop where
  u : VOk m s.u
  v : VOk n s.v
  w : VOk n s.w
  p : s.p.dim = m
  q : s.q.dim = n

theorem bidiag_spec {A : Matrix (Fin m) (Fin n) K} {e : LsqrEnv K} (he : LsqrFor A e) {s : LsqrMem K} (hs : MemOk n m s) (alpha : K) :
    ∃ s' beta' alpha', lsqrBidiag e s alpha = some (s', beta', alpha') ∧ MemOk n m s' ∧ s'.w = s.w ∧
      Unit' (A *ᵥ dense n s.v - alpha • dense m s.u) (dense m s'.u) beta' ∧
      Unit' (Aᵀ *ᵥ dense m s'.u - beta' • dense n s.v) (dense n s'.v) alpha' := by
  obtain ⟨p, p1, p2, p3⟩ := he.fwd s.v s.p hs.v hs.p
  obtain ⟨t, t1, t2, t3⟩ := addScaled_dense (r0 := s.t) (1 : K) (-alpha) p2 hs.u
  obtain ⟨u0, c1, c2, c3⟩ := copy_spec t2 hs.u.2
  obtain ⟨u1, u2⟩ := normalize_spec he.sqrt c2
  obtain ⟨q, q1, q2, q3⟩ := he.adj _ s.q u1 hs.q
  obtain ⟨t', a1, a2, a3⟩ := addScaled_dense (r0 := t) (1 : K) (-(lsqrNormalize e.sqrt u0).2) q2 hs.v
  obtain ⟨v0, d1, d2, d3⟩ := copy_spec a2 hs.v.2
  obtain ⟨v1, v2⟩ := normalize_spec he.sqrt d2
  refine ⟨{ s with u := (lsqrNormalize e.sqrt u0).1, v := (lsqrNormalize e.sqrt v0).1, p := p, q := q, t := t' },
    (lsqrNormalize e.sqrt u0).2, (lsqrNormalize e.sqrt v0).2, ?_, ⟨u1, v1, hs.w, p2.2, q2.2⟩, rfl, ?_, ?_⟩
  · unfold lsqrBidiag LsqrEnv.forward LsqrEnv.adjoint
    rw [if_pos ⟨hs.v.2.trans he.fdim.symm, hs.p.trans he.adim.symm⟩, p1, Option.bind_some, he.zeroEps, t1, Option.bind_some, c1, Option.bind_some]
    dsimp only
    rw [if_pos ⟨u1.2.trans he.adim.symm, hs.q.trans he.fdim.symm⟩, q1, Option.bind_some, a1, Option.bind_some, d1, Option.map_some]
  · rw [dense_of_ents c3, t3, p3, one_smul, neg_smul, ← sub_eq_add_neg] at u2
    exact u2
  · rw [dense_of_ents d3, a3, q3, one_smul, neg_smul, ← sub_eq_add_neg] at v2
    exact v2

/-- the point computed on the boundary; `sqrt` is exact -/
theorem bdrySol_some {sqrt : K → K} (hsq : ∀ x : K, 0 ≤ x → 0 ≤ sqrt x ∧ sqrt x * sqrt x = x) {x d r0 : Vec K} (hx : VOk n x) (hd : VOk n d)
    {radius : K} {p : Vec K} (h : bdrySol sqrt 0 radius x d r0 = some p) :
    VOk n p ∧ (∃ t : K, dense n p = dense n x + t • dense n d) ∧ dense n p ⬝ᵥ dense n p = radius * radius := by
  unfold bdrySol at h
  rw [dot_dense hx hd, Option.bind_some, normSq_dense hx, normSq_dense hd] at h
  split at h
  · rename_i hc
    obtain ⟨hd0, hin⟩ := hc
    obtain ⟨s0, s1⟩ := hsq _ hin
    generalize sqrt _ = root at s0 s1 h
    obtain ⟨p', p1, p2, p3⟩ := addScaled_dense (r0 := r0) (1 : K) (1 / (dense n d ⬝ᵥ dense n d) * (-(dense n x ⬝ᵥ dense n d) + root)) hx hd
    rw [h] at p1
    obtain rfl := Option.some.inj p1
    rw [one_smul] at p3
    refine ⟨p2, ⟨_, p3⟩, ?_⟩
    rw [p3, dot_line]
    field_simp
    linear_combination s1
  · exact absurd h (by simp)

/-- the point computed on the boundary, starting inside -/
theorem bdrySol_inside {sqrt : K → K} (hsq : ∀ x : K, 0 ≤ x → 0 ≤ sqrt x ∧ sqrt x * sqrt x = x) {x d r0 : Vec K} (hx : VOk n x) (hd : VOk n d)
    {radius : K} (hin : dense n x ⬝ᵥ dense n x ≤ radius * radius)
    (hout : radius * radius < (dense n x + dense n d) ⬝ᵥ (dense n x + dense n d)) :
    ∃ p t, bdrySol sqrt 0 radius x d r0 = some p ∧ VOk n p ∧ dense n p = dense n x + t • dense n d ∧
      dense n p ⬝ᵥ dense n p = radius * radius ∧ 0 ≤ t ∧ t ≤ 1 ∧
      ∀ s : K, (dense n x + s • dense n d) ⬝ᵥ (dense n x + s • dense n d) ≤ radius * radius → s ≤ t := by
  have hd0 : 0 < dense n d ⬝ᵥ dense n d := by
    rcases (dot_self_nonneg (dense n d)).lt_or_eq with h | h
    · exact h
    · rw [dot_self_zero h.symm, add_zero] at hout
      exact absurd hin (not_le.2 hout)
  have hi : 0 ≤ (dense n x ⬝ᵥ dense n d) * (dense n x ⬝ᵥ dense n d) - (dense n d ⬝ᵥ dense n d) * (dense n x ⬝ᵥ dense n x - radius * radius) := by
    nlinarith [mul_self_nonneg (dense n x ⬝ᵥ dense n d), mul_nonneg hd0.le (sub_nonneg.2 hin)]
  obtain ⟨s0, s1⟩ := hsq _ hi
  obtain ⟨f1, -, f3, -, f5⟩ := sphere_roots hd0 hin s0 s1
  obtain ⟨p, p1, p2, p3⟩ := addScaled_dense (r0 := r0) (1 : K) (1 / (dense n d ⬝ᵥ dense n d) * (-(dense n x ⬝ᵥ dense n d) +
    sqrt ((dense n x ⬝ᵥ dense n d) * (dense n x ⬝ᵥ dense n d) - (dense n d ⬝ᵥ dense n d) * (dense n x ⬝ᵥ dense n x - radius * radius)))) hx hd
  rw [one_smul] at p3
  refine ⟨p, _, ?_, p2, p3, ?_, f3, ?_, ?_⟩
  · unfold bdrySol
    rw [dot_dense hx hd, Option.bind_some, normSq_dense hx, normSq_dense hd, if_pos ⟨hd0, hi⟩, p1]
  · rw [p3, dot_line]; exact f1
  · by_contra hlt'
    have hlt := not_le.1 hlt'
    clear hlt' p3 p1 f5 f3
    generalize 1 / (dense n d ⬝ᵥ dense n d) * _ = t at f1 hlt
    have h1 := dot_line (dense n x) (dense n d) 1
    rw [one_smul] at h1
    rw [h1] at hout
    generalize dense n x ⬝ᵥ dense n d = xd at *
    generalize dense n d ⬝ᵥ dense n d = dd at *
    nlinarith [mul_pos (sub_pos.2 hlt) hd0, mul_nonneg (sub_pos.2 hlt).le (sub_nonneg.2 hin)]
  · intro s hs
    rw [dot_line] at hs
    exact (f5 s hs).2

end Sleqp
