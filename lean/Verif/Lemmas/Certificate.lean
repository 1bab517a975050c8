import Verif.Model.Events
import Verif.Spec.Certificate
import Verif.Props.Scale
import Verif.Props.Solver

/-! Helpers for the certificate of the solution: unscaling an iterate. -/

namespace Sleqp

open Finset

variable {K : Type*} [Field K] [LinearOrder K] [IsStrictOrderedRing K]

/-- An iterate of the scaled problem can be unscaled, the result fits the original problem, and
the two are related as original and scaled data. -/
theorem unscale_data {s : Scaling} {n m : Nat} (hs : s.For n m) {p t p' : Bounds K}
    (hp : VOk n p.varsLb ∧ VOk n p.varsUb ∧ VOk m p.consLb ∧ VOk m p.consUb)
    (ht : t.varsLb.dim = n ∧ t.varsUb.dim = n ∧ t.consLb.dim = m ∧ t.consUb.dim = m)
    (hf : s.flushBounds p t = some p') {it' : Iterate K} (h : it'.Fits n m p') (lsq : Bool) :
    ∃ it, s.unscaleIterate lsq it' = some it ∧ it.Fits n m p ∧ ScaledData s lsq p p' it it' := by
  obtain ⟨o1, o2, o3, o4, o5, -⟩ := h.oks
  obtain ⟨b1, b2, b3, b4⟩ := hp
  obtain ⟨J, k1, k2, k3, k4, k5⟩ := scaleMat_ok h.wj (w := fun i j => (s.consW[i]?).bind fun a => (s.varW[j]?).map fun b => (-1) * b + a)
    (W := fun i j => (-1) * s.beta j + s.alpha i)
    (by rw [h.rows, h.cols]; intro i hi j hj; exact jacWeights hs (fun a b => (-1) * b + a) i hi j hj)
  obtain ⟨vl, c1, c2, c3⟩ := copy_spec b1 ht.1
  obtain ⟨vu, d1, d2, d3⟩ := copy_spec b2 ht.2.1
  obtain ⟨cl, e1, e2, e3⟩ := copy_spec b3 ht.2.2.1
  obtain ⟨cu, f1, f2, f3⟩ := copy_spec b4 ht.2.2.2
  have hval : ∀ {v w : Vec K} {f g : Nat → ℤ}, w.ents = v.ents → (∀ i, f i = g i) → ∀ i,
      (w.scaledBy f).value i = v.value i * 2 ^ g i := by
    intro v w f g he hg i
    rw [scaledBy_value, hg]
    unfold Vec.value
    rw [he]
  have hback : ∀ {v : Vec K} {f g : Nat → ℤ}, (∀ i, f i + g i = 0) → ∀ i,
      v.value i = (v.scaledBy f).value i * 2 ^ g i := by
    intro v f g hg i
    rw [scaledBy_value, mul_assoc, ← zpow_add₀ two_ne_zero, hg, zpow_zero, mul_one]
  have hp' : p' = ⟨vl.scaledBy fun j => -1 * s.beta j + 0, vu.scaledBy fun j => -1 * s.beta j + 0,
      cl.scaledBy fun i => -1 * s.alpha i + 0, cu.scaledBy fun i => -1 * s.alpha i + 0⟩ := by
    unfold Scaling.flushBounds Scaling.scalePoint Scaling.scaleConsVal at hf
    rw [c1, d1, e1, f1] at hf
    simp only [Option.bind_some] at hf
    rw [scaleVars_eq hs c2, scaleVars_eq hs d2, scaleCons_eq hs e2, scaleCons_eq hs f2] at hf
    exact (Option.some.inj hf).symm
  have v1 : ∀ j, p'.varsLb.value j = p.varsLb.value j * 2 ^ (-s.beta j) := by
    rw [hp']; exact hval c3 (by intro i; ring)
  have v2 : ∀ j, p'.varsUb.value j = p.varsUb.value j * 2 ^ (-s.beta j) := by
    rw [hp']; exact hval d3 (by intro i; ring)
  have v3 : ∀ j, p'.consLb.value j = p.consLb.value j * 2 ^ (-s.alpha j) := by
    rw [hp']; exact hval e3 (by intro i; ring)
  have v4 : ∀ j, p'.consUb.value j = p.consUb.value j * 2 ^ (-s.alpha j) := by
    rw [hp']; exact hval f3 (by intro i; ring)
  refine ⟨⟨it'.primal.scaledBy fun j => s.beta j + 0,
      if lsq then s.unscaleLsqObjVal it'.objVal else s.unscaleObjVal it'.objVal,
      it'.objGrad.scaledBy fun j => -1 * s.beta j + s.objW, it'.consVal.scaledBy fun i => s.alpha i + 0, J,
      it'.consDual.scaledBy fun i => -1 * s.alpha i + s.objW, it'.varsDual.scaledBy fun j => -1 * s.beta j + s.objW⟩,
    ?_, ?_, ?_⟩
  · unfold Scaling.unscaleIterate Scaling.unscalePoint Scaling.unscaleObjGrad Scaling.unscaleConsVal
      Scaling.unscaleConsDuals Scaling.unscaleVarDuals
    rw [unscaleVars_eq hs o1, scaleVars_eq hs o2, unscaleCons_eq hs o3, scaleCons_eq hs o4, scaleVars_eq hs o5]
    simp only [Option.bind_some]
    unfold Scaling.unscaleConsJac
    rw [k1]; rfl
  · have q1 := scaledBy_ok o1 fun j => s.beta j + 0
    have q2 := scaledBy_ok o2 fun j => -1 * s.beta j + s.objW
    have q3 := scaledBy_ok o3 fun i => s.alpha i + 0
    have q4 := scaledBy_ok o4 fun i => -1 * s.alpha i + s.objW
    have q5 := scaledBy_ok o5 fun j => -1 * s.beta j + s.objW
    refine ⟨⟨q3.1, b3.1, b4.1, q3.2, b3.2, b4.2, ?_⟩, ⟨q1.1, b1.1, b2.1, q1.2, b1.2, b2.2, ?_⟩, q4.1, q4.2,
      q5.1, q5.2, q2.1, q2.2, k2, k3.trans h.rows, k4.trans h.cols⟩
    · intro i hi
      have := h.cons.le i hi
      rwa [v3, v4, le_scaled] at this
    · intro j hj
      have := h.vars.le j hj
      rwa [v1, v2, le_scaled] at this
  · refine ⟨hback (by intro i; ring), ?_, hback (by intro i; ring), hback (by intro i; ring), ?_,
      hback (by intro i; ring), hback (by intro i; ring), v1, v2, v3, v4⟩
    · cases lsq
      · show it'.objVal = it'.objVal * 2 ^ s.objW * 2 ^ (-s.objW)
        rw [mul_assoc, ← zpow_add₀ two_ne_zero, add_neg_cancel, zpow_zero, mul_one]
      · show it'.objVal = it'.objVal * 2 ^ (2 * s.objW) * 2 ^ (-(2 * s.objW))
        rw [mul_assoc, ← zpow_add₀ two_ne_zero, add_neg_cancel, zpow_zero, mul_one]
    · intro i j hj
      show it'.consJac.value i j = J.value i j * _
      rw [k5 i j (by rw [← k4]; exact hj), mul_assoc, ← zpow_add₀ two_ne_zero,
        show (-1) * s.beta j + s.alpha i + (s.beta j - s.alpha i) = 0 by ring, zpow_zero, mul_one]

/-- products of a distance and a multiplier -/
theorem slack_scaled {a b d e x y z : K} {k l o : ℤ} (ha : a = x * 2 ^ k) (hb : b = y * 2 ^ k) (hd : d = z * 2 ^ l)
    (ho : k + l = -o) (h : max (a - b) 0 * d < e) : max (x - y) 0 * z < e * 2 ^ o := by
  have h1 : max (a - b) 0 = max (x - y) 0 * 2 ^ k := by
    rw [ha, hb, ← sub_mul, max_mul_of_nonneg _ _ (pow2_pos k).le, zero_mul]
  have h2 : max (a - b) 0 * d = max (x - y) 0 * z * 2 ^ (-o) := by
    rw [h1, hd, ← ho, zpow_add₀ two_ne_zero]; ring
  rw [h2] at h
  have h3 := mul_lt_mul_of_pos_right h (pow2_pos (K := K) o)
  rwa [mul_assoc, ← zpow_add₀ two_ne_zero, neg_add_cancel, zpow_zero, mul_one] at h3

theorem le_of_scaled {x y e : K} {k : ℤ} (h : x * 2 ^ (-k) ≤ y * 2 ^ (-k) + e) : x ≤ y + e * 2 ^ k := by
  have h3 := mul_le_mul_of_nonneg_right h (pow2_pos (K := K) k).le
  rwa [add_mul, mul_assoc, mul_assoc, ← zpow_add₀ two_ne_zero, neg_add_cancel, zpow_zero, mul_one, mul_one] at h3

/-- Approximate optimality of the scaled data and of the original data. -/
theorem approx_unscaled {s : Scaling} {n m : Nat} {p p' : Bounds K} {it it' : Iterate K} {lsq : Bool}
    (h : it.Fits n m p) (h' : it'.Fits n m p') (hd : ScaledData s lsq p p' it it') {fe st sl : K}
    (hk : ApproxKkt n m p' it' (fun _ => fe) (fun _ => st) sl) :
    ApproxKkt n m p it (fun i => fe * 2 ^ s.alpha i) (fun j => st * 2 ^ (s.objW - s.beta j)) (sl * 2 ^ s.objW) where
  cons i hi := by
    obtain ⟨h1, h2⟩ := hk.cons i hi
    rw [hd.consLb, hd.consVal] at h1
    rw [hd.consUb, hd.consVal] at h2
    exact ⟨sub_le_iff_le_add.mpr (le_of_scaled (sub_le_iff_le_add.mp h1)), le_of_scaled h2⟩
  grad j hj := by
    have h1 := hk.grad j hj
    rw [(C33_kkt h h' hd).2.2.2.2 j hj, abs_mul, abs_of_pos (pow2_pos (K := K) (s.beta j - s.objW))] at h1
    have h3 := mul_lt_mul_of_pos_right h1 (pow2_pos (K := K) (s.objW - s.beta j))
    rwa [mul_assoc, ← zpow_add₀ two_ne_zero, show s.beta j - s.objW + (s.objW - s.beta j) = 0 by ring, zpow_zero,
      mul_one] at h3
  consSlack i hi := by
    obtain ⟨h1, h2⟩ := hk.consSlack i hi
    have hc := hd.consDual i
    constructor
    · intro hz
      exact slack_scaled (hd.consUb i) (hd.consVal i) hc (by ring)
        (h1 (by rw [hc]; exact mul_nonneg hz (pow2_pos _).le))
    · intro hz
      exact slack_scaled (hd.consVal i) (hd.consLb i) (by rw [hc, neg_mul]) (by ring)
        (h2 (by rw [hc]; exact mul_nonpos_of_nonpos_of_nonneg hz (pow2_pos _).le))
  varsSlack j hj := by
    obtain ⟨h1, h2⟩ := hk.varsSlack j hj
    have hc := hd.varsDual j
    constructor
    · intro hz
      exact slack_scaled (hd.varsUb j) (hd.primal j) hc (by ring)
        (h1 (by rw [hc]; exact mul_nonneg hz (pow2_pos _).le))
    · intro hz
      exact slack_scaled (hd.primal j) (hd.varsLb j) (by rw [hc, neg_mul]) (by ring)
        (h2 (by rw [hc]; exact mul_nonpos_of_nonpos_of_nonneg hz (pow2_pos _).le))

end Sleqp
