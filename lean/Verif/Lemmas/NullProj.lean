import Verif.Spec.AugJac
import Verif.Spec.Newton
import Verif.Lemmas.QnVec
import Mathlib.LinearAlgebra.Matrix.ToLin
import Mathlib.LinearAlgebra.Matrix.DotProduct
import Mathlib.Tactic.FieldSimp

/-! Orthogonal projections, given pointwise, are matrices. -/

namespace Sleqp
open Matrix
variable {K : Type*} [Field K] [LinearOrder K] [IsStrictOrderedRing K] {n : Nat}

theorem dot_self_zero {v : Fin n → K} (h : v ⬝ᵥ v = 0) : v = 0 := by
  funext i
  have h1 : ∑ j, v j * v j = 0 := h
  rw [Finset.sum_eq_zero_iff_of_nonneg fun j _ => mul_self_nonneg _] at h1
  exact mul_self_eq_zero.mp (h1 i (Finset.mem_univ i))

theorem orth_unique {N : Submodule K (Fin n → K)} {g p p' : Fin n → K} (h1 : p ∈ N) (h2 : ∀ v ∈ N, (g - p) ⬝ᵥ v = 0)
    (h3 : p' ∈ N) (h4 : ∀ v ∈ N, (g - p') ⬝ᵥ v = 0) : p = p' := by
  have hm := N.sub_mem h1 h3
  have e : (p - p') ⬝ᵥ (p - p') = 0 := by
    have a := h2 _ hm
    have b := h4 _ hm
    have : p - p' = (g - p') - (g - p) := by rw [sub_sub_sub_cancel_left]
    calc (p - p') ⬝ᵥ (p - p') = ((g - p') - (g - p)) ⬝ᵥ (p - p') := by rw [← this]
      _ = 0 := by rw [sub_dotProduct, a, b, sub_zero]
  exact sub_eq_zero.mp (dot_self_zero e)

theorem exists_proj_matrix {N : Submodule K (Fin n → K)} {f : (Fin n → K) → Fin n → K} (h1 : ∀ g, f g ∈ N)
    (h2 : ∀ g, ∀ v ∈ N, (g - f g) ⬝ᵥ v = 0) :
    ∃ P : Matrix (Fin n) (Fin n) K, Pᵀ = P ∧ P * P = P ∧ (∀ g, f g = P *ᵥ g) ∧ ∀ g ∈ N, P *ᵥ g = g := by
  let L : (Fin n → K) →ₗ[K] Fin n → K :=
    { toFun := f
      map_add' := fun x y => orth_unique (N := N) (g := x + y) (h1 _) (h2 _) (N.add_mem (h1 _) (h1 _)) fun v hv => by
        rw [add_sub_add_comm, add_dotProduct, h2 x v hv, h2 y v hv, add_zero]
      map_smul' := fun c x => orth_unique (N := N) (g := c • x) (h1 _) (h2 _) (N.smul_mem _ (h1 _)) fun v hv => by
        rw [RingHom.id_apply, ← smul_sub, smul_dotProduct, h2 x v hv, smul_zero] }
  have hL : ∀ g, L.toMatrix' *ᵥ g = f g := fun g => by rw [LinearMap.toMatrix'_mulVec]; rfl
  have hfix : ∀ g ∈ N, f g = g := fun g hg => orth_unique (N := N) (g := g) (h1 _) (h2 _) hg fun v _ => by
    rw [sub_self, zero_dotProduct]
  have hsym : ∀ x y, x ⬝ᵥ f y = f x ⬝ᵥ y := by
    intro x y
    have a := h2 x (f y) (h1 y)
    have b := h2 y (f x) (h1 x)
    rw [sub_dotProduct, sub_eq_zero] at a b
    rw [a, dotProduct_comm (f x) y, b, dotProduct_comm]
  refine ⟨L.toMatrix', ?_, ?_, fun g => (hL g).symm, fun g hg => (hL g).trans (hfix g hg)⟩
  · refine Matrix.ext fun i j => ?_
    have := hsym (Pi.single i 1) (Pi.single j 1)
    rw [← hL, ← hL, single_one_dotProduct, dotProduct_single_one] at this
    rw [Matrix.transpose_apply]
    simp only [Matrix.mulVec_single_one, Matrix.col_apply] at this
    exact this.symm
  · refine Matrix.ext_of_mulVec_single fun i => ?_
    rw [← Matrix.mulVec_mulVec, hL, hL, hfix _ (h1 _)]

/-- vectors in the null space -/
def nullSpace (n s : Nat) (A : Nat → Nat → K) : Submodule K (Fin n → K) where
  carrier := {v | ∀ k < s, ∑ j : Fin n, A k j * v j = 0}
  add_mem' := fun {a b} ha hb k hk => by
    simp only [Pi.add_apply, mul_add, Finset.sum_add_distrib]
    rw [ha k hk, hb k hk, add_zero]
  zero_mem' := fun k _ => by simp
  smul_mem' := fun c x hx k hk => by
    have : ∑ j : Fin n, A k j * (c • x) j = c * ∑ j : Fin n, A k j * x j := by
      rw [Finset.mul_sum]
      exact Finset.sum_congr rfl fun j _ => by simp only [Pi.smul_apply, smul_eq_mul]; ring
    rw [this, hx k hk, mul_zero]

theorem mem_nullSpace {s : Nat} {A : Nat → Nat → K} {v : Nat → K} :
    (fun j : Fin n => v j) ∈ nullSpace n s A ↔ ∀ k < s, ∑ j ∈ Finset.range n, A k j * v j = 0 := by
  constructor <;> intro h k hk
  · rw [Finset.sum_range]; exact h k hk
  · rw [← h k hk, Finset.sum_range]

/-- the residual of a projection is orthogonal to the null space -/
theorem IsProjection.orthogonal {s : Nat} {A : Nat → Nat → K} {g p v : Nat → K} (h : IsProjection n s A g p)
    (hv : ∀ k < s, ∑ j ∈ Finset.range n, A k j * v j = 0) : ∑ j ∈ Finset.range n, (g j - p j) * v j = 0 := by
  set xv := ∑ j ∈ Finset.range n, (g j - p j) * v j with hxv
  set vv := ∑ j ∈ Finset.range n, v j ^ 2 with hvv
  have hvv0 : 0 ≤ vv := Finset.sum_nonneg fun j _ => sq_nonneg _
  have key : ∀ t : K, 0 ≤ t ^ 2 * vv - 2 * t * xv := by
    intro t
    have h1 := h.2 (fun j => p j + t * v j) fun k hk => by
      have : ∑ j ∈ Finset.range n, A k j * (p j + t * v j) =
          ∑ j ∈ Finset.range n, A k j * p j + t * ∑ j ∈ Finset.range n, A k j * v j := by
        rw [Finset.mul_sum, ← Finset.sum_add_distrib]
        exact Finset.sum_congr rfl fun j _ => by ring
      rw [this, hv k hk, mul_zero, add_zero, h.1 k hk]
    have h2 : ∑ j ∈ Finset.range n, (g j - (p j + t * v j)) ^ 2 = ∑ j ∈ Finset.range n, (g j - p j) ^ 2 + (t ^ 2 * vv - 2 * t * xv) := by
      rw [hxv, hvv, Finset.mul_sum, Finset.mul_sum, ← Finset.sum_sub_distrib, ← Finset.sum_add_distrib]
      exact Finset.sum_congr rfl fun j _ => by ring
    rw [h2] at h1
    linarith
  by_cases hz : vv = 0
  · have h1 := key xv
    rw [hz] at h1
    have : xv * xv ≤ 0 := by linarith
    exact mul_self_eq_zero.mp (le_antisymm this (mul_self_nonneg _))
  · have hp : 0 < vv := lt_of_le_of_ne hvv0 (Ne.symm hz)
    have h1 := key (xv / vv)
    have h2 : (xv / vv) ^ 2 * vv - 2 * (xv / vv) * xv = -(xv * xv / vv) := by
      field_simp
      ring
    rw [h2] at h1
    have h3 : xv * xv / vv = 0 := le_antisymm (by linarith) (div_nonneg (mul_self_nonneg _) hp.le)
    rw [div_eq_zero_iff] at h3
    exact mul_self_eq_zero.mp (h3.resolve_right hz)

/-- a vector with given coordinates -/
theorem exists_dense (g : Fin n → K) : ∃ v : Vec K, VOk n v ∧ dense n v = g := by
  obtain ⟨v, -, h2, h3, h4⟩ := setFromRaw_spec (0 : K) (Vec.create n 0) ((List.finRange n).map g)
  rw [List.length_map, List.length_finRange] at h3
  refine ⟨v, ⟨h2, h3⟩, ?_⟩
  funext i
  unfold dense
  rw [h4 i, List.getElem?_map, List.getElem?_eq_getElem (by simp)]
  simp only [List.getElem_finRange, Option.map_some, Fin.cast_mk, Fin.eta]
  split
  · rename_i h; exact (abs_nonpos_iff.mp h).symm
  · rfl

/-- the projection service of the augmented Jacobian is an orthogonal projection matrix onto the null
space -/
theorem NullService.matrix {proj : Vec K → Vec K → Option (Vec K)} {l : List WEntry} {J : Nat → Nat → K}
    (h : NullService proj n l J) :
    ∃ P : Matrix (Fin n) (Fin n) K, Pᵀ = P ∧ P * P = P ∧
      (∀ d r : Vec K, d.WF ∧ d.dim = n → ∃ v, proj d r = some v ∧ (v.WF ∧ v.dim = n) ∧ dense n v = P *ᵥ dense n d) ∧
      (∀ x, P *ᵥ x ∈ nullSpace n l.length (workMat l J)) ∧ ∀ x ∈ nullSpace n l.length (workMat l J), P *ᵥ x = x := by
  have hex : ∀ g : Fin n → K, ∃ p : Fin n → K, p ∈ nullSpace n l.length (workMat l J) ∧
      ∀ v ∈ nullSpace n l.length (workMat l J), (g - p) ⬝ᵥ v = 0 := by
    intro g
    obtain ⟨d, d1, d2⟩ := exists_dense g
    obtain ⟨p, -, -, -, p4⟩ := h d d d1.1 d1.2
    refine ⟨dense n p, mem_nullSpace.mpr p4.1, fun v hv => ?_⟩
    have := p4.orthogonal (v := fun j => if hj : j < n then v ⟨j, hj⟩ else 0) (mem_nullSpace.mp (by simpa using hv))
    rw [Finset.sum_range] at this
    rw [← d2]
    simpa [dotProduct, dense] using this
  choose f hf1 hf2 using hex
  obtain ⟨P, P1, P2, P3, P4⟩ := exists_proj_matrix hf1 hf2
  refine ⟨P, P1, P2, fun d r hd => ?_, fun x => P3 x ▸ hf1 x, P4⟩
  obtain ⟨p, p1, p2, p3, p4⟩ := h d r hd.1 hd.2
  refine ⟨p, p1, ⟨p2, p3⟩, ?_⟩
  rw [← P3]
  refine orth_unique (N := nullSpace n l.length (workMat l J)) (g := dense n d) (mem_nullSpace.mpr p4.1) (fun v hv => ?_) (hf1 _) (hf2 _)
  have := p4.orthogonal (v := fun j => if hj : j < n then v ⟨j, hj⟩ else 0) (mem_nullSpace.mp (by simpa using hv))
  rw [Finset.sum_range] at this
  simpa [dotProduct, dense] using this

end Sleqp
