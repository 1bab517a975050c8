import Verif.Lemmas.Steihaug
import Mathlib.LinearAlgebra.Dimension.Constructions
import Mathlib.LinearAlgebra.Dimension.Finite

/-!
The directions of the conjugate gradient method are conjugate, so that there are at most as many as variables.
-/

namespace Sleqp
variable {K : Type*} [Field K] [LinearOrder K] [IsStrictOrderedRing K]
variable {n : Nat}
open Matrix

/-- `hs` lists the directions used so far -/
structure Conj (q : TrProblem n K) (hs : List (Fin n → K)) (s : CgState K) : Prop where
  pos : ∀ x ∈ hs, 0 < x ⬝ᵥ q.B *ᵥ x
  conj : hs.Pairwise fun x y => x ⬝ᵥ q.B *ᵥ y = 0
  orth : ∀ x ∈ hs, dense n s.r ⬝ᵥ x = 0
  cd : ∀ x ∈ hs, dense n s.d ⬝ᵥ q.B *ᵥ x = 0
  kry : ∀ x ∈ hs, q.P *ᵥ (q.B *ᵥ x) ∈ Submodule.span K {y | y ∈ dense n s.d :: hs}
  gsp : dense n s.g ∈ Submodule.span K {y | y ∈ dense n s.d :: hs}

omit [LinearOrder K] [IsStrictOrderedRing K] in
theorem orth_span {r : Fin n → K} {S : Set (Fin n → K)} (h : ∀ x ∈ S, r ⬝ᵥ x = 0) {y : Fin n → K} (hy : y ∈ Submodule.span K S) :
    r ⬝ᵥ y = 0 := by
  induction hy using Submodule.span_induction with
  | mem x hx => exact h x hx
  | zero => exact dotProduct_zero r
  | add x y _ _ hx hy => rw [dotProduct_add, hx, hy, add_zero]
  | smul a x _ hx => rw [dotProduct_smul, hx, smul_zero]

theorem conj_succ {q : TrProblem n K} (hq : q.Valid) {tol radius : K} {s s' : CgState K} (hs : CgInv q tol radius s)
    (hs' : CgInv q tol radius s') {alpha : K} (h : CgSucc q s s' alpha) {l : List (Fin n → K)} (hc : Conj q l s) :
    Conj q (dense n s.d :: l) s' := by
  have ha : alpha ≠ 0 := by
    intro h0
    have := h.step
    rw [h0, zero_mul] at this
    exact h.rg.ne this
  have hr : dense n s'.r = dense n s.r + alpha • (q.B *ᵥ dense n s.d) := by
    rw [hs'.r, hs.r, h.z, mulVec_add, mulVec_smul, add_assoc]
  have hgd : dense n s'.g = dense n s.g + alpha • (q.P *ᵥ (q.B *ᵥ dense n s.d)) := by
    rw [hs'.g, hs.g, hr, mulVec_add, mulVec_smul]
  have ho : ∀ x ∈ dense n s.d :: l, dense n s'.r ⬝ᵥ x = 0 := by
    intro x hx
    rw [hr, add_dotProduct, smul_dotProduct, ← sym_dot hq.symm]
    rcases List.mem_cons.1 hx with rfl | hx
    · rw [hs.rd, smul_eq_mul, h.step]; ring
    · rw [hc.orth x hx, hc.cd x hx, smul_zero, add_zero]
  have hsp : ∀ y ∈ Submodule.span K {y | y ∈ dense n s.d :: l}, dense n s'.r ⬝ᵥ y = 0 :=
    fun y hy => orth_span ho hy
  have hmono : Submodule.span K {y | y ∈ dense n s.d :: l} ≤ Submodule.span K {y | y ∈ dense n s'.d :: dense n s.d :: l} :=
    Submodule.span_mono fun y hy => List.mem_cons_of_mem _ hy
  have hg' : dense n s'.g ∈ Submodule.span K {y | y ∈ dense n s'.d :: dense n s.d :: l} := by
    have : dense n s'.g = (s'.rg / s.rg) • dense n s.d - dense n s'.d := by rw [h.d]; simp
    rw [this]
    refine Submodule.sub_mem _ (Submodule.smul_mem _ _ (Submodule.subset_span ?_)) (Submodule.subset_span ?_)
    · exact List.mem_cons_of_mem _ List.mem_cons_self
    · exact List.mem_cons_self
  have hk : q.P *ᵥ (q.B *ᵥ dense n s.d) = alpha⁻¹ • (dense n s'.g - dense n s.g) := by
    rw [hgd, add_sub_cancel_left, smul_smul, inv_mul_cancel₀ ha, one_smul]
  have hmove : ∀ x, dense n s'.g ⬝ᵥ q.B *ᵥ x = dense n s'.r ⬝ᵥ q.P *ᵥ (q.B *ᵥ x) := by
    intro x
    rw [hs'.g, ← sym_dot hq.projSymm]
  refine ⟨?_, ?_, ho, ?_, ?_, hg'⟩
  · intro x hx
    rcases List.mem_cons.1 hx with rfl | hx
    · exact h.pos
    · exact hc.pos x hx
  · exact List.pairwise_cons.2 ⟨hc.cd, hc.conj⟩
  · intro x hx
    rw [h.d, add_dotProduct, neg_dotProduct, smul_dotProduct, hmove]
    rcases List.mem_cons.1 hx with rfl | hx
    · rw [hk, dotProduct_smul, dotProduct_sub, hsp _ hc.gsp, sub_zero, ← hs'.rg, smul_eq_mul, smul_eq_mul, ← h.step]
      have := h.pos.ne'
      field_simp
      ring
    · rw [hsp _ (hc.kry x hx), hc.cd x hx, smul_zero]; ring
  · intro x hx
    rcases List.mem_cons.1 hx with rfl | hx
    · rw [hk]
      exact Submodule.smul_mem _ _ (Submodule.sub_mem _ hg' (hmono hc.gsp))
    · exact hmono (hc.kry x hx)

/-- there are at most `n` conjugate directions -/
theorem conj_length {B : Matrix (Fin n) (Fin n) K} (hB : Bᵀ = B) {l : List (Fin n → K)} (hp : ∀ x ∈ l, 0 < x ⬝ᵥ B *ᵥ x)
    (hc : l.Pairwise fun x y => x ⬝ᵥ B *ᵥ y = 0) : l.length ≤ n := by
  have hli : LinearIndependent K fun i : Fin l.length => l.get i := by
    rw [Fintype.linearIndependent_iff]
    intro c hsum k
    have h1 : (∑ i, c i • l.get i) ⬝ᵥ B *ᵥ l.get k = 0 := by rw [hsum, zero_dotProduct]
    rw [sum_dotProduct, Finset.sum_eq_single k] at h1
    · rw [smul_dotProduct, smul_eq_mul] at h1
      exact (mul_eq_zero.1 h1).resolve_right (hp _ (List.get_mem l k)).ne'
    · intro i _ hik
      rw [smul_dotProduct]
      have h2 := List.pairwise_iff_get.1 hc
      rcases lt_or_gt_of_ne hik with hlt | hlt
      · rw [h2 i k hlt, smul_zero]
      · have := h2 k i hlt
        rw [sym_dot hB, dotProduct_comm] at this
        rw [this, smul_zero]
    · intro h; exact absurd (Finset.mem_univ k) h
  have := hli.fintype_card_le_finrank
  simpa using this

theorem cgLoop_some {q : TrProblem n K} (hq : q.Valid) {e : TrEnv K} {grad newton : Vec K} (he : TrFor q e grad)
    (hn : VOk n newton) (hn0 : dense n newton = 0) {radius : K} (hr : 0 < radius) (htol : 0 < e.relTol) (fuel : Nat) :
    ∀ (it : Nat) {s : CgState K} {l : List (Fin n → K)}, CgInv q e.relTol radius s → RayOk q s.ray → Conj q l s → n < l.length + fuel →
      ∃ res, cgLoop e grad newton radius fuel it s = some res := by
  induction fuel with
  | zero =>
    intro it s l _ _ hc hl
    exact absurd (conj_length hq.symm hc.pos hc.conj) (by omega)
  | succ fuel ih =>
    intro it s l hs hray hc hl
    rw [cgLoop]
    rcases cgPass_spec hq he hn hn0 hr htol hs hray it with ⟨res', h1, h2⟩ | ⟨s', alpha, h1, h2, h3, h4, -⟩
    · exact ⟨res', by rw [h1, Option.bind_some, cgNext]⟩
    · rw [h1, Option.bind_some, cgNext]
      exact ih (it + 1) h2 h3 (conj_succ hq hs h2 h4 hc) (by rw [List.length_cons]; omega)

end Sleqp
