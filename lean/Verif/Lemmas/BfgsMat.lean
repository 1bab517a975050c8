import Verif.Spec.Bfgs
import Mathlib.Tactic.Linarith
import Mathlib.Tactic.Ring
import Mathlib.Tactic.FieldSimp
import Mathlib.Tactic.NormNum
import Mathlib.Tactic.Positivity
import Mathlib.Algebra.Order.BigOperators.Ring.Finset

/-! Facts about the BFGS recursion on matrices. -/

namespace Sleqp
open Matrix

variable {K : Type*} [Field K] [LinearOrder K] [IsStrictOrderedRing K] {n : Nat}

omit [LinearOrder K] [IsStrictOrderedRing K] in
theorem symm_swap {B : Matrix (Fin n) (Fin n) K} (h : B.IsSymm) (d e : Fin n → K) :
    d ⬝ᵥ B *ᵥ e = e ⬝ᵥ B *ᵥ d := by
  rw [dotProduct_mulVec, ← mulVec_transpose, h.eq, dotProduct_comm]

omit [LinearOrder K] [IsStrictOrderedRing K] in
theorem bfgsUpdate_mulVec (B : Matrix (Fin n) (Fin n) K) (s r d : Fin n → K) (c : K) :
    bfgsUpdate B s r c *ᵥ d =
      c • (B *ᵥ d - ((B *ᵥ s ⬝ᵥ d) / (s ⬝ᵥ B *ᵥ s)) • (B *ᵥ s)) + ((r ⬝ᵥ d) / (r ⬝ᵥ s)) • r := by
  unfold bfgsUpdate
  rw [add_mulVec, smul_mulVec, sub_mulVec, smul_mulVec, smul_mulVec, vecMulVec_mulVec, vecMulVec_mulVec]
  ext i
  simp [div_eq_mul_inv]
  ring

omit [LinearOrder K] [IsStrictOrderedRing K] in
/-- the secant equation -/
theorem bfgsUpdate_secant (B : Matrix (Fin n) (Fin n) K) (s r : Fin n → K) (c : K)
    (hB : s ⬝ᵥ B *ᵥ s ≠ 0) (hr : r ⬝ᵥ s ≠ 0) : bfgsUpdate B s r c *ᵥ s = r := by
  rw [bfgsUpdate_mulVec, dotProduct_comm (B *ᵥ s) s, div_self hB, div_self hr]
  simp

omit [LinearOrder K] [IsStrictOrderedRing K] in
theorem bfgsUpdate_symm {B : Matrix (Fin n) (Fin n) K} (h : B.IsSymm) (s r : Fin n → K) (c : K) :
    (bfgsUpdate B s r c).IsSymm := by
  unfold bfgsUpdate
  refine IsSymm.add (IsSymm.smul (IsSymm.sub h (IsSymm.smul ?_ _)) _) (IsSymm.smul ?_ _) <;>
    exact IsSymm.ext fun i j => by simp [vecMulVec_apply, mul_comm]

theorem dot_self_pos {d : Fin n → K} (h : d ≠ 0) : 0 < d ⬝ᵥ d := by
  have h0 : 0 ≤ d ⬝ᵥ d := Finset.sum_nonneg fun i _ => mul_self_nonneg (d i)
  refine lt_of_le_of_ne h0 fun he => h ?_
  funext i
  have := (Finset.sum_eq_zero_iff_of_nonneg (fun i _ => mul_self_nonneg (d i))).mp he.symm i (Finset.mem_univ _)
  exact mul_self_eq_zero.mp this

theorem symPos_nonneg {B : Matrix (Fin n) (Fin n) K} (h : SymPos B) (d : Fin n → K) : 0 ≤ d ⬝ᵥ B *ᵥ d := by
  by_cases hd : d = 0
  · subst hd; simp
  · exact le_of_lt (h.2 d hd)

/-- The update keeps symmetric positive matrices. -/
theorem bfgsUpdate_symPos {B : Matrix (Fin n) (Fin n) K} (h : SymPos B) (s r : Fin n → K) (c : K)
    (hs : s ≠ 0) (hr : 0 < r ⬝ᵥ s) (hc : 0 < c) : SymPos (bfgsUpdate B s r c) := by
  refine ⟨bfgsUpdate_symm h.1 s r c, fun d hd => ?_⟩
  have hb := h.2 s hs
  rw [bfgsUpdate_mulVec]
  obtain ⟨b, hbe⟩ : ∃ b, b = s ⬝ᵥ B *ᵥ s := ⟨_, rfl⟩
  obtain ⟨q, hq⟩ : ∃ q, q = d ⬝ᵥ B *ᵥ s := ⟨_, rfl⟩
  obtain ⟨a, ha⟩ : ∃ a, a = d ⬝ᵥ B *ᵥ d := ⟨_, rfl⟩
  obtain ⟨t, ht⟩ : ∃ t, t = q / b := ⟨_, rfl⟩
  have hval : d ⬝ᵥ (c • (B *ᵥ d - ((B *ᵥ s ⬝ᵥ d) / (s ⬝ᵥ B *ᵥ s)) • (B *ᵥ s)) + ((r ⬝ᵥ d) / (r ⬝ᵥ s)) • r) =
      c * (a - q ^ 2 / b) + (r ⬝ᵥ d) ^ 2 / (r ⬝ᵥ s) := by
    rw [dotProduct_add, dotProduct_smul, dotProduct_sub, dotProduct_smul, dotProduct_smul,
      dotProduct_comm (B *ᵥ s) d, ← hq, ← ha, ← hbe, dotProduct_comm d r]
    simp only [smul_eq_mul]
    ring
  have hb' : 0 < b := hbe ▸ hb
  -- the first part is the value of the form at `d - t s`
  have he : (d - t • s) ⬝ᵥ B *ᵥ (d - t • s) = a - q ^ 2 / b := by
    rw [mulVec_sub, mulVec_smul, sub_dotProduct, dotProduct_sub, dotProduct_sub, smul_dotProduct,
      smul_dotProduct, dotProduct_smul, dotProduct_smul, ← ha, ← hq, ← hbe, symm_swap h.1 s d, ← hq]
    simp only [smul_eq_mul, ht]
    field_simp
    ring
  rw [hval, ← he]
  by_cases hz : d - t • s = 0
  · have hd' : d = t • s := sub_eq_zero.mp hz
    have ht0 : t ≠ 0 := by
      rintro h0
      rw [h0, zero_smul] at hd'
      exact hd hd'
    rw [hz]
    simp only [zero_dotProduct, mul_zero, zero_add]
    rw [hd', dotProduct_smul, smul_eq_mul]
    have : 0 < (t * (r ⬝ᵥ s)) ^ 2 := by positivity
    positivity
  · have := h.2 _ hz
    have h2 : 0 ≤ (r ⬝ᵥ d) ^ 2 / (r ⬝ᵥ s) := by positivity
    have h3 : 0 < c * ((d - t • s) ⬝ᵥ B *ᵥ (d - t • s)) := mul_pos hc this
    linarith

theorem smul_one_symPos {c : K} (hc : 0 < c) : SymPos (c • (1 : Matrix (Fin n) (Fin n) K)) := by
  refine ⟨IsSymm.smul isSymm_one c, fun d hd => ?_⟩
  rw [smul_mulVec, one_mulVec, dotProduct_smul, smul_eq_mul]
  exact mul_pos hc (dot_self_pos hd)

theorem one_symPos : SymPos (1 : Matrix (Fin n) (Fin n) K) := by
  have := smul_one_symPos (n := n) (one_pos : (0 : K) < 1)
  rwa [one_smul] at this

/-- Damping makes the product with the step positive. -/
theorem powell_pos {B : Matrix (Fin n) (Fin n) K} (damped : Bool) (s y : Fin n → K) (hb : 0 < s ⬝ᵥ B *ᵥ s)
    (h : damped = true ∨ 0 < y ⬝ᵥ s) : 0 < powell damped B s y ⬝ᵥ s := by
  unfold powell
  split
  · rename_i hd
    obtain ⟨b, hbe⟩ : ∃ b, b = s ⬝ᵥ B *ᵥ s := ⟨_, rfl⟩
    obtain ⟨w, hw⟩ : ∃ w, w = y ⬝ᵥ s := ⟨_, rfl⟩
    rw [← hbe, ← hw] at hd
    rw [← hbe] at hb
    have hlt := hd.2
    have hpos : 0 < b - w := by linarith
    simp only
    rw [add_dotProduct, smul_dotProduct, smul_dotProduct, dotProduct_comm (B *ᵥ s) s, ← hbe, ← hw]
    simp only [smul_eq_mul]
    have : 4 / 5 * b / (b - w) * w + (1 - 4 / 5 * b / (b - w)) * b = 1 / 5 * b := by
      field_simp; ring
    rw [this]
    linarith
  · rename_i hd
    rcases h with h | h
    · have : ¬ y ⬝ᵥ s < 1 / 5 * (s ⬝ᵥ B *ᵥ s) := fun hc => hd ⟨h, hc⟩
      have := not_lt.mp this
      linarith
    · exact h

theorem olSizing_pos (ol : Bool) (prev : Option (K × K × K)) (B : Matrix (Fin n) (Fin n) K) (s y : Fin n → K) :
    1 / 10 ≤ olSizing ol prev B s y ∧ olSizing ol prev B s y ≤ 1 := by
  unfold olSizing
  split
  · exact ⟨le_min (le_max_right _ _) (by norm_num), min_le_right _ _⟩
  · norm_num

theorem bfgsScale_pos (damped : Bool) (s y : Fin n → K) : 0 < bfgsScale damped s y := by
  unfold bfgsScale
  have h : (0 : K) < 1 / 1000000 := by norm_num
  split
  · norm_num
  · split
    · exact lt_min (lt_of_lt_of_le h (le_max_right _ _)) one_pos
    · exact lt_of_lt_of_le h (le_max_right _ _)

/-- a pair that can be used: nonzero step, and positive curvature unless damping is on -/
def PairOk (damped : Bool) (p : (Fin n → K) × (Fin n → K)) : Prop :=
  p.1 ≠ 0 ∧ (damped = true ∨ 0 < p.2 ⬝ᵥ p.1)

theorem bfgsFold_symPos (damped ol : Bool) {c : K} (hc : 0 < c) (ps : List ((Fin n → K) × (Fin n → K)))
    (h : ∀ p ∈ ps, PairOk damped p) : SymPos (bfgsFold damped ol c ps).1 := by
  unfold bfgsFold
  suffices H : ∀ st : Matrix (Fin n) (Fin n) K × Option (K × K × K), SymPos st.1 →
      SymPos (ps.foldl (bfgsStep damped ol) st).1 from H _ (smul_one_symPos hc)
  induction ps with
  | nil => exact fun st h => h
  | cons p ps ih =>
    intro st hst
    have hp := h p (by simp)
    refine ih (fun q hq => h q (by simp [hq])) _ ?_
    exact bfgsUpdate_symPos hst _ _ _ hp.1 (powell_pos damped _ _ (hst.2 _ hp.1) hp.2)
      (lt_of_lt_of_le (by norm_num) (olSizing_pos ol _ _ _ _).1)

end Sleqp
