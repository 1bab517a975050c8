import Verif.Props.Vec

/-! C05 with a positive tolerance. -/

namespace Sleqp
variable {K : Type*} [Field K] [LinearOrder K] [IsStrictOrderedRing K]

/-- C05 for a positive tolerance, in part: if no lower bound lies in `(0, eps]` and no upper bound
in `[-eps, 0)`, `clip` succeeds, its result is within the bounds, and differs from the exact
projection only where that is replaced by zero. Missing: other bounds, for which the final assert
may fail (`C05_clip_tolerance_assert_fails`). -/
theorem C05_clip_tolerance_partial (x lb ub x0 : Vec K) {eps : K} (heps : 0 ≤ eps) (hx : x.WF) (hl : lb.WF) (hu : ub.WF)
    (d1 : lb.dim = x.dim) (d2 : ub.dim = x.dim) (d3 : x0.dim = x.dim)
    (hle : ∀ i < x.dim, lb.value i ≤ ub.value i) (hlb : ∀ i < x.dim, lb.value i ≤ 0 ∨ eps < lb.value i)
    (hub : ∀ i < x.dim, 0 ≤ ub.value i ∨ ub.value i < -eps) :
    ∃ r, Vec.clip x lb ub eps x0 = some r ∧ r.WF ∧ r.dim = x.dim ∧
      (∀ i < x.dim, r.value i = (if |min (max (x.value i) (lb.value i)) (ub.value i)| ≤ eps then 0
         else min (max (x.value i) (lb.value i)) (ub.value i))) ∧
      ∀ i < x.dim, lb.value i ≤ r.value i ∧ r.value i ≤ ub.value i := by
  obtain ⟨r, h1, h2, h3, h4⟩ := C05_clip_loop x lb ub x0 eps hx hl hu d1 d2 d3 hle heps
  have hbox : ∀ i < x.dim, lb.value i ≤ r.value i ∧ r.value i ≤ ub.value i := by
    intro i hi
    rw [h4 i]
    have h5 : lb.value i ≤ min (max (x.value i) (lb.value i)) (ub.value i) := le_min (le_max_right _ _) (hle i hi)
    have h6 : min (max (x.value i) (lb.value i)) (ub.value i) ≤ ub.value i := min_le_right _ _
    split
    · rename_i ha
      rw [abs_le] at ha
      refine ⟨(hlb i hi).resolve_right fun hh => absurd (lt_of_lt_of_le hh (h5.trans ha.2)) (lt_irrefl _),
        (hub i hi).resolve_right fun hh => absurd (lt_of_le_of_lt (ha.1.trans h6) hh) (lt_irrefl _)⟩
    · exact ⟨h5, h6⟩
  obtain ⟨b, b1, b2⟩ := C05_is_boxed r lb ub h2 hl hu (by omega) (by omega)
  have hb : b = true := b2.mpr fun i hi => hbox i (by omega)
  refine ⟨r, ?_, h2, h3, fun i _ => h4 i, hbox⟩
  unfold Vec.clip
  rw [h1, Option.bind_some, b1, hb]

/-- the hypotheses hold for the bounds `[0, 1]`, `[-2, 0]`, `[1, 3]` with tolerance `1/2` -/
example : ∀ i < 3, ((⟨3, 3, [(1, -2), (2, 1)]⟩ : Vec ℚ).value i ≤ 0 ∨ 1 / 2 < (⟨3, 3, [(1, -2), (2, 1)]⟩ : Vec ℚ).value i) ∧
    (0 ≤ (⟨3, 3, [(0, 1), (2, 3)]⟩ : Vec ℚ).value i ∨ (⟨3, 3, [(0, 1), (2, 3)]⟩ : Vec ℚ).value i < -(1 / 2)) := by
  decide +kernel

end Sleqp
