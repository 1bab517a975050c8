import Verif.Props.Steihaug
import Verif.Props.DirectionEps

/-! C48 for any drop tolerance: the trust region. -/

namespace Sleqp
variable {K : Type*} [Field K] [LinearOrder K] [IsStrictOrderedRing K]
variable {n : Nat}
open Matrix

/-- Hessian product and projection are any functions which return vectors of the right size; the square root is correct -/
structure TrServes (n : Nat) (e : TrEnv K) : Prop where
  work : e.work.dim = n
  hp : ∀ d r h : Vec K, d.WF ∧ d.dim = n → e.hp d r = some h → h.WF ∧ h.dim = n
  proj : ∀ d r h : Vec K, d.WF ∧ d.dim = n → e.proj d r = some h → h.WF ∧ h.dim = n
  sqrt : ∀ x : K, 0 ≤ x → e.sqrt x * e.sqrt x = x
  zeroEps : 0 ≤ e.zeroEps

/-! ### lemmas -/

/-- dropping entries does not make vectors longer -/
theorem addScaled_short {a b r0 r : Vec K} {f g eps : K} (heps : 0 ≤ eps) (ha : VOk n a) (hb : VOk n b) (h : Vec.addScaled a b f g eps r0 = some r) :
    VOk n r ∧ r.normSq ≤ f * f * a.normSq + 2 * (f * g) * (dense n a ⬝ᵥ dense n b) + g * g * b.normSq := by
  obtain ⟨r', h1, h2, h3, h4⟩ := C03_add_scaled a b r0 f g eps ha.1 hb.1 (by rw [ha.2, hb.2]) heps
  obtain rfl : r' = r := by rw [h] at h1; injection h1 with h1; exact h1.symm
  have hr : VOk n r' := ⟨h2, by rw [h3, ha.2]⟩
  refine ⟨hr, ?_⟩
  rw [normSq_dense hr, normSq_dense ha, normSq_dense hb]
  have : f * f * (dense n a ⬝ᵥ dense n a) + 2 * (f * g) * (dense n a ⬝ᵥ dense n b) + g * g * (dense n b ⬝ᵥ dense n b) =
      ∑ i, (f * dense n a i + g * dense n b i) * (f * dense n a i + g * dense n b i) := by
    unfold dotProduct
    rw [Finset.mul_sum, Finset.mul_sum, Finset.mul_sum, ← Finset.sum_add_distrib, ← Finset.sum_add_distrib]
    exact Finset.sum_congr rfl fun i _ => by ring
  rw [this]
  refine Finset.sum_le_sum fun i _ => ?_
  unfold dense
  rw [h4 i]
  split
  · rw [mul_zero]; exact mul_self_nonneg _
  · exact le_rfl

omit [LinearOrder K] [IsStrictOrderedRing K] in
/-- both intersections of the line with the boundary -/
theorem bdry_root {zz zd dd R root s : K} (hd : dd ≠ 0) (hroot : root * root = zd * zd - dd * (zz - R)) (hs : s * s = 1) :
    1 * 1 * zz + 2 * (1 * (1 / dd * (-zd + s * root))) * zd + (1 / dd * (-zd + s * root)) * (1 / dd * (-zd + s * root)) * dd = R := by
  field_simp
  linear_combination (root * root) * hs + hroot

/-- the state of the loop: the point is in the trust region -/
structure CgIn (n : Nat) (R : K) (s : CgState K) : Prop where
  z : VOk n s.z
  r : VOk n s.r
  d : VOk n s.d
  zz : s.zz = s.z.normSq
  le : s.z.normSq ≤ R

theorem bdrySol_in {e : TrEnv K} (he : TrServes n e) {radius : K} {z d out p : Vec K} (hz : VOk n z) (hd : VOk n d)
    (h : bdrySol e.sqrt e.zeroEps radius z d out = some p) : VOk n p ∧ p.normSq ≤ radius * radius := by
  unfold bdrySol at h
  rw [dot_dense hz hd, Option.bind_some] at h
  split at h
  · rename_i hc
    obtain ⟨h1, h2⟩ := addScaled_short he.zeroEps hz hd h
    refine ⟨h1, h2.trans_eq ?_⟩
    have := bdry_root (s := 1) hc.1.ne' (he.sqrt _ hc.2) (one_mul 1)
    rw [one_mul (e.sqrt _)] at this
    exact this
  · cases h

theorem negCurv_in {e : TrEnv K} (he : TrServes n e) {grad newton Bd p : Vec K} {radius dBd : K} {s : CgState K} (hs : CgIn n (radius * radius) s)
    (h : negCurvStep e grad newton radius dBd s Bd = some p) : VOk n p ∧ p.normSq ≤ radius * radius := by
  unfold negCurvStep at h
  rw [dot_dense hs.z hs.d, Option.bind_some, hs.zz] at h
  obtain ⟨gd, -, h⟩ := Option.bind_eq_some_iff.mp h
  obtain ⟨zBd, -, h⟩ := Option.bind_eq_some_iff.mp h
  split at h
  · rename_i hc
    obtain ⟨h1, h2⟩ := addScaled_short he.zeroEps hs.z hs.d h
    refine ⟨h1, h2.trans_eq ?_⟩
    have hdisc : 0 ≤ (dense n s.z ⬝ᵥ dense n s.d) * (dense n s.z ⬝ᵥ dense n s.d) - s.d.normSq * (s.z.normSq - radius * radius) := by
      have h3 := mul_self_nonneg (dense n s.z ⬝ᵥ dense n s.d)
      have h4 := mul_nonneg hc.le (sub_nonneg.2 hs.le)
      linarith
    have hroot := he.sqrt _ hdisc
    unfold negCurvTau
    split
    · have := bdry_root (s := -1) hc.ne' hroot (by ring)
      rw [neg_one_mul, ← sub_eq_add_neg] at this
      exact this
    · have := bdry_root (s := 1) hc.ne' hroot (one_mul 1)
      rw [one_mul (e.sqrt _)] at this
      exact this
  · cases h

theorem cgPass_in {e : TrEnv K} (he : TrServes n e) {grad newton : Vec K} (hn : VOk n newton ∧ newton.normSq = 0) {radius : K} {it : Nat} {s : CgState K}
    (hs : CgIn n (radius * radius) s) {nx : CgNext K} (h : cgPass e grad newton radius it s = some nx) :
    (∀ r, nx = .done r → VOk n r.step ∧ r.step.normSq ≤ radius * radius) ∧ ∀ s', nx = .go s' → CgIn n (radius * radius) s' := by
  have hzero : VOk n newton ∧ newton.normSq ≤ radius * radius := ⟨hn.1, by rw [hn.2]; exact mul_self_nonneg _⟩
  have done : ∀ {p : Vec K} {u : Option K} {b : Bool} {y : Rayleigh K}, VOk n p ∧ p.normSq ≤ radius * radius → CgNext.done ⟨p, u, b, y⟩ = nx →
      (∀ r, nx = .done r → VOk n r.step ∧ r.step.normSq ≤ radius * radius) ∧ ∀ s', nx = .go s' → CgIn n (radius * radius) s' := by
    rintro p u b y hp rfl
    exact ⟨by rintro r h; injection h with h; subst h; exact hp, by rintro s' h; cases h⟩
  unfold cgPass at h
  split at h
  · exact done hzero (Option.some.inj h)
  split at h
  · exact done hzero (Option.some.inj h)
  split at h
  · obtain ⟨p, p1, h⟩ := Option.bind_eq_some_iff.mp h
    obtain ⟨p', q1, q2, q3⟩ := copy_spec (t := newton) hs.z hn.1.2
    obtain rfl : p' = p := by rw [p1] at q1; injection q1 with q1; exact q1.symm
    refine done ⟨q2, ?_⟩ (Option.some.inj h)
    rw [normSq_dense q2, dense_of_ents q3, ← normSq_dense hs.z]
    exact hs.le
  obtain ⟨Bd, b1, h⟩ := Option.bind_eq_some_iff.mp h
  obtain ⟨ray, -, h⟩ := Option.bind_eq_some_iff.mp h
  obtain ⟨dBd, -, h⟩ := Option.bind_eq_some_iff.mp h
  have hB := he.hp _ _ _ hs.d b1
  split at h
  · obtain ⟨p, p1, h⟩ := Option.bind_eq_some_iff.mp h
    exact done (negCurv_in he hs p1) (Option.some.inj h)
  · unfold cgPositive at h
    obtain ⟨alpha, -, h⟩ := Option.bind_eq_some_iff.mp h
    obtain ⟨z, z1, h⟩ := Option.bind_eq_some_iff.mp h
    obtain ⟨z2, -⟩ := addScaled_short he.zeroEps hs.z hs.d z1
    split at h
    · obtain ⟨p, p1, h⟩ := Option.bind_eq_some_iff.mp h
      obtain ⟨u, -, h⟩ := Option.bind_eq_some_iff.mp h
      exact done (bdrySol_in he hs.z hs.d p1) (Option.some.inj h)
    · rename_i hlt
      obtain ⟨s', u1, h⟩ := Option.bind_eq_some_iff.mp h
      injection h with h
      subst h
      refine ⟨fun r h => (by cases h), fun s'' h => ?_⟩
      injection h with h
      subst h
      unfold cgUpdate at u1
      obtain ⟨r, r1, u1⟩ := Option.bind_eq_some_iff.mp u1
      obtain ⟨g, g1, u1⟩ := Option.bind_eq_some_iff.mp u1
      obtain ⟨beta, -, u1⟩ := Option.bind_eq_some_iff.mp u1
      obtain ⟨rg, -, u1⟩ := Option.bind_eq_some_iff.mp u1
      obtain ⟨d, d1, u1⟩ := Option.bind_eq_some_iff.mp u1
      injection u1 with u1
      subst u1
      have hr := (addScaled_short he.zeroEps hs.r hB r1).1
      exact ⟨z2, hr, (addScaled_short he.zeroEps (he.proj _ _ _ hr g1) hs.d d1).1, rfl, (not_le.1 hlt).le⟩

theorem cgLoop_in {e : TrEnv K} (he : TrServes n e) {grad newton : Vec K} (hn : VOk n newton ∧ newton.normSq = 0) {radius : K} :
    ∀ (fuel it : Nat) (s : CgState K), CgIn n (radius * radius) s → ∀ {res : TrResult K}, cgLoop e grad newton radius fuel it s = some res →
      VOk n res.step ∧ res.step.normSq ≤ radius * radius := by
  intro fuel
  induction fuel with
  | zero => intro it s _ res h; cases h
  | succ fuel ih =>
    intro it s hs res h
    unfold cgLoop at h
    obtain ⟨nx, n1, h⟩ := Option.bind_eq_some_iff.mp h
    obtain ⟨a, b⟩ := cgPass_in he hn hs n1
    cases nx with
    | done r =>
      have : r = res := Option.some.inj h
      subst this
      exact a _ rfl
    | go s' => exact ih (it + 1) s' (b _ rfl) h

/-- C48, the trust region: for every drop tolerance, and whatever Hessian products and projections are returned, the step lies in the trust region.
The null space and the model value are missing: with a positive drop tolerance the step can leave the null space (`C48_drop_violated`). -/
theorem C48_region_partial {e : TrEnv K} (he : TrServes n e) {grad newton : Vec K} (hg : grad.WF ∧ grad.dim = n) (hn : newton.WF ∧ newton.dim = n) {radius : K}
    (fuel : Nat) {res : TrResult K} (h : steihaug e fuel grad newton radius = some res) :
    (res.step.WF ∧ res.step.dim = n) ∧ dense n res.step ⬝ᵥ dense n res.step ≤ radius * radius := by
  have key : VOk n res.step ∧ res.step.normSq ≤ radius * radius := by
    have hc : VOk n newton.clear := (clear_vok hn).1
    have hw : VOk n e.work.clear := ⟨⟨by simp [Vec.clear, Srt], by simp [Vec.clear], by simp [Vec.clear]⟩, he.work⟩
    unfold steihaug at h
    obtain ⟨r, r1, h⟩ := Option.bind_eq_some_iff.mp h
    obtain ⟨g, g1, h⟩ := Option.bind_eq_some_iff.mp h
    obtain ⟨g', g2, h⟩ := Option.bind_eq_some_iff.mp h
    obtain ⟨r', q1, q2, -⟩ := copy_spec (t := e.work) hg he.work
    obtain rfl : r' = r := by rw [r1] at q1; injection q1 with q1; exact q1.symm
    have hgo := he.proj _ _ _ q2 g1
    obtain ⟨g'', k1, k2, -⟩ := copy_spec (t := e.work) hgo he.work
    obtain rfl : g'' = g' := by rw [g2] at k1; injection k1 with k1; exact k1.symm
    split at h
    · obtain ⟨p, p1, h⟩ := Option.bind_eq_some_iff.mp h
      injection h with h
      subst h
      obtain ⟨p', l1, l2, l3⟩ := copy_spec (t := newton.clear) hw hc.2
      obtain rfl : p' = p := by rw [p1] at l1; injection l1 with l1; exact l1.symm
      refine ⟨l2, ?_⟩
      show p'.normSq ≤ _
      rw [normSq_dense l2, dense_of_ents l3, ← normSq_dense hw]
      show (0 : K) ≤ _
      exact mul_self_nonneg _
    · obtain ⟨rg, -, h⟩ := Option.bind_eq_some_iff.mp h
      exact cgLoop_in he ⟨hc, rfl⟩ fuel 0 _ ⟨hw, q2, (scale_dense k2 (-1)).1, rfl, mul_self_nonneg _⟩ h
  exact ⟨key.1, by rw [← normSq_dense key.1]; exact key.2⟩

/-! ### sample: the default drop tolerance -/

/-- sample solver over the reals which drops entries up to `1e-20` -/
noncomputable def exTrEps (n : Nat) (b : ℝ) (maxIter : Int) : TrEnv ℝ := { exTr n b maxIter with zeroEps := 1 / 10 ^ 20 }

theorem exTrEps_serves (n : Nat) (b : ℝ) (maxIter : Int) : TrServes n (exTrEps n b maxIter) :=
  ⟨rfl, fun d _ h hd e => by injection e with e; subst e; exact (scale_dense hd b).1,
    fun d _ h hd e => by injection e with e; subst e; exact hd, fun _ hx => Real.mul_self_sqrt hx, by norm_num [exTrEps]⟩

/-- with the concave model `-3 x - x²/2` the boundary is reached -/
example : ∃ res, steihaug (exTrEps 1 (-1) (-1)) 2 ⟨1, 1, [(0, -3)]⟩ (Vec.create 1 0) 2 = some res ∧
    dense 1 res.step ⬝ᵥ dense 1 res.step ≤ 2 * 2 := by
  obtain ⟨res, h⟩ : ∃ res, steihaug (exTrEps 1 (-1) (-1)) 2 ⟨1, 1, [(0, -3)]⟩ (Vec.create 1 0) 2 = some res := by
    have h1 : Vec.copy (⟨1, 1, [(0, -3)]⟩ : Vec ℝ) ⟨1, 0, []⟩ = some ⟨1, 1, [(0, -3)]⟩ := rfl
    obtain ⟨p, h2, -⟩ := C03_add_scaled (⟨1, 0, []⟩ : Vec ℝ) ⟨1, 1, [(0, 3)]⟩ ⟨1, 0, []⟩ 1
      (negCurvTau (Real.sqrt 36) 9 0 (-9) 0 (-9)) (1 / 10 ^ 20) ⟨by simp [Srt], by simp, by simp⟩ ⟨by simp [Srt], by simp, by simp⟩ rfl (by norm_num)
    norm_num at h2
    unfold steihaug
    norm_num [exTrEps, exTr, h1, Vec.clear, Vec.normSq, cgLoop, cgPass, Vec.scale, Vec.dot, Vec.dotList, negCurvStep, collectRayleigh, Vec.create]
    norm_num [h2]
    exact ⟨_, rfl⟩
  exact ⟨res, h, (C48_region_partial (exTrEps_serves 1 (-1) (-1)) ⟨⟨by simp [Srt], by simp, by simp⟩, rfl⟩ (create_ok 1 0) 2 h).2⟩

end Sleqp
