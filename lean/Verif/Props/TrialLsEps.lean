import Verif.Props.DirectionEps
import Verif.Props.TrialLs
import Verif.Spec.Soc

/-!
C44 for any drop tolerance.
-/

namespace Sleqp
variable {K : Type*} [Field K] [LinearOrder K] [IsStrictOrderedRing K]
variable {n m : Nat}
open Matrix

/-! ### specification -/

/-- the slope used in the test, if the values of the linearised constraints at the step `c` are `y` -/
def LocalModel.slopeAt (q : LocalModel n m K) (y : Fin m → K) (c d : Fin n → K) : K :=
  q.g ⬝ᵥ (d - c) + (fun i => violSign (y i) (q.lb i) (q.ub i)) ⬝ᵥ (q.J *ᵥ (d - c)) + c ⬝ᵥ q.H *ᵥ (d - c)

/-- the error of merit values on the segment: penalty parameter times number of constraints times the errors of the products and of two sums -/
def trialErr (q : LocalModel n m K) (δ δ' eps alpha : K) : K := q.penalty * (m * ((1 - alpha) * δ + alpha * δ' + 2 * eps))

/-! ### lemmas -/

theorem addScaled_dropped {a b r0 : Vec K} (f g : K) {eps : K} (heps : 0 ≤ eps) (ha : VOk n a) (hb : VOk n b) :
    ∃ r, Vec.addScaled a b f g eps r0 = some r ∧ VOk n r ∧ ∀ i, dense n r i = dropSmall eps (f * dense n a i + g * dense n b i) := by
  obtain ⟨r, h1, h2, h3, h4⟩ := C03_add_scaled a b r0 f g eps ha.1 hb.1 (by rw [ha.2, hb.2]) heps
  exact ⟨r, h1, ⟨h2, by rw [h3, ha.2]⟩, fun i => h4 i⟩

theorem near_exact {x y : K} (h : |x - y| ≤ 0) : x = y := sub_eq_zero.1 (abs_nonpos_iff.1 h)

theorem trialMerit_near {q : LocalModel n m K} (hH : q.H.IsSymm) {e : MeritEnv K} (he : EnvNear q e) (hpen : 0 ≤ q.penalty) {C N : Dir K} {c d : Fin n → K}
    {δ δ' : K} (hC : DirNear q C c ⟨0, 0, δ, 0⟩) (hN : DirNear q N d ⟨0, 0, δ', 0⟩) {a : K} (a0 : 0 ≤ a) (a1 : a ≤ 1) :
    ∃ v, trialMerit e C N ⟨c ⬝ᵥ q.H *ᵥ c, c ⬝ᵥ q.H *ᵥ d, d ⬝ᵥ q.H *ᵥ d⟩ a = some v ∧ |v - q.quad (segment c d a)| ≤ trialErr q δ δ' e.zeroEps a := by
  have hd := he.data
  have hcv : dense m e.cons = q.c := hd.c
  obtain ⟨v1, b1, b2, b3⟩ := addScaled_near (r0 := e.work) (1 : K) (1 - a) he.eps hd.okC hC.okC
  obtain ⟨v2, c1, c2, c3⟩ := addScaled_near (r0 := e.work) (1 : K) a he.eps b2 hN.okC
  have n1 : ∀ i, |dense m v1 i - (1 * q.c i + (1 - a) * (q.J *ᵥ c) i)| ≤ |1| * 0 + |1 - a| * δ + e.zeroEps := fun i =>
    comb_near (b3 i) (by show |dense m e.cons i - q.c i| ≤ 0; rw [hcv, sub_self, abs_zero]) (hC.jac i)
  have n2 : ∀ i, |dense m v2 i - (q.c i + (q.J *ᵥ segment c d a) i)| ≤ (1 - a) * δ + a * δ' + 2 * e.zeroEps := fun i => by
    have := comb_near (c3 i) (n1 i) (hN.jac i)
    rw [abs_one, abs_of_nonneg a0, abs_of_nonneg (sub_nonneg.2 a1)] at this
    have e1 : q.c i + (q.J *ᵥ segment c d a) i = 1 * (1 * q.c i + (1 - a) * (q.J *ᵥ c) i) + a * (q.J *ᵥ d) i := by
      simp only [segment, mulVec_add, mulVec_smul, Pi.add_apply, Pi.smul_apply, smul_eq_mul]; ring
    rw [e1]
    refine this.trans (le_of_eq ?_)
    show 1 * (1 * 0 + (1 - a) * δ + e.zeroEps) + a * δ' + e.zeroEps = _
    ring
  have hnear := total_near (q := q) n2
  have htot : totalViolation e.numCons v2 e.consLb e.consUb = some (∑ i, viol (dense m v2 i) (q.lb i) (q.ub i)) := total_dense hd c2
  have hf : e.objVal = q.f := hd.f
  have hpe : e.penalty = q.penalty := hd.pen
  refine ⟨q.f + (1 - a) * (q.g ⬝ᵥ c) + a * (q.g ⬝ᵥ d) + q.penalty * (∑ i, viol (dense m v2 i) (q.lb i) (q.ub i)) +
    (1 / 2 * (1 - a) * (1 - a) * (c ⬝ᵥ q.H *ᵥ c) + a * ((1 - a) * (c ⬝ᵥ q.H *ᵥ d) + 1 / 2 * a * (d ⬝ᵥ q.H *ᵥ d))), ?_, ?_⟩
  · unfold trialMerit
    rw [b1, Option.bind_some, c1, Option.bind_some, htot, Option.bind_some, hf, hpe, near_exact hC.grad, near_exact hN.grad]
  · have e2 : q.quad (segment c d a) = q.f + (1 - a) * (q.g ⬝ᵥ c) + a * (q.g ⬝ᵥ d) + q.penalty * q.viol (segment c d a) +
        (1 / 2 * (1 - a) * (1 - a) * (c ⬝ᵥ q.H *ᵥ c) + a * ((1 - a) * (c ⬝ᵥ q.H *ᵥ d) + 1 / 2 * a * (d ⬝ᵥ q.H *ᵥ d))) := by
      unfold LocalModel.quad LocalModel.lin
      rw [segment_curv hH]
      unfold segment
      simp only [dotProduct_add, dotProduct_smul, smul_eq_mul]
      ring
    rw [e2, show ∀ x y z w : K, x + q.penalty * y + z - (x + q.penalty * w + z) = q.penalty * (y - w) by intros; ring, abs_mul, abs_of_nonneg hpen]
    exact mul_le_mul_of_nonneg_left hnear hpen

theorem trialSlope_near {q : LocalModel n m K} {e : MeritEnv K} (he : EnvNear q e) {C N : Dir K} {c d : Fin n → K} {δ δ' : K}
    (hC : DirNear q C c ⟨0, 0, δ, 0⟩) (hN : DirNear q N d ⟨0, 0, δ', 0⟩) (nn : K) {work : Vec K} (hw : work.dim = m) :
    ∃ s y, trialSlope e C N ⟨c ⬝ᵥ q.H *ᵥ c, c ⬝ᵥ q.H *ᵥ d, nn⟩ work = some s ∧ (∀ i, |y i - (q.c i + (q.J *ᵥ c) i)| ≤ δ + e.zeroEps) ∧
      |s - q.slopeAt y c d| ≤ m * (δ + δ') := by
  have hd := he.data
  have hcv : dense m e.cons = q.c := hd.c
  obtain ⟨v1, a1, a2, a3⟩ := addScaled_near (r0 := e.work) (1 : K) 1 he.eps hd.okC hC.okC
  have hb : Boxed m v1 e.consLb e.consUb := ⟨a2.1, hd.okL.1, hd.okU.1, a2.2, hd.okL.2, hd.okU.2, fun i hi => by
    have := hd.le ⟨i, hi⟩
    rw [← hd.lb, ← hd.ub] at this
    exact this⟩
  obtain ⟨r, r1, r2, r3, r4⟩ := C13_multipliers hb (fun _ => false) work hw
  have hr : dense m r = fun i => violSign (dense m v1 i) (q.lb i) (q.ub i) := by
    funext i
    show r.value i = _
    rw [r4 i]
    have e2 : e.consLb.value i = q.lb i := congrFun hd.lb i
    have e3 : e.consUb.value i = q.ub i := congrFun hd.ub i
    rw [show v1.value i = dense m v1 i from rfl, e2, e3]
    simp [violSign]
  have hnum : e.numCons = m := hd.num
  have hsgn : ∀ i, |violSign (dense m v1 i) (q.lb i) (q.ub i)| ≤ 1 := fun i => by
    unfold violSign
    split
    · rw [abs_one]
    · split
      · rw [abs_neg, abs_one]
      · rw [abs_zero]; exact zero_le_one
  refine ⟨_, dense m v1, by
    unfold trialSlope
    rw [a1, Option.bind_some, hnum, r1, Option.bind_some, dot_dense ⟨r2, r3⟩ hC.okC, Option.bind_some, dot_dense ⟨r2, r3⟩ hN.okC, Option.bind_some],
    fun i => ?_, ?_⟩
  · have := comb_near (x' := q.c i) (δ := 0) (a3 i) (by rw [hcv, sub_self, abs_zero]) (hC.jac i)
    simpa using this
  · rw [near_exact hC.grad, near_exact hN.grad, hr]
    unfold LocalModel.slopeAt
    have e1 : q.g ⬝ᵥ d + (fun i => violSign (dense m v1 i) (q.lb i) (q.ub i)) ⬝ᵥ dense m N.consJac + c ⬝ᵥ q.H *ᵥ d -
        (q.g ⬝ᵥ c + (fun i => violSign (dense m v1 i) (q.lb i) (q.ub i)) ⬝ᵥ dense m C.consJac + c ⬝ᵥ q.H *ᵥ c) -
        (q.g ⬝ᵥ (d - c) + (fun i => violSign (dense m v1 i) (q.lb i) (q.ub i)) ⬝ᵥ (q.J *ᵥ (d - c)) + c ⬝ᵥ q.H *ᵥ (d - c)) =
        ∑ i, violSign (dense m v1 i) (q.lb i) (q.ub i) * ((dense m N.consJac i - (q.J *ᵥ d) i) - (dense m C.consJac i - (q.J *ᵥ c) i)) := by
      simp only [mulVec_sub, dotProduct_sub]
      simp only [mul_sub, Finset.sum_sub_distrib]
      simp only [dotProduct]
      ring
    rw [e1]
    refine (Finset.abs_sum_le_sum_abs _ _).trans ?_
    refine (Finset.sum_le_sum (g := fun _ => δ + δ') fun i _ => ?_).trans ?_
    · rw [abs_mul]
      refine (mul_le_of_le_one_left (abs_nonneg _) (hsgn i)).trans ((abs_sub _ _).trans ?_)
      rw [add_comm]
      exact add_le_add (hC.jac i) (hN.jac i)
    · rw [Finset.sum_const, Finset.card_univ, Fintype.card_fin, nsmul_eq_mul]

/-- possible outcomes of the search: the Cauchy step, or a point of the segment that passes the test -/
structure TrialOutNear (q : LocalModel n m K) (eps eta top mu slope : K) (c d : Fin n → K) (δ δ' : K) (r : TrialRes K) : Prop where
  range : 0 ≤ r.alpha ∧ r.alpha ≤ top
  zero : r.alpha = 0 → DirNear q r.dir c ⟨0, 0, δ, 0⟩ ∧ r.merit = mu
  dir : r.alpha ≠ 0 → DirNear q r.dir (segment c d r.alpha) ⟨eps, 0, (1 - r.alpha) * δ + r.alpha * δ' + eps, eps⟩
  merit : r.alpha ≠ 0 → |r.merit - q.quad (segment c d r.alpha)| ≤ trialErr q δ δ' eps r.alpha
  armijo : r.merit ≤ mu + eta * (r.alpha * slope)

theorem trialFallback_near {q : LocalModel n m K} {C T : Dir K} {c : Fin n → K} {δ : K} (hC : DirNear q C c ⟨0, 0, δ, 0⟩) (d : Fin n → K) (δ' eps mu slope : K)
    (tp : T.primal.dim = n) (tc : T.consJac.dim = m) (th : T.hess.dim = n) (eta : K) {top : K} (h0 : 0 ≤ top) :
    ∃ r, trialFallback C mu T = some r ∧ TrialOutNear q eps eta top mu slope c d δ δ' r := by
  obtain ⟨D', h1, h2⟩ := copy_near hC tp tc th
  exact ⟨⟨D', 0, mu⟩, by unfold trialFallback; rw [h1]; rfl, ⟨⟨le_rfl, h0⟩, fun _ => ⟨h2, rfl⟩, fun h => absurd rfl h, fun h => absurd rfl h, by simp⟩⟩

theorem trialLoop_near {q : LocalModel n m K} (hH : q.H.IsSymm) {e : MeritEnv K} (he : EnvNear q e) (hpen : 0 ≤ q.penalty) {C N T : Dir K} {c d : Fin n → K}
    {δ δ' : K} (hC : DirNear q C c ⟨0, 0, δ, 0⟩) (hN : DirNear q N d ⟨0, 0, δ', 0⟩) {p : LsParams K} (t0 : 0 < p.lsTau) (t1 : p.lsTau ≤ 1)
    (tp : T.primal.dim = n) (tc : T.consJac.dim = m) (th : T.hess.dim = n) (mu slope : K) (k : Nat) : ∀ {alpha : K}, 0 < alpha → alpha ≤ 1 → ∀ {r},
    trialLoop e p C N mu slope ⟨c ⬝ᵥ q.H *ᵥ c, c ⬝ᵥ q.H *ᵥ d, d ⬝ᵥ q.H *ᵥ d⟩ T k alpha = some r →
      TrialOutNear q e.zeroEps p.lsEta alpha mu slope c d δ δ' r := by
  induction k with
  | zero => intro alpha _ _ r h; exact absurd h (by simp [trialLoop])
  | succ k ih =>
    intro alpha ha ha1 r h
    obtain ⟨v, v1, v2⟩ := trialMerit_near hH he hpen hC hN ha.le ha1
    rw [trialLoop, v1, Option.bind_some] at h
    split at h
    · rename_i ht
      obtain ⟨D', h1, h2⟩ := combine_near (R := T) he.eps hC hN (1 - alpha) alpha
      rw [h1, Option.bind_some, Option.some_inj] at h
      subst h
      refine ⟨⟨ha.le, le_rfl⟩, fun h => absurd h ha.ne', fun _ => ?_, fun _ => v2, ht⟩
      rw [abs_of_nonneg ha.le, abs_of_nonneg (sub_nonneg.2 ha1)] at h2
      show DirNear q D' ((1 - alpha) • c + alpha • d) ⟨e.zeroEps, 0, (1 - alpha) * δ + alpha * δ' + e.zeroEps, e.zeroEps⟩
      simpa using h2
    · split at h
      · obtain ⟨r', f1, f2⟩ := trialFallback_near hC d δ' e.zeroEps mu slope tp tc th p.lsEta ha.le
        rw [f1, Option.some_inj] at h
        subst h
        exact f2
      · obtain ⟨o1, o2, o3, o4, o5⟩ := ih (mul_pos ha t0) ((mul_le_of_le_one_right ha.le t1).trans ha1) h
        exact ⟨⟨o1.1, o1.2.trans (mul_le_of_le_one_right ha.le t1)⟩, o2, o3, o4, o5⟩

theorem trialLoop_near_some {q : LocalModel n m K} (hH : q.H.IsSymm) {e : MeritEnv K} (he : EnvNear q e) (hpen : 0 ≤ q.penalty) {C N T : Dir K} {c d : Fin n → K}
    {δ δ' : K} (hC : DirNear q C c ⟨0, 0, δ, 0⟩) (hN : DirNear q N d ⟨0, 0, δ', 0⟩) {p : LsParams K} (t0 : 0 < p.lsTau) (t1 : p.lsTau ≤ 1)
    (tp : T.primal.dim = n) (tc : T.consJac.dim = m) (th : T.hess.dim = n) (mu slope : K) (k : Nat) : ∀ {alpha : K}, 0 < alpha → alpha ≤ 1 →
    alpha * p.lsTau ^ (k + 1) ≤ p.lsCutoff →
    ∃ r, trialLoop e p C N mu slope ⟨c ⬝ᵥ q.H *ᵥ c, c ⬝ᵥ q.H *ᵥ d, d ⬝ᵥ q.H *ᵥ d⟩ T (k + 1) alpha = some r := by
  have hacc : ∀ alpha v, ∃ r : TrialRes K, ((C.addScaled N (1 - alpha) alpha e.zeroEps T).bind fun d' => some ⟨d', alpha, v⟩) = some r := by
    intro alpha v
    obtain ⟨D', h1, h2⟩ := combine_near (R := T) he.eps hC hN (1 - alpha) alpha
    rw [h1]; exact ⟨_, rfl⟩
  obtain ⟨r', f1, -⟩ := trialFallback_near hC d δ' e.zeroEps mu slope tp tc th p.lsEta (le_refl (0 : K))
  induction k with
  | zero =>
    intro alpha ha ha1 h
    obtain ⟨v, v1, v2⟩ := trialMerit_near hH he hpen hC hN ha.le ha1
    rw [trialLoop, v1, Option.bind_some]
    split
    · exact hacc alpha v
    · rw [if_pos (by simpa using h)]; exact ⟨_, f1⟩
  | succ k ih =>
    intro alpha ha ha1 h
    obtain ⟨v, v1, v2⟩ := trialMerit_near hH he hpen hC hN ha.le ha1
    rw [trialLoop, v1, Option.bind_some]
    split
    · exact hacc alpha v
    · split
      · exact ⟨_, f1⟩
      · refine ih (mul_pos ha t0) ((mul_le_of_le_one_right ha.le t1).trans ha1) ?_
        rw [mul_assoc, ← pow_succ']
        exact h

/-! ### C44 -/

/-- the arguments of the line search belong to the model and the steps `c` and `d`; the products with the Jacobian have errors up to `δ` and `δ'`, as they have after
C43 and C62 -/
structure TrialNear (q : LocalModel n m K) (e : MeritEnv K) (v : VarEnv K) (p : LsParams K) (C N : Dir K) (c d : Fin n → K) (δ δ' : K)
    (nwork mwork : Vec K) (T : Dir K) : Prop where
  symm : q.H.IsSymm
  env : EnvNear q e
  pen : 0 ≤ q.penalty
  cauchy : DirNear q C c ⟨0, 0, δ, 0⟩
  newton : DirNear q N d ⟨0, 0, δ', 0⟩
  okX : VOk n v.primal
  okL : VOk n v.varLb
  okU : VOk n v.varUb
  tauPos : 0 < p.lsTau
  tauLe : p.lsTau ≤ 1
  dimN : nwork.dim = n
  dimM : mwork.dim = m
  dimP : T.primal.dim = n
  dimC : T.consJac.dim = m
  dimH : T.hess.dim = n
  /-- the Cauchy point as it is stored satisfies the variable bounds -/
  inside : ∀ i, dense n v.varLb i ≤ dropSmall e.zeroEps (dense n v.primal i + c i) ∧ dropSmall e.zeroEps (dense n v.primal i + c i) ≤ dense n v.varUb i

theorem trialStep_near {q : LocalModel n m K} {e : MeritEnv K} {v : VarEnv K} {p : LsParams K} {C N : Dir K} {c d : Fin n → K} {δ δ' : K}
    {nwork mwork : Vec K} {T : Dir K} (h : TrialNear q e v p C N c d δ δ' nwork mwork T) (mu : K) :
    ∃ top slope y, 0 < top ∧ top ≤ 1 ∧ (∀ i, |y i - (q.c i + (q.J *ᵥ c) i)| ≤ δ + e.zeroEps) ∧ |slope - q.slopeAt y c d| ≤ m * (δ + δ') ∧
      (((∀ i, (dropSmall e.zeroEps (dense n v.primal i + c i) = dense n v.varUb i → dropSmall e.zeroEps (d i - c i) ≤ 0) ∧
          (dropSmall e.zeroEps (dense n v.primal i + c i) = dense n v.varLb i → 0 ≤ dropSmall e.zeroEps (d i - c i))) →
        ∀ t, 0 ≤ t → t ≤ top → ∀ i, dense n v.varLb i ≤ dropSmall e.zeroEps (dense n v.primal i + c i) + t * dropSmall e.zeroEps (d i - c i) ∧
          dropSmall e.zeroEps (dense n v.primal i + c i) + t * dropSmall e.zeroEps (d i - c i) ≤ dense n v.varUb i)) ∧
      trialStep e v p C N mu nwork mwork T =
        if top ≤ p.lsCutoff then trialFallback C mu T
        else trialLoop e p C N mu slope ⟨c ⬝ᵥ q.H *ᵥ c, c ⬝ᵥ q.H *ᵥ d, d ⬝ᵥ q.H *ᵥ d⟩ T lsMaxIt top := by
  have pC : dense n C.primal = c := funext fun i => near_exact (h.cauchy.primal i)
  have pN : dense n N.primal = d := funext fun i => near_exact (h.newton.primal i)
  have hC : dense n C.hess = q.H *ᵥ c := funext fun i => near_exact (h.cauchy.hess i)
  have hN : dense n N.hess = q.H *ᵥ d := funext fun i => near_exact (h.newton.hess i)
  obtain ⟨df, a1, a2, a3⟩ := addScaled_dropped (r0 := nwork) (1 : K) (-1) h.env.eps h.newton.okP h.cauchy.okP
  obtain ⟨pt, b1, b2, b3⟩ := addScaled_dropped (r0 := nwork) (1 : K) 1 h.env.eps h.okX h.cauchy.okP
  have hdf : ∀ i : Fin n, df.value i = dropSmall e.zeroEps (d i - c i) := by
    intro i
    have := a3 i
    rw [pC, pN] at this
    simpa [dense, sub_eq_add_neg] using this
  have hpt : ∀ i : Fin n, pt.value i = dropSmall e.zeroEps (dense n v.primal i + c i) := by
    intro i
    have := b3 i
    rw [pC] at this
    simpa [dense] using this
  have hout : ∀ {w : Vec K}, VOk n w → ∀ i, n ≤ i → w.value i = 0 := fun {w} hw i hi => valAt_of_ge hw.1.lt_dim (by rw [hw.2]; exact hi)
  have hin : ∀ i, v.varLb.value i ≤ pt.value i ∧ pt.value i ≤ v.varUb.value i := by
    intro i
    by_cases hi : i < n
    · have := h.inside ⟨i, hi⟩
      rw [← hpt ⟨i, hi⟩] at this
      exact this
    · have hi := not_lt.1 hi
      rw [hout h.okL i hi, hout b2 i hi, hout h.okU i hi]
      exact ⟨le_rfl, le_rfl⟩
  obtain ⟨top, s1, s2, s3, -, s5⟩ := C47_length_partial (init := (1 : K)) b2.1 a2.1 h.okL.1 h.okU.1 (by rw [a2.2, b2.2])
    (by rw [h.okL.2, b2.2]) (by rw [h.okU.2, b2.2]) zero_lt_one hin
  obtain ⟨slope, y, y1, y2, y3⟩ := trialSlope_near h.env h.cauchy h.newton (d ⬝ᵥ q.H *ᵥ d) h.dimM
  refine ⟨top, slope, y, s2, s3, y2, y3, ?_, ?_⟩
  · intro hb t t0 t1 i
    have := s5 (fun j => by
      by_cases hj : j < n
      · have := hb ⟨j, hj⟩
        rw [← hdf ⟨j, hj⟩, ← hpt ⟨j, hj⟩] at this
        exact this
      · rw [hout a2 j (not_lt.1 hj)]
        exact ⟨fun _ => le_rfl, fun _ => le_rfl⟩) t t0 t1 i
    rw [hpt i, hdf i] at this
    exact this
  · unfold trialStep
    rw [a1, Option.bind_some, dot_dense h.cauchy.okP h.cauchy.okH, Option.bind_some,
      dot_dense h.cauchy.okP h.newton.okH, Option.bind_some, dot_dense h.newton.okP h.newton.okH, Option.bind_some, b1,
      Option.bind_some, s1, Option.bind_some, pC, hC, pN, hN, y1, Option.bind_some]

theorem trialStep_out {q : LocalModel n m K} {e : MeritEnv K} {v : VarEnv K} {p : LsParams K} {C N : Dir K} {c d : Fin n → K} {δ δ' : K}
    {nwork mwork : Vec K} {T : Dir K} (h : TrialNear q e v p C N c d δ δ' nwork mwork T) {mu top slope : K} (t0 : 0 < top) (t1 : top ≤ 1) {r : TrialRes K}
    (hr : (if top ≤ p.lsCutoff then trialFallback C mu T
        else trialLoop e p C N mu slope ⟨c ⬝ᵥ q.H *ᵥ c, c ⬝ᵥ q.H *ᵥ d, d ⬝ᵥ q.H *ᵥ d⟩ T lsMaxIt top) = some r) :
    TrialOutNear q e.zeroEps p.lsEta top mu slope c d δ δ' r := by
  split at hr
  · obtain ⟨r', f1, f2⟩ := trialFallback_near h.cauchy d δ' e.zeroEps mu slope h.dimP h.dimC h.dimH p.lsEta t0.le
    rw [f1, Option.some_inj] at hr
    subst hr
    exact f2
  · exact trialLoop_near h.symm h.env h.pen h.cauchy h.newton h.tauPos h.tauLe h.dimP h.dimC h.dimH _ _ _ t0 t1 hr

/-- C44 for any drop tolerance: the approximate line search returns the Cauchy step with its merit value, or a point on the segment between Cauchy step and Newton step, of which the parts of the direction
and the merit value are right up to errors proportional to the tolerance and to the errors of the Jacobian products; the merit value passes the Armijo test with
a slope that is right up to such errors, but for the side of a bound on which a constraint is within the tolerance. -/
theorem C44_step_near_partial {q : LocalModel n m K} {e : MeritEnv K} {v : VarEnv K} {p : LsParams K} {C N : Dir K} {c d : Fin n → K} {δ δ' : K}
    {nwork mwork : Vec K} {T : Dir K} (h : TrialNear q e v p C N c d δ δ' nwork mwork T) {mu : K} {r : TrialRes K}
    (hr : trialStep e v p C N mu nwork mwork T = some r) :
    0 ≤ r.alpha ∧ r.alpha ≤ 1 ∧ (r.alpha = 0 → DirNear q r.dir c ⟨0, 0, δ, 0⟩ ∧ r.merit = mu) ∧
      (r.alpha ≠ 0 → DirNear q r.dir (segment c d r.alpha) ⟨e.zeroEps, 0, (1 - r.alpha) * δ + r.alpha * δ' + e.zeroEps, e.zeroEps⟩ ∧
        |r.merit - q.quad (segment c d r.alpha)| ≤ q.penalty * (m * ((1 - r.alpha) * δ + r.alpha * δ' + 2 * e.zeroEps))) ∧
      ∃ slope y, (∀ i, |y i - (q.c i + (q.J *ᵥ c) i)| ≤ δ + e.zeroEps) ∧ |slope - q.slopeAt y c d| ≤ m * (δ + δ') ∧
        r.merit ≤ mu + p.lsEta * (r.alpha * slope) := by
  obtain ⟨top, slope, y, t0, t1, y1, y2, -, t3⟩ := trialStep_near h mu
  rw [t3] at hr
  have key := trialStep_out h t0 t1 hr
  exact ⟨key.range.1, key.range.2.trans t1, key.zero, fun h0 => ⟨key.dir h0, key.merit h0⟩, slope, y, y1, y2, key.armijo⟩

/-- C44 for any drop tolerance: the trial point satisfies the variable bounds up to three times the tolerance, provided that the Newton step does not leave a bound which is active at the
Cauchy point. -/
theorem C44_bounds_near_partial {q : LocalModel n m K} {e : MeritEnv K} {v : VarEnv K} {p : LsParams K} {C N : Dir K} {c d : Fin n → K} {δ δ' : K}
    {nwork mwork : Vec K} {T : Dir K} (h : TrialNear q e v p C N c d δ δ' nwork mwork T) {mu : K} {r : TrialRes K}
    (hr : trialStep e v p C N mu nwork mwork T = some r)
    (hb : ∀ i, (dropSmall e.zeroEps (dense n v.primal i + c i) = dense n v.varUb i → dropSmall e.zeroEps (d i - c i) ≤ 0) ∧
      (dropSmall e.zeroEps (dense n v.primal i + c i) = dense n v.varLb i → 0 ≤ dropSmall e.zeroEps (d i - c i)))
    (i : Fin n) : dense n v.varLb i - 3 * e.zeroEps ≤ dense n v.primal i + dense n r.dir.primal i ∧
      dense n v.primal i + dense n r.dir.primal i ≤ dense n v.varUb i + 3 * e.zeroEps := by
  obtain ⟨top, slope, y, t0, t1, y1, y2, t2, t3⟩ := trialStep_near h mu
  rw [t3] at hr
  have key := trialStep_out h t0 t1 hr
  have he := h.env.eps
  obtain ⟨b1, b2⟩ := t2 hb _ key.range.1 key.range.2 i
  have n1 : |dropSmall e.zeroEps (dense n v.primal i + c i) - (dense n v.primal i + c i)| ≤ e.zeroEps := drop_near he
  have n2 : |dropSmall e.zeroEps (d i - c i) - (d i - c i)| ≤ e.zeroEps := drop_near he
  have n3 : |dense n r.dir.primal i - segment c d r.alpha i| ≤ e.zeroEps := by
    by_cases h0 : r.alpha = 0
    · rw [h0, segment_zero]
      exact ((key.zero h0).1.primal i).trans he
    · exact (key.dir h0).primal i
  have e1 : segment c d r.alpha i = c i + r.alpha * (d i - c i) := by
    simp only [segment, Pi.add_apply, Pi.smul_apply, smul_eq_mul]; ring
  rw [e1] at n3
  have a0 := key.range.1
  have a1 := key.range.2.trans t1
  have n4 : |r.alpha * dropSmall e.zeroEps (d i - c i) - r.alpha * (d i - c i)| ≤ e.zeroEps := by
    rw [← mul_sub, abs_mul, abs_of_nonneg a0]
    exact (mul_le_of_le_one_left (abs_nonneg _) a1).trans n2
  rw [abs_le] at n1 n3 n4
  constructor <;> linarith [n1.1, n1.2, n3.1, n3.2, n4.1, n4.2]

/-- C44 for any drop tolerance: the search terminates within the iteration limit if the smallest trial step length is below the cut-off. -/
theorem C44_terminates_near {q : LocalModel n m K} {e : MeritEnv K} {v : VarEnv K} {p : LsParams K} {C N : Dir K} {c d : Fin n → K} {δ δ' : K}
    {nwork mwork : Vec K} {T : Dir K} (h : TrialNear q e v p C N c d δ δ' nwork mwork T) (mu : K) (hl : p.lsTau ^ 10000 ≤ p.lsCutoff) :
    ∃ r, trialStep e v p C N mu nwork mwork T = some r := by
  obtain ⟨top, slope, y, t0, t1, -, -, -, t3⟩ := trialStep_near h mu
  rw [t3]
  split
  · obtain ⟨r', f1, -⟩ := trialFallback_near h.cauchy d δ' e.zeroEps mu slope h.dimP h.dimC h.dimH p.lsEta t0.le
    exact ⟨r', f1⟩
  · exact trialLoop_near_some h.symm h.env h.pen h.cauchy h.newton h.tauPos h.tauLe h.dimP h.dimC h.dimH mu slope 9999 t0 t1
      (le_trans (mul_le_of_le_one_left (pow_nonneg h.tauPos.le _) t1) hl)

/-! ### sample: that of `TrialLs.lean` with the tolerance 1/100, and the product of the Newton step with the Jacobian off by 1/100 -/

/-- sample environment -/
def exTrialEnvEps : MeritEnv ℚ := { exTrialEnv with zeroEps := 1 / 100 }
/-- Newton step 1 -/
def exNewtonEps : Dir ℚ := { exNewton with consJac := ⟨1, 1, [(0, 99 / 100)]⟩ }

theorem exTrialNear : TrialNear exTrial exTrialEnvEps exTrialVar exLs exCauchy exNewtonEps ![0] ![1] 0 (1 / 100) ⟨1, 0, []⟩ ⟨1, 0, []⟩ exCauchy where
  symm := rfl
  env := ⟨exTrialFor.env, by norm_num [exTrialEnvEps]⟩
  pen := by norm_num [exTrial]
  cauchy := ⟨exVok0, exVok0, exVok0, by decide +kernel, by decide +kernel, by decide +kernel, by decide +kernel⟩
  newton := ⟨exVok _, exVok _, exVok0, by decide +kernel, by decide +kernel, by decide +kernel, by decide +kernel⟩
  okX := exVok0
  okL := exVok _
  okU := exVok _
  tauPos := by norm_num [exLs]
  tauLe := by norm_num [exLs]
  dimN := rfl
  dimM := rfl
  dimP := rfl
  dimC := rfl
  dimH := rfl
  inside := by unfold dropSmall; decide +kernel

example : ∃ r, trialStep exTrialEnvEps exTrialVar exLs exCauchy exNewtonEps (1 / 10) ⟨1, 0, []⟩ ⟨1, 0, []⟩ exCauchy = some r :=
  C44_terminates_near exTrialNear _ (by
    calc (exLs.lsTau) ^ 10000 ≤ exLs.lsTau ^ 40 :=
        pow_le_pow_of_le_one (by norm_num [exLs]) (by norm_num [exLs]) (by norm_num)
    _ ≤ exLs.lsCutoff := by norm_num [exLs])

end Sleqp
