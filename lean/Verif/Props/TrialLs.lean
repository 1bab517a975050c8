import Verif.Props.CauchyLs
import Verif.Props.MaxStep
import Verif.Props.Feas

/-!
C44 (approximate line search between Cauchy and Newton step).
-/

namespace Sleqp
variable {K : Type*} [Field K] [LinearOrder K] [IsStrictOrderedRing K]
variable {n m : Nat}
open Matrix

/-! ### specification -/

/-- subgradient of the violation of one constraint: +1 above the upper bound, -1 below the lower bound -/
def violSign (c lb ub : K) : K := if ub < c then 1 else if c < lb then -1 else 0

/-- the slope used in the test of sufficient decrease between the steps `c` and `d`. (It lacks the penalty parameter.) -/
def LocalModel.slope (q : LocalModel n m K) (c d : Fin n → K) : K :=
  q.g ⬝ᵥ (d - c) + (fun i => violSign (q.c i + (q.J *ᵥ c) i) (q.lb i) (q.ub i)) ⬝ᵥ (q.J *ᵥ (d - c)) + c ⬝ᵥ q.H *ᵥ (d - c)

/-- the point at `alpha` on the segment from `c` to `d` -/
def segment (c d : Fin n → K) (alpha : K) : Fin n → K := (1 - alpha) • c + alpha • d

/-! ### lemmas -/

omit [LinearOrder K] [IsStrictOrderedRing K] in
theorem symm_dot {H : Matrix (Fin n) (Fin n) K} (hH : H.IsSymm) (c d : Fin n → K) : d ⬝ᵥ H *ᵥ c = c ⬝ᵥ H *ᵥ d := by
  conv_lhs => rw [← hH.eq]
  rw [mulVec_transpose, dotProduct_comm, dotProduct_mulVec]

omit [LinearOrder K] [IsStrictOrderedRing K] in
theorem segment_curv {H : Matrix (Fin n) (Fin n) K} (hH : H.IsSymm) (c d : Fin n → K) (a : K) :
    segment c d a ⬝ᵥ H *ᵥ segment c d a =
      (1 - a) * (1 - a) * (c ⬝ᵥ H *ᵥ c) + 2 * (a * (1 - a) * (c ⬝ᵥ H *ᵥ d)) + a * a * (d ⬝ᵥ H *ᵥ d) := by
  unfold segment
  simp only [mulVec_add, mulVec_smul, dotProduct_add, add_dotProduct, dotProduct_smul, smul_dotProduct, smul_eq_mul]
  rw [symm_dot hH c d]
  ring

theorem trialMerit_eq {q : LocalModel n m K} (hH : q.H.IsSymm) {e : MeritEnv K} (he : EnvFor q e) {C N : Dir K} {c d : Fin n → K}
    (hC : DirFor q C c) (hN : DirFor q N d) (a : K) :
    trialMerit e C N ⟨c ⬝ᵥ q.H *ᵥ c, c ⬝ᵥ q.H *ᵥ d, d ⬝ᵥ q.H *ᵥ d⟩ a = some (q.quad (segment c d a)) := by
  obtain ⟨v1, a1, a2, a3⟩ := addScaled_dense (r0 := e.work) (1 : K) (1 - a) he.okC hC.okC
  obtain ⟨v2, b1, b2, b3⟩ := addScaled_dense (r0 := e.work) (1 : K) a a2 hN.okC
  have hv : (∑ i, viol (dense m v2 i) (q.lb i) (q.ub i)) = q.viol (segment c d a) := by
    unfold LocalModel.viol segment
    refine Finset.sum_congr rfl fun i _ => ?_
    rw [b3, a3, he.c, hC.jac, hN.jac]
    simp only [one_smul, mulVec_add, mulVec_smul, Pi.add_apply, add_assoc]
  unfold trialMerit
  rw [he.eps, a1, Option.bind_some, b1, Option.bind_some, total_dense he b2, Option.bind_some, hv]
  congr 1
  unfold LocalModel.quad LocalModel.lin
  rw [segment_curv hH, he.f, he.pen, hC.grad, hN.grad]
  unfold segment
  simp only [dotProduct_add, dotProduct_smul, smul_eq_mul]
  ring

theorem trialSlope_eq {q : LocalModel n m K} {e : MeritEnv K} (he : EnvFor q e) {C N : Dir K} {c d : Fin n → K}
    (hC : DirFor q C c) (hN : DirFor q N d) (nn : K) {work : Vec K} (hw : work.dim = m) :
    trialSlope e C N ⟨c ⬝ᵥ q.H *ᵥ c, c ⬝ᵥ q.H *ᵥ d, nn⟩ work = some (q.slope c d) := by
  obtain ⟨v1, a1, a2, a3⟩ := addScaled_dense (r0 := e.work) (1 : K) 1 he.okC hC.okC
  have hb : Boxed m v1 e.consLb e.consUb := ⟨a2.1, he.okL.1, he.okU.1, a2.2, he.okL.2, he.okU.2, fun i hi => by
    have := he.le ⟨i, hi⟩
    rw [← he.lb, ← he.ub] at this
    exact this⟩
  obtain ⟨r, r1, r2, r3, r4⟩ := C13_multipliers hb (fun _ => false) work hw
  have hr : dense m r = fun i => violSign (q.c i + (q.J *ᵥ c) i) (q.lb i) (q.ub i) := by
    funext i
    show r.value i = _
    rw [r4 i]
    have e1 : v1.value i = q.c i + (q.J *ᵥ c) i := by
      have := congrFun a3 i
      rw [he.c, hC.jac] at this
      simpa [dense] using this
    have e2 : e.consLb.value i = q.lb i := congrFun he.lb i
    have e3 : e.consUb.value i = q.ub i := congrFun he.ub i
    rw [e1, e2, e3]
    simp [violSign]
  unfold trialSlope
  rw [he.eps, a1, Option.bind_some, he.num, r1, Option.bind_some, dot_dense ⟨r2, r3⟩ hC.okC, Option.bind_some,
    dot_dense ⟨r2, r3⟩ hN.okC, Option.bind_some, hr, hC.jac, hN.jac, hC.grad, hN.grad]
  congr 1
  unfold LocalModel.slope
  simp only [mulVec_sub, dotProduct_sub]
  ring

/-- possible outcomes of the search: the Cauchy step, or a point of the segment that passes the test -/
structure TrialOut (q : LocalModel n m K) (eta top : K) (c d : Fin n → K) (r : TrialRes K) : Prop where
  range : 0 ≤ r.alpha ∧ r.alpha ≤ top
  dir : DirFor q r.dir (segment c d r.alpha)
  merit : r.merit = q.quad (segment c d r.alpha)
  armijo : r.alpha ≠ 0 → q.quad (segment c d r.alpha) ≤ q.quad c + eta * (r.alpha * q.slope c d)

omit [LinearOrder K] [IsStrictOrderedRing K] in
theorem segment_zero (c d : Fin n → K) : segment c d 0 = c := by simp [segment]

theorem trialFallback_spec {q : LocalModel n m K} {C T : Dir K} {c : Fin n → K} (hC : DirFor q C c) (d : Fin n → K)
    (tp : T.primal.dim = n) (tc : T.consJac.dim = m) (th : T.hess.dim = n) (eta : K) {top : K} (h0 : 0 ≤ top) :
    ∃ r, trialFallback C (q.quad c) T = some r ∧ TrialOut q eta top c d r ∧ r.alpha = 0 := by
  obtain ⟨D', h1, h2⟩ := C62_copy hC tp tc th
  refine ⟨⟨D', 0, q.quad c⟩, by unfold trialFallback; rw [h1]; rfl, ⟨⟨le_rfl, h0⟩, ?_, ?_, fun h => absurd rfl h⟩, rfl⟩
  · show DirFor q D' (segment c d 0)
    rw [segment_zero]; exact h2
  · show q.quad c = _
    rw [segment_zero]

theorem trialLoop_spec {q : LocalModel n m K} (hH : q.H.IsSymm) {e : MeritEnv K} (he : EnvFor q e) {C N T : Dir K} {c d : Fin n → K}
    (hC : DirFor q C c) (hN : DirFor q N d) {p : LsParams K} (t0 : 0 < p.lsTau) (t1 : p.lsTau ≤ 1) (tp : T.primal.dim = n)
    (tc : T.consJac.dim = m) (th : T.hess.dim = n) (k : Nat) : ∀ {alpha : K}, 0 < alpha → ∀ {r},
    trialLoop e p C N (q.quad c) (q.slope c d) ⟨c ⬝ᵥ q.H *ᵥ c, c ⬝ᵥ q.H *ᵥ d, d ⬝ᵥ q.H *ᵥ d⟩ T k alpha = some r →
      TrialOut q p.lsEta alpha c d r := by
  induction k with
  | zero => intro alpha _ r h; exact absurd h (by simp [trialLoop])
  | succ k ih =>
    intro alpha ha r h
    rw [trialLoop, trialMerit_eq hH he hC hN, Option.bind_some] at h
    split at h
    · rename_i ht
      obtain ⟨D', h1, h2⟩ := C62_add_scaled (R := T) hC hN (1 - alpha) alpha
      rw [he.eps, h1, Option.bind_some, Option.some_inj] at h
      subst h
      exact ⟨⟨ha.le, le_rfl⟩, h2, rfl, fun _ => ht⟩
    · split at h
      · obtain ⟨r', f1, f2, -⟩ := trialFallback_spec hC d tp tc th p.lsEta ha.le
        rw [f1, Option.some_inj] at h
        subst h
        exact f2
      · obtain ⟨o1, o2, o3, o4⟩ := ih (mul_pos ha t0) h
        exact ⟨⟨o1.1, o1.2.trans (mul_le_of_le_one_right ha.le t1)⟩, o2, o3, o4⟩

theorem trialLoop_some {q : LocalModel n m K} (hH : q.H.IsSymm) {e : MeritEnv K} (he : EnvFor q e) {C N T : Dir K} {c d : Fin n → K}
    (hC : DirFor q C c) (hN : DirFor q N d) {p : LsParams K} (tp : T.primal.dim = n)
    (tc : T.consJac.dim = m) (th : T.hess.dim = n) (slope : K) (k : Nat) : ∀ {alpha : K}, alpha * p.lsTau ^ (k + 1) ≤ p.lsCutoff →
    ∃ r, trialLoop e p C N (q.quad c) slope ⟨c ⬝ᵥ q.H *ᵥ c, c ⬝ᵥ q.H *ᵥ d, d ⬝ᵥ q.H *ᵥ d⟩ T (k + 1) alpha = some r := by
  have hacc : ∀ alpha, ∃ r : TrialRes K, ((C.addScaled N (1 - alpha) alpha e.zeroEps T).bind fun d' =>
      some ⟨d', alpha, q.quad (segment c d alpha)⟩) = some r := by
    intro alpha
    obtain ⟨D', h1, h2⟩ := C62_add_scaled (R := T) hC hN (1 - alpha) alpha
    rw [he.eps, h1]; exact ⟨_, rfl⟩
  obtain ⟨r', f1, -⟩ := trialFallback_spec hC d tp tc th p.lsEta (le_refl (0 : K))
  induction k with
  | zero =>
    intro alpha h
    rw [trialLoop, trialMerit_eq hH he hC hN, Option.bind_some]
    split
    · exact hacc alpha
    · rw [if_pos (by simpa using h)]; exact ⟨_, f1⟩
  | succ k ih =>
    intro alpha h
    rw [trialLoop, trialMerit_eq hH he hC hN, Option.bind_some]
    split
    · exact hacc alpha
    · split
      · exact ⟨_, f1⟩
      · refine ih ?_
        rw [mul_assoc, ← pow_succ']
        exact h

/-! ### C44 -/

/-- the arguments of the line search belong to the model and the steps `c` and `d` -/
structure TrialFor (q : LocalModel n m K) (e : MeritEnv K) (v : VarEnv K) (p : LsParams K) (C N : Dir K) (c d : Fin n → K)
    (nwork mwork : Vec K) (T : Dir K) : Prop where
  symm : q.H.IsSymm
  env : EnvFor q e
  cauchy : DirFor q C c
  newton : DirFor q N d
  okX : VOk n v.primal
  okL : VOk n v.varLb
  okU : VOk n v.varUb
  tauPos : 0 < p.lsTau
  tauLe : p.lsTau ≤ 1
  cutoff : 0 ≤ p.lsCutoff
  dimN : nwork.dim = n
  dimM : mwork.dim = m
  dimP : T.primal.dim = n
  dimC : T.consJac.dim = m
  dimH : T.hess.dim = n
  /-- the Cauchy point satisfies the variable bounds -/
  inside : ∀ i, dense n v.varLb i ≤ dense n v.primal i + c i ∧ dense n v.primal i + c i ≤ dense n v.varUb i

/-- what happens before the loop -/
theorem trialStep_eq {q : LocalModel n m K} {e : MeritEnv K} {v : VarEnv K} {p : LsParams K} {C N : Dir K} {c d : Fin n → K}
    {nwork mwork : Vec K} {T : Dir K} (h : TrialFor q e v p C N c d nwork mwork T) :
    ∃ top, 0 < top ∧ top ≤ 1 ∧
      (∀ t, top < t → t ≤ 1 → ∃ i, dense n v.primal i + segment c d t i < dense n v.varLb i ∨
        dense n v.varUb i < dense n v.primal i + segment c d t i) ∧
      (((∀ i, (dense n v.primal i + c i = dense n v.varUb i → d i - c i ≤ 0) ∧
          (dense n v.primal i + c i = dense n v.varLb i → 0 ≤ d i - c i)) →
        ∀ t, 0 ≤ t → t ≤ top → ∀ i, dense n v.varLb i ≤ dense n v.primal i + segment c d t i ∧
          dense n v.primal i + segment c d t i ≤ dense n v.varUb i)) ∧
      trialStep e v p C N (q.quad c) nwork mwork T =
        if top ≤ p.lsCutoff then trialFallback C (q.quad c) T
        else trialLoop e p C N (q.quad c) (q.slope c d) ⟨c ⬝ᵥ q.H *ᵥ c, c ⬝ᵥ q.H *ᵥ d, d ⬝ᵥ q.H *ᵥ d⟩ T lsMaxIt top := by
  obtain ⟨df, a1, a2, a3⟩ := addScaled_dense (r0 := nwork) (1 : K) (-1) h.newton.okP h.cauchy.okP
  obtain ⟨pt, b1, b2, b3⟩ := addScaled_dense (r0 := nwork) (1 : K) 1 h.okX h.cauchy.okP
  have hdf : ∀ i : Fin n, df.value i = d i - c i := by
    intro i
    have := congrFun a3 i
    rw [h.newton.primal, h.cauchy.primal] at this
    simpa [dense, sub_eq_add_neg] using this
  have hpt : ∀ i : Fin n, pt.value i = dense n v.primal i + c i := by
    intro i
    have := congrFun b3 i
    rw [h.cauchy.primal] at this
    simpa [dense] using this
  have hout : ∀ {w : Vec K}, VOk n w → ∀ i, n ≤ i → w.value i = 0 := fun {w} hw i hi => valAt_of_ge hw.1.lt_dim (by rw [hw.2]; exact hi)
  have hin : ∀ i, v.varLb.value i ≤ pt.value i ∧ pt.value i ≤ v.varUb.value i := by
    intro i
    by_cases hi : i < n
    · have := h.inside ⟨i, hi⟩
      rw [← hpt ⟨i, hi⟩] at this
      exact this
    · have hi := not_lt.1 hi
      rw [hout h.okL i hi, hout b2 i hi, hout h.okU i hi]
      exact ⟨le_rfl, le_rfl⟩
  obtain ⟨top, s1, s2, s3, s4, s5⟩ := C47_length_partial (init := (1 : K)) b2.1 a2.1 h.okL.1 h.okU.1 (by rw [a2.2, b2.2])
    (by rw [h.okL.2, b2.2]) (by rw [h.okU.2, b2.2]) zero_lt_one hin
  have hseg : ∀ t i, dense n v.primal i + segment c d t i = dense n v.primal i + c i + t * (d i - c i) := by
    intro t i
    simp only [segment, Pi.add_apply, Pi.smul_apply, smul_eq_mul]; ring
  refine ⟨top, s2, s3, ?_, ?_, ?_⟩
  · intro t t0 t1
    obtain ⟨i, hi, h1⟩ := s4 t t0 t1
    rw [b2.2] at hi
    refine ⟨⟨i, hi⟩, ?_⟩
    rw [hseg, ← hpt ⟨i, hi⟩, ← hdf ⟨i, hi⟩]
    exact h1
  · intro hb t t0 t1 i
    have := s5 (fun j => by
      by_cases hj : j < n
      · have := hb ⟨j, hj⟩
        rw [← hdf ⟨j, hj⟩, ← hpt ⟨j, hj⟩] at this
        exact this
      · rw [hout a2 j (not_lt.1 hj)]
        exact ⟨fun _ => le_rfl, fun _ => le_rfl⟩) t t0 t1 i
    rw [hpt i, hdf i] at this
    rw [hseg]
    exact this
  · unfold trialStep
    rw [h.env.eps, a1, Option.bind_some, dot_dense h.cauchy.okP h.cauchy.okH, Option.bind_some,
      dot_dense h.cauchy.okP h.newton.okH, Option.bind_some, dot_dense h.newton.okP h.newton.okH, Option.bind_some, b1,
      Option.bind_some, s1, Option.bind_some, h.cauchy.primal, h.cauchy.hess, h.newton.primal, h.newton.hess,
      trialSlope_eq h.env h.cauchy h.newton _ h.dimM, Option.bind_some]

/-- C44: the approximate line search returns a point on the segment between the Cauchy step and the Newton step, with its merit value, which
is at most the one of the Cauchy step plus the Armijo term; with step length zero it returns the Cauchy step. (Missing: since the slope lacks
the penalty parameter the merit value may exceed the one of the Cauchy step, see `C44_worse_violated`.) -/
theorem C44_step_partial {q : LocalModel n m K} {e : MeritEnv K} {v : VarEnv K} {p : LsParams K} {C N : Dir K} {c d : Fin n → K}
    {nwork mwork : Vec K} {T : Dir K} (h : TrialFor q e v p C N c d nwork mwork T) {r : TrialRes K}
    (hr : trialStep e v p C N (q.quad c) nwork mwork T = some r) :
    0 ≤ r.alpha ∧ r.alpha ≤ 1 ∧ DirFor q r.dir ((1 - r.alpha) • c + r.alpha • d) ∧
      r.merit = q.quad ((1 - r.alpha) • c + r.alpha • d) ∧ r.merit ≤ q.quad c + p.lsEta * (r.alpha * q.slope c d) := by
  obtain ⟨top, t0, t1, -, -, t3⟩ := trialStep_eq h
  rw [t3] at hr
  have key : TrialOut q p.lsEta top c d r := by
    split at hr
    · obtain ⟨r', f1, f2, -⟩ := trialFallback_spec h.cauchy d h.dimP h.dimC h.dimH p.lsEta t0.le
      rw [f1, Option.some_inj] at hr
      subst hr
      exact f2
    · exact trialLoop_spec h.symm h.env h.cauchy h.newton h.tauPos h.tauLe h.dimP h.dimC h.dimH _ t0 hr
  refine ⟨key.range.1, key.range.2.trans t1, key.dir, key.merit, ?_⟩
  rw [key.merit]
  by_cases h0 : r.alpha = 0
  · rw [h0, segment_zero, zero_mul, mul_zero, add_zero]
  · exact key.armijo h0

/-- C44: if the slope is not positive the trial step is never worse than the Cauchy step. -/
theorem C44_not_worse_partial {q : LocalModel n m K} {e : MeritEnv K} {v : VarEnv K} {p : LsParams K} {C N : Dir K} {c d : Fin n → K}
    {nwork mwork : Vec K} {T : Dir K} (h : TrialFor q e v p C N c d nwork mwork T) {r : TrialRes K}
    (hr : trialStep e v p C N (q.quad c) nwork mwork T = some r) (heta : 0 ≤ p.lsEta) (hs : q.slope c d ≤ 0) :
    q.quad ((1 - r.alpha) • c + r.alpha • d) ≤ q.quad c := by
  obtain ⟨a, b, -, f, g⟩ := C44_step_partial h hr
  rw [← f]
  refine g.trans ?_
  have := mul_nonneg heta (mul_nonneg a (neg_nonneg.2 hs))
  linarith

/-- C44: the trial point satisfies the variable bounds, provided that the Newton step does not leave a bound which is active at the Cauchy
point (compare `C47_bound_violated`). -/
theorem C44_bounds_partial {q : LocalModel n m K} {e : MeritEnv K} {v : VarEnv K} {p : LsParams K} {C N : Dir K} {c d : Fin n → K}
    {nwork mwork : Vec K} {T : Dir K} (h : TrialFor q e v p C N c d nwork mwork T) {r : TrialRes K}
    (hr : trialStep e v p C N (q.quad c) nwork mwork T = some r)
    (hb : ∀ i, (dense n v.primal i + c i = dense n v.varUb i → d i ≤ c i) ∧ (dense n v.primal i + c i = dense n v.varLb i → c i ≤ d i))
    (i : Fin n) : dense n v.varLb i ≤ dense n v.primal i + dense n r.dir.primal i ∧
      dense n v.primal i + dense n r.dir.primal i ≤ dense n v.varUb i := by
  obtain ⟨top, t0, t1, -, t2, t3⟩ := trialStep_eq h
  rw [t3] at hr
  have key : TrialOut q p.lsEta top c d r := by
    split at hr
    · obtain ⟨r', f1, f2, -⟩ := trialFallback_spec h.cauchy d h.dimP h.dimC h.dimH p.lsEta t0.le
      rw [f1, Option.some_inj] at hr
      subst hr
      exact f2
    · exact trialLoop_spec h.symm h.env h.cauchy h.newton h.tauPos h.tauLe h.dimP h.dimC h.dimH _ t0 hr
  rw [key.dir.primal]
  exact t2 (fun j => ⟨fun hj => sub_nonpos.2 ((hb j).1 hj), fun hj => sub_nonneg.2 ((hb j).2 hj)⟩) _ key.range.1 key.range.2 i

/-- C44: the search terminates within the iteration limit if the smallest trial step length is below the cut-off. -/
theorem C44_terminates {q : LocalModel n m K} {e : MeritEnv K} {v : VarEnv K} {p : LsParams K} {C N : Dir K} {c d : Fin n → K}
    {nwork mwork : Vec K} {T : Dir K} (h : TrialFor q e v p C N c d nwork mwork T) (hl : p.lsTau ^ 10000 ≤ p.lsCutoff) :
    ∃ r, trialStep e v p C N (q.quad c) nwork mwork T = some r := by
  obtain ⟨top, t0, t1, -, -, t3⟩ := trialStep_eq h
  rw [t3]
  split
  · obtain ⟨r', f1, -⟩ := trialFallback_spec h.cauchy d h.dimP h.dimC h.dimH p.lsEta t0.le
    exact ⟨r', f1⟩
  · exact trialLoop_some h.symm h.env h.cauchy h.newton h.dimP h.dimC h.dimH _ 9999
      (le_trans (mul_le_of_le_one_left (pow_nonneg h.tauPos.le _) t1) hl)

/-! ### sample and violation: one variable, one constraint `d ∈ [-2, -1]`, penalty `1/10`, model `-0.09995 d` -/

/-- sample model -/
def exTrial : LocalModel 1 1 ℚ := ⟨0, ![-9995 / 100000], ![0], fun _ _ => 1, fun _ _ => 0, ![-2], ![-1], 1 / 10⟩
/-- sample environment -/
def exTrialEnv : MeritEnv ℚ := ⟨1, 0, ⟨1, 0, []⟩, ⟨1, 1, [(0, -2)]⟩, ⟨1, 1, [(0, -1)]⟩, ⟨1, 0, []⟩, 0, 1 / 10⟩
/-- variable bounds `[-10, 10]` at the point 0 -/
def exTrialVar : VarEnv ℚ := ⟨⟨1, 0, []⟩, ⟨1, 1, [(0, -10)]⟩, ⟨1, 1, [(0, 10)]⟩⟩
/-- Newton step 1 -/
def exNewton : Dir ℚ := ⟨⟨1, 1, [(0, 1)]⟩, -9995 / 100000, ⟨1, 1, [(0, 1)]⟩, ⟨1, 0, []⟩⟩
/-- Cauchy step 0 -/
def exCauchy : Dir ℚ := ⟨⟨1, 0, []⟩, 0, ⟨1, 0, []⟩, ⟨1, 0, []⟩⟩

theorem exDense0 : dense 1 (⟨1, 0, []⟩ : Vec ℚ) = ![0] := by
  funext i
  obtain rfl : i = 0 := Subsingleton.elim _ _
  rfl

theorem exTrialFor : TrialFor exTrial exTrialEnv exTrialVar exLs exCauchy exNewton ![0] ![1] ⟨1, 0, []⟩ ⟨1, 0, []⟩ exCauchy where
  symm := rfl
  env := ⟨rfl, rfl, exVok0, exVok _, exVok _, exDense0, exLineDense _, exLineDense _, by
    intro i
    obtain rfl : i = 0 := Subsingleton.elim _ _
    norm_num [exTrial], rfl, rfl⟩
  cauchy := ⟨exVok0, exVok0, exVok0, exDense0, by simp [exCauchy, exTrial, dotProduct], by
    refine exDense0.trans (funext fun i => ?_)
    obtain rfl : i = 0 := Subsingleton.elim _ _
    simp [exTrial, mulVec, dotProduct], by
    refine exDense0.trans (funext fun i => ?_)
    obtain rfl : i = 0 := Subsingleton.elim _ _
    simp [exTrial, mulVec, dotProduct]⟩
  newton := ⟨exVok _, exVok _, exVok0, exLineDense _, by simp [exNewton, exTrial, dotProduct], by
    refine (exLineDense _).trans (funext fun i => ?_)
    obtain rfl : i = 0 := Subsingleton.elim _ _
    simp [exTrial, mulVec, dotProduct], by
    refine exDense0.trans (funext fun i => ?_)
    obtain rfl : i = 0 := Subsingleton.elim _ _
    simp [exTrial, mulVec, dotProduct]⟩
  okX := exVok0
  okL := exVok _
  okU := exVok _
  tauPos := by norm_num [exLs]
  tauLe := by norm_num [exLs]
  cutoff := by norm_num [exLs]
  dimN := rfl
  dimM := rfl
  dimP := rfl
  dimC := rfl
  dimH := rfl
  inside := by
    intro i
    obtain rfl : i = 0 := Subsingleton.elim _ _
    show dense 1 (⟨1, 1, [(0, -10)]⟩ : Vec ℚ) 0 ≤ dense 1 (⟨1, 0, []⟩ : Vec ℚ) 0 + _ ∧ _ ≤ dense 1 (⟨1, 1, [(0, 10)]⟩ : Vec ℚ) 0
    rw [exLineDense, exLineDense]
    show _ ∧ dense 1 (⟨1, 0, []⟩ : Vec ℚ) 0 + _ ≤ _
    rw [exDense0]
    norm_num

theorem exTrial_viol (t : ℚ) (ht : 0 ≤ t) : exTrial.viol ![t] = 1 + t := by
  simp [LocalModel.viol, exTrial, mulVec, dotProduct, viol]
  rw [max_eq_left (by rw [le_max_iff]; right; linarith), max_eq_right (by linarith)]
  ring

theorem exTrial_quad (t : ℚ) (ht : 0 ≤ t) : exTrial.quad ![t] = 1 / 10 + 5 / 100000 * t := by
  unfold LocalModel.quad LocalModel.lin
  rw [exTrial_viol t ht]
  simp [exTrial, mulVec, dotProduct]
  ring

theorem exSegment (t : ℚ) : segment ![0] ![1] t = ![t] := by
  funext i
  obtain rfl : i = 0 := Subsingleton.elim _ _
  simp [segment]

/-- The slope in the Armijo test of the approximate line search omits the penalty parameter, so a trial step may be accepted although its
merit value is larger than that of the Cauchy step (and although the merit model increases along the whole segment). -/
theorem C44_worse_violated : ∃ (q : LocalModel 1 1 ℚ) (e : MeritEnv ℚ) (v : VarEnv ℚ) (C N T : Dir ℚ) (c d : Fin 1 → ℚ) (w : Vec ℚ)
    (r : TrialRes ℚ), TrialFor q e v exLs C N c d w w T ∧ trialStep e v exLs C N (q.quad c) w w T = some r ∧ q.quad c < r.merit := by
  obtain ⟨top, t0, t1, t2, -, t3⟩ := trialStep_eq exTrialFor
  obtain ⟨r, hr⟩ := C44_terminates exTrialFor (by
    calc (exLs.lsTau) ^ 10000 ≤ exLs.lsTau ^ 40 :=
        pow_le_pow_of_le_one (by norm_num [exLs]) (by norm_num [exLs]) (by norm_num)
    _ ≤ exLs.lsCutoff := by norm_num [exLs])
  refine ⟨exTrial, exTrialEnv, exTrialVar, exCauchy, exNewton, exCauchy, ![0], ![1], _, r, exTrialFor, hr, ?_⟩
  have htop : top = 1 := by
    by_contra hc
    obtain ⟨i, hi⟩ := t2 1 (lt_of_le_of_ne t1 hc) le_rfl
    obtain rfl : i = 0 := Subsingleton.elim _ _
    rw [exSegment] at hi
    simp only [exTrialVar, exLineDense, exDense0] at hi
    norm_num at hi
  have hslope : exTrial.slope ![0] ![1] = 90005 / 100000 := by
    simp [LocalModel.slope, exTrial, mulVec, dotProduct, violSign]
    norm_num
  have hq0 := exTrial_quad 0 le_rfl
  have hq1 := exTrial_quad 1 zero_le_one
  rw [t3, htop, if_neg (by norm_num [exLs]), show lsMaxIt = 9999 + 1 from rfl, trialLoop,
    trialMerit_eq exTrialFor.symm exTrialFor.env exTrialFor.cauchy exTrialFor.newton, Option.bind_some, exSegment,
    if_pos (by rw [hslope, hq0, hq1]; norm_num [exLs]), Option.bind_eq_some_iff] at hr
  obtain ⟨D, -, h2⟩ := hr
  rw [Option.some_inj] at h2
  rw [← h2]
  show _ < exTrial.quad ![1]
  rw [hq0, hq1]
  norm_num

end Sleqp
