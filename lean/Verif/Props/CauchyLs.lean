import Verif.Model.Linesearch
import Verif.Props.Direction
import Mathlib.Tactic.Linarith
import Mathlib.Tactic.Positivity

/-!
C43 (Cauchy line search).
-/

namespace Sleqp
variable {K : Type*} [Field K] [LinearOrder K] [IsStrictOrderedRing K]
variable {n m : Nat}
open Matrix

/-! ### lemmas -/

/-- the local variables of the line search belong to the step `s.delta • d` -/
structure CauchyInv (q : LocalModel n m K) (d : Fin n → K) (s : CauchyLs K) : Prop where
  hp : s.hp = s.delta * s.delta * (d ⬝ᵥ q.H *ᵥ d)
  od : s.od = s.delta * (q.g ⬝ᵥ d)
  okC : VOk m s.cj
  cj : dense m s.cj = s.delta • (q.J *ᵥ d)
  pos : 0 < s.delta
  le : s.delta ≤ 1

/-- the decrease of the quadratic model at `d` is at least the fraction `eta` of the decrease of the linear model -/
def Sufficient (q : LocalModel n m K) (eta : K) (d : Fin n → K) : Prop := eta * (q.quad 0 - q.lin d) ≤ q.quad 0 - q.quad d

omit [IsStrictOrderedRing K] in
theorem quad_zero (q : LocalModel n m K) : q.quad 0 = q.f + q.penalty * q.viol 0 := by
  simp [LocalModel.quad, LocalModel.lin]

omit [IsStrictOrderedRing K] in
theorem quad_smul (q : LocalModel n m K) (t : K) (d : Fin n → K) :
    q.quad (t • d) = q.lin (t • d) + 1 / 2 * (t * t * (d ⬝ᵥ q.H *ᵥ d)) := by
  unfold LocalModel.quad
  rw [mulVec_smul, smul_dotProduct, dotProduct_smul, smul_eq_mul, smul_eq_mul]
  ring

/-- the violation of the linearised constraints is convex along a step -/
theorem model_viol_convex (q : LocalModel n m K) (d : Fin n → K) {t : K} (h0 : 0 ≤ t) (h1 : t ≤ 1) :
    q.viol (t • d) ≤ (1 - t) * q.viol 0 + t * q.viol d := by
  unfold LocalModel.viol
  rw [Finset.mul_sum, Finset.mul_sum, ← Finset.sum_add_distrib]
  refine Finset.sum_le_sum fun i _ => ?_
  rw [mulVec_smul, mulVec_zero, Pi.smul_apply, smul_eq_mul, Pi.zero_apply, add_zero]
  rw [show q.c i + t * (q.J *ᵥ d) i = (1 - t) * q.c i + t * (q.c i + (q.J *ᵥ d) i) by ring]
  exact viol_convex _ _ _ _ t h0 h1

/-- the state after a rejected trial -/
def cauchyBack (p : LsParams K) (merit : K) (s : CauchyLs K) : CauchyLs K :=
  ⟨s.hp * (p.cauchyTau * p.cauchyTau), s.od * p.cauchyTau, s.cj.scale p.cauchyTau, s.delta * p.cauchyTau, false, merit⟩

theorem cauchyPass_eq {q : LocalModel n m K} {e : MeritEnv K} (he : EnvFor q e) (p : LsParams K) {d : Fin n → K} {s : CauchyLs K}
    (hs : CauchyInv q d s) :
    ∃ s', CauchyInv q d { s with merit := q.quad (s.delta • d) } ∧
      s' = cauchyBack p (q.quad (s.delta • d)) s ∧
      (0 < p.cauchyTau → p.cauchyTau ≤ 1 → CauchyInv q d s') ∧
      (Sufficient q p.cauchyEta (s.delta • d) → cauchyPass e p (q.viol 0) s = some (true, { s with merit := q.quad (s.delta • d) })) ∧
      (¬ Sufficient q p.cauchyEta (s.delta • d) → cauchyPass e p (q.viol 0) s = some (false, s')) := by
  obtain ⟨c, c1, c2, c3⟩ := addScaled_dense (r0 := e.work) (1 : K) 1 he.okC hs.okC
  have hlv : (∑ i, viol (dense m c i) (q.lb i) (q.ub i)) = q.viol (s.delta • d) := by
    unfold LocalModel.viol
    refine Finset.sum_congr rfl fun i _ => ?_
    rw [c3, hs.cj, he.c, mulVec_smul, one_smul, one_smul, Pi.add_apply]
  have hlin : e.objVal + s.od + e.penalty * q.viol (s.delta • d) = q.lin (s.delta • d) := by
    unfold LocalModel.lin
    rw [he.f, he.pen, hs.od, dotProduct_smul, smul_eq_mul]
  have hquad : q.lin (s.delta • d) + 1 / 2 * s.hp = q.quad (s.delta • d) := by rw [quad_smul, hs.hp]
  have htest : ((e.penalty * (q.viol 0 - q.viol (s.delta • d)) - s.od) * (1 - p.cauchyEta) ≥ 1 / 2 * s.hp) ↔
      Sufficient q p.cauchyEta (s.delta • d) := by
    unfold Sufficient
    rw [← hquad, ← hlin, quad_zero, he.f, he.pen]
    constructor <;> intro h <;> linarith
  have hpass : cauchyPass e p (q.viol 0) s =
      if (e.penalty * (q.viol 0 - q.viol (s.delta • d)) - s.od) * (1 - p.cauchyEta) ≥ 1 / 2 * s.hp
      then some (true, { s with merit := q.quad (s.delta • d) })
      else some (false, cauchyBack p (q.quad (s.delta • d)) s) := by
    unfold cauchyPass
    rw [he.eps, c1, Option.bind_some, total_dense he c2, Option.bind_some, hlv]
    simp only [hlin, hquad, cauchyBack]
  refine ⟨_, ⟨hs.hp, hs.od, hs.okC, hs.cj, hs.pos, hs.le⟩, rfl, ?_, ?_, ?_⟩
  · intro t0 t1
    obtain ⟨k1, k2⟩ := scale_dense hs.okC p.cauchyTau
    refine ⟨?_, ?_, k1, ?_, mul_pos hs.pos t0, mul_le_one₀ hs.le t0.le t1⟩
    · show s.hp * _ = s.delta * p.cauchyTau * (s.delta * p.cauchyTau) * _
      rw [hs.hp]; ring
    · show s.od * _ = s.delta * p.cauchyTau * _
      rw [hs.od]; ring
    · show dense m (s.cj.scale p.cauchyTau) = (s.delta * p.cauchyTau) • _
      rw [k2, hs.cj, smul_smul, mul_comm]
  · intro h
    rw [hpass, if_pos (htest.2 h)]
  · intro h
    rw [hpass, if_neg fun h' => h (htest.1 h')]

/-- what the loop achieves -/
structure LoopOut (q : LocalModel n m K) (p : LsParams K) (d : Fin n → K) (s : CauchyLs K) (r : Bool × CauchyLs K) : Prop where
  okC : VOk m r.2.cj
  accept : r.1 = false → CauchyInv q d r.2 ∧ Sufficient q p.cauchyEta (r.2.delta • d) ∧ r.2.merit = q.quad (r.2.delta • d) ∧
    r.2.delta ≤ s.delta ∧ (r.2.delta = s.delta ∨ p.eps < r.2.delta) ∧ (r.2.full = true → r.2.delta = s.delta ∧ s.full = true)
  zero : r.1 = true → r.2.full = false ∧ ∃ t : K, 0 < t ∧ t ≤ s.delta ∧ t * p.cauchyTau ≤ p.eps ∧ (t = s.delta ∨ p.eps < t) ∧ ¬ Sufficient q p.cauchyEta (t • d) ∧
    r.2.merit = q.quad (t • d)
  full : s.full = true → Sufficient q p.cauchyEta (s.delta • d) → r.1 = false ∧ r.2.full = true

theorem cauchyLoop_spec {q : LocalModel n m K} {e : MeritEnv K} (he : EnvFor q e) {p : LsParams K} (t0 : 0 < p.cauchyTau)
    (t1 : p.cauchyTau ≤ 1) {d : Fin n → K} (k : Nat) : ∀ {s : CauchyLs K}, CauchyInv q d s → ∀ {r},
    cauchyLoop e p (q.viol 0) k s = some r → LoopOut q p d s r := by
  induction k with
  | zero => intro s _ r h; exact absurd h (by simp [cauchyLoop])
  | succ k ih =>
    intro s hs r h
    obtain ⟨s', i1, i2, i3, i4, i5⟩ := cauchyPass_eq he p hs
    rw [cauchyLoop] at h
    by_cases hS : Sufficient q p.cauchyEta (s.delta • d)
    · rw [i4 hS, Option.bind_some, cauchyNext, if_pos rfl, Option.some_inj] at h
      subst h
      exact ⟨hs.okC, fun _ => ⟨i1, hS, rfl, le_rfl, Or.inl rfl, fun h => ⟨rfl, h⟩⟩, fun h => absurd h (by simp), fun h _ => ⟨rfl, h⟩⟩
    · have i3' := i3 t0 t1
      rw [i5 hS, Option.bind_some, cauchyNext, if_neg (by simp)] at h
      by_cases hz : isZero s'.delta p.eps = true
      · rw [if_pos hz, Option.some_inj] at h
        subst h
        refine ⟨i3'.okC, fun h => absurd h (by simp), fun _ => ⟨by rw [i2]; rfl, s.delta, hs.pos, le_rfl, ?_, Or.inl rfl, hS, by rw [i2]; rfl⟩,
          fun _ h => absurd h hS⟩
        have := (isZero_iff).1 hz
        have h2 : s'.delta = s.delta * p.cauchyTau := by rw [i2]; rfl
        rw [h2] at this
        exact le_trans (le_abs_self _) this
      · rw [if_neg hz] at h
        obtain ⟨o1, o2, o3, -⟩ := ih i3' h
        have hd : s'.delta ≤ s.delta := by rw [i2]; exact mul_le_of_le_one_right hs.pos.le t1
        have hf : s'.full = false := by rw [i2]; rfl
        have hz' : p.eps < s'.delta := by
          rw [← abs_of_pos i3'.pos]
          exact lt_of_not_ge fun h => hz (isZero_iff.2 h)
        refine ⟨o1, fun hr => ?_, fun hr => ?_, fun _ h => absurd h hS⟩
        · obtain ⟨a, b, c, f, u, g⟩ := o2 hr
          exact ⟨a, b, c, f.trans hd, Or.inr (u.elim (fun u => by rw [u]; exact hz') id), fun h => absurd ((g h).2) (by rw [hf]; simp)⟩
        · obtain ⟨a, t, b, c, f, u, g⟩ := o3 hr
          exact ⟨a, t, b, c.trans hd, f, Or.inr (u.elim (fun u => by rw [u]; exact hz') id), g⟩

theorem cauchyLoop_some {q : LocalModel n m K} {e : MeritEnv K} (he : EnvFor q e) {p : LsParams K} (t0 : 0 < p.cauchyTau)
    (t1 : p.cauchyTau ≤ 1) {d : Fin n → K} (k : Nat) : ∀ {s : CauchyLs K}, CauchyInv q d s → s.delta * p.cauchyTau ^ (k + 1) ≤ p.eps →
    ∃ r, cauchyLoop e p (q.viol 0) (k + 1) s = some r := by
  induction k with
  | zero =>
    intro s hs h
    obtain ⟨s', i1, i2, i3, i4, i5⟩ := cauchyPass_eq he p hs
    rw [cauchyLoop]
    by_cases hS : Sufficient q p.cauchyEta (s.delta • d)
    · rw [i4 hS]; exact ⟨_, rfl⟩
    · have hz : isZero s'.delta p.eps = true := by
        rw [isZero_iff, abs_of_pos (i3 t0 t1).pos, i2]
        show s.delta * p.cauchyTau ≤ _
        simpa using h
      rw [i5 hS, Option.bind_some, cauchyNext, if_neg (by simp), if_pos hz]
      exact ⟨_, rfl⟩
  | succ k ih =>
    intro s hs h
    obtain ⟨s', i1, i2, i3, i4, i5⟩ := cauchyPass_eq he p hs
    rw [cauchyLoop]
    by_cases hS : Sufficient q p.cauchyEta (s.delta • d)
    · rw [i4 hS]; exact ⟨_, rfl⟩
    · rw [i5 hS, Option.bind_some, cauchyNext, if_neg (by simp)]
      by_cases hz : isZero s'.delta p.eps = true
      · rw [if_pos hz]; exact ⟨_, rfl⟩
      · rw [if_neg hz]
        refine ih (i3 t0 t1) ?_
        rw [i2]
        show s.delta * p.cauchyTau * p.cauchyTau ^ (k + 1) ≤ _
        rw [mul_assoc, ← pow_succ']
        exact h

/-- the step length the search starts with -/
def startLen (radius norm : K) : K := if norm ≠ 0 ∧ radius / norm < 1 then radius / norm else 1

theorem startLen_spec {radius norm : K} (hr : 0 < radius) (hn : 0 ≤ norm) :
    0 < startLen radius norm ∧ startLen radius norm ≤ 1 ∧ startLen radius norm * norm ≤ radius := by
  unfold startLen
  split
  · rename_i h
    have hp : 0 < norm := lt_of_le_of_ne hn (Ne.symm h.1)
    exact ⟨div_pos hr hp, h.2.le, by rw [div_mul_cancel₀ _ h.1]⟩
  · rename_i h
    refine ⟨zero_lt_one, le_rfl, ?_⟩
    rw [one_mul]
    rcases hn.eq_or_lt with h0 | h0
    · rw [← h0]; exact hr.le
    · by_contra hc
      exact h ⟨h0.ne', by rw [div_lt_one h0]; exact not_le.1 hc⟩

theorem cauchyShrink_spec {q : LocalModel n m K} {D : Dir K} {d : Fin n → K} (h : DirFor q D d) {radius norm : K} (hr : 0 < radius)
    (hn : 0 ≤ norm) :
    CauchyInv q d (cauchyShrink radius norm ⟨d ⬝ᵥ q.H *ᵥ d, D.objGrad, D.consJac, 1, true, 0⟩) ∧
      (cauchyShrink radius norm ⟨d ⬝ᵥ q.H *ᵥ d, D.objGrad, D.consJac, 1, true, 0⟩).delta = startLen radius norm ∧
      (cauchyShrink radius norm ⟨d ⬝ᵥ q.H *ᵥ d, D.objGrad, D.consJac, 1, true, 0⟩).full = true := by
  obtain ⟨s1, s2, s3⟩ := startLen_spec hr hn
  unfold startLen at s1 s2 ⊢
  unfold cauchyShrink
  split
  · rename_i hc
    rw [if_pos hc] at s1 s2
    obtain ⟨k1, k2⟩ := scale_dense h.okC (radius / norm)
    exact ⟨⟨by show _ * _ = _; ring, by show _ * _ = _; rw [h.grad]; ring, k1, by show dense m (D.consJac.scale _) = _; rw [k2, h.jac],
      s1, s2⟩, rfl, rfl⟩
  · exact ⟨⟨by show _ = 1 * 1 * _; ring, by show _ = 1 * _; rw [h.grad, one_mul], h.okC,
      by show dense m D.consJac = (1 : K) • _; rw [one_smul, h.jac], zero_lt_one, le_rfl⟩, rfl, rfl⟩

theorem cauchyStep_eq {q : LocalModel n m K} {e : MeritEnv K} (he : EnvFor q e) (p : LsParams K) (radius norm : K) {D : Dir K}
    {d : Fin n → K} (h : DirFor q D d) :
    cauchyStep e p radius norm D =
      (cauchyLoop e p (q.viol 0) lsMaxIt (cauchyShrink radius norm ⟨d ⬝ᵥ q.H *ᵥ d, D.objGrad, D.consJac, 1, true, 0⟩)).bind fun r =>
        some (if r.1 then { D with consJac := r.2.cj }.setZero
              else ⟨D.primal.scale r.2.delta, r.2.od, r.2.cj, D.hess.scale r.2.delta⟩, r.2.full, r.2.merit) := by
  have hv : (∑ i, viol (dense m e.cons i) (q.lb i) (q.ub i)) = q.viol 0 := by
    unfold LocalModel.viol
    refine Finset.sum_congr rfl fun i _ => ?_
    rw [he.c, mulVec_zero, Pi.zero_apply, add_zero]
  unfold cauchyStep
  rw [total_dense he he.okC, Option.bind_some, hv, dot_dense h.okP h.okH, Option.bind_some, h.primal, h.hess]

/-! ### C43 -/

/-- the parameters are sensible, and `norm` is the Euclidean norm of `d` -/
structure CauchyOk (p : LsParams K) (radius norm : K) (d : Fin n → K) : Prop where
  tauPos : 0 < p.cauchyTau
  tauLe : p.cauchyTau ≤ 1
  radius : 0 < radius
  normNonneg : 0 ≤ norm
  norm : norm * norm = d ⬝ᵥ d

/-- C43: the Cauchy line search either returns a multiple in (0,1] of the given step, inside the trust region, with sufficient decrease of
the quadratic model and the merit value of that step, or gives up with the zero step. (Missing: in the latter case the merit value is
wrong, see `C43_zero_violated`.) -/
theorem C43_step_partial {q : LocalModel n m K} {e : MeritEnv K} (he : EnvFor q e) {D : Dir K} {d : Fin n → K} (h : DirFor q D d)
    {p : LsParams K} {radius norm : K} (hp : CauchyOk p radius norm d) {D' : Dir K} {full : Bool} {merit : K}
    (hr : cauchyStep e p radius norm D = some (D', full, merit)) :
    (∃ t : K, 0 < t ∧ t ≤ 1 ∧ DirFor q D' (t • d) ∧ (t • d) ⬝ᵥ (t • d) ≤ radius * radius ∧
      p.cauchyEta * (q.quad 0 - q.lin (t • d)) ≤ q.quad 0 - q.quad (t • d) ∧ merit = q.quad (t • d)) ∨
    (DirFor q D' 0 ∧ full = false) := by
  obtain ⟨i1, i2, i3⟩ := cauchyShrink_spec h hp.radius hp.normNonneg
  rw [cauchyStep_eq he p radius norm h, Option.bind_eq_some_iff] at hr
  obtain ⟨r, r1, r2⟩ := hr
  have out := cauchyLoop_spec he hp.tauPos hp.tauLe _ i1 r1
  rw [Option.some_inj, Prod.mk.injEq, Prod.mk.injEq] at r2
  obtain ⟨rD, rf, rm⟩ := r2
  cases hb : r.1 with
  | false =>
    obtain ⟨a, b, c, f, -⟩ := out.accept hb
    left
    rw [hb] at rD
    simp only [Bool.false_eq_true, if_false] at rD
    obtain ⟨s1, s2, s3⟩ := startLen_spec hp.radius hp.normNonneg
    obtain ⟨p1, p2⟩ := scale_dense h.okP r.2.delta
    obtain ⟨h1, h2⟩ := scale_dense h.okH r.2.delta
    refine ⟨r.2.delta, a.pos, a.le, ?_, ?_, b, by rw [← rm, c]⟩
    · rw [← rD]
      exact ⟨p1, a.okC, h1, by rw [← h.primal]; exact p2, by show r.2.od = _; rw [a.od, dotProduct_smul, smul_eq_mul],
        by rw [mulVec_smul]; exact a.cj, by rw [mulVec_smul, ← h.hess]; exact h2⟩
    · rw [smul_dotProduct, dotProduct_smul, smul_eq_mul, smul_eq_mul, ← hp.norm]
      have e1 : r.2.delta * norm ≤ radius :=
        le_trans (mul_le_mul_of_nonneg_right (by rw [i2] at f; exact f) hp.normNonneg) s3
      have e0 : 0 ≤ r.2.delta * norm := mul_nonneg a.pos.le hp.normNonneg
      calc r.2.delta * (r.2.delta * (norm * norm)) = (r.2.delta * norm) * (r.2.delta * norm) := by ring
        _ ≤ radius * radius := mul_le_mul e1 e1 e0 (e0.trans e1)
  | true =>
    right
    rw [hb] at rD
    simp only [if_true] at rD
    obtain ⟨z1, z2⟩ := out.zero hb
    obtain ⟨p1, p2⟩ := clear_vok h.okP
    obtain ⟨c1, c2⟩ := clear_vok out.okC
    obtain ⟨h1, h2⟩ := clear_vok h.okH
    refine ⟨?_, by rw [← rf, z1]⟩
    rw [← rD]
    exact ⟨p1, c1, h1, p2, by rw [dotProduct_zero]; rfl, by rw [mulVec_zero]; exact c2, by rw [mulVec_zero]; exact h2⟩

/-- C43: the search terminates within the iteration limit if the smallest trial step length is negligible. -/
theorem C43_terminates {q : LocalModel n m K} {e : MeritEnv K} (he : EnvFor q e) {D : Dir K} {d : Fin n → K} (h : DirFor q D d)
    {p : LsParams K} {radius norm : K} (hp : CauchyOk p radius norm d) (hl : p.cauchyTau ^ 10000 ≤ p.eps) :
    ∃ r, cauchyStep e p radius norm D = some r := by
  obtain ⟨i1, i2, i3⟩ := cauchyShrink_spec h hp.radius hp.normNonneg
  obtain ⟨r, hr⟩ := cauchyLoop_some he hp.tauPos hp.tauLe 9999 i1
    (le_trans (mul_le_of_le_one_left (pow_nonneg hp.tauPos.le _) i1.le) hl)
  rw [cauchyStep_eq he p radius norm h]
  exact ⟨_, by rw [show lsMaxIt = 9999 + 1 from rfl, hr]; rfl⟩

/-- C43: the search does not give up when the linear model promises enough compared with the curvature: the step is then not zero. -/
theorem C43_progress {q : LocalModel n m K} {e : MeritEnv K} (he : EnvFor q e) {D : Dir K} {d : Fin n → K} (h : DirFor q D d)
    {p : LsParams K} {radius norm : K} (hp : CauchyOk p radius norm d) (heta : p.cauchyEta ≤ 1) (hpen : 0 ≤ q.penalty)
    (hcurv : 0 ≤ d ⬝ᵥ q.H *ᵥ d)
    (hgain : p.eps * (d ⬝ᵥ q.H *ᵥ d) ≤ 2 * p.cauchyTau * ((1 - p.cauchyEta) * (q.quad 0 - q.lin d)))
    {D' : Dir K} {full : Bool} {merit : K} (hr : cauchyStep e p radius norm D = some (D', full, merit)) :
    ∃ t : K, 0 < t ∧ t ≤ 1 ∧ DirFor q D' (t • d) ∧ q.quad (t • d) = merit := by
  obtain ⟨i1, i2, i3⟩ := cauchyShrink_spec h hp.radius hp.normNonneg
  have hr' := hr
  rw [cauchyStep_eq he p radius norm h, Option.bind_eq_some_iff] at hr
  obtain ⟨r, r1, r2⟩ := hr
  have out := cauchyLoop_spec he hp.tauPos hp.tauLe _ i1 r1
  have hfalse : r.1 = false := by
    by_contra hb
    obtain ⟨-, t, ht0, ht1, ht2, -, ht3, -⟩ := out.zero (by simpa using hb)
    have ht1' : t ≤ 1 := ht1.trans i1.le
    refine ht3 ?_
    have hv := mul_le_mul_of_nonneg_left (model_viol_convex q d ht0.le ht1') hpen
    have hlin : t * (q.quad 0 - q.lin d) ≤ q.quad 0 - q.lin (t • d) := by
      rw [quad_zero]
      unfold LocalModel.lin
      rw [dotProduct_smul, smul_eq_mul]
      linarith
    have h1 := mul_le_mul_of_nonneg_left hlin (sub_nonneg.2 heta)
    -- `t * tau * curv ≤ eps * curv ≤ 2 tau (1 - eta) gain`
    have h2 := le_trans (mul_le_mul_of_nonneg_right ht2 hcurv) hgain
    have h3 : t * (d ⬝ᵥ q.H *ᵥ d) ≤ 2 * ((1 - p.cauchyEta) * (q.quad 0 - q.lin d)) := by
      refine le_of_mul_le_mul_left ?_ hp.tauPos
      linarith
    have h4 := mul_le_mul_of_nonneg_left h3 ht0.le
    unfold Sufficient
    rw [quad_smul]
    linarith
  rcases C43_step_partial he h hp hr' with ⟨t, a, b, c, -, -, f⟩ | ⟨-, hf⟩
  · exact ⟨t, a, b, c, f.symm⟩
  · rw [Option.some_inj, Prod.mk.injEq, Prod.mk.injEq] at r2
    obtain ⟨rD, rf, rm⟩ := r2
    obtain ⟨a, b, c, f, -⟩ := out.accept hfalse
    obtain ⟨p1, p2⟩ := scale_dense h.okP r.2.delta
    obtain ⟨h1, h2⟩ := scale_dense h.okH r.2.delta
    rw [hfalse] at rD
    simp only [Bool.false_eq_true, if_false] at rD
    refine ⟨r.2.delta, a.pos, a.le, ?_, by rw [← rm, c]⟩
    rw [← rD]
    exact ⟨p1, a.okC, h1, by rw [← h.primal]; exact p2, by show r.2.od = _; rw [a.od, dotProduct_smul, smul_eq_mul],
        by rw [mulVec_smul]; exact a.cj, by rw [mulVec_smul, ← h.hess]; exact h2⟩

/-- C43: `full_step` is reported exactly if the first trial, the step shortened to the trust region, is accepted.
This is for `zero_eps = 0`; a positive drop tolerance is missing. -/
theorem C43_full_partial {q : LocalModel n m K} {e : MeritEnv K} (he : EnvFor q e) {D : Dir K} {d : Fin n → K} (h : DirFor q D d)
    {p : LsParams K} {radius norm : K} (hp : CauchyOk p radius norm d) {D' : Dir K} {full : Bool} {merit : K}
    (hr : cauchyStep e p radius norm D = some (D', full, merit)) :
    full = true ↔ p.cauchyEta * (q.quad 0 - q.lin (startLen radius norm • d)) ≤ q.quad 0 - q.quad (startLen radius norm • d) := by
  obtain ⟨i1, i2, i3⟩ := cauchyShrink_spec h hp.radius hp.normNonneg
  rw [cauchyStep_eq he p radius norm h, Option.bind_eq_some_iff] at hr
  obtain ⟨r, r1, r2⟩ := hr
  have out := cauchyLoop_spec he hp.tauPos hp.tauLe _ i1 r1
  rw [Option.some_inj, Prod.mk.injEq, Prod.mk.injEq] at r2
  obtain ⟨rD, rf, rm⟩ := r2
  rw [← rf, ← i2]
  constructor
  · intro hf
    cases hb : r.1 with
    | false =>
      obtain ⟨a, b, c, f, -, g⟩ := out.accept hb
      rw [← (g hf).1]
      exact b
    | true => exact absurd hf (by rw [(out.zero hb).1]; simp)
  · intro hs
    exact (out.full i3 hs).2

/-! ### samples and violations: one variable, no constraints -/

/-- the model `-d + h/2 d²` -/
def exLine (h : ℚ) : LocalModel 1 0 ℚ := ⟨0, ![-1], ![], fun i => i.elim0, fun _ _ => h, ![], ![], 1⟩
/-- its environment -/
def exLineEnv : MeritEnv ℚ := ⟨0, 0, ⟨0, 0, []⟩, ⟨0, 0, []⟩, ⟨0, 0, []⟩, ⟨0, 0, []⟩, 0, 1⟩
/-- the step `x` -/
def exLineDir (h x : ℚ) : Dir ℚ := ⟨⟨1, 1, [(0, x)]⟩, -x, ⟨0, 0, []⟩, ⟨1, 1, [(0, h * x)]⟩⟩
/-- the default settings -/
def exLs : LsParams ℚ := ⟨1 / 10 ^ 10, 1 / 10, 1 / 2, 1 / 10 ^ 4, 1 / 2, 1 / 10 ^ 6⟩

theorem exVokE : VOk 0 (⟨0, 0, []⟩ : Vec ℚ) := ⟨⟨by simp [Srt], by simp, by simp⟩, rfl⟩

theorem exLineEnvFor (h : ℚ) : EnvFor (exLine h) exLineEnv :=
  ⟨rfl, rfl, exVokE, exVokE, exVokE, funext fun i => i.elim0, funext fun i => i.elim0, funext fun i => i.elim0, fun i => i.elim0, rfl, rfl⟩

theorem exLineDense (x : ℚ) : dense 1 (⟨1, 1, [(0, x)]⟩ : Vec ℚ) = ![x] := by
  funext i
  obtain rfl : i = 0 := Subsingleton.elim _ _
  simp [dense, Vec.value, valAt, at?]

theorem exLineDirFor (h x : ℚ) : DirFor (exLine h) (exLineDir h x) ![x] :=
  ⟨exVok x, exVokE, exVok _, exLineDense x, by simp [exLineDir, exLine, dotProduct], funext fun i => i.elim0, by
    show dense 1 (⟨1, 1, [(0, h * x)]⟩ : Vec ℚ) = _
    rw [exLineDense]
    funext i
    obtain rfl : i = 0 := Subsingleton.elim _ _
    simp [exLine, mulVec, dotProduct]⟩

theorem exLine_lin (h t : ℚ) (x : ℚ) : (exLine h).lin (t • ![x]) = -(t * x) := by
  simp [LocalModel.lin, LocalModel.viol, exLine, dotProduct]

theorem exLine_quad (h t : ℚ) (x : ℚ) : (exLine h).quad (t • ![x]) = -(t * x) + 1 / 2 * (t * t * (x * (h * x))) := by
  rw [quad_smul, exLine_lin]
  simp [exLine, mulVec, dotProduct]

theorem exLine_quad0 (h : ℚ) : (exLine h).quad 0 = 0 := by
  simp [LocalModel.quad, LocalModel.lin, LocalModel.viol, exLine]

example : CauchyOk exLs 1 2 ![(2 : ℚ)] ∧ ∃ r, cauchyStep exLineEnv exLs 1 2 (exLineDir 1 2) = some r := by
  have h : CauchyOk exLs 1 2 ![(2 : ℚ)] :=
    ⟨by norm_num [exLs], by norm_num [exLs], by norm_num, by norm_num, by simp [dotProduct]⟩
  refine ⟨h, C43_terminates (exLineEnvFor 1) (exLineDirFor 1 2) h ?_⟩
  calc (exLs.cauchyTau) ^ 10000 ≤ exLs.cauchyTau ^ 40 :=
        pow_le_pow_of_le_one (by norm_num [exLs]) (by norm_num [exLs]) (by norm_num)
    _ ≤ exLs.eps := by norm_num [exLs]

/-- If no trial step of the Cauchy line search is accepted the step is set to zero, but the merit value returned with it is the one of
the last rejected trial instead of that of the zero step. With the default settings this happens for the model `-d + 10¹² d² / 2`: the
value returned is positive although the zero step has merit 0. -/
theorem C43_zero_violated : ∃ (q : LocalModel 1 0 ℚ) (e : MeritEnv ℚ) (D D' : Dir ℚ) (d : Fin 1 → ℚ) (full : Bool) (merit : ℚ),
    EnvFor q e ∧ DirFor q D d ∧ CauchyOk exLs 1 1 d ∧ cauchyStep e exLs 1 1 D = some (D', full, merit) ∧ DirFor q D' 0 ∧
      q.quad 0 < merit := by
  have hok : CauchyOk exLs 1 1 ![(1 : ℚ)] :=
    ⟨by norm_num [exLs], by norm_num [exLs], by norm_num, by norm_num, by simp [dotProduct]⟩
  have he := exLineEnvFor (10 ^ 12)
  have hd := exLineDirFor (10 ^ 12) 1
  obtain ⟨⟨D', full, merit⟩, hr⟩ := C43_terminates he hd hok (by
    calc (exLs.cauchyTau) ^ 10000 ≤ exLs.cauchyTau ^ 40 :=
        pow_le_pow_of_le_one (by norm_num [exLs]) (by norm_num [exLs]) (by norm_num)
    _ ≤ exLs.eps := by norm_num [exLs])
  have hr' := hr
  obtain ⟨i1, i2, i3⟩ := cauchyShrink_spec hd hok.radius hok.normNonneg
  rw [cauchyStep_eq he exLs 1 1 hd, Option.bind_eq_some_iff] at hr
  obtain ⟨r, r1, r2⟩ := hr
  have out := cauchyLoop_spec he hok.tauPos hok.tauLe _ i1 r1
  have hs : startLen (1 : ℚ) 1 = 1 := by norm_num [startLen]
  rw [Option.some_inj, Prod.mk.injEq, Prod.mk.injEq] at r2
  obtain ⟨rD, rf, rm⟩ := r2
  have hlarge : ∀ t : ℚ, (t = 1 ∨ exLs.eps < t) → 1 / 10 ^ 10 ≤ t := by
    rintro t (rfl | h)
    · norm_num
    · exact h.le
  have hbad : ∀ t : ℚ, 1 / 10 ^ 10 ≤ t → 0 < (exLine (10 ^ 12)).quad (t • ![1]) := by
    intro t ht
    rw [exLine_quad]
    have h0 : (0 : ℚ) < t := lt_of_lt_of_le (by norm_num) ht
    have h1 := mul_le_mul_of_nonneg_left ht h0.le
    have h2 : (0 : ℚ) < t * (49 / 1) := by positivity
    linarith
  refine ⟨exLine (10 ^ 12), exLineEnv, exLineDir (10 ^ 12) 1, D', ![1], full, merit, he, hd, hok, hr', ?_⟩
  cases hb : r.1 with
  | false =>
    exfalso
    obtain ⟨a, b, c, f, u, -⟩ := out.accept hb
    rw [i2, hs] at u
    have h1 := hbad _ (hlarge _ u)
    unfold Sufficient at b
    rw [exLine_quad0, exLine_lin] at b
    have h2 : (0 : ℚ) < exLs.cauchyEta * r.2.delta := mul_pos (by norm_num [exLs]) a.pos
    linarith
  | true =>
    obtain ⟨-, t, ht0, -, -, u, -, hm⟩ := out.zero hb
    rw [i2, hs] at u
    refine ⟨?_, by rw [exLine_quad0, ← rm, hm]; exact hbad t (hlarge t u)⟩
    rcases C43_step_partial he hd hok hr' with ⟨t', a, b, c, f, g, v⟩ | ⟨h0, -⟩
    · rw [hb] at rD
      simp only [if_true] at rD
      obtain ⟨p1, p2⟩ := clear_vok hd.okP
      obtain ⟨c1, c2⟩ := clear_vok out.okC
      obtain ⟨h1, h2⟩ := clear_vok hd.okH
      rw [← rD]
      exact ⟨p1, c1, h1, p2, by rw [dotProduct_zero]; rfl, by rw [mulVec_zero]; exact c2, by rw [mulVec_zero]; exact h2⟩
    · exact h0

/-- The line search reports that the full LP step was accepted although the step was shortened to the trust region: `full_step` is only
reset in the backtracking loop. Here the LP step 2 is cut to 1 and reported as a full step. -/
theorem C43_full_violated : ∃ (q : LocalModel 1 0 ℚ) (e : MeritEnv ℚ) (D D' : Dir ℚ) (d : Fin 1 → ℚ) (merit t : ℚ),
    EnvFor q e ∧ DirFor q D d ∧ CauchyOk exLs 1 2 d ∧ cauchyStep e exLs 1 2 D = some (D', true, merit) ∧ DirFor q D' (t • d) ∧
      t < 1 ∧ t • d ≠ d := by
  have hok : CauchyOk exLs 1 2 ![(2 : ℚ)] :=
    ⟨by norm_num [exLs], by norm_num [exLs], by norm_num, by norm_num, by simp [dotProduct]⟩
  have he := exLineEnvFor 0
  have hd := exLineDirFor 0 2
  obtain ⟨⟨D', full, merit⟩, hr⟩ := C43_terminates he hd hok (by
    calc (exLs.cauchyTau) ^ 10000 ≤ exLs.cauchyTau ^ 40 :=
        pow_le_pow_of_le_one (by norm_num [exLs]) (by norm_num [exLs]) (by norm_num)
    _ ≤ exLs.eps := by norm_num [exLs])
  have hs : startLen (1 : ℚ) 2 = 1 / 2 := by norm_num [startLen]
  have hf : full = true := by
    rw [C43_full_partial he hd hok hr, hs, exLine_quad0, exLine_lin, exLine_quad]
    norm_num [exLs]
  subst hf
  rcases C43_step_partial he hd hok hr with ⟨t, a, b, c, f, -⟩ | ⟨-, h⟩
  · have ht : t < 1 := by
      by_contra hc
      obtain rfl : t = 1 := le_antisymm b (not_lt.1 hc)
      simp [dotProduct] at f
      norm_num at f
    refine ⟨exLine 0, exLineEnv, exLineDir 0 2, D', ![2], merit, t, he, hd, hok, hr, c, ht, fun h => ?_⟩
    have := congrFun h 0
    simp at this
    exact ht.ne this
  · exact absurd h (by simp)

end Sleqp
