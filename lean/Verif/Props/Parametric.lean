import Verif.Lemmas.Parametric
import Verif.Props.CauchyLs
import Verif.Lemmas.CauchyLpEx
import Mathlib.Tactic.NormNum
import Mathlib.Tactic.IntervalCases

/-!
C79: the search for the trust radius of the linear programs (parametric Cauchy steps).
-/

namespace Sleqp
variable {K : Type*} [Field K] [LinearOrder K] [IsStrictOrderedRing K]
variable {n m : Nat}
open Matrix

/-! ### lemmas -/

omit [IsStrictOrderedRing K] in
theorem LpFamily.descent {q : LocalModel n m K} {B : (Fin n → K) → Prop} {sol : K → Fin n → K} [IsStrictOrderedRing K]
    (h : LpFamily q B sol) {r : K} (hr : 0 ≤ r) : q.lin (sol r) ≤ q.lin 0 :=
  h.best r hr 0 h.zero fun i => by simpa using hr

omit [IsStrictOrderedRing K] in
theorem LpFamily.mono {q : LocalModel n m K} {B : (Fin n → K) → Prop} {sol : K → Fin n → K} (h : LpFamily q B sol) {r r' : K}
    (hr : 0 ≤ r) (hrr : r ≤ r') : q.lin (sol r') ≤ q.lin (sol r) :=
  h.best r' (le_trans hr hrr) _ (h.bounds r hr) fun i => le_trans (h.within r hr i) hrr

/-- the first steps of `sleqp_parametric_solver_solve` -/
theorem par_solve {q : LocalModel n m K} {sol : K → Fin n → K} {e : ParEnv K} (he : ParFor q sol e) {lp : Vec K}
    (hlp : lp.WF ∧ lp.dim = n) {D L : Dir K} (hD : DirStore n m D) (r0 : K) [Decidable (SuffDecrease q e.eta (dense n lp))] :
    ∃ D', DirFor q D' (dense n lp) ∧ e.solve lp D L r0 = if decide (SuffDecrease q e.eta (dense n lp)) = true then
        (D'.copy L).bind fun l => e.forward e.resolves ⟨D', l, r0 * e.increase, q.quad (dense n lp), r0, 0⟩
      else e.backtrack (q.viol 0) ⟨D', L, r0 * e.decrease, q.quad (dense n lp), r0, 0⟩ := by
  obtain ⟨p, p1, p2, p3⟩ := copy_spec hlp hD.okP.2
  obtain ⟨D', D1, D2⟩ := par_reset he hD p2
  have hp : dense n p = dense n lp := dense_of_ents p3
  rw [hp] at D2
  refine ⟨D', D2, ?_⟩
  unfold ParEnv.solve
  rw [p1, Option.bind_some, D1, Option.bind_some, par_violation he.merits, Option.bind_some, par_sufficient he.merits D2,
    Option.bind_some]

/-! ### C79 -/

/-- C79, searching forward: if the step of the initial radius `r0` achieves sufficient decrease then the search ends after at most one
more linear program than allowed. The new step solves the linear program for a radius `r0 · increase ^ k`, the linear program solved
last (from which the working set is taken) is the one for this radius, and the step lies within the new trust radius. The new step is
as least as good in the quadratic model as the initial one, and as the value returned.
Missing: the value returned should be that of the new step, and gradient and Jacobian product should belong to it; they belong to the
initial step, see `C79_direction_violated`. -/
theorem C79_forward_partial {q : LocalModel n m K} {B : (Fin n → K) → Prop} {sol : K → Fin n → K} {e : ParEnv K} (he : ParFor q sol e)
    (hs : LpFamily q B sol) (heps : 0 ≤ e.eps) (hi : 1 ≤ e.increase) {lp : Vec K} (hlp : lp.WF ∧ lp.dim = n) {D L : Dir K}
    (hD : DirStore n m D) (hL : DirStore n m L) {r0 : K} (hr : 0 ≤ r0) (hsol : dense n lp = sol r0) (hd : SuffDecrease q e.eta (sol r0)) :
    ∃ out k, e.solve lp D L r0 = some out ∧ k ≤ e.resolves ∧ out.solves ≤ e.resolves + 1 ∧
      out.solved = r0 * e.increase ^ k ∧ dense n out.dir.primal = sol out.solved ∧ dense n out.dir.hess = q.H *ᵥ sol out.solved ∧
      r0 ≤ out.radius ∧ out.solved ≤ out.radius ∧ (∀ i, |dense n out.dir.primal i| ≤ out.radius) ∧ B (dense n out.dir.primal) ∧
      q.quad (dense n out.dir.primal) ≤ out.merit ∧ out.merit ≤ q.quad (sol r0) ∧
      (k = 0 → DirFor q out.dir (sol r0) ∧ out.merit = q.quad (sol r0)) := by
  classical
  obtain ⟨D', h1, h2⟩ := par_solve he hlp hD (L := L) r0
  rw [hsol] at h1 h2
  rw [if_pos (decide_eq_true hd)] at h2
  obtain ⟨l, l1, l2⟩ := mixedDir_copy (mixedDir_self.2 h1) hL
  rw [l1, Option.bind_some] at h2
  obtain ⟨out, k, o1, o2, -, o4, o5, -⟩ := par_forward he heps (by intro h; rw [h] at hi; linarith) e.resolves 0
    ⟨D', l, r0 * e.increase, q.quad (sol r0), r0, 0⟩
    ⟨by simp, by simp, by simpa using mixedDir_self.2 h1, by simpa using l2, by simp [mixedMerit, LocalModel.quad], le_rfl, rfl⟩
  have hpow : (1 : K) ≤ e.increase ^ k := one_le_pow₀ hi
  have hr0 : r0 ≤ r0 * e.increase ^ k := le_mul_of_one_le_right hr hpow
  have hle : out.solved ≤ out.radius := by
    rw [o2.solved]
    rcases o2.radius with h | h
    · rw [h]
    · rw [h, pow_succ, ← mul_assoc]
      exact le_mul_of_one_le_right (le_trans hr hr0) hi
  have hp : dense n out.dir.primal = sol out.solved := by rw [o2.solved]; exact o2.dir.primal
  have h0 : 0 ≤ out.solved := by rw [o2.solved]; exact le_trans hr hr0
  refine ⟨out, k, by rw [h2, o1], by omega, ?_, o2.solved, hp, by rw [o2.solved]; exact o2.dir.hess, ?_, hle, ?_, ?_, ?_, o2.le, ?_⟩
  · rcases Nat.lt_or_ge k e.resolves with hk | hk
    · have := o2.solves
      omega
    · rw [o5 (by omega)]
      omega
  · exact le_trans hr0 (by rw [← o2.solved]; exact hle)
  · intro i
    rw [hp]
    exact le_trans (hs.within _ h0 i) hle
  · rw [hp]
    exact hs.bounds _ h0
  · rw [hp, o2.merit, o2.solved]
    unfold LocalModel.quad mixedMerit
    have := hs.mono hr hr0
    linarith
  · rintro rfl
    have a := o2.dir
    have b := o2.merit
    rw [pow_zero, mul_one] at a b
    exact ⟨mixedDir_self.1 a, b⟩

/-- C79, tracking back: if the step of the initial radius `r0` does not achieve sufficient decrease, the search stops at the first of the
radii `r0 · decrease ^ (k + 1)` whose step does, provided that there is one among those allowed. The direction belongs to this step in
all its parts, the value returned is that of the quadratic model, and the radius is the one for which the linear program has been solved
last. Such a step is not worse than staying. Missing: what happens if there is none, see `C79_fallback_partial` and
`C79_line_search_violated`. -/
theorem C79_back_partial {q : LocalModel n m K} {B : (Fin n → K) → Prop} {sol : K → Fin n → K} {e : ParEnv K} (he : ParFor q sol e)
    (hs : LpFamily q B sol) (hdec : 0 ≤ e.decrease) (heta : 0 ≤ e.eta) {lp : Vec K} (hlp : lp.WF ∧ lp.dim = n) {D : Dir K} (L : Dir K)
    (hD : DirStore n m D) {r0 : K} (hr : 0 ≤ r0) (hsol : dense n lp = sol r0) (hd : ¬ SuffDecrease q e.eta (sol r0)) {k : Nat}
    (hk : k < e.resolves) (hsuff : SuffDecrease q e.eta (sol (r0 * e.decrease ^ (k + 1))))
    (hfirst : ∀ j < k, ¬ SuffDecrease q e.eta (sol (r0 * e.decrease ^ (j + 1)))) :
    ∃ out, e.solve lp D L r0 = some out ∧ out.radius = r0 * e.decrease ^ (k + 1) ∧ out.solved = out.radius ∧ out.solves = k + 1 ∧
      DirFor q out.dir (sol out.radius) ∧ out.merit = q.quad (sol out.radius) ∧ (∀ i, |sol out.radius i| ≤ out.radius) ∧
      q.quad (sol out.radius) ≤ q.quad 0 := by
  classical
  obtain ⟨D', h1, h2⟩ := par_solve he hlp hD (L := L) r0
  rw [hsol] at h1 h2
  rw [if_neg (by simpa using hd)] at h2
  have shift : ∀ j, r0 * e.decrease * e.decrease ^ j = r0 * e.decrease ^ (j + 1) := fun j => by rw [pow_succ]; ring
  have hb := par_backward he e.resolves ⟨D', L, r0 * e.decrease, q.quad (sol r0), r0, 0⟩ h1.store
  simp only [shift] at hb
  rcases hb with ⟨k', out, k1, k2, k3, k4, k5, k6, k7, k8, k9⟩ | ⟨k1, -⟩
  · obtain rfl : k' = k := by
      rcases Nat.lt_trichotomy k' k with h | h | h
      · exact absurd k3 (hfirst k' h)
      · exact h
      · exact absurd hsuff (k4 k h)
    have h0 : 0 ≤ r0 * e.decrease ^ (k' + 1) := mul_nonneg hr (pow_nonneg hdec _)
    refine ⟨out, ?_, k6, by rw [k7, k6], by rw [k9]; omega, by rw [k6]; exact k5, by rw [k6]; exact k8, by
      rw [k6]; exact hs.within _ h0, ?_⟩
    · rw [h2]
      unfold ParEnv.backtrack
      rw [k2]
      rfl
    · rw [k6]
      unfold SuffDecrease at k3
      have := hs.descent h0
      rw [← quad_zero_eq] at this
      have := mul_nonneg heta (by linarith : 0 ≤ q.quad 0 - q.lin (sol (r0 * e.decrease ^ (k' + 1))))
      linarith
  · exact absurd hsuff (k1 k hk)

/-- C79, tracking back without success: provided that the line search has been set to the current iterate, penalty parameter and trust
radius, the step of the last radius is shortened so that it achieves sufficient decrease, or replaced by zero.
Missing: the line search is never set to the current iterate at this point, see `C79_line_search_violated` and `C79_stale_violated`. -/
theorem C79_fallback_partial {q : LocalModel n m K} {sol : K → Fin n → K} {e : ParEnv K} (he : ParFor q sol e) {l : ParLine K}
    (hl : e.line = some l) (hlq : EnvFor q l.merits) {lp : Vec K} (hlp : lp.WF ∧ lp.dim = n) {D : Dir K} (L : Dir K) (hD : DirStore n m D)
    {r0 : K} (hsol : dense n lp = sol r0) (hd : ¬ SuffDecrease q e.eta (sol r0)) {c : Nat} (hc : e.resolves = c + 1)
    (hnone : ∀ k ≤ c, ¬ SuffDecrease q e.eta (sol (r0 * e.decrease ^ (k + 1))))
    (hok : ∀ p, dense n p = sol (r0 * e.decrease ^ (c + 1)) → CauchyOk l.params l.radius (l.norm p) (dense n p))
    (hlim : l.params.cauchyTau ^ 10000 ≤ l.params.eps) :
    ∃ out, e.solve lp D L r0 = some out ∧ out.solved = r0 * e.decrease ^ (c + 1) ∧ out.solves = e.resolves ∧
      ((∃ t : K, 0 < t ∧ t ≤ 1 ∧ DirFor q out.dir (t • sol out.solved) ∧ SuffDecrease q l.params.cauchyEta (t • sol out.solved) ∧
        (t • sol out.solved) ⬝ᵥ (t • sol out.solved) ≤ l.radius * l.radius ∧ out.merit = q.quad (t • sol out.solved)) ∨
        DirFor q out.dir 0) := by
  classical
  obtain ⟨D', h1, h2⟩ := par_solve he hlp hD (L := L) r0
  rw [hsol] at h1 h2
  rw [if_neg (by simpa using hd)] at h2
  have shift : ∀ j, r0 * e.decrease * e.decrease ^ j = r0 * e.decrease ^ (j + 1) := fun j => by rw [pow_succ]; ring
  have hb := par_backward he e.resolves ⟨D', L, r0 * e.decrease, q.quad (sol r0), r0, 0⟩ h1.store
  simp only [shift] at hb
  rcases hb with ⟨k', out, k1, k2, k3, -⟩ | ⟨-, out, k2, k3, k4, -, k6⟩
  · exact absurd k3 (hnone k' (by omega))
  · obtain ⟨a1, a2⟩ := k6 c hc
    have hck := hok out.dir.primal a1.primal
    rw [a1.primal] at hck
    obtain ⟨⟨D2, full, merit⟩, hrun⟩ := C43_terminates hlq a1 hck hlim
    refine ⟨{ out with dir := D2, merit := merit }, ?_, a2, by show out.solves = _; rw [k4]; omega, ?_⟩
    · rw [h2]
      unfold ParEnv.backtrack
      rw [k2, Option.bind_some, if_neg (by simp), hl, Option.bind_some, hrun]
      rfl
    · show (∃ t : K, 0 < t ∧ t ≤ 1 ∧ DirFor q D2 (t • sol out.solved) ∧ _ ∧ _ ∧ merit = _) ∨ DirFor q D2 0
      rw [a2]
      rcases C43_step_partial hlq a1 hck hrun with ⟨t, t1, t2, t3, t4, t5, t6⟩ | h
      · exact Or.inl ⟨t, t1, t2, t3, t5, t4, t6⟩
      · exact Or.inr h.1

/-! ### samples and violations: one variable, no constraints, model `-d + h/2 d²` -/

/-- the sample environment with the setting `COARSE`, no iterate passed to the line search -/
def exPar (h : ℚ) : ParEnv ℚ :=
  ParEnv.coarse ⟨exLineEnv, ⟨1, 1, [(0, -1)]⟩, Mat.create 0 1 0 (fun _ => 0) (fun _ => 0), fun d _ => some (d.scale h), fun r _ => some ⟨1, 1, [(0, r)]⟩,
    1 / 10 ^ 10, 1 / 10, 1, 1, 0, none⟩

/-- the steps of its linear programs -/
def exParSol (r : ℚ) : Fin 1 → ℚ := ![r]

/-- a direction to be overwritten -/
def exParDir : Dir ℚ := Dir.create 1 0

theorem exParFamily (h : ℚ) : LpFamily (exLine h) (fun _ => True) exParSol := by
  refine ⟨trivial, fun _ _ => trivial, fun r hr i => ?_, fun r hr d _ hd => ?_⟩
  · obtain rfl : i = 0 := Subsingleton.elim _ _
    simp [exParSol, abs_of_nonneg hr]
  · have := (abs_le.1 (hd 0)).2
    simpa [LocalModel.lin, LocalModel.viol, exLine, dotProduct, exParSol] using this

theorem exParHess (h : ℚ) : HessFor (exLine h) fun d _ => some (d.scale h) := by
  intro d r hd _
  obtain ⟨a, b⟩ := scale_dense hd h
  refine ⟨_, rfl, a, ?_⟩
  rw [b]
  funext i
  obtain rfl : i = 0 := Subsingleton.elim _ _
  simp [exLine, mulVec, dotProduct]

theorem exParMat : (Mat.create 0 1 0 (fun _ => 0) (fun _ => (0 : ℚ))).WF :=
  ⟨rfl, fun _ _ => le_rfl, rfl, le_rfl, fun j _ => by simp [Mat.create, Mat.col, Srt], fun j _ => by simp [Mat.create, Mat.col]⟩

theorem exParFor (h : ℚ) : ParFor (exLine h) exParSol (exPar h) :=
  ⟨exLineEnvFor h, exVok _, exLineDense _, ⟨exParMat, rfl⟩, fun i => i.elim0, exParHess h,
    fun r _ _ _ => ⟨_, rfl, exVok _, exLineDense _⟩⟩

theorem exParStore : DirStore 1 0 exParDir :=
  ⟨⟨(C02_isValid_iff _).1 (by decide +kernel), rfl⟩, ⟨(C02_isValid_iff _).1 (by decide +kernel), rfl⟩,
    ⟨(C02_isValid_iff _).1 (by decide +kernel), rfl⟩⟩

theorem exParSuff (h r : ℚ) : SuffDecrease (exLine h) (1 / 10) (exParSol r) ↔ 1 / 10 * r ≤ r - 1 / 2 * (r * (h * r)) := by
  have h1 := exLine_quad h 1 r
  have h2 := exLine_lin h 1 r
  rw [one_smul] at h1 h2
  unfold SuffDecrease exParSol
  rw [exLine_quad0, h1, h2]
  constructor <;> intro h <;> linarith

-- hypotheses of `C79_forward_partial`
example : ∃ out, (exPar (-1)).solve ⟨1, 1, [(0, 1)]⟩ exParDir exParDir 1 = some out ∧ out.solved ≤ out.radius := by
  obtain ⟨out, k, a, -, -, -, -, -, -, b, -⟩ := C79_forward_partial (exParFor (-1)) (exParFamily (-1))
    (by norm_num [exPar, ParEnv.coarse]) (by norm_num [exPar, ParEnv.coarse]) (exVok 1) exParStore exParStore (r0 := 1) (by norm_num)
    (exLineDense 1) ((exParSuff _ _).2 (by norm_num))
  exact ⟨out, a, b⟩

-- hypotheses of `C79_back_partial`: the third radius, 1/8, is accepted
example : ∃ out, (exPar 8).solve ⟨1, 1, [(0, 1)]⟩ exParDir exParDir 1 = some out ∧ out.radius = 1 * (exPar 8).decrease ^ 3 := by
  obtain ⟨out, a, b, -⟩ := C79_back_partial (exParFor 8) (exParFamily 8) (by norm_num [exPar, ParEnv.coarse])
    (by norm_num [exPar, ParEnv.coarse]) (exVok 1) exParDir exParStore (r0 := 1) (by norm_num) (exLineDense 1)
    (fun h => by have := (exParSuff _ _).1 h; norm_num at this) (k := 2) (by simp [exPar, ParEnv.coarse])
    ((exParSuff _ _).2 (by norm_num [exPar, ParEnv.coarse]))
    (fun j hj h => by
      have := (exParSuff _ _).1 h
      interval_cases j <;> norm_num [exPar, ParEnv.coarse] at this)
  exact ⟨out, a, b⟩

-- hypotheses of `C79_fallback_partial`: no radius is accepted, and the line search has been set
example : ∃ out, ({ exPar 1000 with line := some ⟨exLineEnv, exLs, 1, fun _ => 1 / 32⟩ } : ParEnv ℚ).solve ⟨1, 1, [(0, 1)]⟩ exParDir
    exParDir 1 = some out ∧ out.solved = 1 * (1 / 2) ^ 5 := by
  obtain ⟨out, a, b, -⟩ := C79_fallback_partial
    (e := { exPar 1000 with line := some ⟨exLineEnv, exLs, 1, fun _ => 1 / 32⟩ }) (q := exLine 1000) (sol := exParSol)
    ⟨(exParFor 1000).merits, (exParFor 1000).okG, (exParFor 1000).grad, (exParFor 1000).okJ, (exParFor 1000).jac, (exParFor 1000).hess,
      (exParFor 1000).step⟩ rfl (exLineEnvFor 1000) (exVok 1) exParDir exParStore (r0 := 1) (exLineDense 1)
    (fun h => by have := (exParSuff _ _).1 h; norm_num at this) (c := 4) rfl
    (fun k hk h => by
      have := (exParSuff _ _).1 h
      interval_cases k <;> norm_num [exPar, ParEnv.coarse] at this)
    (fun p hp => by
      rw [hp]
      exact ⟨by norm_num [exLs], by norm_num [exLs], by norm_num, by norm_num, by norm_num [dotProduct, exParSol, exPar, ParEnv.coarse]⟩)
    (by
      calc (exLs.cauchyTau) ^ 10000 ≤ exLs.cauchyTau ^ 40 :=
            pow_le_pow_of_le_one (by norm_num [exLs]) (by norm_num [exLs]) (by norm_num)
        _ ≤ exLs.eps := by norm_num [exLs])
  exact ⟨out, a, b⟩

/-- The search for larger radii replaces the step of the direction and its Hessian product, but not the gradient and Jacobian products.
For the model `-d - d²/2` and initial radius 1 the search ends with the step 32, a gradient product of -1 instead of -32 and a merit value
of -513 instead of -544; this direction is then combined with the Newton direction in the line search. The radius returned is 64: it has
been doubled once more than the linear program has been solved. -/
theorem C79_direction_violated : ∃ (q : LocalModel 1 0 ℚ) (sol : ℚ → Fin 1 → ℚ) (e : ParEnv ℚ) (lp : Vec ℚ) (D L : Dir ℚ)
    (out : ParState ℚ), ParFor q sol e ∧ LpFamily q (fun _ => True) sol ∧ DirStore 1 0 D ∧ DirStore 1 0 L ∧ dense 1 lp = sol 1 ∧
      SuffDecrease q e.eta (sol 1) ∧ e.solve lp D L 1 = some out ∧ dense 1 out.dir.primal = sol 32 ∧ ¬ DirFor q out.dir (sol 32) ∧
      out.merit ≠ q.quad (sol 32) ∧ out.radius = 64 := by
  have hrun : ((exPar (-1)).solve ⟨1, 1, [(0, 1)]⟩ exParDir exParDir 1).map
      (fun o => (o.dir.primal.ents, o.dir.objGrad, o.merit, o.radius)) = some ([(0, 32)], -1, -513, 64) := by decide +kernel
  rw [Option.map_eq_some_iff] at hrun
  obtain ⟨out, h1, h2⟩ := hrun
  rw [Prod.mk.injEq, Prod.mk.injEq, Prod.mk.injEq] at h2
  obtain ⟨e1, e2, e3, e4⟩ := h2
  refine ⟨exLine (-1), exParSol, exPar (-1), ⟨1, 1, [(0, 1)]⟩, exParDir, exParDir, out, exParFor _, exParFamily _, exParStore, exParStore,
    exLineDense 1, (exParSuff _ _).2 (by norm_num), h1, ?_, fun h => ?_, ?_, e4⟩
  · show _ = ![32]
    rw [← exLineDense 32]
    exact dense_of_ents e1
  · have := h.grad
    rw [e2] at this
    norm_num [exLine, exParSol, dotProduct] at this
  · have := exLine_quad (-1) 1 32
    rw [one_smul] at this
    rw [e3, exParSol, this]
    norm_num

/-- Since the linear part of the merit value is not updated, the search for larger radii cannot see the gain of a longer step. For the
model `-d + d²/200` and initial radius 1 it stops at once, although the step 2 of the first radius tried is almost twice as good. -/
theorem C79_forward_violated : ∃ (q : LocalModel 1 0 ℚ) (sol : ℚ → Fin 1 → ℚ) (e : ParEnv ℚ) (lp : Vec ℚ) (D L : Dir ℚ)
    (out : ParState ℚ), ParFor q sol e ∧ LpFamily q (fun _ => True) sol ∧ DirStore 1 0 D ∧ DirStore 1 0 L ∧ dense 1 lp = sol 1 ∧
      SuffDecrease q e.eta (sol 1) ∧ e.solve lp D L 1 = some out ∧ out.radius = 1 ∧ out.merit = q.quad (sol 1) ∧ e.increase = 2 ∧
      q.quad (sol 2) < q.quad (sol 1) - 9 / 10 := by
  have hrun : ((exPar (1 / 100)).solve ⟨1, 1, [(0, 1)]⟩ exParDir exParDir 1).map (fun o => (o.merit, o.radius)) =
      some (-1 + 1 / 200, 1) := by decide +kernel
  rw [Option.map_eq_some_iff] at hrun
  obtain ⟨out, h1, h2⟩ := hrun
  rw [Prod.mk.injEq] at h2
  have a1 := exLine_quad (1 / 100) 1 1
  have a2 := exLine_quad (1 / 100) 1 2
  rw [one_smul] at a1 a2
  refine ⟨exLine (1 / 100), exParSol, exPar (1 / 100), ⟨1, 1, [(0, 1)]⟩, exParDir, exParDir, out, exParFor _, exParFamily _, exParStore,
    exParStore, exLineDense 1, (exParSuff _ _).2 (by norm_num), h1, h2.2, ?_, rfl, ?_⟩
  · rw [h2.1, exParSol, a1]
    norm_num
  · unfold exParSol
    rw [a1, a2]
    norm_num

/-- If no radius is accepted the line search is used, but `compute_cauchy_step_parametric` passes the iterate to the line search only after
the parametric solver has finished. In the first iteration the line search has no iterate at all: a null pointer is dereferenced. This
happens with the setting `COARSE` for the model `-d + 500 d²` and initial radius 1. -/
theorem C79_line_search_violated : ∃ (q : LocalModel 1 0 ℚ) (sol : ℚ → Fin 1 → ℚ) (e : ParEnv ℚ) (lp : Vec ℚ) (D L : Dir ℚ),
    ParFor q sol e ∧ LpFamily q (fun _ => True) sol ∧ DirStore 1 0 D ∧ DirStore 1 0 L ∧ dense 1 lp = sol 1 ∧ e.resolves = 5 ∧
      e.line = none ∧ e.solve lp D L 1 = none :=
  ⟨exLine 1000, exParSol, exPar 1000, ⟨1, 1, [(0, 1)]⟩, exParDir, exParDir, exParFor _, exParFamily _, exParStore, exParStore,
    exLineDense 1, rfl, rfl, Option.isNone_iff_eq_none.1 (by decide +kernel)⟩

/-! ### a violation with a constraint: model `-d + 500 d²`, constraint `0 ≤ d ≤ 10⁶`, penalty parameter `10⁴`, steps at most `100` -/

/-- sample model -/
def exStale : LocalModel 1 1 ℚ := ⟨0, ![-1], ![0], fun _ _ => 1, fun _ _ => 1000, ![0], ![10 ^ 6], 10 ^ 4⟩
/-- the merit environment for a constraint value -/
def exStaleEnv (c : ℚ) : MeritEnv ℚ :=
  ⟨1, 0, ⟨1, 1, [(0, c)]⟩, ⟨1, 1, [(0, 0)]⟩, ⟨1, 1, [(0, 10 ^ 6)]⟩, ⟨1, 0, []⟩, 0, 10 ^ 4⟩
/-- the sample environment: the line search has been set to another iterate, whose constraint value is `-1000` -/
def exStalePar : ParEnv ℚ :=
  ParEnv.coarse ⟨exStaleEnv 0, ⟨1, 1, [(0, -1)]⟩, exLpMat, fun d _ => some (d.scale 1000),
    fun r _ => some ⟨1, 1, [(0, min r 100)]⟩, 1 / 10 ^ 10, 1 / 10, 1, 1, 0, some ⟨exStaleEnv (-1000), exLs, 1, fun _ => 1 / 32⟩⟩

theorem exStaleFamily : LpFamily exStale (fun d => d 0 ≤ 100) fun r => ![min r 100] := by
  refine ⟨by norm_num, fun r _ => by simp, fun r hr i => ?_, fun r hr d hb hd => ?_⟩
  · obtain rfl : i = 0 := Subsingleton.elim _ _
    show |min r 100| ≤ r
    rw [abs_of_nonneg (le_min hr (by norm_num))]
    exact min_le_left _ _
  · have h1 := (abs_le.1 (hd 0)).2
    have h2 : d 0 ≤ min r 100 := le_min h1 hb
    have h3 : viol (0 + min r 100) 0 (10 ^ 6 : ℚ) = 0 := by
      have a : 0 ≤ min r 100 := le_min hr (by norm_num)
      have b : min r 100 ≤ 10 ^ 6 := le_trans (min_le_right _ _) (by norm_num)
      unfold viol
      rw [zero_add, max_eq_right (max_le (by linarith) (by linarith))]
    have h4 : 0 ≤ viol (0 + d 0) 0 (10 ^ 6 : ℚ) := by
      unfold viol
      exact le_max_right _ _
    have l1 : exStale.lin ![min r 100] = -min r 100 + 10 ^ 4 * viol (0 + min r 100) 0 (10 ^ 6) := by
      simp [LocalModel.lin, LocalModel.viol, exStale, dotProduct, mulVec]
    have l2 : exStale.lin d = -d 0 + 10 ^ 4 * viol (0 + d 0) 0 (10 ^ 6) := by
      simp [LocalModel.lin, LocalModel.viol, exStale, dotProduct, mulVec]
    rw [l1, l2, h3]
    linarith

theorem exStaleEnvFor : EnvFor exStale (exStaleEnv 0) :=
  ⟨rfl, rfl, exVok _, exVok _, exVok _, exLineDense _, exLineDense _, exLineDense _,
    fun i => by obtain rfl : i = 0 := Subsingleton.elim _ _; norm_num [exStale], rfl, rfl⟩

theorem exStaleFor : ParFor exStale (fun r => ![min r 100]) exStalePar :=
  ⟨exStaleEnvFor, exVok _, exLineDense _, ⟨(C09_isValid_iff _ rfl (by decide)).1 (by decide +kernel), rfl⟩, fun i j => by
      obtain rfl : i = 0 := Subsingleton.elim _ _
      obtain rfl : j = 0 := Subsingleton.elim _ _
      decide +kernel,
    fun d r hd _ => by
      obtain ⟨a, b⟩ := scale_dense hd 1000
      refine ⟨_, rfl, a, ?_⟩
      rw [b]
      funext i
      obtain rfl : i = 0 := Subsingleton.elim _ _
      simp [exStale, mulVec, dotProduct],
    fun r _ _ _ => ⟨_, rfl, exVok _, exLineDense _⟩⟩

theorem exStale_quad (x : ℚ) : exStale.quad ![x] = -x + 10 ^ 4 * viol (0 + x) 0 (10 ^ 6) + 1 / 2 * (x * (1000 * x)) := by
  simp [LocalModel.quad, LocalModel.lin, LocalModel.viol, exStale, dotProduct, mulVec]

/-- In later iterations the line search still refers to the iterate, penalty parameter and trust radius of an earlier iteration, so that
it accepts steps which are not sufficient at the current iterate. In the example (setting `COARSE`, initial radius 1, constraint value 0
at the current iterate and -1000 at the previous one) the result is the step 1/32, which is worse than staying where one is and violates
the radius 1/64 returned with it; the merit value belongs to the earlier iterate. -/
theorem C79_stale_violated : ∃ (q : LocalModel 1 1 ℚ) (sol : ℚ → Fin 1 → ℚ) (e : ParEnv ℚ) (lp : Vec ℚ) (D L : Dir ℚ)
    (out : ParState ℚ), ParFor q sol e ∧ LpFamily q (fun d => d 0 ≤ 100) sol ∧ DirStore 1 1 D ∧ DirStore 1 1 L ∧ dense 1 lp = sol 1 ∧
      e.solve lp D L 1 = some out ∧ q.quad 0 < q.quad (dense 1 out.dir.primal) ∧ out.radius < |dense 1 out.dir.primal 0| ∧
      out.merit ≠ q.quad (dense 1 out.dir.primal) := by
  have hrun : (exStalePar.solve ⟨1, 1, [(0, 1)]⟩ (Dir.create 1 1) (Dir.create 1 1) 1).map
      (fun o => (o.dir.primal.ents, o.radius, decide (o.merit = -1 / 32 + 1 / 2 * (1 / 32 * (1000 * (1 / 32)))))) =
      some ([(0, 1 / 32)], 1 / 64, false) := by decide +kernel
  rw [Option.map_eq_some_iff] at hrun
  obtain ⟨out, h1, h2⟩ := hrun
  rw [Prod.mk.injEq, Prod.mk.injEq, decide_eq_false_iff_not] at h2
  obtain ⟨e1, e2, e3⟩ := h2
  have hp : dense 1 out.dir.primal = ![1 / 32] := by
    rw [← exLineDense (1 / 32)]
    exact dense_of_ents e1
  have hq : exStale.quad ![1 / 32] = -1 / 32 + 1 / 2 * (1 / 32 * (1000 * (1 / 32))) := by
    rw [exStale_quad]
    norm_num [viol]
  have h0 : exStale.quad 0 = 0 := by
    have := exStale_quad 0
    rw [show (0 : Fin 1 → ℚ) = ![0] from by funext i; obtain rfl : i = 0 := Subsingleton.elim _ _; rfl, this]
    norm_num [viol]
  have hst : DirStore 1 1 (Dir.create 1 1 : Dir ℚ) :=
    ⟨⟨(C02_isValid_iff _).1 (by decide +kernel), rfl⟩, ⟨(C02_isValid_iff _).1 (by decide +kernel), rfl⟩,
      ⟨(C02_isValid_iff _).1 (by decide +kernel), rfl⟩⟩
  refine ⟨exStale, _, exStalePar, ⟨1, 1, [(0, 1)]⟩, _, _, out, exStaleFor, exStaleFamily, hst, hst, ?_, h1, ?_, ?_, ?_⟩
  · rw [exLineDense, min_eq_left (by norm_num)]
  · rw [hp, hq, h0]
    norm_num
  · rw [hp, e2]
    norm_num
  · rw [hp, hq]
    exact e3

end Sleqp
