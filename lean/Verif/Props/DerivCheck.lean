import Verif.Lemmas.DerivCheck
import Verif.Spec.DerivExact
import Mathlib.Analysis.Calculus.Deriv.MeanValue
import Mathlib.Analysis.Calculus.Deriv.Pow
import Mathlib.Tactic.NormNum

/-! C78: the derivative check. -/

namespace Sleqp
section Verdict
variable {K : Type*} [Field K] [LinearOrder K] [IsStrictOrderedRing K] {n m : Nat} {e : DcEnv K} {d : DerivData n m K} {it : Iterate K}

/-- variable `j` passes the check made by the code: the perturbed point is rejected, or all comparisons
succeed, where second derivatives are taken at the perturbed point -/
def VarPasses (d : DerivData n m K) (p tol : K) (fl : DcFlags) (x : Fin n → K) (mu : Fin m → K) (j : Fin n) : Prop :=
  d.rejects (shift x j (diffStep p x j)) = true ∨
    DerivOk d tol fl x (shift x j (diffStep p x j)) mu j (diffStep p x j)

theorem diffStep_pos {p : K} (hp : 0 < p) (x : Fin n → K) (j : Fin n) : 0 < diffStep p x j :=
  mul_pos (lt_of_lt_of_le one_pos (le_max_right _ _)) hp

theorem dcVar_spec (hd : DcFor e d) (hz : e.zeroEps = 0) (hp : 0 < e.perturbation) (fl : DcFlags) (hit : IterateAt d it)
    (hacc : d.rejects (dense n it.primal) = false) {s : DcState K} (hs : IterateDims n m s.check) (j : Fin n) :
    ∃ s' y, dcVar e fl it s j = some (s', false) ∧ IterateDims n m s'.check ∧ s'.cur = it.primal ∧
      s'.points = s.points ++ [y, it.primal] ∧ VOk n y ∧
      dense n y = shift (dense n it.primal) j (diffStep e.perturbation (dense n it.primal) j) ∧
      (s'.valid = true ↔ s.valid = true ∧ VarPasses d e.perturbation e.tol fl (dense n it.primal) (dense m it.consDual) j) := by
  obtain ⟨y, y1, y2, y3⟩ := dcPoint_spec hd.vars hz ⟨hit.primal, hit.primal_dim⟩ j s.check.primal
  have hrej := hd.rejects y y2.1 y2.2
  have hres := hd.rejects it.primal hit.primal hit.primal_dim
  rw [hacc] at hres
  rw [y3] at hrej
  unfold dcVar
  rw [y1, Option.bind_some]
  by_cases hr : d.rejects (shift (dense n it.primal) j (diffStep e.perturbation (dense n it.primal) j)) = true
  · simp only
    rw [if_pos (hrej.trans hr)]
    refine ⟨(({ s with check := { s.check with primal := y } } : DcState K).setValue y).setValue it.primal, y,
      by unfold dcRestore; rw [hres], ⟨y2.2, hs.objGrad, hs.consVal, hs.rows, hs.cols⟩, rfl, ?_, y2, y3, ?_⟩
    · simp [DcState.setValue]
    · exact ⟨fun h => ⟨h, Or.inl hr⟩, fun h => h.1⟩
  · simp only
    rw [if_neg (by rw [hrej]; exact hr)]
    obtain ⟨p, p1, p2⟩ := dcHessProducts_spec hd hz fl hit y2 j
    obtain ⟨ck, c1, c2, c3⟩ := dcEval_spec hd fl y2 (ck := { s.check with primal := y }) ⟨y2.2, hs.objGrad, hs.consVal, hs.rows, hs.cols⟩
    rw [y3] at p2 c3
    obtain ⟨b, ck', b1, b2, b3⟩ := dcCheck_spec hd hz fl hit rfl rfl (ne_of_gt (diffStep_pos hp _ j)) c3 p2
    have b1' : dcCheck e fl it ck p j (dcPerturbation e it.primal j) = some (b, ck') := b1
    have c1' : dcEval e fl (({ s with check := { s.check with primal := y } } : DcState K).setValue y).cur
        (({ s with check := { s.check with primal := y } } : DcState K).setValue y).check = some ck := c1
    have p1' : dcHessProducts e fl it (({ s with check := { s.check with primal := y } } : DcState K).setValue y).cur j = some p := p1
    rw [p1', Option.bind_some, c1', Option.bind_some, b1', Option.map_some]
    refine ⟨_, y, by unfold dcRestore; rw [hres], b2, rfl, ?_, y2, y3, ?_⟩
    · simp [DcState.setValue]
    · show (s.valid && b) = true ↔ _
      rw [Bool.and_eq_true, b3]
      exact and_congr_right fun _ => ⟨Or.inr, fun h => h.resolve_left hr⟩

/-- C78 (partial): for every problem, point, multipliers and choice of derivatives, the check ends without
a failed assertion.  It reports invalid derivatives exactly if, for some variable whose perturbed point
the function accepts, one of the derivatives asked for differs from the forward difference by more than
the relative tolerance.  The function is evaluated at the perturbed points only, one for each variable, and
is set back to the iterate after each of them.  Without the tolerance below which entries are
dropped (`zero_eps = 0`).  Missing with respect to the statement: second derivatives are those of the
perturbed point (`C78_hessian_violated`), rejected points pass (`C78_rejected_violated`), and the points
can lie outside the bounds (`C78_bounds_violated`). -/
theorem C78_verdict_partial (hd : DcFor e d) (hz : e.zeroEps = 0) (hp : 0 < e.perturbation) (fl : DcFlags) (hfl : fl.skip = false)
    (hit : IterateAt d it) (hacc : d.rejects (dense n it.primal) = false) {s : DcState K} (hs : IterateDims n m s.check) :
    ∃ out s', dcPerform e fl it s = some (out, s') ∧
      (out = .ok ↔ ∀ j, VarPasses d e.perturbation e.tol fl (dense n it.primal) (dense m it.consDual) j) ∧
      (out = .invalid ↔ ¬ ∀ j, VarPasses d e.perturbation e.tol fl (dense n it.primal) (dense m it.consDual) j) ∧
      (0 < n → s'.cur = it.primal) ∧
      s'.points.map (dense n) = s.points.map (dense n) ++ (List.finRange n).flatMap fun j =>
        [shift (dense n it.primal) j (diffStep e.perturbation (dense n it.primal) j), dense n it.primal] := by
  set x := dense n it.primal with hx
  obtain ⟨t, t1, t2⟩ := foldlM_range_inv (f := dcLoop e fl it) n (s0 := (({ s with valid := true } : DcState K), false))
    (P := fun k t => t.2 = false ∧ IterateDims n m t.1.check ∧ (0 < k → t.1.cur = it.primal) ∧
      (t.1.valid = true ↔ ∀ j : Fin n, (j : Nat) < k → VarPasses d e.perturbation e.tol fl x (dense m it.consDual) j) ∧
      t.1.points.map (dense n) = s.points.map (dense n) ++ ((List.finRange n).take k).flatMap fun j =>
        [shift x j (diffStep e.perturbation x j), x])
    ⟨rfl, hs, fun h => absurd h (lt_irrefl _), by simp, by simp⟩
    (fun k hk t ht => by
      obtain ⟨h1, h2, h3, h4, h5⟩ := ht
      obtain ⟨s', y, a1, a2, a3, a4, _, a6, a7⟩ := dcVar_spec hd hz hp fl hit hacc h2 ⟨k, hk⟩
      refine ⟨(s', false), by unfold dcLoop; rw [if_neg (by simp [h1])]; exact a1, rfl, a2, fun _ => a3, ?_, ?_⟩
      · show s'.valid = true ↔ _
        rw [a7, h4]
        constructor
        · rintro ⟨b, c⟩ j hj
          rcases Nat.lt_succ_iff_lt_or_eq.mp hj with hj | hj
          · exact b j hj
          · have : j = ⟨k, hk⟩ := Fin.ext hj
            rw [this]; exact c
        · intro b
          exact ⟨fun j hj => b j (by omega), b ⟨k, hk⟩ (Nat.lt_succ_self k)⟩
      · show s'.points.map (dense n) = _
        rw [a4, List.map_append, h5, List.take_add_one, List.flatMap_append, ← List.append_assoc]
        congr 1
        simp [hk, a6, hx])
  obtain ⟨h1, h2, h3, h4, h5⟩ := t2
  have h4' : t.1.valid = true ↔ ∀ j, VarPasses d e.perturbation e.tol fl x (dense m it.consDual) j :=
    h4.trans ⟨fun h j => h j j.2, fun h j _ => h j⟩
  refine ⟨if t.1.valid then .ok else .invalid, t.1, ?_, ?_, ?_, h3, ?_⟩
  · unfold dcPerform
    rw [if_neg (by simp [hfl]), hd.vars, t1, Option.map_some, if_neg (by simp [h1])]
  · rw [← h4']; cases t.1.valid <;> simp
  · rw [← h4']; cases t.1.valid <;> simp
  · rw [h5, List.take_of_length_le (by simp)]

/-- C78: nothing is done, and no error is reported, if no check is asked for. -/
theorem C78_skip (e : DcEnv K) (fl : DcFlags) (hfl : fl.skip = true) (it : Iterate K) (s : DcState K) : dcPerform e fl it s = some (.ok, s) := by
  unfold dcPerform
  rw [if_pos hfl]

end Verdict

section Exact
variable {n m : Nat} {e : DcEnv ℝ} {d : DerivData n m ℝ} {it : Iterate ℝ}

theorem shift_zero (x : Fin n → ℝ) (j : Fin n) : shift x j 0 = x := by
  unfold shift; simp

/-- a forward difference is within the variation of the derivative -/
theorem diff_near {φ φ' : ℝ → ℝ} {h L : ℝ} (hh : 0 < h) (hφ : DerivAlong φ φ' h L) {s : ℝ} (h0 : 0 ≤ s) (h1 : s ≤ h) :
    |(φ h - φ 0) / h - φ' s| ≤ L := by
  obtain ⟨c, hc, hc'⟩ := exists_hasDerivAt_eq_slope φ φ' hh
    (fun t ht => (hφ.deriv t ht.1 ht.2).continuousAt.continuousWithinAt) (fun t ht => hφ.deriv t ht.1.le ht.2.le)
  rw [sub_zero] at hc'
  rw [← hc']
  exact hφ.vary c s hc.1.le hc.2.le h0 h1

theorem close_of_near {tol a b : ℝ} (ht : 0 ≤ tol) (h : |b - a| ≤ tol) : Close tol a b := by
  unfold Close
  rw [abs_sub_comm]
  refine h.trans ?_
  calc tol = tol * 1 := (mul_one _).symm
    _ ≤ tol * max (max |a| |b|) 1 := mul_le_mul_of_nonneg_left (le_max_right _ _) ht

/-- C78: exact derivatives are accepted.  If along every coordinate the derivatives claimed are the true
ones and vary by at most the tolerance over the step of the finite difference, then no error is reported,
whichever derivatives are checked.
This is for `zero_eps = 0`; a positive drop tolerance is missing. -/
theorem C78_accepts_partial (hd : DcFor e d) (hz : e.zeroEps = 0) (hp : 0 < e.perturbation) (fl : DcFlags) (hit : IterateAt d it)
    (hacc : d.rejects (dense n it.primal) = false) {s : DcState ℝ} (hs : IterateDims n m s.check)
    (hex : ∀ j, ExactAlong d (dense n it.primal) (dense m it.consDual) j (diffStep e.perturbation (dense n it.primal) j) e.tol) :
    ∃ s', dcPerform e fl it s = some (.ok, s') := by
  by_cases hfl : fl.skip = true
  · exact ⟨s, C78_skip e fl hfl it s⟩
  obtain ⟨out, s', h1, h2, _⟩ := C78_verdict_partial hd hz hp fl (by simpa using hfl) hit hacc hs
  have : out = .ok := by
    refine h2.mpr fun j => Or.inr ?_
    set x := dense n it.primal
    set h := diffStep e.perturbation x j
    have hh : 0 < h := diffStep_pos hp x j
    have ht : 0 ≤ e.tol := le_trans (abs_nonneg _) ((hex j).obj.vary 0 0 le_rfl hh.le le_rfl hh.le)
    refine ⟨fun _ => close_of_near ht ?_, fun _ i => close_of_near ht ?_, fun _ k => close_of_near ht ?_,
      fun _ i k => close_of_near ht ?_, fun _ k => close_of_near ht ?_⟩
    · have := diff_near hh (hex j).obj le_rfl hh.le
      simpa only [shift_zero, forwardDiff] using this
    · have := diff_near hh ((hex j).cons i) le_rfl hh.le
      simpa only [shift_zero, forwardDiff] using this
    · have := diff_near hh ((hex j).hessObj k) hh.le le_rfl
      simpa only [shift_zero, forwardDiff] using this
    · have := diff_near hh ((hex j).hessCons i k) hh.le le_rfl
      simpa only [shift_zero, forwardDiff] using this
    · have := diff_near hh ((hex j).hessLagr k) hh.le le_rfl
      simpa only [shift_zero, forwardDiff] using this
  exact ⟨s', by rw [h1, this]⟩

theorem near_of_close {φ φ' : ℝ → ℝ} {h L tol a : ℝ} (ht : 0 ≤ tol) (hh : 0 < h) (hφ : DerivAlong φ φ' h L) {s : ℝ} (h0 : 0 ≤ s) (h1 : s ≤ h)
    (hc : Close tol a ((φ h - φ 0) / h)) : |a - φ' s| ≤ tol * max (max |a| (|φ' s| + L)) 1 + L := by
  have hn := diff_near hh hφ h0 h1
  set b := (φ h - φ 0) / h
  have hb : |b| ≤ |φ' s| + L := by
    have := abs_sub_abs_le_abs_sub b (φ' s)
    linarith
  have h3 : |a - φ' s| ≤ |a - b| + |b - φ' s| := abs_sub_le _ _ _
  have h4 : max (max |a| |b|) 1 ≤ max (max |a| (|φ' s| + L)) 1 := max_le_max (max_le_max le_rfl hb) le_rfl
  have h5 := mul_le_mul_of_nonneg_left h4 ht
  unfold Close at hc
  linarith

/-- C78: wrong first derivatives are detected.  If the check of first derivatives ends without error and the
point perturbed in variable `j` is not rejected, then the entries claimed for variable `j` differ from the
true derivatives by at most the relative tolerance plus the variation `L` of the true derivative over the
step of the finite difference.
This is for `zero_eps = 0`; a positive drop tolerance is missing. -/
theorem C78_detects_first_partial (hd : DcFor e d) (hz : e.zeroEps = 0) (hp : 0 < e.perturbation) (ht : 0 ≤ e.tol) (fl : DcFlags)
    (hit : IterateAt d it) (hacc : d.rejects (dense n it.primal) = false) {s s' : DcState ℝ} (hs : IterateDims n m s.check)
    (hok : dcPerform e fl it s = some (.ok, s')) (j : Fin n) {x : Fin n → ℝ} (hx : x = dense n it.primal) {h : ℝ}
    (hh : h = diffStep e.perturbation x j) (hrej : d.rejects (shift x j h) = false) :
    (fl.firstObj = true → ∀ D L, DerivAlong (fun t => d.f (shift x j t)) D h L →
      |d.g x j - D 0| ≤ e.tol * max (max |d.g x j| (|D 0| + L)) 1 + L) ∧
    (fl.firstCons = true → ∀ i D L, DerivAlong (fun t => d.c (shift x j t) i) D h L →
      |d.J x i j - D 0| ≤ e.tol * max (max |d.J x i j| (|D 0| + L)) 1 + L) := by
  subst hx hh
  have h0 := diffStep_pos hp (dense n it.primal) j
  have key : fl.skip = false → DerivOk d e.tol fl (dense n it.primal)
      (shift (dense n it.primal) j (diffStep e.perturbation (dense n it.primal) j)) (dense m it.consDual) j
      (diffStep e.perturbation (dense n it.primal) j) := by
    intro hfl
    obtain ⟨out, s1, h1, h2, _⟩ := C78_verdict_partial hd hz hp fl hfl hit hacc hs
    rw [hok] at h1
    obtain ⟨rfl, rfl⟩ := Prod.mk.inj (Option.some.inj h1)
    exact (h2.mp rfl j).resolve_left (by rw [hrej]; simp)
  constructor
  · intro hf D L hD
    have hk := (key (by simp [DcFlags.skip, hf])).firstObj hf
    refine near_of_close ht h0 hD le_rfl h0.le ?_
    simpa only [shift_zero, forwardDiff] using hk
  · intro hf i D L hD
    have hk := (key (by simp [DcFlags.skip, hf])).firstCons hf i
    refine near_of_close ht h0 hD le_rfl h0.le ?_
    simpa only [shift_zero, forwardDiff] using hk

/-- C78: wrong second derivatives are detected at the perturbed point.  If the check of second derivatives
ends without error and the point perturbed in variable `j` is not rejected, then the entries in column `j` of
the Hessian claimed at that point, of the objective, of every constraint and of the Lagrangian, differ
from the true derivatives of the gradients given by at most the relative tolerance plus the variation `L`
of the true derivative over the step.
This is for `zero_eps = 0`; a positive drop tolerance is missing. -/
theorem C78_detects_second_partial (hd : DcFor e d) (hz : e.zeroEps = 0) (hp : 0 < e.perturbation) (ht : 0 ≤ e.tol) (fl : DcFlags)
    (hit : IterateAt d it) (hacc : d.rejects (dense n it.primal) = false) {s s' : DcState ℝ} (hs : IterateDims n m s.check)
    (hok : dcPerform e fl it s = some (.ok, s')) (j : Fin n) {x : Fin n → ℝ} (hx : x = dense n it.primal) {h : ℝ}
    (hh : h = diffStep e.perturbation x j) (hrej : d.rejects (shift x j h) = false) {mu : Fin m → ℝ} (hmu : mu = dense m it.consDual)
    {y : Fin n → ℝ} (hy : y = shift x j h) :
    (fl.secondObj = true → ∀ k D L, DerivAlong (fun t => d.g (shift x j t) k) D h L →
      |d.H y 0 k j - D h| ≤ e.tol * max (max |d.H y 0 k j| (|D h| + L)) 1 + L) ∧
    (fl.secondCons = true → ∀ i k D L, DerivAlong (fun t => d.J (shift x j t) i k) D h L →
      |d.H y (Pi.single i 1) k j - d.H y 0 k j - D h| ≤
        e.tol * max (max |d.H y (Pi.single i 1) k j - d.H y 0 k j| (|D h| + L)) 1 + L) ∧
    (fl.secondSimple = true → ∀ k D L, DerivAlong (fun t => d.lagr mu k (shift x j t)) D h L →
      |d.H y mu k j - D h| ≤ e.tol * max (max |d.H y mu k j| (|D h| + L)) 1 + L) := by
  subst hx hh hmu hy
  have h0 := diffStep_pos hp (dense n it.primal) j
  have key : fl.skip = false → DerivOk d e.tol fl (dense n it.primal)
      (shift (dense n it.primal) j (diffStep e.perturbation (dense n it.primal) j)) (dense m it.consDual) j
      (diffStep e.perturbation (dense n it.primal) j) := by
    intro hfl
    obtain ⟨out, s1, h1, h2, _⟩ := C78_verdict_partial hd hz hp fl hfl hit hacc hs
    rw [hok] at h1
    obtain ⟨rfl, rfl⟩ := Prod.mk.inj (Option.some.inj h1)
    exact (h2.mp rfl j).resolve_left (by rw [hrej]; simp)
  refine ⟨fun hf k D L hD => ?_, fun hf i k D L hD => ?_, fun hf k D L hD => ?_⟩
  · have hk := (key (by simp [DcFlags.skip, hf])).secondObj hf k
    refine near_of_close ht h0 hD h0.le le_rfl ?_
    simpa only [shift_zero, forwardDiff] using hk
  · have hk := (key (by simp [DcFlags.skip, hf])).secondCons hf i k
    refine near_of_close ht h0 hD h0.le le_rfl ?_
    simpa only [shift_zero, forwardDiff] using hk
  · have hk := (key (by simp [DcFlags.skip, hf])).secondSimple hf k
    refine near_of_close ht h0 hD h0.le le_rfl ?_
    simpa only [shift_zero, forwardDiff] using hk

end Exact

/-! Examples: one variable, one constraint. -/

section Examples

/-- vector with one entry -/
def dcVec {K : Type*} (a : K) : Vec K := ⟨1, 1, [(0, a)]⟩

/-- matrix with one entry -/
def dcMat {K : Type*} (a : K) : Mat K := ⟨1, 1, 1, 1, fun k => if k = 0 then 0 else 1, fun _ => 0, fun _ => a⟩

/-- callbacks computing the functions of `d` -/
def dcEnvOf {K : Type*} [Field K] [LinearOrder K] (d : DerivData 1 1 K) (p tol : K) : DcEnv K where
  numVars := 1
  numCons := 1
  rejects x := d.rejects (dense 1 x)
  obj x := d.f (dense 1 x)
  grad x _ := some (dcVec (d.g (dense 1 x) 0))
  cons x _ := some (dcVec (d.c (dense 1 x) 0))
  jac x _ := some (dcMat (d.J (dense 1 x) 0 0))
  hess x v mu _ := some (dcVec ((d.H (dense 1 x) (dense 1 mu)).mulVec (dense 1 v) 0))
  perturbation := p
  tol := tol
  zeroEps := 0

/-- the iterate at the point `x` with multiplier `mu` -/
def dcItOf {K : Type*} [Field K] [LinearOrder K] (d : DerivData 1 1 K) (x mu : K) : Iterate K :=
  ⟨dcVec x, d.f (dense 1 (dcVec x)), dcVec (d.g (dense 1 (dcVec x)) 0), dcVec (d.c (dense 1 (dcVec x)) 0),
    dcMat (d.J (dense 1 (dcVec x)) 0 0), dcVec mu, dcVec 0⟩

/-- the checker as created -/
def dcStart {K : Type*} [Field K] (x : K) : DcState K :=
  ⟨dcVec x, [], ⟨dcVec 0, 0, dcVec 0, dcVec 0, dcMat 0, dcVec 0, dcVec 0⟩, true⟩

section
variable {K : Type*} [Field K] [LinearOrder K]

theorem dcVec_wf (a : K) : (dcVec a).WF := ⟨by simp [dcVec, Srt], by simp [dcVec], by simp [dcVec]⟩

theorem dcVec_dense (a : K) : dense 1 (dcVec a) = fun _ => a := by
  funext i
  obtain rfl : i = 0 := Subsingleton.elim _ _
  simp [dense, dcVec, Vec.value, valAt, at?]

theorem dcMat_col (a : K) : (dcMat a).col 0 = [(0, a)] := rfl

theorem dcMat_wf (a : K) : (dcMat a).WF := by
  refine ⟨rfl, fun j _ => ?_, rfl, le_rfl, fun j hj => ?_, fun j hj => ?_⟩
  · by_cases h : j = 0 <;> simp [dcMat, h]
  · obtain rfl : j = 0 := Nat.lt_one_iff.mp hj
    rw [dcMat_col]; simp [Srt]
  · obtain rfl : j = 0 := Nat.lt_one_iff.mp hj
    rw [dcMat_col]; simp [dcMat]

theorem dcMat_value (a : K) (i k : Fin 1) : (dcMat a).value i k = a := by
  obtain rfl : i = 0 := Subsingleton.elim _ _
  obtain rfl : k = 0 := Subsingleton.elim _ _
  unfold Mat.value
  rw [show (dcMat a).col ((0 : Fin 1) : Nat) = [(0, a)] from rfl]
  simp [valAt, at?]

theorem fun_one {f : Fin 1 → K} : (fun _ => f 0) = f := by
  funext i
  obtain rfl : i = 0 := Subsingleton.elim _ _
  rfl

theorem dcFor_of (d : DerivData 1 1 K) (p tol : K) : DcFor (dcEnvOf d p tol) d where
  vars := rfl
  cons' := rfl
  rejects _ _ _ := rfl
  obj _ _ _ := rfl
  grad _ _ _ _ _ := ⟨_, rfl, dcVec_wf _, rfl, by rw [dcVec_dense, fun_one]⟩
  cons _ _ _ _ _ := ⟨_, rfl, dcVec_wf _, rfl, by rw [dcVec_dense, fun_one]⟩
  jac _ _ _ _ _ _ := ⟨_, rfl, dcMat_wf _, rfl, rfl, fun i k => by
    rw [dcMat_value]
    obtain rfl : i = 0 := Subsingleton.elim _ _
    obtain rfl : k = 0 := Subsingleton.elim _ _
    rfl⟩
  hess _ _ _ _ _ _ _ _ _ _ _ := ⟨_, rfl, dcVec_wf _, rfl, by rw [dcVec_dense, fun_one]⟩

theorem dcIt_at (d : DerivData 1 1 K) (x mu : K) : IterateAt d (dcItOf d x mu) where
  primal := dcVec_wf _
  primal_dim := rfl
  objVal := rfl
  objGrad := dcVec_wf _
  objGrad_dim := rfl
  objGrad_eq := by
    show dense 1 (dcVec (d.g (dense 1 (dcVec x)) 0)) = d.g (dense 1 (dcVec x))
    rw [dcVec_dense (d.g _ 0), fun_one]
  consVal := dcVec_wf _
  consVal_dim := rfl
  consVal_eq := by
    show dense 1 (dcVec (d.c (dense 1 (dcVec x)) 0)) = d.c (dense 1 (dcVec x))
    rw [dcVec_dense (d.c _ 0), fun_one]
  consJac := dcMat_wf _
  consJac_rows := rfl
  consJac_cols := rfl
  consJac_eq i k := by
    show (dcMat (d.J (dense 1 (dcVec x)) 0 0)).value i k = d.J (dense 1 (dcVec x)) i k
    rw [dcMat_value]
    obtain rfl : i = 0 := Subsingleton.elim _ _
    obtain rfl : k = 0 := Subsingleton.elim _ _
    rfl
  consDual := dcVec_wf _
  consDual_dim := rfl

theorem dcStart_dims (x : K) : IterateDims 1 1 (dcStart x).check := ⟨rfl, rfl, rfl, rfl, rfl⟩

end

/-- all kinds of derivatives -/
def dcAll : DcFlags := ⟨true, true, true, true, true⟩

/-- objective `x²`, constraint `3 x` -/
def exSquare (K : Type*) [Field K] : DerivData 1 1 K where
  f x := x 0 ^ 2
  g x _ := 2 * x 0
  c x _ := 3 * x 0
  J _ _ _ := 3
  H _ _ := fun _ _ => 2
  rejects _ := false

/-- the same with the gradient `x` -/
def exWrong : DerivData 1 1 ℚ := { exSquare ℚ with g := fun x _ => x 0 }

/-- hypotheses of `C78_verdict_partial`: exact and wrong derivatives -/
example : (∃ s', dcPerform (dcEnvOf (exSquare ℚ) (1 / 100) (1 / 10)) dcAll (dcItOf (exSquare ℚ) 1 (-1)) (dcStart 1) = some (.ok, s') ∧
      s'.points.length = 2 ∧ s'.cur = dcVec 1) ∧
    ∃ s', dcPerform (dcEnvOf exWrong (1 / 100) (1 / 10)) dcAll (dcItOf exWrong 1 (-1)) (dcStart 1) = some (.invalid, s') := by
  have h1 : ((dcPerform (dcEnvOf (exSquare ℚ) (1 / 100) (1 / 10)) dcAll (dcItOf (exSquare ℚ) 1 (-1)) (dcStart 1)).map fun r =>
      (r.1, r.2.points.length, r.2.cur)) = some (.ok, 2, dcVec 1) := by decide +kernel
  have h2 : ((dcPerform (dcEnvOf exWrong (1 / 100) (1 / 10)) dcAll (dcItOf exWrong 1 (-1)) (dcStart 1)).map fun r =>
      r.1) = some .invalid := by decide +kernel
  obtain ⟨⟨o, s⟩, a, b⟩ := Option.map_eq_some_iff.mp h1
  obtain ⟨⟨o', s'⟩, a', b'⟩ := Option.map_eq_some_iff.mp h2
  simp only [Prod.mk.injEq] at b
  obtain ⟨rfl, b1, b2⟩ := b
  simp only at b'
  subst b'
  exact ⟨⟨s, a, b1, b2⟩, s', a'⟩

example := C78_verdict_partial (dcFor_of (exSquare ℚ) (1 / 100) (1 / 10)) rfl (by decide +kernel) dcAll rfl (dcIt_at _ 1 (-1)) rfl (dcStart_dims 1)

/-- hypotheses of `C78_accepts_partial`: the derivatives of `x²` and `3 x` are exact -/
theorem exSquare_exact (x mu h : ℝ) (h0 : 0 < h) (j : Fin 1) : ExactAlong (exSquare ℝ) (fun _ => x) (fun _ => mu) j h (2 * h) := by
  obtain rfl : j = 0 := Subsingleton.elim _ _
  have hsh : ∀ t, shift (fun _ : Fin 1 => x) 0 t 0 = x + t := fun t => by simp [shift]
  have hL : (0 : ℝ) ≤ 2 * h := by linarith
  have hid : ∀ t : ℝ, HasDerivAt (fun t => x + t) 1 t := fun t => (hasDerivAt_id t).const_add x
  have hc : ∀ (φ : ℝ → ℝ) (a : ℝ), (∀ t, HasDerivAt φ a t) → DerivAlong φ (fun _ => a) h (2 * h) := fun φ a hφ =>
    ⟨fun t _ _ => hφ t, fun s t _ _ _ _ => by simpa using hL⟩
  have hg : ∀ t : ℝ, HasDerivAt (fun t => 2 * (x + t)) 2 t := fun t => by simpa using (hid t).const_mul 2
  refine ⟨⟨fun t _ _ => ?_, fun s t a b c f => ?_⟩, fun i => ?_, fun k => ?_, fun i k => ?_, fun k => ?_⟩
  · simp only [exSquare, hsh]
    exact (by simpa using (hid t).pow 2 : HasDerivAt ((fun t => x + t) ^ 2) (2 * (x + t)) t)
  · simp only [exSquare, hsh]
    rw [show 2 * (x + s) - 2 * (x + t) = 2 * (s - t) by ring, abs_mul, abs_two]
    have : |s - t| ≤ h := abs_le.mpr ⟨by linarith, by linarith⟩
    linarith
  · simp only [exSquare, hsh]
    exact hc _ 3 fun t => by simpa using (hid t).const_mul 3
  · simp only [exSquare, hsh]
    exact hc _ 2 hg
  · simp only [exSquare, sub_self]
    exact hc _ 0 fun t => hasDerivAt_const t 3
  · simp only [DerivData.lagr, exSquare, hsh]
    exact hc _ 2 fun t => (hg t).add_const _

theorem exSquare_ok : ∃ s', dcPerform (dcEnvOf (exSquare ℝ) (1 / 100) (1 / 50)) dcAll (dcItOf (exSquare ℝ) 1 (-1)) (dcStart 1) = some (.ok, s') := by
  refine C78_accepts_partial (dcFor_of _ _ _) rfl (by norm_num [dcEnvOf]) dcAll (dcIt_at _ 1 (-1)) rfl (dcStart_dims 1) fun j => ?_
  have h1 : dense 1 (dcItOf (exSquare ℝ) 1 (-1)).primal = fun _ => 1 := dcVec_dense 1
  have h2 : dense 1 (dcItOf (exSquare ℝ) 1 (-1)).consDual = fun _ => -1 := dcVec_dense (-1)
  rw [h1, h2]
  have h3 : diffStep (dcEnvOf (exSquare ℝ) (1 / 100) (1 / 50)).perturbation (fun _ => 1) j = 1 / 100 := by
    simp [diffStep, dcEnvOf]
  rw [h3]
  have := exSquare_exact 1 (-1) (1 / 100) (by norm_num) j
  rwa [show (2 : ℝ) * (1 / 100) = (dcEnvOf (exSquare ℝ) (1 / 100) (1 / 50)).tol by norm_num [dcEnvOf]] at this

/-- hypotheses of `C78_detects_first_partial` and `C78_detects_second_partial` -/
example : (∀ D L, DerivAlong (fun t => (exSquare ℝ).f (shift (fun _ => 1) 0 t)) D (1 / 100) L →
      |2 - D 0| ≤ 1 / 50 * max (max |2| (|D 0| + L)) 1 + L) ∧
    (∀ k D L, DerivAlong (fun t => (exSquare ℝ).g (shift (fun _ => 1) 0 t) k) D (1 / 100) L →
      |2 - D (1 / 100)| ≤ 1 / 50 * max (max |2| (|D (1 / 100)| + L)) 1 + L) := by
  obtain ⟨s', h⟩ := exSquare_ok
  have h1 : (fun _ => 1) = dense 1 (dcItOf (exSquare ℝ) 1 (-1)).primal := (dcVec_dense 1).symm
  have h3 : 1 / 100 = diffStep (dcEnvOf (exSquare ℝ) (1 / 100) (1 / 50)).perturbation (fun _ => 1) (0 : Fin 1) := by
    simp [diffStep, dcEnvOf]
  have a := C78_detects_first_partial (dcFor_of _ _ _) rfl (by norm_num [dcEnvOf]) (by norm_num [dcEnvOf]) dcAll (dcIt_at _ 1 (-1)) rfl
    (dcStart_dims 1) h 0 h1 h3 rfl
  have b := C78_detects_second_partial (dcFor_of _ _ _) rfl (by norm_num [dcEnvOf]) (by norm_num [dcEnvOf]) dcAll (dcIt_at _ 1 (-1)) rfl
    (dcStart_dims 1) h 0 h1 h3 rfl rfl rfl
  refine ⟨fun D L hD => ?_, fun k D L hD => ?_⟩
  · simpa [exSquare, dcEnvOf] using a.1 rfl D L hD
  · simpa [exSquare, dcEnvOf] using b.1 rfl k D L hD

/-- a function which refuses points above 1, with a wrong gradient -/
def exRefuse : DerivData 1 1 ℚ := { exWrong with rejects := fun x => decide (1 < x 0) }

/-- **C78 violated (rejected points)**: if the function rejects the perturbed point, the derivatives with
respect to that variable are not checked and no error is reported (deriv_check.c:661-664): here the
objective is `x²`, the gradient given is `x`, the iterate is `x = 1`, and points above 1 are rejected. -/
theorem C78_rejected_violated :
    ∃ s', dcPerform (dcEnvOf exRefuse (1 / 100) (1 / 10)) dcAll (dcItOf exRefuse 1 (-1)) (dcStart 1) = some (.ok, s') ∧
      ¬ DerivOk exRefuse (1 / 10) dcAll (fun _ => 1) (fun _ => 1) (fun _ => -1) 0 (1 / 100) := by
  have h1 : ((dcPerform (dcEnvOf exRefuse (1 / 100) (1 / 10)) dcAll (dcItOf exRefuse 1 (-1)) (dcStart 1)).map fun r =>
      r.1) = some .ok := by decide +kernel
  obtain ⟨⟨o, s⟩, a, b⟩ := Option.map_eq_some_iff.mp h1
  simp only at b
  subst b
  refine ⟨s, a, fun h => ?_⟩
  have := h.firstObj rfl
  revert this
  unfold Close
  decide +kernel

/-- **C78 violated (bounds)**: the perturbation is always added, so that a function is evaluated outside the
variable bounds if the iterate is at its upper bound (deriv_check.c:86-106, 118-134): here the bounds are
`0 ≤ x ≤ 1` and the iterate is `x = 1`. -/
theorem C78_bounds_violated :
    ∃ s', dcPerform (dcEnvOf (exSquare ℚ) (1 / 100) (1 / 10)) dcAll (dcItOf (exSquare ℚ) 1 (-1)) (dcStart 1) = some (.ok, s') ∧
      (∃ y ∈ s'.points, 1 < y.value 0) ∧ (dcItOf (exSquare ℚ) 1 (-1)).primal.value 0 ≤ 1 := by
  have h1 : ((dcPerform (dcEnvOf (exSquare ℚ) (1 / 100) (1 / 10)) dcAll (dcItOf (exSquare ℚ) 1 (-1)) (dcStart 1)).map fun r =>
      (r.1, r.2.points.any fun y => decide (1 < y.value 0))) = some (.ok, true) := by decide +kernel
  obtain ⟨⟨o, s⟩, a, b⟩ := Option.map_eq_some_iff.mp h1
  simp only [Prod.mk.injEq, List.any_eq_true, decide_eq_true_eq] at b
  obtain ⟨rfl, b⟩ := b
  exact ⟨s, a, b, by decide +kernel⟩

/-- objective `a x⁴ / 4` with exact derivatives -/
def exQuartic (a : ℚ) : DerivData 1 1 ℚ where
  f x := a * x 0 ^ 4 / 4
  g x _ := a * x 0 ^ 3
  c x _ := 3 * x 0
  J _ _ _ := 3
  H x _ := fun _ _ => 3 * a * x 0 ^ 2
  rejects _ := false

/-- the same with a Hessian that is wrong at the point 0 only -/
def exWrongHess : DerivData 1 1 ℚ := { exQuartic 1 with H := fun x _ => fun _ _ => if x 0 = 0 then 7 else 3 * x 0 ^ 2 }

/-- **C78 violated (Hessian)**: the products with the Hessian are computed after the function has been set to
the perturbed point (deriv_check.c:657-668), so that the Hessian at the iterate is not looked at.  Exact
derivatives are reported as invalid although at the iterate they agree with the finite differences up to
the tolerance (`x⁴ · 750 / 4` at 0), and a wrong Hessian at the iterate passes. -/
theorem C78_hessian_violated :
    (∃ s', dcPerform (dcEnvOf (exQuartic 750) (1 / 100) (1 / 10)) dcAll (dcItOf (exQuartic 750) 0 (-1)) (dcStart 0) = some (.invalid, s') ∧
      DerivOk (exQuartic 750) (1 / 10) dcAll (fun _ => 0) (fun _ => 0) (fun _ => -1) 0 (1 / 100)) ∧
    ∃ s', dcPerform (dcEnvOf exWrongHess (1 / 100) (1 / 10)) dcAll (dcItOf exWrongHess 0 (-1)) (dcStart 0) = some (.ok, s') ∧
      ¬ DerivOk exWrongHess (1 / 10) dcAll (fun _ => 0) (fun _ => 0) (fun _ => -1) 0 (1 / 100) := by
  have h1 : ((dcPerform (dcEnvOf (exQuartic 750) (1 / 100) (1 / 10)) dcAll (dcItOf (exQuartic 750) 0 (-1)) (dcStart 0)).map fun r =>
      r.1) = some .invalid := by decide +kernel
  have h2 : ((dcPerform (dcEnvOf exWrongHess (1 / 100) (1 / 10)) dcAll (dcItOf exWrongHess 0 (-1)) (dcStart 0)).map fun r =>
      r.1) = some .ok := by decide +kernel
  obtain ⟨⟨o, s⟩, a, b⟩ := Option.map_eq_some_iff.mp h1
  obtain ⟨⟨o', s'⟩, a', b'⟩ := Option.map_eq_some_iff.mp h2
  simp only at b b'
  subst b b'
  refine ⟨⟨s, a, fun _ => ?_, fun _ => ?_, fun _ => ?_, fun _ => ?_, fun _ => ?_⟩, s', a', fun h => ?_⟩
  · unfold Close; decide +kernel
  · unfold Close; decide +kernel
  · unfold Close; decide +kernel
  · unfold Close; decide +kernel
  · unfold Close; decide +kernel
  · have := h.secondObj rfl 0
    revert this
    unfold Close
    decide +kernel

end Examples
end Sleqp
