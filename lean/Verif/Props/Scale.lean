import Verif.Lemmas.Scale
import Verif.Props.Feas
import Verif.Props.Lsq
import Verif.Props.Problem
import Mathlib.Data.Int.Log
import Mathlib.Analysis.Calculus.Deriv.Mul
import Mathlib.Analysis.Calculus.Deriv.Comp

/-! C33 (scaling preserves the problem), C34 (scaling and linear constraints), C57 (infinite
bounds), C58 (automatic weights), C59 (least-squares results). -/

namespace Sleqp
open Finset
variable {K : Type*} [Field K] [LinearOrder K] [IsStrictOrderedRing K]

theorem pow2_pos (k : ℤ) : (0 : K) < 2 ^ k := zpow_pos (by norm_num) k

theorem le_scaled {x y : K} (k : ℤ) : x * 2 ^ k ≤ y * 2 ^ k ↔ x ≤ y :=
  ⟨fun h => le_of_mul_le_mul_right h (pow2_pos k), fun h => mul_le_mul_of_nonneg_right h (pow2_pos k).le⟩

theorem zero_lt_scaled {x : K} (k : ℤ) : 0 < x * 2 ^ k ↔ 0 < x := mul_pos_iff_of_pos_right (pow2_pos k)

theorem scaled_lt_zero {x : K} (k : ℤ) : x * 2 ^ k < 0 ↔ x < 0 := by
  rw [← not_le, ← not_le, not_iff_not]
  have := le_scaled (x := (0 : K)) (y := x) k
  rwa [zero_mul] at this

theorem scaled_eq_zero {x : K} (k : ℤ) : x * 2 ^ k = 0 ↔ x = 0 := by
  rw [mul_eq_zero, or_iff_left (pow2_pos k).ne']

/-- the relation between original and scaled data: points divided by the variable scales,
constraints by theirs, the objective by its own, and derivatives accordingly -/
structure ScaledData (s : Scaling) (lsq : Bool) (p p' : Bounds K) (it it' : Iterate K) : Prop where
  primal : ∀ j, it'.primal.value j = it.primal.value j * 2 ^ (-s.beta j)
  objVal : it'.objVal = it.objVal * 2 ^ (-(if lsq then 2 * s.objW else s.objW))
  objGrad : ∀ j, it'.objGrad.value j = it.objGrad.value j * 2 ^ (s.beta j - s.objW)
  consVal : ∀ i, it'.consVal.value i = it.consVal.value i * 2 ^ (-s.alpha i)
  consJac : ∀ i, ∀ j < it.consJac.numCols, it'.consJac.value i j = it.consJac.value i j * 2 ^ (s.beta j - s.alpha i)
  consDual : ∀ i, it'.consDual.value i = it.consDual.value i * 2 ^ (s.alpha i - s.objW)
  varsDual : ∀ j, it'.varsDual.value j = it.varsDual.value j * 2 ^ (s.beta j - s.objW)
  varsLb : ∀ j, p'.varsLb.value j = p.varsLb.value j * 2 ^ (-s.beta j)
  varsUb : ∀ j, p'.varsUb.value j = p.varsUb.value j * 2 ^ (-s.beta j)
  consLb : ∀ i, p'.consLb.value i = p.consLb.value i * 2 ^ (-s.alpha i)
  consUb : ∀ i, p'.consUb.value i = p.consUb.value i * 2 ^ (-s.alpha i)

theorem Iterate.Fits.oks {n m : Nat} {p : Bounds K} {it : Iterate K} (h : it.Fits n m p) :
    VOk n it.primal ∧ VOk n it.objGrad ∧ VOk m it.consVal ∧ VOk m it.consDual ∧ VOk n it.varsDual ∧
      VOk n p.varsLb ∧ VOk n p.varsUb ∧ VOk m p.consLb ∧ VOk m p.consUb :=
  ⟨⟨h.vars.wc, h.vars.dc⟩, ⟨h.wg, h.dg⟩, ⟨h.cons.wc, h.cons.dc⟩, ⟨h.wcd, h.dcd⟩, ⟨h.wvd, h.dvd⟩,
    ⟨h.vars.wl, h.vars.dl⟩, ⟨h.vars.wu, h.vars.du⟩, ⟨h.cons.wl, h.cons.dl⟩, ⟨h.cons.wu, h.cons.du⟩⟩

omit [LinearOrder K] [IsStrictOrderedRing K] in
theorem scaleVars_eq {s : Scaling} {n m : Nat} (hs : s.For n m) {v : Vec K} (h : VOk n v) (o : ℤ) :
    applyScaling v s.varW o = some (v.scaledBy fun j => -1 * s.beta j + o) := applyScaling_eq h hs.vars o

omit [LinearOrder K] [IsStrictOrderedRing K] in
theorem unscaleVars_eq {s : Scaling} {n m : Nat} (hs : s.For n m) {v : Vec K} (h : VOk n v) (o : ℤ) :
    applyUnscaling v s.varW o = some (v.scaledBy fun j => s.beta j + o) := applyUnscaling_eq h hs.vars o

omit [LinearOrder K] [IsStrictOrderedRing K] in
theorem scaleCons_eq {s : Scaling} {n m : Nat} (hs : s.For n m) {v : Vec K} (h : VOk m v) (o : ℤ) :
    applyScaling v s.consW o = some (v.scaledBy fun i => -1 * s.alpha i + o) := applyScaling_eq h hs.cons o

omit [LinearOrder K] [IsStrictOrderedRing K] in
theorem unscaleCons_eq {s : Scaling} {n m : Nat} (hs : s.For n m) {v : Vec K} (h : VOk m v) (o : ℤ) :
    applyUnscaling v s.consW o = some (v.scaledBy fun i => s.alpha i + o) := applyUnscaling_eq h hs.cons o

theorem jacWeights {s : Scaling} {n m : Nat} (hs : s.For n m) (f : ℤ → ℤ → ℤ) (i : Nat) (hi : i < m) (j : Nat) (hj : j < n) :
    ((s.consW[i]?).bind fun a => (s.varW[j]?).map fun b => f a b) = some (f (s.alpha i) (s.beta j)) := by
  unfold Scaling.alpha Scaling.beta
  rw [List.getElem?_eq_getElem (by rw [hs.cons]; exact hi), List.getElem?_eq_getElem (by rw [hs.vars]; exact hj)]
  rfl

theorem scaleIterate_eq {s : Scaling} {n m : Nat} (hs : s.For n m) {p : Bounds K} {it : Iterate K} (h : it.Fits n m p)
    (lsq : Bool) : ∃ J, s.scaleConsJac it.consJac = some J ∧
      s.scaleIterate lsq it = some ⟨it.primal.scaledBy fun j => -1 * s.beta j + 0,
        if lsq then s.scaleLsqObjVal it.objVal else s.scaleObjVal it.objVal,
        it.objGrad.scaledBy fun j => s.beta j + -1 * s.objW, it.consVal.scaledBy fun i => -1 * s.alpha i + 0, J,
        it.consDual.scaledBy fun i => s.alpha i + -1 * s.objW, it.varsDual.scaledBy fun j => s.beta j + -1 * s.objW⟩ := by
  obtain ⟨o1, o2, o3, o4, o5, -⟩ := h.oks
  obtain ⟨J, j1, -⟩ := scaleMat_ok h.wj (w := fun i j => (s.consW[i]?).bind fun a => (s.varW[j]?).map fun b => (-1) * a + b)
    (W := fun i j => (-1) * s.alpha i + s.beta j)
    (by rw [h.rows, h.cols]; intro i hi j hj; exact jacWeights hs (fun a b => (-1) * a + b) i hi j hj)
  refine ⟨J, j1, ?_⟩
  unfold Scaling.scaleIterate Scaling.scalePoint Scaling.scaleObjGrad Scaling.scaleConsVal Scaling.scaleConsDuals
    Scaling.scaleVarDuals
  rw [scaleVars_eq hs o1, unscaleVars_eq hs o2, scaleCons_eq hs o3, unscaleCons_eq hs o4, unscaleVars_eq hs o5]
  simp only [Option.bind_some]
  unfold Scaling.scaleConsJac
  rw [j1]; rfl

/-- C33: unscaling a scaled iterate gives back exactly the original one (all entries, and the
structure of vectors and matrix). -/
theorem C33_unscale_scale {s : Scaling} {n m : Nat} (hs : s.For n m) {p : Bounds K} {it : Iterate K} (h : it.Fits n m p)
    (lsq : Bool) : (s.scaleIterate lsq it).bind (s.unscaleIterate lsq) = some it := by
  obtain ⟨o1, o2, o3, o4, o5, -⟩ := h.oks
  obtain ⟨J, j1, h1⟩ := scaleIterate_eq hs h lsq
  have j2 := scaleMat_inv h.wj (w := fun i j => (s.consW[i]?).bind fun a => (s.varW[j]?).map fun b => (-1) * a + b)
    (w' := fun i j => (s.consW[i]?).bind fun a => (s.varW[j]?).map fun b => (-1) * b + a)
    (W := fun i j => (-1) * s.alpha i + s.beta j) (W' := fun i j => (-1) * s.beta j + s.alpha i)
    (by rw [h.rows, h.cols]; intro i hi j hj; exact jacWeights hs (fun a b => (-1) * a + b) i hi j hj)
    (by rw [h.rows, h.cols]; intro i hi j hj; exact jacWeights hs (fun a b => (-1) * b + a) i hi j hj)
    (by intro i j; ring)
  have j3 : s.unscaleConsJac J = some it.consJac := by
    unfold Scaling.scaleConsJac at j1
    rw [j1] at j2
    exact j2
  rw [h1]
  simp only [Option.bind_some]
  unfold Scaling.unscaleIterate Scaling.unscalePoint Scaling.unscaleObjGrad Scaling.unscaleConsVal
    Scaling.unscaleConsDuals Scaling.unscaleVarDuals
  simp only
  rw [unscaleVars_eq hs (scaledBy_ok o1 _), scaleVars_eq hs (scaledBy_ok o2 _), unscaleCons_eq hs (scaledBy_ok o3 _),
    scaleCons_eq hs (scaledBy_ok o4 _), scaleVars_eq hs (scaledBy_ok o5 _), j3]
  simp only [Option.bind_some, Option.map_some]
  rw [scaledBy_inv _ _ _ (by intro i; ring), scaledBy_inv _ _ _ (by intro i; ring),
    scaledBy_inv _ _ _ (by intro i; ring), scaledBy_inv _ _ _ (by intro i; ring),
    scaledBy_inv _ _ _ (by intro i; ring)]
  have h2 : ∀ k : ℤ, (2 : K) ^ ((-1) * k) * 2 ^ k = 1 := by
    intro k
    rw [← zpow_add₀ two_ne_zero, show (-1) * k + k = 0 by ring, zpow_zero]
  have hobj : (if lsq then s.unscaleLsqObjVal (if lsq then s.scaleLsqObjVal it.objVal else s.scaleObjVal it.objVal)
      else s.unscaleObjVal (if lsq then s.scaleLsqObjVal it.objVal else s.scaleObjVal it.objVal)) = it.objVal := by
    cases lsq
    · show it.objVal * 2 ^ ((-1) * s.objW) * 2 ^ s.objW = _
      rw [mul_assoc, h2, mul_one]
    · show it.objVal * 2 ^ ((-1) * 2 * s.objW) * 2 ^ (2 * s.objW) = _
      rw [mul_assoc, mul_assoc (-1) 2, h2, mul_one]
  rw [hobj]

/-- C33: the scaled data. -/
theorem C33_scaled {s : Scaling} {n m : Nat} (hs : s.For n m) {p t : Bounds K} {it : Iterate K} (h : it.Fits n m p)
    (ht : t.varsLb.dim = n ∧ t.varsUb.dim = n ∧ t.consLb.dim = m ∧ t.consUb.dim = m) (lsq : Bool) :
    ∃ it' p', s.scaleIterate lsq it = some it' ∧ s.flushBounds p t = some p' ∧ it'.Fits n m p' ∧
      ScaledData s lsq p p' it it' := by
  obtain ⟨o1, o2, o3, o4, o5, b1, b2, b3, b4⟩ := h.oks
  obtain ⟨J, j1, h1⟩ := scaleIterate_eq hs h lsq
  obtain ⟨J', k1, k2, k3, k4, k5⟩ := scaleMat_ok h.wj (w := fun i j => (s.consW[i]?).bind fun a => (s.varW[j]?).map fun b => (-1) * a + b)
    (W := fun i j => (-1) * s.alpha i + s.beta j)
    (by rw [h.rows, h.cols]; intro i hi j hj; exact jacWeights hs (fun a b => (-1) * a + b) i hi j hj)
  have hJ : J' = J := by
    have : s.scaleConsJac it.consJac = some J' := k1
    rw [j1] at this; exact (Option.some.inj this).symm
  subst hJ
  obtain ⟨vl, c1, c2, c3⟩ := copy_spec b1 ht.1
  obtain ⟨vu, d1, d2, d3⟩ := copy_spec b2 ht.2.1
  obtain ⟨cl, e1, e2, e3⟩ := copy_spec b3 ht.2.2.1
  obtain ⟨cu, f1, f2, f3⟩ := copy_spec b4 ht.2.2.2
  have hval : ∀ {v w : Vec K} {f g : Nat → ℤ}, w.ents = v.ents → (∀ i, f i = g i) → ∀ i,
      (w.scaledBy f).value i = v.value i * 2 ^ g i := by
    intro v w f g he hg i
    rw [scaledBy_value, hg]
    unfold Vec.value
    rw [he]
  refine ⟨_, ⟨vl.scaledBy fun j => -1 * s.beta j + 0, vu.scaledBy fun j => -1 * s.beta j + 0,
    cl.scaledBy fun i => -1 * s.alpha i + 0, cu.scaledBy fun i => -1 * s.alpha i + 0⟩, h1, ?_, ?_, ?_⟩
  · unfold Scaling.flushBounds Scaling.scalePoint Scaling.scaleConsVal
    rw [c1, d1, e1, f1]
    simp only [Option.bind_some]
    rw [scaleVars_eq hs c2, scaleVars_eq hs d2, scaleCons_eq hs e2, scaleCons_eq hs f2]
    rfl
  · have q1 := scaledBy_ok o1 fun j => -1 * s.beta j + 0
    have q2 := scaledBy_ok o2 fun j => s.beta j + -1 * s.objW
    have q3 := scaledBy_ok o3 fun i => -1 * s.alpha i + 0
    have q4 := scaledBy_ok o4 fun i => s.alpha i + -1 * s.objW
    have q5 := scaledBy_ok o5 fun j => s.beta j + -1 * s.objW
    have t1 := scaledBy_ok c2 fun j => -1 * s.beta j + 0
    have t2 := scaledBy_ok d2 fun j => -1 * s.beta j + 0
    have t3 := scaledBy_ok e2 fun i => -1 * s.alpha i + 0
    have t4 := scaledBy_ok f2 fun i => -1 * s.alpha i + 0
    refine ⟨⟨q3.1, t3.1, t4.1, q3.2,
      t3.2, t4.2, ?_⟩, ⟨q1.1, t1.1, t2.1,
      q1.2, t1.2, t2.2, ?_⟩, q4.1, q4.2,
      q5.1, q5.2, q2.1, q2.2, k2, k3.trans h.rows,
      k4.trans h.cols⟩
    · intro i hi
      rw [hval e3 (fun _ => rfl), hval f3 (fun _ => rfl), le_scaled]
      exact h.cons.le i hi
    · intro j hj
      rw [hval c3 (fun _ => rfl), hval d3 (fun _ => rfl), le_scaled]
      exact h.vars.le j hj
  · refine ⟨hval rfl (by intro i; ring), ?_, hval rfl (by intro i; ring), hval rfl (by intro i; ring), ?_,
      hval rfl (by intro i; ring), hval rfl (by intro i; ring), hval c3 (by intro i; ring), hval d3 (by intro i; ring),
      hval e3 (by intro i; ring), hval f3 (by intro i; ring)⟩
    · cases lsq
      · show it.objVal * 2 ^ ((-1) * s.objW) = _
        rw [neg_one_mul]; rfl
      · show it.objVal * 2 ^ ((-1) * 2 * s.objW) = _
        rw [mul_assoc, neg_one_mul]; rfl
    · intro i j hj
      rw [k5 i j hj]
      congr 2
      ring

theorem complementary_scaled {v lb ub d : K} (k l : ℤ) :
    Complementary (v * 2 ^ k) (lb * 2 ^ k) (ub * 2 ^ k) (d * 2 ^ l) ↔ Complementary v lb ub d := by
  unfold Complementary
  rw [scaled_eq_zero, zero_lt_scaled, scaled_lt_zero, le_scaled, le_scaled]

theorem stationarity_zero_iff {n m : Nat} {p : Bounds K} {it : Iterate K} (h : it.Fits n m p) :
    it.stationarityResiduum n m = some 0 ↔ ∀ j < n,
      (∑ i ∈ range m, it.consDual.value i * it.consJac.value i j) + it.varsDual.value j + it.objGrad.value j = 0 := by
  obtain ⟨r, h1, h2, h3, h4⟩ := C14_stationarity_residuum h
  rw [h1, Option.some_inj]
  constructor
  · intro hr j hj
    have := h3 j hj
    rw [hr] at this
    exact abs_nonpos_iff.mp this
  · intro hall
    rcases h4 with h4 | ⟨j, hj, h4⟩
    · exact h4
    · rw [← h4]
      simp only []
      rw [hall j hj, abs_zero]

theorem feasibility_zero_iff {n m : Nat} {p : Bounds K} {it : Iterate K} (h : it.Fits n m p) :
    it.feasibilityResiduum m p = some 0 ↔
      ∀ i < m, p.consLb.value i ≤ it.consVal.value i ∧ it.consVal.value i ≤ p.consUb.value i := by
  obtain ⟨r, h1, h2, h3, h4⟩ := C12_max_violation h.cons
  have := C12_max_violation_le_iff h.cons (le_refl (0 : K)) h1
  unfold Iterate.feasibilityResiduum
  rw [h1, Option.some_inj]
  simp only [sub_zero, add_zero] at this
  rw [← this]
  exact ⟨fun h => h.le, fun h => le_antisymm h h2⟩

/-- C33: scaling preserves the problem: the scaled point is within its bounds and constraints,
stationary, and complementary (all as measured by the library's residuals) iff the
original one is; the stationarity residual of variable `j` is multiplied by `2 ^ (beta j - objW)`. -/
theorem C33_kkt {s : Scaling} {n m : Nat} {p p' : Bounds K} {it it' : Iterate K} {lsq : Bool}
    (h : it.Fits n m p) (h' : it'.Fits n m p') (hd : ScaledData s lsq p p' it it') :
    ((∀ j < n, p'.varsLb.value j ≤ it'.primal.value j ∧ it'.primal.value j ≤ p'.varsUb.value j) ↔
      ∀ j < n, p.varsLb.value j ≤ it.primal.value j ∧ it.primal.value j ≤ p.varsUb.value j) ∧
    (it'.feasibilityResiduum m p' = some 0 ↔ it.feasibilityResiduum m p = some 0) ∧
    (it'.slacknessResiduum p' = some 0 ↔ it.slacknessResiduum p = some 0) ∧
    (it'.stationarityResiduum n m = some 0 ↔ it.stationarityResiduum n m = some 0) ∧
    ∀ j < n, (∑ i ∈ range m, it'.consDual.value i * it'.consJac.value i j) + it'.varsDual.value j + it'.objGrad.value j =
      ((∑ i ∈ range m, it.consDual.value i * it.consJac.value i j) + it.varsDual.value j + it.objGrad.value j) *
        2 ^ (s.beta j - s.objW) := by
  have hst : ∀ j < n, (∑ i ∈ range m, it'.consDual.value i * it'.consJac.value i j) + it'.varsDual.value j +
      it'.objGrad.value j =
      ((∑ i ∈ range m, it.consDual.value i * it.consJac.value i j) + it.varsDual.value j + it.objGrad.value j) *
        2 ^ (s.beta j - s.objW) := by
    intro j hj
    rw [hd.varsDual, hd.objGrad, add_mul, add_mul, Finset.sum_mul]
    congr 2
    apply Finset.sum_congr rfl
    intro i _
    rw [hd.consDual, hd.consJac i j (by rw [h.cols]; exact hj),
      show s.beta j - s.objW = (s.alpha i - s.objW) + (s.beta j - s.alpha i) by ring, zpow_add₀ two_ne_zero]
    ring
  refine ⟨?_, ?_, ?_, ?_, hst⟩
  · simp only [hd.varsLb, hd.varsUb, hd.primal, le_scaled]
  · rw [feasibility_zero_iff h, feasibility_zero_iff h']
    simp only [hd.consLb, hd.consUb, hd.consVal, le_scaled]
  · rw [C15_zero_iff h, C15_zero_iff h']
    simp only [hd.consLb, hd.consUb, hd.consVal, hd.consDual, hd.varsLb, hd.varsUb, hd.primal, hd.varsDual,
      complementary_scaled]
  · rw [stationarity_zero_iff h, stationarity_zero_iff h']
    constructor
    · intro hz j hj
      have := hz j hj
      rwa [hst j hj, scaled_eq_zero] at this
    · intro hz j hj
      rw [hst j hj, hz j hj, zero_mul]

/-- C33: Hessian products: if the user's callback multiplies with the Hessian of the Lagrangian
`F + Σ y_i C_i`, the scaled callback multiplies with that of the scaled functions, whose Hessians are
`2^(-objW) D F D` and `2^(-alpha i) D C_i D` for `D = diag(2^beta)`. -/
theorem C33_hessian {s : Scaling} {n m : Nat} (hs : s.For n m) {H : Vec K → Vec K → Vec K → Option (Vec K)}
    {F : Nat → Nat → K} {C : Nat → Nat → Nat → K} {dirCache dualCache direction duals product : Vec K}
    (hH : ∀ d y, VOk n d → VOk m y → ∃ r, H d y product = some r ∧ VOk n r ∧ ∀ j < n,
      r.value j = ∑ k ∈ range n, (F j k + ∑ i ∈ range m, y.value i * C i j k) * d.value k)
    (h1 : VOk n direction) (h2 : VOk m duals) (h3 : dirCache.dim = n) (h4 : dualCache.dim = m) :
    ∃ r, s.funcHessProd H dirCache dualCache direction duals product = some r ∧ VOk n r ∧ ∀ j < n,
      r.value j = ∑ k ∈ range n, (F j k * 2 ^ (s.beta j + s.beta k - s.objW) +
        ∑ i ∈ range m, duals.value i * (C i j k * 2 ^ (s.beta j + s.beta k - s.alpha i))) * direction.value k := by
  obtain ⟨d, d1, d2, d3⟩ := copy_spec h1 h3
  obtain ⟨y, y1, y2, y3⟩ := copy_spec h2 h4
  obtain ⟨r, r1, r2, r3⟩ := hH (d.scaledBy fun j => s.beta j + 0) (y.scaledBy fun i => -1 * s.alpha i + s.objW)
    (scaledBy_ok d2 _) (scaledBy_ok y2 _)
  refine ⟨r.scaledBy fun j => s.beta j + (-1) * s.objW, ?_, scaledBy_ok r2 _, fun j hj => ?_⟩
  · unfold Scaling.funcHessProd Scaling.unscaleHessDir Scaling.scaleHessProd
    rw [d1, y1]
    simp only [Option.bind_some]
    rw [unscaleVars_eq hs d2, scaleCons_eq hs y2]
    simp only [Option.bind_some, Option.map_some]
    rw [r1]
    simp only [Option.bind_some]
    rw [unscaleVars_eq hs r2]
  · have hdv : ∀ k, d.value k = direction.value k := fun k => by unfold Vec.value; rw [d3]
    have hyv : ∀ k, y.value k = duals.value k := fun k => by unfold Vec.value; rw [y3]
    rw [scaledBy_value, r3 j hj, Finset.sum_mul]
    apply Finset.sum_congr rfl
    intro k _
    rw [scaledBy_value, hdv]
    have e1 : ∑ i ∈ range m, (y.scaledBy fun i => -1 * s.alpha i + s.objW).value i * C i j k =
        ∑ i ∈ range m, duals.value i * C i j k * 2 ^ (-1 * s.alpha i + s.objW) := by
      apply Finset.sum_congr rfl
      intro i _
      rw [scaledBy_value, hyv]; ring
    rw [e1]
    have e2 : (F j k * 2 ^ (s.beta j + s.beta k - s.objW) +
        ∑ i ∈ range m, duals.value i * (C i j k * 2 ^ (s.beta j + s.beta k - s.alpha i))) =
        (F j k + ∑ i ∈ range m, duals.value i * C i j k * 2 ^ (-1 * s.alpha i + s.objW)) *
          2 ^ (s.beta j + s.beta k - s.objW) := by
      rw [add_mul, Finset.sum_mul]
      congr 1
      apply Finset.sum_congr rfl
      intro i _
      rw [show s.beta j + s.beta k - s.alpha i = (-1 * s.alpha i + s.objW) + (s.beta j + s.beta k - s.objW) by ring,
        zpow_add₀ two_ne_zero]
      ring
    rw [e2, show s.beta j + s.beta k - s.objW = (s.beta k + 0) + (s.beta j + -1 * s.objW) by ring,
      zpow_add₀ two_ne_zero (s.beta k + 0) (s.beta j + -1 * s.objW)]
    generalize (∑ i ∈ range m, duals.value i * C i j k * 2 ^ (-1 * s.alpha i + s.objW)) = X
    generalize (2 : K) ^ (s.beta k + 0) = Y
    generalize (2 : K) ^ (s.beta j + -1 * s.objW) = Z
    ring

/-- the scaled objective: the original one at the unscaled point, times `2^(-objW)` -/
noncomputable def scaledFun (s : Scaling) (w : ℤ) (f : (Nat → ℝ) → ℝ) (x : Nat → ℝ) : ℝ :=
  f (fun j => x j * 2 ^ s.beta j) * 2 ^ (-w)

/-- C33: scaled derivatives are the derivatives of the scaled functions: if `g` is the partial derivative
of `f` (objective, or constraint `i` with `w` its weight) by variable `j` at the unscaled
point, then `g * 2^(beta j - w)` is the one of the scaled function. -/
theorem C33_derivative (s : Scaling) (w : ℤ) (f : (Nat → ℝ) → ℝ) (x : Nat → ℝ) (j : Nat) (g : ℝ)
    (hg : HasDerivAt (fun t => f (Function.update (fun i => x i * 2 ^ s.beta i) j t)) g (x j * 2 ^ s.beta j)) :
    HasDerivAt (fun t => scaledFun s w f (Function.update x j t)) (g * 2 ^ (s.beta j - w)) (x j) := by
  have h1 : ∀ t, (fun i => Function.update x j t i * 2 ^ s.beta i) =
      Function.update (fun i => x i * 2 ^ s.beta i) j (t * 2 ^ s.beta j) := by
    intro t
    funext i
    by_cases hi : i = j
    · subst hi; simp
    · simp [Function.update_of_ne hi]
  have h2 : (fun t => scaledFun s w f (Function.update x j t)) =
      fun t => f (Function.update (fun i => x i * 2 ^ s.beta i) j (t * 2 ^ s.beta j)) * 2 ^ (-w) := by
    funext t
    unfold scaledFun
    rw [h1]
  rw [h2]
  have h3 : HasDerivAt (fun t : ℝ => t * (2 : ℝ) ^ s.beta j) ((2 : ℝ) ^ s.beta j) (x j) := by
    simpa using (hasDerivAt_id (x j)).mul_const ((2 : ℝ) ^ s.beta j)
  have h4 := (HasDerivAt.comp (x j) hg h3).mul_const ((2 : ℝ) ^ (-w))
  have h5 : g * (2 : ℝ) ^ s.beta j * 2 ^ (-w) = g * 2 ^ (s.beta j - w) := by
    rw [mul_assoc, ← zpow_add₀ two_ne_zero]; rfl
  rw [h5] at h4
  exact h4

/-- C33: for single vectors, scaling and unscaling are inverse to each other in both orders. -/
theorem C33_vectors {s : Scaling} {n m : Nat} (hs : s.For n m) {v : Vec K} :
    (VOk n v →
      (s.scalePoint v).bind s.unscalePoint = some v ∧ (s.unscalePoint v).bind s.scalePoint = some v ∧
      (s.scaleObjGrad v).bind s.unscaleObjGrad = some v ∧ (s.unscaleObjGrad v).bind s.scaleObjGrad = some v ∧
      (s.scaleVarDuals v).bind s.unscaleVarDuals = some v ∧ (s.unscaleVarDuals v).bind s.scaleVarDuals = some v) ∧
    (VOk m v →
      (s.scaleConsVal v).bind s.unscaleConsVal = some v ∧ (s.unscaleConsVal v).bind s.scaleConsVal = some v ∧
      (s.scaleConsDuals v).bind s.unscaleConsDuals = some v ∧ (s.unscaleConsDuals v).bind s.scaleConsDuals = some v) := by
  have key : ∀ {k : Nat} {sc : List ℤ} (hsc : sc.length = k) (hv : VOk k v) (a b : ℤ) (_ : a + b = 0),
      (applyScaling v sc a).bind (fun w => applyUnscaling w sc b) = some v ∧
      (applyUnscaling v sc b).bind (fun w => applyScaling w sc a) = some v := by
    intro k sc hsc hv a b hab
    rw [applyScaling_eq hv hsc, applyUnscaling_eq hv hsc]
    simp only [Option.bind_some]
    rw [applyScaling_eq (scaledBy_ok hv _) hsc, applyUnscaling_eq (scaledBy_ok hv _) hsc]
    constructor
    · rw [scaledBy_inv _ _ _ (by intro i; linarith)]
    · rw [scaledBy_inv _ _ _ (by intro i; linarith)]
  constructor
  · intro hv
    have h0 := key hs.vars hv 0 0 (by ring)
    have h1 := key hs.vars hv s.objW ((-1) * s.objW) (by ring)
    exact ⟨h0.1, h0.2, h1.2, h1.1, h1.2, h1.1⟩
  · intro hv
    have h0 := key hs.cons hv 0 0 (by ring)
    have h1 := key hs.cons hv s.objW ((-1) * s.objW) (by ring)
    exact ⟨h0.1, h0.2, h1.2, h1.1⟩

/-- C33: for dynamic functions the accuracy requirement is the same for the original and the
scaled problem: the weighted sum of (original) errors with the weights handed on equals the one of the
scaled errors with the given weights. -/
theorem C33_dynamic {s : Scaling} {n m : Nat} (hs : s.For n m) (wobj : K) (w : Nat → K) (errObj : K) (err : Nat → K) :
    (s.scaleConsWeights w).length = m ∧
    s.scaleObjWeight wobj * |errObj| + ∑ i ∈ range m, ((s.scaleConsWeights w)[i]?).getD 0 * |err i| =
      wobj * |s.scaleObjVal errObj| + ∑ i ∈ range m, w i * |err i * 2 ^ (-s.alpha i)| := by
  refine ⟨by simp [Scaling.scaleConsWeights, hs.cons], ?_⟩
  have hpos : ∀ k : ℤ, |(2 : K) ^ k| = 2 ^ k := fun k => abs_of_pos (pow2_pos k)
  congr 1
  · unfold Scaling.scaleObjWeight Scaling.scaleObjVal ldexp
    rw [abs_mul, hpos]; ring
  · apply Finset.sum_congr rfl
    intro i hi
    have hi' : i < s.consW.length := by rw [hs.cons]; exact mem_range.mp hi
    have : (s.scaleConsWeights w)[i]? = some (w i * 2 ^ (-s.alpha i)) := by
      unfold Scaling.scaleConsWeights Scaling.alpha
      rw [List.getElem?_mapIdx, List.getElem?_eq_getElem hi']
      show some (w i * 2 ^ (-1 * _)) = _
      rw [neg_one_mul]; rfl
    rw [this, abs_mul, hpos]
    simp only [Option.getD_some]
    ring

/-- C33: least-squares functions: the callbacks of the scaled function deliver the residual divided by the
objective scale and products with the correspondingly scaled Jacobian. -/
theorem C33_lsq {s : Scaling} {m : Nat} {u : LsqUser (Vec K) K} (hs : s.For u.numVars m) {ok : Vec K → Prop}
    {r : Vec K → Nat → K} {J : Vec K → Nat → Nat → K} {cr cf ca : Nat} (h : LsqSpec u ok r J cr cf ca) (cache : Vec K) :
    LsqSpec (s.lsqUser cache u) (fun p => ∃ x, s.funcPoint (Vec.create u.numVars u.numVars) p = some x ∧ ok x)
      (fun p i => (s.funcPoint (Vec.create u.numVars u.numVars) p).elim 0 fun x => r x i * 2 ^ (-s.objW))
      (fun p i j => (s.funcPoint (Vec.create u.numVars u.numVars) p).elim 0 fun x => J x i j * 2 ^ (s.beta j - s.objW))
      cr cf ca := by
  have fills : ∀ {dest v : Vec K} {f g : Nat → K} {w : Nat → ℤ}, Fills dest f v → (∀ i, f i * 2 ^ w i = g i) →
      Fills dest g (v.scaledBy w) := by
    intro dest v f g w hf hg
    have := scaledBy_ok (n := v.dim) ⟨hf.wf, rfl⟩ w
    refine ⟨this.1, hf.dim, hf.cap, fun i hi => ?_⟩
    rw [scaledBy_value, hf.val i hi, hg]
  have rdim : ∀ (v : Vec K) (k : Nat), (v.resize k).dim = k := by
    intro v k; unfold Vec.resize; split <;> rfl
  refine ⟨?_, ?_, ?_⟩
  · rintro p dest ⟨x, hx, hok⟩ h1 h2 h3
    obtain ⟨v, v1, v2⟩ := h.resid x dest hok h1 h2 h3
    refine ⟨v.scaledBy fun _ => -1 * s.objW, ?_, ?_⟩
    · show ((s.funcPoint _ p).bind fun x => (u.resid x dest).map s.scaleLsqResiduals) = _
      rw [hx]; simp only [Option.bind_some]; rw [v1]; rfl
    · refine fills v2 fun i => ?_
      rw [hx]
      show r x i * 2 ^ (-1 * s.objW) = r x i * 2 ^ (-s.objW)
      rw [neg_one_mul]
  · rintro p d dest ⟨x, hx, hok⟩ hd hdn h1 h2 h3
    obtain ⟨d', e1, e2, e3⟩ := copy_spec (v := d) (t := cache.resize d.dim) ⟨hd, hdn⟩ (by rw [rdim]; exact hdn)
    have e4 := scaledBy_ok e2 fun j => s.beta j + 0
    obtain ⟨v, v1, v2⟩ := h.fwd x (d'.scaledBy fun j => s.beta j + 0) dest hok e4.1 e4.2 h1 h2 h3
    refine ⟨v.scaledBy fun _ => -1 * s.objW, ?_, ?_⟩
    · show ((s.funcPoint _ p).bind fun x => ((d.copy (cache.resize d.dim)).bind s.scaleLsqForward).bind fun d' =>
        (u.fwd x d' dest).map s.scaleLsqAdjoint) = _
      rw [hx, e1]
      simp only [Option.bind_some]
      unfold Scaling.scaleLsqForward
      rw [unscaleVars_eq hs e2]
      simp only [Option.bind_some]
      rw [v1]; rfl
    · refine fills v2 fun i => ?_
      rw [hx]
      show (∑ j ∈ range u.numVars, _) * _ = ∑ j ∈ range u.numVars, J x i j * 2 ^ (s.beta j - s.objW) * d.value j
      rw [Finset.sum_mul]
      apply Finset.sum_congr rfl
      intro j _
      rw [scaledBy_value, show d'.value j = d.value j by unfold Vec.value; rw [e3],
        show s.beta j - s.objW = (s.beta j + 0) + -1 * s.objW by ring, zpow_add₀ two_ne_zero (s.beta j + 0)]
      ring
  · rintro p y dest ⟨x, hx, hok⟩ hy hyn h1 h2 h3
    obtain ⟨y', e1, e2, e3⟩ := copy_spec (v := y) (t := cache.resize y.dim) ⟨hy, hyn⟩ (by rw [rdim]; exact hyn)
    have e4 := scaledBy_ok e2 fun _ => -1 * s.objW
    obtain ⟨v, v1, v2⟩ := h.adj x (y'.scaledBy fun _ => -1 * s.objW) dest hok e4.1 e4.2 h1 h2 h3
    have hvn : VOk u.numVars v := ⟨v2.wf, v2.dim.trans h1⟩
    refine ⟨v.scaledBy fun j => s.beta j + 0, ?_, ?_⟩
    · show ((s.funcPoint _ p).bind fun x => (y.copy (cache.resize y.dim)).bind fun y' =>
        (u.adj x (s.scaleLsqAdjoint y') dest).bind s.scaleLsqForward) = _
      rw [hx, e1]
      simp only [Option.bind_some]
      rw [show s.scaleLsqAdjoint y' = y'.scaledBy fun _ => -1 * s.objW from rfl, v1]
      simp only [Option.bind_some]
      unfold Scaling.scaleLsqForward
      rw [unscaleVars_eq hs hvn]
    · refine fills v2 fun j => ?_
      rw [hx]
      show (∑ i ∈ range u.numRes, _) * _ = ∑ i ∈ range u.numRes, J x i j * 2 ^ (s.beta j - s.objW) * y.value i
      rw [Finset.sum_mul]
      apply Finset.sum_congr rfl
      intro i _
      rw [scaledBy_value, show y'.value i = y.value i by unfold Vec.value; rw [e3],
        show s.beta j - s.objW = (s.beta j + 0) + -1 * s.objW by ring, zpow_add₀ two_ne_zero (s.beta j + 0)]
      ring

/-- the point handed to the user's function is the unscaled point -/
theorem C33_point {s : Scaling} {n m : Nat} (hs : s.For n m) {cache p : Vec K} (hc : cache.dim = n) (hp : VOk n p) :
    ∃ x, s.funcPoint cache p = some x ∧ VOk n x ∧ ∀ j, x.value j = p.value j * 2 ^ s.beta j := by
  obtain ⟨d, d1, d2, d3⟩ := copy_spec hp hc
  refine ⟨d.scaledBy fun j => s.beta j + 0, ?_, scaledBy_ok d2 _, fun j => ?_⟩
  · unfold Scaling.funcPoint Scaling.unscalePoint
    rw [d1]
    simp only [Option.bind_some]
    rw [unscaleVars_eq hs d2]
  · rw [scaledBy_value, add_zero]
    unfold Vec.value
    rw [d3]

/-- C33: resetting keeps the dimensions and makes all weights zero, so that vectors and values are left as they are. -/
theorem C33_reset {s : Scaling} {n m : Nat} (hs : s.For n m) :
    s.reset.For n m ∧ s.reset.objW = 0 ∧ (∀ j, s.reset.beta j = 0) ∧ (∀ i, s.reset.alpha i = 0) ∧
    (∀ v : Vec K, VOk n v → s.reset.scalePoint v = some v) ∧ (∀ v : Vec K, VOk m v → s.reset.scaleConsVal v = some v) := by
  have h1 : s.reset.For n m := ⟨by simp [Scaling.reset, hs.vars], by simp [Scaling.reset, hs.cons]⟩
  have hb : ∀ j, s.reset.beta j = 0 := by
    intro j
    unfold Scaling.beta Scaling.reset
    simp only [List.getElem?_map]
    cases s.varW[j]? <;> rfl
  have ha : ∀ i, s.reset.alpha i = 0 := by
    intro i
    unfold Scaling.alpha Scaling.reset
    simp only [List.getElem?_map]
    cases s.consW[i]? <;> rfl
  have hid : ∀ (v : Vec K) (w : Nat → ℤ), (∀ i, w i = 0) → v.scaledBy w = v := by
    intro v w hw
    unfold Vec.scaledBy
    have : (v.ents.map fun e => (e.1, ldexp e.2 (w e.1))) = v.ents := by
      conv_rhs => rw [← List.map_id v.ents]
      apply List.map_congr_left
      intro e _
      rw [hw]; simp [ldexp]
    rw [this]
  refine ⟨h1, rfl, hb, ha, fun v hv => ?_, fun v hv => ?_⟩
  · unfold Scaling.scalePoint
    rw [scaleVars_eq h1 hv, hid v _ (by intro i; rw [hb]; ring)]
  · unfold Scaling.scaleConsVal
    rw [scaleCons_eq h1 hv, hid v _ (by intro i; rw [ha]; ring)]

/-! ### C34 -/

/-- scaling with an array of weights that may be longer than the vector -/
theorem applyScaling_le {n : Nat} {v : Vec K} (h : VOk n v) {scales : List ℤ} (hs : n ≤ scales.length) (o : ℤ) :
    applyScaling v scales o = some (v.scaledBy fun i => -1 * (scales[i]?).getD 0 + o) := by
  unfold applyScaling
  rw [mapM_weights scales (fun w => -1 * w + o) v.ents (by
    intro e he
    have := h.1.lt_dim e he
    rw [h.2] at this
    omega)]
  rfl

/-- C34: the bounds of general constraints are scaled with the weights of the general constraints, those of linear
constraint `i` with the weight of constraint `num_general + i` (whenever flushing succeeds, i.e. whenever the weights of
the coefficients are found). -/
theorem C34_bounds_partial {s : Scaling} {p t : Prob K} (hs : s.For p.numVars (p.numGen + p.numLin))
    (h1 : VOk p.numGen p.genLb) (h2 : VOk p.numGen p.genUb) (h3 : VOk p.numLin p.linLb) (h4 : VOk p.numLin p.linUb)
    (t1 : t.genLb.dim = p.numGen) (t2 : t.genUb.dim = p.numGen) (t3 : t.linLb.dim = p.numLin) (t4 : t.linUb.dim = p.numLin)
    {gl gu ll lu : Vec K} {A : Mat K} (h : s.flushLinear p t = some (gl, gu, ll, lu, A)) :
    (∀ i < p.numGen, gl.value i = p.genLb.value i * 2 ^ (-s.alpha i) ∧ gu.value i = p.genUb.value i * 2 ^ (-s.alpha i)) ∧
    (∀ i < p.numLin, ll.value i = p.linLb.value i * 2 ^ (-s.alpha (p.numGen + i)) ∧
      lu.value i = p.linUb.value i * 2 ^ (-s.alpha (p.numGen + i))) := by
  have gen : ∀ {v t : Vec K}, VOk p.numGen v → t.dim = p.numGen → ∃ w, (v.copy t).bind s.scaleConsGeneral = some w ∧
      ∀ i, w.value i = v.value i * 2 ^ (-s.alpha i) := by
    intro v t hv ht
    obtain ⟨w, w1, w2, w3⟩ := copy_spec hv ht
    refine ⟨_, by rw [w1]; exact applyScaling_le w2 (by rw [hs.cons]; omega) 0, fun i => ?_⟩
    rw [scaledBy_value]
    unfold Vec.value
    rw [w3]
    congr 2
    show -1 * s.alpha i + 0 = _
    ring
  have lin : ∀ {v t : Vec K}, VOk p.numLin v → t.dim = p.numLin → ∃ w, (v.copy t).bind s.scaleConsLinear = some w ∧
      ∀ i, w.value i = v.value i * 2 ^ (-s.alpha (p.numGen + i)) := by
    intro v t hv ht
    obtain ⟨w, w1, w2, w3⟩ := copy_spec hv ht
    have e : s.consW.length - w.dim = p.numGen := by rw [hs.cons, w2.2]; omega
    refine ⟨w.scaledBy fun i => -1 * ((s.consW.drop p.numGen)[i]?).getD 0 + 0, ?_, fun i => ?_⟩
    · rw [w1]
      simp only [Option.bind_some]
      unfold Scaling.scaleConsLinear
      rw [if_pos (by rw [hs.cons, w2.2]; omega), e]
      exact applyScaling_le w2 (by rw [List.length_drop, hs.cons]; omega) 0
    · rw [scaledBy_value]
      unfold Vec.value
      rw [w3, List.getElem?_drop]
      congr 2
      show -1 * s.alpha (p.numGen + i) + 0 = _
      ring
  obtain ⟨a, a1, a2⟩ := gen h1 t1
  obtain ⟨b, b1, b2⟩ := gen h2 t2
  obtain ⟨c, c1, c2⟩ := lin h3 t3
  obtain ⟨d, d1, d2⟩ := lin h4 t4
  unfold Scaling.flushLinear at h
  rw [a1, b1, c1, d1] at h
  simp only [Option.bind_some] at h
  obtain ⟨A', -, hA⟩ := Option.map_eq_some_iff.mp h
  simp only [Prod.mk.injEq] at hA
  obtain ⟨rfl, rfl, rfl, rfl, -⟩ := hA
  exact ⟨fun i _ => ⟨a2 i, b2 i⟩, fun i _ => ⟨c2 i, d2 i⟩⟩

/-- C34: the code looks up the weight of linear constraint `i` at position `num_linear + i`; this is right
when there are as many general as linear constraints. -/
theorem C34_coeffs_partial {s : Scaling} {n k : Nat} (hs : s.For n (k + k)) {A : Mat K} (hA : A.WF) (h1 : A.numRows = k)
    (h2 : A.numCols = n) :
    ∃ A', s.scaleLinearCoeffs A = some A' ∧ A'.WF ∧ ∀ i < k, ∀ j < n,
      A'.value i j = A.value i j * 2 ^ (s.beta j - s.alpha (k + i)) := by
  obtain ⟨A', a1, a2, a3, a4, a5⟩ := scaleMat_ok hA
    (w := fun i j => (s.consW[A.numRows + i]?).bind fun a => (s.varW[j]?).map fun b => (-1) * a + b)
    (W := fun i j => (-1) * s.alpha (k + i) + s.beta j)
    (by rw [h1, h2]; intro i hi j hj; exact jacWeights hs (fun a b => (-1) * a + b) (k + i) (by omega) j hj)
  refine ⟨A', ?_, a2, fun i hi j hj => ?_⟩
  · unfold Scaling.scaleLinearCoeffs
    rw [if_pos (by rw [h1, hs.cons]; omega)]
    exact a1
  · rw [a5 i j (by rw [h2]; exact hj)]
    congr 2; ring

/-- C34: with two general constraints and one linear constraint the weight of the second
general constraint is used: here the coefficient of the linear constraint (of weight 0) is multiplied by 8. -/
theorem C34_wrong_weight_violated :
    ∃ A' : Mat ℚ, (⟨0, [0], [0, -3, 0]⟩ : Scaling).scaleLinearCoeffs ⟨1, 1, 1, 1, fun j => j, fun _ => 0, fun _ => 1⟩ = some A' ∧
      A'.val 0 = 8 :=
  ⟨_, rfl, by decide +kernel⟩

/-- C34: with more linear than general constraints the weights are read past the end of the array. -/
theorem C34_out_of_bounds_violated :
    (⟨0, [0], [0, 0]⟩ : Scaling).scaleLinearCoeffs (⟨2, 1, 2, 2, fun j => 2 * j, fun k => k, fun _ => 1⟩ : Mat ℚ) = none := rfl

/-- C34: a scaled problem cannot be created at all if the original problem has linear constraints:
creation reports a failed assertion, because the scaled function is declared to have
all constraints while only bounds of the general ones are passed for it. -/
theorem C34_creation_violated {V : Type*} {s : Scaling} {o : BoundOps V} {zero : V} {p : Prob V}
    (hs : s.For p.numVars (p.numGen + p.numLin)) (h1 : VOk p.numVars p.varLb) (h2 : VOk p.numVars p.varUb)
    (h3 : VOk p.numGen p.genLb) (f1 : FiniteLb o p.varLb) (f2 : FiniteUb o p.varUb) (hlin : 0 < p.numLin)
    (row : Nat → Nat) (val : Nat → V) : s.createProblem o zero p row val = .error .failedAssertion := by
  obtain ⟨vl, a1, a2⟩ := convertBound_spec (target := Vec.create p.numVars p.varLb.nnz) h1 f1
  obtain ⟨vu, b1, b2⟩ := convertBound_spec (target := Vec.create p.numVars p.varUb.nnz) h2 f2
  have c1 : ∀ t, convertBound o o.convLb p.genLb (p.numGen + p.numLin) t = .error .failedAssertion := by
    intro t
    unfold convertBound copyCreate
    rw [if_neg (by
      rw [Bool.and_eq_true, decide_eq_true_eq]
      rintro ⟨-, h⟩
      rw [h3.2] at h; omega)]
    rfl
  unfold Scaling.createProblem
  rw [if_pos ⟨hs.vars.symm, hs.cons.symm⟩]
  unfold probCreate probCreateBase
  rw [a1, b1, c1]; rfl

/-! ### C57 -/

/-- C57: a bound of `inf` stays infinite in the scaled problem if the variable's weight is at most 1. -/
theorem C57_infinite_partial {inf : K} (hinf : 0 < inf) {w : ℤ} (hw : w ≤ 1) :
    isInfinite inf (inf * 2 ^ (-w)) = true ∧ isInfinite inf (|-inf * 2 ^ (-w)|) = true := by
  have h1 : (2 : K)⁻¹ ≤ 2 ^ (-w) := by
    rw [← zpow_neg_one]
    exact zpow_le_zpow_right₀ (by norm_num) (by omega)
  have h2 : inf / 2 ≤ inf * 2 ^ (-w) := by
    rw [div_eq_mul_inv]
    exact mul_le_mul_of_nonneg_left h1 hinf.le
  refine ⟨by unfold isInfinite; simpa using h2, ?_⟩
  rw [neg_mul, abs_neg, abs_of_pos (mul_pos hinf (pow2_pos _))]
  unfold isInfinite; simpa using h2

/-- C57: weights from 2 on turn every infinite bound into a finite one. -/
theorem C57_finite {inf : K} (hinf : 0 < inf) {w : ℤ} (hw : 2 ≤ w) : isFinite inf (inf * 2 ^ (-w)) = true := by
  have h1 : (2 : K) ^ (-w) ≤ 1 / 4 := by
    have : (2 : K) ^ (-w) ≤ 2 ^ (-2 : ℤ) := zpow_le_zpow_right₀ (by norm_num) (by omega)
    refine this.trans ?_
    norm_num [zpow_neg]
  unfold isFinite isInfinite
  rw [abs_of_pos (mul_pos hinf (pow2_pos _))]
  have h2 : inf * 2 ^ (-w) ≤ inf * (1 / 4) := mul_le_mul_of_nonneg_left h1 hinf.le
  simp only [Bool.not_eq_true', decide_eq_false_iff_not, not_le]
  linarith

/-- C57: a free variable of weight 2 has finite bounds in the scaled problem (`inf` = 100). -/
theorem C57_free_variable_violated :
    ∃ (p : Bounds ℚ),
      (⟨0, [2], []⟩ : Scaling).flushBounds (⟨⟨1, 1, [(0, -100)]⟩, ⟨1, 1, [(0, 100)]⟩, ⟨0, 0, []⟩, ⟨0, 0, []⟩⟩ : Bounds ℚ)
        ⟨⟨1, 1, []⟩, ⟨1, 1, []⟩, ⟨0, 0, []⟩, ⟨0, 0, []⟩⟩ = some p ∧
      vecHasFinite (100 : ℚ) ⟨1, 1, [(0, -100)]⟩ = false ∧ vecHasFinite (100 : ℚ) ⟨1, 1, [(0, 100)]⟩ = false ∧
      vecHasFinite (100 : ℚ) p.varsLb = true ∧ vecHasFinite (100 : ℚ) p.varsUb = true :=
  ⟨_, rfl, by decide +kernel, by decide +kernel, by decide +kernel, by decide +kernel⟩

/-! ### C58 -/

theorem isFrexp_unique {x : K} {e e' : ℤ} (h : IsFrexp x e) (h' : IsFrexp x e') : e = e' := by
  have one : (1 : K) < 2 := by norm_num
  have hx : ∀ {e : ℤ}, (2 : K) ^ (e - 1) ≤ |x| → x ≠ 0 := by
    intro e h1 h0
    rw [h0, abs_zero] at h1
    exact absurd h1 (not_le.mpr (pow2_pos _))
  rcases h with ⟨h1, h2⟩ | ⟨h1, h2⟩
  · rcases h' with ⟨g1, g2⟩ | ⟨g1, g2⟩
    · rw [h2, g2]
    · exact absurd h1 (hx g1)
  · rcases h' with ⟨g1, g2⟩ | ⟨g1, g2⟩
    · exact absurd g1 (hx h1)
    · have a := (zpow_lt_zpow_iff_right₀ one).mp (lt_of_le_of_lt h1 g2)
      have b := (zpow_lt_zpow_iff_right₀ one).mp (lt_of_le_of_lt g1 h2)
      omega

/-- such exponents exist -/
theorem isFrexp_log (x : ℚ) : IsFrexp x (if x = 0 then 0 else Int.log 2 |x| + 1) := by
  by_cases h : x = 0
  · rw [if_pos h]; exact Or.inl ⟨h, rfl⟩
  · rw [if_neg h]
    refine Or.inr ⟨?_, ?_⟩
    · have := Int.zpow_log_le_self (b := 2) (by norm_num) (abs_pos.mpr h)
      rw [add_sub_cancel_right]; simpa using this
    · have := Int.lt_zpow_succ_log_self (b := 2) (by norm_num) |x|
      simpa using this

/-- C58: weights set from nominal values map the nominal variable value, constraint value and objective to
`[1/2, 1)` in absolute value. -/
theorem C58_nominal {s : Scaling} {n m : Nat} (hs : s.For n m) {frexp : K → ℤ} (hf : ∀ x, IsFrexp x (frexp x)) {x : K} (hx : x ≠ 0) :
    (1 / 2 ≤ |(s.objFromNominal frexp x).scaleObjVal x| ∧ |(s.objFromNominal frexp x).scaleObjVal x| < 1) ∧
    (∀ j < n, ∃ s', s.varFromNominal frexp j x = some s' ∧ s'.For n m ∧ 1 / 2 ≤ |x * 2 ^ (-s'.beta j)| ∧
      |x * 2 ^ (-s'.beta j)| < 1 ∧ ∀ k ≠ j, s'.beta k = s.beta k) ∧
    ∀ i < m, ∃ s', s.consFromNominal frexp i x = some s' ∧ s'.For n m ∧ 1 / 2 ≤ |x * 2 ^ (-s'.alpha i)| ∧
      |x * 2 ^ (-s'.alpha i)| < 1 ∧ ∀ k ≠ i, s'.alpha k = s.alpha k := by
  have key : 1 / 2 ≤ |x * 2 ^ (-frexp x)| ∧ |x * 2 ^ (-frexp x)| < 1 := by
    rcases hf x with ⟨h1, _⟩ | ⟨h1, h2⟩
    · exact absurd h1 hx
    · rw [abs_mul, abs_of_pos (a := (2 : K) ^ (-frexp x)) (pow2_pos _)]
      have e1 : (2 : K) ^ (frexp x - 1) * 2 ^ (-frexp x) = 1 / 2 := by
        rw [← zpow_add₀ two_ne_zero, show frexp x - 1 + -frexp x = -1 by ring, zpow_neg_one, one_div]
      have e2 : (2 : K) ^ frexp x * 2 ^ (-frexp x) = 1 := by
        rw [← zpow_add₀ two_ne_zero, add_neg_cancel, zpow_zero]
      rw [← e1, ← e2]
      exact ⟨mul_le_mul_of_nonneg_right h1 (pow2_pos _).le, mul_lt_mul_of_pos_right h2 (pow2_pos _)⟩
  refine ⟨?_, ?_, ?_⟩
  · have : (s.objFromNominal frexp x).scaleObjVal x = x * 2 ^ (-frexp x) := by
      show x * 2 ^ (-1 * frexp x) = _
      rw [neg_one_mul]
    rw [this]; exact key
  · intro j hj
    have hj' : j < s.varW.length := by rw [hs.vars]; exact hj
    refine ⟨{ s with varW := s.varW.set j (frexp x) }, ?_, ⟨by simpa using hs.vars, hs.cons⟩, ?_⟩
    · unfold Scaling.varFromNominal Scaling.setVarWeight; rw [if_pos hj']
    · have : ({ s with varW := s.varW.set j (frexp x) } : Scaling).beta j = frexp x := by
        unfold Scaling.beta; simp [hj']
      rw [this]
      refine ⟨key.1, key.2, fun k hk => ?_⟩
      unfold Scaling.beta; simp [List.getElem?_set, Ne.symm hk]
  · intro i hi
    have hi' : i < s.consW.length := by rw [hs.cons]; exact hi
    refine ⟨{ s with consW := s.consW.set i (frexp x) }, ?_, ⟨hs.vars, by simpa using hs.cons⟩, ?_⟩
    · unfold Scaling.consFromNominal Scaling.setConsWeight; rw [if_pos hi']
    · have : ({ s with consW := s.consW.set i (frexp x) } : Scaling).alpha i = frexp x := by
        unfold Scaling.alpha; simp [hi']
      rw [this]
      refine ⟨key.1, key.2, fun k hk => ?_⟩
      unfold Scaling.alpha; simp [List.getElem?_set, Ne.symm hk]

/-- the exponent computed for a largest entry `m`, when not limited: multiplying with it (as in the
documentation) maps `m` to `(1/2, 1]` -/
theorem factor_spec {frexp : K → ℤ} (hf : ∀ x, IsFrexp x (frexp x)) {m : K} (hm : 0 < m)
    (hc : |frexp (1 / m) - 1| ≤ maxWeight) :
    factorFromMax frexp m = frexp (1 / m) - 1 ∧ 1 / 2 < m * 2 ^ factorFromMax frexp m ∧ m * 2 ^ factorFromMax frexp m ≤ 1 := by
  have h0 : factorFromMax frexp m = frexp (1 / m) - 1 := by
    unfold factorFromMax clipWeight
    rw [if_pos hm.ne']
    rw [abs_le] at hc
    omega
  refine ⟨h0, ?_⟩
  rw [h0]
  rcases hf (1 / m) with ⟨h1, _⟩ | ⟨h1, h2⟩
  · exact absurd h1 (one_div_pos.mpr hm).ne'
  · rw [abs_of_pos (one_div_pos.mpr hm)] at h1 h2
    constructor
    · rw [zpow_sub_one₀ two_ne_zero]
      have : 1 < m * 2 ^ frexp (1 / m) := by
        rw [div_lt_iff₀ hm] at h2
        linarith
      linarith
    · rw [le_div_iff₀ hm] at h1
      linarith

/-- C58: the weight taken from a gradient has the wrong sign for the scaling that is applied: a largest
entry `m > 1` is not reduced to at most 1 but grows to at least `m * m` (unless the weight is
limited to 30). -/
theorem C58_gradient_violated {frexp : K → ℤ} (hf : ∀ x, IsFrexp x (frexp x)) {m : K} (hm : 1 < m)
    (hc : |frexp (1 / m) - 1| ≤ maxWeight) (s : Scaling) (hs : s.varW = [0]) :
    ∃ g, (s.objFromGrad frexp (⟨1, 1, [(0, m)]⟩ : Vec K) 0).scaleObjGrad (⟨1, 1, [(0, m)]⟩ : Vec K) = some g ∧
      m * m ≤ g.value 0 := by
  have hm0 : 0 < m := by linarith
  obtain ⟨-, -, h3⟩ := factor_spec hf hm0 hc
  have hmax : (⟨1, 1, [(0, m)]⟩ : Vec K).ents.foldl (fun r e => if isZero (|e.2|) (0 : K) then r else max r (|e.2|)) 0 = m := by
    have : isZero (|m|) (0 : K) = false := by
      rw [Bool.eq_false_iff, Ne, isZero_iff]
      rw [abs_abs, abs_of_pos hm0]; exact not_le.mpr hm0
    rw [abs_of_pos hm0] at this
    simp [this, abs_of_pos hm0, max_eq_right hm0.le]
  have hw : s.objFromGrad frexp (⟨1, 1, [(0, m)]⟩ : Vec K) 0 = s.setObjWeight (factorFromMax frexp m) := by
    unfold Scaling.objFromGrad; rw [hmax]
  rw [hw]
  have hv : VOk 1 (⟨1, 1, [(0, m)]⟩ : Vec K) := ⟨⟨by simp [Srt], by simp, by simp⟩, rfl⟩
  refine ⟨_, unscaleVars_eq (s := s.setObjWeight (factorFromMax frexp m)) (n := 1) (m := s.consW.length)
    ⟨by show s.varW.length = 1; rw [hs]; rfl, rfl⟩ hv _, ?_⟩
  rw [scaledBy_value]
  have hb : (s.setObjWeight (factorFromMax frexp m)).beta 0 = 0 := by
    unfold Scaling.beta Scaling.setObjWeight; simp [hs]
  rw [hb]
  show m * m ≤ m * 2 ^ ((0 : ℤ) + -1 * factorFromMax frexp m)
  rw [zero_add, neg_one_mul, zpow_neg]
  apply mul_le_mul_of_nonneg_left _ hm0.le
  rw [le_inv_comm₀ hm0 (pow2_pos _), ← one_div, le_div_iff₀ hm0]
  linarith

/-- C58: what the gradient weight would achieve with the documented scaling `f' = 2^objW f`: the
largest entry is in `(1/2, 1]`. Missing: this is the inverse of the scaling the code applies. -/
theorem C58_gradient_partial {frexp : K → ℤ} (hf : ∀ x, IsFrexp x (frexp x)) {eps : K} (heps : 0 ≤ eps) (s : Scaling)
    {grad : Vec K} {m : K} (hm : 0 < m) (h1 : ∀ e ∈ grad.ents, |e.2| ≤ m) (h2 : ∃ e ∈ grad.ents, |e.2| = m)
    (he : eps < m) (hc : |frexp (1 / m) - 1| ≤ maxWeight) :
    (∃ e ∈ grad.ents, 1 / 2 < |e.2 * 2 ^ (s.objFromGrad frexp grad eps).objW|) ∧
    ∀ e ∈ grad.ents, |e.2 * 2 ^ (s.objFromGrad frexp grad eps).objW| ≤ 1 := by
  have hfold : ∀ (l : List (Nat × K)) (a : K), 0 ≤ a → a ≤ m → (∀ e ∈ l, |e.2| ≤ m) →
      (a = m ∨ ∃ e ∈ l, |e.2| = m) →
      l.foldl (fun r e => if isZero (|e.2|) eps then r else max r (|e.2|)) a = m := by
    intro l
    induction l with
    | nil => intro a _ _ _ h; rcases h with h | ⟨e, he, _⟩; exact h; cases he
    | cons x t ih =>
      intro a ha ham hle hor
      rw [List.foldl_cons]
      have hx := hle x List.mem_cons_self
      by_cases hz : isZero (|x.2|) eps = true
      · rw [if_pos hz]
        refine ih a ha ham (fun e h => hle e (List.mem_cons_of_mem _ h)) ?_
        rcases hor with hor | ⟨e, hmem, hee⟩
        · exact Or.inl hor
        · rcases List.mem_cons.mp hmem with rfl | hmem
          · exfalso
            rw [isZero_iff, abs_abs, hee] at hz
            linarith
          · exact Or.inr ⟨e, hmem, hee⟩
      · rw [if_neg hz]
        refine ih (max a |x.2|) (le_trans ha (le_max_left _ _)) (max_le ham hx) (fun e h => hle e (List.mem_cons_of_mem _ h)) ?_
        rcases hor with hor | ⟨e, hmem, hee⟩
        · left; rw [hor]; exact max_eq_left hx
        · rcases List.mem_cons.mp hmem with rfl | hmem
          · left; rw [hee]; exact max_eq_right ham
          · exact Or.inr ⟨e, hmem, hee⟩
  have hw : (s.objFromGrad frexp grad eps).objW = factorFromMax frexp m := by
    show factorFromMax frexp _ = _
    rw [hfold grad.ents 0 le_rfl hm.le h1 (Or.inr h2)]
  rw [hw]
  obtain ⟨-, f1, f2⟩ := factor_spec hf hm hc
  constructor
  · obtain ⟨e, e1, e2⟩ := h2
    refine ⟨e, e1, ?_⟩
    rw [abs_mul, abs_of_pos (a := (2 : K) ^ factorFromMax frexp m) (pow2_pos _), e2]; exact f1
  · intro e he
    rw [abs_mul, abs_of_pos (a := (2 : K) ^ factorFromMax frexp m) (pow2_pos _)]
    exact (mul_le_mul_of_nonneg_right (h1 e he) (pow2_pos _).le).trans f2

/-- The matrix entries behind a column position. -/
theorem value_of_pos {m : Mat K} (hm : m.WF) {j k : Nat} (hj : j < m.numCols) (h1 : m.ptr j ≤ k) (h2 : k < m.ptr (j + 1)) :
    m.value (m.row k) j = m.val k := by
  unfold Mat.value
  apply valAt_of_mem (hm.srt j hj) (e := (m.row k, m.val k))
  unfold Mat.col
  exact List.mem_map.mpr ⟨k, by rw [List.mem_range'_1]; omega, rfl⟩

theorem pos_of_value {m : Mat K} {i j : Nat} (h : m.value i j ≠ 0) :
    ∃ k, m.ptr j ≤ k ∧ k < m.ptr (j + 1) ∧ m.row k = i ∧ m.val k = m.value i j := by
  unfold Mat.value at h ⊢
  unfold valAt at h ⊢
  cases hq : at? (m.col j) i with
  | none => rw [hq] at h; exact absurd rfl h
  | some v =>
    have := mem_of_at? hq
    unfold Mat.col at this
    obtain ⟨k, k1, k2⟩ := List.mem_map.mp this
    rw [List.mem_range'_1] at k1
    simp only [Prod.mk.injEq] at k2
    exact ⟨k, k1.1, by omega, k2.1, k2.2⟩

/-- The largest entries found by `compute_scale_factors`. -/
structure LineMax (m : Mat K) (column : Bool) (pre : Nat → ℤ) (eps : K) (t : Nat) (M : Nat → K) : Prop where
  nonneg : ∀ l, 0 ≤ M l
  ub : ∀ j < m.numCols, ∀ k < t, m.ptr j ≤ k → k < m.ptr (j + 1) →
    eps < |m.val k * 2 ^ pre (if column then m.row k else j)| →
    |m.val k * 2 ^ pre (if column then m.row k else j)| ≤ M (if column then j else m.row k)
  att : ∀ l, M l = 0 ∨ ∃ j < m.numCols, ∃ k < t, m.ptr j ≤ k ∧ k < m.ptr (j + 1) ∧
    l = (if column then j else m.row k) ∧ M l = |m.val k * 2 ^ pre (if column then m.row k else j)|

theorem computeFactors_spec {m : Mat K} (hm : m.WF) (frexp : K → ℤ) (column : Bool) {pre : List ℤ} {eps : K}
    (hpre : pre.length = if column then m.numRows else m.numCols) :
    ∃ M, LineMax m column (fun i => (pre[i]?).getD 0) eps m.nnz M ∧
      computeFactors frexp m column pre eps =
        some ((List.range (if column then m.numCols else m.numRows)).map fun i => factorFromMax frexp (M i)) := by
  obtain ⟨s, s1, s2⟩ := foldlM_range_inv (f := factorsBody m column pre eps) m.nnz (s0 := (0, fun _ => (0 : K)))
    (P := fun t s => s.1 ≤ m.numCols ∧ m.ptr s.1 ≤ t ∧ LineMax m column (fun i => (pre[i]?).getD 0) eps t s.2)
    ⟨Nat.zero_le _, by simp [hm.ptr_zero], ⟨fun _ => le_rfl, fun _ _ k hk => absurd hk (Nat.not_lt_zero _),
      fun _ => Or.inl rfl⟩⟩
    (by
      rintro t ht ⟨c, M⟩ ⟨h1, h2, h3⟩
      simp only at h1 h2 h3
      obtain ⟨c', a1, a2, a3, a4, a5⟩ := advanceCol_spec (m := m) t (m.numCols - c) c (by omega) h2
        (by rw [hm.ptr_last]; exact ht)
      have hlt : (if column then m.row t else c' : Nat) < pre.length := by
        rw [hpre]; cases column
        · exact a3
        · exact row_lt hm a3 a4 a5
      have hget : pre[(if column then m.row t else c' : Nat)]? = some ((pre[(if column then m.row t else c' : Nat)]?).getD 0) := by
        rw [List.getElem?_eq_getElem hlt]; rfl
      have hbody : factorsBody m column pre eps (c, M) t =
          some (c', if isZero (|ldexp (m.val t) ((pre[(if column then m.row t else c' : Nat)]?).getD 0)|) eps then M
            else setAt M (if column then c' else m.row t)
              (max (M (if column then c' else m.row t))
                (|ldexp (m.val t) ((pre[(if column then m.row t else c' : Nat)]?).getD 0)|))) := by
        unfold factorsBody
        simp only []
        rw [a1]
        simp only [Option.bind_some]
        rw [hget]
        simp only [Option.map_some, Option.getD_some]
      refine ⟨_, hbody, a3.le, Nat.le_succ_of_le a4, ?_⟩
      show LineMax _ _ _ _ _ (if _ then _ else _)
      by_cases hz : isZero (|ldexp (m.val t) ((pre[(if column then m.row t else c' : Nat)]?).getD 0)|) eps = true
      · rw [if_pos hz]
        refine ⟨h3.nonneg, ?_, ?_⟩
        · intro j hj k hk j1 j2 hgt
          by_cases hkt : k = t
          · subst hkt
            have := col_unique hm hj a3 j1 j2 a4 a5
            subst this
            rw [isZero_iff, abs_abs] at hz
            exact absurd hgt (not_lt.mpr hz)
          · exact h3.ub j hj k (by omega) j1 j2 hgt
        · intro l
          rcases h3.att l with h | ⟨j, hj, k, hk, h⟩
          · exact Or.inl h
          · exact Or.inr ⟨j, hj, k, by omega, h⟩
      · rw [if_neg hz]
        have hle : ∀ l, M l ≤ setAt M (if column then c' else m.row t) (max (M (if column then c' else m.row t))
            (|ldexp (m.val t) ((pre[(if column then m.row t else c' : Nat)]?).getD 0)|)) l := by
          intro l
          unfold setAt
          by_cases hl : l = (if column then c' else m.row t)
          · rw [if_pos hl, hl]; exact le_max_left _ _
          · rw [if_neg hl]
        refine ⟨fun l => (h3.nonneg l).trans (hle l), ?_, ?_⟩
        · intro j hj k hk j1 j2 hgt
          by_cases hkt : k = t
          · subst hkt
            have := col_unique hm hj a3 j1 j2 a4 a5
            subst this
            unfold setAt
            rw [if_pos rfl]
            exact le_max_right _ _
          · exact (h3.ub j hj k (by omega) j1 j2 hgt).trans (hle _)
        · intro l
          unfold setAt
          by_cases hl : l = (if column then c' else m.row t)
          · rw [if_pos hl]
            rcases le_total (M (if column then c' else m.row t))
              (|ldexp (m.val t) ((pre[(if column then m.row t else c' : Nat)]?).getD 0)|) with h | h
            · right
              exact ⟨c', a3, t, Nat.lt_succ_self t, a4, a5, hl, by rw [max_eq_right h]; rfl⟩
            · rw [max_eq_left h]
              rcases h3.att (if column then c' else m.row t) with h' | ⟨j, hj, k, hk, b1, b2, b3, b4⟩
              · exact Or.inl h'
              · exact Or.inr ⟨j, hj, k, by omega, b1, b2, by rw [hl, b3], b4⟩
          · rw [if_neg hl]
            rcases h3.att l with h' | ⟨j, hj, k, hk, h⟩
            · exact Or.inl h'
            · exact Or.inr ⟨j, hj, k, by omega, h⟩)
  refine ⟨s.2, s2.2.2, ?_⟩
  unfold computeFactors
  rw [s1]; rfl

theorem maxMatrixRatio_ok {m : Mat K} (hm : m.WF) (inf : K) (column : Bool) (eps : K) :
    ∃ r, maxMatrixRatio inf m column eps = some r := by
  obtain ⟨s, s1, -⟩ := foldlM_range_inv (f := ratioBody m column eps) m.nnz (s0 := (0, (fun _ => inf), fun _ => (0 : K)))
    (P := fun t s => s.1 ≤ m.numCols ∧ m.ptr s.1 ≤ t) ⟨Nat.zero_le _, by simp [hm.ptr_zero]⟩
    (by
      rintro t ht ⟨c, M⟩ ⟨h1, h2⟩
      simp only at h1 h2
      obtain ⟨c', a1, a2, a3, a4, a5⟩ := advanceCol_spec (m := m) t (m.numCols - c) c (by omega) h2
        (by rw [hm.ptr_last]; exact ht)
      unfold ratioBody
      simp only []
      rw [a1]
      simp only [Option.map_some]
      refine ⟨_, rfl, ?_⟩
      split <;> exact ⟨a3.le, Nat.le_succ_of_le a4⟩)
  unfold maxMatrixRatio
  rw [s1]
  exact ⟨_, rfl⟩

theorem clip_factor (frexp : K → ℤ) (x : K) : |factorFromMax frexp x| ≤ maxWeight := by
  unfold factorFromMax clipWeight maxWeight
  rw [abs_le]
  split <;> constructor <;> omega

theorem factor_unclipped {frexp : K → ℤ} {x : K} (hx : x ≠ 0) (h : |factorFromMax frexp x| < maxWeight) :
    |frexp (1 / x) - 1| ≤ maxWeight := by
  unfold factorFromMax clipWeight maxWeight at *
  rw [if_pos hx, abs_lt] at h
  rw [abs_le]
  omega

/-- one direction (all columns or all rows) is normalised by weights `w` on top of the weights `pre` of the other -/
theorem line_normal {m : Mat K} (hm : m.WF) {frexp : K → ℤ} (hf : ∀ x, IsFrexp x (frexp x)) {column : Bool} {pre : Nat → ℤ}
    {eps : K} (heps : 0 ≤ eps) {M : Nat → K} (h : LineMax m column pre eps m.nnz M) {i j : Nat} (hj : j < m.numCols)
    (hgt : eps < |m.value i j * 2 ^ pre (if column then i else j)|)
    (hc : |factorFromMax frexp (M (if column then j else i))| < maxWeight) :
    |m.value i j * 2 ^ (pre (if column then i else j) + factorFromMax frexp (M (if column then j else i)))| ≤ 1 ∧
    ∃ i' j', j' < m.numCols ∧ i' < m.numRows ∧ (if column then j' else i') = (if column then j else i) ∧
      1 / 2 < |m.value i' j' * 2 ^ (pre (if column then i' else j') + factorFromMax frexp (M (if column then j' else i')))| := by
  have hv : m.value i j ≠ 0 := by
    intro h0; rw [h0, zero_mul, abs_zero] at hgt; linarith
  obtain ⟨k, k1, k2, k3, k4⟩ := pos_of_value hv
  have hk : k < m.nnz := lt_of_lt_of_le k2 (hm.ptr_le_nnz (j := j + 1) (by omega))
  have hub := h.ub j hj k hk k1 k2 (by rw [k3, k4]; exact hgt)
  rw [k3, k4] at hub
  have hMpos : 0 < M (if column then j else i) := lt_of_le_of_lt heps (lt_of_lt_of_le hgt hub)
  obtain ⟨-, f1, f2⟩ := factor_spec hf hMpos (factor_unclipped hMpos.ne' hc)
  constructor
  · rw [zpow_add₀ two_ne_zero, ← mul_assoc, abs_mul, abs_of_pos (a := (2 : K) ^ factorFromMax frexp _) (pow2_pos _)]
    exact (mul_le_mul_of_nonneg_right hub (pow2_pos _).le).trans f2
  · rcases h.att (if column then j else i) with h0 | ⟨j', hj', k', hk', b1, b2, b3, b4⟩
    · exact absurd h0 hMpos.ne'
    · refine ⟨m.row k', j', hj', row_lt hm hj' b1 b2, b3.symm, ?_⟩
      rw [value_of_pos hm hj' b1 b2, ← b3, zpow_add₀ two_ne_zero, ← mul_assoc, abs_mul,
        abs_of_pos (a := (2 : K) ^ factorFromMax frexp _) (pow2_pos _), ← b4]
      exact f1

/-- `J` is normalised along its columns by the (documented) scaling `2^(alpha i + beta j)`: in each column whose
weight is not limited the entries with absolute value above `eps` (after row scaling) are at most 1, and if there are any, one
is above 1/2. -/
def ColumnNormal (J : Mat K) (s : Scaling) (eps : K) : Prop :=
  ∀ j < J.numCols, |s.beta j| < maxWeight → ∀ i, eps < |J.value i j * 2 ^ s.alpha i| →
    |J.value i j * 2 ^ (s.alpha i + s.beta j)| ≤ 1 ∧ ∃ i' < J.numRows, 1 / 2 < |J.value i' j * 2 ^ (s.alpha i' + s.beta j)|

/-- the same along rows -/
def RowNormal (J : Mat K) (s : Scaling) (eps : K) : Prop :=
  ∀ i < J.numRows, |s.alpha i| < maxWeight → ∀ j < J.numCols, eps < |J.value i j * 2 ^ s.beta j| →
    |J.value i j * 2 ^ (s.beta j + s.alpha i)| ≤ 1 ∧ ∃ j' < J.numCols, 1 / 2 < |J.value i j' * 2 ^ (s.beta j' + s.alpha i)|

/-- C58: weights computed from a Jacobian: always computed without error, one per variable and constraint, limited to
`[-30, 30]`, objective weight 0, and they normalise the Jacobian along its columns or along its rows --
with respect to the scaling `2^(alpha + beta)`. Missing: the code scales with `2^(beta - alpha)`, see
`C58_jacobian_violated`. -/
theorem C58_jacobian_partial {s : Scaling} {J : Mat K} (hJ : J.WF) (hs : s.For J.numCols J.numRows) {frexp : K → ℤ}
    (hf : ∀ x, IsFrexp x (frexp x)) (inf : K) {eps : K} (heps : 0 ≤ eps) :
    ∃ s', s.fromConsJac inf frexp J eps = some s' ∧ s'.For J.numCols J.numRows ∧ s'.objW = 0 ∧
      (∀ w ∈ s'.varW, |w| ≤ 30) ∧ (∀ w ∈ s'.consW, |w| ≤ 30) ∧ (RowNormal J s' eps ∨ ColumnNormal J s' eps) := by
  obtain ⟨r1, h1⟩ := maxMatrixRatio_ok hJ inf true eps
  obtain ⟨r2, h2⟩ := maxMatrixRatio_ok hJ inf false eps
  have hclip : ∀ (n : Nat) (M : Nat → K), ∀ w ∈ (List.range n).map fun i => factorFromMax frexp (M i), |w| ≤ 30 := by
    intro n M w hw
    obtain ⟨i, -, rfl⟩ := List.mem_map.mp hw
    exact clip_factor frexp (M i)
  have hget : ∀ (n : Nat) (M : Nat → K) (i : Nat), i < n →
      (((List.range n).map fun i => factorFromMax frexp (M i))[i]?).getD 0 = factorFromMax frexp (M i) := by
    intro n M i hi
    simp [hi]
  by_cases hr : r1 < r2
  · obtain ⟨M1, -, e1⟩ := computeFactors_spec hJ frexp true (pre := s.reset.consW) (eps := eps)
      (by show s.reset.consW.length = J.numRows; simp [Scaling.reset, hs.cons])
    simp only [if_true] at e1
    obtain ⟨B, hB⟩ : ∃ B, B = (List.range J.numCols).map fun i => factorFromMax frexp (M1 i) := ⟨_, rfl⟩
    rw [← hB] at e1
    obtain ⟨M2, m2, e2⟩ := computeFactors_spec hJ frexp false (pre := B) (eps := eps) (by rw [hB]; simp)
    simp only [Bool.false_eq_true, if_false] at e2
    refine ⟨⟨0, B, (List.range J.numRows).map fun i => factorFromMax frexp (M2 i)⟩, ?_, ⟨by rw [hB]; simp, by simp⟩, rfl,
      by rw [hB]; exact hclip _ _, hclip _ _, Or.inl ?_⟩
    · unfold Scaling.fromConsJac
      rw [h1, h2]
      simp only [Option.bind_some]
      rw [if_pos hr, e1]
      simp only [Option.bind_some]
      rw [e2]; rfl
    · intro i hi hc j hj hgt
      have ha : ∀ i < J.numRows, (⟨0, B, (List.range J.numRows).map fun i => factorFromMax frexp (M2 i)⟩ : Scaling).alpha i =
          factorFromMax frexp (M2 i) := fun i hi => hget _ _ i hi
      rw [ha i hi] at hc ⊢
      obtain ⟨g1, i', j', g2, g3, g4, g5⟩ := line_normal hJ hf (column := false) heps m2 (i := i) hj hgt hc
      simp only [Bool.false_eq_true, if_false] at g1 g4 g5
      subst g4
      exact ⟨g1, j', g2, g5⟩
  · obtain ⟨M1, -, e1⟩ := computeFactors_spec hJ frexp false (pre := s.reset.varW) (eps := eps)
      (by show s.reset.varW.length = J.numCols; simp [Scaling.reset, hs.vars])
    simp only [Bool.false_eq_true, if_false] at e1
    obtain ⟨A, hA⟩ : ∃ A, A = (List.range J.numRows).map fun i => factorFromMax frexp (M1 i) := ⟨_, rfl⟩
    rw [← hA] at e1
    obtain ⟨M2, m2, e2⟩ := computeFactors_spec hJ frexp true (pre := A) (eps := eps) (by rw [hA]; simp)
    simp only [if_true] at e2
    refine ⟨⟨0, (List.range J.numCols).map fun i => factorFromMax frexp (M2 i), A⟩, ?_, ⟨by simp, by rw [hA]; simp⟩, rfl,
      hclip _ _, by rw [hA]; exact hclip _ _, Or.inr ?_⟩
    · unfold Scaling.fromConsJac
      rw [h1, h2]
      simp only [Option.bind_some]
      rw [if_neg hr, e1]
      simp only [Option.bind_some]
      rw [e2]; rfl
    · intro j hj hc i hgt
      have hb : ∀ j < J.numCols, (⟨0, (List.range J.numCols).map fun i => factorFromMax frexp (M2 i), A⟩ : Scaling).beta j =
          factorFromMax frexp (M2 j) := fun j hj => hget _ _ j hj
      rw [hb j hj] at hc ⊢
      obtain ⟨g1, i', j', g2, g3, g4, g5⟩ := line_normal hJ hf (column := true) heps m2 (i := i) hj hgt hc
      simp only [if_true] at g1 g4 g5
      subst g4
      exact ⟨g1, i', g3, g5⟩

/-- the exponents needed for the witness below -/
def demoFrexp (x : ℚ) : ℤ := if x = 1 / 4 then -1 else if x = 1 then 1 else 0

/-- C58: scaling from the 1x1 Jacobian (4): the weights are -2 for the constraint and 0 for the variable, and the
scaled Jacobian is (16) instead of (1). (`frexp(1/4) = -1`, `frexp(1) = 1`.) -/
theorem C58_jacobian_violated :
    IsFrexp (1 / 4 : ℚ) (demoFrexp (1 / 4)) ∧ IsFrexp (1 : ℚ) (demoFrexp 1) ∧
    ∃ (s : Scaling) (J' : Mat ℚ),
      (Scaling.create 1 1).fromConsJac 100 demoFrexp (⟨1, 1, 1, 1, fun j => j, fun _ => 0, fun _ => 4⟩ : Mat ℚ) 0 = some s ∧
      s = ⟨0, [0], [-2]⟩ ∧ s.scaleConsJac ⟨1, 1, 1, 1, fun j => j, fun _ => 0, fun _ => 4⟩ = some J' ∧ J'.val 0 = 16 := by
  refine ⟨Or.inr (by decide +kernel), Or.inr (by decide +kernel), ⟨0, [0], [-2]⟩, _, by decide +kernel, rfl, rfl, by decide +kernel⟩

/-! ### C59 -/

/-- C59: the gradient reported after solving a scaled least-squares problem is the true one
times `2^(-objW)`, since the scaled gradient `J'ᵀ r'` carries the objective scale twice but is unscaled once. -/
theorem C59_gradient_partial {s : Scaling} {n m k : Nat} (hs : s.For n m) {J : Nat → Nat → K} {r : Nat → K} {g : Vec K} (hg : VOk n g)
    (hval : ∀ j < n, g.value j = ∑ i ∈ range k, J i j * 2 ^ (s.beta j - s.objW) * (r i * 2 ^ (-s.objW))) :
    ∃ g', s.unscaleObjGrad g = some g' ∧ VOk n g' ∧ ∀ j < n, g'.value j = (∑ i ∈ range k, J i j * r i) * 2 ^ (-s.objW) := by
  refine ⟨_, scaleVars_eq hs hg _, scaledBy_ok hg _, fun j hj => ?_⟩
  rw [scaledBy_value, hval j hj, Finset.sum_mul, Finset.sum_mul]
  apply Finset.sum_congr rfl
  intro i _
  have : (2 : K) ^ (s.beta j - s.objW) * 2 ^ (-1 * s.beta j + s.objW) = 1 := by
    rw [← zpow_add₀ two_ne_zero, show s.beta j - s.objW + (-1 * s.beta j + s.objW) = 0 by ring, zpow_zero]
  calc J i j * 2 ^ (s.beta j - s.objW) * (r i * 2 ^ (-s.objW)) * 2 ^ (-1 * s.beta j + s.objW)
      = J i j * r i * 2 ^ (-s.objW) * (2 ^ (s.beta j - s.objW) * 2 ^ (-1 * s.beta j + s.objW)) := by ring
    _ = J i j * r i * 2 ^ (-s.objW) := by rw [this, mul_one]

/-- the residual `x - 3` of one variable -/
def demoResidual : LsqUser (Vec ℚ) ℚ where
  numVars := 1
  numRes := 1
  resid p dest := dest.push 0 (p.value 0 - 3)
  fwd _ d dest := dest.push 0 (d.value 0)
  adj _ y dest := dest.push 0 (y.value 0)
  residNnz := some 1
  fwdNnz := some 1
  adjNnz := some 1

/-- C59: for the residual `x - 3` at `x = 1`, objective weight 1: the scaled function's gradient, unscaled, is -1 instead
of the true -2, whereas the objective value is right. -/
theorem C59_gradient_violated :
    ∃ (s s1 s2 : Lsq (Vec ℚ) ℚ) (f : ℚ) (g g' : Vec ℚ),
      Lsq.create ((⟨1, [0], []⟩ : Scaling).lsqUser ⟨1, 1, []⟩ demoResidual) ⟨1, 1, [(0, 1)]⟩ 0 0 = some s ∧
      Lsq.objVal ((⟨1, [0], []⟩ : Scaling).lsqUser ⟨1, 1, []⟩ demoResidual)
        (Lsq.nonzeros ((⟨1, [0], []⟩ : Scaling).lsqUser ⟨1, 1, []⟩ demoResidual) s) = some (f, s1) ∧
      (⟨1, [0], []⟩ : Scaling).unscaleLsqObjVal f = 1 / 2 * (1 - 3) ^ 2 ∧
      Lsq.objGrad ((⟨1, [0], []⟩ : Scaling).lsqUser ⟨1, 1, []⟩ demoResidual) s1 ⟨1, 1, []⟩ = some (g, s2) ∧
      (⟨1, [0], []⟩ : Scaling).unscaleObjGrad g = some g' ∧ g'.value 0 = -1 := by
  refine ⟨_, _, _, _, _, _, rfl, rfl, ?_, rfl, rfl, ?_⟩
  · decide +kernel
  · decide +kernel

/-! non-vacuity -/

/-- weights 1 (objective), 3 (variable), -2 (constraint) for the sample problem -/
def exScaling : Scaling := ⟨1, [3], [-2]⟩

theorem exScaling_for : exScaling.For 1 1 := ⟨rfl, rfl⟩

/-- non-vacuity: `C33_scaled`, `C33_kkt` and `C33_unscale_scale` apply to the sample solution -/
example : ∃ it' p', exScaling.scaleIterate false exIt = some it' ∧ exScaling.flushBounds exP exP = some p' ∧
    it'.primal.value 0 = 1 / 8 ∧ it'.slacknessResiduum p' = some 0 ∧ exScaling.unscaleIterate false it' = some exIt := by
  obtain ⟨it', p', h1, h2, h3, h4⟩ := C33_scaled exScaling_for exFits (t := exP) ⟨rfl, rfl, rfl, rfl⟩ false
  refine ⟨it', p', h1, h2, ?_, ?_, ?_⟩
  · rw [h4.primal]; decide +kernel
  · rw [(C33_kkt exFits h3 h4).2.2.1, C15_zero_iff exFits]
    refine ⟨?_, ?_⟩
    · intro i hi
      interval_cases i
      right; right; decide +kernel
    · intro i hi
      interval_cases i
      left; decide +kernel
  · have := C33_unscale_scale exScaling_for exFits false
    rw [h1] at this
    exact this

/-- non-vacuity: `C33_lsq` -- the residual `x - 3` satisfies its hypotheses and is not zero -/
theorem demoResidual_spec : LsqSpec demoResidual (fun p => VOk 1 p) (fun p _ => p.value 0 - 3) (fun _ _ _ => 1) 1 1 1 := by
  have key : ∀ {dest : Vec ℚ} {f : Nat → ℚ}, dest.dim = 1 → dest.ents = [] → 1 ≤ dest.cap → ∃ v, dest.push 0 (f 0) = some v ∧ Fills dest f v := by
    rintro ⟨d, c, e⟩ f h1 h2 h3
    simp only at h1 h2 h3
    subst h1 h2
    refine ⟨⟨1, c, [(0, f 0)]⟩, ?_, ?_⟩
    · unfold Vec.push
      rw [if_pos]
      · rfl
      · refine ⟨?_, by simp, by simp⟩
        show 0 < c; omega
    · refine ⟨⟨by simp [Srt], by simp, by simpa using h3⟩, rfl, le_rfl, ?_⟩
      intro i hi
      have : i = 0 := by simp at hi; exact hi
      subst this
      exact valAt_of_mem (l := [(0, f 0)]) (by simp [Srt]) (e := (0, f 0)) (by simp)
  refine ⟨?_, ?_, ?_⟩
  · intro p dest _ h1 h2 h3
    exact key (f := fun _ => p.value 0 - 3) h1 h2 h3
  · intro p d dest _ _ hd h1 h2 h3
    obtain ⟨v, v1, v2⟩ := key (f := fun _ => d.value 0) h1 h2 h3
    refine ⟨v, v1, ?_⟩
    have : (fun _ : Nat => ∑ j ∈ range demoResidual.numVars, (1 : ℚ) * d.value j) = fun _ => d.value 0 := by
      funext i; simp [demoResidual]
    show Fills dest (fun _ => ∑ j ∈ range demoResidual.numVars, (1 : ℚ) * d.value j) v
    rw [this]; exact v2
  · intro p d dest _ _ hd h1 h2 h3
    obtain ⟨v, v1, v2⟩ := key (f := fun _ => d.value 0) h1 h2 h3
    refine ⟨v, v1, ?_⟩
    have : (fun _ : Nat => ∑ i ∈ range demoResidual.numRes, (1 : ℚ) * d.value i) = fun _ => d.value 0 := by
      funext i; simp [demoResidual]
    show Fills dest (fun _ => ∑ i ∈ range demoResidual.numRes, (1 : ℚ) * d.value i) v
    rw [this]; exact v2

example : ∃ ok r J, LsqSpec (exScaling.lsqUser ⟨1, 1, []⟩ demoResidual) ok r J 1 1 1 ∧
    ∀ p, VOk 1 p → ok p :=
  ⟨_, _, _, C33_lsq exScaling_for demoResidual_spec _, fun _ hp => by
    obtain ⟨x, h1, h2, _⟩ := C33_point exScaling_for (cache := Vec.create 1 1) rfl hp
    exact ⟨x, h1, h2⟩⟩

/-- non-vacuity: `C58_jacobian_partial` and the general form of the violation apply to `exIt` and to 3 -/
example : ∃ s', exScaling.fromConsJac 100 (fun x : ℚ => if x = 0 then 0 else Int.log 2 |x| + 1) exIt.consJac 0 = some s' ∧
    s'.objW = 0 := by
  obtain ⟨s', h1, -, h2, -⟩ := C58_jacobian_partial (s := exScaling) (J := exIt.consJac) exFits.wj exScaling_for isFrexp_log 100 le_rfl
  exact ⟨s', h1, h2⟩

end Sleqp
