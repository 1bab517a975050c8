import Verif.Model.DerivCheckLsq
import Verif.Props.DerivCheck
import Verif.Props.Lsq

/-! C78: the derivative check of least-squares functions and in restoration phases. -/

namespace Sleqp

section General
open Finset
variable {K : Type*} [Field K] [LinearOrder K]

/-- the least-squares function with residuals `R` and Jacobian `J`, together with the derivatives the solver works with: the gradient `Jᵀ R`
and the matrix `Jᵀ J + lm I` of Gauss and Newton -/
def gnData (n q : Nat) (R : (Fin n → K) → Nat → K) (J : (Fin n → K) → Nat → Nat → K) (lm : K) : DerivData n 0 K where
  f x := 1 / 2 * ∑ i ∈ range q, R x i ^ 2
  g x j := ∑ i ∈ range q, J x i j * R x i
  c _ := 0
  J _ := 0
  H x _ := fun k j => (∑ i ∈ range q, J x i k * J x i j) + if k = j then lm else 0
  rejects _ := false

/-- a new object satisfies the invariant if callbacks make room themselves -/
theorem lsqInv_fresh {u : LsqUser (Vec K) K} {ok : Vec K → Prop} {r : Vec K → Nat → K} {x : Vec K} (hx : ok x) {lm eps : K} (hlm : 0 ≤ lm) :
    ∃ s, Lsq.create u x lm eps = some s ∧ LsqInv u ok r 0 0 0 s ∧ s.point = x ∧ s.lm = lm ∧ s.zeroEps = eps := by
  unfold Lsq.create
  rw [if_pos hlm]
  refine ⟨_, rfl, ⟨hx, rfl, rfl, ?_, Nat.zero_le _, Nat.zero_le _, Nat.zero_le _, fun h => absurd h (by simp)⟩, rfl, rfl, rfl⟩
  dsimp only
  split <;> rfl

variable [IsStrictOrderedRing K] {u : LsqUser (Vec K) K} {R : (Fin u.numVars → K) → Nat → K} {J : (Fin u.numVars → K) → Nat → Nat → K}

/-- the functions the checker of a least-squares function works with -/
theorem lsqDcFor
    (hs : LsqSpec u (fun p => p.WF ∧ p.dim = u.numVars) (fun p => R (dense u.numVars p)) (fun p => J (dense u.numVars p)) 0 0 0)
    {lm : K} (hlm : 0 ≤ lm) (pert tol : K) :
    DcFor (lsqDcEnv u some lm 0 pert tol) (gnData u.numVars u.numRes R J lm) where
  vars := rfl
  cons' := rfl
  rejects _ _ _ := rfl
  obj x hx hd := by
    obtain ⟨s, s1, s2, s3, -, -⟩ := lsqInv_fresh (u := u) (ok := fun p => p.WF ∧ p.dim = u.numVars)
      (r := fun p => R (dense u.numVars p)) (eps := 0) ⟨hx, hd⟩ hlm
    obtain ⟨t, t1, t2, t3, t4, -⟩ := lsqInv_residual hs s2
    obtain ⟨w, hv⟩ := t2.res t3
    show Option.getD (((Lsq.create u x lm 0).bind (Lsq.objVal u)).map Prod.fst) 0 = _
    rw [s1, Option.bind_some]
    unfold Lsq.objVal
    rw [t1]
    show 1 / 2 * t.residual.normSq = 1 / 2 * ∑ i ∈ range u.numRes, R (dense u.numVars x) i ^ 2
    rw [(C03_norms _ w).2, t2.rdim]
    congr 1
    refine Finset.sum_congr rfl fun i hi => ?_
    rw [hv i (Finset.mem_range.mp hi), t4, s3]
  grad x r hx hd hr := by
    obtain ⟨s, s1, s2, s3, -, -⟩ := lsqInv_fresh (u := u) (ok := fun p => p.WF ∧ p.dim = u.numVars)
      (r := fun p => R (dense u.numVars p)) (eps := 0) ⟨hx, hd⟩ hlm
    obtain ⟨t, t1, t2, t3, t4, -⟩ := lsqInv_residual hs s2
    obtain ⟨w, hv⟩ := t2.res t3
    obtain ⟨q, q1, q2⟩ := hs.adj t.point t.residual r.clear.clear t2.pt w t2.rdim hr rfl (Nat.zero_le _)
    refine ⟨q, ?_, q2.wf, q2.dim.trans hr, ?_⟩
    · show (Lsq.create u x lm 0).bind _ = _
      rw [s1, Option.bind_some]
      unfold Lsq.objGrad Lsq.jacAdjoint
      rw [t1]
      simp only [Option.bind_some]
      rw [if_pos ⟨t2.rdim, hr⟩, q1]; rfl
    · funext j
      show q.value j = ∑ i ∈ range u.numRes, J (dense u.numVars x) i j * R (dense u.numVars x) i
      have hj : (j : Nat) < q.dim := by rw [q2.dim]; exact lt_of_lt_of_eq j.2 hr.symm
      rw [q2.val j hj]
      refine Finset.sum_congr rfl fun i hi => ?_
      rw [hv i (Finset.mem_range.mp hi), t4, s3]
  cons x r hx hd hr := ⟨r.clear, rfl, ⟨by simp [Vec.clear, Srt], by simp [Vec.clear], by simp [Vec.clear]⟩, hr, by
    funext i; exact i.elim0⟩
  jac x r hx hd h1 h2 := ⟨r.clear, rfl, Mat.clear_wf r, h1, h2, fun i => i.elim0⟩
  hess x v mu r hx hd hv hvd _ _ hr := by
    obtain ⟨s, s1, s2, s3, s4, s5⟩ := lsqInv_fresh (u := u) (ok := fun p => p.WF ∧ p.dim = u.numVars)
      (r := fun p => R (dense u.numVars p)) (eps := 0) ⟨hx, hd⟩ hlm
    obtain ⟨q, t, q1, -, -, -, -, q3, q4, q5⟩ := lsq_hess hs s2 (le_of_eq s5.symm) hv hvd hr (Nat.zero_le _) (Or.inl le_rfl)
    refine ⟨q, ?_, q3, q4, ?_⟩
    · show (Lsq.create u x lm 0).bind _ = _
      rw [s1, Option.bind_some, q1]; rfl
    · funext k
      obtain ⟨e, e1, e2⟩ := q5 k k.2
      rw [s3, s4, s5] at e2
      have e3 : q.value k = (∑ i ∈ range u.numRes, J (dense u.numVars x) i k *
          ∑ j ∈ range u.numVars, J (dense u.numVars x) i j * v.value j) + lm * v.value k := by
        rw [e1]
        rcases e2 with e2 | ⟨_, e2, e3⟩
        · exact e2
        · rw [e2, abs_nonpos_iff.mp e3]
      show q.value k = ∑ j : Fin u.numVars, ((∑ i ∈ range u.numRes, J (dense u.numVars x) i k * J (dense u.numVars x) i j) +
        if k = j then lm else 0) * v.value j
      rw [e3]
      simp only [add_mul, Finset.sum_add_distrib, ite_mul, zero_mul, Finset.sum_ite_eq, Finset.mem_univ, if_true]
      congr 1
      simp only [Finset.mul_sum, Finset.sum_mul]
      rw [Finset.sum_comm]
      rw [← Fin.sum_univ_eq_sum_range (fun j => ∑ i ∈ range u.numRes, J (dense u.numVars x) i k * (J (dense u.numVars x) i j * v.value j))]
      exact Finset.sum_congr rfl fun j _ => Finset.sum_congr rfl fun i _ => (mul_assoc _ _ _).symm

/-- second derivatives only, in the simple way -/
def dcSecond : DcFlags := ⟨false, false, true, false, false⟩

/-- C78 (partial): the check of second derivatives of a least-squares function without general constraints, whose callbacks deliver the residuals `R`
and products with their Jacobian `J`.  The check ends without a failed assertion and succeeds exactly if the matrix `Jᵀ J + lm I` of Gauss and Newton at the
perturbed points is close to the differences of the gradient `Jᵀ R`, so that nothing the user provides is wrong if it fails
(`C78_lsq_violated`).  It always succeeds if the residuals are affine and there is no Levenberg-Marquardt term.  Missing with respect to the statement: the
second derivatives of the residuals, the drop tolerance (`zero_eps = 0`), and functions with general constraints; callbacks make room in the vectors
passed to them. -/
theorem C78_lsq_partial
    (hs : LsqSpec u (fun p => p.WF ∧ p.dim = u.numVars) (fun p => R (dense u.numVars p)) (fun p => J (dense u.numVars p)) 0 0 0)
    {lm pert tol : K} (hlm : 0 ≤ lm) (hp : 0 < pert) (ht : 0 ≤ tol) {it : Iterate K}
    (hit : IterateAt (gnData u.numVars u.numRes R J lm) it) {s : DcState K} (hd : IterateDims u.numVars 0 s.check) :
    ∃ out s', dcPerform (lsqDcEnv u some lm 0 pert tol) dcSecond it s = some (out, s') ∧ (out = .ok ∨ out = .invalid) ∧
      (let x := dense u.numVars it.primal;
       out = .ok ↔ ∀ j k : Fin u.numVars,
        let h := max |x j| 1 * pert;
        Close tol ((∑ i ∈ range u.numRes, J (shift x j h) i k * J (shift x j h) i j) + if k = j then lm else 0)
          (((∑ i ∈ range u.numRes, J (shift x j h) i k * R (shift x j h) i) - ∑ i ∈ range u.numRes, J x i k * R x i) / h)) ∧
      ∀ A : Nat → Nat → K, lm = 0 → (∀ x i j, J x i j = A i j) →
        (∀ x i, R x i = R 0 i + ∑ j : Fin u.numVars, A i j * x j) → out = .ok := by
  obtain ⟨out, s', h1, h2, h3, -, -⟩ := C78_verdict_partial (lsqDcFor hs hlm pert tol) rfl hp dcSecond rfl hit rfl hd
  rw [show (lsqDcEnv u some lm 0 pert tol).perturbation = pert from rfl, show (lsqDcEnv u some lm 0 pert tol).tol = tol from rfl] at h2 h3
  have key : out = .ok ↔ ∀ j k : Fin u.numVars,
      Close tol ((∑ i ∈ range u.numRes, J (shift (dense u.numVars it.primal) j (max |dense u.numVars it.primal j| 1 * pert)) i k *
          J (shift (dense u.numVars it.primal) j (max |dense u.numVars it.primal j| 1 * pert)) i j) + if k = j then lm else 0)
        (((∑ i ∈ range u.numRes, J (shift (dense u.numVars it.primal) j (max |dense u.numVars it.primal j| 1 * pert)) i k *
            R (shift (dense u.numVars it.primal) j (max |dense u.numVars it.primal j| 1 * pert)) i) -
          ∑ i ∈ range u.numRes, J (dense u.numVars it.primal) i k * R (dense u.numVars it.primal) i) /
          (max |dense u.numVars it.primal j| 1 * pert)) := by
    rw [h2]
    refine forall_congr' fun j => ?_
    constructor
    · rintro (h | h) k
      · exact absurd h Bool.false_ne_true
      · have := h.secondSimple rfl k
        simpa [forwardDiff, DerivData.lagr, gnData, diffStep] using this
    · intro h
      refine Or.inr ⟨fun h => absurd h Bool.false_ne_true, fun h => absurd h Bool.false_ne_true, fun h => absurd h Bool.false_ne_true,
        fun h => absurd h Bool.false_ne_true, fun _ k => ?_⟩
      simpa [forwardDiff, DerivData.lagr, gnData, diffStep] using h k
  refine ⟨out, s', h1, ?_, key, ?_⟩
  · by_cases h : ∀ j, VarPasses (gnData u.numVars u.numRes R J lm) pert tol dcSecond (dense u.numVars it.primal) (dense 0 it.consDual) j
    · exact Or.inl (h2.mpr h)
    · exact Or.inr (h3.mpr h)
  · rintro A rfl hJ hR
    refine key.mpr fun j k => ?_
    set x := dense u.numVars it.primal
    set h := max |x j| 1 * pert with hh
    have hpos : 0 < h := mul_pos (lt_of_lt_of_le one_pos (le_max_right _ _)) hp
    have hsh : ∀ i, R (shift x j h) i = R x i + A i j * h := fun i => by
      rw [hR (shift x j h) i, hR x i]
      simp only [shift, Pi.add_apply, mul_add, Finset.sum_add_distrib, Pi.single_apply, mul_ite, mul_zero, Finset.sum_ite_eq',
        Finset.mem_univ, if_true]
      ring
    have e : ((∑ i ∈ range u.numRes, J (shift x j h) i k * R (shift x j h) i) - ∑ i ∈ range u.numRes, J x i k * R x i) / h =
        (∑ i ∈ range u.numRes, J (shift x j h) i k * J (shift x j h) i j) + if k = j then 0 else 0 := by
      rw [div_eq_iff hpos.ne', ← Finset.sum_sub_distrib, ite_self, add_zero, Finset.sum_mul]
      refine Finset.sum_congr rfl fun i _ => ?_
      rw [hsh, hJ, hJ, hJ]
      ring
    rw [e]
    unfold Close
    rw [sub_self, abs_zero]
    exact mul_nonneg ht (le_trans zero_le_one (le_max_right _ _))

end General

/-- the residual `2 x - 3` of one variable; the callbacks make room for one entry -/
def exAffine : LsqUser (Vec ℚ) ℚ where
  numVars := 1
  numRes := 1
  resid x r := some ⟨1, max 1 r.cap, [(0, 2 * x.value 0 - 3)]⟩
  fwd _ d r := some ⟨1, max 1 r.cap, [(0, 2 * d.value 0)]⟩
  adj _ y r := some ⟨1, max 1 r.cap, [(0, 2 * y.value 0)]⟩
  residNnz := none
  fwdNnz := none
  adjNnz := none

theorem exAffine_fills {dest : Vec ℚ} (hd : dest.dim = 1) (a : ℚ) {f : Nat → ℚ} (hf : f 0 = a) : Fills dest f ⟨1, max 1 dest.cap, [(0, a)]⟩ :=
  ⟨⟨by simp [Srt], by simp, by simp⟩, hd.symm, le_max_right _ _, fun i hi => by
    obtain rfl : i = 0 := Nat.lt_one_iff.mp hi
    rw [hf]; simp [Vec.value, valAt, at?]⟩

theorem exAffine_spec : LsqSpec exAffine (fun p => p.WF ∧ p.dim = exAffine.numVars) (fun p _ => 2 * dense exAffine.numVars p ⟨0, Nat.one_pos⟩ - 3)
    (fun _ _ _ => 2) 0 0 0 :=
  ⟨fun p dest _ hd _ _ => ⟨_, rfl, exAffine_fills hd _ rfl⟩,
   fun p d dest _ _ _ hd _ _ => ⟨_, rfl, exAffine_fills hd _ (by simp [exAffine])⟩,
   fun p y dest _ _ _ hd _ _ => ⟨_, rfl, exAffine_fills hd _ (by simp [exAffine])⟩⟩

/-- the second derivatives of `½ (2 x - 3)²` pass the check at `x = 1`, whatever the tolerance -/
example : ∃ s', dcPerform (lsqDcEnv exAffine some 0 0 (1 / 100) 0) dcSecond (freeIterate 1 (dcVec 1) (1 / 2) (dcVec (-2)))
    (freeChecker 1 (dcVec 1)) = some (.ok, s') := by
  have hv : (dcVec (1 : ℚ)).value 0 = 1 := by simp [dcVec, Vec.value, valAt, at?]
  obtain ⟨out, s', h1, -, -, h2⟩ := C78_lsq_partial (u := exAffine) (R := fun x _ => 2 * x ⟨0, Nat.one_pos⟩ - 3) (J := fun _ _ _ => 2)
    exAffine_spec (lm := 0) (pert := 1 / 100) (tol := 0) le_rfl (by decide +kernel) le_rfl (it := freeIterate 1 (dcVec 1) (1 / 2) (dcVec (-2)))
    ⟨dcVec_wf _, rfl, by decide +kernel, dcVec_wf _, rfl, by
        funext j
        obtain rfl : j = ⟨0, Nat.one_pos⟩ := Subsingleton.elim (α := Fin 1) _ _
        decide +kernel, ⟨by simp [freeIterate, Vec.create, Srt], by simp [freeIterate, Vec.create], by simp [freeIterate, Vec.create]⟩, rfl,
      funext fun i => i.elim0, by
        refine ⟨rfl, fun _ _ => le_rfl, rfl, le_rfl, fun j _ => ?_, fun j _ e he => ?_⟩
        · exact List.Pairwise.nil
        · exact absurd he (List.not_mem_nil), rfl, rfl, fun i => i.elim0,
      ⟨by simp [freeIterate, Vec.create, Srt], by simp [freeIterate, Vec.create], by simp [freeIterate, Vec.create]⟩, rfl⟩
    (s := freeChecker 1 (dcVec 1)) ⟨rfl, rfl, rfl, rfl, rfl⟩
  obtain rfl := h2 (fun _ _ => 2) rfl (fun _ _ _ => rfl) fun x i => by
    have : ∀ f : Fin 1 → ℚ, ∑ j : Fin 1, f j = f 0 := fun f => by simp
    show 2 * x ⟨0, Nat.one_pos⟩ - 3 = (2 * 0 - 3) + ∑ j : Fin 1, 2 * x j
    rw [this]
    ring_nf
    rfl
  exact ⟨s', h1⟩

/-- the residual `x² - 3` of one variable, with its exact derivative `2 x` -/
def exLsqUser : LsqUser (Vec ℚ) ℚ where
  numVars := 1
  numRes := 1
  resid x _ := some (dcVec (x.value 0 ^ 2 - 3))
  fwd x d _ := some (dcVec (2 * x.value 0 * d.value 0))
  adj x y _ := some (dcVec (2 * x.value 0 * y.value 0))
  residNnz := none
  fwdNnz := none
  adjNnz := none

/-- first derivatives only -/
def dcFirst : DcFlags := ⟨true, true, false, false, false⟩


/-- **C78 violated (least squares)**: the Hessian of a least-squares objective is that of Gauss and Newton, in which the second derivatives of the
residuals are missing (lsq.c:226-263), but the check compares it with differences of the gradient, after no more than a warning
(problem_solver/solve.c:28-46).  For the residual `x² - 3`, whose products are exact everywhere, checking first derivatives at `x = 1` succeeds, while
checking second derivatives ends the solve with the error for invalid derivatives, though the user does not even provide any. -/
theorem C78_lsq_violated :
    (∀ a b : ℚ, exLsqUser.resid (dcVec a) (Vec.create 1 1) = some (dcVec (a ^ 2 - 3)) ∧
      exLsqUser.fwd (dcVec a) (dcVec b) (Vec.create 1 1) = some (dcVec (2 * a * b)) ∧
      exLsqUser.adj (dcVec a) (dcVec b) (Vec.create 1 1) = some (dcVec (2 * a * b))) ∧
    (dcPerform (lsqDcEnv exLsqUser some 0 0 (1 / 100) (1 / 10)) dcFirst (freeIterate 1 (dcVec 1) 2 (dcVec (-4)))
      (freeChecker 1 (dcVec 1))).map Prod.fst = some .ok ∧
    (dcPerform (lsqDcEnv exLsqUser some 0 0 (1 / 100) (1 / 10)) dcSecond (freeIterate 1 (dcVec 1) 2 (dcVec (-4)))
      (freeChecker 1 (dcVec 1))).map Prod.fst = some .invalid := by
  refine ⟨fun a b => ?_, by decide +kernel, by decide +kernel⟩
  have hv : ∀ a : ℚ, (dcVec a).value 0 = a := fun a => by simp [dcVec, Vec.value, valAt, at?]
  simp [exLsqUser, hv]

/-- objective `x`, constraint `x²`, with exact derivatives -/
def exParabola : DerivData 1 1 ℚ where
  f x := x 0
  g _ _ := 1
  c x _ := x 0 ^ 2
  J x _ _ := 2 * x 0
  H _ mu := fun _ _ => 2 * mu 0
  rejects _ := false

/-- the same problem as the restoration function sees it -/
def exParabolaRest : RestProblem ℚ where
  numVars := 1
  numCons := 1
  consVal x := dcVec (exParabola.c (dense 1 x) 0)
  consJac x := dcMat (exParabola.J (dense 1 x) 0 0)

/-- **C78 violated (restoration phase)**: the solver of the restoration phase is created with the settings of the user (solver/phase.c:84-87) and
checks the derivatives of its own function, whose Hessian is that of Gauss and Newton, before its first iteration.  Here the problem is to
minimize `x` subject to `x² = 3`.  All of its derivatives pass the check at `x = 1`; if the solver then enters a restoration phase at that point, the check
of first derivatives succeeds, but if second derivatives are checked as well, the solve ends with the error for invalid derivatives. -/
theorem C78_restoration_violated :
    (dcPerform (dcEnvOf exParabola (1 / 100) (1 / 10)) dcAll (dcItOf exParabola 1 (-1)) (dcStart 1)).map Prod.fst = some .ok ∧
    (∀ x : Vec ℚ, exParabolaRest.consVal x = dcVec (exParabola.c (dense 1 x) 0) ∧ exParabolaRest.consJac x = dcMat (exParabola.J (dense 1 x) 0 0)) ∧
    restCheck exParabolaRest (dcVec 3) (dcVec 3) 0 (1 / 100) (1 / 10) dcFirst (dcVec 1) (dcItOf exParabola 1 (-1)).consVal
      (dcItOf exParabola 1 (-1)).consJac = some .ok ∧
    restCheck exParabolaRest (dcVec 3) (dcVec 3) 0 (1 / 100) (1 / 10) dcAll (dcVec 1) (dcItOf exParabola 1 (-1)).consVal
      (dcItOf exParabola 1 (-1)).consJac = some .invalid :=
  ⟨by decide +kernel, fun _ => ⟨rfl, rfl⟩, by decide +kernel, by decide +kernel⟩

end Sleqp
