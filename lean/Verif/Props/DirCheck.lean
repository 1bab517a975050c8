import Verif.Model.DirCheck
import Verif.Spec.DirCheck
import Verif.Lemmas.DerivCheck
import Verif.Props.Direction
import Verif.Props.Mat
import Mathlib.Algebra.Field.Rat
import Mathlib.Algebra.Order.Ring.Rat

/-! C131: the checks of steps in debug builds. -/

namespace Sleqp
variable {K : Type*} [Field K] [LinearOrder K] [IsStrictOrderedRing K] {n m : Nat}
open Matrix Finset

theorem close_self {tol : K} (h : 0 ≤ tol) (a : K) : Close tol a a := by
  unfold Close
  rw [sub_self, abs_zero]
  exact mul_nonneg h (le_trans zero_le_one (le_max_right _ _))

/-- equality of vectors with a tolerance is closeness of all coordinates -/
theorem vec_eq_close {v w : Vec K} {tol : K} (ht : 0 ≤ tol) (hv : VOk n v) (hw : VOk n w) :
    ∃ b, v.eq w tol = some b ∧ (b = true ↔ ∀ i, Close tol (dense n v i) (dense n w i)) := by
  unfold Vec.eq
  rw [if_pos (hv.2.trans hw.2.symm)]
  refine ⟨_, rfl, ?_⟩
  rw [List.all_eq_true]
  constructor
  · intro h i
    show Close tol (valAt v.ents i) (valAt w.ents i)
    unfold valAt
    rcases hm : at? (merge2 v.ents w.ents) i with _ | t
    · rw [merge2_at hv.1.srt hw.1.srt] at hm
      obtain ⟨h1, h2⟩ := comb2_eq_none hm
      rw [h1, h2]
      exact close_self ht _
    · have h1 := h (i, t) (mem_of_at? hm)
      rw [merge2_at hv.1.srt hw.1.srt] at hm
      obtain ⟨rfl, _⟩ := comb2_eq_some hm
      exact (isEq_iff_close _ _ _).1 h1
  · intro h t hmem
    have h1 := (merge2_mem hv.1.srt hw.1.srt hmem).1
    have h2 := merge2_lt hv.1.srt hw.1.srt hv.1.lt_dim (hv.2.trans hw.2.symm ▸ hw.1.lt_dim) t hmem
    have h3 : Close tol (valAt v.ents t.1) (valAt w.ents t.1) := h ⟨t.1, hv.2 ▸ h2⟩
    unfold valAt at h3
    rw [h1]
    exact (isEq_iff_close _ _ _).2 h3

/-- the Jacobian product of the check, before the comparison -/
theorem checkCons_spec (q : LocalModel n m K) {p v : Vec K} {jac : Mat K} (eps : K) (hP : VOk n p) (hj : jac.WF)
    (hjc : jac.numCols = n) (hjq : ∀ i j, jac.value (i : Fin m).val (j : Fin n).val = q.J i j) :
    ∃ res cd, jac.multVec p = some res ∧ v.setFromRaw eps ((List.range m).map res) = some cd ∧ VOk m cd ∧
      ∀ i, dense m cd i = cutSmall eps ((q.J *ᵥ dense n p) i) := by
  obtain ⟨res, r1, r2⟩ := C08_mult_vec jac p hj hP.1 (by rw [hjc, hP.2])
  obtain ⟨w, w1, w2, w3, w4⟩ := setFromRaw_spec eps v ((List.range m).map res)
  refine ⟨res, w, r1, w1, ⟨w2, by rw [w3]; simp⟩, fun i => ?_⟩
  show w.value i = _
  have hi := i.isLt
  rw [w4 i]
  simp only [List.getElem?_map, List.getElem?_range hi, Option.map_some]
  have hr : res i = (q.J *ᵥ dense n p) i := by
    rw [r2 i, hjc, Finset.sum_range]
    exact Finset.sum_congr rfl fun j _ => by rw [hjq i j]; rfl
  rw [hr]
  rfl

/-- C131: the check of a direction always has an answer; it is yes exactly if all three derivative parts agree with the
derivatives of the iterate, and then no memory is left behind. -/
theorem C131_direction_valid (q : LocalModel n m K) (D : Dir K) (grad : Vec K) (jac : Mat K)
    (hp : Vec K → Vec K → Option (Vec K)) (zeroEps tol : K) (ht : 0 ≤ tol)
    (hP : VOk n D.primal) (hC : VOk m D.consJac) (hH : VOk n D.hess) (hg : VOk n grad) (hgq : dense n grad = q.g)
    (hj : jac.WF) (hjc : jac.numCols = n) (hjq : ∀ i j, jac.value (i : Fin m).val (j : Fin n).val = q.J i j)
    (hh : HessFor q hp) :
    ∃ v, D.check n m grad jac hp zeroEps tol = some v ∧ (v.valid = true ↔ PartsAgree q D zeroEps tol) ∧
      (v.valid = true → v.leaked = 0) ∧
      (v.valid = false → Close tol (dense n D.primal ⬝ᵥ q.g) D.objGrad → 0 < v.leaked) := by
  obtain ⟨res, cd, r1, r2, r3, r4⟩ := checkCons_spec q (v := Vec.create m m) zeroEps hP hj hjc hjq
  obtain ⟨bc, c1, c2⟩ := vec_eq_close ht r3 hC
  obtain ⟨hd, h1, h2, h3⟩ := hh D.primal (Vec.create n n) hP ⟨(create_ok n n).1, rfl⟩
  obtain ⟨bh, b1, b2⟩ := vec_eq_close ht h2 hH
  unfold Dir.check
  rw [dot_dense hP hg, hgq]
  dsimp only [Option.bind_some]
  by_cases ho : isEq (dense n D.primal ⬝ᵥ q.g) D.objGrad tol = false
  · rw [if_pos ho]
    have ho' : ¬ Close tol (dense n D.primal ⬝ᵥ q.g) D.objGrad := by
      rw [← isEq_iff_close, ho]; decide
    refine ⟨_, rfl, ?_, ?_, ?_⟩
    · constructor
      · intro h; exact absurd h (by decide)
      · intro h; exact absurd h.grad ho'
    · intro _; rfl
    · intro _ h; exact absurd h ho'
  · rw [if_neg ho, r1, Option.bind_some, r2, Option.bind_some, c1, Option.bind_some]
    have ho' : Close tol (dense n D.primal ⬝ᵥ q.g) D.objGrad := (isEq_iff_close _ _ _).1 (by simpa using ho)
    cases bc with
    | false =>
      rw [if_pos rfl]
      refine ⟨_, rfl, ?_, fun h => absurd h (by decide), fun _ _ => Nat.one_pos⟩
      constructor
      · intro h; exact absurd h (by decide)
      · intro h
        exact absurd (c2.2 fun i => by rw [r4 i]; exact h.jac i) (by decide)
    | true =>
      rw [if_neg (by decide), h1, Option.bind_some, b1, Option.bind_some]
      cases bh with
      | false =>
        rw [if_pos rfl]
        refine ⟨_, rfl, ?_, fun h => absurd h (by decide), fun _ _ => Nat.two_pos⟩
        constructor
        · intro h; exact absurd h (by decide)
        · intro h
          exact absurd (b2.2 fun i => by rw [h3]; exact h.hess i) (by decide)
      | true =>
        rw [if_neg (by decide)]
        refine ⟨_, rfl, ?_, fun _ => rfl, fun h => absurd h (by decide)⟩
        refine ⟨fun _ => ⟨ho', fun i => ?_, fun i => ?_⟩, fun _ => rfl⟩
        · rw [← r4 i]; exact c2.1 rfl i
        · rw [← h3]; exact b2.1 rfl i

/-- C131: a direction whose derivative parts have just been computed passes the check, whatever the drop tolerance. -/
theorem C131_direction_reset (q : LocalModel n m K) (D : Dir K) (grad : Vec K) (jac : Mat K)
    (hp : Vec K → Vec K → Option (Vec K)) (zeroEps tol : K) (ht : 0 ≤ tol)
    (hP : VOk n D.primal) (hC : VOk m D.consJac) (hH : VOk n D.hess) (hg : VOk n grad) (hgq : dense n grad = q.g)
    (hj : jac.WF) (hjc : jac.numCols = n) (hjq : ∀ i j, jac.value (i : Fin m).val (j : Fin n).val = q.J i j)
    (hh : HessFor q hp) :
    ∃ D', D.reset m grad jac hp zeroEps = some D' ∧ D'.check n m grad jac hp zeroEps tol = some ⟨true, 0⟩ := by
  obtain ⟨h, h1, h2, h3⟩ := hh D.primal D.hess hP hH
  have hcj : ∃ cj, (if 0 < m then (jac.multVec D.primal).bind fun res =>
        D.consJac.setFromRaw zeroEps ((List.range m).map res)
      else some D.consJac.clear) = some cj ∧ VOk m cj ∧
        ∀ i, dense m cj i = cutSmall zeroEps ((q.J *ᵥ dense n D.primal) i) := by
    by_cases hm : 0 < m
    · obtain ⟨res, cd, r1, r2, r3, r4⟩ := checkCons_spec q (v := D.consJac) zeroEps hP hj hjc hjq
      rw [if_pos hm, r1]
      exact ⟨cd, r2, r3, r4⟩
    · rw [if_neg hm]
      obtain rfl : m = 0 := by omega
      exact ⟨_, rfl, (clear_vok hC).1, fun i => i.elim0⟩
  obtain ⟨cj, c1, c2, c3⟩ := hcj
  refine ⟨⟨D.primal, dense n D.primal ⬝ᵥ dense n grad, cj, h⟩, ?_, ?_⟩
  · unfold Dir.reset
    rw [dot_dense hP hg, Option.bind_some, c1, Option.bind_some, h1, Option.bind_some]
  · obtain ⟨v, v1, v2, v3, _⟩ := C131_direction_valid q ⟨D.primal, dense n D.primal ⬝ᵥ dense n grad, cj, h⟩ grad jac hp
      zeroEps tol ht hP c2 h2 hg hgq hj hjc hjq hh
    have hv : v.valid = true := v2.2 ⟨by rw [hgq]; exact close_self ht _,
      fun i => by rw [← c3 i]; exact close_self ht _, fun i => by rw [← h3]; exact close_self ht _⟩
    rw [v1, ← v3 hv, ← hv]

/-- C131: the check of the working set.  A step that keeps all active constraints at their bounds is always accepted.
An accepted step keeps every constraint active at one bound there, if value or one of the bounds is not zero.
Missing: constraints active at both bounds, constraints with zero value and zero bounds, and the variables; see the
violations below. -/
theorem C131_working_set_partial (q : LocalModel n m K) (jac : Mat K) (d lb c ub : Vec K) (w : WSet) (eps : K)
    (hd : VOk n d) (hl : VOk m lb) (hc : VOk m c) (hu : VOk m ub) (hlq : dense m lb = q.lb) (hcq : dense m c = q.c)
    (huq : dense m ub = q.ub) (hj : jac.WF) (hjc : jac.numCols = n)
    (hjq : ∀ i j, jac.value (i : Fin m).val (j : Fin n).val = q.J i j) :
    ∃ b, inWorkingSet jac d lb c ub w eps = some b ∧
      ((∀ i, KeepsActive q w eps (dense n d) i) → b = true) ∧
      (b = true → ∀ i : Fin m, w.consState i ≠ .both → q.c i ≠ 0 ∨ q.lb i ≠ 0 ∨ q.ub i ≠ 0 →
        KeepsActive q w eps (dense n d) i) := by
  obtain ⟨res, r1, r2⟩ := C08_mult_vec jac d hj hd.1 (by rw [hjc, hd.2])
  have hr : ∀ i : Fin m, res i = (q.J *ᵥ dense n d) i := by
    intro i
    rw [r2 i, hjc, Finset.sum_range]
    exact Finset.sum_congr rfl fun j _ => by rw [hjq i j]; rfl
  unfold inWorkingSet
  rw [r1, Option.bind_some]
  refine ⟨_, rfl, ?_, ?_⟩
  · intro h
    rw [List.all_eq_true]
    intro t hmem
    obtain ⟨e, _⟩ := merge3_mem hl.1.srt hc.1.srt hu.1.srt hmem
    have hlt : t.1 < m := merge3_lt hl.1.srt hc.1.srt hu.1.srt (hl.2 ▸ hl.1.lt_dim) (hc.2 ▸ hc.1.lt_dim)
      (hu.2 ▸ hu.1.lt_dim) t hmem
    have k := h ⟨t.1, hlt⟩
    have el : orZero t.2.1 = q.lb ⟨t.1, hlt⟩ := by rw [e, ← hlq]; rfl
    have ec : orZero t.2.2.1 = q.c ⟨t.1, hlt⟩ := by rw [e, ← hcq]; rfl
    have eu : orZero t.2.2.2 = q.ub ⟨t.1, hlt⟩ := by rw [e, ← huq]; rfl
    rw [el, ec, eu, hr ⟨t.1, hlt⟩]
    cases hs : w.consState t.1 with
    | inactive => rfl
    | both => rfl
    | lower => exact (isEq_iff_close _ _ _).2 (k.1 (Or.inl hs))
    | upper => exact (isEq_iff_close _ _ _).2 (k.2 (Or.inl hs))
  · intro h i hs hne
    rw [List.all_eq_true] at h
    have hm : ∃ t, at? (merge3 lb.ents c.ents ub.ents) i = some t := by
      rcases hm : at? (merge3 lb.ents c.ents ub.ents) i with _ | t
      · rw [merge3_at hl.1.srt hc.1.srt hu.1.srt] at hm
        exfalso
        have z : ∀ v : Vec K, at? v.ents i = none → dense m v i = 0 := fun v hv => by
          show orZero (at? v.ents i) = 0
          rw [hv]; rfl
        rw [← hcq, ← hlq, ← huq] at hne
        rcases h1 : at? lb.ents i with _ | a <;> rcases h2 : at? c.ents i with _ | b <;>
          rcases h3 : at? ub.ents i with _ | f <;> rw [h1, h2, h3] at hm <;> simp [comb3] at hm
        rw [z c h2, z lb h1, z ub h3] at hne
        rcases hne with h | h | h <;> exact h rfl
      · exact ⟨t, rfl⟩
    obtain ⟨t, hm⟩ := hm
    have hmem := mem_of_at? hm
    have k := h _ hmem
    obtain ⟨e, _⟩ := merge3_mem hl.1.srt hc.1.srt hu.1.srt hmem
    have e' : t = (at? lb.ents i, at? c.ents i, at? ub.ents i) := e
    subst e'
    have el : orZero (at? lb.ents i) = q.lb i := by rw [← hlq]; rfl
    have ec : orZero (at? c.ents i) = q.c i := by rw [← hcq]; rfl
    have eu : orZero (at? ub.ents i) = q.ub i := by rw [← huq]; rfl
    dsimp only at k
    rw [el, ec, eu, hr i] at k
    constructor
    · rintro (hs' | hs')
      · rw [hs'] at k; exact (isEq_iff_close _ _ _).1 k
      · exact absurd hs' hs
    · rintro (hs' | hs')
      · rw [hs'] at k; exact (isEq_iff_close _ _ _).1 k
      · exact absurd hs' hs

/-! ### samples and violations: one variable, one constraint with Jacobian 2, Hessian 2, the step 1 -/

/-- the sample problem: gradient 3, constraint value 1, bounds `lb` and `ub` -/
def exChk (c lb ub : ℚ) : LocalModel 1 1 ℚ := ⟨0, ![3], ![c], fun _ _ => 2, fun _ _ => 2, ![lb], ![ub], 1⟩

def exChkJac : Mat ℚ := ⟨1, 1, 1, 1, fun j => j, fun _ => 0, fun _ => 2⟩

def exChkHp (d _r : Vec ℚ) : Option (Vec ℚ) := some (d.scale 2)

def exChkVec (x : ℚ) : Vec ℚ := ⟨1, 1, [(0, x)]⟩

/-- a direction with step 1 and the derivative parts given -/
def exChkDir (o c h : ℚ) : Dir ℚ := ⟨exChkVec 1, o, exChkVec c, exChkVec h⟩

/-- the working set with one variable and one constraint in the states given -/
def exChkWs (v c : ActiveState) : WSet := ⟨1, 1, fun _ => v, fun _ => c, 1, 0, fun _ => some 0, fun _ => none, fun _ => 0⟩

theorem exChkVok (x : ℚ) : VOk 1 (exChkVec x) :=
  ⟨⟨by simp [exChkVec, Srt], by simp [exChkVec], by simp [exChkVec]⟩, rfl⟩

theorem exChkDense (x : ℚ) : dense 1 (exChkVec x) = ![x] := by
  funext i
  obtain rfl : i = 0 := Subsingleton.elim _ _
  rfl

theorem exChkJac_wf : exChkJac.WF :=
  ⟨rfl, fun i _ => Nat.le_succ i, rfl, le_rfl,
    fun j hj => by obtain rfl : j = 0 := Nat.lt_one_iff.1 hj; simp [exChkJac, Mat.col, Srt, List.range', List.range_succ],
    fun j hj => by
      obtain rfl : j = 0 := Nat.lt_one_iff.1 hj
      simp [exChkJac, Mat.col, List.range', List.range_succ]⟩

theorem exChkJac_value (c lb ub : ℚ) : ∀ i j, exChkJac.value (i : Fin 1).val (j : Fin 1).val = (exChk c lb ub).J i j := by
  intro i j
  obtain rfl : i = 0 := Subsingleton.elim _ _
  obtain rfl : j = 0 := Subsingleton.elim _ _
  rfl

theorem exChkHess (c lb ub : ℚ) : HessFor (exChk c lb ub) exChkHp := by
  intro d r hd _
  obtain ⟨a, b⟩ := scale_dense hd 2
  refine ⟨_, rfl, a, ?_⟩
  rw [b]
  funext i
  obtain rfl : i = 0 := Subsingleton.elim _ _
  simp [exChk, mulVec, dotProduct]

-- hypotheses of `C131_direction_valid`, for a correct and an incorrect direction
example : PartsAgree (exChk 1 0 3) (exChkDir 3 2 2) 0 (1 / 10 ^ 6) ∧
    ¬ PartsAgree (exChk 1 0 3) (exChkDir 3 1 2) 0 (1 / 10 ^ 6) := by
  have key := fun D h1 h2 h3 => C131_direction_valid (exChk 1 0 3) D (exChkVec 3) exChkJac exChkHp 0 (1 / 10 ^ 6)
    (by norm_num) h1 h2 h3 (exChkVok _) (exChkDense 3) exChkJac_wf rfl (exChkJac_value _ _ _) (exChkHess _ _ _)
  obtain ⟨v, a1, a2, -⟩ := key (exChkDir 3 2 2) (exChkVok _) (exChkVok _) (exChkVok _)
  obtain ⟨w, b1, b2, -⟩ := key (exChkDir 3 1 2) (exChkVok _) (exChkVok _) (exChkVok _)
  have ea : (exChkDir 3 2 2).check 1 1 (exChkVec 3) exChkJac exChkHp 0 (1 / 10 ^ 6) = some ⟨true, 0⟩ := by decide +kernel
  have eb : (exChkDir 3 1 2).check 1 1 (exChkVec 3) exChkJac exChkHp 0 (1 / 10 ^ 6) = some ⟨false, 1⟩ := by decide +kernel
  rw [ea] at a1
  rw [eb] at b1
  obtain rfl := Option.some.inj a1
  obtain rfl := Option.some.inj b1
  exact ⟨a2.1 rfl, fun h => absurd (b2.2 h) (by decide)⟩

-- hypotheses of `C131_direction_reset`
example : ∃ D', (exChkDir 7 8 9).reset 1 (exChkVec 3) exChkJac exChkHp (1 / 10) = some D' ∧
    D'.check 1 1 (exChkVec 3) exChkJac exChkHp (1 / 10) (1 / 10 ^ 6) = some ⟨true, 0⟩ :=
  C131_direction_reset (exChk 1 0 3) _ _ _ _ _ _ (by norm_num) (exChkVok _) (exChkVok _) (exChkVok _) (exChkVok _)
    (exChkDense 3) exChkJac_wf rfl (exChkJac_value _ _ _) (exChkHess _ _ _)

-- hypotheses of `C131_working_set_partial`: the step leads to the upper bound 3
example : KeepsActive (exChk 1 0 3) (exChkWs .inactive .upper) (1 / 10) ![1] 0 := by
  obtain ⟨b, b1, -, b2⟩ := C131_working_set_partial (exChk 1 0 3) exChkJac (exChkVec 1) (exChkVec 0) (exChkVec 1) (exChkVec 3)
    (exChkWs .inactive .upper) (1 / 10) (exChkVok _) (exChkVok _) (exChkVok _) (exChkVok _) (exChkDense _) (exChkDense _)
    (exChkDense _) exChkJac_wf rfl (exChkJac_value _ _ _)
  have e : inWorkingSet exChkJac (exChkVec 1) (exChkVec 0) (exChkVec 1) (exChkVec 3) (exChkWs .inactive .upper) (1 / 10) =
    some true := by decide +kernel
  rw [e] at b1
  obtain rfl := Option.some.inj b1
  have := b2 rfl 0 (by decide) (Or.inl (by norm_num [exChk]))
  rwa [exChkDense] at this

-- the same step is refused if the constraint is active at its lower bound
example : inWorkingSet exChkJac (exChkVec 1) (exChkVec 0) (exChkVec 1) (exChkVec 3) (exChkWs .inactive .lower) (1 / 10) =
    some false := by decide +kernel

/-- The check of a direction frees the vectors it created only if the direction is found valid: if the Jacobian part is
wrong one vector is lost, if the Hessian part is wrong two. -/
theorem C131_leak_violated :
    (exChkDir 3 1 2).check 1 1 (exChkVec 3) exChkJac exChkHp 0 (1 / 10 ^ 6) = some ⟨false, 1⟩ ∧
    (exChkDir 3 2 1).check 1 1 (exChkVec 3) exChkJac exChkHp 0 (1 / 10 ^ 6) = some ⟨false, 2⟩ := by
  constructor <;> decide +kernel

/-- The check that a step keeps the active constraints at their bounds leaves out constraints active at both bounds: a
step leading from the equality constraint `c(x) = 2` with value 2 to the value 4 is accepted. -/
theorem C131_equality_violated :
    inWorkingSet exChkJac (exChkVec 1) (exChkVec 2) (exChkVec 2) (exChkVec 2) (exChkWs .inactive .both) (1 / 10) = some true ∧
    ¬ KeepsActive (exChk 2 2 2) (exChkWs .inactive .both) (1 / 10) ![1] 0 := by
  refine ⟨by decide +kernel, fun h => ?_⟩
  have := h.1 (Or.inr rfl)
  norm_num [Close, exChk, mulVec, dotProduct] at this

/-- The check that a step stays in the working set never looks at the variables: its answer is the same for all
states of the variables, so a step moving a variable held at its bound is accepted. -/
theorem C131_variables_violated (jac : Mat K) (d lb c ub : Vec K) (w : WSet) (s : Nat → ActiveState) (eps : K) :
    inWorkingSet jac d lb c ub { w with varState := s } eps = inWorkingSet jac d lb c ub w eps ∧
    inWorkingSet exChkJac (exChkVec 1) (exChkVec 0) (exChkVec 1) (exChkVec 9) (exChkWs .lower .inactive) (1 / 10) = some true :=
  ⟨rfl, by decide +kernel⟩

end Sleqp
