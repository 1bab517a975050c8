import Verif.Lemmas.AmplProblem
import Verif.Props.FixedVar
import Mathlib.Tactic.IntervalCases

/-! C111: an AMPL model is handed to the solver with exactly its feasible set. -/

namespace Sleqp
open Finset
variable {K : Type*} [Field K] [LinearOrder K] [IsStrictOrderedRing K]

theorem bval_value (v : Vec K) (i : Nat) : bval 0 v i = v.value i := by
  unfold bval Vec.value valAt
  cases at? v.ents i <;> rfl

theorem boundsOk_iff {n : Nat} {lb ub : Vec K} : BoundsOk finBounds 0 n lb ub ↔ ∀ i < n, lb.value i ≤ ub.value i := by
  unfold BoundsOk
  refine forall_congr' fun i => imp_congr_right fun _ => ?_
  rw [bval_value, bval_value]
  show decide (lb.value i > ub.value i) = false ↔ _
  rw [decide_eq_false_iff_not]
  exact not_lt

theorem finBounds_ok : (finBounds (K := K)).Ok 0 := ⟨rfl, rfl, by show decide ((0 : K) > 0) = false; simp⟩

/-- C111 (part): for every AMPL model whose bounds are infinite or ordinary numbers (also those of the linear
constraints, once their constants are subtracted): if its bounds are consistent, a problem is created which has the
variables and constraints of the model, the linear ones with their coefficients, and a point is feasible for the problem
iff it is feasible for the model; if they are not, an illegal argument is reported.  Missing: finite bounds near or
beyond the representation of infinity or within the tolerance of zero, and large constants of linear constraints (see
`C111_feasible_violated`). -/
theorem C111_feasible_partial {d : AmplRead K} {aInf inf eps : K} (ha : inf / 2 ≤ aInf) (he : eps < inf / 2) (h0 : 0 ≤ eps)
    (hs : d.Sparse) {a : Nat → Nat → K} {c : Nat → K} (haff : d.Affine a c) (ht : d.Tame aInf inf eps c)
    (row : Nat → Nat) (val : Nat → K) :
    (d.Consistent → ∃ p, amplProblem aInf inf eps d row val = .ok p ∧ p.numVars = d.numVars ∧ p.numGen = d.numNonlin ∧
      p.numLin = d.numCons - d.numNonlin ∧
      (∀ i, d.numNonlin + i < d.numCons → ∀ j < d.numVars, p.coeffs.value i j = a (d.numNonlin + i) j) ∧
      ∀ y, p.FeasiblePt inf d.conVal y ↔ d.Feasible aInf y) ∧
    (¬ d.Consistent → amplProblem aInf inf eps d row val = .error .illegalArgument) := by
  have hnl := hs.nonlin
  obtain ⟨s, s1, s2, s3⟩ := scatter_spec hs
  have hord := ordered_spec hs s2 s3
  obtain ⟨vl, vl1, vl2, vl3⟩ := rawVec_spec (eps := eps) (n := d.numVars) (f := fun j => mapAmplInf aInf inf (d.varLb j))
    fun j hj => mapInf_keep_lb ha he h0 (ht.varLb j hj)
  obtain ⟨vu, vu1, vu2, vu3⟩ := rawVec_spec (eps := eps) (n := d.numVars) (f := fun j => mapAmplInf aInf inf (d.varUb j))
    fun j hj => mapInf_keep_ub ha he h0 (ht.varUb j hj)
  obtain ⟨gl, gl1, gl2, gl3⟩ := rawVec_spec (eps := eps) (n := d.numNonlin) (f := fun i => mapAmplInf aInf inf (d.consLb i))
    fun i hi => mapInf_keep_lb ha he h0 (ht.genLb i hi)
  obtain ⟨gu, gu1, gu2, gu3⟩ := rawVec_spec (eps := eps) (n := d.numNonlin) (f := fun i => mapAmplInf aInf inf (d.consUb i))
    fun i hi => mapInf_keep_ub ha he h0 (ht.genUb i hi)
  have hvle : BoundsOk finBounds 0 d.numVars vl vu ↔ ∀ j < d.numVars, d.varLb j ≤ d.varUb j := by
    rw [boundsOk_iff]
    refine forall_congr' fun j => forall_congr' fun hj => ?_
    rw [vl3 j hj, vu3 j hj]
    exact mapInf_le ha he h0 ((ht.varLb j hj).imp_right And.left) ((ht.varUb j hj).imp_right And.left)
  have hgle : BoundsOk finBounds 0 d.numNonlin gl gu ↔ ∀ i < d.numNonlin, d.consLb i ≤ d.consUb i := by
    rw [boundsOk_iff]
    refine forall_congr' fun j => forall_congr' fun hj => ?_
    rw [gl3 j hj, gu3 j hj]
    exact mapInf_le ha he h0 ((ht.genLb j hj).imp_right And.left) ((ht.genUb j hj).imp_right And.left)
  have hvar : ∀ y : Nat → K, ∀ j < d.numVars, RespectsBounds inf (vl.value j, vu.value j) (y j) ↔
      AmplWithin aInf (d.varLb j) (d.varUb j) (y j) := by
    intro y j hj
    rw [vl3 j hj, vu3 j hj]
    exact respects_iff ha he h0 ((ht.varLb j hj).imp_right And.left) ((ht.varUb j hj).imp_right And.left)
  have hgen : ∀ y : Nat → K, ∀ i < d.numNonlin, RespectsBounds inf (gl.value i, gu.value i) (d.conVal y i) ↔
      AmplWithin aInf (d.consLb i) (d.consUb i) (d.conVal y i) := by
    intro y i hi
    rw [gl3 i hi, gu3 i hi]
    exact respects_iff ha he h0 ((ht.genLb i hi).imp_right And.left) ((ht.genUb i hi).imp_right And.left)
  have hfin1 : ∀ v : Vec K, FiniteLb finBounds v := fun _ _ _ => rfl
  have hfin2 : ∀ v : Vec K, FiniteUb finBounds v := fun _ _ _ => rfl
  by_cases hlin : d.numCons - d.numNonlin > 0
  · obtain ⟨es, es1, es2, es3, es4⟩ := triplets_spec hs s2 s3
    obtain ⟨m, m1, m2, m3, m4, m5⟩ := C85_linear_coeffs (numNonlin := d.numNonlin) row val es3 es2
    -- the coefficients
    have hcoef : ∀ i, d.numNonlin + i < d.numCons → ∀ j < d.numVars, m.value i j = a (d.numNonlin + i) j := by
      intro i hi j hj
      obtain ⟨g1, g2⟩ := m5 i (by omega) j (by omega)
      by_cases hk : ∃ k, (k, j) ∈ d.cgrad (d.numNonlin + i)
      · obtain ⟨k, hk⟩ := hk
        rw [← haff.nonzero _ (by omega) hi k j hk]
        exact g1 _ ((es4 _ _ _).mpr ⟨k, (hs.bound _ hi _ hk).1, hi, hk, rfl⟩)
      · rw [haff.zero _ (by omega) hi j hj fun k hh => hk ⟨k, hh⟩]
        refine g2 fun v hv => ?_
        obtain ⟨k, _, _, h3, _⟩ := (es4 _ _ _).mp hv
        exact hk ⟨k, h3⟩
    have hsum : ∀ (n : Nat) (f : Nat → K), ((List.range n).map f).sum = ∑ i ∈ range n, f i := by
      intro n f
      induction n with
      | zero => rfl
      | succ n ih => rw [List.range_succ, List.map_append, List.sum_append, ih, Finset.sum_range_succ]; simp
    have hrow : ∀ i, d.numNonlin + i < d.numCons → ∀ y : Nat → K,
        ∑ j ∈ range d.numVars, m.value i j * y j = ∑ j ∈ range d.numVars, a (d.numNonlin + i) j * y j := by
      intro i hi y
      refine Finset.sum_congr rfl fun j hj => ?_
      rw [hcoef i hi j (Finset.mem_range.mp hj)]
    have hoff : ∀ i, d.numNonlin + i < d.numCons →
        amplLinearOffset m.value d.numVars (fun i => d.conVal d.x (d.numNonlin + i)) d.x i = c (d.numNonlin + i) := by
      intro i hi
      unfold amplLinearOffset
      rw [hsum, hrow i hi]
      show d.conVal d.x (d.numNonlin + i) - _ = _
      rw [haff.value _ (by omega) hi, add_sub_cancel_left]
    obtain ⟨sh, hsh⟩ : ∃ sh : Nat → K × K, sh = fun i => amplShiftBounds inf
        (amplLinearOffset m.value d.numVars (fun i => d.conVal d.x (d.numNonlin + i)) d.x i)
        (mapAmplInf aInf inf (d.consLb (d.numNonlin + i))) (mapAmplInf aInf inf (d.consUb (d.numNonlin + i))) := ⟨_, rfl⟩
    have hsh' : ∀ i, d.numNonlin + i < d.numCons → sh i = amplShiftBounds inf (c (d.numNonlin + i))
        (mapAmplInf aInf inf (d.consLb (d.numNonlin + i))) (mapAmplInf aInf inf (d.consUb (d.numNonlin + i))) := by
      intro i hi
      rw [hsh, ← hoff i hi]
    have hkeep : ∀ i, d.numNonlin + i < d.numCons → (|(sh i).1| ≤ eps → (sh i).1 = 0) ∧ (|(sh i).2| ≤ eps → (sh i).2 = 0) := by
      intro i hi
      rw [hsh' i hi]
      exact shift_keep ha he h0 (ht.const _ (by omega) hi) (ht.linLb _ (by omega) hi) (ht.linUb _ (by omega) hi)
    obtain ⟨ll, ll1, ll2, ll3⟩ := rawVec_spec (eps := eps) (n := d.numCons - d.numNonlin) (f := fun i => (sh i).1)
      fun i hi => (hkeep i (by omega)).1
    obtain ⟨lu, lu1, lu2, lu3⟩ := rawVec_spec (eps := eps) (n := d.numCons - d.numNonlin) (f := fun i => (sh i).2)
      fun i hi => (hkeep i (by omega)).2
    have hlle : BoundsOk finBounds 0 m.numRows ll lu ↔ ∀ i, d.numNonlin + i < d.numCons →
        d.consLb (d.numNonlin + i) ≤ d.consUb (d.numNonlin + i) := by
      rw [boundsOk_iff, m3]
      refine forall_congr' fun i => ?_
      have : ∀ hi : d.numNonlin + i < d.numCons, (ll.value i ≤ lu.value i ↔ d.consLb (d.numNonlin + i) ≤ d.consUb (d.numNonlin + i)) := by
        intro hi
        rw [ll3 i (by omega), lu3 i (by omega), hsh' i hi]
        exact shift_le ha he h0 (ht.const _ (by omega) hi) (ht.linLb _ (by omega) hi) (ht.linUb _ (by omega) hi)
      exact ⟨fun h hi => (this hi).mp (h (by omega)), fun h hi => (this (by omega)).mpr (h (by omega))⟩
    have heq : amplProblem aInf inf eps d row val =
        probCreate finBounds 0 d.numVars d.numNonlin vl vu gl gu m ll lu row val := by
      unfold amplProblem
      rw [s1]
      show (if amplOrdered d.numVars d.numCons d.nzc s = true then _ else _) = _
      rw [if_pos hord]
      show ((orAssert (rawVec eps d.numVars fun j => mapAmplInf aInf inf (d.varLb j))).bind _) = _
      rw [vl1]
      show ((orAssert (rawVec eps d.numVars fun j => mapAmplInf aInf inf (d.varUb j))).bind _) = _
      rw [vu1]
      show (if d.numCons - d.numNonlin > 0 then _ else _) = _
      rw [if_pos hlin, es1]
      show ((orAssert (amplLinearCoeffs d.numCons d.numNonlin d.numVars es row val)).bind _) = _
      rw [m1]
      show ((orAssert (rawVec eps d.numNonlin fun i => mapAmplInf aInf inf (d.consLb i))).bind _) = _
      rw [gl1]
      show ((orAssert (rawVec eps d.numNonlin fun i => mapAmplInf aInf inf (d.consUb i))).bind _) = _
      rw [gu1]
      subst hsh
      show ((orAssert (rawVec eps (d.numCons - d.numNonlin) fun i => (_ : K × K).1)).bind _) = _
      rw [ll1]
      show ((orAssert (rawVec eps (d.numCons - d.numNonlin) fun i => (_ : K × K).2)).bind _) = _
      rw [lu1]
      rfl
    obtain ⟨c1, c2⟩ := C42_create (o := finBounds) (zero := (0 : K)) finBounds_ok (coeffs := m) vl2 vu2 gl2 gu2
      (by rw [m3]; exact ll2) (by rw [m3]; exact lu2) m2 m4 (hfin1 _) (hfin2 _) (hfin1 _) (hfin2 _) (hfin1 _) (hfin2 _) row val
    have hcons : (BoundsOk finBounds 0 d.numVars vl vu ∧ BoundsOk finBounds 0 d.numNonlin gl gu ∧
        BoundsOk finBounds 0 m.numRows ll lu) ↔ d.Consistent := by
      rw [hvle, hgle, hlle]
      unfold AmplRead.Consistent
      constructor
      · rintro ⟨g1, g2, g3⟩
        refine ⟨g1, fun i hi => ?_⟩
        by_cases hi' : i < d.numNonlin
        · exact g2 i hi'
        · have := g3 (i - d.numNonlin) (by omega)
          rwa [show d.numNonlin + (i - d.numNonlin) = i by omega] at this
      · rintro ⟨g1, g2⟩
        exact ⟨g1, fun i hi => g2 i (by omega), fun i hi => g2 _ hi⟩
    rw [heq]
    refine ⟨fun hc => ?_, fun hc => c2 fun hh => hc (hcons.mp hh)⟩
    obtain ⟨p, p1, p2, p3, p4, p5, p6⟩ := c1 (hcons.mpr hc)
    obtain ⟨d1, d2, d3⟩ := p2.dims
    have hpc : ∀ i, ∀ j < d.numVars, p.coeffs.value i j = m.value i j := by
      intro i j hj
      unfold Mat.value
      exact valAt_congr (p6 i j hj)
    refine ⟨p, p1, d1, d2, by rw [d3, m3], fun i hi j hj => by rw [hpc i j hj]; exact hcoef i hi j hj, fun y => ?_⟩
    have e1 : ∀ j, p.varLb.value j = vl.value j := fun j => by
      have := p2.varLbOk.2 j
      rwa [bval_value, bval_value] at this
    have e2 : ∀ j, p.varUb.value j = vu.value j := fun j => by
      have := p2.varUbOk.2 j
      rwa [bval_value, bval_value] at this
    have e3 : ∀ i < d.numNonlin, p.consLb.value i = gl.value i := fun j hj => by
      have := p2.consLbOk.2.1 j hj
      rwa [bval_value, bval_value] at this
    have e4 : ∀ i < d.numNonlin, p.consUb.value i = gu.value i := fun j hj => by
      have := p2.consUbOk.2.1 j hj
      rwa [bval_value, bval_value] at this
    have e5 : ∀ i, p.consLb.value (d.numNonlin + i) = ll.value i := fun j => by
      have := p2.consLbOk.2.2 j
      rwa [bval_value, bval_value] at this
    have e6 : ∀ i, p.consUb.value (d.numNonlin + i) = lu.value i := fun j => by
      have := p2.consUbOk.2.2 j
      rwa [bval_value, bval_value] at this
    have hlinR : ∀ i, d.numNonlin + i < d.numCons →
        (RespectsBounds inf (p.consLb.value (d.numNonlin + i), p.consUb.value (d.numNonlin + i)) (p.consAt d.conVal y (d.numNonlin + i)) ↔
          AmplWithin aInf (d.consLb (d.numNonlin + i)) (d.consUb (d.numNonlin + i)) (d.conVal y (d.numNonlin + i))) := by
      intro i hi
      have hv : p.consAt d.conVal y (d.numNonlin + i) = ∑ j ∈ range d.numVars, a (d.numNonlin + i) j * y j := by
        unfold Prob.consAt
        rw [d2, if_neg (by omega), d1, Nat.add_sub_cancel_left, ← hrow i hi]
        exact Finset.sum_congr rfl fun j hj => by rw [hpc i j (Finset.mem_range.mp hj)]
      rw [e5, e6, ll3 i (by omega), lu3 i (by omega), hv, haff.value _ (by omega) hi, Prod.mk.eta, hsh' i hi]
      exact shift_respects ha he h0 (ht.const _ (by omega) hi) (ht.linLb _ (by omega) hi) (ht.linUb _ (by omega) hi)
    unfold Prob.FeasiblePt AmplRead.Feasible
    rw [d1, d2, d3, m3]
    refine and_congr (forall_congr' fun j => forall_congr' fun hj => ?_) ?_
    · rw [e1, e2]
      exact hvar y j hj
    · have hgenR : ∀ i < d.numNonlin, (RespectsBounds inf (p.consLb.value i, p.consUb.value i) (p.consAt d.conVal y i) ↔
          AmplWithin aInf (d.consLb i) (d.consUb i) (d.conVal y i)) := by
        intro i hi
        rw [e3 i hi, e4 i hi]
        unfold Prob.consAt
        rw [d2, if_pos hi]
        exact hgen y i hi
      have hall : ∀ i < d.numCons, (RespectsBounds inf (p.consLb.value i, p.consUb.value i) (p.consAt d.conVal y i) ↔
          AmplWithin aInf (d.consLb i) (d.consUb i) (d.conVal y i)) := by
        intro i hi
        by_cases hi' : i < d.numNonlin
        · exact hgenR i hi'
        · have := hlinR (i - d.numNonlin) (by omega)
          rwa [show d.numNonlin + (i - d.numNonlin) = i by omega] at this
      exact ⟨fun h i hi => (hall i hi).mp (h i (by omega)), fun h i hi => (hall i (by omega)).mpr (h i (by omega))⟩
  · have hnn : d.numNonlin = d.numCons := by omega
    have heq : amplProblem aInf inf eps d row val =
        probCreateSimple finBounds 0 d.numVars d.numNonlin vl vu gl gu row val := by
      unfold amplProblem
      rw [s1]
      show (if amplOrdered d.numVars d.numCons d.nzc s = true then _ else _) = _
      rw [if_pos hord]
      show ((orAssert (rawVec eps d.numVars fun j => mapAmplInf aInf inf (d.varLb j))).bind _) = _
      rw [vl1]
      show ((orAssert (rawVec eps d.numVars fun j => mapAmplInf aInf inf (d.varUb j))).bind _) = _
      rw [vu1]
      show (if d.numCons - d.numNonlin > 0 then _ else _) = _
      rw [if_neg hlin]
      rw [hnn] at gl1 gu1
      show ((orAssert (rawVec eps d.numCons fun i => mapAmplInf aInf inf (d.consLb i))).bind _) = _
      rw [gl1]
      show ((orAssert (rawVec eps d.numCons fun i => mapAmplInf aInf inf (d.consUb i))).bind _) = _
      rw [gu1]
      rfl
    obtain ⟨c1, c2⟩ := C42_create_simple (o := finBounds) (zero := (0 : K)) finBounds_ok vl2 vu2 gl2 gu2
      (hfin1 _) (hfin2 _) (hfin1 _) (hfin2 _) row val
    have hcons : (BoundsOk finBounds 0 d.numVars vl vu ∧ BoundsOk finBounds 0 d.numNonlin gl gu) ↔ d.Consistent := by
      rw [hvle, hgle, hnn]
      exact Iff.rfl
    rw [heq]
    refine ⟨fun hc => ?_, fun hc => c2 fun hh => hc (hcons.mp hh)⟩
    obtain ⟨p, p1, p2⟩ := c1 (hcons.mpr hc)
    obtain ⟨d1, d2, d3⟩ := p2.dims
    refine ⟨p, p1, d1, d2, by omega, fun i hi => by omega, fun y => ?_⟩
    have e1 : ∀ j, p.varLb.value j = vl.value j := fun j => by
      have := p2.varLbOk.2 j
      rwa [bval_value, bval_value] at this
    have e2 : ∀ j, p.varUb.value j = vu.value j := fun j => by
      have := p2.varUbOk.2 j
      rwa [bval_value, bval_value] at this
    have e3 : ∀ i < d.numNonlin, p.consLb.value i = gl.value i := fun j hj => by
      have := p2.consLbOk.2.1 j hj
      rwa [bval_value, bval_value] at this
    have e4 : ∀ i < d.numNonlin, p.consUb.value i = gu.value i := fun j hj => by
      have := p2.consUbOk.2.1 j hj
      rwa [bval_value, bval_value] at this
    unfold Prob.FeasiblePt AmplRead.Feasible
    rw [d1, d2, d3, Nat.add_zero, ← hnn]
    refine and_congr (forall_congr' fun j => forall_congr' fun hj => ?_) (forall_congr' fun i => forall_congr' fun hi => ?_)
    · rw [e1, e2]
      exact hvar y j hj
    · rw [e3 i hi, e4 i hi]
      unfold Prob.consAt
      rw [d2, if_pos hi]
      exact hgen y i hi

/-! ### The hypotheses are met -/

/-- The model with variables `x ≥ 0` and `y`, the constraints `x^2 ≤ 4` and `1 ≤ 2 x + 3 y + 5 ≤ 7`, read at the point
`(1, 1)`; the infinity of the ASL is `1000`. -/
def exAmpl : AmplRead ℚ where
  numVars := 2
  numCons := 2
  numNonlin := 1
  nzc := 3
  varLb := fun j => if j = 0 then 0 else -1000
  varUb := fun _ => 1000
  consLb := fun i => if i = 0 then -1000 else 1
  consUb := fun i => if i = 0 then 4 else 7
  x := fun _ => 1
  cgrad := fun i => if i = 0 then [(0, 0)] else [(2, 1), (1, 0)]
  conVal := fun y i => if i = 0 then y 0 * y 0 else 2 * y 0 + 3 * y 1 + 5
  jacVal := fun y k => if k = 0 then 2 * y 0 else if k = 1 then 2 else 3

/-- its linear coefficients -/
def exAmplCoeffs (_ j : Nat) : ℚ := if j = 0 then 2 else 3

theorem exAmpl_sparse : exAmpl.Sparse where
  nonlin := by decide
  bound := by
    intro i hi
    have hi : i < 2 := hi
    interval_cases i <;> decide
  cover := by
    intro k hk
    have hk : k < 3 := hk
    interval_cases k
    · exact ⟨0, by decide, 0, by decide⟩
    · exact ⟨1, by decide, 0, by decide⟩
    · exact ⟨1, by decide, 1, by decide⟩
  order := by
    intro i hi i' hi'
    have hi : i < 2 := hi
    have hi' : i' < 2 := hi'
    interval_cases i <;> interval_cases i' <;> decide
  one := by
    intro i hi i' hi'
    have hi : i < 2 := hi
    have hi' : i' < 2 := hi'
    interval_cases i <;> interval_cases i' <;> decide

theorem exAmpl_affine : exAmpl.Affine exAmplCoeffs fun _ => 5 where
  value := by
    intro i h1 h2 y
    have h1 : 1 ≤ i := h1
    have h2 : i < 2 := h2
    obtain rfl : i = 1 := by omega
    show 2 * y 0 + 3 * y 1 + 5 = ∑ j ∈ range 2, exAmplCoeffs 1 j * y j + 5
    rw [Finset.sum_range_succ, Finset.sum_range_succ, Finset.sum_range_zero]
    show _ = 0 + 2 * y 0 + 3 * y 1 + 5
    rw [zero_add]
  nonzero := by
    intro i h1 h2 k j hk
    have h1 : 1 ≤ i := h1
    have h2 : i < 2 := h2
    obtain rfl : i = 1 := by omega
    have hk : (k, j) ∈ [(2, 1), (1, 0)] := hk
    simp only [List.mem_cons, Prod.mk.injEq, List.not_mem_nil, or_false] at hk
    rcases hk with ⟨rfl, rfl⟩ | ⟨rfl, rfl⟩ <;> decide +kernel
  zero := by
    intro i h1 h2 j hj hk
    have h1 : 1 ≤ i := h1
    have h2 : i < 2 := h2
    have hj : j < 2 := hj
    obtain rfl : i = 1 := by omega
    interval_cases j
    · exact absurd (by decide) (hk 1)
    · exact absurd (by decide) (hk 2)

theorem exAmpl_tame : exAmpl.Tame 1000 100 0 fun _ => 5 := by
  have hlin : ∀ i, exAmpl.numNonlin ≤ i → i < exAmpl.numCons → i = 1 := by
    intro i h1 h2
    have h1 : 1 ≤ i := h1
    have h2 : i < 2 := h2
    omega
  refine ⟨?_, ?_, ?_, ?_, ?_, ?_, ?_⟩
  · intro j hj
    have hj : j < 2 := hj
    interval_cases j
    · exact Or.inr ⟨by decide +kernel, by decide +kernel⟩
    · exact Or.inl (by decide +kernel)
  · exact fun j _ => Or.inl rfl
  · intro i hi
    have hi : i < 1 := hi
    interval_cases i
    exact Or.inl (by decide +kernel)
  · intro i hi
    have hi : i < 1 := hi
    interval_cases i
    exact Or.inr ⟨by decide +kernel, by decide +kernel⟩
  · intro i h1 h2
    obtain rfl := hlin i h1 h2
    exact Or.inr ⟨by decide +kernel, by decide +kernel, by decide +kernel⟩
  · intro i h1 h2
    obtain rfl := hlin i h1 h2
    exact Or.inr ⟨by decide +kernel, by decide +kernel, by decide +kernel⟩
  · intro i h1 h2
    decide +kernel

/-- The problem created from it has a linear constraint `-4 ≤ 2 x + 3 y ≤ 2`. -/
example : ((amplProblem 1000 100 0 exAmpl (fun _ => 0) fun _ => 0).toOption.map fun p =>
    (p.numGen, p.numLin, p.coeffs.value 0 0, p.coeffs.value 0 1, p.linLb.value 0, p.linUb.value 0)) = some (1, 1, 2, 3, -4, 2) := by
  decide +kernel

example : ∃ p, amplProblem 1000 100 0 exAmpl (fun _ => 0) (fun _ => 0) = .ok p ∧
    ∀ y, p.FeasiblePt 100 exAmpl.conVal y ↔ exAmpl.Feasible 1000 y := by
  obtain ⟨p, h1, _, _, _, _, h2⟩ := (C111_feasible_partial (by decide +kernel) (by decide +kernel) (le_refl _) exAmpl_sparse
    exAmpl_affine exAmpl_tame (fun _ => 0) fun _ => 0).1 ⟨by
      intro j hj
      have hj : j < 2 := hj
      interval_cases j <;> decide +kernel, by
      intro j hj
      have hj : j < 2 := hj
      interval_cases j <;> decide +kernel⟩
  exact ⟨p, h1, h2⟩

/-- The model with the variable `x` and the constraint `x + 80 ≥ 1` without an upper bound. -/
def exAmplShift : AmplRead ℚ where
  numVars := 1
  numCons := 1
  numNonlin := 0
  nzc := 1
  varLb := fun _ => -1000
  varUb := fun _ => 1000
  consLb := fun _ => 1
  consUb := fun _ => 1000
  x := fun _ => 0
  cgrad := fun _ => [(0, 0)]
  conVal := fun y _ => y 0 + 80
  jacVal := fun _ _ => 1

/-- C111 is violated: the constant of a linear constraint is subtracted from an upper bound which is infinite (the test
compares the upper bound to minus infinity), so that for constants above half of the number representing infinity (`1e100`) a finite upper bound results: the model is
feasible at a point, the problem created from it is not. -/
theorem C111_feasible_violated : ¬ ∀ (d : AmplRead ℚ) (aInf inf : ℚ) (c : Nat → ℚ) (a : Nat → Nat → ℚ) (p : Prob ℚ) (y : Nat → ℚ),
    0 < inf → inf ≤ aInf → d.Sparse → d.Affine a c → (∀ i, |c i| < inf) →
    (∀ i < d.numCons, (d.consLb i = -aInf ∨ |d.consLb i| < inf / 2) ∧ (d.consUb i = aInf ∨ |d.consUb i| < inf / 2)) →
    amplProblem aInf inf 0 d (fun _ => 0) (fun _ => 0) = .ok p → d.Feasible aInf y → p.FeasiblePt inf d.conVal y := by
  intro h
  rcases hp : amplProblem 1000 100 0 exAmplShift (fun _ => 0) (fun _ => 0) with e | p
  · have : (amplProblem 1000 100 0 exAmplShift (fun _ => 0) (fun _ => 0)).toOption.isSome = true := by decide +kernel
    rw [hp] at this
    cases this
  · have hv : ((amplProblem 1000 100 0 exAmplShift (fun _ => 0) (fun _ => 0)).toOption.map fun p =>
        (p.numVars, p.numGen, p.numLin)) = some (1, 0, 1) := by decide +kernel
    have hw : ((amplProblem 1000 100 0 exAmplShift (fun _ => 0) (fun _ => 0)).toOption.map fun p =>
        (p.consUb.value 0, p.coeffs.value 0 0)) = some (20, 1) := by decide +kernel
    rw [hp] at hv hw
    obtain ⟨v1, v2⟩ := Prod.mk.inj (Option.some.inj hv)
    obtain ⟨v2, v3⟩ := Prod.mk.inj v2
    obtain ⟨w1, w2⟩ := Prod.mk.inj (Option.some.inj hw)
    have hs : exAmplShift.Sparse := by
      refine ⟨by decide, ?_, ?_, ?_, ?_⟩
      · intro i hi cg hc
        have hc : cg ∈ [(0, 0)] := hc
        rw [List.mem_singleton] at hc
        rw [hc]
        exact ⟨(by decide : 0 < 1), (by decide : 0 < 1)⟩
      · intro k hk
        have hk : k < 1 := hk
        interval_cases k
        exact ⟨0, by decide, 0, by decide⟩
      · intro i hi i' hi' cg hc cg' hc' hlt
        have hc : cg ∈ [(0, 0)] := hc
        have hc' : cg' ∈ [(0, 0)] := hc'
        rw [List.mem_singleton] at hc hc'
        rw [hc, hc'] at hlt
        exact absurd hlt (by decide)
      · intro i hi i' hi' cg hc cg' hc' _
        have hc : cg ∈ [(0, 0)] := hc
        have hc' : cg' ∈ [(0, 0)] := hc'
        have hi : i < 1 := hi
        have hi' : i' < 1 := hi'
        rw [List.mem_singleton] at hc hc'
        exact ⟨by omega, by rw [hc, hc']⟩
    have haff : exAmplShift.Affine (fun _ _ => 1) fun _ => 80 := by
      refine ⟨?_, fun _ _ _ _ _ _ => rfl, ?_⟩
      · intro i _ _ y
        show y 0 + 80 = ∑ j ∈ range 1, 1 * y j + 80
        rw [Finset.sum_range_one, one_mul]
      · intro i _ _ j hj hk
        have hj : j < 1 := hj
        interval_cases j
        exact absurd (show (0, 0) ∈ [(0, 0)] by decide) (hk 0)
    have hf := (h exAmplShift 1000 100 (fun _ => 80) (fun _ _ => 1) p (fun _ => 30) (by decide +kernel) (by decide +kernel) hs haff
      (fun _ => by decide +kernel) (fun _ _ => ⟨Or.inr (show |(1 : ℚ)| < 100 / 2 by decide +kernel), Or.inl rfl⟩) hp
      ⟨fun _ _ => ⟨Or.inl rfl, Or.inl rfl⟩,
        fun _ _ => ⟨Or.inr (show (1 : ℚ) ≤ 30 + 80 by decide +kernel), Or.inl rfl⟩⟩).2 0 (by omega)
    have hc : p.consAt exAmplShift.conVal (fun _ => 30) 0 = 30 := by
      unfold Prob.consAt
      rw [v1, v2, if_neg (by decide), Finset.sum_range_one, w2]
      decide +kernel
    have := hf.2
    rw [hc, w1] at this
    exact absurd (this (show (20 : ℚ) < 100 / 2 by decide +kernel)) (show ¬ (30 : ℚ) ≤ 20 by decide +kernel)

end Sleqp
