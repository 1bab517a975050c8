import Verif.Lemmas.Python
import Verif.Props.MexProblem
import Verif.Props.Mat

/-! C99: arrays, matrices and problems given from Python. -/

namespace Sleqp

section
variable {V : Type*} [DecidableEq V]

theorem pyToVec_ok (zero : V) (a : List V) (v : Vec V) (h : a.length = v.dim) :
    ∃ c, pyToVec zero (some a) v = .ok ⟨v.dim, c, pyNonzeros zero a⟩ ∧ PyHolds zero a ⟨v.dim, c, pyNonzeros zero a⟩ := by
  obtain ⟨s0, b0⟩ := zipIdx_srt a 0
  have hs : Srt (pyNonzeros zero a) := srt_filter _ s0
  have hb : ∀ e ∈ pyNonzeros zero a, e.1 < v.dim := fun e he => by
    have := (b0 e (List.mem_filter.mp he).1).2
    omega
  have hl : (pyNonzeros zero a).length ≤ a.length := (List.length_filter_le _ _).trans (by simp)
  have hp := Vec.pushAll_ok (v.clear.reserve a.length) (pyNonzeros zero a) (by simpa [Vec.clear, Vec.reserve] using hs)
    (by simpa [Vec.clear, Vec.reserve] using hb) (by simp [Vec.clear, Vec.reserve]; omega)
  refine ⟨max v.cap a.length, ?_, ⟨hs, hb, by show (pyNonzeros zero a).length ≤ max v.cap a.length; omega⟩, h.symm, ?_⟩
  · show MexRes.ofOption _ = _
    rw [hp]
    simp [Vec.clear, Vec.reserve, MexRes.ofOption]
  · intro i hi
    show (at? (pyNonzeros zero a) i).getD zero = _
    unfold pyNonzeros
    rw [at?_nonzeros zero s0, zipIdx_at', List.getD_eq_getElem?_getD]

/-- C99: an array of the right length becomes the vector of its numbers, whatever the vector held before and however little space it had; zeros are
not stored. -/
theorem C99_vector (zero : V) (a : List V) (v : Vec V) (h : a.length = v.dim) :
    ∃ w, pyToVec zero (some a) v = .ok w ∧ PyHolds zero a w ∧ ∀ e ∈ w.ents, e.2 ≠ zero := by
  obtain ⟨c, h1, h2⟩ := pyToVec_ok zero a v h
  refine ⟨_, h1, h2, fun e he => ?_⟩
  simpa using (List.mem_filter.mp he).2

example : ∃ w, pyToVec (0 : ℚ) (some [3, 0, 4]) ⟨3, 1, [(2, 8)]⟩ = .ok w ∧ w.ents = [(0, 3), (2, 4)] :=
  ⟨⟨3, 3, [(0, 3), (2, 4)]⟩, by rfl, rfl⟩

theorem foldl_set (l : List (Nat × V)) (hs : Srt l) (zero : V) : ∀ (a : List V), (∀ e ∈ l, e.1 < a.length) → ∀ i < a.length,
    (l.foldl (fun a e => a.set e.1 e.2) a).length = a.length ∧
    (l.foldl (fun a e => a.set e.1 e.2) a).getD i zero = (at? l i).getD (a.getD i zero) := by
  induction l with
  | nil => intro a _ i _; exact ⟨rfl, rfl⟩
  | cons e t ih =>
    intro a hb i hi
    obtain ⟨h1, h2⟩ := srt_cons.mp hs
    obtain ⟨g1, g2⟩ := ih h2 (a.set e.1 e.2) (fun x hx => by simpa using hb x (by simp [hx])) i (by simpa using hi)
    refine ⟨by rw [List.foldl_cons, g1]; simp, ?_⟩
    rw [List.foldl_cons, g2, at?_cons]
    by_cases he : e.1 = i
    · have : at? t i = none := at?_none_of_forall fun x hx => by have := h1 x hx; omega
      rw [this, if_pos he]
      subst he
      simp [List.getD_eq_getElem?_getD, hi]
    · rw [if_neg he]
      congr 1
      simp [List.getD_eq_getElem?_getD, List.getElem?_set, he]

/-- C99: the arrays handed to Python have exactly the numbers of the vector (here the way back from `C99_vector`). -/
theorem C99_array (zero : V) (v : Vec V) (hv : v.WF) :
    (pyFromVec zero v).length = v.dim ∧ ∀ i < v.dim, (pyFromVec zero v).getD i zero = (at? v.ents i).getD zero := by
  have hb : ∀ e ∈ v.ents, e.1 < (List.replicate v.dim zero).length := fun e he => by simpa using hv.lt_dim e he
  have key := fun i (hi : i < v.dim) => foldl_set v.ents hv.srt zero (List.replicate v.dim zero) hb i (by simpa using hi)
  constructor
  · by_cases h : 0 < v.dim
    · have := (key 0 h).1
      simpa [pyFromVec] using this
    · have hd : v.dim = 0 := by omega
      have he : v.ents = [] := by
        rcases hl : v.ents with _ | ⟨e, t⟩
        · rfl
        · have := hv.lt_dim e (by rw [hl]; simp)
          omega
      simp [pyFromVec, he]
  · intro i hi
    have := (key i hi).2
    unfold pyFromVec
    rw [this]
    simp [List.getD_eq_getElem?_getD, hi]

example : pyFromVec (0 : ℚ) ⟨3, 3, [(0, 3), (2, 4)]⟩ = [3, 0, 4] := by decide +kernel

/-- C99: an array returned by the callbacks for the gradient, the constraint values and the products with the Hessian is taken over exactly if it has
the right length; everything else is an exception, nothing is undefined. -/
theorem C99_callbacks (zero : V) (n : Nat) (a : Option (List V)) (v : Vec V) (hv : v.dim = n) :
    (∀ l, a = some l → l.length = n → ∃ w, pyChecked zero n a v = .ok w ∧ PyHolds zero l w) ∧
    ((∀ l, a = some l → l.length ≠ n) → pyChecked zero n a v = .err) := by
  constructor
  · rintro l rfl hl
    obtain ⟨w, h1, h2, _⟩ := C99_vector zero l v (hl.trans hv.symm)
    refine ⟨w, ?_, h2⟩
    show (if l.length = n then _ else _) = _
    rw [if_pos hl]
    exact h1
  · intro h
    match a with
    | none => rfl
    | some l =>
      show (if l.length = n then _ else _) = _
      rw [if_neg (h l rfl)]

example : pyChecked (0 : ℚ) 2 (some [1]) (Vec.create 2 0) = .err :=
  (C99_callbacks (0 : ℚ) 2 (some [1]) (Vec.create 2 0) rfl).2 (by rintro l h; cases h; decide)

/-- C99: a dense matrix, or a sparse one with its columns in order, becomes a matrix with exactly the same entries, however little space was there; a
matrix of the wrong shape is refused. -/
theorem C99_matrix_partial (zero : V) (a : PyMat V) (m : Mat V) (hm : m.Blank) :
    (a.Ordered → a.rows = m.numRows → a.cols = m.numCols →
      ∃ m', pyToMat zero a m = .ok m' ∧ m'.WF ∧ m'.numRows = m.numRows ∧ m'.numCols = m.numCols ∧
        ∀ i < m.numRows, ∀ j < m.numCols, (m'.at? i j).getD zero = a.get zero i j) ∧
    (¬ (a.rows = m.numRows ∧ a.cols = m.numCols) → pyToMat zero a m = .err) := by
  obtain ⟨m0, m1⟩ := hm
  constructor
  · intro ho hr hc
    by_cases he : m.numRows = 0 ∨ m.numCols = 0
    · have hcol : ∀ j < m.numCols, m.col j = [] := by
        intro j hj
        unfold Mat.col
        rw [m1 j (by omega), m1 (j + 1) (by omega)]
        rfl
      refine ⟨m, ?_, ⟨m1 0 (by omega), fun j hj => by rw [m1 j (by omega), m1 (j + 1) (by omega)], by rw [m1 _ le_rfl, m0], by omega,
        fun j hj => by rw [hcol j hj]; simp [Srt], fun j hj => by rw [hcol j hj]; simp⟩, rfl, rfl, fun i hi j hj => by omega⟩
      unfold pyToMat
      rw [if_pos ⟨hr, hc⟩, if_pos he]
    · set cs := (List.range a.cols).map (a.col zero) with hcs
      have hlen : cs.length = m.numCols := by rw [hcs]; simp [hc]
      have hrow : ∀ c ∈ cs, ∀ e ∈ c, e.1 < m.numRows := by
        intro c hc' e he'
        obtain ⟨j, hj, rfl⟩ := List.mem_map.mp hc'
        rw [← hr]
        exact (col_srt zero ho (List.mem_range.mp hj)).2.1 e he'
      obtain ⟨m', h1, h2, h3⟩ := pyLoop_spec (C := max m.cap (a.bound zero)) (bound := a.bound zero) cs 0 m 0 ⟨rfl, by omega⟩
        (by rw [m0, Nat.zero_add]; exact bound_ok zero a) hrow (by omega)
      obtain ⟨m2, g1, g2, g3, g4, g5, g6⟩ := Mat.assemble_wf (setCap (max m.cap (a.bound zero)) m) cs (m1 0 (by omega)) m0 hlen
        (by
          intro c hc'
          obtain ⟨j, hj, rfl⟩ := List.mem_map.mp hc'
          exact (col_srt zero ho (List.mem_range.mp hj)).1)
        hrow (by
          have := bound_ok zero a
          rw [← hcs] at this
          show _ ≤ max m.cap (a.bound zero)
          omega)
      have h3' : (setCap (max m.cap (a.bound zero)) m).assembleFrom 0 cs = some (setCap (max m.cap (a.bound zero)) m') := h3
      rw [g1] at h3'
      obtain rfl : m2 = _ := Option.some.inj h3'
      refine ⟨m', ?_, ⟨g2.ptr_zero, g2.ptr_mono, g2.ptr_last, h2, g2.srt, g2.lt_rows⟩, g3, g4, ?_⟩
      · unfold pyToMat
        rw [if_pos ⟨hr, hc⟩, if_neg he, entries_eq, ← hcs]
        rw [h1]
        rfl
      · intro i hi j hj
        have hcol : m'.col j = cs[j]'(by omega) := g6 j (by omega)
        show (at? (m'.col j) i).getD zero = _
        rw [hcol]
        simp only [hcs, List.getElem_map, List.getElem_range]
        exact (col_srt zero ho (by omega)).2.2 i (by omega)
  · intro h
    unfold pyToMat
    rw [if_neg h]

end

/-- the matrix with rows `1 0 2` and `0 0 3` -/
def exPyDense : PyMat ℚ := .dense 2 3 fun i j => if i = 0 then (if j = 0 then 1 else if j = 2 then 2 else 0) else if j = 2 then 3 else 0

example : ∃ m', pyToMat 0 exPyDense (Mat.create 2 3 0 (fun _ => 0) fun _ => 7) = .ok m' ∧ (m'.at? 1 2).getD 0 = 3 := by
  obtain ⟨m', h1, _, _, _, h2⟩ := (C99_matrix_partial 0 exPyDense (Mat.create 2 3 0 (fun _ => 0) fun _ => 7) ⟨rfl, fun _ _ => rfl⟩).1
    trivial rfl rfl
  exact ⟨m', h1, (h2 1 (by decide) 2 (by decide)).trans (by decide +kernel)⟩

/-- the outcome is a matrix which the library accepts -/
def pyAccepted (r : MexRes (Mat ℚ)) : Bool :=
  match r with
  | .ok m => m.isValid
  | _ => false

/-- C99 is violated: SciPy does not keep the columns of a sparse matrix in order (the product of two sparse matrices is an example), and neither sorts
nor needs them. The conversion copies the elements as they are: a legitimate Jacobian, here the column `(5, 6)` stored from below, becomes a
matrix which the library rejects as invalid. -/
theorem C99_unsorted_violated :
    ∃ s : Mat ℚ, s.numRows = 2 ∧ s.numCols = 1 ∧ (PyMat.csc s).get 0 0 0 = 5 ∧ (PyMat.csc s).get 0 1 0 = 6 ∧
      pyAccepted (pyToMat 0 (.csc s) (Mat.create 2 1 2 (fun _ => 0) fun _ => 0)) = false :=
  ⟨⟨2, 1, 2, 2, fun j => if j = 0 then 0 else 2, fun k => if k = 0 then 1 else 0, fun k => if k = 0 then 6 else 5⟩,
    rfl, rfl, by decide +kernel, by decide +kernel, by decide +kernel⟩

/-- C99 is violated: the residuals of a least-squares problem (as well as its products with the Jacobian) are not checked as the other results are. A
callback without a `return`, or one which returns too few residuals, is understood as zero residuals; too many are written past the
dimension of the vector. -/
theorem C99_residuals_violated :
    pyResiduals (0 : ℚ) none ⟨2, 2, []⟩ = .ok ⟨2, 2, []⟩ ∧ pyResiduals (0 : ℚ) (some [3]) ⟨2, 2, []⟩ = .ok ⟨2, 2, [(0, 3)]⟩ ∧
      pyLsqProduct (0 : ℚ) (some [3]) ⟨2, 2, []⟩ = .ok ⟨2, 2, [(0, 3)]⟩ ∧
      pyResiduals (0 : ℚ) (some [3, 4, 5]) ⟨2, 2, []⟩ = .undef := ⟨rfl, rfl, rfl, rfl⟩

/-- C99 is violated: the length of the starting point is not checked. A shorter one is filled up with zeros, a longer one is written past the
dimension of the vector. -/
theorem C99_start_violated :
    pyStart 2 [(1 : ℚ)] = .ok ⟨2, 1, [(0, 1)]⟩ ∧ pyStart 2 [(1 : ℚ), 2, 3] = .undef := ⟨rfl, rfl⟩

section
variable {K : Type*} [Field K] [LinearOrder K] [IsStrictOrderedRing K]

theorem pyBounds_lower {inf : K} {n : Nat} {l : List (Ext K)} (h : BoundArr n .pinf l) :
    ∃ v, pyToVec (.fin 0) (some l) (Vec.create n 0) = .ok v ∧ VOk n v ∧ FiniteLb (extBounds inf) v ∧
      ∀ i < n, (extBounds inf).convLb (bval (.fin 0) v i) = lowerAt inf (some l) i := by
  obtain ⟨rfl, hnan, hbad⟩ := h
  obtain ⟨c, h1, h2, h3, h4⟩ := pyToVec_ok (.fin 0) l (Vec.create l.length 0) rfl
  have hmem : ∀ e ∈ pyNonzeros (.fin 0) l, e.2 ∈ l := fun e he => by
    obtain ⟨p, hp, rfl⟩ := List.mem_map.mp (List.mem_filter.mp he).1
    exact List.fst_mem_of_mem_zipIdx hp
  refine ⟨_, h1, ⟨h2, h3⟩, (C42_finite ?_).1 ?_, fun i hi => ?_⟩
  · exact fun e he hh => hnan (hh ▸ hmem e he)
  · exact fun e he hh => hbad (hh ▸ hmem e he)
  · show (extBounds inf).convLb ((at? _ i).getD (.fin 0)) = _
    rw [h4 i hi]
    show (if l.getD i (.fin 0) = .ninf then _ else _) = (if l[i]? = some .ninf then _ else _)
    rw [List.getD_eq_getElem?_getD, List.getElem?_eq_getElem hi]
    simp

theorem pyBounds_upper {inf : K} {n : Nat} {l : List (Ext K)} (h : BoundArr n .ninf l) :
    ∃ v, pyToVec (.fin 0) (some l) (Vec.create n 0) = .ok v ∧ VOk n v ∧ FiniteUb (extBounds inf) v ∧
      ∀ i < n, (extBounds inf).convUb (bval (.fin 0) v i) = upperAt inf (some l) i := by
  obtain ⟨rfl, hnan, hbad⟩ := h
  obtain ⟨c, h1, h2, h3, h4⟩ := pyToVec_ok (.fin 0) l (Vec.create l.length 0) rfl
  have hmem : ∀ e ∈ pyNonzeros (.fin 0) l, e.2 ∈ l := fun e he => by
    obtain ⟨p, hp, rfl⟩ := List.mem_map.mp (List.mem_filter.mp he).1
    exact List.fst_mem_of_mem_zipIdx hp
  refine ⟨_, h1, ⟨h2, h3⟩, (C42_finite ?_).2 ?_, fun i hi => ?_⟩
  · exact fun e he hh => hnan (hh ▸ hmem e he)
  · exact fun e he hh => hbad (hh ▸ hmem e he)
  · show (extBounds inf).convUb ((at? _ i).getD (.fin 0)) = _
    rw [h4 i hi]
    show (if l.getD i (.fin 0) = .pinf then _ else _) = (if l[i]? = some .pinf then _ else _)
    rw [List.getD_eq_getElem?_getD, List.getElem?_eq_getElem hi]
    simp

/-- no lower bound exceeds its upper bound -/
def PyBoundsOk (inf : K) (lb ub : List (Ext K)) : Prop := ∀ i < lb.length, (lowerAt inf (some lb) i).gt (upperAt inf (some ub) i) = false

/-- the bounds of the problem are the given ones -/
def PyBoundsAre (inf : K) (lb ub : List (Ext K)) (l u : Vec (Ext K)) (off : Nat) : Prop :=
  ∀ i < lb.length, bval (.fin 0) l (off + i) = lowerAt inf (some lb) i ∧ bval (.fin 0) u (off + i) = upperAt inf (some ub) i

/-- C99 (in part): from arrays of bounds of matching lengths, and a matrix of linear constraints with its columns in order, the problem has exactly
these bounds, general constraints first, and these coefficients; contradicting bounds raise an exception. Missing: arrays of different lengths and
linear constraints with one of their bounds left out, see below. -/
theorem C99_problem_partial (inf : K) (varLb varUb genLb genUb linLb linUb : List (Ext K)) (a : PyMat (Ext K))
    (h1 : BoundArr varLb.length .pinf varLb) (h2 : BoundArr varLb.length .ninf varUb) (h3 : BoundArr genLb.length .pinf genLb)
    (h4 : BoundArr genLb.length .ninf genUb) (h5 : BoundArr a.rows .pinf linLb) (h6 : BoundArr a.rows .ninf linUb)
    (ha : a.Ordered) (hc : a.cols = varLb.length) (row row' : Nat → Nat) (val val' : Nat → Ext K) :
    (PyBoundsOk inf varLb varUb ∧ PyBoundsOk inf genLb genUb ∧ PyBoundsOk inf linLb linUb →
      ∃ p, pyProblem inf varLb varUb genLb genUb (some a) (some linLb) (some linUb) row row' val val' = .ok p ∧
        p.numVars = varLb.length ∧ p.numGen = genLb.length ∧ p.numLin = a.rows ∧
        PyBoundsAre inf varLb varUb p.varLb p.varUb 0 ∧ PyBoundsAre inf genLb genUb p.consLb p.consUb 0 ∧
        PyBoundsAre inf linLb linUb p.consLb p.consUb genLb.length ∧
        ∀ i < a.rows, ∀ j < a.cols, (p.coeffs.at? i j).getD (.fin 0) = a.get (.fin 0) i j) ∧
    (¬ (PyBoundsOk inf varLb varUb ∧ PyBoundsOk inf genLb genUb ∧ PyBoundsOk inf linLb linUb) →
      pyProblem inf varLb varUb genLb genUb (some a) (some linLb) (some linUb) row row' val val' = .err) := by
  obtain ⟨v1, a1, b1, c1, d1⟩ := pyBounds_lower (inf := inf) h1
  obtain ⟨v2, a2, b2, c2, d2⟩ := pyBounds_upper (inf := inf) h2
  obtain ⟨v3, a3, b3, c3, d3⟩ := pyBounds_lower (inf := inf) h3
  obtain ⟨v4, a4, b4, c4, d4⟩ := pyBounds_upper (inf := inf) h4
  obtain ⟨v5, a5, b5, c5, d5⟩ := pyBounds_lower (inf := inf) h5
  obtain ⟨v6, a6, b6, c6, d6⟩ := pyBounds_upper (inf := inf) h6
  obtain ⟨m', m1, m2, m3, m4, m5⟩ := (C99_matrix_partial (.fin 0) a (Mat.create a.rows varLb.length 0 row' val') ⟨rfl, fun _ _ => rfl⟩).1 ha rfl hc
  have r3 : m'.numRows = a.rows := m3
  rw [← r3] at b5 b6
  obtain ⟨g1, g2⟩ := C42_create (extBounds_ok (inf := inf)) b1 b2 b3 b4 b5 b6 m2 m4 c1 c2 c3 c4 c5 c6 row val
  have heq : pyProblem inf varLb varUb genLb genUb (some a) (some linLb) (some linUb) row row' val val' =
      MexRes.ofExcept (probCreate (extBounds inf) (.fin 0) varLb.length genLb.length v1 v2 v3 v4 m' v5 v6 row val) := by
    unfold pyProblem
    simp only
    rw [a1, a2, a3, a4, a5, a6, m1]
    rfl
  have hl5 : linLb.length = a.rows := h5.1
  have e1 : PyBoundsOk inf varLb varUb ↔ BoundsOk (extBounds inf) (.fin 0) varLb.length v1 v2 := by
    refine forall₂_congr fun i hi => ?_
    rw [d1 i hi, d2 i hi]; rfl
  have e2 : PyBoundsOk inf genLb genUb ↔ BoundsOk (extBounds inf) (.fin 0) genLb.length v3 v4 := by
    refine forall₂_congr fun i hi => ?_
    rw [d3 i hi, d4 i hi]; rfl
  have e3 : PyBoundsOk inf linLb linUb ↔ BoundsOk (extBounds inf) (.fin 0) m'.numRows v5 v6 := by
    unfold PyBoundsOk BoundsOk
    rw [r3, hl5]
    refine forall₂_congr fun i hi => ?_
    rw [d5 i hi, d6 i hi]; rfl
  constructor
  · rintro ⟨x1, x2, x3⟩
    obtain ⟨p, p1, p2, p3, p4, p5, p6⟩ := g1 ⟨e1.mp x1, e2.mp x2, e3.mp x3⟩
    refine ⟨p, by rw [heq, p1]; rfl, p2.dims.1, p2.dims.2.1, p2.dims.2.2.trans r3, ?_, ?_, ?_, ?_⟩
    · intro i hi
      rw [Nat.zero_add, p2.varLbOk.2, p2.varUbOk.2]
      exact ⟨d1 i hi, d2 i hi⟩
    · intro i hi
      rw [Nat.zero_add]
      exact ⟨(p2.consLbOk.2.1 i hi).trans (d3 i hi), (p2.consUbOk.2.1 i hi).trans (d4 i hi)⟩
    · intro i hi
      exact ⟨(p2.consLbOk.2.2 i).trans (d5 i (by omega)), (p2.consUbOk.2.2 i).trans (d6 i (by omega))⟩
    · intro i hi j hj
      rw [p6 i j (by omega)]
      exact m5 i hi j (by show j < varLb.length; omega)
  · intro h
    rw [heq, g2 (fun hh => h ⟨e1.mpr hh.1, e2.mpr hh.2.1, e3.mpr hh.2.2⟩)]
    rfl

end

/-- the bounds of the problem created, for an index -/
def pyBoundsAt (r : MexRes (Prob (Ext ℚ))) (i : Nat) : Option (Ext ℚ × Ext ℚ × Ext ℚ × Ext ℚ) :=
  match r with
  | .ok p => some (bval (.fin 0) p.varLb i, bval (.fin 0) p.varUb i, bval (.fin 0) p.consLb i, bval (.fin 0) p.consUb i)
  | _ => none

/-- two variables, the linear constraint `2 x₀ + 3 x₁ ≤ 4` -/
example : ∃ p, pyProblem (10 ^ 20 : ℚ) [.ninf, .fin 0] [.pinf, .pinf] [] [] (some (.dense 1 2 fun _ j => if j = 0 then .fin 2 else .fin 3))
      (some [.ninf]) (some [.fin 4]) (fun _ => 0) (fun _ => 0) (fun _ => .fin 0) (fun _ => .fin 0) = .ok p ∧
      bval (.fin 0) p.varLb 1 = .fin 0 ∧ bval (.fin 0) p.consUb 0 = .fin 4 ∧ (p.coeffs.at? 0 1).getD (.fin 0) = .fin 3 := by
  obtain ⟨p, p1, _, _, _, p2, _, p3, p4⟩ := (C99_problem_partial (10 ^ 20 : ℚ) [.ninf, .fin 0] [.pinf, .pinf] [] [] [.ninf] [.fin 4]
    (.dense 1 2 fun _ j => if j = 0 then .fin 2 else .fin 3) (by unfold BoundArr; decide +kernel) (by unfold BoundArr; decide +kernel)
    (by unfold BoundArr; decide +kernel) (by unfold BoundArr; decide +kernel) (by unfold BoundArr; decide +kernel)
    (by unfold BoundArr; decide +kernel) trivial rfl (fun _ => 0) (fun _ => 0) (fun _ => .fin 0) (fun _ => .fin 0)).1
    (by unfold PyBoundsOk; decide +kernel)
  exact ⟨p, p1, (p2 1 (by decide)).1.trans (by decide +kernel), (p3 0 (by decide)).2.trans (by decide +kernel), p4 0 (by decide) 1 (by decide)⟩

/-- C99 is violated: the lengths of the arrays of bounds are not compared. If there are fewer upper than lower bounds, the missing ones are zero: the
free variables `x₀, x₁` given by two lower bounds and one upper bound become `x₀` free and `x₁ ≤ 0`, without an error. An array of upper bounds
longer than that of the lower ones is written past the dimension of the vector. -/
theorem C99_lengths_violated :
    pyBoundsAt (pyProblem (10 : ℚ) [.ninf, .ninf] [.pinf] [] [] none none none (fun _ => 0) (fun _ => 0) (fun _ => .fin 0) fun _ => .fin 0) 1 =
        some (.fin (-10), .fin 0, .fin 0, .fin 0) ∧
      (pyProblem (10 : ℚ) [.ninf] [.pinf, .pinf] [] [] none none none (fun _ => 0) (fun _ => 0) (fun _ => .fin 0) fun _ => .fin 0) = .undef :=
  ⟨by decide +kernel, rfl⟩

/-- C99 is violated: if linear constraints are given with upper bounds only, their lower bounds are not infinite but zero: `x₀ ≤ 4` becomes
`0 ≤ x₀ ≤ 4`. (With lower bounds only, the upper ones are zero, and positive lower bounds are then refused as inconsistent.) -/
theorem C99_linear_violated :
    pyBoundsAt (pyProblem (10 : ℚ) [.ninf] [.pinf] [] [] (some (.dense 1 1 fun _ _ => .fin 1)) none (some [.fin 4])
        (fun _ => 0) (fun _ => 0) (fun _ => .fin 0) fun _ => .fin 0) 0 = some (.fin (-10), .fin 10, .fin 0, .fin 4) := by
  decide +kernel

end Sleqp
