import Verif.Props.Mex
import Verif.Props.Problem

/-! C94: starting points and bounds given in MATLAB. -/

namespace Sleqp

section
variable {V : Type*}

theorem zipIdx_at' (l : List V) (i : Nat) : at? (l.zipIdx.map fun p => (p.2, p.1)) i = l[i]? := by
  have := zipIdx_at l 0 i
  rwa [if_neg (by omega), Nat.sub_zero] at this

theorem data_size {a : MxArray V} {data : List V} (h : a.Data data) : a.size = data.length := by
  match a, h with
  | .leaf _, ⟨_, _, rfl⟩ => rfl
  | .cell as, ⟨ds, h1, h2⟩ =>
    subst h2
    have : ∀ (as : List (MxLeaf V)) (ds : List (List V)) (c : Nat), List.Forall₂ MxLeaf.Data as ds →
        as.foldl (fun s a => s + a.elements) c = c + ds.flatten.length := by
      intro as ds c hf
      induction hf generalizing c with
      | nil => simp
      | cons h _ ih =>
        obtain ⟨_, _, rfl⟩ := h
        rw [List.foldl_cons, ih, List.flatten_cons, List.length_append]
        show c + _ + _ = _
        exact Nat.add_assoc _ _ _
    show as.foldl (fun s a => s + a.elements) 0 = _
    rw [this as ds 0 h1, Nat.zero_add]

theorem pushAll_zipIdx (dim : Nat) (pre data : List V) (h : pre.length + data.length ≤ dim) :
    (⟨dim, dim, pre.zipIdx.map fun p => (p.2, p.1)⟩ : Vec V).pushAll (data.zipIdx.map fun p => (p.2 + pre.length, p.1)) =
      some ⟨dim, dim, (pre ++ data).zipIdx.map fun p => (p.2, p.1)⟩ := by
  have he : (pre ++ data).zipIdx.map (fun p => (p.2, p.1)) =
      (pre.zipIdx.map fun p => (p.2, p.1)) ++ data.zipIdx.map fun p => (p.2 + pre.length, p.1) := by
    rw [List.zipIdx_append, List.map_append, Nat.zero_add]
    congr 1
    rw [List.zipIdx_eq_map_add (i := pre.length), List.map_map]
    refine List.map_congr_left fun p _ => ?_
    show (pre.length + p.2, p.1) = _
    rw [Nat.add_comm]
  obtain ⟨s0, b0⟩ := zipIdx_srt (pre ++ data) 0
  rw [Vec.pushAll_ok]
  · rw [he]
  · show Srt ((pre.zipIdx.map fun p => (p.2, p.1)) ++ data.zipIdx.map fun p => (p.2 + pre.length, p.1))
    rw [← he]; exact s0
  · intro e hm
    have : e ∈ (pre ++ data).zipIdx.map fun p => (p.2, p.1) := by rw [he]; exact List.mem_append_right _ hm
    have := b0 e this
    rw [List.length_append] at this
    show e.1 < dim
    omega
  · simpa using h

theorem mexPushCells_ok (dim : Nat) : ∀ (as : List (MxLeaf V)) (ds : List (List V)) (pre : List V), List.Forall₂ MxLeaf.Data as ds →
    pre.length + ds.flatten.length ≤ dim →
    mexPushCells ⟨dim, dim, pre.zipIdx.map fun p => (p.2, p.1)⟩ pre.length as =
      .ok ⟨dim, dim, (pre ++ ds.flatten).zipIdx.map fun p => (p.2, p.1)⟩ := by
  intro as ds pre hf
  induction hf generalizing pre with
  | nil => intro _; simp [mexPushCells]
  | @cons a data as ds h _ ih =>
    intro hd
    obtain ⟨r, c, rfl⟩ := h
    rw [List.flatten_cons, List.length_append] at hd
    have h1 : (MxLeaf.dense r c data).prList (MxLeaf.dense r c data).elements = some data := prList_dense r c data
    have h2 := pushAll_zipIdx dim pre data (by omega)
    unfold mexPushCells
    rw [h1]
    show (MexRes.ofOption ((⟨dim, dim, pre.zipIdx.map fun p => (p.2, p.1)⟩ : Vec V).pushAll
      (data.zipIdx.map fun p => (p.2 + pre.length, p.1)))).bind (fun v' => mexPushCells v' (pre.length + data.length) as) = _
    rw [h2]
    show mexPushCells _ (pre.length + data.length) as = _
    have h3 := ih (pre ++ data) (by rw [List.length_append]; omega)
    rw [List.length_append] at h3
    rw [h3, List.flatten_cons, List.append_assoc]

theorem mexCreateVec_ok {a : MxArray V} {data : List V} (h : a.Data data) :
    mexCreateVec a = .ok ⟨data.length, data.length, data.zipIdx.map fun p => (p.2, p.1)⟩ := by
  have hs := data_size h
  match a, h with
  | .leaf _, ⟨r, c, rfl⟩ =>
    show (MexRes.ofOption ((MxLeaf.dense r c data).prList data.length)).bind (fun data' =>
      MexRes.ofOption ((Vec.create data.length data.length).pushAll (data'.zipIdx.map fun p => (p.2, p.1)))) = _
    rw [prList_dense]
    have := pushAll_zipIdx data.length [] data (by simp)
    simp only [List.zipIdx_nil, List.map_nil, List.length_nil, Nat.add_zero, List.nil_append] at this
    show MexRes.ofOption ((Vec.create data.length data.length).pushAll (data.zipIdx.map fun p => (p.2, p.1))) = _
    unfold Vec.create
    rw [this]; rfl
  | .cell as, ⟨ds, h1, h2⟩ =>
    subst h2
    unfold mexCreateVec
    rw [hs]
    exact mexPushCells_ok ds.flatten.length as ds [] h1 (by simp)

theorem zipIdx_vok (data : List V) : VOk data.length (⟨data.length, data.length, data.zipIdx.map fun p => (p.2, p.1)⟩ : Vec V) := by
  obtain ⟨s0, b0⟩ := zipIdx_srt data 0
  exact ⟨⟨s0, fun e he => by have := b0 e he; show e.1 < data.length; omega, by simp⟩, rfl⟩

/-- C94: a starting point (or an array of bounds) given as an array of numbers of any shape, or as a cell array of such arrays, becomes the vector of
these numbers, one after the other; nothing is dropped and nothing is read or written outside the arrays. -/
theorem C94_start_partial (a : MxArray V) (data : List V) (h : a.Data data) :
    ∃ v, mexCreateVec a = .ok v ∧ v.WF ∧ v.dim = data.length ∧ ∀ i, at? v.ents i = data[i]? := by
  refine ⟨_, mexCreateVec_ok h, (zipIdx_vok data).1, rfl, fun i => zipIdx_at' data i⟩

end

example : ∃ v, mexCreateVec (.cell [.dense 1 2 [(4 : ℚ), 0], .dense 0 0 [], .dense 1 1 [7]]) = .ok v ∧ v.dim = 3 ∧ at? v.ents 2 = some 7 := by
  obtain ⟨v, h1, _, h2, h3⟩ := C94_start_partial (.cell [.dense 1 2 [(4 : ℚ), 0], .dense 0 0 [], .dense 1 1 [7]]) [4, 0, 7]
    ⟨[[4, 0], [], [7]], .cons ⟨_, _, rfl⟩ (.cons ⟨_, _, rfl⟩ (.cons ⟨_, _, rfl⟩ .nil)), rfl⟩
  exact ⟨v, h1, h2, h3 2⟩

/-- C94 is violated: the class of the arrays is not looked at. For a starting point (or bounds) given as a sparse array, here `[0; 7]`, numbers are
read past the end of the array of the stored elements; for one given as an array of integers (`int32`, `logical`), they are read from an array
which does not contain doubles. -/
theorem C94_start_violated :
    ∃ (s : Mat ℚ), s.numRows = 2 ∧ s.numCols = 1 ∧ s.value 0 0 = 0 ∧ s.value 1 0 = 7 ∧ s.nnz = 1 ∧
      mexCreateVec (.leaf (.sparse s)) = .undef ∧ ∀ n, 0 < n → mexCreateVec (.leaf (.other n : MxLeaf ℚ)) = .undef := by
  refine ⟨⟨2, 1, 1, 1, fun j => if j = 0 then 0 else 1, fun _ => 1, fun _ => 7⟩, rfl, rfl, by decide +kernel, by decide +kernel, rfl, rfl, ?_⟩
  intro n hn
  obtain ⟨n, rfl⟩ : ∃ k, n = k + 1 := ⟨n - 1, by omega⟩
  have : (MxLeaf.other (n + 1) : MxLeaf ℚ).prList (n + 1) = none := by
    unfold MxLeaf.prList
    rw [List.range_succ_eq_map, List.mapM_cons]
    rfl
  show (MexRes.ofOption ((MxLeaf.other (n + 1) : MxLeaf ℚ).prList (n + 1))).bind _ = _
  rw [this]; rfl

section
variable {K : Type*} [Field K] [LinearOrder K] [IsStrictOrderedRing K]

theorem bval_zipIdx (data : List (Ext K)) (i : Nat) :
    bval (.fin 0) (⟨data.length, data.length, data.zipIdx.map fun p => (p.2, p.1)⟩ : Vec (Ext K)) i = data.getD i (.fin 0) := by
  unfold bval
  rw [zipIdx_at', List.getD_eq_getElem?_getD]

theorem bval_range (n i : Nat) (x : Ext K) (hi : i < n) : bval (.fin 0) (⟨n, n, (List.range n).map fun i => (i, x)⟩ : Vec (Ext K)) i = x := by
  unfold bval
  have hm : (i, x) ∈ (List.range n).map fun i => (i, x) := List.mem_map.mpr ⟨i, List.mem_range.mpr hi, rfl⟩
  have hs : Srt ((List.range n).map fun i => (i, x)) := by
    rw [Srt, List.pairwise_map]; exact List.pairwise_lt_range
  rw [at?_of_mem hs hm]; rfl

theorem range_vok (n : Nat) (x : Ext K) : VOk n (⟨n, n, (List.range n).map fun i => (i, x)⟩ : Vec (Ext K)) := by
  refine ⟨⟨?_, ?_, by simp⟩, rfl⟩
  · show Srt ((List.range n).map fun i => (i, x))
    rw [Srt, List.pairwise_map]; exact List.pairwise_lt_range
  · intro e he
    obtain ⟨i, hi, rfl⟩ := List.mem_map.mp he
    exact List.mem_range.mp hi

theorem given_lower {inf : K} {n : Nat} {a : Option (MxArray (Ext K))} {given : Option (List (Ext K))} (h : GivenBounds n .pinf a given) :
    ∃ v, mexCreateVecDefault a n (.fin (-inf)) = .ok v ∧ VOk n v ∧ FiniteLb (extBounds inf) v ∧
      ∀ i < n, (extBounds inf).convLb (bval (.fin 0) v i) = lowerAt inf given i := by
  rcases h with ⟨rfl, rfl⟩ | ⟨b, l, rfl, rfl, hd, hl, hnan, hbad⟩
  · refine ⟨_, rfl, range_vok n _, (C42_finite ?_).1 ?_, fun i hi => ?_⟩
    · intro e he; obtain ⟨i, _, rfl⟩ := List.mem_map.mp he; exact fun h => by cases h
    · intro e he; obtain ⟨i, _, rfl⟩ := List.mem_map.mp he; exact fun h => by cases h
    · rw [bval_range n i _ hi]; rfl
  · subst hl
    refine ⟨_, mexCreateVec_ok hd, zipIdx_vok l, (C42_finite ?_).1 ?_, fun i hi => ?_⟩
    · intro e he; obtain ⟨p, hp, rfl⟩ := List.mem_map.mp he
      exact fun h => hnan (h ▸ List.fst_mem_of_mem_zipIdx hp)
    · intro e he; obtain ⟨p, hp, rfl⟩ := List.mem_map.mp he
      exact fun h => hbad (h ▸ List.fst_mem_of_mem_zipIdx hp)
    · rw [bval_zipIdx]
      show (if l.getD i (.fin 0) = .ninf then _ else _) = (if l[i]? = some .ninf then _ else _)
      rw [List.getD_eq_getElem?_getD, List.getElem?_eq_getElem hi]
      simp

theorem given_upper {inf : K} {n : Nat} {a : Option (MxArray (Ext K))} {given : Option (List (Ext K))} (h : GivenBounds n .ninf a given) :
    ∃ v, mexCreateVecDefault a n (.fin inf) = .ok v ∧ VOk n v ∧ FiniteUb (extBounds inf) v ∧
      ∀ i < n, (extBounds inf).convUb (bval (.fin 0) v i) = upperAt inf given i := by
  rcases h with ⟨rfl, rfl⟩ | ⟨b, l, rfl, rfl, hd, hl, hnan, hbad⟩
  · refine ⟨_, rfl, range_vok n _, (C42_finite ?_).2 ?_, fun i hi => ?_⟩
    · intro e he; obtain ⟨i, _, rfl⟩ := List.mem_map.mp he; exact fun h => by cases h
    · intro e he; obtain ⟨i, _, rfl⟩ := List.mem_map.mp he; exact fun h => by cases h
    · rw [bval_range n i _ hi]; rfl
  · subst hl
    refine ⟨_, mexCreateVec_ok hd, zipIdx_vok l, (C42_finite ?_).2 ?_, fun i hi => ?_⟩
    · intro e he; obtain ⟨p, hp, rfl⟩ := List.mem_map.mp he
      exact fun h => hnan (h ▸ List.fst_mem_of_mem_zipIdx hp)
    · intro e he; obtain ⟨p, hp, rfl⟩ := List.mem_map.mp he
      exact fun h => hbad (h ▸ List.fst_mem_of_mem_zipIdx hp)
    · rw [bval_zipIdx]
      show (if l.getD i (.fin 0) = .pinf then _ else _) = (if l[i]? = some .pinf then _ else _)
      rw [List.getD_eq_getElem?_getD, List.getElem?_eq_getElem hi]
      simp

/-- C94 (in part): from a starting point with `n` numbers and bounds of matching sizes, each of which may be left out, the problem has `n` variables
and as many constraints as there are lower bounds, with exactly the given bounds and infinite ones where they were left out; contradicting bounds
are refused. Missing: constraints with upper bounds only, see `C94_upper_violated`. -/
theorem C94_problem_partial (inf : K) (x0 : MxArray (Ext K)) (xs : List (Ext K)) (hx : x0.Data xs)
    (varLb varUb consLb consUb : Option (MxArray (Ext K))) (vl vu cl cu : Option (List (Ext K))) (m : Nat)
    (h1 : GivenBounds xs.length .pinf varLb vl) (h2 : GivenBounds xs.length .ninf varUb vu)
    (h3 : GivenBounds m .pinf consLb cl) (h4 : GivenBounds m .ninf consUb cu) (hm : consLb = none → m = 0)
    (row : Nat → Nat) (val : Nat → Ext K) :
    ((∀ i < xs.length, (lowerAt inf vl i).gt (upperAt inf vu i) = false) ∧ (∀ i < m, (lowerAt inf cl i).gt (upperAt inf cu i) = false) →
      ∃ p, mexProblem inf x0 varLb varUb consLb consUb row val = .ok p ∧ p.numVars = xs.length ∧ p.numGen = m ∧ p.numLin = 0 ∧
        (∀ i < xs.length, bval (.fin 0) p.varLb i = lowerAt inf vl i ∧ bval (.fin 0) p.varUb i = upperAt inf vu i) ∧
        ∀ i < m, bval (.fin 0) p.consLb i = lowerAt inf cl i ∧ bval (.fin 0) p.consUb i = upperAt inf cu i) ∧
    (¬ ((∀ i < xs.length, (lowerAt inf vl i).gt (upperAt inf vu i) = false) ∧
        ∀ i < m, (lowerAt inf cl i).gt (upperAt inf cu i) = false) →
      mexProblem inf x0 varLb varUb consLb consUb row val = .err) := by
  obtain ⟨v1, a1, b1, c1, d1⟩ := given_lower (inf := inf) h1
  obtain ⟨v2, a2, b2, c2, d2⟩ := given_upper (inf := inf) h2
  obtain ⟨v3, a3, b3, c3, d3⟩ := given_lower (inf := inf) h3
  obtain ⟨v4, a4, b4, c4, d4⟩ := given_upper (inf := inf) h4
  obtain ⟨g1, g2⟩ := C42_create_simple (extBounds_ok (inf := inf)) b1 b2 b3 b4 c1 c2 c3 c4 row val
  have hmm : mexNumCons consLb = m := by
    rcases h3 with ⟨rfl, rfl⟩ | ⟨b, l, rfl, rfl, hd, hl, _, _⟩
    · exact (hm rfl).symm
    · exact (data_size hd).trans hl
  have heq : mexProblem inf x0 varLb varUb consLb consUb row val =
      MexRes.ofExcept (probCreateSimple (extBounds inf) (.fin 0) xs.length m v1 v2 v3 v4 row val) := by
    unfold mexProblem
    rw [data_size hx, hmm, a1, a2, a3, a4]
    rfl
  have hb1 : BoundsOk (extBounds inf) (.fin 0) xs.length v1 v2 ↔ ∀ i < xs.length, (lowerAt inf vl i).gt (upperAt inf vu i) = false := by
    unfold BoundsOk
    exact forall₂_congr fun i hi => by rw [d1 i hi, d2 i hi]; rfl
  have hb2 : BoundsOk (extBounds inf) (.fin 0) m v3 v4 ↔ ∀ i < m, (lowerAt inf cl i).gt (upperAt inf cu i) = false := by
    unfold BoundsOk
    exact forall₂_congr fun i hi => by rw [d3 i hi, d4 i hi]; rfl
  rw [hb1, hb2] at g1 g2
  constructor
  · intro h
    obtain ⟨p, p1, p2⟩ := g1 h
    refine ⟨p, by rw [heq, p1]; rfl, p2.dims.1, p2.dims.2.1, p2.dims.2.2, fun i hi => ?_, fun i hi => ?_⟩
    · rw [p2.varLbOk.2, p2.varUbOk.2, d1 i hi, d2 i hi]; exact ⟨rfl, rfl⟩
    · rw [p2.consLbOk.2.1 i hi, p2.consUbOk.2.1 i hi, d3 i hi, d4 i hi]; exact ⟨rfl, rfl⟩
  · intro h
    rw [heq, g2 h]; rfl

end

/-- A problem with two variables, the second bounded from above, and one equation. -/
example : ∃ p, mexProblem (10 ^ 20 : ℚ) (.leaf (.dense 2 1 [.fin 1, .fin 2])) none (some (.leaf (.dense 2 1 [.pinf, .fin 5])))
    (some (.leaf (.dense 1 1 [.fin 3]))) (some (.leaf (.dense 1 1 [.fin 3]))) (fun _ => 0) (fun _ => .fin 0) = .ok p ∧
    p.numVars = 2 ∧ p.numGen = 1 ∧ bval (.fin 0) p.varLb 1 = .fin (-10 ^ 20) ∧ bval (.fin 0) p.varUb 1 = .fin 5 := by
  obtain ⟨p, p1, p2, p3, p4, p5, p6⟩ := (C94_problem_partial (10 ^ 20 : ℚ) (.leaf (.dense 2 1 [.fin 1, .fin 2])) [.fin 1, .fin 2] ⟨_, _, rfl⟩
    none (some (.leaf (.dense 2 1 [.pinf, .fin 5]))) (some (.leaf (.dense 1 1 [.fin 3]))) (some (.leaf (.dense 1 1 [.fin 3])))
    none (some [.pinf, .fin 5]) (some [.fin 3]) (some [.fin 3]) 1
    (.inl ⟨rfl, rfl⟩) (.inr ⟨_, _, rfl, rfl, ⟨_, _, rfl⟩, rfl, by decide, by decide⟩)
    (.inr ⟨_, _, rfl, rfl, ⟨_, _, rfl⟩, rfl, by decide, by decide⟩)
    (.inr ⟨_, _, rfl, rfl, ⟨_, _, rfl⟩, rfl, by decide, by decide⟩) (fun h => by cases h) (fun _ => 0) (fun _ => .fin 0)).1
    ⟨by decide +kernel, by decide +kernel⟩
  exact ⟨p, p1, p2, p3, (p5 1 (by decide)).1, (p5 1 (by decide)).2⟩

/-- whether a call ended with an error -/
def MexRes.isErr {α : Type*} : MexRes α → Bool
  | .err => true
  | _ => false

theorem MexRes.isErr_iff {α : Type*} {r : MexRes α} : r.isErr = true ↔ r = .err := by
  cases r <;> simp [MexRes.isErr]

/-- C94 is violated: the number of constraints is the number of their lower bounds. For a problem with an inequality bounded from above only, the lower
bounds of the constraints cannot be left out (while those of the variables can): the call fails although the constraint is consistent. -/
theorem C94_upper_violated :
    mexProblem (10 ^ 20 : ℚ) (.leaf (.dense 1 1 [.fin 1])) none none none (some (.leaf (.dense 1 1 [.fin 3]))) (fun _ => 0) (fun _ => .fin 0) = .err ∧
    ∃ p, mexProblem (10 ^ 20 : ℚ) (.leaf (.dense 1 1 [.fin 1])) none none (some (.leaf (.dense 1 1 [.ninf]))) (some (.leaf (.dense 1 1 [.fin 3])))
      (fun _ => 0) (fun _ => .fin 0) = .ok p ∧ bval (.fin 0) p.consUb 0 = .fin 3 := by
  refine ⟨MexRes.isErr_iff.mp (by decide +kernel), ?_⟩
  obtain ⟨p, p1, _, _, _, _, p6⟩ := (C94_problem_partial (10 ^ 20 : ℚ) (.leaf (.dense 1 1 [.fin 1])) [.fin 1] ⟨_, _, rfl⟩
    none none (some (.leaf (.dense 1 1 [.ninf]))) (some (.leaf (.dense 1 1 [.fin 3]))) none none (some [.ninf]) (some [.fin 3]) 1
    (.inl ⟨rfl, rfl⟩) (.inl ⟨rfl, rfl⟩)
    (.inr ⟨_, _, rfl, rfl, ⟨_, _, rfl⟩, rfl, by decide, by decide⟩)
    (.inr ⟨_, _, rfl, rfl, ⟨_, _, rfl⟩, rfl, by decide, by decide⟩) (fun h => by cases h) (fun _ => 0) (fun _ => .fin 0)).1
    ⟨by decide +kernel, by decide +kernel⟩
  exact ⟨p, p1, (p6 0 (by decide)).2⟩

end Sleqp
