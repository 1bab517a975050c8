import Verif.Lemmas.MinimizeBounds
import Mathlib.Tactic.NormNum

/-!
C101: the problem created by `minimize` has the feasible set described by its arguments.
-/

namespace Sleqp
open Finset

section
variable {K : Type*} [Field K] [LinearOrder K] [IsStrictOrderedRing K] {inf : K}

theorem minArrays_spec {n : Nat} {bounds : BoundsArg K} {cs : List (ConsArg K)} (h0 : 0 ≤ inf) (hb : bounds.Supported inf n)
    (hs : ∀ c ∈ cs, c.Supported inf n) :
    ∃ vl vu lin, minArrays inf n bounds cs = .ok ⟨vl, vu, ((cs.filter ConsArg.isGeneral).map ConsArg.genLb).flatten,
        ((cs.filter ConsArg.isGeneral).map (ConsArg.genUb inf)).flatten, lin⟩ ∧
      pyVarBounds inf n bounds = .ok (vl, vu) ∧ pyLinear cs = .ok lin := by
  obtain ⟨vl, vu, ev, _⟩ := varBounds_spec h0 hb
  obtain ⟨g, _⟩ := general_spec (n := n) h0 hs
  have eg : pyGenBounds inf (cs.filter ConsArg.isGeneral) = .ok (((cs.filter ConsArg.isGeneral).map ConsArg.genLb).flatten,
      ((cs.filter ConsArg.isGeneral).map (ConsArg.genUb inf)).flatten) := by
    refine if_pos ⟨g.1.trans g.2.1.symm, ?_⟩
    rw [List.all_eq_true]
    intro p hp
    obtain ⟨i, hi, rfl⟩ := List.getElem_of_mem hp
    rw [List.length_zip] at hi
    have := (g.2.2 i (by rw [← g.1]; omega)).le
    rw [getD_lt _ (by omega), getD_lt _ (by omega)] at this
    rw [List.getElem_zip]
    exact this
  have ef : ∀ l : List (ConsArg K), (∀ c ∈ l, c.Supported inf n) → pyConsFuncs l = .ok () := by
    intro l
    induction l with
    | nil => intro _; rfl
    | cons c l ih =>
      intro h
      have hc := h c (by simp)
      have ih' := ih fun c hc => h c (by simp [hc])
      cases c with
      | object lb ub he =>
        cases lb with
        | scalar _ => exact hc.elim
        | array lb =>
          cases he with
          | known => exact ih'
          | strategy => cases ub <;> exact hc.elim
      | _ => exact ih'
  obtain ⟨lin, el⟩ : ∃ lin, pyLinear cs = .ok lin := by
    obtain ⟨hcols, _⟩ := linear_spec hs
    unfold pyLinear
    cases hp : cs.filterMap ConsArg.linPart with
    | nil => exact ⟨_, rfl⟩
    | cons p ps =>
      refine ⟨_, if_pos ?_⟩
      rw [List.all_eq_true]
      intro q hq
      have a := hcols q (by show q ∈ cs.filterMap _; rw [hp]; simp [hq])
      have b := hcols p (by show p ∈ cs.filterMap _; rw [hp]; simp)
      simp [a, b]
  refine ⟨vl, vu, lin, ?_, ev, el⟩
  unfold minArrays
  rw [eg]
  show (pyConsFuncs (cs.filter ConsArg.isGeneral)).bind _ = _
  rw [ef _ fun c hc => hs c (List.mem_filter.mp hc).1]
  show (pyLinear cs).bind _ = _
  rw [el]
  show (pyVarBounds inf n bounds).map _ = _
  rw [ev]; rfl

/-- C101 (partial): for bounds and constraints given with one number per variable and value (`BoundsArg.Supported`, `ConsArg.Supported`), `minimize` creates
a problem with as many variables as the starting point, whose feasible points are exactly those which satisfy the bounds (absent ones are
infinite) and the constraints the user gave, in any mixture of kinds. The numbers at the points are below the number used for infinity. Missing,
since the code violates it: bounds given by one number, functions of dictionaries with several values, quasi-Newton strategies; see below. -/
theorem C101_feasible_partial (n : Nat) (bounds : BoundsArg K) (cs : List (ConsArg K)) (h0 : 0 ≤ inf) (hb : bounds.Supported inf n)
    (hs : ∀ c ∈ cs, c.Supported inf n) (row row' : Nat → Nat) (val val' : Nat → Ext K) :
    ∃ p, minProblem inf n bounds cs row row' val val' = .ok p ∧ p.numVars = n ∧
      ∀ x vs, (∀ i < n, |x i| ≤ inf) → List.Forall₂ (fun c v => ConsArg.Values inf n x v c) cs vs →
        (genVals cs vs).length = p.numGen ∧ (ProbFeasible p x (genVals cs vs) ↔ UserFeasible n bounds cs x vs) := by
  obtain ⟨vl, vu, lin, ea, ev, el⟩ := minArrays_spec h0 hb hs
  obtain ⟨vl', vu', ev', gv, fv⟩ := varBounds_spec h0 hb
  rw [ev] at ev'
  cases ev'
  obtain ⟨gg, fg⟩ := general_spec (n := n) h0 hs
  obtain ⟨hcols, gl, fl⟩ := linear_spec hs
  have hlin : (linParts cs = [] ∧ lin = none) ∨ ∃ k, linParts cs ≠ [] ∧ k = n ∧
      lin = some (.dense ((linParts cs).map fun q => q.1).sum k (fun i j => .fin (stackRows ((linParts cs).map fun q => (q.1, q.2.2.1)) i j)),
        ((linParts cs).map fun q => q.2.2.2.1).flatten, ((linParts cs).map fun q => q.2.2.2.2).flatten) := by
    unfold pyLinear at el
    cases hp : cs.filterMap ConsArg.linPart with
    | nil => rw [hp] at el; cases el; exact Or.inl ⟨hp, rfl⟩
    | cons p ps =>
      rw [hp] at el
      right
      refine ⟨p.2.1, by show cs.filterMap _ ≠ []; rw [hp]; simp, hcols p (by show p ∈ cs.filterMap _; rw [hp]; simp), ?_⟩
      simp only at el
      split at el
      · cases el; show some _ = some _; unfold linParts; rw [hp]
      · cases el
  obtain ⟨p, p1, p2, p3, p4, p5, p6, p7⟩ := problem_spec lin h0 gv gg (by
    intro q e
    rcases hlin with ⟨_, h⟩ | ⟨k, _, hk, h⟩
    · rw [h] at e; cases e
    · rw [h] at e; cases e; exact ⟨gl, trivial, hk⟩) row row' val val'
  refine ⟨p, ?_, p2, fun x vs hx hvs => ?_⟩
  · unfold minProblem; rw [ea]; exact p1
  obtain ⟨g1, g2, g3⟩ := fg x vs hvs
  obtain ⟨l2, l3⟩ := fl x vs hvs
  refine ⟨g1.trans p3.symm, ?_⟩
  -- bounds of the problem are those of the arrays
  have hin : ∀ {L U : List (Ext K)} {A B : Vec (Ext K)} {off m : Nat}, GoodBs inf m L U → PyBoundsAre inf L U A B off → ∀ i < m, ∀ v, |v| ≤ inf →
      (InB (bval (.fin 0) A (off + i)) v (bval (.fin 0) B (off + i)) ↔ InB (L.getD i (.fin 0)) v (U.getD i (.fin 0))) := by
    intro L U A B off m hG hA i hi v hv
    obtain ⟨q1, q2⟩ := hA i (by rw [hG.1]; exact hi)
    unfold InB
    rw [q1, q2, inB_lower (by rw [hG.1]; exact hi) hv, inB_upper (by rw [hG.2.1]; exact hi) hv]
  have small : ∀ {l : List K}, (∀ y ∈ l, |y| ≤ inf) → ∀ i, |l.getD i 0| ≤ inf := by
    intro l h i
    by_cases hi : i < l.length
    · rw [getD_lt _ hi]; exact h _ (List.getElem_mem hi)
    · rw [List.getD_eq_getElem?_getD, List.getElem?_eq_none (by omega)]; simpa using h0
  unfold ProbFeasible UserFeasible
  rw [forall2_split (t := ConsArg.isGeneral)]
  rw [p2, p3]
  refine and_congr ?_ (and_congr ?_ ?_)
  · refine forall₂_congr fun i hi => ?_
    rw [← fv i hi _ (hx i hi)]
    have := hin gv p4 i hi (x i) (hx i hi)
    rwa [Nat.zero_add] at this
  · rw [← g3]
    have e : (∀ i < ((cs.filter ConsArg.isGeneral).map ConsArg.dim).sum,
        InB (bval (.fin 0) p.consLb i) ((genVals cs vs).getD i 0) (bval (.fin 0) p.consUb i)) ↔ ∀ i < (genVals cs vs).length,
        InB (((cs.filter ConsArg.isGeneral).map ConsArg.genLb).flatten.getD i (.fin 0)) ((genVals cs vs).getD i 0)
          (((cs.filter ConsArg.isGeneral).map (ConsArg.genUb inf)).flatten.getD i (.fin 0)) := by
      rw [g1]
      refine forall₂_congr fun i hi => ?_
      have := hin gg p5 i hi _ (small g2 i)
      rwa [Nat.zero_add] at this
    rw [e]
    exact ⟨fun h => ⟨gg.1.trans g1.symm, gg.2.1.trans g1.symm, h⟩, fun h => h.2.2⟩
  · rw [← l3]
    rcases hlin with ⟨h, hl⟩ | ⟨k, _, hk, hl⟩
    · rw [p6 hl, h]
      exact ⟨fun _ => ⟨rfl, rfl, fun i hi => absurd hi (by simp [linVals])⟩, fun _ r hr => absurd hr (by omega)⟩
    · obtain ⟨q1, q2, q3⟩ := p7 _ hl
      have hlen := linVals_length n x (linParts cs)
      have hrow : ∀ r < ((linParts cs).map fun q => q.1).sum,
          (∑ j ∈ range n, ((p.coeffs.at? r j).getD (.fin 0)).num * x j) = (linVals n x (linParts cs)).getD r 0 := by
        intro r hr
        rw [linVals_get n x _ r hr]
        refine Finset.sum_congr rfl fun j hj => ?_
        rw [q3 r hr j (Finset.mem_range.mp hj)]
        rfl
      rw [q1]
      have e : (∀ r < ((linParts cs).map fun q => q.1).sum, InB (bval (.fin 0) p.consLb (((cs.filter ConsArg.isGeneral).map ConsArg.dim).sum + r))
          (∑ j ∈ range n, ((p.coeffs.at? r j).getD (.fin 0)).num * x j)
          (bval (.fin 0) p.consUb (((cs.filter ConsArg.isGeneral).map ConsArg.dim).sum + r))) ↔ ∀ i < (linVals n x (linParts cs)).length,
          InB (((linParts cs).map fun q => q.2.2.2.1).flatten.getD i (.fin 0)) ((linVals n x (linParts cs)).getD i 0)
            (((linParts cs).map fun q => q.2.2.2.2).flatten.getD i (.fin 0)) := by
        rw [hlen]
        refine forall₂_congr fun i hi => ?_
        rw [hrow i hi]
        exact hin gl q2 i hi _ (small l2 i)
      exact e.trans ⟨fun h => ⟨gl.1.trans hlen.symm, gl.2.1.trans hlen.symm, h⟩, fun h => h.2.2⟩

/-- Constraints with SciPy's default for second derivatives, `NonlinearConstraint(fun, lb, ub)`, are refused with a `ValueError` (`_hessian.py:161`), whatever their bounds are,
unless the bounds are inconsistent. -/
theorem C101_strategy_violated (n : Nat) (bounds : BoundsArg K) (lb ub : List (Ext K)) (h : GoodBs inf lb.length lb ub) :
    minArrays inf n bounds [.object (.array lb) (.array ub) .strategy] = .error .value := by
  have e : pyGenBounds inf [ConsArg.object (.array lb) (.array ub) .strategy] = .ok (lb, ub) := by
    have hf : (([ConsArg.object (.array lb) (.array ub) .strategy] : List (ConsArg K)).map ConsArg.genLb).flatten = lb := by simp [ConsArg.genLb, BArr.list]
    have hf' : (([ConsArg.object (.array lb) (.array ub) .strategy] : List (ConsArg K)).map (ConsArg.genUb inf)).flatten = ub := by
      simp [ConsArg.genUb, BArr.list]
    unfold pyGenBounds
    simp only [hf, hf']
    refine if_pos ⟨h.2.1.symm, ?_⟩
    rw [List.all_eq_true]
    intro p hp
    obtain ⟨i, hi, rfl⟩ := List.getElem_of_mem hp
    rw [List.length_zip] at hi
    have := (h.2.2 i (by omega)).le
    rw [getD_lt _ (by omega), getD_lt _ (by omega)] at this
    rw [List.getElem_zip]
    exact this
  show (pyGenBounds inf [ConsArg.object (.array lb) (.array ub) .strategy]).bind _ = _
  rw [e]; rfl

end

section Examples

/-- the numbers of variables, general and linear constraints of the problem created -/
def minDims (r : MexRes (Prob (Ext ℚ))) : Option (Nat × Nat × Nat) :=
  match r with
  | .ok p => some (p.numVars, p.numGen, p.numLin)
  | _ => none

/-- One number for all bounds, `Bounds(0, 1)` with three variables, gives a problem with one variable (`_bounds.py:16-18`). -/
theorem C101_bounds_violated :
    minDims (minProblem (1000 : ℚ) 3 (.object [.fin 0] [.fin 1]) [] (fun _ => 0) (fun _ => 0) (fun _ => .fin 0) fun _ => .fin 0) =
      some (1, 0, 0) := by decide +kernel

/-- Linear constraints with a bound left out, such as `LinearConstraint(A, ub=[4, 5])`, whose lower bound is then the single number `-inf`, get the lower bound
zero for all rows but the first, without an error (`_linear.py:34-36`): `x₀ = -1` satisfies `x₀ ≤ 4` and `x₀ ≤ 5`, but not the problem created. -/
theorem C101_linear_violated :
    pyBoundsAt (minProblem (1000 : ℚ) 1 .missing [.linear 2 1 (fun _ _ => 1) [.ninf] [.fin 4, .fin 5]] (fun _ => 0) (fun _ => 0) (fun _ => .fin 0)
        fun _ => .fin 0) 1 = some (.fin 0, .fin 0, .fin 0, .fin 5) ∧
      ConsArg.Feasible 1 (fun _ => (-1 : ℚ)) [] (.linear 2 1 (fun _ _ => 1) [.ninf] [.fin 4, .fin 5]) ∧ ¬ InB (.fin 0) (-1 : ℚ) (.fin 5) := by
  refine ⟨by decide +kernel, ?_, ?_⟩
  · unfold ConsArg.Feasible AllIn InB
    decide +kernel
  · unfold InB
    decide +kernel

/-- A number as bound of a `NonlinearConstraint` raises a `TypeError` (`_cons_func.py:23`). -/
theorem C101_scalar_violated :
    (match minArrays (1000 : ℚ) 1 .missing [.object (.scalar (.fin 0)) (.scalar (.fin 1)) .known] with | .error e => some e | .ok _ => none) =
      some .type := by decide +kernel

/-- Functions of dictionaries with several values, as in SciPy, get one pair of bounds (`_bounds.py:46-52`), and the evaluation of
the constraints fails with an `AssertionError` (`_cons_func.py:61`). -/
theorem C101_vector_violated :
    (ConsArg.ineq : ConsArg ℚ).dim = 1 ∧
      ∀ (eps : FdEps ℚ) (f : List ℚ → List ℚ → List ℚ) (obj : MinFun ℚ ℚ) (h : Hess ℚ ℚ) (jac : Jac ℚ ℚ) (x : List ℚ), (f x []).length ≠ 1 →
        MinProb.run eps (fun _ => none) ⟨obj, some [⟨.point (fun y as => .np (f y as)) jac, h, (ConsArg.ineq : ConsArg ℚ).dim, false⟩], []⟩
          (MinProb.init ⟨obj, some [⟨.point (fun y as => .np (f y as)) jac, h, (ConsArg.ineq : ConsArg ℚ).dim, false⟩], []⟩) [.setValue x, .consVals] =
          [.ok .nothing, .error .assertion] := by
  refine ⟨rfl, fun eps f obj h jac x hx => ?_⟩
  simp [MinProb.run, MinProb.step, MinProb.init, MinProb.consFuncs, eachCons, MinFun.val, FunSt.setValue, Except.bind, Except.map, PyVal.list, ConsArg.dim, hx]

/-- `0 ≤ x₀`, `x₁` free, `x₀ x₁ ≥ 0` as a dictionary, `-1 ≤ x₀ - x₁ ≤ 4` linear, `x₀² ≤ 9` as an object -/
def exCons : List (ConsArg ℚ) :=
  [.ineq, .linear 1 2 (fun _ j => if j = 0 then 1 else -1) [.fin (-1)] [.fin 4], .object (.array [.ninf]) (.array [.fin 9]) .known]

theorem exGood (l u : Ext ℚ) (h : GoodB 1000 l u) : GoodBs (1000 : ℚ) 1 [l] [u] :=
  ⟨rfl, rfl, fun i hi => by
    have e : i = 0 := by omega
    subst e
    exact h⟩

theorem exCons_supported : ∀ c ∈ exCons, c.Supported (1000 : ℚ) 2 := by
  intro c hc
  simp only [exCons, List.mem_cons, List.not_mem_nil, or_false] at hc
  rcases hc with rfl | rfl | rfl
  · trivial
  · exact ⟨rfl, exGood _ _ ⟨⟨by simp, by simp, fun a e => by cases e; norm_num⟩, ⟨by simp, by simp, fun a e => by cases e; norm_num⟩, by decide +kernel⟩⟩
  · exact exGood _ _ ⟨⟨by simp, by simp, fun a e => by cases e⟩, ⟨by simp, by simp, fun a e => by cases e; norm_num⟩, by decide +kernel⟩

example : ∃ p, minProblem (1000 : ℚ) 2 (.pairs [(some (.fin 0), none)]) exCons (fun _ => 0) (fun _ => 0) (fun _ => .fin 0) (fun _ => .fin 0) = .ok p ∧
    p.numVars = 2 := by
  obtain ⟨p, h1, h2, _⟩ := C101_feasible_partial (inf := (1000 : ℚ)) 2 (.pairs [(some (.fin 0), none)]) exCons (by norm_num)
    ⟨by decide, fun i hi => by
      obtain rfl : i = 0 := by simpa using hi
      exact ⟨⟨by simp, by simp, fun a e => by cases e; norm_num⟩, ⟨by simp, by simp, fun a e => by cases e⟩, by decide +kernel⟩⟩
    exCons_supported (fun _ => 0) (fun _ => 0) (fun _ => .fin 0) (fun _ => .fin 0)
  exact ⟨p, h1, h2⟩

/-- the numbers: two general constraints first (the dictionary and the object), then the linear one -/
example :
    minDims (minProblem (1000 : ℚ) 2 (.pairs [(some (.fin 0), none)]) exCons (fun _ => 0) (fun _ => 0) (fun _ => .fin 0) fun _ => .fin 0) = some (2, 2, 1) ∧
      pyBoundsAt (minProblem (1000 : ℚ) 2 (.pairs [(some (.fin 0), none)]) exCons (fun _ => 0) (fun _ => 0) (fun _ => .fin 0) fun _ => .fin 0) 1 =
        some (.fin (-1000), .fin 1000, .fin (-1000), .fin 9) := ⟨by decide +kernel, by decide +kernel⟩

end Examples
end Sleqp
