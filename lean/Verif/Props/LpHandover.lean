import Verif.Model.LpHandover
import Verif.Spec.LpHandover
import Verif.Props.LpBackend
import Mathlib.Tactic.IntervalCases
import Mathlib.Tactic.NormNum

/-! C135: solutions and multipliers of linear programs are handed over. -/

namespace Sleqp
open Finset
variable {K : Type*} [Field K] [LinearOrder K]

theorem LpCertified.congr {inf : K} {lp : LpArrays K} {obj : K} {x y z x' y' z' : Nat → K} (h : LpCertified inf lp obj x y z)
    (hx : ∀ j < lp.numVars, x' j = x j) (hy : ∀ i < lp.numCons, y' i = y i) (hz : ∀ j < lp.numVars, z' j = z j) :
    LpCertified inf lp obj x' y' z' := by
  have hr : ∀ i, lp.row x' i = lp.row x i := fun i => sum_congr rfl fun j hj => by rw [hx j (mem_range.mp hj)]
  refine ⟨⟨fun j hj => ?_, fun i hi => ?_⟩, ?_, fun j hj => ?_, fun j hj => ?_, fun j hj => ?_, fun i hi => ?_, fun i hi => ?_⟩
  · rw [hx j hj]; exact h.feas.vars j hj
  · rw [hr]; exact h.feas.cons i hi
  · rw [h.val]; exact sum_congr rfl fun j hj => by rw [hx j (mem_range.mp hj)]
  · rw [hz j hj, h.stat j hj]
    congr 1
    exact sum_congr rfl fun i hi => by rw [hy i (mem_range.mp hi)]
  · rw [hz j hj, hx j hj]; exact h.varPos j hj
  · rw [hz j hj, hx j hj]; exact h.varNeg j hj
  · rw [hy i hi, hr]; exact h.consPos i hi
  · rw [hy i hi, hr]; exact h.consNeg i hi

/-- C135: values with such multipliers are optimal. -/
theorem C135_optimal [IsStrictOrderedRing K] {inf : K} {lp : LpArrays K} {obj : K} {x y z : Nat → K} (h : LpCertified inf lp obj x y z) (x' : Nat → K)
    (hx : LpFeasible inf lp x') : obj ≤ lp.cost x' := by
  have key : ∀ {lo hi a b c : K}, LpWithin inf lo hi b → (0 < c → -inf < lo ∧ a = lo) → (c < 0 → hi < inf ∧ a = hi) → 0 ≤ c * (b - a) := by
    intro lo hi a b c hw h1 h2
    rcases lt_trichotomy c 0 with hc | hc | hc
    · obtain ⟨e1, e2⟩ := h2 hc
      have := hw.2.resolve_left (not_le.mpr e1)
      exact mul_nonneg_of_nonpos_of_nonpos hc.le (by rw [e2]; exact sub_nonpos.mpr this)
    · rw [hc, zero_mul]
    · obtain ⟨e1, e2⟩ := h1 hc
      have := hw.1.resolve_left (not_le.mpr e1)
      exact mul_nonneg hc.le (by rw [e2]; exact sub_nonneg.mpr this)
  have e : lp.cost x' - lp.cost x = ∑ i ∈ range lp.numCons, y i * (lp.row x' i - lp.row x i) + ∑ j ∈ range lp.numVars, z j * (x' j - x j) := by
    unfold LpArrays.cost LpArrays.row
    rw [← sum_sub_distrib]
    have e1 : ∀ i, y i * (∑ j ∈ range lp.numVars, lp.coeffs.value i j * x' j - ∑ j ∈ range lp.numVars, lp.coeffs.value i j * x j) =
        ∑ j ∈ range lp.numVars, lp.coeffs.value i j * y i * (x' j - x j) := fun i => by
      rw [← sum_sub_distrib, mul_sum]
      exact sum_congr rfl fun j _ => by ring
    rw [sum_congr rfl fun i _ => e1 i, sum_comm, ← sum_add_distrib]
    refine sum_congr rfl fun j hj => ?_
    rw [h.stat j (mem_range.mp hj), ← sum_mul]
    ring
  rw [h.val]
  refine sub_nonneg.mp ?_
  rw [e]
  exact add_nonneg (sum_nonneg fun i hi => key (hx.cons i (mem_range.mp hi)) (h.consPos i (mem_range.mp hi)) (h.consNeg i (mem_range.mp hi)))
    (sum_nonneg fun j hj => key (hx.vars j (mem_range.mp hj)) (h.varPos j (mem_range.mp hj)) (h.varNeg j (mem_range.mp hj)))

theorem libLp_certified {thr : K} {l : LibLp K} {lp : LpArrays K}
    (hcl : ∀ j < lp.numVars, l.colLb j = if lp.varsLb j ≤ -thr then none else some (lp.varsLb j))
    (hcu : ∀ j < lp.numVars, l.colUb j = if thr ≤ lp.varsUb j then none else some (lp.varsUb j))
    (hrl : ∀ i < lp.numCons, l.rowLb i = if lp.consLb i ≤ -thr then none else some (lp.consLb i))
    (hru : ∀ i < lp.numCons, l.rowUb i = if thr ≤ lp.consUb i then none else some (lp.consUb i))
    (ha : ∀ i < lp.numCons, ∀ j < lp.numVars, l.a i j = lp.coeffs.value i j)
    (ho : ∀ j < lp.numVars, l.obj j = lp.obj j) {obj : K} {x y z : Nat → K} (h : l.Certified lp.numVars lp.numCons obj x y z) :
    LpCertified thr lp obj x y z := by
  have hs := libLp_solves hcl hcu hrl hru ha ho
  have hr : ∀ i < lp.numCons, ∑ j ∈ range lp.numVars, l.a i j * x j = lp.row x i := fun i hi =>
    sum_congr rfl fun j hj => by rw [ha i hi j (mem_range.mp hj)]
  have low : ∀ {lo v : K}, (if lo ≤ -thr then none else some lo) = some v → -thr < lo ∧ v = lo := fun {lo v} e => by
    by_cases h1 : lo ≤ -thr
    · rw [if_pos h1] at e; cases e
    · rw [if_neg h1] at e; cases e; exact ⟨not_le.mp h1, rfl⟩
  have upp : ∀ {hi v : K}, (if thr ≤ hi then none else some hi) = some v → hi < thr ∧ v = hi := fun {hi v} e => by
    by_cases h1 : thr ≤ hi
    · rw [if_pos h1] at e; cases e
    · rw [if_neg h1] at e; cases e; exact ⟨not_le.mp h1, rfl⟩
  refine ⟨(hs.feasible x).mp h.feas, h.val.trans (hs.cost x), fun j hj => ?_, fun j hj hz => ?_, fun j hj hz => ?_, fun i hi hy => ?_, fun i hi hy => ?_⟩
  · rw [← ho j hj, h.stat j hj]
    congr 1
    exact sum_congr rfl fun i hi => by rw [ha i (mem_range.mp hi) j hj]
  · exact low ((hcl j hj).symm.trans (h.colPos j hj hz))
  · exact upp ((hcu j hj).symm.trans (h.colNeg j hj hz))
  · have := low ((hrl i hi).symm.trans (h.rowPos i hi hy))
    rwa [hr i hi] at this
  · have := upp ((hru i hi).symm.trans (h.rowNeg i hi hy))
    rwa [hr i hi] at this

omit [Field K] [LinearOrder K] in
theorem highsGet_other {n m : Nat} {sol : HighsField → Nat → K} {arg : HighsField → HighsArr} {a : HighsArr} :
    ∀ (order : List HighsField) (st : HighsArr → Nat → K), (∀ f ∈ order, arg f ≠ a) → highsGet n m sol arg order st a = st a := by
  intro order
  induction order with
  | nil => exact fun _ _ => rfl
  | cons f l ih =>
    intro st h
    have := ih (fun a => if a = arg f then firstN (f.count n m) (sol f) (st a) else st a) fun g hg => h g (by simp [hg])
    refine this.trans ?_
    rw [if_neg fun e => h f (by simp) e.symm]

omit [Field K] [LinearOrder K] in
theorem highsGet_last {n m : Nat} {sol : HighsField → Nat → K} {arg : HighsField → HighsArr} {f : HighsField} (l1 l2 : List HighsField)
    (st : HighsArr → Nat → K) (h : ∀ g ∈ l2, arg g ≠ arg f) {k : Nat} (hk : k < f.count n m) :
    highsGet n m sol arg (l1 ++ f :: l2) st (arg f) k = sol f k := by
  unfold highsGet
  rw [List.foldl_append, List.foldl_cons]
  have := highsGet_other (n := n) (m := m) (sol := sol) l2
    (fun a => if a = arg f then firstN (f.count n m) (sol f) (l1.foldl (fun st f a => if a = arg f then firstN (f.count n m) (sol f) (st a) else st a) st a)
      else l1.foldl (fun st f a => if a = arg f then firstN (f.count n m) (sol f) (st a) else st a) st a) h
  refine (congrFun this k).trans ?_
  rw [if_pos rfl]
  exact if_pos hk

theorem exists_last {α : Type*} [DecidableEq α] {a : α} : ∀ {l : List α}, a ∈ l → ∃ l1 l2, l = l1 ++ a :: l2 ∧ a ∉ l2
  | b :: l, h => by
    by_cases hl : a ∈ l
    · obtain ⟨l1, l2, e, hn⟩ := exists_last hl
      exact ⟨b :: l1, l2, by rw [e]; rfl, hn⟩
    · rcases List.mem_cons.mp h with rfl | h
      · exact ⟨[], l, rfl, hl⟩
      · exact absurd h hl

/-- C135 (HiGHS, part): after any successful calls which have set bounds and coefficients, let the library solve the program it holds then.  The values and
multipliers stored in the arrays of the caller, whatever is in them and in those of the interface before, are optimal for the linear program described by
the calls; of the two arrays for multipliers, each may be left out, and is not changed then.  Missing: the library has to copy the multipliers of the rows after
their values, see `C135_highs_order`. -/
theorem C135_highs_partial [IsStrictOrderedRing K] {inf : K} {n m : Nat} {s0 s : HighsLpi K} {h : List (LpiOp K HighsStat)} {lp : LpArrays K}
    (hr : (HighsLpi.create n m s0).run inf h = some s) (hl : lastLp n m h = some lp) (vs cs : Nat → HighsStat) {s' : HighsLpi K}
    (hs' : s.step inf (.solve vs cs) = some s') {obj : K} {sol : HighsField → Nat → K}
    (hsol : s'.lib.Certified n m obj (sol .colValue) (sol .rowDual) (sol .colDual)) {order : List HighsField}
    (hall : ∀ f, f ∈ order) (hord : ∀ l1 l2, order = l1 ++ .rowDual :: l2 → .rowValue ∉ l2) (st st' : HighsArr → Nat → K) (vars cons : Bool) :
    (vars = true → cons = true → LpCertified (inf / 2) lp obj (highsPrimalSol n m sol order st) (highsDualSol n m sol order vars cons st').2
      (highsDualSol n m sol order vars cons st').1) ∧
    (vars = false → (highsDualSol n m sol order vars cons st').1 = st' .userCols) ∧
    (cons = false → (highsDualSol n m sol order vars cons st').2 = st' .userRows) := by
  obtain ⟨hn, hm, ho, hb, ha⟩ := lastLp_eq hl
  refine ⟨fun hv hc' => ?_, fun hv => ?_, fun hc' => ?_⟩
  · subst hv hc'
    have hi := highs_run_inv hr
    have hc : s.dirtyCoeffs = false := by rw [hi.coeffs, ha]; rfl
    obtain ⟨t, ht, it, d1, d2, d3⟩ := highs_prepare hi hc
    have hct : t.dirtyCoeffs = false := by rw [it.coeffs, ha]; rfl
    have hst : s.step inf (.solve vs cs) = some { t with basis := some ⟨vs, cs⟩ } := by show s.prepare.bind _ = _; rw [ht]; rfl
    rw [hs'] at hst
    obtain rfl := Option.some.inj hst
    subst hn hm
    have hcert : LpCertified (inf / 2) lp obj (sol .colValue) (sol .rowDual) (sol .colDual) := by
      refine libLp_certified (fun j hj => ?_) (fun j hj => ?_) (fun i hi' => ?_) (fun i hi' => ?_) (fun i _ j _ => ?_) (fun j hj => ?_) hsol
      · rw [← adjustNeg_eq]; exact (it.libCols hct d1 j hj).1.trans ((it.bnds _ hb).1 j hj).1
      · rw [← adjustPos_eq]; exact (it.libCols hct d1 j hj).2.trans ((it.bnds _ hb).1 j hj).2
      · rw [← adjustNeg_eq]; exact (it.libRows hct d2 i hi').1.trans ((it.bnds _ hb).2 i hi').1
      · rw [← adjustPos_eq]; exact (it.libRows hct d2 i hi').2.trans ((it.bnds _ hb).2 i hi').2
      · show t.lib.a i j = _
        rw [it.mat _ ha]
      · rw [ho]; exact (it.libObj hct d3 j hj).trans (it.costs j hj)
    -- the last occurrence of a part in the order of copying
    have hlast : ∀ f, ∃ l1 l2, order = l1 ++ f :: l2 ∧ f ∉ l2 := fun f => exists_last (hall f)
    refine hcert.congr (fun j hj => ?_) (fun i hi' => ?_) fun j hj => ?_
    · obtain ⟨l1, l2, e, hn⟩ := hlast .colValue
      rw [highsPrimalSol, e]
      exact highsGet_last (arg := highsPrimalArg) (f := .colValue) l1 l2 st (fun g hg => by
        cases g
        · exact absurd hg hn
        all_goals decide) hj
    · obtain ⟨l1, l2, e, hn⟩ := hlast .rowDual
      have := hord l1 l2 e
      rw [highsDualSol, e]
      exact highsGet_last (arg := highsDualArg true true) (f := .rowDual) l1 l2 st' (fun g hg => by
        cases g
        · decide
        · decide
        · exact absurd hg this
        · exact absurd hg hn) hi'
    · obtain ⟨l1, l2, e, hn⟩ := hlast .colDual
      rw [highsDualSol, e]
      exact highsGet_last (arg := highsDualArg true true) (f := .colDual) l1 l2 st' (fun g hg => by
        cases g
        · decide
        · exact absurd hg hn
        all_goals decide) hj
  · subst hv
    exact highsGet_other order st' fun f _ => by cases f <;> cases cons <;> decide
  · subst hc'
    exact highsGet_other order st' fun f _ => by cases f <;> cases vars <;> decide

/-- C135 (SoPlex): the same, if SoPlex has a solution. -/
theorem C135_soplex {debug : Bool} {fe se infty : K} {n m : Nat} {s : SoplexLpi K} {h : List (LpiOp K SpxStat)} {lp : LpArrays K}
    (hr : (SoplexLpi.create debug fe se infty n m).run h = some s) (hl : lastLp n m h = some lp) (vs cs : Nat → SpxStat) {s' : SoplexLpi K}
    (hs' : s.step (.solve vs cs) = some s') {obj : K} {sol : SoplexSol K} (hf : sol.found = true)
    (hsol : (s'.lib infty).Certified n m obj sol.x sol.dual sol.redCost) (old oldVars oldCons : Nat → K) :
    ∃ x z y, soplexPrimalSol n sol old = some x ∧ soplexDualSol n m sol true true oldVars oldCons = some (z, y) ∧ LpCertified infty lp obj x y z := by
  obtain ⟨hn, hm, ho, hb, ha⟩ := lastLp_eq hl
  have hi := soplex_run_inv hr
  have hst : s.step (.solve vs cs) = some { s with basis := some ⟨vs, cs⟩ } := rfl
  rw [hs'] at hst
  obtain rfl := Option.some.inj hst
  refine ⟨_, _, _, if_pos hf, by unfold soplexDualSol; rw [hf]; rfl, ?_⟩
  subst hn hm
  have hcert : LpCertified infty lp obj sol.x sol.dual sol.redCost := by
    refine libLp_certified (fun j hj => ?_) (fun j hj => ?_) (fun i hi' => ?_) (fun i hi' => ?_) (fun i _ j hj => hi.mat _ ha i j hj) (fun j hj => ?_) hsol
    · simp only [SoplexLpi.lib]; rw [((hi.bnds _ hb).1 j hj).1]
    · simp only [SoplexLpi.lib]; rw [((hi.bnds _ hb).1 j hj).2]
    · simp only [SoplexLpi.lib]; rw [((hi.bnds _ hb).2 i hi').1]
    · simp only [SoplexLpi.lib]; rw [((hi.bnds _ hb).2 i hi').2]
    · rw [ho]; exact hi.costs j hj
  exact hcert.congr (fun j hj => if_pos hj) (fun i hi' => if_pos hi') fun j hj => if_pos hj

/-- C135 (Gurobi, part): the same for Gurobi, which solves a program with further columns for the values of rows and equations as rows: the multipliers of
the equations are those of the rows.  Missing: as in `C80_gurobi_partial`, positions that were stored once have to be stored again. -/
theorem C135_gurobi_partial {infty : K} {n m : Nat} {s : GurobiLpi K} {h : List (LpiOp K Int)} {lp : LpArrays K}
    (hw : ∀ a, .coeffs a ∈ h → a.WF) (hr : (GurobiLpi.create infty n m).run h = some s) (hl : lastLp n m h = some lp)
    (hk : SparsityKept h) (vs cs : Nat → Int) {s' : GurobiLpi K} (hs' : s.step (.solve vs cs) = some s') {obj : K} {sol : GurobiSol K}
    (hsol : s'.Certified infty obj sol.x sol.pi sol.rc) (old oldVars oldCons : Nat → K) :
    LpCertified infty lp obj (gurobiPrimalSol n sol old) (gurobiDualSol n m sol true true oldVars oldCons).2
      (gurobiDualSol n m sol true true oldVars oldCons).1 := by
  obtain ⟨t, ht, hsolve⟩ := C80_gurobi_partial hw hr hl hk vs cs
  rw [hs'] at ht
  obtain rfl := Option.some.inj ht
  obtain ⟨hn, hm, ho, hb, ha⟩ := lastLp_eq hl
  have hi := gurobi_run_inv hw hr
  have hst : s.step (.solve vs cs) = some { s with basis := some ⟨vs, cs⟩ } := rfl
  rw [hs'] at hst
  obtain rfl := Option.some.inj hst
  have hcoef : ∀ i, ∀ j < n, s.a i j = lp.coeffs.value i j := fun i j hj => by
    by_cases hst : ∃ e ∈ lp.coeffs.col j, e.1 = i
    · exact hi.stored _ ha i j hj hst
    · have h0 : s.a i j = 0 := by
        refine hi.other i j hj fun a' ha' hst' => hst ?_
        obtain ⟨e, he, rfl⟩ := hst'
        exact hk _ ha a' ha' j (by rw [gurobi_dims hr a' ha']; exact hj) e he
      have h1 : lp.coeffs.value i j = 0 := by
        show valAt (lp.coeffs.col j) i = 0
        unfold valAt
        rw [at?_none_of_forall fun e he h => hst ⟨e, he, h⟩]
        rfl
      exact h0.trans h1.symm
  subst hn hm
  have hbd := hi.bnds _ hb
  have hrc : ∀ i < lp.numCons, sol.rc (lp.numVars + i) = sol.pi i := fun i hi' => by
    have e := hsol.stat (lp.numVars + i) (by show _ < s.numCols + s.numRows; rw [hi.cols, hi.rows]; omega)
    have e1 : s.obj (lp.numVars + i) = ∑ k ∈ range s.numRows, s.a k (lp.numVars + i) * sol.pi k + sol.rc (lp.numVars + i) := e
    rw [hi.slackObj _ (Nat.le_add_right _ _), hi.rows, sum_eq_single i, hi.slack _ _ (Nat.le_add_right _ _), if_pos rfl] at e1
    · rw [neg_one_mul] at e1
      exact (neg_add_eq_zero.mp e1.symm).symm
    · intro k _ hk'
      rw [hi.slack _ _ (Nat.le_add_right _ _), if_neg (by omega), zero_mul]
    · exact fun hb' => absurd (mem_range.mpr hi') hb'
  have hcert : LpCertified infty lp obj sol.x sol.pi sol.rc := by
    refine ⟨hsolve.sound _ hsol.feas, hsol.val.trans (hsolve.cost _), fun j hj => ?_, fun j hj hz => ?_, fun j hj hz => ?_, fun i hi' hy => ?_, fun i hi' hy => ?_⟩
    · have e : s.obj j = ∑ k ∈ range s.numRows, s.a k j * sol.pi k + sol.rc j := hsol.stat j (by show _ < s.numCols + s.numRows; rw [hi.cols]; omega)
      rw [ho, ← hi.costs j hj, e, hi.rows]
      congr 1
      exact sum_congr rfl fun i _ => by rw [hcoef i j hj]
    · have := hsol.pos j (by show _ < s.numCols + s.numRows; rw [hi.cols]; omega) hz
      have e : -infty < s.lb j ∧ sol.x j = s.lb j := this
      rwa [(hbd.1 j hj).1] at e
    · have := hsol.neg j (by show _ < s.numCols + s.numRows; rw [hi.cols]; omega) hz
      have e : s.ub j < infty ∧ sol.x j = s.ub j := this
      rwa [(hbd.1 j hj).2] at e
    · have := hsol.pos (lp.numVars + i) (by show _ < s.numCols + s.numRows; rw [hi.cols, hi.rows]; omega) (by rw [hrc i hi']; exact hy)
      have e : -infty < s.lb (lp.numVars + i) ∧ sol.x (lp.numVars + i) = s.lb (lp.numVars + i) := this
      rwa [(hbd.2 i hi').1, hsolve.rows _ hsol.feas i hi'] at e
    · have := hsol.neg (lp.numVars + i) (by show _ < s.numCols + s.numRows; rw [hi.cols, hi.rows]; omega) (by rw [hrc i hi']; exact hy)
      have e : s.ub (lp.numVars + i) < infty ∧ sol.x (lp.numVars + i) = s.ub (lp.numVars + i) := this
      rwa [(hbd.2 i hi').2, hsolve.rows _ hsol.feas i hi'] at e
  exact hcert.congr (fun j hj => if_pos hj) (fun i hi' => if_pos hi') fun j hj => if_pos hj

omit [Field K] [LinearOrder K] in
theorem highsGet_beyond {n m : Nat} {sol : HighsField → Nat → K} {arg : HighsField → HighsArr} {a : HighsArr} {k : Nat} :
    ∀ (order : List HighsField) (st : HighsArr → Nat → K), (∀ f, arg f = a → f.count n m ≤ k) → highsGet n m sol arg order st a k = st a k := by
  intro order
  induction order with
  | nil => exact fun _ _ => rfl
  | cons f l ih =>
    intro st h
    refine (ih (fun a => if a = arg f then firstN (f.count n m) (sol f) (st a) else st a) h).trans ?_
    show (if a = arg f then firstN (f.count n m) (sol f) (st a) else st a) k = st a k
    by_cases e : a = arg f
    · rw [if_pos e]; exact if_neg (Nat.not_lt.mpr (h f e.symm))
    · rw [if_neg e]

omit [Field K] [LinearOrder K] in
/-- C135: no back end changes entries behind the last variable or constraint, whatever the library has found and in whatever order it copies. -/
theorem C135_beyond {n m : Nat} (vars cons : Bool) (hs : HighsField → Nat → K) (order : List HighsField) (st : HighsArr → Nat → K) (gs : GurobiSol K)
    (ss : SoplexSol K) (old oldCons : Nat → K) :
    (∀ k, n ≤ k → highsPrimalSol n m hs order st k = st .userCols k ∧ (highsDualSol n m hs order vars cons st).1 k = st .userCols k ∧
      gurobiPrimalSol n gs old k = old k ∧ (gurobiDualSol n m gs vars cons old oldCons).1 k = old k ∧
      (∀ x, soplexPrimalSol n ss old = some x → x k = old k) ∧ ∀ r, soplexDualSol n m ss vars cons old oldCons = some r → r.1 k = old k) ∧
    ∀ k, m ≤ k → (highsDualSol n m hs order vars cons st).2 k = st .userRows k ∧ (gurobiDualSol n m gs vars cons old oldCons).2 k = oldCons k ∧
      ∀ r, soplexDualSol n m ss vars cons old oldCons = some r → r.2 k = oldCons k := by
  have keep : ∀ {b : Bool} {l : Nat} {f g : Nat → K} {k : Nat}, l ≤ k → (if b then firstN l f g else g) k = g k := fun {b l f g k} h => by
    cases b
    · rfl
    · exact if_neg (Nat.not_lt.mpr h)
  refine ⟨fun k hk => ⟨?_, ?_, if_neg (Nat.not_lt.mpr hk), keep hk, fun x hx => ?_, fun r hr => ?_⟩, fun k hk => ⟨?_, keep hk, fun r hr => ?_⟩⟩
  · exact highsGet_beyond order st fun f hf => by cases f <;> first | exact hk | cases hf
  · exact highsGet_beyond order st fun f hf => by cases f <;> cases vars <;> cases cons <;> first | exact hk | cases hf
  · unfold soplexPrimalSol at hx
    by_cases hf : ss.found = true
    · rw [if_pos hf] at hx; obtain rfl := Option.some.inj hx; exact if_neg (Nat.not_lt.mpr hk)
    · rw [if_neg hf] at hx; cases hx
  · unfold soplexDualSol at hr
    by_cases hf : ((vars || cons) && !ss.found) = true
    · rw [if_pos hf] at hr; cases hr
    · rw [if_neg hf] at hr; obtain rfl := Option.some.inj hr; exact keep hk
  · exact highsGet_beyond order st fun f hf => by cases f <;> cases vars <;> cases cons <;> first | exact hk | cases hf
  · unfold soplexDualSol at hr
    by_cases hf : ((vars || cons) && !ss.found) = true
    · rw [if_pos hf] at hr; cases hr
    · rw [if_neg hf] at hr; obtain rfl := Option.some.inj hr; exact keep hk

omit [Field K] [LinearOrder K] in
/-- C135 (Gurobi and SoPlex): arrays that are not given are not changed; if none is given, SoPlex needs no solution. -/
theorem C135_absent {n m : Nat} (vars cons : Bool) (gs : GurobiSol K) (ss : SoplexSol K) (old oldCons : Nat → K) :
    (vars = false → (gurobiDualSol n m gs vars cons old oldCons).1 = old ∧ ∀ r, soplexDualSol n m ss vars cons old oldCons = some r → r.1 = old) ∧
    (cons = false → (gurobiDualSol n m gs vars cons old oldCons).2 = oldCons ∧ ∀ r, soplexDualSol n m ss vars cons old oldCons = some r → r.2 = oldCons) ∧
    (vars = false → cons = false → soplexDualSol n m ss vars cons old oldCons = some (old, oldCons)) := by
  refine ⟨fun h => ⟨by subst h; rfl, fun r hr => ?_⟩, fun h => ⟨by subst h; rfl, fun r hr => ?_⟩, fun h h' => by subst h h'; rfl⟩
  all_goals
    subst h
    unfold soplexDualSol at hr
    split_ifs at hr <;> cases hr <;> first | rfl | contradiction

/-! ### Examples -/

theorem exCert {l : LibLp ℚ} (h1 : l.colLb 0 = some (-4)) (h2 : l.colUb 0 = some 4) (h3 : l.rowLb 0 = some (-4)) (h4 : l.rowUb 0 = some 1)
    (h5 : l.a 0 0 = 1) (h6 : l.obj 0 = 3) : l.Certified 1 1 (-12) (fun _ => -4) (fun _ => 1) (fun _ => 2) := by
  refine ⟨⟨fun j hj => ?_, fun j hj => ?_, fun i hi => ?_, fun i hi => ?_⟩, ?_, fun j hj => ?_, fun j hj _ => ?_,
    fun j _ h => absurd h (by decide +kernel), fun i hi _ => ?_, fun i _ h => absurd h (by decide +kernel)⟩
  all_goals try obtain rfl := Nat.lt_one_iff.mp hj
  all_goals try obtain rfl := Nat.lt_one_iff.mp hi
  · intro b hb; rw [h1] at hb; cases hb; exact le_rfl
  · intro b hb; rw [h2] at hb; cases hb; decide +kernel
  · rw [sum_range_one, h5]
    intro b hb; rw [h3] at hb; cases hb; decide +kernel
  · rw [sum_range_one, h5]
    intro b hb; rw [h4] at hb; cases hb; decide +kernel
  · rw [LibLp.cost, sum_range_one, h6]; norm_num
  · rw [sum_range_one, h5, h6]; norm_num
  · exact h1
  · rw [sum_range_one, h5, h3]; norm_num

/-- a solution of the example: values -4, row values -4, multipliers 2 and 1 -/
def exHighsSol : HighsField → Nat → ℚ
  | .colValue => fun _ => -4
  | .colDual => fun _ => 2
  | .rowValue => fun _ => -4
  | .rowDual => fun _ => 1

/-- the order of the arguments -/
def argOrder : List HighsField := [.colValue, .colDual, .rowValue, .rowDual]

theorem argOrder_ok (l1 l2 : List HighsField) (h : argOrder = l1 ++ .rowDual :: l2) : .rowValue ∉ l2 := by
  have hl : l1.length + l2.length = 3 := by have := congrArg List.length h; simp [argOrder] at this; omega
  have e : argOrder[l1.length]? = some .rowDual := by rw [h]; simp
  have h3 : l1.length = 3 := by
    have : l1.length ≤ 3 := by omega
    interval_cases hk : l1.length <;> first | rfl | (exact absurd e (by decide))
  have : l2 = [] := List.length_eq_zero_iff.mp (by omega)
  rw [this]; exact List.not_mem_nil

example : ∃ lp, lastLp 1 1 (exCalls HighsStat.basic) = some lp ∧ lp.obj 0 = 3 ∧
    LpCertified (128 / 2) lp (-12) (highsPrimalSol 1 1 exHighsSol argOrder fun _ _ => 7) (highsDualSol 1 1 exHighsSol argOrder true true fun _ _ => 7).2
      (highsDualSol 1 1 exHighsSol argOrder true true fun _ _ => 7).1 :=
  ⟨_, rfl, rfl, (C135_highs_partial (inf := 128) (s0 := exHighs) (h := exCalls .basic) rfl rfl (fun _ => .basic) (fun _ => .lower) rfl
    (exCert (by decide +kernel) (by decide +kernel) (by decide +kernel) (by decide +kernel) (by decide +kernel) (by decide +kernel))
    (fun f => by cases f <;> decide) argOrder_ok _ _ true true).1 rfl rfl⟩

example : ∃ lp, lastLp 1 1 (exCalls HighsStat.basic) = some lp ∧ ∀ x', LpFeasible 64 lp x' → -12 ≤ lp.cost x' :=
  ⟨_, rfl, C135_optimal (libLp_certified (l := ⟨fun _ => 3, fun _ => some (-4), fun _ => some 4, fun _ => some (-4), fun _ => some 1, fun _ _ => 1⟩)
    (fun j hj => by obtain rfl := Nat.lt_one_iff.mp hj; decide +kernel) (fun j hj => by obtain rfl := Nat.lt_one_iff.mp hj; decide +kernel)
    (fun i hi => by obtain rfl := Nat.lt_one_iff.mp hi; decide +kernel) (fun i hi => by obtain rfl := Nat.lt_one_iff.mp hi; decide +kernel)
    (fun i hi j hj => by obtain rfl := Nat.lt_one_iff.mp hi; obtain rfl := Nat.lt_one_iff.mp hj; decide +kernel)
    (fun j hj => by obtain rfl := Nat.lt_one_iff.mp hj; decide +kernel) (exCert rfl rfl rfl rfl rfl rfl))⟩

example : ∃ lp x z y, lastLp 1 1 (exCalls SpxStat.basic) = some lp ∧
    soplexPrimalSol 1 ⟨true, fun _ => -4, fun _ => 1, fun _ => 2⟩ (fun _ => 7) = some x ∧
    soplexDualSol 1 1 ⟨true, fun _ => -4, fun _ => 1, fun _ => 2⟩ true true (fun _ => 7) (fun _ => 7) = some (z, y) ∧
    LpCertified (64 : ℚ) lp (-12) x y z := by
  obtain ⟨x, z, y, h⟩ := C135_soplex (debug := true) (fe := (1 : ℚ)) (se := 1) (infty := 64) (h := exCalls .basic) rfl rfl (fun _ => .basic) (fun _ => .onLower) rfl
    (sol := ⟨true, fun _ => -4, fun _ => 1, fun _ => 2⟩) rfl
    (exCert (by decide +kernel) (by decide +kernel) (by decide +kernel) (by decide +kernel) (by decide +kernel) (by decide +kernel))
    (fun _ => 7) (fun _ => 7) (fun _ => 7)
  exact ⟨_, x, z, y, rfl, h⟩

/-- What is missing in `C135_highs_partial`: as the array for the multipliers of the rows is given for their values, too, a library which copies these values
later than the multipliers leaves values of rows where the caller expects multipliers, and these do not belong to an optimal solution. -/
theorem C135_highs_order : ∃ (s s' : HighsLpi ℚ) (lp : LpArrays ℚ) (sol : HighsField → Nat → ℚ) (order : List HighsField),
    (HighsLpi.create 1 1 exHighs).run 128 (exCalls .basic) = some s ∧ lastLp 1 1 (exCalls HighsStat.basic) = some lp ∧
    s.step 128 (.solve (fun _ => .basic) (fun _ => .lower)) = some s' ∧
    s'.lib.Certified 1 1 (-12) (sol .colValue) (sol .rowDual) (sol .colDual) ∧ (∀ f, f ∈ order) ∧
    ∀ st, (highsDualSol 1 1 sol order true true st).2 0 = sol .rowValue 0 ∧
      ∀ x z, ¬ LpCertified (128 / 2) lp (-12) x (highsDualSol 1 1 sol order true true st).2 z := by
  refine ⟨_, _, _, exHighsSol, [.colDual, .rowDual, .colValue, .rowValue], rfl, rfl, rfl,
    exCert (by decide +kernel) (by decide +kernel) (by decide +kernel) (by decide +kernel) (by decide +kernel) (by decide +kernel),
    fun f => by cases f <;> decide, fun st => ⟨rfl, fun x z h => ?_⟩⟩
  -- the stored multiplier is negative, so that the row would have to be at its upper bound 1, with objective 3
  have h1 := (h.consNeg 0 Nat.one_pos (by show (-4 : ℚ) < 0; decide +kernel)).2
  have hv := h.val
  unfold LpArrays.row at h1
  unfold LpArrays.cost at hv
  rw [show ∀ f : Nat → ℚ, ∑ j ∈ range 1, f j = f 0 from fun f => sum_range_one f] at h1 hv
  have e1 : (1 : ℚ) * x 0 = 1 := h1
  have e2 : (-12 : ℚ) = 3 * x 0 := hv
  rw [one_mul] at e1
  rw [e1] at e2
  exact absurd e2 (by decide +kernel)

theorem exGurobiCert {s : GurobiLpi ℚ} (hn : s.numCols = 1) (hm : s.numRows = 1) (l0 : s.lb 0 = -4) (u0 : s.ub 0 = 4) (l1 : s.lb 1 = -4) (u1 : s.ub 1 = 1)
    (a0 : s.a 0 0 = 1) (a1 : s.a 0 1 = -1) (o0 : s.obj 0 = 3) (o1 : s.obj 1 = 0) :
    s.Certified 64 (-12) (fun _ => -4) (fun _ => 1) (fun c => if c = 0 then 2 else 1) := by
  have two : ∀ {c}, c < s.numCols + s.numRows → c = 0 ∨ c = 1 := fun hc => by rw [hn, hm] at hc; omega
  refine ⟨⟨fun c hc => ?_, fun i hi => ?_⟩, ?_, fun c hc => ?_, fun c hc _ => ?_, fun c hc h => ?_⟩
  · rcases two hc with rfl | rfl
    · rw [l0, u0]; exact ⟨Or.inr (by decide +kernel), Or.inr (by decide +kernel)⟩
    · rw [l1, u1]; exact ⟨Or.inr (by decide +kernel), Or.inr (by decide +kernel)⟩
  · obtain rfl : i = 0 := by omega
    rw [hn, hm, sum_range_succ, sum_range_one, a0, a1]; norm_num
  · unfold GurobiLpi.cost
    rw [hn, hm, sum_range_succ, sum_range_one, o0, o1]; norm_num
  · rcases two hc with rfl | rfl
    · rw [hm, sum_range_one, a0, o0]; norm_num
    · rw [hm, sum_range_one, a1, o1]; norm_num
  · rcases two hc with rfl | rfl
    · rw [l0]; exact ⟨by decide +kernel, rfl⟩
    · rw [l1]; exact ⟨by decide +kernel, rfl⟩
  · rcases two hc with rfl | rfl
    · exact absurd h (by decide +kernel)
    · exact absurd h (by decide +kernel)

example : ∃ lp, lastLp 1 1 (exCalls (0 : Int)) = some lp ∧
    LpCertified (64 : ℚ) lp (-12) (gurobiPrimalSol 1 ⟨fun _ => -4, fun _ => 1, fun c => if c = 0 then 2 else 1⟩ fun _ => 7)
      (gurobiDualSol 1 1 ⟨fun _ => -4, fun _ => 1, fun c => if c = 0 then 2 else 1⟩ true true (fun _ => 7) fun _ => 7).2
      (gurobiDualSol 1 1 ⟨fun _ => -4, fun _ => 1, fun c => if c = 0 then 2 else 1⟩ true true (fun _ => 7) fun _ => 7).1 := by
  refine ⟨_, rfl, C135_gurobi_partial (infty := 64) (h := exCalls 0) ?_ rfl rfl ?_ (fun _ => 0) (fun _ => 0) rfl
    (exGurobiCert rfl rfl (by decide +kernel) (by decide +kernel) (by decide +kernel) (by decide +kernel) (by decide +kernel) (by decide +kernel)
      (by decide +kernel) (by decide +kernel)) _ _ _⟩
  · intro a ha
    simp only [exCalls, exBounds, List.mem_cons, LpiOp.coeffs.injEq, List.not_mem_nil, or_false, reduceCtorEq, false_or] at ha
    subst ha
    refine ⟨rfl, by decide, rfl, by decide, fun j hj => ?_, fun j hj => ?_⟩
    · obtain rfl : j = 0 := Nat.lt_one_iff.mp hj
      exact List.pairwise_singleton _ _
    · obtain rfl : j = 0 := Nat.lt_one_iff.mp hj
      decide +kernel
  · intro a ha a' ha' j hj e he
    obtain rfl : exLpMat = a := Option.some.inj ha
    simp only [exCalls, exBounds, List.mem_cons, LpiOp.coeffs.injEq, List.not_mem_nil, or_false, reduceCtorEq, false_or] at ha'
    subst ha'
    exact ⟨e, he, rfl⟩

-- arrays longer than needed, and only the one for constraints given
example : (gurobiDualSol 1 1 ⟨fun _ => (-4 : ℚ), fun _ => 1, fun _ => 2⟩ true true (fun _ => 7) fun _ => 7).1 1 = 7 ∧
    (highsDualSol 1 1 exHighsSol argOrder false true fun _ _ => 7).1 0 = 7 ∧ (highsDualSol 1 1 exHighsSol argOrder false true fun _ _ => 7).2 0 = 1 ∧
    (highsDualSol 1 1 exHighsSol argOrder false true fun _ _ => 7).2 1 = 7 := by decide +kernel

end Sleqp
