import Verif.Lemmas.PresolveRun
import Verif.Model.Transform
import Verif.Props.Mat
import Mathlib.Data.Finset.Max
import Mathlib.Data.Finset.Prod
import Mathlib.Data.Fintype.Basic
import Mathlib.Tactic.Push
import Mathlib.Algebra.BigOperators.Ring.Finset

/-! Helper lemmas: the invariant of the analysis made by preprocessing. -/

namespace Sleqp

open Finset

/-- number of indices below `n` with a property -/
def cntP (n : Nat) (P : Nat → Bool) : Nat := (List.range n).countP P

theorem cntP_congr {n : Nat} {P Q : Nat → Bool} (h : ∀ j < n, P j = Q j) : cntP n P = cntP n Q := by
  unfold cntP
  exact List.countP_congr fun j hj => by rw [h j (List.mem_range.mp hj)]

theorem cntP_le {n : Nat} {P Q : Nat → Bool} (h : ∀ j < n, P j = true → Q j = true) : cntP n P ≤ cntP n Q := by
  unfold cntP
  exact List.countP_mono_left fun j hj => h j (List.mem_range.mp hj)

theorem cntP_set {n j : Nat} {P Q : Nat → Bool} (hj : j < n) (h : ∀ i, i ≠ j → Q i = P i) (hP : P j = false)
    (hQ : Q j = true) : cntP n Q = cntP n P + 1 := by
  unfold cntP
  induction n with
  | zero => exact absurd hj (Nat.not_lt_zero _)
  | succ n ih =>
    rw [List.range_succ, List.countP_append, List.countP_append]
    by_cases hjn : j = n
    · subst hjn
      have : (List.range j).countP Q = (List.range j).countP P :=
        List.countP_congr fun i hi => by rw [h i (ne_of_lt (List.mem_range.mp hi))]
      rw [this]; simp [hP, hQ]
    · rw [ih (by omega)]
      simp only [List.countP_cons, List.countP_nil, h n (Ne.symm hjn)]
      omega

theorem cntP_false (n : Nat) : cntP n (fun _ => false) = 0 := by
  unfold cntP; simp

section
variable {K : Type*} [Field K] [LinearOrder K]

/-- what the state says about fixed variables and removed rows -/
structure PCore (inf : K) (p : Prob K) (s : Presolve K) : Prop where
  fixedOk : ∀ j < p.numVars, ∀ v, (s.varSt j).fixed? = some v → ∀ x, p.Pts inf x → x j = v
  red : ∀ i < p.numLin, s.consSt i = .redundant →
    (∀ x, p.Pts inf x → p.linLb.value i < p.activity x i ∧ p.activity x i < p.linUb.value i) ∨
    (∀ x, p.FiniteAt inf x → (∀ j < p.numVars, p.VarOk x j) → p.RowOk x i) ∨
    (∀ j < p.numVars, p.coeffs.value i j ≠ 0 → (s.varSt j).fixed?.isSome = true)
  conv : ∀ b ∈ s.conv, b.cons < p.numLin ∧ b.var < p.numVars ∧
    ∀ x, p.RowOk x b.cons ↔ b.lb ≤ x b.var ∧ x b.var ≤ b.ub
  convSt : ∀ i < p.numLin, ∀ k, s.consSt i = .boundConverted k → ∃ b ∈ s.conv, b.cons = i
  feas : s.infeasible = false
  nFixed : s.numFixed = cntP p.numVars fun j => (s.varSt j).fixed?.isSome
  nRem : s.numRemovedCons = cntP p.numLin fun i => decide (s.consSt i ≠ .unchanged)

/-- no requirement has been recorded yet -/
structure PEarly (s : Presolve K) : Prop where
  consReq : ∀ i, s.consSt i = .unchanged → s.consReq i = .required
  both : ∀ i, s.consSt i ≠ .unchanged → s.consReq i = .required ∨ s.consReq i = ⟨true, true⟩
  numCons : s.numConsBounds = 0
  varReq : ∀ j, s.varReq j = .required
  numVar : s.numVarBounds = 0

/-- what the recorded requirements say -/
structure PReq (inf : K) (p : Prob K) (s : Presolve K) : Prop where
  varLo : ∀ j < p.numVars, (s.varReq j).lower = true → ∀ x, p.Pts inf x → p.varLb.value j < x j
  varUp : ∀ j < p.numVars, (s.varReq j).upper = true → ∀ x, p.Pts inf x → x j < p.varUb.value j
  consLo : ∀ i < p.numLin, s.consSt i = .unchanged → (s.consReq i).lower = true →
    ∀ x, p.Pts inf x → p.linLb.value i < p.activity x i
  consUp : ∀ i < p.numLin, s.consSt i = .unchanged → (s.consReq i).upper = true →
    ∀ x, p.Pts inf x → p.activity x i < p.linUb.value i
  both : ∀ i, s.consSt i ≠ .unchanged → s.consReq i = .required ∨ s.consReq i = ⟨true, true⟩
  numVar : s.numVarBounds = cntP p.numVars fun j => decide (s.varReq j ≠ .required)
  numCons : s.numConsBounds = cntP p.numLin fun i => decide (s.consReq i ≠ .required) && decide (s.consSt i = .unchanged)

theorem PCore.congr {inf : K} {p : Prob K} {s t : Presolve K} (h : PCore inf p s) (h1 : t.varSt = s.varSt)
    (h2 : t.consSt = s.consSt) (h3 : t.conv = s.conv) (h4 : t.infeasible = s.infeasible)
    (h5 : t.numFixed = s.numFixed) (h6 : t.numRedundant = s.numRedundant) : PCore inf p t := by
  constructor
  · rw [h1]; exact h.fixedOk
  · rw [h1, h2]; exact h.red
  · rw [h3]; exact h.conv
  · rw [h2, h3]; exact h.convSt
  · rw [h4]; exact h.feas
  · rw [h1, h5]; exact h.nFixed
  · unfold Presolve.numRemovedCons; rw [h2, h3, h6]; exact h.nRem

/-- removal of a row for one of the three reasons -/
theorem PCore.removeCons {inf : K} {p : Prob K} {s : Presolve K} (h : PCore inf p s) {i : Nat} (hi : i < p.numLin)
    (hu : s.consSt i = .unchanged)
    (hr : (∀ x, p.Pts inf x → p.linLb.value i < p.activity x i ∧ p.activity x i < p.linUb.value i) ∨
      (∀ x, p.FiniteAt inf x → (∀ j < p.numVars, p.VarOk x j) → p.RowOk x i) ∨
      (∀ j < p.numVars, p.coeffs.value i j ≠ 0 → (s.varSt j).fixed?.isSome = true)) :
    ∃ t, s.removeCons i = some t ∧ PCore inf p t ∧ t.varSt = s.varSt ∧ (PEarly s → PEarly t) := by
  refine ⟨{ s with
      consSt := setAt s.consSt i .redundant
      consReq := setAt s.consReq i ⟨true, true⟩
      numRedundant := s.numRedundant + 1 }, by unfold Presolve.removeCons; rw [if_pos hu], ?_, rfl, ?_⟩
  · constructor
    · exact h.fixedOk
    · intro k hk hst
      by_cases hki : k = i
      · rw [hki]; exact hr
      · simp only [setAt_ne _ _ hki] at hst
        exact h.red k hk hst
    · exact h.conv
    · intro k hk n hst
      by_cases hki : k = i
      · simp only [hki, setAt_same] at hst; cases hst
      · simp only [setAt_ne _ _ hki] at hst
        exact h.convSt k hk n hst
    · exact h.feas
    · exact h.nFixed
    · have := h.nRem
      rw [cntP_set (P := fun i => decide (s.consSt i ≠ .unchanged)) (j := i) hi
        (fun k hk => by simp only [setAt_ne _ _ hk]) (by simp [hu]) (by simp [setAt_same]), ← this]
      unfold Presolve.numRemovedCons
      simp only []
      omega
  · intro e
    constructor
    · intro k hst
      by_cases hki : k = i
      · simp only [hki, setAt_same] at hst; cases hst
      · simp only [setAt_ne _ _ hki] at hst ⊢
        exact e.consReq k hst
    · intro k hst
      by_cases hki : k = i
      · right; simp only [hki, setAt_same]
      · simp only [setAt_ne _ _ hki] at hst ⊢
        exact e.both k hst
    · exact e.numCons
    · exact e.varReq
    · exact e.numVar

variable [IsStrictOrderedRing K]

theorem relDiff0 {x y : K} : isLt x y 0 = true ↔ x < y := by
  refine ⟨isLt_lt le_rfl, fun h => ?_⟩
  unfold isLt relDiff
  rw [decide_eq_true_eq, neg_zero]
  exact div_neg_of_neg_of_pos (by linarith) (lt_of_lt_of_le one_pos (le_max_right _ _))

/-- activities at points of finite size -/
theorem activity_lt {inf : K} {p : Prob K} {x : Nat → K} (hx : p.FiniteAt inf x) {i : Nat} (hi : i < p.numLin) :
    |p.activity x i| < inf / 2 :=
  lt_of_le_of_lt (Finset.abs_sum_le_sum_abs _ _) (hx.terms i hi)

/-! ### first loop: fixed variables -/

theorem fixStep_inv {inf : K} {p : Prob K} (n : Nat) (hn : n ≤ p.numVars) :
    ∃ s, (List.range n).foldlM (fixStep p.varLb.value p.varUb.value) (Presolve.init : Presolve K) = some s ∧
      PCore inf p s ∧ PEarly s ∧ (∀ j v, (s.varSt j).fixed? = some v → j < n ∧ p.varLb.value j = v ∧ p.varUb.value j = v) ∧
      ∀ i, s.consSt i = .unchanged := by
  induction n with
  | zero =>
    refine ⟨Presolve.init, rfl, ?_, ?_, ?_, fun _ => rfl⟩
    · constructor
      · intro j _ v h; cases h
      · intro i _ h; cases h
      · intro b hb; cases hb
      · intro i _ k h; cases h
      · rfl
      · show 0 = _; symm; exact cntP_false _
      · show 0 = _
        rw [cntP_congr (Q := fun _ => false) (fun _ _ => by simp [Presolve.init])]; exact (cntP_false _).symm
    · exact ⟨fun _ _ => rfl, fun _ h => absurd rfl h, rfl, fun _ => rfl, rfl⟩
    · intro j v h; cases h
  | succ n ih =>
    obtain ⟨s, h1, h2, h3, h4, h5⟩ := ih (by omega)
    rw [List.range_succ, List.foldlM_append, h1]
    by_cases hb : p.varLb.value n = p.varUb.value n
    · have hu : s.varSt n = .unchanged := by
        rcases hs : s.varSt n with _ | v | v
        · rfl
        · have := (h4 n v (by rw [hs]; rfl)).1; omega
        · have := (h4 n v (by rw [hs]; rfl)).1; omega
      refine ⟨{ s with varSt := setAt s.varSt n (.boundFixed (p.varLb.value n)), numFixed := s.numFixed + 1 }, ?_, ?_, ?_, ?_, h5⟩
      · show ([n].foldlM (fixStep p.varLb.value p.varUb.value) s) = _
        rw [List.foldlM_cons]
        unfold fixStep Presolve.fixVar
        rw [if_pos hb, if_pos hu]; rfl
      · constructor
        · intro j hj v hv x hx
          by_cases hjn : j = n
          · subst hjn
            simp only [setAt_same] at hv
            cases hv
            exact le_antisymm (by rw [hb]; exact (hx.1.1 j hj).2) (hx.1.1 j hj).1
          · simp only [setAt_ne _ _ hjn] at hv
            exact h2.fixedOk j hj v hv x hx
        · intro i hi hr; rw [show s.consSt i = _ from h5 i] at hr; cases hr
        · exact h2.conv
        · exact h2.convSt
        · exact h2.feas
        · rw [cntP_set (P := fun j => (s.varSt j).fixed?.isSome) (j := n) (by omega)
            (fun k hk => by simp only [setAt_ne _ _ hk]) (by simp [hu, VarSt.fixed?]) (by simp [setAt_same, VarSt.fixed?]),
            ← h2.nFixed]
        · exact h2.nRem
      · exact ⟨h3.consReq, h3.both, h3.numCons, h3.varReq, h3.numVar⟩
      · intro j v hv
        by_cases hjn : j = n
        · subst hjn
          simp only [setAt_same] at hv
          cases hv
          exact ⟨by omega, rfl, hb.symm⟩
        · simp only [setAt_ne _ _ hjn] at hv
          obtain ⟨a, b⟩ := h4 j v hv
          exact ⟨by omega, b⟩
    · refine ⟨s, ?_, h2, h3, fun j v hv => ⟨by have := (h4 j v hv).1; omega, (h4 j v hv).2⟩, h5⟩
      show ([n].foldlM (fixStep p.varLb.value p.varUb.value) s) = _
      rw [List.foldlM_cons]
      unfold fixStep
      rw [if_neg hb]; rfl

/-! ### second loop: empty and single rows -/

/-- the bounds a single coefficient implies -/
theorem conv_iff {p : Prob K} {i j : Nat} {v inf : K} (hv : v ≠ 0) (hact : ∀ x, p.activity x i = v * x j) (x : Nat → K) :
    p.RowOk x i ↔
      (convBoundOf inf p.varLb.value p.varUb.value (p.linLb.value i) (p.linUb.value i) i j v).lb ≤ x j ∧
      x j ≤ (convBoundOf inf p.varLb.value p.varUb.value (p.linLb.value i) (p.linUb.value i) i j v).ub := by
  unfold Prob.RowOk convBoundOf
  rw [hact x]
  simp only []
  rcases lt_or_gt_of_ne hv with h | h
  · rw [if_pos h, if_pos h, div_le_iff_of_neg' h, le_div_iff_of_neg' h]
    exact ⟨fun a => ⟨a.2, a.1⟩, fun a => ⟨a.2, a.1⟩⟩
  · rw [if_neg (not_lt.mpr h.le), if_neg (not_lt.mpr h.le), div_le_iff₀' h, le_div_iff₀' h]

theorem counts_value {p : Prob K} (hp : p.WF) {i j : Nat} {v : K} (h : (consCounts p.coeffs i).2 = some (j, v)) :
    p.coeffs.value i j = v := by
  rw [counts_spec] at h
  obtain ⟨e, he, hev⟩ := Option.map_eq_some_iff.mp h
  have hm := mem_rowEnts (mem_rowNz (List.mem_of_getLast? he)).1
  have h1 : e.2.1 = j := by rw [hev]
  have h2 : e.2.2 = v := by rw [hev]
  rw [hm.1] at hm
  have := valAt_of_mem (hp.coeffs.srt e.2.1 hm.2.1) hm.2.2
  rw [h1, h2] at this
  exact this

theorem dropStep_inv {inf : K} (hinf : 0 < inf) {p : Prob K} (hp : p.WF) (hfc : p.FiniteCoeffs inf) {x0 : Nat → K}
    (hx0 : p.Pts inf x0) {s : Presolve K} (h : PCore inf p s) (he : PEarly s)
    (hfix : ∀ j v, (s.varSt j).fixed? = some v → p.varLb.value j = v ∧ p.varUb.value j = v) {i : Nat} (hi : i < p.numLin) :
    ∃ t, dropStep inf p.varLb.value p.varUb.value p.linLb.value p.linUb.value (consCounts p.coeffs) s i = some t ∧
      PCore inf p t ∧ PEarly t ∧ ∀ j v, (t.varSt j).fixed? = some v → p.varLb.value j = v ∧ p.varUb.value j = v := by
  unfold dropStep
  by_cases hu : s.consSt i = .unchanged
  swap
  · rw [if_pos hu]; exact ⟨s, rfl, h, he, hfix⟩
  rw [if_neg (by simpa using hu)]
  obtain ⟨r1, r2⟩ := hx0.1.2 i hi
  have hact0 := abs_lt.mp (activity_lt hx0.2 hi)
  split
  · rename_i hc
    simp only [Bool.and_eq_true, isInfinite, decide_eq_true_eq] at hc
    have hl : p.linLb.value i ≤ -(inf / 2) := by linarith [hc.1]
    have hup : inf / 2 ≤ p.linUb.value i := hc.2
    obtain ⟨t, t1, t2, t3, t4⟩ := h.removeCons hi hu (Or.inl fun x hx => by
      have := abs_lt.mp (activity_lt hx.2 hi)
      exact ⟨by linarith, by linarith⟩)
    exact ⟨t, t1, t2, t4 he, by rw [t3]; exact hfix⟩
  split
  · rename_i hc
    rw [if_neg (by
      have := counts_zero hp hc x0
      rw [this] at r1 r2
      rintro (a | a) <;> linarith)]
    obtain ⟨t, t1, t2, t3, t4⟩ := h.removeCons hi hu (Or.inr (Or.inl fun x _ _ => by
      unfold Prob.RowOk
      rw [counts_zero hp hc x, ← counts_zero hp hc x0]
      exact ⟨r1, r2⟩))
    exact ⟨t, t1, t2, t4 he, by rw [t3]; exact hfix⟩
  split
  · rename_i hc
    obtain ⟨j, v, c1, c2, c3, c4⟩ := counts_one hp hc
    have hfv : isFinite inf v = true := by
      rw [isFinite_iff, ← counts_value hp c1]; exact hfc i hi j c2
    rw [c1]
    unfold convertToBound
    rw [Option.bind_some, if_pos hfv]
    have hiff := conv_iff (inf := inf) c3 c4
    simp only []
    have hx0j := (hiff x0).mp ⟨r1, r2⟩
    set b := convBoundOf inf p.varLb.value p.varUb.value (p.linLb.value i) (p.linUb.value i) i j v with hb
    have bvar : b.var = j := rfl
    have bcons : b.cons = i := rfl
    have blow : b.lower = (isFinite inf b.lb && decide (b.lb > p.varLb.value j)) := rfl
    have bup : b.upper = (isFinite inf b.ub && decide (b.ub < p.varUb.value j)) := rfl
    obtain ⟨box1, box2⟩ := hx0.1.1 j c2
    have hx0f := abs_lt.mp (hx0.2.coord j c2)
    by_cases hlu : (b.lower || b.upper) = true
    · rw [if_pos hlu]
      have huv : s.varSt j = .unchanged := by
        by_contra hne
        obtain ⟨w, hw⟩ : ∃ w, (s.varSt j).fixed? = some w := by
          rcases hs : s.varSt j with _ | v | v
          · exact absurd hs hne
          · exact ⟨_, rfl⟩
          · exact ⟨_, rfl⟩
        obtain ⟨f1, f2⟩ := hfix j w hw
        rw [Bool.or_eq_true, blow, bup] at hlu
        simp only [Bool.and_eq_true, decide_eq_true_eq] at hlu
        rcases hlu with a | a
        · linarith [a.2, hx0j.1]
        · linarith [a.2, hx0j.2]
      refine ⟨{ s with conv := s.conv ++ [b], consSt := setAt s.consSt i (.boundConverted s.conv.length) }, ?_, ?_, ?_, hfix⟩
      · unfold Presolve.convertCons
        rw [bvar, bcons, if_pos ⟨huv, hu⟩]
      · constructor
        · exact h.fixedOk
        · intro k hk hst
          by_cases hki : k = i
          · simp only [hki, setAt_same] at hst; cases hst
          · simp only [setAt_ne _ _ hki] at hst
            exact h.red k hk hst
        · intro b' hb'
          rcases List.mem_append.mp hb' with a | a
          · exact h.conv b' a
          · rw [List.mem_singleton.mp a, bcons, bvar]
            exact ⟨hi, c2, hiff⟩
        · intro k hk n hst
          by_cases hki : k = i
          · exact ⟨b, by simp, by rw [bcons, hki]⟩
          · simp only [setAt_ne _ _ hki] at hst
            obtain ⟨b', b1, b2⟩ := h.convSt k hk n hst
            exact ⟨b', by simp [b1], b2⟩
        · exact h.feas
        · exact h.nFixed
        · have := h.nRem
          rw [cntP_set (P := fun i => decide (s.consSt i ≠ .unchanged)) (j := i) hi
            (fun k hk => by simp only [setAt_ne _ _ hk]) (by simp [hu]) (by simp [setAt_same]), ← this]
          unfold Presolve.numRemovedCons
          simp only [List.length_append, List.length_singleton]
          omega
      · constructor
        · intro k hst
          by_cases hki : k = i
          · simp only [hki, setAt_same] at hst; cases hst
          · simp only [setAt_ne _ _ hki] at hst ⊢
            exact he.consReq k hst
        · intro k hst
          by_cases hki : k = i
          · left; rw [hki]; exact he.consReq i hu
          · simp only [setAt_ne _ _ hki] at hst ⊢
            exact he.both k hst
        · exact he.numCons
        · exact he.varReq
        · exact he.numVar
    · rw [if_neg hlu]
      rw [Bool.or_eq_true, blow, bup] at hlu
      simp only [Bool.and_eq_true, decide_eq_true_eq, not_or, not_and] at hlu
      obtain ⟨t, t1, t2, t3, t4⟩ := h.removeCons hi hu (Or.inr (Or.inl fun x hxf hxb => by
        rw [hiff x]
        have hxj := hxb j c2
        have hxf := abs_lt.mp (hxf.coord j c2)
        constructor
        · by_cases hf : isFinite inf b.lb = true
          · exact le_trans (not_lt.mp (hlu.1 hf)) hxj.1
          · rw [Bool.not_eq_true, isFinite_false] at hf
            rcases le_abs.mp hf with a | a <;> linarith [hx0j.1]
        · by_cases hf : isFinite inf b.ub = true
          · exact le_trans hxj.2 (not_lt.mp (hlu.2 hf))
          · rw [Bool.not_eq_true, isFinite_false] at hf
            rcases le_abs.mp hf with a | a <;> linarith [hx0j.2]))
      exact ⟨t, t1, t2, t4 he, by rw [t3]; exact hfix⟩
  · exact ⟨s, rfl, h, he, hfix⟩

/-! ### third loop: rows with slack -/

theorem slackStep_inv {inf : K} (hinf : 0 < inf) {p : Prob K} (hp : p.WF)
    {s : Presolve K} (h : PCore inf p s) (he : PEarly s) {i : Nat} (hi : i < p.numLin) :
    ∃ t, slackStep inf 0 p.linLb.value p.linUb.value (linRange inf p.coeffs p.varLb.value p.varUb.value) s i = some t ∧
      PCore inf p t ∧ PEarly t := by
  unfold slackStep
  by_cases hu : s.consSt i = .unchanged
  swap
  · rw [if_pos hu]; exact ⟨s, rfl, h, he⟩
  rw [if_neg (by simpa using hu)]
  split
  · split
    · rename_i hc
      rw [Bool.and_eq_true] at hc
      obtain ⟨t, t1, t2, t3, t4⟩ := h.removeCons hi hu (Or.inl fun x hx => by
        obtain ⟨⟨a, b⟩, _⟩ := hp.range hinf hx.1.1 hx.2 hi
        have h1 := isLt_lt le_rfl hc.1
        have h2 := isGt_lt le_rfl hc.2
        exact ⟨by linarith, by linarith⟩)
      exact ⟨t, t1, t2, t4 he⟩
    · exact ⟨s, rfl, h, he⟩
  · exact ⟨s, rfl, h, he⟩

/-! ### fourth loop: forcing rows -/

theorem colCoeffs_eq {i : Nat} {l : List (Nat × K)} (hs : Srt l) :
    colCoeffs i l = if valAt l i = 0 then [] else [valAt l i] := by
  induction l with
  | nil => simp [colCoeffs, valAt, at?, orZero]
  | cons e t ih =>
    obtain ⟨h1, h2⟩ := List.pairwise_cons.mp hs
    obtain ⟨r, v⟩ := e
    have hz : ∀ k ≤ r, valAt t k = 0 := fun k hk => by
      rw [valAt_of_lt]
      intro a hat
      have := h1 a hat
      simp only at this
      omega
    have hv : valAt ((r, v) :: t) i = if r = i then v else valAt t i := valAt_cons ..
    rw [hv]
    unfold colCoeffs
    by_cases ha : r < i
    · have hne : r ≠ i := by omega
      rw [if_pos ha, ih h2]
      simp only [if_neg hne]
    · rw [if_neg ha]
      by_cases hb : i < r
      · have hne : r ≠ i := by omega
        rw [if_pos hb]
        simp only [if_neg hne, hz i hb.le, if_true]
      · have hri : r = i := by omega
        have h0 : colCoeffs i t = [] := by rw [ih h2, hz i hri.ge, if_pos rfl]
        rw [if_neg hb, h0]
        simp only [if_pos hri]

theorem countCoeffs_eq {i : Nat} {l : List (Nat × K)} (hs : Srt l) :
    countCoeffs i l = (colCoeffs i l).length := by
  induction l with
  | nil => rfl
  | cons e t ih =>
    obtain ⟨h1, h2⟩ := List.pairwise_cons.mp hs
    obtain ⟨r, v⟩ := e
    unfold countCoeffs colCoeffs
    by_cases ha : r < i
    · rw [if_pos ha, if_pos ha, ih h2]
    · rw [if_neg ha, if_neg ha]
      by_cases hb : i < r
      · rw [if_pos hb, if_pos hb]; rfl
      · rw [if_neg hb, if_neg hb]
        by_cases hv : v = 0
        · rw [if_pos hv, if_pos hv, ih h2, colCoeffs_eq h2, valAt_of_lt, if_pos rfl]
          intro a hat
          have := h1 a hat
          simp only at this
          omega
        · rw [if_neg hv, if_neg hv, ih h2]; rfl

theorem mem_forcingCoeffs {A : Mat K} (hA : A.WF) {i j : Nat} {v : K} :
    (j, v) ∈ forcingCoeffs A i ↔ j < A.numCols ∧ A.value i j = v ∧ v ≠ 0 := by
  unfold forcingCoeffs
  rw [List.mem_flatMap]
  constructor
  · rintro ⟨k, hk, hm⟩
    rw [List.mem_range] at hk
    obtain ⟨w, hw, hjw⟩ := List.mem_map.mp hm
    rw [colCoeffs_eq (hA.srt k hk)] at hw
    have e1 : k = j := congrArg Prod.fst hjw
    have e2 : w = v := congrArg Prod.snd hjw
    subst e1 e2
    split at hw
    · cases hw
    · rename_i hne
      have := List.mem_singleton.mp hw
      exact ⟨hk, this.symm, by rw [this]; exact hne⟩
  · rintro ⟨h1, h2, h3⟩
    refine ⟨j, List.mem_range.mpr h1, List.mem_map.mpr ⟨v, ?_, rfl⟩⟩
    have h2' : valAt (A.col j) i = v := h2
    rw [colCoeffs_eq (hA.srt j h1), h2', if_neg h3]; simp

theorem forcing_count {A : Mat K} (hA : A.WF) {i : Nat}
    (h : ((List.range A.numCols).map fun j => countCoeffs i (A.col j)).sum = 0) :
    ∀ j < A.numCols, A.value i j = 0 := by
  intro j hj
  have h0 : countCoeffs i (A.col j) = 0 := by
    have := List.sum_eq_zero_iff.mp h (countCoeffs i (A.col j)) (List.mem_map.mpr ⟨j, List.mem_range.mpr hj, rfl⟩)
    exact this
  rw [countCoeffs_eq (hA.srt j hj), colCoeffs_eq (hA.srt j hj)] at h0
  split at h0
  · rename_i h; exact h
  · simp at h0

theorem forceVars_inv {inf : K} {p : Prob K} {x0 : Nat → K} (hx0 : p.Pts inf x0) (u : Bool) (l : List (Nat × K))
    (hl : ∀ e ∈ l, e.1 < p.numVars ∧ ∀ x, p.Pts inf x → x e.1 = forcedValue p.varLb.value p.varUb.value u e)
    {s : Presolve K} (h : PCore inf p s) (he : PEarly s) :
    ∃ t, l.foldlM (forceVar inf p.varLb.value p.varUb.value u) s = some t ∧ PCore inf p t ∧ PEarly t ∧
      t.consSt = s.consSt ∧
      (∀ j, (s.varSt j).fixed?.isSome = true → (t.varSt j).fixed?.isSome = true) ∧
      ∀ e ∈ l, (t.varSt e.1).fixed?.isSome = true := by
  induction l generalizing s with
  | nil => exact ⟨s, rfl, h, he, rfl, fun _ h => h, fun e he => by cases he⟩
  | cons e l ih =>
    obtain ⟨e1, e2⟩ := hl e (by simp)
    have hf : isFinite inf (forcedValue p.varLb.value p.varUb.value u e) = true := by
      rw [isFinite_iff, ← e2 x0 hx0]; exact hx0.2.coord _ e1
    obtain ⟨s1, hs1⟩ : ∃ s1 : Presolve K, s1 = { s with
      numFixed := if s.varSt e.1 = .unchanged then s.numFixed + 1 else s.numFixed
      varSt := setAt s.varSt e.1 (.forcingFixed (forcedValue p.varLb.value p.varUb.value u e)) } := ⟨_, rfl⟩
    have hstep : forceVar inf p.varLb.value p.varUb.value u s e = some s1 := by
      unfold forceVar; rw [if_pos hf, hs1]
    have hmono : ∀ j, (s.varSt j).fixed?.isSome = true → (s1.varSt j).fixed?.isSome = true := by
      intro j hj
      rw [hs1]
      by_cases hje : j = e.1
      · simp only [hje, setAt_same]; rfl
      · simp only [setAt_ne _ _ hje]; exact hj
    have hat : (s1.varSt e.1).fixed?.isSome = true := by rw [hs1]; simp only [setAt_same]; rfl
    have hcore : PCore inf p s1 := by
      constructor
      · intro j hj v hv x hx
        rw [hs1] at hv
        by_cases hje : j = e.1
        · simp only [hje, setAt_same, VarSt.fixed?, Option.some.injEq] at hv
          rw [hje, ← hv]; exact e2 x hx
        · simp only [setAt_ne _ _ hje] at hv
          exact h.fixedOk j hj v hv x hx
      · intro i hi hst
        rw [hs1] at hst
        rcases h.red i hi hst with a | a | a
        · exact Or.inl a
        · exact Or.inr (Or.inl a)
        · exact Or.inr (Or.inr fun j hj hv => hmono j (a j hj hv))
      · rw [hs1]; exact h.conv
      · rw [hs1]; exact h.convSt
      · rw [hs1]; exact h.feas
      · have hn := h.nFixed
        by_cases hu : s.varSt e.1 = .unchanged
        · rw [cntP_set (P := fun j => (s.varSt j).fixed?.isSome) (j := e.1) e1
            (fun k hk => by rw [hs1]; simp only [setAt_ne _ _ hk]) (by simp [hu, VarSt.fixed?]) hat, ← hn, hs1]
          simp only [if_pos hu]
        · rw [cntP_congr (Q := fun j => (s.varSt j).fixed?.isSome), ← hn, hs1]
          · simp only [if_neg hu]
          · intro j _
            by_cases hje : j = e.1
            · have : (s.varSt e.1).fixed?.isSome = true := by
                rcases hs : s.varSt e.1 with _ | v | v
                · exact absurd hs hu
                · rfl
                · rfl
              rw [hje, hat, this]
            · rw [hs1]; simp only [setAt_ne _ _ hje]
      · rw [hs1]; exact h.nRem
    have hearly : PEarly s1 := by
      rw [hs1]; exact ⟨he.consReq, he.both, he.numCons, he.varReq, he.numVar⟩
    obtain ⟨t, t1, t2, t3, t4, t5, t6⟩ := ih (fun a ha => hl a (by simp [ha])) hcore hearly
    refine ⟨t, ?_, t2, t3, by rw [t4, hs1], fun j hj => t5 j (hmono j hj), ?_⟩
    · rw [List.foldlM_cons, hstep]; exact t1
    · intro a ha
      rcases List.mem_cons.mp ha with rfl | ha
      · exact t5 _ hat
      · exact t6 a ha

theorem addForcing_inv {inf : K} {p : Prob K} (hp : p.WF) {x0 : Nat → K} (hx0 : p.Pts inf x0) (u : Bool)
    {s : Presolve K} (h : PCore inf p s) (he : PEarly s) {i : Nat} (hi : i < p.numLin) (hu : s.consSt i = .unchanged)
    (hf : ∀ j < p.numVars, p.coeffs.value i j ≠ 0 → ∀ x, p.Pts inf x →
      x j = forcedValue p.varLb.value p.varUb.value u (j, p.coeffs.value i j)) :
    ∃ t, addForcing inf p.coeffs p.varLb.value p.varUb.value s i u = some t ∧ PCore inf p t ∧ PEarly t := by
  have hl : ∀ e ∈ forcingCoeffs p.coeffs i, e.1 < p.numVars ∧
      ∀ x, p.Pts inf x → x e.1 = forcedValue p.varLb.value p.varUb.value u e := by
    rintro ⟨j, v⟩ hm
    obtain ⟨a, b, c⟩ := (mem_forcingCoeffs hp.coeffs).mp hm
    rw [hp.cols] at a
    refine ⟨a, fun x hx => ?_⟩
    rw [← b] at c ⊢
    exact hf j a c x hx
  by_cases hc : ((List.range p.coeffs.numCols).map fun j => countCoeffs i (p.coeffs.col j)).sum = 0
  · have hz := forcing_count hp.coeffs hc
    rw [hp.cols] at hz
    obtain ⟨t, t1, t2, _, t4⟩ := h.removeCons hi hu (Or.inr (Or.inr fun j hj hv => absurd (hz j hj) hv))
    refine ⟨t, ?_, t2, t4 he⟩
    unfold addForcing
    rw [t1, Option.bind_some, if_pos hc]
  · -- fix the variables first, then remove the row: the two operations commute
    obtain ⟨s2, a1, a2, a3, a4, a5, a6⟩ := forceVars_inv hx0 u _ hl h he
    obtain ⟨t, t1, t2, t3, t4⟩ := a2.removeCons hi (by rw [a4]; exact hu) (Or.inr (Or.inr fun j hj hv =>
      a6 (j, p.coeffs.value i j) ((mem_forcingCoeffs hp.coeffs).mpr ⟨by rw [hp.cols]; exact hj, rfl, hv⟩)))
    have hcomm : ∀ (l : List (Nat × K)) (s s2 t : Presolve K), s.consSt i = .unchanged →
        l.foldlM (forceVar inf p.varLb.value p.varUb.value u) s = some s2 → s2.removeCons i = some t →
        (s.removeCons i).bind (fun s1 => l.foldlM (forceVar inf p.varLb.value p.varUb.value u) s1) = some t := by
      intro l
      induction l with
      | nil =>
        intro s s2 t _ h1 h2
        simp only [List.foldlM_nil, Option.pure_def, Option.some.injEq] at h1 ⊢
        rw [h1, h2]; rfl
      | cons e l ih =>
        intro s s2 t hus h1 h2
        rw [List.foldlM_cons] at h1
        obtain ⟨s', h3, h4⟩ := Option.bind_eq_some_iff.mp h1
        have hs' := h3
        unfold forceVar at h3
        split at h3
        · rename_i hfin
          have e1 := Option.some.inj h3
          have hcs : s'.consSt = s.consSt := by rw [← e1]
          have := ih s' s2 t (by rw [hcs]; exact hus) h4 h2
          rw [← this]
          unfold Presolve.removeCons
          rw [if_pos hus, if_pos (by rw [hcs]; exact hus), Option.bind_some, Option.bind_some, List.foldlM_cons]
          have hb : forceVar inf p.varLb.value p.varUb.value u
              { s with
                consSt := setAt s.consSt i .redundant
                consReq := setAt s.consReq i ⟨true, true⟩
                numRedundant := s.numRedundant + 1 } e = some { s' with
                consSt := setAt s'.consSt i .redundant
                consReq := setAt s'.consReq i ⟨true, true⟩
                numRedundant := s'.numRedundant + 1 } := by
            unfold forceVar
            rw [if_pos hfin, ← e1]
          rw [hb]; rfl
        · cases h3
    have hrun := hcomm _ s s2 t hu a1 t1
    obtain ⟨s1, b1, b2⟩ := Option.bind_eq_some_iff.mp hrun
    refine ⟨t.pushForcing ⟨i, forcingCoeffs p.coeffs i, u⟩, ?_, t2.congr rfl rfl rfl rfl rfl rfl, ?_⟩
    · unfold addForcing
      rw [b1, Option.bind_some, if_neg hc, b2]; rfl
    · have := t4 a3
      exact ⟨this.consReq, this.both, this.numCons, this.varReq, this.numVar⟩

theorem rowEnt_of_value {p : Prob K} (hp : p.WF) {i j : Nat} (hj : j < p.numVars) (hv : p.coeffs.value i j ≠ 0) :
    (i, j, p.coeffs.value i j) ∈ rowEnts p.coeffs i := by
  unfold rowEnts
  rw [List.mem_filter]
  refine ⟨Mat.entries_mem.mpr ⟨by rw [hp.cols]; exact hj, ?_⟩, by simp⟩
  have hv' : valAt (p.coeffs.col j) i ≠ 0 := hv
  show (i, valAt (p.coeffs.col j) i) ∈ _
  unfold valAt at hv' ⊢
  cases ha : at? (p.coeffs.col j) i with
  | none => rw [ha] at hv'; exact absurd rfl hv'
  | some v => exact mem_of_at? ha

theorem forceStep_inv {inf : K} (hinf : 0 < inf) {p : Prob K} (hp : p.WF) {x0 : Nat → K} (hx0 : p.Pts inf x0)
    {s : Presolve K} (h : PCore inf p s) (he : PEarly s) {i : Nat} (hi : i < p.numLin) :
    ∃ t, forceStep inf 0 p.coeffs p.varLb.value p.varUb.value p.linLb.value p.linUb.value
        (linRange inf p.coeffs p.varLb.value p.varUb.value) s i = some t ∧ PCore inf p t ∧ PEarly t := by
  unfold forceStep
  by_cases hu : s.consSt i = .unchanged
  swap
  · rw [if_pos hu]; exact ⟨s, rfl, h, he⟩
  rw [if_neg (by simpa using hu)]
  obtain ⟨⟨r1, r2⟩, _⟩ := hp.range hinf hx0.1.1 hx0.2 hi
  obtain ⟨o1, o2⟩ := hx0.1.2 i hi
  have hU : ∃ t, forceUpper inf 0 p.coeffs p.varLb.value p.varUb.value p.linUb.value
      (linRange inf p.coeffs p.varLb.value p.varUb.value) s i = some t ∧ PCore inf p t ∧ PEarly t := by
    unfold forceUpper
    by_cases hf : isFinite inf (p.linUb.value i) = true
    · rw [if_pos hf, if_neg (fun hlt => by have := isLt_lt le_rfl hlt; linarith)]
      split
      · rename_i heq
        rw [isEq_zero_iff, sub_eq_zero] at heq
        refine addForcing_inv hp hx0 true h he hi hu fun j hj hv x hx => ?_
        obtain ⟨_, _, rm⟩ := hp.range hinf hx.1.1 hx.2 hi
        have h3 := rm (by rw [← heq]; exact hf) _ (rowEnt_of_value hp hj hv)
        have h4 := (hx.1.2 i hi).2
        obtain ⟨b1, b2⟩ := hx.1.1 j hj
        unfold minTerm at h3
        unfold forcedValue
        simp only at h3 ⊢
        by_cases hpos : p.coeffs.value i j > 0
        · rw [if_pos hpos] at h3
          rw [if_pos (by simp [hpos])]
          refine le_antisymm ?_ b1
          have : p.coeffs.value i j * x j ≤ p.coeffs.value i j * p.varLb.value j := by linarith
          exact le_of_mul_le_mul_left this hpos
        · rw [if_neg hpos] at h3
          rw [if_neg (by simp [hpos])]
          have hneg := lt_of_le_of_ne (not_lt.mp hpos) hv
          refine le_antisymm b2 ?_
          have : p.coeffs.value i j * x j ≤ p.coeffs.value i j * p.varUb.value j := by linarith
          exact (mul_le_mul_left_of_neg hneg).mp this
      · exact ⟨s, rfl, h, he⟩
    · rw [if_neg hf]; exact ⟨s, rfl, h, he⟩
  by_cases hf : isFinite inf (p.linLb.value i) = true
  · rw [if_pos hf, if_neg (fun hlt => by have := isLt_lt le_rfl hlt; linarith)]
    split
    · rename_i heq
      rw [isEq_zero_iff, sub_eq_zero] at heq
      refine addForcing_inv hp hx0 false h he hi hu fun j hj hv x hx => ?_
      obtain ⟨_, rm, _⟩ := hp.range hinf hx.1.1 hx.2 hi
      have h3 := rm (by rw [heq]; exact hf) _ (rowEnt_of_value hp hj hv)
      have h4 := (hx.1.2 i hi).1
      obtain ⟨b1, b2⟩ := hx.1.1 j hj
      unfold maxTerm at h3
      unfold forcedValue
      simp only at h3 ⊢
      by_cases hpos : p.coeffs.value i j > 0
      · rw [if_pos hpos] at h3
        rw [if_neg (by simp [hpos])]
        refine le_antisymm b2 ?_
        have : p.coeffs.value i j * p.varUb.value j ≤ p.coeffs.value i j * x j := by linarith
        exact le_of_mul_le_mul_left this hpos
      · rw [if_neg hpos] at h3
        rw [if_pos (by simp [hpos])]
        have hneg := lt_of_le_of_ne (not_lt.mp hpos) hv
        refine le_antisymm ?_ b1
        have : p.coeffs.value i j * p.varLb.value j ≤ p.coeffs.value i j * x j := by linarith
        exact (mul_le_mul_left_of_neg hneg).mp this
    · exact hU
  · rw [if_neg hf]; exact hU

/-! ### last loops: bounds that are not required -/

theorem PEarly.req {inf : K} {p : Prob K} {s : Presolve K} (h : PEarly s) : PReq inf p s := by
  constructor
  · intro j _ hl; rw [h.varReq j] at hl; cases hl
  · intro j _ hl; rw [h.varReq j] at hl; cases hl
  · intro i _ hu hl; rw [h.consReq i hu] at hl; cases hl
  · intro i _ hu hl; rw [h.consReq i hu] at hl; cases hl
  · exact h.both
  · rw [h.numVar, cntP_congr (Q := fun _ => false) (fun j _ => by rw [h.varReq j]; rfl)]
    exact (cntP_false _).symm
  · rw [h.numCons, cntP_congr (Q := fun _ => false)]
    · exact (cntP_false _).symm
    · intro i _
      by_cases hu : s.consSt i = .unchanged
      · rw [h.consReq i hu]; rfl
      · simp [hu]

theorem BoundReq.or_ne {a r : BoundReq} (hr : r = .redLower ∨ r = .redUpper) : a.or r ≠ .required := by
  rcases a with ⟨l, u⟩
  rcases hr with rfl | rfl <;> cases l <;> cases u <;> simp [BoundReq.or, BoundReq.redLower, BoundReq.redUpper, BoundReq.required]

theorem PReq.addVarReq {inf : K} {p : Prob K} {s : Presolve K} (h : PReq inf p s) {j : Nat} (hj : j < p.numVars)
    {r : BoundReq} (hr : r = .redLower ∨ r = .redUpper)
    (hl : r.lower = true → ∀ x, p.Pts inf x → p.varLb.value j < x j)
    (hu : r.upper = true → ∀ x, p.Pts inf x → x j < p.varUb.value j) : PReq inf p (s.addVarReq j r) := by
  unfold Presolve.addVarReq
  constructor
  · intro k hk hlow
    by_cases hkj : k = j
    · subst hkj
      simp only [setAt_same, BoundReq.or, Bool.or_eq_true] at hlow
      rcases hlow with a | a
      · exact h.varLo k hk a
      · exact hl a
    · simp only [setAt_ne _ _ hkj] at hlow
      exact h.varLo k hk hlow
  · intro k hk hup
    by_cases hkj : k = j
    · subst hkj
      simp only [setAt_same, BoundReq.or, Bool.or_eq_true] at hup
      rcases hup with a | a
      · exact h.varUp k hk a
      · exact hu a
    · simp only [setAt_ne _ _ hkj] at hup
      exact h.varUp k hk hup
  · exact h.consLo
  · exact h.consUp
  · exact h.both
  · have hne := BoundReq.or_ne (a := s.varReq j) hr
    have hn := h.numVar
    simp only []
    by_cases hq : s.varReq j = .required
    · rw [if_pos hq, cntP_set (P := fun j => decide (s.varReq j ≠ .required)) (j := j) hj
        (fun k hk => by simp only [setAt_ne _ _ hk]) (by simp [hq]) (by simp only [setAt_same]; simpa using hne), ← hn]
    · rw [if_neg hq, hn]
      refine cntP_congr fun k _ => ?_
      by_cases hkj : k = j
      · subst hkj; simp only [setAt_same]; simp [hq, hne]
      · simp only [setAt_ne _ _ hkj]
  · exact h.numCons

theorem PReq.addConsReq {inf : K} {p : Prob K} {s : Presolve K} (h : PReq inf p s) {i : Nat} (hi : i < p.numLin)
    (hun : s.consSt i = .unchanged) {r : BoundReq} (hr : r = .redLower ∨ r = .redUpper)
    (hl : r.lower = true → ∀ x, p.Pts inf x → p.linLb.value i < p.activity x i)
    (hu : r.upper = true → ∀ x, p.Pts inf x → p.activity x i < p.linUb.value i) :
    PReq inf p (s.addConsReq i r) := by
  unfold Presolve.addConsReq
  constructor
  · exact h.varLo
  · exact h.varUp
  · intro k hk hku hlow
    by_cases hki : k = i
    · subst hki
      simp only [setAt_same, BoundReq.or, Bool.or_eq_true] at hlow
      rcases hlow with a | a
      · exact h.consLo k hk hku a
      · exact hl a
    · simp only [setAt_ne _ _ hki] at hlow
      exact h.consLo k hk hku hlow
  · intro k hk hku hup
    by_cases hki : k = i
    · subst hki
      simp only [setAt_same, BoundReq.or, Bool.or_eq_true] at hup
      rcases hup with a | a
      · exact h.consUp k hk hku a
      · exact hu a
    · simp only [setAt_ne _ _ hki] at hup
      exact h.consUp k hk hku hup
  · intro k hku
    by_cases hki : k = i
    · subst hki; exact absurd hun hku
    · simp only [setAt_ne _ _ hki]
      exact h.both k hku
  · exact h.numVar
  · have hne := BoundReq.or_ne (a := s.consReq i) hr
    have hn := h.numCons
    simp only []
    by_cases hq : s.consReq i = .required
    · rw [if_pos hq, cntP_set (P := fun i => decide (s.consReq i ≠ .required) && decide (s.consSt i = .unchanged)) (j := i) hi
        (fun k hk => by simp only [setAt_ne _ _ hk]) (by simp [hq]) (by simp only [setAt_same]; simp [hne, hun]), ← hn]
    · rw [if_neg hq, hn]
      refine cntP_congr fun k _ => ?_
      by_cases hki : k = i
      · subst hki; simp only [setAt_same]; simp [hq, hne]
      · simp only [setAt_ne _ _ hki]

theorem addConsReq_core {inf : K} {p : Prob K} {s : Presolve K} (h : PCore inf p s) (i : Nat) (r : BoundReq) :
    PCore inf p (s.addConsReq i r) := h.congr rfl rfl rfl rfl rfl rfl

theorem addVarReq_core {inf : K} {p : Prob K} {s : Presolve K} (h : PCore inf p s) (i : Nat) (r : BoundReq) :
    PCore inf p (s.addVarReq i r) := h.congr rfl rfl rfl rfl rfl rfl

theorem consReqStep_inv {inf : K} (hinf : 0 < inf) {p : Prob K} (hp : p.WF) {s : Presolve K}
    (h : PCore inf p s ∧ PReq inf p s) {i : Nat} (hi : i < p.numLin) :
    PCore inf p (consReqStep inf 0 p.linLb.value p.linUb.value (linRange inf p.coeffs p.varLb.value p.varUb.value) s i) ∧
    PReq inf p (consReqStep inf 0 p.linLb.value p.linUb.value (linRange inf p.coeffs p.varLb.value p.varUb.value) s i) := by
  unfold consReqStep
  by_cases hu : s.consSt i = .unchanged
  swap
  · rw [if_pos hu]; exact h
  rw [if_neg (by simpa using hu)]
  simp only []
  have h1 : PCore inf p (if isGt (linRange inf p.coeffs p.varLb.value p.varUb.value i).1 (p.linLb.value i) 0 &&
      isFinite inf (p.linLb.value i) then s.addConsReq i .redLower else s) ∧
      PReq inf p (if isGt (linRange inf p.coeffs p.varLb.value p.varUb.value i).1 (p.linLb.value i) 0 &&
      isFinite inf (p.linLb.value i) then s.addConsReq i .redLower else s) ∧
      (if isGt (linRange inf p.coeffs p.varLb.value p.varUb.value i).1 (p.linLb.value i) 0 &&
      isFinite inf (p.linLb.value i) then s.addConsReq i .redLower else s).consSt i = .unchanged := by
    split
    · rename_i hc
      rw [Bool.and_eq_true] at hc
      refine ⟨addConsReq_core h.1 _ _, h.2.addConsReq hi hu (Or.inl rfl) (fun _ x hx => ?_) (fun hf => by cases hf), hu⟩
      obtain ⟨⟨a, b⟩, _⟩ := hp.range hinf hx.1.1 hx.2 hi
      have := isGt_lt le_rfl hc.1
      linarith
    · exact ⟨h.1, h.2, hu⟩
  generalize (if isGt (linRange inf p.coeffs p.varLb.value p.varUb.value i).1 (p.linLb.value i) 0 &&
      isFinite inf (p.linLb.value i) then s.addConsReq i .redLower else s) = s1 at h1
  split
  · rename_i hc
    rw [Bool.and_eq_true] at hc
    refine ⟨addConsReq_core h1.1 _ _, h1.2.1.addConsReq hi h1.2.2 (Or.inr rfl) (fun hf => by cases hf) (fun _ x hx => ?_)⟩
    obtain ⟨⟨a, b⟩, _⟩ := hp.range hinf hx.1.1 hx.2 hi
    have := isLt_lt le_rfl hc.1
    linarith
  · exact ⟨h1.1, h1.2.1⟩

theorem varReqStep_inv {inf : K} (hinf : 0 < inf) {p : Prob K} (hp : p.WF) {x0 : Nat → K} (hx0 : p.Pts inf x0)
    {s : Presolve K} (h : PCore inf p s ∧ PReq inf p s) {j : Nat} (hj : j < p.numVars) :
    PCore inf p (varReqStep inf 0 p.varLb.value p.varUb.value (varRange inf p.coeffs p.varLb.value p.varUb.value
      p.linLb.value p.linUb.value (linRange inf p.coeffs p.varLb.value p.varUb.value)) s j) ∧
    PReq inf p (varReqStep inf 0 p.varLb.value p.varUb.value (varRange inf p.coeffs p.varLb.value p.varUb.value
      p.linLb.value p.linUb.value (linRange inf p.coeffs p.varLb.value p.varUb.value)) s j) := by
  have hv := fun x (hx : p.Pts inf x) => varRange_spec hp hinf hx hj
  unfold varReqStep
  by_cases hu : s.varSt j = .unchanged
  swap
  · rw [if_pos hu]; exact h
  rw [if_neg (by simpa using hu)]
  generalize varRange inf p.coeffs p.varLb.value p.varUb.value
      p.linLb.value p.linUb.value (linRange inf p.coeffs p.varLb.value p.varUb.value) = vr at hv
  simp only []
  have hno : isLt (vr j).2 (vr j).1 0 ≠ true := fun hlt => by
    have := isLt_lt le_rfl hlt; linarith [(hv x0 hx0).1, (hv x0 hx0).2]
  rw [if_neg hno]
  have h1 : PCore inf p (if isGt (vr j).1 (p.varLb.value j) 0 && isFinite inf (p.varLb.value j) then
      s.addVarReq j .redLower else s) ∧
      PReq inf p (if isGt (vr j).1 (p.varLb.value j) 0 && isFinite inf (p.varLb.value j) then
      s.addVarReq j .redLower else s) := by
    split
    · rename_i hc
      rw [Bool.and_eq_true] at hc
      refine ⟨addVarReq_core h.1 _ _, h.2.addVarReq hj (Or.inl rfl) (fun _ x hx => ?_) (fun hf => by cases hf)⟩
      have := isGt_lt le_rfl hc.1
      linarith [(hv x hx).1]
    · exact h
  generalize (if isGt (vr j).1 (p.varLb.value j) 0 && isFinite inf (p.varLb.value j) then
      s.addVarReq j .redLower else s) = s1 at h1
  split
  · rename_i hc
    rw [Bool.and_eq_true] at hc
    refine ⟨addVarReq_core h1.1 _ _, h1.2.addVarReq hj (Or.inr rfl) (fun hf => by cases hf) (fun _ x hx => ?_)⟩
    have := isLt_lt le_rfl hc.1
    linarith [(hv x hx).2]
  · exact h1

/-- the analysis of a problem with a feasible point of finite size succeeds, and its results are justified -/
theorem presolve_inv {inf : K} (hinf : 0 < inf) {p : Prob K} (hp : p.WF) (hfc : p.FiniteCoeffs inf) {x0 : Nat → K}
    (hx0 : p.Pts inf x0) : ∃ s, presolve inf 0 p = some s ∧ PCore inf p s ∧ PReq inf p s := by
  obtain ⟨s1, a1, a2, a3, a4, _⟩ := fixStep_inv (inf := inf) (p := p) p.numVars le_rfl
  obtain ⟨s2, b1, b2, b3, _⟩ := foldlM_total (fun t : Presolve K => PCore inf p t ∧ PEarly t ∧
      ∀ j v, (t.varSt j).fixed? = some v → p.varLb.value j = v ∧ p.varUb.value j = v)
    (dropStep inf p.varLb.value p.varUb.value p.linLb.value p.linUb.value (consCounts p.coeffs)) (List.range p.numLin)
    (fun i hi t ht => dropStep_inv hinf hp hfc hx0 ht.1 ht.2.1 ht.2.2 (List.mem_range.mp hi))
    ⟨a2, a3, fun j v hv => (a4 j v hv).2⟩
  obtain ⟨s3, c1, c2, c3⟩ := foldlM_total (fun t : Presolve K => PCore inf p t ∧ PEarly t)
    (slackStep inf 0 p.linLb.value p.linUb.value (linRange inf p.coeffs p.varLb.value p.varUb.value)) (List.range p.numLin)
    (fun i hi t ht => slackStep_inv hinf hp ht.1 ht.2 (List.mem_range.mp hi)) ⟨b2, b3⟩
  obtain ⟨s4, d1, d2, d3⟩ := foldlM_total (fun t : Presolve K => PCore inf p t ∧ PEarly t)
    (forceStep inf 0 p.coeffs p.varLb.value p.varUb.value p.linLb.value p.linUb.value
      (linRange inf p.coeffs p.varLb.value p.varUb.value)) (List.range p.numLin)
    (fun i hi t ht => forceStep_inv hinf hp hx0 ht.1 ht.2 (List.mem_range.mp hi)) ⟨c2, c3⟩
  have e1 : PCore inf p ((List.range p.numLin).foldl (consReqStep inf 0 p.linLb.value p.linUb.value
      (linRange inf p.coeffs p.varLb.value p.varUb.value)) s4) ∧
      PReq inf p ((List.range p.numLin).foldl (consReqStep inf 0 p.linLb.value p.linUb.value
      (linRange inf p.coeffs p.varLb.value p.varUb.value)) s4) :=
    foldl_pres (fun t : Presolve K => PCore inf p t ∧ PReq inf p t) _ _
      (fun i hi t ht => consReqStep_inv hinf hp ht (List.mem_range.mp hi)) ⟨d2, d3.req⟩
  have e2 := foldl_pres (fun t : Presolve K => PCore inf p t ∧ PReq inf p t)
    (varReqStep inf 0 p.varLb.value p.varUb.value (varRange inf p.coeffs p.varLb.value p.varUb.value
      p.linLb.value p.linUb.value (linRange inf p.coeffs p.varLb.value p.varUb.value))) (List.range p.numVars)
    (fun j hj t ht => varReqStep_inv hinf hp hx0 ht (List.mem_range.mp hj)) e1
  refine ⟨_, ?_, e2⟩
  unfold presolve
  simp only []
  rw [a1, Option.bind_some, b1, Option.bind_some, c1, Option.bind_some, d1]; rfl

/-! ### points between -/

theorem segment_cross {ι : Type*} (I : Finset ι) (g0 g1 : ι → K) (h0 : ∀ k ∈ I, 0 ≤ g0 k) (hneg : ∃ k ∈ I, g1 k < 0) :
    ∃ t : K, 0 ≤ t ∧ t ≤ 1 ∧ (∀ k ∈ I, 0 ≤ (1 - t) * g0 k + t * g1 k) ∧
      ∃ k ∈ I, (1 - t) * g0 k + t * g1 k = 0 ∧ g1 k < 0 := by
  classical
  obtain ⟨k1, hk1, hk1n⟩ := hneg
  obtain ⟨k, hk, hmin⟩ := Finset.exists_min_image (I.filter fun k => g1 k < 0) (fun k => g0 k / (g0 k - g1 k))
    ⟨k1, Finset.mem_filter.mpr ⟨hk1, hk1n⟩⟩
  obtain ⟨hkI, hkn⟩ := Finset.mem_filter.mp hk
  have hd : 0 < g0 k - g1 k := by linarith [h0 k hkI]
  have ht0 : 0 ≤ g0 k / (g0 k - g1 k) := div_nonneg (h0 k hkI) hd.le
  have ht1 : g0 k / (g0 k - g1 k) ≤ 1 := by rw [div_le_one hd]; linarith
  refine ⟨g0 k / (g0 k - g1 k), ht0, ht1, fun l hl => ?_, k, hkI, ?_, hkn⟩
  · by_cases hln : g1 l < 0
    · have hdl : 0 < g0 l - g1 l := by linarith [h0 l hl]
      have := hmin l (Finset.mem_filter.mpr ⟨hl, hln⟩)
      have h2 := mul_le_mul_of_nonneg_right this hdl.le
      rw [div_mul_cancel₀ _ hdl.ne'] at h2
      linarith
    · have a := mul_nonneg (sub_nonneg.mpr ht1) (h0 l hl)
      have b := mul_nonneg ht0 (not_lt.mp hln)
      linarith
  · have : g0 k / (g0 k - g1 k) * (g0 k - g1 k) = g0 k := div_mul_cancel₀ _ hd.ne'
    linarith

/-- point between `x` and `y` -/
def between (t : K) (x y : Nat → K) : Nat → K := fun j => (1 - t) * x j + t * y j

theorem activity_between (p : Prob K) (t : K) (x y : Nat → K) (i : Nat) :
    p.activity (between t x y) i = (1 - t) * p.activity x i + t * p.activity y i := by
  unfold Prob.activity between
  rw [Finset.mul_sum, Finset.mul_sum, ← Finset.sum_add_distrib]
  exact Finset.sum_congr rfl fun j _ => by ring

theorem between_abs {t a b c : K} (h0 : 0 ≤ t) (h1 : t ≤ 1) (ha : a < c) (hb : b < c) : (1 - t) * a + t * b < c := by
  rcases h0.lt_or_eq with h | h
  · have := mul_lt_mul_of_pos_left hb h
    have h2 := mul_le_mul_of_nonneg_left ha.le (sub_nonneg.mpr h1)
    linarith
  · rw [← h]; linarith

theorem finiteAt_between {inf : K} {p : Prob K} {t : K} (h0 : 0 ≤ t) (h1 : t ≤ 1) {x y : Nat → K}
    (hx : p.FiniteAt inf x) (hy : p.FiniteAt inf y) : p.FiniteAt inf (between t x y) := by
  have key : ∀ a b : K, |(1 - t) * a + t * b| ≤ (1 - t) * |a| + t * |b| := fun a b => by
    refine le_trans (abs_add_le _ _) ?_
    rw [abs_mul, abs_mul, abs_of_nonneg h0, abs_of_nonneg (sub_nonneg.mpr h1)]
  constructor
  · intro j hj
    exact lt_of_le_of_lt (key _ _) (between_abs h0 h1 (hx.coord j hj) (hy.coord j hj))
  · intro i hi
    refine lt_of_le_of_lt ?_ (between_abs h0 h1 (hx.terms i hi) (hy.terms i hi))
    rw [Finset.mul_sum, Finset.mul_sum, ← Finset.sum_add_distrib]
    refine Finset.sum_le_sum fun j _ => ?_
    have : p.coeffs.value i j * between t x y j =
        (1 - t) * (p.coeffs.value i j * x j) + t * (p.coeffs.value i j * y j) := by unfold between; ring
    rw [this]
    exact key _ _

/-- the amounts by which bounds are satisfied: (row?, upper?, index) -/
def slackAt (p : Prob K) (x : Nat → K) : Bool × Bool × Nat → K
  | (false, false, j) => x j - p.varLb.value j
  | (false, true, j) => p.varUb.value j - x j
  | (true, false, i) => p.activity x i - p.linLb.value i
  | (true, true, i) => p.linUb.value i - p.activity x i

theorem slackAt_between (p : Prob K) (t : K) (x y : Nat → K) (k : Bool × Bool × Nat) :
    slackAt p (between t x y) k = (1 - t) * slackAt p x k + t * slackAt p y k := by
  rcases k with ⟨_ | _, _ | _, i⟩ <;> simp only [slackAt, activity_between] <;> (try unfold between) <;> ring

/-- Bounds that are never attained by points satisfying all bounds need not be asked for. -/
theorem segment_feasible {inf : K} {p : Prob K} {x0 y : Nat → K} (hx0 : p.Pts inf x0) (hy : p.FiniteAt inf y)
    (F : Nat → Prop) (hF : ∀ j < p.numVars, F j → y j = x0 j)
    (hvl : ∀ j < p.numVars, p.varLb.value j ≤ y j ∨ ∀ x, p.Pts inf x → p.varLb.value j < x j)
    (hvu : ∀ j < p.numVars, y j ≤ p.varUb.value j ∨ ∀ x, p.Pts inf x → x j < p.varUb.value j)
    (hrow : ∀ i < p.numLin,
      ((p.linLb.value i ≤ p.activity y i ∨ ∀ x, p.Pts inf x → p.linLb.value i < p.activity x i) ∧
        (p.activity y i ≤ p.linUb.value i ∨ ∀ x, p.Pts inf x → p.activity x i < p.linUb.value i)) ∨
      (∀ z, p.FiniteAt inf z → (∀ j < p.numVars, p.VarOk z j) → (∀ j < p.numVars, F j → z j = x0 j) → p.RowOk z i)) :
    p.LinFeasible y := by
  classical
  -- the rows with conditions of their own
  let R : Nat → Prop := fun i =>
    ((p.linLb.value i ≤ p.activity y i ∨ ∀ x, p.Pts inf x → p.linLb.value i < p.activity x i) ∧
        (p.activity y i ≤ p.linUb.value i ∨ ∀ x, p.Pts inf x → p.activity x i < p.linUb.value i))
  let I : Finset (Bool × Bool × Nat) :=
    ({false} ×ˢ (Finset.univ ×ˢ range p.numVars)) ∪ ({true} ×ˢ (Finset.univ ×ˢ (range p.numLin).filter R))
  have memV : ∀ u j, (false, u, j) ∈ I ↔ j < p.numVars := by
    intro u j; simp [I]
  have memR : ∀ u i, (true, u, i) ∈ I ↔ i < p.numLin ∧ R i := by
    intro u i; simp [I]
  have fromI : ∀ z, p.FiniteAt inf z → (∀ j < p.numVars, F j → z j = x0 j) → (∀ k ∈ I, 0 ≤ slackAt p z k) →
      p.LinFeasible z := by
    intro z hz hzF hk
    have hbox : ∀ j < p.numVars, p.VarOk z j := fun j hj =>
      ⟨sub_nonneg.mp (hk (false, false, j) ((memV _ _).mpr hj)), sub_nonneg.mp (hk (false, true, j) ((memV _ _).mpr hj))⟩
    refine ⟨hbox, fun i hi => ?_⟩
    by_cases hR : R i
    · exact ⟨sub_nonneg.mp (hk (true, false, i) ((memR _ _).mpr ⟨hi, hR⟩)),
        sub_nonneg.mp (hk (true, true, i) ((memR _ _).mpr ⟨hi, hR⟩))⟩
    · rcases hrow i hi with a | a
      · exact absurd a hR
      · exact a z hz hbox hzF
  refine fromI y hy hF ?_
  by_contra hcon
  push Not at hcon
  have h0 : ∀ k ∈ I, 0 ≤ slackAt p x0 k := by
    rintro ⟨_ | _, u, i⟩ hk
    · have := hx0.1.1 i ((memV _ _).mp hk)
      cases u
      · exact sub_nonneg.mpr this.1
      · exact sub_nonneg.mpr this.2
    · have := hx0.1.2 i ((memR _ _).mp hk).1
      cases u
      · exact sub_nonneg.mpr this.1
      · exact sub_nonneg.mpr this.2
  obtain ⟨t, t0, t1, hall, k, hkI, hkz, hkn⟩ := segment_cross I (slackAt p x0) (slackAt p y) h0 hcon
  have hzf := finiteAt_between t0 t1 hx0.2 hy
  have hz : p.Pts inf (between t x0 y) := by
    refine ⟨fromI _ hzf (fun j hj hFj => ?_) (fun k hk => ?_), hzf⟩
    · unfold between; rw [hF j hj hFj]; ring
    · rw [slackAt_between]; exact hall k hk
  rw [← slackAt_between] at hkz
  rcases k with ⟨_ | _, _ | _, i⟩
  · have hi := (memV _ _).mp hkI
    rcases hvl i hi with a | a
    · exact absurd (sub_nonneg.mpr a) (not_le.mpr hkn)
    · exact absurd hkz (sub_pos.mpr (a _ hz)).ne'
  · have hi := (memV _ _).mp hkI
    rcases hvu i hi with a | a
    · exact absurd (sub_nonneg.mpr a) (not_le.mpr hkn)
    · exact absurd hkz (sub_pos.mpr (a _ hz)).ne'
  · have hi := (memR _ _).mp hkI
    rcases hi.2.1 with a | a
    · exact absurd (sub_nonneg.mpr a) (not_le.mpr hkn)
    · exact absurd hkz (sub_pos.mpr (a _ hz)).ne'
  · have hi := (memR _ _).mp hkI
    rcases hi.2.2 with a | a
    · exact absurd (sub_nonneg.mpr a) (not_le.mpr hkn)
    · exact absurd hkz (sub_pos.mpr (a _ hz)).ne'

end
end Sleqp
