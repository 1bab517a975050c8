import Verif.Lemmas.PresolveInv

/-! Helper lemmas: the records of converted bounds and forcing constraints made by preprocessing. -/

namespace Sleqp

open Finset

section
variable {K : Type*} [Field K] [LinearOrder K] [IsStrictOrderedRing K]

/-- the activity range of row `i` -/
def Prob.rng (inf : K) (p : Prob K) (i : Nat) : K × K := linRange inf p.coeffs p.varLb.value p.varUb.value i

/-- what the records say -/
structure PStruct (inf : K) (p : Prob K) (s : Presolve K) : Prop where
  conv : ∀ b ∈ s.conv, b.cons < p.numLin ∧ (∃ k, s.consSt b.cons = .boundConverted k) ∧ b.factor ≠ 0 ∧ b.var < p.numVars ∧
    p.coeffs.value b.cons b.var = b.factor ∧ (∀ x, p.activity x b.cons = b.factor * x b.var) ∧
    b = convBoundOf inf p.varLb.value p.varUb.value (p.linLb.value b.cons) (p.linUb.value b.cons) b.cons b.var b.factor
  convNodup : (s.conv.map ConvBound.cons).Nodup
  forcing : ∀ f ∈ s.forcing, f.cons < p.numLin ∧ s.consSt f.cons = .redundant ∧ f.coeffs = forcingCoeffs p.coeffs f.cons ∧
    (∀ e ∈ f.coeffs, ∃ v, s.varSt e.1 = .forcingFixed v) ∧
    (if f.atUpper then p.linUb.value f.cons = (p.rng inf f.cons).1 ∧ isFinite inf (p.linUb.value f.cons) = true
      else p.linLb.value f.cons = (p.rng inf f.cons).2 ∧ isFinite inf (p.linLb.value f.cons) = true)
  forcingNodup : (s.forcing.map Forcing.cons).Nodup
  bound : ∀ j v, s.varSt j = .boundFixed v → p.varLb.value j = v ∧ p.varUb.value j = v
  forced : ∀ j v, s.varSt j = .forcingFixed v → ∃ f ∈ s.forcing, ∃ e ∈ f.coeffs, e.1 = j

theorem PStruct.congr {inf : K} {p : Prob K} {s t : Presolve K} (h : PStruct inf p s) (h1 : t.varSt = s.varSt)
    (h2 : t.consSt = s.consSt) (h3 : t.conv = s.conv) (h4 : t.forcing = s.forcing) : PStruct inf p t := by
  constructor
  · rw [h3, h2]; exact h.conv
  · rw [h3]; exact h.convNodup
  · rw [h4, h2, h1]; exact h.forcing
  · rw [h4]; exact h.forcingNodup
  · rw [h1]; exact h.bound
  · rw [h1, h4]; exact h.forced

theorem PStruct.init {inf : K} {p : Prob K} : PStruct inf p (Presolve.init : Presolve K) := by
  constructor
  · intro b hb; cases hb
  · exact List.nodup_nil
  · intro b hb; cases hb
  · exact List.nodup_nil
  · intro j v h; cases h
  · intro j v h; cases h

theorem PStruct.fixVar {inf : K} {p : Prob K} {s t : Presolve K} (h : PStruct inf p s) {j : Nat} {v : K}
    (hb : p.varLb.value j = v ∧ p.varUb.value j = v) (ht : s.fixVar j v = some t) : PStruct inf p t := by
  unfold Presolve.fixVar at ht
  split at ht
  · rename_i hu
    have ht := (Option.some.inj ht).symm
    subst ht
    constructor
    · exact h.conv
    · exact h.convNodup
    · intro f hf
      obtain ⟨a1, a2, a3, a4, a5⟩ := h.forcing f hf
      refine ⟨a1, a2, a3, fun e he => ?_, a5⟩
      obtain ⟨w, hw⟩ := a4 e he
      by_cases hj : e.1 = j
      · rw [hj, hu] at hw; cases hw
      · exact ⟨w, by simp only [setAt_ne _ _ hj]; exact hw⟩
    · exact h.forcingNodup
    · intro k w hk
      by_cases hj : k = j
      · subst hj; simp only [setAt_same] at hk; cases hk; exact hb
      · simp only [setAt_ne _ _ hj] at hk; exact h.bound k w hk
    · intro k w hk
      by_cases hj : k = j
      · subst hj; simp only [setAt_same] at hk; cases hk
      · simp only [setAt_ne _ _ hj] at hk; exact h.forced k w hk
  · cases ht

theorem PStruct.removeCons {inf : K} {p : Prob K} {s t : Presolve K} (h : PStruct inf p s) {i : Nat}
    (ht : s.removeCons i = some t) : PStruct inf p t := by
  unfold Presolve.removeCons at ht
  split at ht
  · rename_i hu
    have ht := (Option.some.inj ht).symm
    subst ht
    constructor
    · intro b hb
      obtain ⟨a1, ⟨k, a2⟩, a3⟩ := h.conv b hb
      refine ⟨a1, ⟨k, ?_⟩, a3⟩
      have hne : b.cons ≠ i := fun e => by rw [e, hu] at a2; cases a2
      simp only [setAt_ne _ _ hne]; exact a2
    · exact h.convNodup
    · intro f hf
      obtain ⟨a1, a2, a3⟩ := h.forcing f hf
      refine ⟨a1, ?_, a3⟩
      have hne : f.cons ≠ i := fun e => by rw [e, hu] at a2; cases a2
      simp only [setAt_ne _ _ hne]; exact a2
    · exact h.forcingNodup
    · exact h.bound
    · exact h.forced
  · cases ht

theorem PStruct.convertCons {inf : K} {p : Prob K} {s t : Presolve K} (h : PStruct inf p s) {b : ConvBound K}
    (hb : b.cons < p.numLin ∧ b.factor ≠ 0 ∧ b.var < p.numVars ∧
      p.coeffs.value b.cons b.var = b.factor ∧ (∀ x, p.activity x b.cons = b.factor * x b.var) ∧
      b = convBoundOf inf p.varLb.value p.varUb.value (p.linLb.value b.cons) (p.linUb.value b.cons) b.cons b.var b.factor)
    (ht : s.convertCons b = some t) : PStruct inf p t := by
  unfold Presolve.convertCons at ht
  split at ht
  · rename_i hu
    have ht := (Option.some.inj ht).symm
    subst ht
    constructor
    · intro c hc
      rcases List.mem_append.mp hc with hc | hc
      · obtain ⟨a1, ⟨k, a2⟩, a3⟩ := h.conv c hc
        refine ⟨a1, ⟨k, ?_⟩, a3⟩
        have hne : c.cons ≠ b.cons := fun e => by rw [e, hu.2] at a2; cases a2
        simp only [setAt_ne _ _ hne]; exact a2
      · rw [List.mem_singleton.mp hc]
        exact ⟨hb.1, ⟨_, setAt_same _ _ _⟩, hb.2⟩
    · rw [List.map_append, List.nodup_append]
      refine ⟨h.convNodup, List.nodup_singleton _, fun a ha c hc hac => ?_⟩
      obtain ⟨d, hd, rfl⟩ := List.mem_map.mp ha
      rw [List.map_singleton, List.mem_singleton] at hc
      obtain ⟨_, ⟨k, a2⟩, _⟩ := h.conv d hd
      rw [hac, hc, hu.2] at a2; cases a2
    · intro f hf
      obtain ⟨a1, a2, a3⟩ := h.forcing f hf
      refine ⟨a1, ?_, a3⟩
      have hne : f.cons ≠ b.cons := fun e => by rw [e, hu.2] at a2; cases a2
      simp only [setAt_ne _ _ hne]; exact a2
    · exact h.forcingNodup
    · exact h.bound
    · exact h.forced
  · cases ht

theorem forceVars_fields {inf : K} {lo hi : Nat → K} {u : Bool} (l : List (Nat × K)) {s t : Presolve K}
    (h : l.foldlM (forceVar inf lo hi u) s = some t) :
    t.consSt = s.consSt ∧ t.conv = s.conv ∧ t.forcing = s.forcing ∧
      (∀ e ∈ l, ∃ v, t.varSt e.1 = .forcingFixed v) ∧
      (∀ j, (∃ v, s.varSt j = .forcingFixed v) → ∃ v, t.varSt j = .forcingFixed v) ∧
      (∀ j v, t.varSt j = .boundFixed v → s.varSt j = .boundFixed v) ∧
      (∀ j v, t.varSt j = .forcingFixed v → (∃ v, s.varSt j = .forcingFixed v) ∨ ∃ e ∈ l, e.1 = j) := by
  induction l generalizing s with
  | nil =>
    simp only [List.foldlM_nil, Option.pure_def, Option.some.injEq] at h
    subst h
    exact ⟨rfl, rfl, rfl, by simp, fun _ h => h, fun _ _ h => h, fun j v h => Or.inl ⟨v, h⟩⟩
  | cons e l ih =>
    rw [List.foldlM_cons] at h
    obtain ⟨s1, h1, h2⟩ := Option.bind_eq_some_iff.mp h
    unfold forceVar at h1
    split at h1
    swap
    · cases h1
    have h1 := (Option.some.inj h1).symm
    obtain ⟨a1, a2, a3, a4, a5, a6, a7⟩ := ih h2
    have hs : ∀ j, j ≠ e.1 → s1.varSt j = s.varSt j := fun j hj => by rw [h1]; simp only [setAt_ne _ _ hj]
    have hse : s1.varSt e.1 = .forcingFixed (forcedValue lo hi u e) := by rw [h1]; simp only [setAt_same]
    refine ⟨by rw [a1, h1], by rw [a2, h1], by rw [a3, h1], ?_, ?_, ?_, ?_⟩
    · intro d hd
      rcases List.mem_cons.mp hd with rfl | hd
      · exact a5 _ ⟨_, hse⟩
      · exact a4 d hd
    · rintro j ⟨v, hv⟩
      by_cases hj : j = e.1
      · subst hj; exact a5 _ ⟨_, hse⟩
      · exact a5 j ⟨v, by rw [hs j hj]; exact hv⟩
    · intro j v hv
      have := a6 j v hv
      by_cases hj : j = e.1
      · subst hj; rw [hse] at this; cases this
      · rw [hs j hj] at this; exact this
    · intro j v hv
      rcases a7 j v hv with ⟨w, hw⟩ | ⟨d, hd, hdj⟩
      · by_cases hj : j = e.1
        · exact Or.inr ⟨e, by simp, hj.symm⟩
        · rw [hs j hj] at hw; exact Or.inl ⟨w, hw⟩
      · exact Or.inr ⟨d, by simp [hd], hdj⟩

theorem PStruct.addForcing {inf : K} {p : Prob K} {s t : Presolve K} (h : PStruct inf p s) {i : Nat}
    (hi : i < p.numLin) {u : Bool}
    (hr : if u then p.linUb.value i = (p.rng inf i).1 ∧ isFinite inf (p.linUb.value i) = true
      else p.linLb.value i = (p.rng inf i).2 ∧ isFinite inf (p.linLb.value i) = true)
    (ht : addForcing inf p.coeffs p.varLb.value p.varUb.value s i u = some t) : PStruct inf p t := by
  unfold Sleqp.addForcing at ht
  obtain ⟨s1, h1, ht⟩ := Option.bind_eq_some_iff.mp ht
  have hs1 := h.removeCons h1
  split at ht
  · rw [← Option.some.inj ht]; exact hs1
  obtain ⟨s2, h2, h3⟩ := Option.map_eq_some_iff.mp ht
  obtain ⟨a1, a2, a3, a4, a5, a6, a7⟩ := forceVars_fields _ h2
  have hred : s1.consSt i = .redundant ∧ s1.forcing = s.forcing ∧ s.consSt i = .unchanged := by
    unfold Presolve.removeCons at h1
    split at h1
    · rename_i hu
      rw [← Option.some.inj h1]; exact ⟨setAt_same _ _ _, rfl, hu⟩
    · cases h1
  subst h3
  unfold Presolve.pushForcing
  constructor
  · simp only [a2, a1]; exact hs1.conv
  · simp only [a2]; exact hs1.convNodup
  · intro f hf
    simp only [a3] at hf
    rcases List.mem_append.mp hf with hf | hf
    · obtain ⟨b1, b2, b3, b4, b5⟩ := hs1.forcing f hf
      exact ⟨b1, by simp only [a1]; exact b2, b3, fun e he => a5 _ (b4 e he), b5⟩
    · rw [List.mem_singleton.mp hf]
      exact ⟨hi, by simp only [a1]; exact hred.1, rfl, fun e he => a4 e he, hr⟩
  · simp only [a3]
    rw [List.map_append, List.nodup_append]
    refine ⟨hs1.forcingNodup, List.nodup_singleton _, fun a ha c hc hac => ?_⟩
    obtain ⟨d, hd, rfl⟩ := List.mem_map.mp ha
    rw [List.map_singleton, List.mem_singleton] at hc
    rw [hred.2.1] at hd
    have := (h.forcing d hd).2.1
    rw [hac, hc, hred.2.2] at this; cases this
  · intro j v hv
    exact hs1.bound j v (a6 j v hv)
  · intro j v hv
    simp only [a3]
    rcases a7 j v hv with ⟨w, hw⟩ | ⟨e, he, hej⟩
    · obtain ⟨f, hf, e, he, hej⟩ := hs1.forced j w hw
      exact ⟨f, List.mem_append.mpr (Or.inl hf), e, he, hej⟩
    · exact ⟨⟨i, forcingCoeffs p.coeffs i, u⟩, by simp, e, he, hej⟩

theorem PStruct.forceUpper {inf : K} {p : Prob K} {s t : Presolve K} (h : PStruct inf p s) {i : Nat} (hi : i < p.numLin)
    (ht : forceUpper inf 0 p.coeffs p.varLb.value p.varUb.value p.linUb.value
      (linRange inf p.coeffs p.varLb.value p.varUb.value) s i = some t) : PStruct inf p t := by
  unfold Sleqp.forceUpper at ht
  split at ht
  · rename_i hfin
    split at ht
    · rw [← Option.some.inj ht]; exact h.congr rfl rfl rfl rfl
    split at ht
    · rename_i heq
      rw [isEq_zero_iff, sub_eq_zero] at heq
      exact h.addForcing hi (u := true) (by simpa using ⟨heq, hfin⟩) ht
    · rw [← Option.some.inj ht]; exact h
  · rw [← Option.some.inj ht]; exact h

theorem PStruct.forceStep {inf : K} {p : Prob K} {s t : Presolve K} (h : PStruct inf p s) {i : Nat} (hi : i < p.numLin)
    (ht : forceStep inf 0 p.coeffs p.varLb.value p.varUb.value p.linLb.value p.linUb.value
      (linRange inf p.coeffs p.varLb.value p.varUb.value) s i = some t) : PStruct inf p t := by
  unfold Sleqp.forceStep at ht
  split at ht
  · rw [← Option.some.inj ht]; exact h
  split at ht
  · rename_i hfin
    split at ht
    · exact PStruct.forceUpper (s := s.setInfeasible) (h.congr rfl rfl rfl rfl) hi ht
    split at ht
    · rename_i heq
      rw [isEq_zero_iff, sub_eq_zero] at heq
      exact h.addForcing hi (u := false) (by simpa using ⟨heq.symm, hfin⟩) ht
    · exact h.forceUpper hi ht
  · exact h.forceUpper hi ht

theorem PStruct.dropStep {inf : K} {p : Prob K} (hp : p.WF) {s t : Presolve K} (h : PStruct inf p s) {i : Nat}
    (hi : i < p.numLin)
    (ht : dropStep inf p.varLb.value p.varUb.value p.linLb.value p.linUb.value (consCounts p.coeffs) s i = some t) :
    PStruct inf p t := by
  unfold Sleqp.dropStep at ht
  split at ht
  · rw [← Option.some.inj ht]; exact h
  split at ht
  · exact h.removeCons ht
  split at ht
  · split at ht
    · rw [← Option.some.inj ht]; exact h.congr rfl rfl rfl rfl
    · exact h.removeCons ht
  split at ht
  · rename_i hc
    obtain ⟨j, v, c1, c2, c3, c4⟩ := counts_one hp hc
    rw [c1] at ht
    unfold convertToBound at ht
    rw [Option.bind_some] at ht
    split at ht
    · simp only [] at ht
      split at ht
      · exact h.convertCons ⟨hi, c3, c2, counts_value hp c1, c4, rfl⟩ ht
      · exact h.removeCons ht
    · cases ht
  · rw [← Option.some.inj ht]; exact h

theorem consReqStep_fields (inf eps : K) (llb lub : Nat → K) (rng : Nat → K × K) (s : Presolve K) (i : Nat) :
    (consReqStep inf eps llb lub rng s i).varSt = s.varSt ∧ (consReqStep inf eps llb lub rng s i).consSt = s.consSt ∧
    (consReqStep inf eps llb lub rng s i).conv = s.conv ∧ (consReqStep inf eps llb lub rng s i).forcing = s.forcing := by
  unfold consReqStep Presolve.addConsReq
  refine ⟨?_, ?_, ?_, ?_⟩ <;> (split <;> [rfl; (simp only []; split <;> split <;> rfl)])

theorem varReqStep_fields (inf eps : K) (lo hi : Nat → K) (rng : Nat → K × K) (s : Presolve K) (i : Nat) :
    (varReqStep inf eps lo hi rng s i).varSt = s.varSt ∧ (varReqStep inf eps lo hi rng s i).consSt = s.consSt ∧
    (varReqStep inf eps lo hi rng s i).conv = s.conv ∧ (varReqStep inf eps lo hi rng s i).forcing = s.forcing := by
  unfold varReqStep Presolve.addVarReq Presolve.setInfeasible
  refine ⟨?_, ?_, ?_, ?_⟩ <;> (split <;> [rfl; (simp only []; split <;> split <;> split <;> rfl)])

/-- the records of an analysis with exact tolerances -/
theorem presolve_struct {inf : K} {p : Prob K} (hp : p.WF) {s : Presolve K} (h : presolve inf 0 p = some s) :
    PStruct inf p s := by
  unfold presolve at h
  obtain ⟨s1, h1, h⟩ := Option.bind_eq_some_iff.mp h
  obtain ⟨s2, h2, h⟩ := Option.bind_eq_some_iff.mp h
  obtain ⟨s3, h3, h⟩ := Option.bind_eq_some_iff.mp h
  obtain ⟨s4, h4, h⟩ := Option.map_eq_some_iff.mp h
  have f1 : PStruct inf p s1 := by
    refine foldlM_pres (PStruct inf p) _ _ ?_ h1 PStruct.init
    intro j _ t t' ht hf
    unfold fixStep at hf
    split at hf
    · rename_i hb; exact ht.fixVar ⟨rfl, hb.symm⟩ hf
    · rw [← Option.some.inj hf]; exact ht
  have f2 : PStruct inf p s2 :=
    foldlM_pres (PStruct inf p) _ _ (fun i hi t t' ht hf => ht.dropStep hp (List.mem_range.mp hi) hf) h2 f1
  have f3 : PStruct inf p s3 := by
    refine foldlM_pres (PStruct inf p) _ _ ?_ h3 f2
    intro i _ t t' ht hf
    unfold slackStep at hf
    split at hf
    · rw [← Option.some.inj hf]; exact ht
    split at hf
    · split at hf
      · exact ht.removeCons hf
      · rw [← Option.some.inj hf]; exact ht
    · rw [← Option.some.inj hf]; exact ht
  have f4 : PStruct inf p s4 :=
    foldlM_pres (PStruct inf p) _ _ (fun i hi t t' ht hf => ht.forceStep (List.mem_range.mp hi) hf) h4 f3
  simp only [] at h
  rw [← h]
  refine foldl_pres (PStruct inf p) _ _ (fun j _ t ht => ?_) (foldl_pres (PStruct inf p) _ _ (fun i _ t ht => ?_) f4)
  · obtain ⟨a, b, c, d⟩ := varReqStep_fields inf 0 p.varLb.value p.varUb.value
      (varRange inf p.coeffs p.varLb.value p.varUb.value p.linLb.value p.linUb.value
        (linRange inf p.coeffs p.varLb.value p.varUb.value)) t j
    exact ht.congr a b c d
  · obtain ⟨a, b, c, d⟩ := consReqStep_fields inf 0 p.linLb.value p.linUb.value
        (linRange inf p.coeffs p.varLb.value p.varUb.value) t i
    exact ht.congr a b c d

/-- at a feasible point, the variables of a forcing row at its upper bound and the row itself -/
theorem forced_upper {inf : K} (hinf : 0 < inf) {p : Prob K} (hp : p.WF) {x : Nat → K} (hx : p.Pts inf x) {i : Nat}
    (hi : i < p.numLin) (heq : p.linUb.value i = (p.rng inf i).1) (hf : isFinite inf (p.linUb.value i) = true) :
    p.activity x i = p.linUb.value i ∧ ∀ j < p.numVars, p.coeffs.value i j ≠ 0 →
      x j = forcedValue p.varLb.value p.varUb.value true (j, p.coeffs.value i j) := by
  unfold Prob.rng at heq
  obtain ⟨⟨r1, r2⟩, _, rm⟩ := hp.range hinf hx.1.1 hx.2 hi
  have h4 := (hx.1.2 i hi).2
  refine ⟨le_antisymm h4 (by rw [heq]; exact r1), fun j hj hv => ?_⟩
  have h3 := rm (by rw [← heq]; exact hf) _ (rowEnt_of_value hp hj hv)
  obtain ⟨b1, b2⟩ := hx.1.1 j hj
  unfold minTerm at h3
  unfold forcedValue
  simp only at h3 ⊢
  by_cases hpos : p.coeffs.value i j > 0
  · rw [if_pos hpos] at h3
    rw [if_pos (by simp [hpos])]
    refine le_antisymm ?_ b1
    have : p.coeffs.value i j * x j ≤ p.coeffs.value i j * p.varLb.value j := by linarith
    exact le_of_mul_le_mul_left this hpos
  · rw [if_neg hpos] at h3
    rw [if_neg (by simp [hpos])]
    have hneg := lt_of_le_of_ne (not_lt.mp hpos) hv
    refine le_antisymm b2 ?_
    have : p.coeffs.value i j * x j ≤ p.coeffs.value i j * p.varUb.value j := by linarith
    exact (mul_le_mul_left_of_neg hneg).mp this

/-- at a feasible point, the variables of a forcing row at its lower bound and the row itself -/
theorem forced_lower {inf : K} (hinf : 0 < inf) {p : Prob K} (hp : p.WF) {x : Nat → K} (hx : p.Pts inf x) {i : Nat}
    (hi : i < p.numLin) (heq : p.linLb.value i = (p.rng inf i).2) (hf : isFinite inf (p.linLb.value i) = true) :
    p.activity x i = p.linLb.value i ∧ ∀ j < p.numVars, p.coeffs.value i j ≠ 0 →
      x j = forcedValue p.varLb.value p.varUb.value false (j, p.coeffs.value i j) := by
  unfold Prob.rng at heq
  obtain ⟨⟨r1, r2⟩, rm, _⟩ := hp.range hinf hx.1.1 hx.2 hi
  have h4 := (hx.1.2 i hi).1
  refine ⟨le_antisymm (by rw [heq]; exact r2) h4, fun j hj hv => ?_⟩
  have h3 := rm (by rw [← heq]; exact hf) _ (rowEnt_of_value hp hj hv)
  obtain ⟨b1, b2⟩ := hx.1.1 j hj
  unfold maxTerm at h3
  unfold forcedValue
  simp only at h3 ⊢
  by_cases hpos : p.coeffs.value i j > 0
  · rw [if_pos hpos] at h3
    rw [if_neg (by simp [hpos])]
    refine le_antisymm b2 ?_
    have : p.coeffs.value i j * p.varUb.value j ≤ p.coeffs.value i j * x j := by linarith
    exact le_of_mul_le_mul_left this hpos
  · rw [if_neg hpos] at h3
    rw [if_pos (by simp [hpos])]
    have hneg := lt_of_le_of_ne (not_lt.mp hpos) hv
    refine le_antisymm ?_ b1
    have : p.coeffs.value i j * p.varLb.value j ≤ p.coeffs.value i j * x j := by linarith
    exact (mul_le_mul_left_of_neg hneg).mp this

end
end Sleqp
