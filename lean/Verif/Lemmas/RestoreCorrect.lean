import Verif.Lemmas.RestorePrep

/-! Helper lemmas: the corrections made when multipliers are restored. -/

namespace Sleqp

open Finset

section
variable {K : Type*} [Field K] [LinearOrder K]

/-- gradient of the Lagrangian -/
def RestoreSt.total (m : Nat) (g : Nat → K) (J : Nat → Nat → K) (st : RestoreSt K) (j : Nat) : K :=
  g j + st.varDual j + ∑ i ∈ range m, st.consDual i * J i j

/-- facts kept by all corrections -/
structure RBase (n m : Nat) (cv cl cu g : Nat → K) (J : Nat → Nat → K) (st : RestoreSt K) : Prop where
  tot : ∀ j < n, st.total m g J j = st.res j
  adm : ∀ j < n, (st.varState j).Admits (st.varDual j)
  cons : ∀ i < m, Complementary (cv i) (cl i) (cu i) (st.consDual i) ∧ (st.consState i).Admits (st.consDual i)

variable [IsStrictOrderedRing K]
variable {n m : Nat} {cv cl cu g : Nat → K} {J : Nat → Nat → K}

omit [LinearOrder K] [IsStrictOrderedRing K] in
theorem total_congr {st st' : RestoreSt K} {j : Nat} (h1 : st'.varDual j = st.varDual j)
    (h2 : ∀ i < m, st'.consDual i = st.consDual i) : st'.total m g J j = st.total m g J j := by
  unfold RestoreSt.total
  rw [h1, sum_congr rfl fun i hi => by rw [h2 i (mem_range.mp hi)]]

omit [LinearOrder K] [IsStrictOrderedRing K] in
theorem sum_setAt {f : Nat → K} {i : Nat} (hi : i < m) (y : K) (c : Nat → K) :
    ∑ k ∈ range m, setAt f i y k * c k = (∑ k ∈ range m, f k * c k) + (y - f i) * c i := by
  have h : ∀ k, setAt f i y k * c k = f k * c k + if k = i then (y - f i) * c i else 0 := by
    intro k
    unfold setAt
    split
    · rename_i e; rw [e]; ring
    · ring
  rw [sum_congr rfl fun k _ => h k, sum_add_distrib, sum_ite_eq' (range m) i, if_pos (mem_range.mpr hi)]

/-- `correctRes` at a variable without multiplier -/
theorem correctRes_spec {st : RestoreSt K} (h : RBase n m cv cl cu g J st) {j : Nat}
    (h0 : st.varDual j = 0) (state : ActiveState) (hs : j < n → state.Admits (-st.res j)) :
    ∃ st', correctRes { st with varState := setAt st.varState j state } j = some st' ∧ RBase n m cv cl cu g J st' ∧
      st'.consDual = st.consDual ∧ st'.consState = st.consState ∧
      st'.varState = setAt st.varState j state ∧ st'.varDual = setAt st.varDual j (-st.res j) ∧
      st'.res = setAt st.res j 0 := by
  refine ⟨{ st with
    varState := setAt st.varState j state
    varDual := setAt st.varDual j (-st.res j)
    res := setAt st.res j 0 }, ?_, ?_, rfl, rfl, rfl, rfl, rfl⟩
  · unfold correctRes
    simp only []
    rw [if_pos h0]
  · constructor
    · intro k hk
      by_cases hkj : k = j
      · subst hkj
        have := h.tot k hk
        unfold RestoreSt.total at this ⊢
        simp only [setAt_same]
        rw [h0] at this
        linear_combination this
      · simp only [setAt_ne _ _ hkj]
        rw [← h.tot k hk]
        exact total_congr (by simp only [setAt_ne _ _ hkj]) fun _ _ => rfl
    · intro k hk
      by_cases hkj : k = j
      · subst hkj; simp only [setAt_same]; exact hs hk
      · simp only [setAt_ne _ _ hkj]; exact h.adm k hk
    · exact h.cons

/-! ### variables fixed by their bounds -/

theorem fixed_spec {s : Presolve K} (l : List (Nat × K)) (hl : (l.map Prod.fst).Nodup) {st : RestoreSt K}
    (h : RBase n m cv cl cu g J st) (h0 : ∀ e ∈ l, st.varDual e.1 = 0) :
    ∃ st', l.foldlM (correctFixedStep s) st = some st' ∧ RBase n m cv cl cu g J st' ∧
      st'.consDual = st.consDual ∧ st'.consState = st.consState ∧
      (∀ j ∈ l.map Prod.fst, (∃ v, s.varSt j = .boundFixed v) → st'.res j = 0) ∧
      ∀ j, (j ∉ l.map Prod.fst ∨ ∀ v, s.varSt j ≠ .boundFixed v) →
        st'.varDual j = st.varDual j ∧ st'.varState j = st.varState j ∧ st'.res j = st.res j := by
  induction l generalizing st with
  | nil => exact ⟨st, rfl, h, rfl, rfl, by simp, fun _ _ => ⟨rfl, rfl, rfl⟩⟩
  | cons e t ih =>
    rw [List.map_cons, List.nodup_cons] at hl
    rw [List.foldlM_cons]
    by_cases hb : ∃ v, s.varSt e.1 = .boundFixed v
    · obtain ⟨v, hv⟩ := hb
      obtain ⟨s1, a1, a2, a3, a4, a5, a6, a7⟩ := correctRes_spec h (h0 e (by simp)) .both (fun _ => trivial)
      have hstep : correctFixedStep s st e = some s1 := by
        unfold correctFixedStep; rw [hv]; exact a1
      obtain ⟨s2, b1, b2, b3, b4, b5, b6⟩ := ih hl.2 a2 (fun a ha => by
        have hne : a.1 ≠ e.1 := fun hc => hl.1 (hc ▸ List.mem_map_of_mem ha)
        rw [a6, setAt_ne _ _ hne]; exact h0 a (by simp [ha]))
      refine ⟨s2, by rw [hstep]; exact b1, b2, by rw [b3, a3], by rw [b4, a4], ?_, ?_⟩
      · intro j hj hjb
        rw [List.map_cons] at hj
        rcases List.mem_cons.mp hj with rfl | hj
        · rw [(b6 _ (Or.inl hl.1)).2.2, a7, setAt_same]
        · exact b5 j hj hjb
      · intro j hj
        have hje : j ≠ e.1 := by
          rintro rfl
          rcases hj with hj | hj
          · exact hj (by simp)
          · exact hj v hv
        obtain ⟨c1, c2, c3⟩ := b6 j (hj.imp (fun hj hm => hj (by rw [List.map_cons]; exact List.mem_cons_of_mem _ hm)) id)
        rw [c1, c2, c3, a6, a5, a7, setAt_ne _ _ hje, setAt_ne _ _ hje, setAt_ne _ _ hje]
        exact ⟨rfl, rfl, rfl⟩
    · have hstep : correctFixedStep s st e = some st := by
        unfold correctFixedStep
        rcases hx : s.varSt e.1 with _ | v | v
        · rfl
        · exact absurd ⟨v, hx⟩ hb
        · rfl
      obtain ⟨s2, b1, b2, b3, b4, b5, b6⟩ := ih hl.2 h (fun a ha => h0 a (by simp [ha]))
      refine ⟨s2, by rw [hstep]; exact b1, b2, b3, b4, ?_, ?_⟩
      · intro j hj hjb
        rw [List.map_cons] at hj
        rcases List.mem_cons.mp hj with rfl | hj
        · exact absurd hjb hb
        · exact b5 j hj hjb
      · intro j hj
        by_cases hje : j = e.1
        · subst hje; exact b6 _ (Or.inl hl.1)
        · exact b6 j (hj.imp (fun hj hm => hj (by rw [List.map_cons]; exact List.mem_cons_of_mem _ hm)) id)

/-! ### converted bounds -/

/-- facts kept while the converted bounds `rest` remain to be corrected; `x` are the values and `xl`, `xu` the bounds of the
variables in the original problem -/
structure CInv (n m numGen : Nat) (x xl xu cv cl cu g : Nat → K) (J : Nat → Nat → K) (rest : List (ConvBound K))
    (st : RestoreSt K) : Prop extends RBase n m cv cl cu g J st where
  up : ∀ j < n, 0 < st.varDual j → (x j = xu j ∨ ∃ b ∈ rest, b.var = j ∧ b.upper = true) ∧
    ∀ b ∈ rest, b.var = j → b.upper = true → x j = b.ub
  low : ∀ j < n, st.varDual j < 0 → (x j = xl j ∨ ∃ b ∈ rest, b.var = j ∧ b.lower = true) ∧
    ∀ b ∈ rest, b.var = j → b.lower = true → x j = b.lb
  pend : ∀ b ∈ rest, st.consState (b.cons + numGen) = .inactive ∧ st.consDual (b.cons + numGen) = 0

/-- a record describes a row with a single coefficient -/
structure ConvOk (n m numGen : Nat) (x cv cl cu : Nat → K) (J : Nat → Nat → K) (b : ConvBound K) : Prop where
  var : b.var < n
  cons : b.cons + numGen < m
  ne : b.factor ≠ 0
  col : J (b.cons + numGen) b.var = b.factor
  cols : ∀ j < n, j ≠ b.var → J (b.cons + numGen) j = 0
  atUp : x b.var = b.ub → if b.factor < 0 then cv (b.cons + numGen) = cl (b.cons + numGen)
    else cv (b.cons + numGen) = cu (b.cons + numGen)
  atLow : x b.var = b.lb → if b.factor < 0 then cv (b.cons + numGen) = cu (b.cons + numGen)
    else cv (b.cons + numGen) = cl (b.cons + numGen)

/-- the multiplier of the variable moves to the row -/
theorem moveDual_spec {numGen : Nat} {x xl xu : Nat → K} {b : ConvBound K} {rest : List (ConvBound K)} {st : RestoreSt K}
    (h : CInv n m numGen x xl xu cv cl cu g J (b :: rest) st) (hb : ConvOk n m numGen x cv cl cu J b)
    (hnd : ∀ c ∈ rest, c.cons ≠ b.cons) (state : ActiveState)
    (hc : Complementary (cv (b.cons + numGen)) (cl (b.cons + numGen)) (cu (b.cons + numGen)) (st.varDual b.var / b.factor))
    (ha : state.Admits (st.varDual b.var / b.factor)) :
    CInv n m numGen x xl xu cv cl cu g J rest (moveDual st (b.cons + numGen) b.var (st.varDual b.var / b.factor) state) := by
  obtain ⟨p1, p2⟩ := h.pend b (by simp)
  unfold moveDual
  refine ⟨⟨?_, ?_, ?_⟩, ?_, ?_, ?_⟩
  · intro j hj
    rw [← h.tot j hj]
    unfold RestoreSt.total
    simp only []
    rw [sum_setAt hb.cons, p2]
    by_cases hjb : j = b.var
    · subst hjb
      rw [setAt_same, hb.col]
      have := hb.ne
      field_simp
      ring
    · rw [setAt_ne _ _ hjb, hb.cols j hj hjb]; ring
  · intro j hj
    by_cases hjb : j = b.var
    · subst hjb; simp only [setAt_same]; rfl
    · simp only [setAt_ne _ _ hjb]; exact h.adm j hj
  · intro i hi
    by_cases hib : i = b.cons + numGen
    · subst hib; simp only [setAt_same]; exact ⟨hc, ha⟩
    · simp only [setAt_ne _ _ hib]; exact h.cons i hi
  · intro j hj hd
    by_cases hjb : j = b.var
    · subst hjb; simp only [setAt_same, lt_irrefl] at hd
    · simp only [setAt_ne _ _ hjb] at hd
      obtain ⟨a1, a2⟩ := h.up j hj hd
      refine ⟨a1.imp id ?_, fun c hc => a2 c (by simp [hc])⟩
      rintro ⟨c, hc, c1, c2⟩
      rcases List.mem_cons.mp hc with rfl | hc
      · exact absurd c1.symm hjb
      · exact ⟨c, hc, c1, c2⟩
  · intro j hj hd
    by_cases hjb : j = b.var
    · subst hjb; simp only [setAt_same, lt_irrefl] at hd
    · simp only [setAt_ne _ _ hjb] at hd
      obtain ⟨a1, a2⟩ := h.low j hj hd
      refine ⟨a1.imp id ?_, fun c hc => a2 c (by simp [hc])⟩
      rintro ⟨c, hc, c1, c2⟩
      rcases List.mem_cons.mp hc with rfl | hc
      · exact absurd c1.symm hjb
      · exact ⟨c, hc, c1, c2⟩
  · intro c hc'
    have hne : c.cons + numGen ≠ b.cons + numGen := by have := hnd c hc'; omega
    simp only [setAt_ne _ _ hne]
    exact h.pend c (by simp [hc'])

/-- a record is passed without change -/
theorem CInv.skip {numGen : Nat} {x xl xu : Nat → K} {b : ConvBound K} {rest : List (ConvBound K)} {st : RestoreSt K}
    (h : CInv n m numGen x xl xu cv cl cu g J (b :: rest) st)
    (hu : 0 < st.varDual b.var → b.upper = false) (hl : st.varDual b.var < 0 → b.lower = false) :
    CInv n m numGen x xl xu cv cl cu g J rest st := by
  refine ⟨h.toRBase, ?_, ?_, fun c hc => h.pend c (by simp [hc])⟩
  · intro j hj hd
    obtain ⟨a1, a2⟩ := h.up j hj hd
    refine ⟨a1.imp id ?_, fun c hc => a2 c (by simp [hc])⟩
    rintro ⟨c, hc, c1, c2⟩
    rcases List.mem_cons.mp hc with rfl | hc
    · rw [← c1] at hd; rw [hu hd] at c2; cases c2
    · exact ⟨c, hc, c1, c2⟩
  · intro j hj hd
    obtain ⟨a1, a2⟩ := h.low j hj hd
    refine ⟨a1.imp id ?_, fun c hc => a2 c (by simp [hc])⟩
    rintro ⟨c, hc, c1, c2⟩
    rcases List.mem_cons.mp hc with rfl | hc
    · rw [← c1] at hd; rw [hl hd] at c2; cases c2
    · exact ⟨c, hc, c1, c2⟩

theorem correctConverted_spec {numGen : Nat} {x xl xu : Nat → K} {b : ConvBound K} {rest : List (ConvBound K)}
    {st : RestoreSt K} (h : CInv n m numGen x xl xu cv cl cu g J (b :: rest) st) (hb : ConvOk n m numGen x cv cl cu J b)
    (hnd : ∀ c ∈ rest, c.cons ≠ b.cons) :
    ∃ st', correctConverted numGen st b = some st' ∧ CInv n m numGen x xl xu cv cl cu g J rest st' ∧
      st'.res = st.res ∧ (∀ j, st.varDual j = 0 → st'.varDual j = 0) ∧
      (∀ j, st.varState j = .inactive → st'.varState j = .inactive) ∧
      ∀ i, i ≠ b.cons + numGen → st'.consDual i = st.consDual i := by
  obtain ⟨p1, p2⟩ := h.pend b (by simp)
  have hadm := h.adm b.var hb.var
  have hdiv : cdiv (st.varDual b.var) b.factor = some (st.varDual b.var / b.factor) := by
    unfold cdiv; rw [if_neg hb.ne]
  have hmoved : ∀ state, (∀ j, st.varDual j = 0 →
      (moveDual st (b.cons + numGen) b.var (st.varDual b.var / b.factor) state).varDual j = 0) ∧
      (∀ j, st.varState j = .inactive →
      (moveDual st (b.cons + numGen) b.var (st.varDual b.var / b.factor) state).varState j = .inactive) ∧
      ∀ i, i ≠ b.cons + numGen →
      (moveDual st (b.cons + numGen) b.var (st.varDual b.var / b.factor) state).consDual i = st.consDual i := by
    intro state
    unfold moveDual
    refine ⟨fun j hj => ?_, fun j hj => ?_, fun i hi => by simp only [setAt_ne _ _ hi]⟩
    · by_cases hjb : j = b.var
      · simp only [hjb, setAt_same]
      · simp only [setAt_ne _ _ hjb, hj]
    · by_cases hjb : j = b.var
      · simp only [hjb, setAt_same]
      · simp only [setAt_ne _ _ hjb, hj]
  -- upper bound: the multiplier is not negative
  have hU : 0 ≤ st.varDual b.var → ∃ st', some (if b.upper then moveDual st (b.cons + numGen) b.var
        (st.varDual b.var / b.factor) (if b.factor < 0 then .lower else .upper) else st) = some st' ∧
      CInv n m numGen x xl xu cv cl cu g J rest st' ∧ st'.res = st.res ∧ (∀ j, st.varDual j = 0 → st'.varDual j = 0) ∧
      (∀ j, st.varState j = .inactive → st'.varState j = .inactive) ∧
      ∀ i, i ≠ b.cons + numGen → st'.consDual i = st.consDual i := by
    intro hd
    by_cases hbu : b.upper = true
    · rw [if_pos hbu]
      refine ⟨_, rfl, moveDual_spec h hb hnd _ ?_ ?_, rfl, hmoved _⟩
      · rcases hd.eq_or_lt with h0 | h0
        · left; rw [← h0, zero_div]
        · have := hb.atUp ((h.up b.var hb.var h0).2 b (by simp) rfl hbu)
          rcases lt_or_gt_of_ne hb.ne with hf | hf
          · rw [if_pos hf] at this
            exact Or.inr (Or.inr ⟨div_neg_of_pos_of_neg h0 hf, this.le⟩)
          · rw [if_neg (not_lt.mpr hf.le)] at this
            exact Or.inr (Or.inl ⟨div_pos h0 hf, this.ge⟩)
      · rcases lt_or_gt_of_ne hb.ne with hf | hf
        · rw [if_pos hf]; exact div_nonpos_of_nonneg_of_nonpos hd hf.le
        · rw [if_neg (not_lt.mpr hf.le)]; exact div_nonneg hd hf.le
    · rw [if_neg hbu]
      exact ⟨st, rfl, h.skip (fun _ => by simpa using hbu) (fun hn => absurd hd (not_le.mpr hn)), rfl, fun _ h => h,
        fun _ h => h, fun _ _ => rfl⟩
  have hL : st.varDual b.var ≤ 0 → ∃ st', some (if b.lower then moveDual st (b.cons + numGen) b.var
        (st.varDual b.var / b.factor) (if b.factor < 0 then .upper else .lower) else st) = some st' ∧
      CInv n m numGen x xl xu cv cl cu g J rest st' ∧ st'.res = st.res ∧ (∀ j, st.varDual j = 0 → st'.varDual j = 0) ∧
      (∀ j, st.varState j = .inactive → st'.varState j = .inactive) ∧
      ∀ i, i ≠ b.cons + numGen → st'.consDual i = st.consDual i := by
    intro hd
    by_cases hbu : b.lower = true
    · rw [if_pos hbu]
      refine ⟨_, rfl, moveDual_spec h hb hnd _ ?_ ?_, rfl, hmoved _⟩
      · rcases hd.eq_or_lt with h0 | h0
        · left; rw [h0, zero_div]
        · have := hb.atLow ((h.low b.var hb.var h0).2 b (by simp) rfl hbu)
          rcases lt_or_gt_of_ne hb.ne with hf | hf
          · rw [if_pos hf] at this
            exact Or.inr (Or.inl ⟨div_pos_of_neg_of_neg h0 hf, this.ge⟩)
          · rw [if_neg (not_lt.mpr hf.le)] at this
            exact Or.inr (Or.inr ⟨div_neg_of_neg_of_pos h0 hf, this.le⟩)
      · rcases lt_or_gt_of_ne hb.ne with hf | hf
        · rw [if_pos hf]; exact div_nonneg_of_nonpos hd hf.le
        · rw [if_neg (not_lt.mpr hf.le)]; exact div_nonpos_of_nonpos_of_nonneg hd hf.le
    · rw [if_neg hbu]
      exact ⟨st, rfl, h.skip (fun hn => absurd hd (not_le.mpr hn)) (fun _ => by simpa using hbu), rfl, fun _ h => h,
        fun _ h => h, fun _ _ => rfl⟩
  unfold correctConverted
  simp only []
  rw [hdiv, Option.bind_some, if_pos ⟨p1, p2⟩]
  cases hst : st.varState b.var with
  | inactive =>
    rw [hst] at hadm
    have h0 : st.varDual b.var = 0 := hadm
    have : resolveState ActiveState.inactive (st.varDual b.var) = .inactive := rfl
    rw [this]
    simp only []
    rw [if_pos h0]
    exact ⟨st, rfl, h.skip (fun hn => by rw [h0] at hn; exact absurd hn (lt_irrefl _))
      (fun hn => by rw [h0] at hn; exact absurd hn (lt_irrefl _)), rfl, fun _ h => h, fun _ h => h, fun _ _ => rfl⟩
  | lower =>
    rw [hst] at hadm
    exact hL hadm
  | upper =>
    rw [hst] at hadm
    exact hU hadm
  | both =>
    unfold resolveState
    rw [if_pos rfl]
    by_cases hd : st.varDual b.var ≥ 0
    · rw [if_pos hd]; exact hU hd
    · rw [if_neg hd]; exact hL (not_le.mp hd).le

theorem converted_spec {numGen : Nat} {x xl xu : Nat → K} (l : List (ConvBound K)) {st : RestoreSt K}
    (h : CInv n m numGen x xl xu cv cl cu g J l st) (hl : ∀ b ∈ l, ConvOk n m numGen x cv cl cu J b)
    (hnd : (l.map ConvBound.cons).Nodup) :
    ∃ st', l.foldlM (correctConverted numGen) st = some st' ∧ CInv n m numGen x xl xu cv cl cu g J [] st' ∧
      st'.res = st.res ∧ (∀ j, st.varDual j = 0 → st'.varDual j = 0) ∧
      (∀ j, st.varState j = .inactive → st'.varState j = .inactive) ∧
      ∀ i, (∀ b ∈ l, i ≠ b.cons + numGen) → st'.consDual i = st.consDual i := by
  induction l generalizing st with
  | nil => exact ⟨st, rfl, h, rfl, fun _ h => h, fun _ h => h, fun _ _ => rfl⟩
  | cons b t ih =>
    rw [List.map_cons, List.nodup_cons] at hnd
    obtain ⟨s1, a1, a2, a3, a4, a5, a6⟩ := correctConverted_spec h (hl b (by simp))
      (fun c hc hcb => hnd.1 (hcb ▸ List.mem_map_of_mem hc))
    obtain ⟨s2, b1, b2, b3, b4, b5, b6⟩ := ih a2 (fun c hc => hl c (by simp [hc])) hnd.2
    refine ⟨s2, by rw [List.foldlM_cons, a1]; exact b1, b2, by rw [b3, a3], fun j hj => b4 j (a4 j hj),
      fun j hj => b5 j (a5 j hj), fun i hi => ?_⟩
    rw [b6 i fun c hc => hi c (by simp [hc]), a6 i (hi b (by simp))]

end
end Sleqp
