import Verif.Lemmas.RestoreCorrect

/-! Helper lemmas: multipliers of forcing constraints. -/

namespace Sleqp

open Finset

section
variable {K : Type*} [Field K] [LinearOrder K] [IsStrictOrderedRing K]

/-- the sign of the residual does not fit the bound of the variable -/
def Inverted (res : Nat → K) (u : Bool) (e : Nat × K) : Prop :=
  ¬ (decide (forcedState u e.2 = .upper) = decide (-res e.1 ≥ 0))

/-- value and sign of a candidate for the multiplier of the row -/
def SignOk (u : Bool) (y : K) : Prop := if u then 0 ≤ y else y ≤ 0

omit [IsStrictOrderedRing K] in
theorem forcedState_upper (u : Bool) (a : K) (ha : a ≠ 0) : forcedState u a = .upper ↔ (u = false ↔ 0 < a) := by
  unfold forcedState
  rcases lt_or_gt_of_ne ha with h | h
  · have hn := not_lt.mpr h.le
    cases u <;> simp [hn]
  · cases u <;> simp [h]

omit [IsStrictOrderedRing K] in
theorem forcedState_or (u : Bool) (a : K) : forcedState u a = .upper ∨ forcedState u a = .lower := by
  unfold forcedState; simp only []; split <;> split <;> simp_all

theorem inverted_sign {res : Nat → K} {u : Bool} {e : Nat × K} (ha : e.2 ≠ 0) (h : Inverted res u e) :
    SignOk u (-res e.1 / e.2) := by
  unfold Inverted at h
  rw [decide_eq_decide, forcedState_upper u e.2 ha] at h
  unfold SignOk
  rcases lt_or_gt_of_ne ha with hs | hs
  · have hn := not_lt.mpr hs.le
    cases u
    · simp only [true_iff, hn, false_iff, not_le, Bool.false_eq_true, if_false, ge_iff_le, not_not] at h ⊢
      exact div_nonpos_of_nonneg_of_nonpos (not_lt.mp h) hs.le
    · simp only [Bool.true_eq_false, false_iff, hn, not_false_eq_true, true_iff, not_le, if_true, ge_iff_le] at h ⊢
      exact div_nonneg_of_nonpos h.le hs.le
  · cases u
    · simp only [true_iff, hs, not_le, Bool.false_eq_true, if_false, ge_iff_le] at h ⊢
      exact div_nonpos_of_nonpos_of_nonneg h.le hs.le
    · simp only [Bool.true_eq_false, false_iff, hs, not_true_eq_false, not_not, if_true, ge_iff_le] at h ⊢
      exact div_nonneg h hs.le

theorem scan_spec {res : Nat → K} {u : Bool} {junk : Nat} {L : List ((Nat × K) × Nat)} (l : List ((Nat × K) × Nat))
    (hsub : ∀ e ∈ l, e ∈ L) (hne : ∀ e ∈ l, e.1.2 ≠ 0) (acc : Bool × Nat × K) (h1 : SignOk u acc.2.2)
    (h2 : acc.2.1 = junk ∧ acc.2.2 = 0 ∨ ∃ e ∈ L, e.2 = acc.2.1 ∧ acc.2.2 = -res e.1.1 / e.1.2) :
    ∃ acc', l.foldlM (scanForced res u) acc = some acc' ∧ SignOk u acc'.2.2 ∧
      (acc'.2.1 = junk ∧ acc'.2.2 = 0 ∨ ∃ e ∈ L, e.2 = acc'.2.1 ∧ acc'.2.2 = -res e.1.1 / e.1.2) ∧
      |acc.2.2| ≤ |acc'.2.2| ∧ (acc.1 = true → acc'.1 = true) ∧
      ∀ e ∈ l, Inverted res u e.1 → acc'.1 = true ∧ |-res e.1.1 / e.1.2| ≤ |acc'.2.2| := by
  induction l generalizing acc with
  | nil => exact ⟨acc, rfl, h1, h2, le_rfl, id, by simp⟩
  | cons e t ih =>
    rw [List.foldlM_cons]
    have he := hne e (by simp)
    by_cases hinv : Inverted res u e.1
    · have hstep : scanForced res u acc e =
          some (if |-res e.1.1 / e.1.2| > |acc.2.2| then (true, e.2, -res e.1.1 / e.1.2) else (true, acc.2)) := by
        unfold scanForced cdiv
        simp only []
        unfold Inverted at hinv
        rw [if_neg hinv, if_neg he]; rfl
      rw [hstep]
      by_cases hgt : |-res e.1.1 / e.1.2| > |acc.2.2|
      · rw [if_pos hgt]
        obtain ⟨a', b1, b2, b3, b4, b5, b6⟩ := ih (fun a ha => hsub a (by simp [ha])) (fun a ha => hne a (by simp [ha]))
          (true, e.2, -res e.1.1 / e.1.2) (inverted_sign he hinv) (Or.inr ⟨e, hsub e (by simp), rfl, rfl⟩)
        refine ⟨a', b1, b2, b3, le_trans hgt.le b4, fun _ => b5 rfl, fun a ha hi => ?_⟩
        rcases List.mem_cons.mp ha with rfl | ha
        · exact ⟨b5 rfl, b4⟩
        · exact b6 a ha hi
      · rw [if_neg hgt]
        obtain ⟨a', b1, b2, b3, b4, b5, b6⟩ := ih (fun a ha => hsub a (by simp [ha])) (fun a ha => hne a (by simp [ha]))
          (true, acc.2) h1 h2
        refine ⟨a', b1, b2, b3, b4, fun _ => b5 rfl, fun a ha hi => ?_⟩
        rcases List.mem_cons.mp ha with rfl | ha
        · exact ⟨b5 rfl, le_trans (not_lt.mp hgt) b4⟩
        · exact b6 a ha hi
    · have hstep : scanForced res u acc e = some acc := by
        unfold scanForced
        simp only []
        unfold Inverted at hinv
        rw [if_pos (not_not.mp hinv)]
      rw [hstep]
      obtain ⟨a', b1, b2, b3, b4, b5, b6⟩ := ih (fun a ha => hsub a (by simp [ha])) (fun a ha => hne a (by simp [ha]))
        acc h1 h2
      refine ⟨a', b1, b2, b3, b4, b5, fun a ha hi => ?_⟩
      rcases List.mem_cons.mp ha with rfl | ha
      · exact absurd hi hinv
      · exact b6 a ha hi

/-- with the largest candidate as multiplier of the row, the multipliers of the variables get the right signs -/
theorem forced_sign {res : Nat → K} {u : Bool} {e : Nat × K} (ha : e.2 ≠ 0) {y : K} (hy : SignOk u y)
    (hmax : Inverted res u e → |-res e.1 / e.2| ≤ |y|) :
    (forcedState u e.2 = .upper → 0 ≤ -(res e.1 + e.2 * y)) ∧ (forcedState u e.2 = .lower → -(res e.1 + e.2 * y) ≤ 0) := by
  have hsgn : Inverted res u e → SignOk u (-res e.1 / e.2) := inverted_sign ha
  have hcases : (forcedState u e.2 = .lower) ↔ ¬ forcedState u e.2 = .upper := by
    rcases forcedState_or u e.2 with h | h <;> simp [h]
  rw [hcases]
  rw [show Inverted res u e ↔ ¬ ((forcedState u e.2 = .upper) ↔ -res e.1 ≥ 0) by
    unfold Inverted; rw [decide_eq_decide]] at hmax hsgn
  rw [forcedState_upper u e.2 ha] at hmax hsgn ⊢
  have hmul : e.2 * (-res e.1 / e.2) = -res e.1 := by field_simp
  unfold SignOk at hy hsgn
  rcases lt_or_gt_of_ne ha with hs | hs
  · have hn := not_lt.mpr hs.le
    cases u
    · simp only [true_iff, hn, false_iff, not_le, Bool.false_eq_true, if_false, ge_iff_le, not_not, iff_true] at hy hsgn hmax ⊢
      refine ⟨fun h => h.elim, fun _ => ?_⟩
      by_cases hr : 0 ≤ -res e.1
      · have h1 := hmax (not_lt.mpr hr)
        rw [abs_of_nonpos (hsgn (not_lt.mpr hr)), abs_of_nonpos hy] at h1
        nlinarith [mul_le_mul_of_nonpos_left (show y ≤ -res e.1 / e.2 by linarith) hs.le]
      · nlinarith [mul_nonneg_of_nonpos_of_nonpos hs.le hy]
    · simp only [Bool.true_eq_false, false_iff, hn, not_false_eq_true, true_iff, not_le, if_true, ge_iff_le] at hy hsgn hmax ⊢
      refine ⟨fun _ => ?_, fun h => absurd trivial h⟩
      by_cases hr : -res e.1 < 0
      · have h1 := hmax hr
        rw [abs_of_nonneg (hsgn hr), abs_of_nonneg hy] at h1
        nlinarith [mul_le_mul_of_nonpos_left h1 hs.le]
      · nlinarith [mul_nonpos_of_nonpos_of_nonneg hs.le hy]
  · cases u
    · simp only [true_iff, hs, not_le, Bool.false_eq_true, if_false, ge_iff_le] at hy hsgn hmax ⊢
      refine ⟨fun _ => ?_, fun h => absurd trivial h⟩
      by_cases hr : -res e.1 < 0
      · have h1 := hmax hr
        rw [abs_of_nonpos (hsgn hr), abs_of_nonpos hy] at h1
        nlinarith [mul_le_mul_of_nonneg_left (show y ≤ -res e.1 / e.2 by linarith) hs.le]
      · nlinarith [mul_nonpos_of_nonneg_of_nonpos hs.le hy]
    · simp only [Bool.true_eq_false, false_iff, hs, not_true_eq_false, not_not, if_true, ge_iff_le] at hy hsgn hmax ⊢
      refine ⟨fun h => h.elim, fun _ => ?_⟩
      by_cases hr : 0 ≤ -res e.1
      · have h1 := hmax hr
        rw [abs_of_nonneg (hsgn hr), abs_of_nonneg hy] at h1
        nlinarith [mul_le_mul_of_nonneg_left h1 hs.le]
      · nlinarith [mul_nonneg hs.le hy]

variable {n m : Nat} {x xl xu cv cl cu g : Nat → K} {J : Nat → Nat → K}

/-- facts kept while the variables in `rest` of the forcing row `row` with multiplier `y` remain -/
structure AInv (n m : Nat) (x xl xu cv cl cu g : Nat → K) (J : Nat → Nat → K) (row : Nat) (u : Bool) (y : K) (maxIndex : Nat)
    (rest : List ((Nat × K) × Nat)) (st : RestoreSt K) : Prop where
  tot : ∀ j < n, st.total m g J j = st.res j + if j ∈ rest.map (fun e => e.1.1) then J row j * y else 0
  adm : ∀ j < n, (st.varState j).Admits (st.varDual j)
  cons : ∀ i < m, Complementary (cv i) (cl i) (cu i) (st.consDual i) ∧ (st.consState i).Admits (st.consDual i)
  comp : ∀ j < n, Complementary (x j) (xl j) (xu j) (st.varDual j)
  pend : ∀ e ∈ rest, st.varDual e.1.1 = 0 ∧ J row e.1.1 = e.1.2 ∧
    (e.2 = maxIndex → st.res e.1.1 + e.1.2 * y = 0) ∧
    (forcedState u e.1.2 = .upper → 0 ≤ -(st.res e.1.1 + e.1.2 * y) ∧ x e.1.1 = xu e.1.1) ∧
    (forcedState u e.1.2 = .lower → -(st.res e.1.1 + e.1.2 * y) ≤ 0 ∧ x e.1.1 = xl e.1.1)

theorem isLeq_zero {d eps : K} (he : 0 ≤ eps) (h : d ≤ 0) : isLeq d 0 eps = true := by
  unfold isLeq relDiff
  rw [decide_eq_true_eq]
  refine le_trans (div_nonpos_of_nonpos_of_nonneg (by linarith) ?_) he
  exact le_trans zero_le_one (le_max_right _ _)

theorem isGeq_zero {d eps : K} (he : 0 ≤ eps) (h : 0 ≤ d) : isGeq d 0 eps = true := by
  unfold isGeq relDiff
  rw [decide_eq_true_eq]
  refine le_trans (neg_nonpos.mpr he) (div_nonneg (by linarith) ?_)
  exact le_trans zero_le_one (le_max_right _ _)

theorem assign_step {row : Nat} {u : Bool} {y eps : K} (heps : 0 ≤ eps) {maxIndex : Nat} {e : (Nat × K) × Nat}
    {t : List ((Nat × K) × Nat)} {st : RestoreSt K} (h : AInv n m x xl xu cv cl cu g J row u y maxIndex (e :: t) st)
    (hnd : e.1.1 ∉ t.map fun e => e.1.1) :
    ∃ st', assignForced eps u maxIndex y st e = some st' ∧ AInv n m x xl xu cv cl cu g J row u y maxIndex t st' ∧
      st'.consDual = st.consDual ∧ st'.consState = st.consState ∧ st'.res e.1.1 = 0 ∧
      ∀ j, j ≠ e.1.1 → st'.varDual j = st.varDual j ∧ st'.varState j = st.varState j ∧ st'.res j = st.res j := by
  obtain ⟨p1, p2, p3, p4, p5⟩ := h.pend e (by simp)
  have htne : ∀ a ∈ t, a.1.1 ≠ e.1.1 := fun a ha hc => hnd (List.mem_map.mpr ⟨a, ha, hc⟩)
  have htot : ∀ (st' : RestoreSt K), (∀ j, j ≠ e.1.1 → st'.varDual j = st.varDual j ∧ st'.res j = st.res j) →
      st'.consDual = st.consDual → (st'.varDual e.1.1 = -(st.res e.1.1 + e.1.2 * y)) → st'.res e.1.1 = 0 → ∀ j < n,
      st'.total m g J j = st'.res j + if j ∈ t.map (fun e => e.1.1) then J row j * y else 0 := by
    intro st' k1 k2 k3 k4 j hj
    have := h.tot j hj
    by_cases hje : j = e.1.1
    · subst hje
      rw [if_pos (by simp)] at this
      rw [if_neg hnd, k4]
      unfold RestoreSt.total at this ⊢
      rw [k2, k3]
      rw [p1, p2] at this
      linear_combination this
    · rw [(k1 j hje).2, total_congr (k1 j hje).1 (fun i _ => by rw [k2]), this]
      congr 1
      have : (j ∈ (e :: t).map fun e => e.1.1) ↔ j ∈ t.map fun e => e.1.1 := by
        rw [List.map_cons, List.mem_cons]; simp [hje]
      simp only [this]
  by_cases hmx : e.2 = maxIndex
  · refine ⟨{ st with res := setAt st.res e.1.1 0 }, ?_, ?_, rfl, rfl, setAt_same _ _ _, fun j hj => ⟨rfl, rfl, ?_⟩⟩
    · unfold assignForced
      simp only []
      rw [if_pos hmx]
    · refine ⟨?_, h.adm, h.cons, h.comp, ?_⟩
      · refine htot _ (fun j hj => ⟨rfl, ?_⟩) rfl ?_ (setAt_same _ _ _)
        · simp only [setAt_ne _ _ hj]
        · show st.varDual e.1.1 = _
          rw [p1, p3 hmx, neg_zero]
      · intro a ha
        have := h.pend a (by simp [ha])
        simp only [setAt_ne _ _ (htne a ha)]
        exact this
    · simp only [setAt_ne _ _ hj]
  · have hok : (if forcedState u e.1.2 = .lower then isLeq (-(st.res e.1.1 + e.1.2 * y)) 0 eps
        else isGeq (-(st.res e.1.1 + e.1.2 * y)) 0 eps) = true := by
      rcases forcedState_or u e.1.2 with hs | hs
      · rw [if_neg (by rw [hs]; simp)]; exact isGeq_zero heps (p4 hs).1
      · rw [if_pos hs]; exact isLeq_zero heps (p5 hs).1
    refine ⟨{ st with
      varState := setAt st.varState e.1.1 (forcedState u e.1.2)
      varDual := setAt st.varDual e.1.1 (-(st.res e.1.1 + e.1.2 * y))
      res := setAt st.res e.1.1 0 }, ?_, ?_, rfl, rfl, setAt_same _ _ _, fun j hj => ?_⟩
    · unfold assignForced
      simp only []
      rw [if_neg hmx, if_pos hok]
    · refine ⟨?_, ?_, h.cons, ?_, ?_⟩
      · refine htot _ (fun j hj => ⟨?_, ?_⟩) rfl (setAt_same _ _ _) (setAt_same _ _ _)
        · simp only [setAt_ne _ _ hj]
        · simp only [setAt_ne _ _ hj]
      · intro j hj
        by_cases hje : j = e.1.1
        · subst hje
          simp only [setAt_same]
          rcases forcedState_or u e.1.2 with hs | hs
          · rw [hs]; exact (p4 hs).1
          · rw [hs]; exact (p5 hs).1
        · simp only [setAt_ne _ _ hje]; exact h.adm j hj
      · intro j hj
        by_cases hje : j = e.1.1
        · subst hje
          simp only [setAt_same]
          rcases forcedState_or u e.1.2 with hs | hs
          · rcases (p4 hs).1.eq_or_lt with h0 | h0
            · exact Or.inl h0.symm
            · exact Or.inr (Or.inl ⟨h0, (p4 hs).2.ge⟩)
          · rcases (p5 hs).1.eq_or_lt with h0 | h0
            · exact Or.inl h0
            · exact Or.inr (Or.inr ⟨h0, (p5 hs).2.le⟩)
        · simp only [setAt_ne _ _ hje]; exact h.comp j hj
      · intro a ha
        have := h.pend a (by simp [ha])
        simp only [setAt_ne _ _ (htne a ha)]
        exact this
    · simp only [setAt_ne _ _ hj, and_self]

theorem assign_spec {row : Nat} {u : Bool} {y eps : K} (heps : 0 ≤ eps) {maxIndex : Nat} (l : List ((Nat × K) × Nat))
    {st : RestoreSt K} (h : AInv n m x xl xu cv cl cu g J row u y maxIndex l st) (hnd : (l.map fun e => e.1.1).Nodup) :
    ∃ st', l.foldlM (assignForced eps u maxIndex y) st = some st' ∧ AInv n m x xl xu cv cl cu g J row u y maxIndex [] st' ∧
      st'.consDual = st.consDual ∧ st'.consState = st.consState ∧ (∀ e ∈ l, st'.res e.1.1 = 0) ∧
      ∀ j, j ∉ l.map (fun e => e.1.1) → st'.varDual j = st.varDual j ∧ st'.varState j = st.varState j ∧
        st'.res j = st.res j := by
  induction l generalizing st with
  | nil => exact ⟨st, rfl, h, rfl, rfl, by simp, fun _ _ => ⟨rfl, rfl, rfl⟩⟩
  | cons e t ih =>
    rw [List.map_cons, List.nodup_cons] at hnd
    obtain ⟨s1, a1, a2, a3, a4, a5, a6⟩ := assign_step heps h hnd.1
    obtain ⟨s2, b1, b2, b3, b4, b5, b6⟩ := ih a2 hnd.2
    refine ⟨s2, by rw [List.foldlM_cons, a1]; exact b1, b2, by rw [b3, a3], by rw [b4, a4], ?_, ?_⟩
    · intro a ha
      rcases List.mem_cons.mp ha with rfl | ha
      · rw [(b6 _ hnd.1).2.2]; exact a5
      · exact b5 a ha
    · intro j hj
      rw [List.map_cons, List.mem_cons, not_or] at hj
      obtain ⟨c1, c2, c3⟩ := b6 j hj.2
      obtain ⟨d1, d2, d3⟩ := a6 j hj.1
      exact ⟨by rw [c1, d1], by rw [c2, d2], by rw [c3, d3]⟩

theorem plain_spec {u : Bool} (l : List (Nat × K)) {st : RestoreSt K} (h : RBase n m cv cl cu g J st)
    (hc : ∀ j < n, Complementary (x j) (xl j) (xu j) (st.varDual j)) (hnd : (l.map Prod.fst).Nodup)
    (hl : ∀ e ∈ l, st.varDual e.1 = 0 ∧
      (forcedState u e.2 = .upper → 0 ≤ -st.res e.1 ∧ x e.1 = xu e.1) ∧
      (forcedState u e.2 = .lower → -st.res e.1 ≤ 0 ∧ x e.1 = xl e.1)) :
    ∃ st', l.foldlM (plainForced u) st = some st' ∧ RBase n m cv cl cu g J st' ∧
      (∀ j < n, Complementary (x j) (xl j) (xu j) (st'.varDual j)) ∧
      st'.consDual = st.consDual ∧ st'.consState = st.consState ∧ (∀ e ∈ l, st'.res e.1 = 0) ∧
      ∀ j, j ∉ l.map Prod.fst → st'.varDual j = st.varDual j ∧ st'.varState j = st.varState j ∧
        st'.res j = st.res j := by
  induction l generalizing st with
  | nil => exact ⟨st, rfl, h, hc, rfl, rfl, by simp, fun _ _ => ⟨rfl, rfl, rfl⟩⟩
  | cons e t ih =>
    rw [List.map_cons, List.nodup_cons] at hnd
    obtain ⟨l1, l2, l3⟩ := hl e (by simp)
    obtain ⟨s1, a1, a2, a3, a4, a5, a6, a7⟩ := correctRes_spec h l1 (forcedState u e.2) (fun _ => by
      rcases forcedState_or u e.2 with hs | hs
      · rw [hs]; exact (l2 hs).1
      · rw [hs]; exact (l3 hs).1)
    obtain ⟨s2, b1, b2, b3, b4, b5, b6, b7⟩ := ih a2 (by
      intro j hj
      rw [a6]
      by_cases hje : j = e.1
      · subst hje
        rw [setAt_same]
        rcases forcedState_or u e.2 with hs | hs
        · rcases (l2 hs).1.eq_or_lt with h0 | h0
          · exact Or.inl h0.symm
          · exact Or.inr (Or.inl ⟨h0, (l2 hs).2.ge⟩)
        · rcases (l3 hs).1.eq_or_lt with h0 | h0
          · exact Or.inl h0
          · exact Or.inr (Or.inr ⟨h0, (l3 hs).2.le⟩)
      · rw [setAt_ne _ _ hje]; exact hc j hj) hnd.2 (by
      intro a ha
      have hne : a.1 ≠ e.1 := fun hc => hnd.1 (hc ▸ List.mem_map_of_mem ha)
      rw [a6, a7, setAt_ne _ _ hne, setAt_ne _ _ hne]
      exact hl a (by simp [ha]))
    refine ⟨s2, ?_, b2, b3, by rw [b4, a3], by rw [b5, a4], ?_, ?_⟩
    · rw [List.foldlM_cons]
      have : plainForced u st e = some s1 := a1
      rw [this]; exact b1
    · intro a ha
      rcases List.mem_cons.mp ha with rfl | ha
      · rw [(b7 _ hnd.1).2.2, a7, setAt_same]
      · exact b6 a ha
    · intro j hj
      rw [List.map_cons, List.mem_cons, not_or] at hj
      obtain ⟨c1, c2, c3⟩ := b7 j hj.2
      rw [c1, c2, c3, a6, a5, a7, setAt_ne _ _ hj.1, setAt_ne _ _ hj.1, setAt_ne _ _ hj.1]
      exact ⟨rfl, rfl, rfl⟩

/-- a record describes a forcing row -/
structure ForceOk (n m numGen : Nat) (x xl xu cv cl cu : Nat → K) (J : Nat → Nat → K) (f : Forcing K) : Prop where
  cons : numGen + f.cons < m
  nodup : (f.coeffs.map Prod.fst).Nodup
  var : ∀ e ∈ f.coeffs, e.2 ≠ 0 ∧ J (numGen + f.cons) e.1 = e.2 ∧
    (forcedState f.atUpper e.2 = .upper → x e.1 = xu e.1) ∧ (forcedState f.atUpper e.2 = .lower → x e.1 = xl e.1)
  cols : ∀ j < n, j ∉ f.coeffs.map Prod.fst → J (numGen + f.cons) j = 0
  row : if f.atUpper then cv (numGen + f.cons) = cu (numGen + f.cons) else cv (numGen + f.cons) = cl (numGen + f.cons)

/-- facts kept while the forcing constraints `rest` remain -/
structure FInv (n m numGen : Nat) (x xl xu cv cl cu g : Nat → K) (J : Nat → Nat → K) (rest : List (Forcing K))
    (st : RestoreSt K) : Prop extends RBase n m cv cl cu g J st where
  comp : ∀ j < n, Complementary (x j) (xl j) (xu j) (st.varDual j)
  pend : ∀ f ∈ rest, st.consDual (numGen + f.cons) = 0 ∧ ∀ e ∈ f.coeffs, st.varDual e.1 = 0
  zero : ∀ j < n, st.res j = 0 ∨ ∃ f ∈ rest, j ∈ f.coeffs.map Prod.fst

theorem zipIdx_fst (l : List (Nat × K)) : (l.zipIdx.map fun e => e.1.1) = l.map Prod.fst := by
  have : (l.zipIdx.map fun e => e.1.1) = (l.zipIdx.map Prod.fst).map Prod.fst := by
    rw [List.map_map]; rfl
  rw [this, List.zipIdx_map_fst]

theorem correctForcing_spec {numGen junk : Nat} {eps : K} (heps : 0 ≤ eps) {f : Forcing K} {rest : List (Forcing K)}
    {st : RestoreSt K} (h : FInv n m numGen x xl xu cv cl cu g J (f :: rest) st)
    (hf : ForceOk n m numGen x xl xu cv cl cu J f) (hj : f.coeffs.length ≤ junk)
    (hdis : ∀ f' ∈ rest, f'.cons ≠ f.cons ∧ ∀ e ∈ f.coeffs, ∀ e' ∈ f'.coeffs, e.1 ≠ e'.1) :
    ∃ st', correctForcing eps numGen junk st f = some st' ∧ FInv n m numGen x xl xu cv cl cu g J rest st' := by
  obtain ⟨p1, p2⟩ := h.pend f (by simp)
  have hmemz : ∀ e ∈ f.coeffs.zipIdx, e.1 ∈ f.coeffs := fun e he => List.fst_mem_of_mem_zipIdx he
  obtain ⟨acc, a1, a2, a3, _, _, a6⟩ := scan_spec (res := st.res) (u := f.atUpper) (junk := junk) (L := f.coeffs.zipIdx)
    f.coeffs.zipIdx (fun _ h => h) (fun e he => (hf.var e.1 (hmemz e he)).1) (false, junk, 0)
    (by unfold SignOk; split <;> exact le_rfl) (Or.inl ⟨rfl, rfl⟩)
  unfold correctForcing
  rw [a1, Option.bind_some]
  simp only []
  have hinv : ∀ e ∈ f.coeffs, Inverted st.res f.atUpper e → acc.1 = true ∧ |-st.res e.1 / e.2| ≤ |acc.2.2| := by
    intro e he hi
    obtain ⟨k, hk⟩ := List.getElem?_of_mem he
    exact a6 (e, k) (List.mk_mem_zipIdx_iff_getElem?.mpr hk) hi
  -- facts at the end from those about the single arrays
  have hfin : ∀ st' : RestoreSt K, RBase n m cv cl cu g J st' →
      (∀ j < n, Complementary (x j) (xl j) (xu j) (st'.varDual j)) →
      (∀ i, i ≠ numGen + f.cons → st'.consDual i = st.consDual i) → (∀ e ∈ f.coeffs, st'.res e.1 = 0) →
      (∀ j, j ∉ f.coeffs.map Prod.fst → st'.varDual j = st.varDual j ∧ st'.res j = st.res j) →
      FInv n m numGen x xl xu cv cl cu g J rest st' := by
    intro st' k1 k2 k3 k4 k5
    refine ⟨k1, k2, fun f' hf' => ?_, fun j hjn => ?_⟩
    · obtain ⟨d1, d2⟩ := hdis f' hf'
      obtain ⟨q1, q2⟩ := h.pend f' (by simp [hf'])
      refine ⟨by rw [k3 _ (by omega)]; exact q1, fun e he => ?_⟩
      rw [(k5 e.1 ?_).1]
      · exact q2 e he
      · rw [List.mem_map]
        rintro ⟨a, ha, hae⟩
        exact d2 a ha e he hae
    · by_cases hm : j ∈ f.coeffs.map Prod.fst
      · obtain ⟨e, he, rfl⟩ := List.mem_map.mp hm
        exact Or.inl (k4 e he)
      · rcases h.zero j hjn with h0 | ⟨f', hf', hm'⟩
        · exact Or.inl (by rw [(k5 j hm).2]; exact h0)
        · rcases List.mem_cons.mp hf' with rfl | hf'
          · exact absurd hm' hm
          · exact Or.inr ⟨f', hf', hm'⟩
  by_cases hb : acc.1 = true
  · have hsg : if f.atUpper then acc.2.2 ≥ 0 else acc.2.2 ≤ 0 := a2
    rw [if_pos hb, if_pos ⟨hsg, p1⟩]
    have hinit : AInv n m x xl xu cv cl cu g J (numGen + f.cons) f.atUpper acc.2.2 acc.2.1 f.coeffs.zipIdx
        (activateForcing st (numGen + f.cons) f.atUpper acc.2.2) := by
      refine ⟨?_, h.adm, ?_, h.comp, ?_⟩
      · intro j hjn
        have ht := h.tot j hjn
        rw [zipIdx_fst]
        unfold RestoreSt.total activateForcing at *
        simp only []
        rw [sum_setAt hf.cons, p1]
        by_cases hm : j ∈ f.coeffs.map Prod.fst
        · rw [if_pos hm]; linear_combination ht
        · rw [if_neg hm, hf.cols j hjn hm]; linear_combination ht
      · intro i hi
        unfold activateForcing
        by_cases hie : i = numGen + f.cons
        · subst hie
          simp only [setAt_same]
          have hrow := hf.row
          unfold SignOk at a2
          cases hu : f.atUpper
          · rw [hu] at a2 hrow
            simp only [Bool.false_eq_true, if_false] at a2 hrow ⊢
            refine ⟨?_, a2⟩
            rcases a2.eq_or_lt with h0 | h0
            · exact Or.inl h0
            · exact Or.inr (Or.inr ⟨h0, hrow.le⟩)
          · rw [hu] at a2 hrow
            simp only [if_true] at a2 hrow ⊢
            refine ⟨?_, a2⟩
            rcases a2.eq_or_lt with h0 | h0
            · exact Or.inl h0.symm
            · exact Or.inr (Or.inl ⟨h0, hrow.ge⟩)
        · simp only [setAt_ne _ _ hie]; exact h.cons i hi
      · intro e he
        have hec := hmemz e he
        obtain ⟨v1, v2, v3, v4⟩ := hf.var e.1 hec
        have hs := forced_sign (res := st.res) (u := f.atUpper) v1 a2 (fun hi => (hinv e.1 hec hi).2)
        refine ⟨p2 e.1 hec, v2, fun hmx => ?_, fun hst => ⟨hs.1 hst, v3 hst⟩, fun hst => ⟨hs.2 hst, v4 hst⟩⟩
        show st.res e.1.1 + e.1.2 * acc.2.2 = 0
        have hk := List.mem_zipIdx' (x := e.1) (i := e.2) he
        rcases a3 with ⟨b1, _⟩ | ⟨e', he', b1, b2⟩
        · have := hk.1; omega
        · have hk' := List.mem_zipIdx' (x := e'.1) (i := e'.2) he'
          have hee : e'.1 = e.1 := by
            rw [hk.2, hk'.2]
            simp only [b1, hmx]
          rw [b2, hee]
          field_simp
          ring
    obtain ⟨st', c1, c2, c3, c4, c5, c6⟩ := assign_spec heps _ hinit (by rw [zipIdx_fst]; exact hf.nodup)
    refine ⟨st', c1, hfin st' ⟨fun j hjn => ?_, c2.adm, c2.cons⟩ c2.comp ?_ ?_ ?_⟩
    · have := c2.tot j hjn; simpa using this
    · intro i hi
      rw [c3]; unfold activateForcing; simp only [setAt_ne _ _ hi]
    · intro e he
      obtain ⟨k, hk⟩ := List.getElem?_of_mem he
      exact c5 (e, k) (List.mk_mem_zipIdx_iff_getElem?.mpr hk)
    · intro j hjm
      rw [← zipIdx_fst] at hjm
      obtain ⟨d1, _, d3⟩ := c6 j hjm
      exact ⟨d1, d3⟩
  · rw [if_neg hb]
    obtain ⟨st', c1, c2, c3, c4, c5, c6, c7⟩ := plain_spec (x := x) (xl := xl) (xu := xu) (u := f.atUpper) f.coeffs h.toRBase h.comp hf.nodup (by
      intro e he
      obtain ⟨v1, v2, v3, v4⟩ := hf.var e he
      have hni : ¬ Inverted st.res f.atUpper e := fun hi => hb (hinv e he hi).1
      unfold Inverted at hni
      rw [not_not, decide_eq_decide] at hni
      refine ⟨p2 e he, fun hs => ⟨hni.mp hs, v3 hs⟩, fun hs => ⟨?_, v4 hs⟩⟩
      have : ¬ -st.res e.1 ≥ 0 := fun hge => by have := hni.mpr hge; rw [hs] at this; cases this
      exact (not_le.mp this).le)
    refine ⟨st', c1, hfin st' c2 c3 (fun i _ => by rw [c4]) c6 fun j hjm => ?_⟩
    obtain ⟨d1, _, d3⟩ := c7 j hjm
    exact ⟨d1, d3⟩

theorem forcing_spec {numGen junk : Nat} {eps : K} (heps : 0 ≤ eps) (l : List (Forcing K))
    {st : RestoreSt K} (h : FInv n m numGen x xl xu cv cl cu g J l st)
    (hf : ∀ f ∈ l, ForceOk n m numGen x xl xu cv cl cu J f ∧ f.coeffs.length ≤ junk) (hnd : (l.map Forcing.cons).Nodup)
    (hdis : l.Pairwise fun f f' => ∀ e ∈ f.coeffs, ∀ e' ∈ f'.coeffs, e.1 ≠ e'.1) :
    ∃ st', l.foldlM (correctForcing eps numGen junk) st = some st' ∧ FInv n m numGen x xl xu cv cl cu g J [] st' := by
  induction l generalizing st with
  | nil => exact ⟨st, rfl, h⟩
  | cons f t ih =>
    rw [List.map_cons, List.nodup_cons] at hnd
    obtain ⟨d1, d2⟩ := List.pairwise_cons.mp hdis
    obtain ⟨s1, a1, a2⟩ := correctForcing_spec heps h (hf f (by simp)).1 (hf f (by simp)).2
      (fun f' hf' => ⟨fun hc => hnd.1 (hc ▸ List.mem_map_of_mem hf'), d1 f' hf'⟩)
    obtain ⟨s2, b1, b2⟩ := ih a2 (fun f' hf' => hf f' (by simp [hf'])) hnd.2 d2
    exact ⟨s2, by rw [List.foldlM_cons, a1]; exact b1, b2⟩

end
end Sleqp
