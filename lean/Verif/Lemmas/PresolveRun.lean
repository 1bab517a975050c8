import Verif.Lemmas.Presolve

/-! Helper lemmas for the run of the analysis made by preprocessing. -/

namespace Sleqp

open Finset

theorem foldlM_pres {σ α : Type*} (P : σ → Prop) (f : σ → α → Option σ) (l : List α)
    (hf : ∀ a ∈ l, ∀ s s', P s → f s a = some s' → P s') {s s' : σ} (h : l.foldlM f s = some s') (h0 : P s) : P s' := by
  induction l generalizing s with
  | nil => simp only [List.foldlM_nil, Option.pure_def, Option.some.injEq] at h; rw [← h]; exact h0
  | cons a t ih =>
    rw [List.foldlM_cons] at h
    obtain ⟨s1, h1, h2⟩ := Option.bind_eq_some_iff.mp h
    exact ih (fun b hb => hf b (by simp [hb])) h2 (hf a (by simp) s s1 h0 h1)

theorem foldl_pres {σ α : Type*} (P : σ → Prop) (f : σ → α → σ) (l : List α)
    (hf : ∀ a ∈ l, ∀ s, P s → P (f s a)) {s : σ} (h0 : P s) : P (l.foldl f s) := by
  induction l generalizing s with
  | nil => exact h0
  | cons a t ih => exact ih (fun b hb => hf b (by simp [hb])) (hf a (by simp) s h0)

theorem foldlM_total {σ α : Type*} (P : σ → Prop) (f : σ → α → Option σ) (l : List α)
    (hf : ∀ a ∈ l, ∀ s, P s → ∃ s', f s a = some s' ∧ P s') {s : σ} (h0 : P s) : ∃ s', l.foldlM f s = some s' ∧ P s' := by
  induction l generalizing s with
  | nil => exact ⟨s, rfl, h0⟩
  | cons a t ih =>
    obtain ⟨s1, h1, h2⟩ := hf a (by simp) s h0
    obtain ⟨s2, h3, h4⟩ := ih (fun b hb => hf b (by simp [hb])) h2
    exact ⟨s2, by rw [List.foldlM_cons, h1]; exact h3, h4⟩

section
variable {K : Type*} [Field K] [LinearOrder K]

/-- nonzero coefficients of a row -/
def rowNz (A : Mat K) (i : Nat) : List (Nat × Nat × K) := (rowEnts A i).filter fun e => decide (e.2.2 ≠ 0)

theorem counts_spec (A : Mat K) (i : Nat) :
    consCounts A i = ((rowNz A i).length, (rowNz A i).getLast?.map fun e => e.2) := by
  unfold consCounts rowNz
  rw [scatter_at]
  change (rowEnts A i).foldl countStep (0, none) = _
  induction rowEnts A i using List.reverseRecOn with
  | nil => rfl
  | append_singleton t e ih =>
    rw [List.foldl_append, ih, List.filter_append]
    simp only [List.foldl_cons, List.foldl_nil, countStep]
    by_cases h : e.2.2 ≠ 0
    · rw [if_pos h, List.filter_cons_of_pos (by simpa using h)]
      simp
    · rw [if_neg h, List.filter_cons_of_neg (by simpa using h)]
      simp

theorem rowNz_sum {A : Mat K} (hA : A.WF) (x : Nat → K) (i : Nat) :
    ((rowNz A i).map fun e => e.2.2 * x e.2.1).sum = ∑ j ∈ range A.numCols, A.value i j * x j := by
  rw [← rowEnts_sum hA i (fun j v => v * x j) (by simp)]
  unfold rowNz
  induction rowEnts A i with
  | nil => rfl
  | cons e t ih =>
    by_cases h : e.2.2 = 0
    · rw [List.filter_cons_of_neg (by simpa using h), ih]; simp [h]
    · rw [List.filter_cons_of_pos (by simpa using h), List.map_cons, List.sum_cons, ih, List.map_cons, List.sum_cons]

theorem mem_rowNz {A : Mat K} {i : Nat} {e : Nat × Nat × K} (h : e ∈ rowNz A i) :
    e ∈ rowEnts A i ∧ e.2.2 ≠ 0 := by
  unfold rowNz at h
  rw [List.mem_filter] at h
  exact ⟨h.1, by simpa using h.2⟩

/-- a row without nonzero coefficient -/
theorem counts_zero {p : Prob K} (hp : p.WF) {i : Nat} (h : (consCounts p.coeffs i).1 = 0) (x : Nat → K) :
    p.activity x i = 0 := by
  rw [counts_spec] at h
  unfold Prob.activity
  rw [← hp.cols, ← rowNz_sum hp.coeffs x i, List.length_eq_zero_iff.mp h]
  rfl

/-- a row with one nonzero coefficient -/
theorem counts_one {p : Prob K} (hp : p.WF) {i : Nat} (h : (consCounts p.coeffs i).1 = 1) :
    ∃ j v, (consCounts p.coeffs i).2 = some (j, v) ∧ j < p.numVars ∧ v ≠ 0 ∧ ∀ x, p.activity x i = v * x j := by
  rw [counts_spec] at h ⊢
  obtain ⟨e, he⟩ := List.length_eq_one_iff.mp h
  have hm := mem_rowNz (A := p.coeffs) (i := i) (e := e) (by rw [he]; simp)
  refine ⟨e.2.1, e.2.2, ?_, ?_, hm.2, fun x => ?_⟩
  · rw [he]; rfl
  · rw [← hp.cols]; exact (mem_rowEnts hm.1).2.1
  · unfold Prob.activity
    rw [← hp.cols, ← rowNz_sum hp.coeffs x i, he]
    simp

variable [IsStrictOrderedRing K]

theorem removeCons_some {s s' : Presolve K} {i : Nat} (h : s.removeCons i = some s') :
    s' = { s with
      consSt := setAt s.consSt i .redundant
      consReq := setAt s.consReq i ⟨true, true⟩
      numRedundant := s.numRedundant + 1 } := by
  unfold Presolve.removeCons at h
  split at h
  · exact (Option.some.inj h).symm
  · cases h

theorem forceVar_infeasible {inf : K} {lo hi : Nat → K} {u : Bool} {s s' : Presolve K} {e : Nat × K}
    (h : forceVar inf lo hi u s e = some s') : s'.infeasible = s.infeasible := by
  unfold forceVar at h
  split at h
  · rw [← Option.some.inj h]
  · cases h

theorem addForcing_infeasible {inf : K} {A : Mat K} {lo hi : Nat → K} {s s' : Presolve K} {i : Nat} {u : Bool}
    (h : addForcing inf A lo hi s i u = some s') : s'.infeasible = s.infeasible := by
  unfold addForcing at h
  obtain ⟨s1, h1, h2⟩ := Option.bind_eq_some_iff.mp h
  have e1 : s1.infeasible = s.infeasible := by rw [removeCons_some h1]
  split at h2
  · rw [← Option.some.inj h2]; exact e1
  · obtain ⟨s2, h3, h4⟩ := Option.map_eq_some_iff.mp h2
    rw [← h4]
    have : s2.infeasible = s.infeasible :=
      foldlM_pres (fun t : Presolve K => t.infeasible = s.infeasible) (forceVar inf lo hi u) _
        (fun a _ t t' ht hf => (forceVar_infeasible hf).trans ht) h3 e1
    exact this

/-- a feasible point of finite size keeps the flag `infeasible` unset -/
theorem presolve_feasible {p : Prob K} (hp : p.WF) {inf feasEps : K} (hinf : 0 < inf) (heps : 0 ≤ feasEps)
    {x : Nat → K} (hx : p.Pts inf x) {s : Presolve K} (h : presolve inf feasEps p = some s) : s.infeasible = false := by
  unfold presolve at h
  obtain ⟨s1, h1, h⟩ := Option.bind_eq_some_iff.mp h
  obtain ⟨s2, h2, h⟩ := Option.bind_eq_some_iff.mp h
  obtain ⟨s3, h3, h⟩ := Option.bind_eq_some_iff.mp h
  obtain ⟨s4, h4, h⟩ := Option.map_eq_some_iff.mp h
  have f1 : s1.infeasible = false := by
    refine foldlM_pres (fun t : Presolve K => t.infeasible = false) _ _ ?_ h1 rfl
    intro j _ t t' ht hf
    unfold fixStep at hf
    split at hf
    · unfold Presolve.fixVar at hf
      split at hf
      · rw [← Option.some.inj hf]; exact ht
      · cases hf
    · rw [← Option.some.inj hf]; exact ht
  have f2 : s2.infeasible = false := by
    refine foldlM_pres (fun t : Presolve K => t.infeasible = false) _ _ ?_ h2 f1
    intro i hi t t' ht hf
    rw [List.mem_range] at hi
    unfold dropStep at hf
    split at hf
    · rw [← Option.some.inj hf]; exact ht
    split at hf
    · rw [removeCons_some hf]; exact ht
    split at hf
    · rename_i hc
      split at hf
      · rename_i hbad
        exfalso
        obtain ⟨r1, r2⟩ := hx.1.2 i hi
        rw [counts_zero hp hc] at r1 r2
        rcases hbad with hb | hb
        · exact absurd r1 (not_le.mpr hb)
        · exact absurd r2 (not_le.mpr hb)
      · rw [removeCons_some hf]; exact ht
    split at hf
    · unfold convertToBound at hf
      obtain ⟨e, _, hf⟩ := Option.bind_eq_some_iff.mp hf
      split at hf
      · simp only at hf
        split at hf
        · unfold Presolve.convertCons at hf
          split at hf
          · rw [← Option.some.inj hf]; exact ht
          · cases hf
        · rw [removeCons_some hf]; exact ht
      · cases hf
    · rw [← Option.some.inj hf]; exact ht
  have f3 : s3.infeasible = false := by
    refine foldlM_pres (fun t : Presolve K => t.infeasible = false) _ _ ?_ h3 f2
    intro i hi t t' ht hf
    unfold slackStep at hf
    split at hf
    · rw [← Option.some.inj hf]; exact ht
    split at hf
    · split at hf
      · rw [removeCons_some hf]; exact ht
      · rw [← Option.some.inj hf]; exact ht
    · rw [← Option.some.inj hf]; exact ht
  have f4 : s4.infeasible = false := by
    refine foldlM_pres (fun t : Presolve K => t.infeasible = false) _ _ ?_ h4 f3
    intro i hi t t' ht hf
    rw [List.mem_range] at hi
    obtain ⟨⟨r1, r2⟩, _⟩ := hp.range hinf hx.1.1 hx.2 hi
    obtain ⟨a1, a2⟩ := hx.1.2 i hi
    have hU : ∀ t t' : Presolve K, t.infeasible = false →
        forceUpper inf feasEps p.coeffs p.varLb.value p.varUb.value p.linUb.value
          (linRange inf p.coeffs p.varLb.value p.varUb.value) t i = some t' → t'.infeasible = false := by
      intro t t' ht hf
      unfold forceUpper at hf
      split at hf
      · split at hf
        · rename_i hlt
          have := isLt_lt heps hlt
          exfalso; linarith
        split at hf
        · rw [addForcing_infeasible hf]; exact ht
        · rw [← Option.some.inj hf]; exact ht
      · rw [← Option.some.inj hf]; exact ht
    unfold forceStep at hf
    split at hf
    · rw [← Option.some.inj hf]; exact ht
    split at hf
    · split at hf
      · rename_i hlt
        have := isLt_lt heps hlt
        exfalso; linarith
      split at hf
      · rw [addForcing_infeasible hf]; exact ht
      · exact hU _ _ ht hf
    · exact hU _ _ ht hf
  rw [← h]
  refine foldl_pres (fun t : Presolve K => t.infeasible = false) _ _ ?_ ?_
  · intro j hj t ht
    rw [List.mem_range] at hj
    have hv := varRange_spec hp hinf hx hj
    unfold varReqStep
    split
    · exact ht
    · simp only []
      have hno : isLt (varRange inf p.coeffs p.varLb.value p.varUb.value p.linLb.value p.linUb.value
          (linRange inf p.coeffs p.varLb.value p.varUb.value) j).2 (varRange inf p.coeffs p.varLb.value p.varUb.value
          p.linLb.value p.linUb.value (linRange inf p.coeffs p.varLb.value p.varUb.value) j).1 feasEps ≠ true :=
        fun hlt => by have := isLt_lt heps hlt; linarith [hv.1, hv.2]
      rw [if_neg hno]
      split <;> split <;> exact ht
  · refine foldl_pres (fun t : Presolve K => t.infeasible = false) _ _ ?_ f4
    intro i _ t ht
    unfold consReqStep
    split
    · exact ht
    · simp only []
      split <;> split <;> exact ht

end
end Sleqp
