import Verif.Model.StepRule
import Verif.Lemmas.Ring
import Verif.Spec.Hist
import Verif.Lemmas.Hist
import Mathlib.Tactic.NormNum
import Mathlib.Algebra.BigOperators.Group.List.Basic
import Mathlib.Algebra.Order.BigOperators.Group.List

/-!
C18: nonmonotone step rules.  `hist` is the list of all accepted steps so far,
as pairs (merit of the iterate the step started from, predicted reduction).
-/

namespace Sleqp

variable {K : Type*} [Field K] [LinearOrder K] [IsStrictOrderedRing K]

/-! ### Window rule -/

/-- A run of the window rule at fixed penalty, from first merit `f0`: `f` is the
current merit value.  Every trial predicts a decrease; all values exceed
`-infinity`. -/
inductive WindowRun (inf rho : K) (num : Nat) (arr : Nat → K × K) (f0 : K) :
    K → WindowState K → List (K × K) → Prop
  | init : -inf < f0 → WindowRun inf rho num arr f0 f0 (Ring.create num arr) []
  | step {f st hist t m acc ratio st'} : WindowRun inf rho num arr f0 f st hist →
      m < f → -inf < t → windowApply inf rho st f t m = some (acc, ratio, st') →
      WindowRun inf rho num arr f0 (if acc then t else f) st'
        (if acc then hist ++ [(f, f - m)] else hist)

omit [IsStrictOrderedRing K] in
/-- The scan finds the first maximum. -/
theorem windowRef_spec {inf : K} {r : WindowState K} (hl : 0 < r.len)
    (hb : ∀ e ∈ r.contents, -inf < e.1) :
    ∃ k < r.len, windowRefIndex inf r = r.curr - r.len + 1 + k ∧
      ∀ e ∈ r.contents, e.1 ≤ (r.arr (r.dataIndex (r.curr - r.len + 1 + k))).1 := by
  have hmem : ∀ k < r.len, r.arr (r.dataIndex (r.curr - r.len + 1 + k)) ∈ r.contents := by
    intro k hk
    unfold Ring.contents
    exact List.mem_map.mpr ⟨k, List.mem_range.mpr hk, rfl⟩
  have key : ∀ j ≤ r.len,
      let s := (List.range j).foldl
        (fun (s : K × Int) (k : Nat) =>
          let i := r.curr - r.len + 1 + k
          if (r.arr (r.dataIndex i)).1 > s.1 then ((r.arr (r.dataIndex i)).1, i) else s) (-inf, 0)
      (j = 0 ∧ s = (-inf, 0)) ∨ ∃ k < j, s = ((r.arr (r.dataIndex (r.curr - r.len + 1 + k))).1,
        r.curr - r.len + 1 + k) ∧
        ∀ k' < j, (r.arr (r.dataIndex (r.curr - r.len + 1 + k'))).1 ≤ s.1 := by
    intro j
    induction j with
    | zero => intro _; exact Or.inl ⟨rfl, rfl⟩
    | succ j ih =>
      intro hj
      have ih := ih (by omega)
      simp only [List.range_succ, List.foldl_append, List.foldl_cons, List.foldl_nil] at ih ⊢
      right
      generalize (List.range j).foldl _ ((-inf, 0) : K × Int) = s at *
      by_cases hgt : (r.arr (r.dataIndex (r.curr - r.len + 1 + j))).1 > s.1
      · rw [if_pos hgt]
        refine ⟨j, by omega, rfl, ?_⟩
        intro k' hk'
        rcases Nat.lt_succ_iff_lt_or_eq.mp hk' with h | h
        · rcases ih with ⟨h0, _⟩ | ⟨k, _, _, h3⟩
          · omega
          · exact le_trans (h3 k' h) hgt.le
        · rw [h]
      · rw [if_neg hgt]
        rcases ih with ⟨h0, h1⟩ | ⟨k, hk, h2, h3⟩
        · exfalso
          apply hgt
          rw [h1]
          exact hb _ (hmem j (by omega))
        · refine ⟨k, by omega, h2, ?_⟩
          intro k' hk'
          rcases Nat.lt_succ_iff_lt_or_eq.mp hk' with h | h
          · exact h3 k' h
          · rw [h]; exact not_lt.mp hgt
  rcases key r.len le_rfl with ⟨h, _⟩ | ⟨k, hk, h2, h3⟩
  · omega
  · refine ⟨k, hk, ?_, ?_⟩
    · unfold windowRefIndex; rw [h2]
    · intro e he
      unfold Ring.contents at he
      obtain ⟨k', hk', rfl⟩ := List.mem_map.mp he
      have := h3 k' (List.mem_range.mp hk')
      rw [h2] at this
      exact this

omit [IsStrictOrderedRing K] in
theorem windowModelSum_eq {r : WindowState K} {k : Nat} (hk : k < r.len) :
    windowModelSum r (r.curr - r.len + 1 + k) = ((r.contents.drop k).map Prod.snd).sum := by
  unfold windowModelSum
  have e : (r.curr - (r.curr - r.len + 1 + k) + 1).toNat = r.len - k := by omega
  rw [e]
  have h1 : ∀ (l : List Nat) (s : K),
      l.foldl (fun (s : K) (k' : Nat) =>
        s + (r.arr (r.dataIndex (r.curr - r.len + 1 + k + k'))).2) s =
      s + (l.map fun (k' : Nat) => (r.arr (r.dataIndex (r.curr - r.len + 1 + k + k'))).2).sum := by
    intro l
    induction l with
    | nil => intro s; simp
    | cons a l ih => intro s; rw [List.foldl_cons, ih, List.map_cons, List.sum_cons, add_assoc]
  rw [h1, zero_add]
  congr 1
  apply List.ext_getElem?
  intro j
  rw [List.getElem?_map, List.getElem?_map, List.getElem?_drop, Ring.contents_get]
  by_cases hj : j < r.len - k
  · rw [List.getElem?_range hj, if_pos (by omega)]
    simp only [Option.map_some, Option.some_inj]
    rw [show r.curr - (r.len : Int) + 1 + k + j = r.curr - r.len + 1 + ((k + j : Nat) : Int) by
      push_cast; ring]
  · rw [List.getElem?_eq_none (by simpa using hj), if_neg (by omega)]; rfl

/-- what the invariant of a window run says -/
structure WindowInv (inf : K) (num : Nat) (f0 f : K) (st : WindowState K) (hist : List (K × K)) :
    Prop where
  num_eq : st.num = num
  le : st.len ≤ num
  fresh : st.len = 0 → st.curr = -1
  contents : st.contents = lastN num hist
  hist_le : ∀ e ∈ hist, e.1 ≤ f0 ∧ 0 < e.2 ∧ -inf < e.1
  f_le : f ≤ f0
  f_gt : -inf < f

/-- The state seen by one application: defined, and the decision. -/
theorem windowApply_spec {inf rho f0 f : K} {num : Nat} {st : WindowState K} {hist : List (K × K)}
    (h : WindowInv inf num f0 f st hist) {t m : K} (hm : m < f) :
    ∃ acc ratio st', windowApply inf rho st f t m = some (acc, ratio, st') ∧
      st' = (if acc then windowAdd st f (f - m) else st) ∧
      (acc = true ↔ rho * (f - m) ≤ f - t ∨
        ∃ k < (lastN num hist).length, ∃ e, (lastN num hist)[k]? = some e ∧
          (∀ e' ∈ lastN num hist, e'.1 ≤ e.1) ∧ t ≤ e.1 ∧
          rho * ((((lastN num hist).drop k).map Prod.snd).sum + (f - m)) ≤ e.1 - t ∧
          windowRefIndex inf st = st.curr - st.len + 1 + k) := by
  have hd : 0 < f - m := by linarith
  have hcur : currentRatio (f - t) (f - m) = some ((f - t) / (f - m)) := by
    unfold currentRatio cdiv
    split_ifs with h1 h2
    · exact absurd h2 hd.ne'
    · rfl
    · push Not at h1; rw [h1, div_self hd.ne']
  have hcdiv : cdiv (f - t) (f - m) = some ((f - t) / (f - m)) := by
    unfold cdiv; rw [if_neg hd.ne']
  unfold windowApply
  simp only [hcur, Option.bind_some]
  have hcl : st.contents.length = st.len := st.contents_length
  have hq : ∀ a b : K, 0 < b → (rho ≤ a / b ↔ rho * b ≤ a) := fun a b hb => le_div_iff₀ hb
  by_cases hlen : st.len = 0
  · have hhist : windowHistoric inf st f t (f - m) = some ((f - t) / (f - m)) := by
      unfold windowHistoric; rw [if_pos hlen, hcdiv]
    have hnil : lastN num hist = [] := by
      rw [← h.contents, ← List.length_eq_zero_iff, hcl, hlen]
    rw [hhist, Option.map_some, max_self]
    refine ⟨decide (rho ≤ (f - t) / (f - m)), (f - t) / (f - m), _, ?_, rfl, ?_⟩
    · congr 1
      by_cases hr : rho ≤ (f - t) / (f - m) <;> simp [hr]
    · rw [decide_eq_true_eq, hq _ _ hd, hnil]
      simp
  · obtain ⟨k, hk, hidx, hmax⟩ := windowRef_spec (inf := inf) (r := st) (by omega)
      (by rw [h.contents]; exact fun e he => (h.hist_le e (lastN_mem he)).2.2)
    set e := st.arr (st.dataIndex (st.curr - st.len + 1 + k)) with he
    have hek : (lastN num hist)[k]? = some e := by
      rw [← h.contents, Ring.contents_get, if_pos hk]
    have hkl : k < (lastN num hist).length := by rw [← h.contents, hcl]; exact hk
    have hsumpos : 0 ≤ (((lastN num hist).drop k).map Prod.snd).sum := by
      apply List.sum_nonneg
      intro x hx
      obtain ⟨y, hy, rfl⟩ := List.mem_map.mp hx
      exact (h.hist_le y (lastN_mem (List.mem_of_mem_drop hy))).2.1.le
    have hsum := windowModelSum_eq hk
    rw [h.contents] at hsum hmax
    -- any index the existential can pick is `k`
    have huniq : ∀ k' : Nat, windowRefIndex inf st = st.curr - st.len + 1 + k' → k' = k := by
      intro k' hk'; rw [hidx] at hk'; omega
    by_cases href : e.1 < t
    · have hhist : windowHistoric inf st f t (f - m) = some ((f - t) / (f - m)) := by
        unfold windowHistoric
        rw [if_neg hlen]
        simp only [hidx]
        rw [if_pos href, hcdiv]
      rw [hhist, Option.map_some, max_self]
      refine ⟨decide (rho ≤ (f - t) / (f - m)), (f - t) / (f - m), _, ?_, rfl, ?_⟩
      · congr 1
        by_cases hr : rho ≤ (f - t) / (f - m) <;> simp [hr]
      · rw [decide_eq_true_eq, hq _ _ hd]
        constructor
        · exact Or.inl
        · rintro (h1 | ⟨k', _, e', h2, _, h3, _, h4⟩)
          · exact h1
          · rw [huniq k' h4, hek] at h2
            cases h2
            exact absurd h3 (not_le.mpr href)
    · have hden : 0 < (((lastN num hist).drop k).map Prod.snd).sum + (f - m) := by linarith
      have hhist : windowHistoric inf st f t (f - m) =
          some ((e.1 - t) / ((((lastN num hist).drop k).map Prod.snd).sum + (f - m))) := by
        unfold windowHistoric
        rw [if_neg hlen]
        simp only [hidx]
        rw [if_neg href, if_pos (by omega), hsum]
        unfold cdiv
        rw [if_neg hden.ne']
      rw [hhist, Option.map_some]
      refine ⟨decide (rho ≤ max ((f - t) / (f - m))
        ((e.1 - t) / ((((lastN num hist).drop k).map Prod.snd).sum + (f - m)))),
        max ((f - t) / (f - m))
        ((e.1 - t) / ((((lastN num hist).drop k).map Prod.snd).sum + (f - m))), _, ?_, rfl, ?_⟩
      · congr 1
        by_cases hr : rho ≤ max ((f - t) / (f - m))
          ((e.1 - t) / ((((lastN num hist).drop k).map Prod.snd).sum + (f - m)))
        · simp only [ge_iff_le, hr, if_true, decide_true]
        · simp only [ge_iff_le, hr, if_false, decide_false]
          simp
      · rw [decide_eq_true_eq, le_max_iff, hq _ _ hd, hq _ _ hden]
        constructor
        · rintro (h1 | h1)
          · exact Or.inl h1
          · exact Or.inr ⟨k, hkl, e, hek, hmax, not_lt.mp href, h1, hidx⟩
        · rintro (h1 | ⟨k', _, e', h2, _, _, h3, h4⟩)
          · exact Or.inl h1
          · rw [huniq k' h4] at h2 h3
            rw [hek] at h2; cases h2
            exact Or.inr h3

omit [IsStrictOrderedRing K] in
theorem windowAdd_inv {inf f0 f : K} {num : Nat} {st : WindowState K} {hist : List (K × K)}
    (h : WindowInv inf num f0 f st hist) (d : K) :
    (windowAdd st f d).num = num ∧ (windowAdd st f d).len ≤ num ∧
    ((windowAdd st f d).len = 0 → (windowAdd st f d).curr = -1) ∧
    (windowAdd st f d).contents = lastN num (hist ++ [(f, d)]) := by
  unfold windowAdd
  by_cases h0 : st.num = 0
  · rw [if_pos h0]
    have hn : num = 0 := by rw [← h.num_eq, h0]
    refine ⟨h.num_eq, h.le, h.fresh, ?_⟩
    rw [h.contents, hn]
    simp [lastN]
  · rw [if_neg h0]
    have hpos : 0 < st.num := by omega
    have hinv : st.Inv := ⟨hpos, by rw [h.num_eq]; exact h.le⟩
    have hc : (st.curr + 1) % (st.num : Int) = (st.dataIndex (st.curr + 1) : Int) := by
      by_cases hl : st.len = 0
      · rw [h.fresh hl]
        unfold Ring.dataIndex
        rw [if_pos hl]; simp
      · rw [Ring.dataIndex_eq st _ (by omega) hpos]
    refine ⟨h.num_eq, ?_, ?_, ?_⟩
    · have := (Ring.store_inv st hinv (st.dataIndex (st.curr + 1)) (f, d) (st.curr + 1)).le
      rw [← h.num_eq]; exact this
    · intro hz
      exfalso
      have hz' : (if st.len < st.num then st.len + 1 else st.len) = 0 := hz
      split at hz' <;> omega
    · have := Ring.store_contents st hinv (f, d) (st.curr + 1) hc
      have e : st.len = (lastN num hist).length := by rw [← h.contents, st.contents_length]
      rw [h.contents, e, h.num_eq, lastN_push] at this
      exact this

theorem windowRun_inv {inf rho f0 f : K} {num : Nat} {arr : Nat → K × K} {st : WindowState K}
    {hist : List (K × K)} (hrho : 0 < rho) (h : WindowRun inf rho num arr f0 f st hist) :
    WindowInv inf num f0 f st hist := by
  induction h with
  | init hf =>
    exact ⟨rfl, Nat.zero_le _, fun _ => rfl, by simp [Ring.contents, Ring.create, lastN],
      by simp, le_rfl, hf⟩
  | @step f st hist t m acc ratio st' _ hm ht happ ih =>
    obtain ⟨acc', ratio', st'', h1, h2, h3⟩ := windowApply_spec (rho := rho) ih (t := t) hm
    rw [happ] at h1
    simp only [Option.some_inj, Prod.mk.injEq] at h1
    obtain ⟨rfl, rfl, rfl⟩ := h1
    cases acc with
    | false => simpa [h2] using ih
    | true =>
      simp only [if_true] at h2 ⊢
      obtain ⟨a1, a2, a3, a4⟩ := windowAdd_inv ih (f - m)
      rw [h2]
      refine ⟨a1, a2, a3, a4, ?_, ?_, ht⟩
      · intro e he
        rcases List.mem_append.mp he with he | he
        · exact ih.hist_le e he
        · simp at he; rw [he]; exact ⟨ih.f_le, by simp; linarith, ih.f_gt⟩
      · have hd : 0 < f - m := by linarith
        rcases h3.mp rfl with h4 | ⟨k, hk, e, h5, _, _, h6, _⟩
        · have := mul_pos hrho hd
          have := ih.f_le
          linarith
        · have hsumpos : 0 ≤ (((lastN num hist).drop k).map Prod.snd).sum := by
            apply List.sum_nonneg
            intro x hx
            obtain ⟨y, hy, rfl⟩ := List.mem_map.mp hx
            exact (ih.hist_le y (lastN_mem (List.mem_of_mem_drop hy))).2.1.le
          have := mul_pos hrho (by linarith : 0 < (((lastN num hist).drop k).map Prod.snd).sum + (f - m))
          have := (ih.hist_le e (lastN_mem (List.mem_of_getElem? h5))).1
          linarith

/-- The window rule is always applicable, and its memory is exactly the last
`num` accepted steps. -/
theorem C18_window_memory {inf rho f0 f : K} {num : Nat} {arr : Nat → K × K} {st : WindowState K}
    {hist : List (K × K)} (hrho : 0 < rho) (h : WindowRun inf rho num arr f0 f st hist) :
    st.contents = lastN num hist ∧
    ∀ t m, m < f → (windowApply inf rho st f t m).isSome := by
  have hi := windowRun_inv hrho h
  refine ⟨hi.contents, ?_⟩
  intro t m hm
  obtain ⟨_, _, _, h1, _⟩ := windowApply_spec (rho := rho) hi (t := t) hm
  rw [h1]; rfl

/-- Acceptance by the window rule: relative to a reference value, which is the
current merit or the largest of the last `num` accepted ones, the trial achieves
the required fraction of all reductions predicted since the reference. -/
theorem C18_window_accept {inf rho f0 f t m ratio : K} {num : Nat} {arr : Nat → K × K}
    {st st' : WindowState K} {hist : List (K × K)} (hrho : 0 < rho)
    (h : WindowRun inf rho num arr f0 f st hist) (hm : m < f)
    (hacc : windowApply inf rho st f t m = some (true, ratio, st')) :
    t ≤ f - rho * (f - m) ∨
    ∃ k, ∃ e, (lastN num hist)[k]? = some e ∧ (∀ e' ∈ lastN num hist, e'.1 ≤ e.1) ∧
      t ≤ e.1 - rho * ((((lastN num hist).drop k).map Prod.snd).sum + (f - m)) := by
  have hi := windowRun_inv hrho h
  obtain ⟨acc', ratio', st'', h1, h2, h3⟩ := windowApply_spec (rho := rho) hi (t := t) hm
  rw [hacc] at h1
  simp only [Option.some_inj, Prod.mk.injEq] at h1
  obtain ⟨rfl, rfl, rfl⟩ := h1
  rcases h3.mp rfl with h4 | ⟨k, hk, e, h5, h6, _, h7, _⟩
  · left; linarith
  · right; exact ⟨k, e, h5, h6, by linarith⟩

/-- A step achieving the required fraction of its own prediction is accepted. -/
theorem C18_window_monotone_accepted {inf rho f0 f t m : K} {num : Nat} {arr : Nat → K × K}
    {st : WindowState K} {hist : List (K × K)} (hrho : 0 < rho)
    (h : WindowRun inf rho num arr f0 f st hist) (hm : m < f) (ht : t ≤ f - rho * (f - m)) :
    ∃ ratio st', windowApply inf rho st f t m = some (true, ratio, st') := by
  have hi := windowRun_inv hrho h
  obtain ⟨acc', ratio', st'', h1, h2, h3⟩ := windowApply_spec (rho := rho) hi (t := t) hm
  have : acc' = true := h3.mpr (Or.inl (by linarith))
  exact ⟨ratio', st'', this ▸ h1⟩

/-- Along a run no accepted merit value exceeds the first one; accepted values
are strictly below the largest remembered or current value.
This is for a fixed penalty; across a change of the penalty it fails (`C18_penalty_violated`). -/
theorem C18_window_never_above_first_partial {inf rho f0 f : K} {num : Nat} {arr : Nat → K × K}
    {st : WindowState K} {hist : List (K × K)} (hrho : 0 < rho)
    (h : WindowRun inf rho num arr f0 f st hist) :
    f ≤ f0 ∧ ∀ t m ratio st', m < f → windowApply inf rho st f t m = some (true, ratio, st') →
      t < f0 ∧ (t < f ∨ ∃ e ∈ lastN num hist, t < e.1) := by
  have hi := windowRun_inv hrho h
  refine ⟨hi.f_le, ?_⟩
  intro t m ratio st' hm hacc
  have hd : 0 < f - m := by linarith
  rcases C18_window_accept hrho h hm hacc with h1 | ⟨k, e, h1, h2, h3⟩
  · have := mul_pos hrho hd
    have := hi.f_le
    exact ⟨by linarith, Or.inl (by linarith)⟩
  · have hsumpos : 0 ≤ (((lastN num hist).drop k).map Prod.snd).sum := by
      apply List.sum_nonneg
      intro x hx
      obtain ⟨y, hy, rfl⟩ := List.mem_map.mp hx
      exact (hi.hist_le y (lastN_mem (List.mem_of_mem_drop hy))).2.1.le
    have := mul_pos hrho (by linarith : 0 < (((lastN num hist).drop k).map Prod.snd).sum + (f - m))
    have h4 := List.mem_of_getElem? h1
    have := (hi.hist_le e (lastN_mem h4)).1
    exact ⟨by linarith, Or.inr ⟨e, h4, by linarith⟩⟩

/-- non-vacuity: merit 10, accepted 8 (predicted 7), then the increase to 9 with
prediction 7 is accepted thanks to the window. -/
example : ∃ st hist, WindowRun (1000 : ℚ) (1/100) 2 (fun _ => (0, 0)) 10 9 st hist ∧
    hist = [(10, 3), (8, 1)] := by
  have h0 : WindowRun (1000 : ℚ) (1/100) 2 (fun _ => (0, 0)) 10 10 (Ring.create 2 fun _ => (0, 0)) [] :=
    .init (by norm_num)
  obtain ⟨r1, s1, h1⟩ := C18_window_monotone_accepted (t := 8) (m := 7) (by norm_num) h0 (by norm_num)
    (by norm_num)
  have h2 := WindowRun.step h0 (by norm_num) (by norm_num) h1
  simp only [if_true, List.nil_append] at h2
  have hi := windowRun_inv (by norm_num) h2
  obtain ⟨acc, r2, s2, h3, h4, h5⟩ := windowApply_spec (rho := 1/100) hi (t := 9) (m := 7) (by norm_num)
  have hW : lastN 2 [((10 : ℚ), (10 : ℚ) - 7)] = [(10, 3)] := by norm_num [lastN]
  have hidx : windowRefIndex 1000 s1 = s1.curr - s1.len + 1 + (0 : Nat) := by
    have hl : s1.len = 1 := by rw [← s1.contents_length, hi.contents, hW]; rfl
    obtain ⟨k, hk, h6, _⟩ := windowRef_spec (inf := (1000 : ℚ)) (r := s1) (by omega)
      (by rw [hi.contents, hW]; simp; norm_num)
    rw [h6, show k = 0 by omega]
  have hacc : acc = true := h5.mpr (Or.inr ⟨0, by rw [hW]; simp, (10, 3), by rw [hW]; rfl,
    by rw [hW]; simp, by norm_num, by rw [hW]; norm_num, hidx⟩)
  subst hacc
  have h6 := WindowRun.step h2 (by norm_num) (by norm_num) h3
  refine ⟨s2, _, h6, ?_⟩
  norm_num

/-! ### Minimum-step rule -/

/-- A run of the minimum-step rule at fixed penalty. -/
inductive MinRun (rho : K) (s0 : MinState K) (f0 : K) : K → MinState K → Prop
  | init : s0.init = false → MinRun rho s0 f0 f0 s0
  | step {f s t m acc ratio s'} : MinRun rho s0 f0 f s → m < f →
      minApply rho s f t m = some (acc, ratio, s') →
      MinRun rho s0 f0 (if acc then t else f) s'

/-- invariant of an initialised state -/
structure MinInv (f0 f : K) (s : MinState K) : Prop where
  f_le : f ≤ f0
  max_le : s.init = true → s.maxMerit ≤ f0
  min_le : s.init = true → s.minMerit ≤ s.maxMerit
  ref_le : s.init = true → s.refMerit ≤ f0
  sumRef : s.init = true → 0 ≤ s.sumRef
  sumMax : s.init = true → 0 ≤ s.sumMax

theorem MinInv.accept {f0 f d : K} {s : MinState K} (hs : s.init = true) (h : MinInv f0 f s)
    (hd : 0 < d) {t : K} (ht : t ≤ f0) : MinInv f0 t (s.accept f d) := by
  have h1 := h.f_le
  have h2 := h.max_le hs
  have h3 := h.min_le hs
  have h4 := h.ref_le hs
  have h5 := h.sumRef hs
  have h6 := h.sumMax hs
  unfold MinState.accept
  constructor
  · exact ht
  all_goals
    intro _
    simp only
    split_ifs <;> simp only [] at * <;> linarith

theorem minApply_spec {rho f0 f : K} {s : MinState K} (hrho : 0 < rho) (h : MinInv f0 f s) {t m : K}
    (hm : m < f) :
    ∃ acc ratio s', minApply rho s f t m = some (acc, ratio, s') ∧
      (acc = true ↔ rho * (f - m) ≤ f - t ∨
        (if s.init then rho * (s.sumRef + (f - m)) ≤ s.refMerit - t else rho * (f - m) ≤ f - t)) ∧
      MinInv f0 (if acc then t else f) s' ∧ s'.init = true ∧ (acc = true → t < f0) := by
  have hd : 0 < f - m := by linarith
  have hcur : currentRatio (f - t) (f - m) = some ((f - t) / (f - m)) := by
    unfold currentRatio cdiv
    split_ifs with h1 h2
    · exact absurd h2 hd.ne'
    · rfl
    · push Not at h1; rw [h1, div_self hd.ne']
  obtain ⟨s0, hs0⟩ : ∃ s0, s0 = if s.init then s else s.start f := ⟨_, rfl⟩
  have hinit : s0.init = true := by rw [hs0]; split <;> simp_all [MinState.start]
  have hinv : MinInv f0 f s0 := by
    rw [hs0]
    split
    · exact h
    · have := h.f_le
      constructor <;> simp [MinState.start, this]
  have href : (if s.init then rho * (s.sumRef + (f - m)) ≤ s.refMerit - t else rho * (f - m) ≤ f - t) ↔
      rho * (s0.sumRef + (f - m)) ≤ s0.refMerit - t := by
    rw [hs0]
    cases hb : s.init
    · simp [MinState.start]
    · simp
  have hden : 0 < s0.sumRef + (f - m) := by have := hinv.sumRef hinit; linarith
  unfold minApply
  simp only []
  rw [if_neg (by rintro ⟨h1, h2⟩; exact h2 (h.min_le h1)), ← hs0, hcur]
  unfold cdiv
  rw [if_neg hden.ne', Option.bind_some, Option.map_some]
  have hq : rho ≤ max ((f - t) / (f - m)) ((s0.refMerit - t) / (s0.sumRef + (f - m))) ↔
      rho * (f - m) ≤ f - t ∨ rho * (s0.sumRef + (f - m)) ≤ s0.refMerit - t := by
    rw [le_max_iff, le_div_iff₀ hd, le_div_iff₀ hden]
  by_cases hr : rho ≤ max ((f - t) / (f - m)) ((s0.refMerit - t) / (s0.sumRef + (f - m)))
  · rw [if_pos hr]
    have ht : t < f0 := by
      have h1 := hinv.f_le
      have h2 := hinv.ref_le hinit
      have h3 := mul_pos hrho hd
      have h4 := mul_pos hrho hden
      rcases hq.mp hr with h5 | h5 <;> linarith
    refine ⟨true, _, _, rfl, ?_, ?_, ?_, fun _ => ht⟩
    · rw [href]; exact ⟨fun _ => hq.mp hr, fun _ => rfl⟩
    · exact hinv.accept hinit hd ht.le
    · unfold MinState.accept
      simp only
      split_ifs <;> exact hinit
  · rw [if_neg hr]
    refine ⟨false, _, _, rfl, ?_, hinv, hinit, by simp⟩
    rw [href, ← hq]
    simp [hr]

/-- Along a run of the minimum-step rule: it is always applicable (its assert
never fails), no merit value exceeds the first one, and every accepted value is
strictly below the first.
This is for a fixed penalty; across a change of the penalty it fails (`C18_penalty_violated`). -/
theorem C18_minstep_never_above_first_partial {rho f0 f : K} {s0 s : MinState K} (hrho : 0 < rho)
    (h : MinRun rho s0 f0 f s) :
    f ≤ f0 ∧ ∀ t m, m < f → ∃ acc ratio s', minApply rho s f t m = some (acc, ratio, s') ∧
      (acc = true → t < f0) := by
  have hi : MinInv f0 f s := by
    induction h with
    | init h0 => constructor <;> simp [h0]
    | @step f s t m acc ratio s' _ hm happ ih =>
      obtain ⟨acc', r', s'', h1, _, h3, _, _⟩ := minApply_spec hrho ih (t := t) hm
      rw [happ] at h1
      simp only [Option.some_inj, Prod.mk.injEq] at h1
      obtain ⟨rfl, rfl, rfl⟩ := h1
      exact h3
  refine ⟨hi.f_le, ?_⟩
  intro t m hm
  obtain ⟨acc, r, s', h1, _, _, _, h5⟩ := minApply_spec hrho hi (t := t) hm
  exact ⟨acc, r, s', h1, h5⟩

/-- The minimum-step rule accepts exactly if the trial achieves the required
fraction of the prediction relative to the current iterate or to the reference. -/
theorem C18_minstep_accept_iff {rho f0 f : K} {s0 s : MinState K} (hrho : 0 < rho)
    (h : MinRun rho s0 f0 f s) (hs : s.init = true) {t m : K} (hm : m < f) {acc ratio s'}
    (happ : minApply rho s f t m = some (acc, ratio, s')) :
    acc = true ↔ t ≤ f - rho * (f - m) ∨ t ≤ s.refMerit - rho * (s.sumRef + (f - m)) := by
  have hi : MinInv f0 f s := by
    clear happ hs hm
    induction h with
    | init h0 => constructor <;> simp [h0]
    | @step f s t m acc ratio s' _ hm happ ih =>
      obtain ⟨acc', r', s'', h1, _, h3, _, _⟩ := minApply_spec hrho ih (t := t) hm
      rw [happ] at h1
      simp only [Option.some_inj, Prod.mk.injEq] at h1
      obtain ⟨rfl, rfl, rfl⟩ := h1
      exact h3
  obtain ⟨acc', r', s'', h1, h2, _⟩ := minApply_spec hrho hi (t := t) hm
  rw [happ] at h1
  simp only [Option.some_inj, Prod.mk.injEq] at h1
  obtain ⟨rfl, rfl, rfl⟩ := h1
  rw [h2, if_pos hs]
  constructor
  · rintro (h | h)
    · left; linarith
    · right; linarith
  · rintro (h | h)
    · left; linarith
    · right; linarith

/-- non-vacuity: two steps; the second one increases the merit (8 → 9) and is accepted -/
example : ∃ s, MinRun (1/100 : ℚ) ⟨false, 0, 0, 0, 0, 0, 0, 2⟩ 10 9 s := by
  have h0 : MinRun (1/100 : ℚ) ⟨false, 0, 0, 0, 0, 0, 0, 2⟩ 10 10 ⟨false, 0, 0, 0, 0, 0, 0, 2⟩ := .init rfl
  have a1 : ∃ r s', minApply (1/100 : ℚ) ⟨false, 0, 0, 0, 0, 0, 0, 2⟩ 10 8 7 = some (true, r, s') ∧
      s'.init = true ∧ s'.refMerit = 10 ∧ s'.sumRef = 3 ∧ s'.maxMerit ≥ s'.minMerit := by
    refine ⟨2/3, ⟨true, 10, 10, 10, 3, 3, 1, 2⟩, ?_⟩
    norm_num [minApply, MinState.start, MinState.accept, cdiv, currentRatio]
  obtain ⟨r, s', h1, i1, i2, i3, i4⟩ := a1
  have h2 := MinRun.step h0 (by norm_num) h1
  simp only [if_true] at h2
  have a2 : ∃ r s'', minApply (1/100 : ℚ) s' 8 9 7 = some (true, r, s'') := by
    obtain ⟨acc, r, s'', h3, _⟩ := (C18_minstep_never_above_first_partial (by norm_num) h2).2 9 7 (by norm_num)
    have := (C18_minstep_accept_iff (by norm_num) h2 i1 (by norm_num) h3).mpr
      (Or.inr (by rw [i2, i3]; norm_num))
    exact ⟨r, s'', this ▸ h3⟩
  obtain ⟨r2, s2, h3⟩ := a2
  have h4 := MinRun.step h2 (by norm_num) h3
  exact ⟨s2, by simpa using h4⟩

/-- A run of the minimum-step rule with the list (oldest first) of the merit values of the
iterates from which a step was accepted. -/
inductive MinRunH (rho : K) (s0 : MinState K) (f0 : K) : List K → K → MinState K → Prop
  | init : s0.init = false → MinRunH rho s0 f0 [] f0 s0
  | step {hist f s t m acc ratio s'} : MinRunH rho s0 f0 hist f s → m < f →
      minApply rho s f t m = some (acc, ratio, s') →
      MinRunH rho s0 f0 (if acc then hist ++ [f] else hist) (if acc then t else f) s'

/-- the values seen since the latest new minimum (included), starting from `f0`; the first
element is the minimum of all values seen -/
def sinceMin (f0 : K) (hist : List K) : List K :=
  hist.foldl (fun l f => if f < l.headD f0 then [f] else l ++ [f]) [f0]

omit [IsStrictOrderedRing K] in
theorem sinceMin_snoc (f0 : K) (hist : List K) (f : K) :
    sinceMin f0 (hist ++ [f]) =
      if f < (sinceMin f0 hist).headD f0 then [f] else sinceMin f0 hist ++ [f] := by
  unfold sinceMin; rw [List.foldl_append]; rfl

/-- bookkeeping of the minimum-step rule against the history -/
structure MinMem (f0 : K) (hist : List K) (s : MinState K) : Prop where
  ne : sinceMin f0 hist ≠ []
  hmin : s.minMerit = (sinceMin f0 hist).headD f0
  hle : ∀ x ∈ sinceMin f0 hist, s.minMerit ≤ x ∧ x ≤ s.maxMerit
  hmax : s.maxMerit ∈ sinceMin f0 hist
  hcnt : s.stepCount + 1 = (sinceMin f0 hist).length
  href : ∃ k ≤ hist.length, s.refMerit = f0 ∨
    (s.refMerit ∈ sinceMin f0 (hist.take k) ∧ (∀ x ∈ sinceMin f0 (hist.take k), x ≤ s.refMerit) ∧
      (sinceMin f0 (hist.take k)).length = s.maxStepCount + 1)

omit [IsStrictOrderedRing K] in
theorem MinMem.accept {f0 f d : K} {hist : List K} {s : MinState K} (h : MinMem f0 hist s) :
    MinMem f0 (hist ++ [f]) (s.accept f d) := by
  obtain ⟨ne, hmin, hle, hmax, hcnt, k, hk, href⟩ := h
  have hbase : ∃ s3 : MinState K,
      s.accept f d = (if s3.stepCount = s3.maxStepCount then { s3 with refMerit := s3.maxMerit, sumRef := s3.sumMax }
        else s3) ∧ s3.refMerit = s.refMerit ∧ s3.maxStepCount = s.maxStepCount ∧
      sinceMin f0 (hist ++ [f]) ≠ [] ∧ s3.minMerit = (sinceMin f0 (hist ++ [f])).headD f0 ∧
      (∀ x ∈ sinceMin f0 (hist ++ [f]), s3.minMerit ≤ x ∧ x ≤ s3.maxMerit) ∧
      s3.maxMerit ∈ sinceMin f0 (hist ++ [f]) ∧ s3.stepCount + 1 = (sinceMin f0 (hist ++ [f])).length := by
    refine ⟨_, rfl, ?_⟩
    rw [sinceMin_snoc, ← hmin]
    by_cases h1 : f < s.minMerit
    · simp only [h1, if_true, gt_iff_lt, lt_irrefl, if_false]
      simp
    · simp only [h1, if_false]
      have hmm := (hle _ hmax).1
      by_cases h2 : s.maxMerit < f
      · simp only [gt_iff_lt, h2, if_true]
        refine ⟨trivial, trivial, by simp, ?_, ?_, by simp, ?_⟩
        · rw [hmin]; cases hl : sinceMin f0 hist with
          | nil => exact absurd hl ne
          | cons a l => rfl
        · intro x hx
          rcases List.mem_append.mp hx with hx | hx
          · exact ⟨(hle x hx).1, (hle x hx).2.trans h2.le⟩
          · rw [List.mem_singleton.mp hx]; exact ⟨not_lt.mp h1, le_rfl⟩
        · rw [List.length_append, ← hcnt]; rfl
      · simp only [gt_iff_lt, h2, if_false]
        refine ⟨trivial, trivial, by simp, ?_, ?_, List.mem_append_left _ hmax, ?_⟩
        · rw [hmin]; cases hl : sinceMin f0 hist with
          | nil => exact absurd hl ne
          | cons a l => rfl
        · intro x hx
          rcases List.mem_append.mp hx with hx | hx
          · exact hle x hx
          · rw [List.mem_singleton.mp hx]; exact ⟨not_lt.mp h1, not_lt.mp h2⟩
        · rw [List.length_append, ← hcnt]; rfl
  obtain ⟨s3, e1, e2, e3, b1, b2, b3, b4, b5⟩ := hbase
  rw [e1]
  by_cases hc : s3.stepCount = s3.maxStepCount
  · rw [if_pos hc]
    refine ⟨b1, b2, b3, b4, b5, (hist ++ [f]).length, le_rfl, Or.inr ?_⟩
    rw [List.take_length]
    exact ⟨b4, fun x hx => (b3 x hx).2, by rw [← b5, hc]⟩
  · rw [if_neg hc]
    refine ⟨b1, b2, b3, b4, b5, k, by rw [List.length_append]; omega, ?_⟩
    rw [e2, e3, List.take_append_of_le_length hk]
    exact href

/-- C18 (minimum-step rule): the rule remembers exactly what it should: its minimum is the
first element and its maximum the largest element of the values seen since the latest new
minimum, its counter is their number, and the reference value is either the first merit or
the largest value since the then latest minimum at a moment when the step limit was
reached. -/
theorem C18_minstep_memory {rho f0 f : K} {hist : List K} {s0 s : MinState K}
    (h : MinRunH rho s0 f0 hist f s) (hs : s.init = true) : MinMem f0 hist s := by
  have key : (s.init = true → MinMem f0 hist s) ∧ (s.init = false → hist = [] ∧ f = f0) := by
    clear hs
    induction h with
    | init h0 => exact ⟨fun h => by rw [h0] at h; simp at h, fun _ => ⟨rfl, rfl⟩⟩
    | @step hist f s t m acc ratio s' _ hm happ ih =>
      unfold minApply at happ
      simp only [] at happ
      split at happ
      · simp at happ
      · obtain ⟨h1, _, happ⟩ := Option.bind_eq_some_iff.mp happ
        obtain ⟨c, _, happ⟩ := Option.map_eq_some_iff.mp happ
        have hmem : MinMem f0 hist (if s.init then s else s.start f) := by
          cases hi : s.init
          · obtain ⟨rfl, rfl⟩ := ih.2 hi
            simp only [Bool.false_eq_true, if_false]
            exact ⟨by simp [sinceMin], rfl, by simp [sinceMin, MinState.start], by simp [sinceMin, MinState.start],
              rfl, 0, le_rfl, Or.inl rfl⟩
          · simpa using ih.1 hi
        have hinit : (if s.init then s else s.start f).init = true := by
          split
          · assumption
          · rfl
        split at happ
        · simp only [Prod.mk.injEq] at happ
          obtain ⟨rfl, _, rfl⟩ := happ
          refine ⟨fun _ => ?_, fun hf => ?_⟩
          · simp only [if_true]; exact hmem.accept
          · exfalso
            revert hf
            unfold MinState.accept
            simp only []
            split_ifs <;> simp_all
        · simp only [Prod.mk.injEq] at happ
          obtain ⟨rfl, _, rfl⟩ := happ
          refine ⟨fun _ => by simpa using hmem, fun hf => ?_⟩
          rw [hinit] at hf; simp at hf
  exact key.1 hs

/-- every run has a history -/
theorem MinRun.hist {rho f0 f : K} {s0 s : MinState K} (h : MinRun rho s0 f0 f s) :
    ∃ hist, MinRunH rho s0 f0 hist f s := by
  induction h with
  | init h0 => exact ⟨[], .init h0⟩
  | step _ hm happ ih =>
    obtain ⟨hist, ih⟩ := ih
    exact ⟨_, .step ih hm happ⟩

/-- after accepted steps from iterates with merits 10 and 8, the latter is a new minimum -/
example : sinceMin (10 : ℚ) [10, 8, 9] = [8, 9] := by decide +kernel

end Sleqp
