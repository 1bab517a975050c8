import Verif.Props.TrialLs
import Mathlib.Tactic.Linarith
import Mathlib.Algebra.BigOperators.Group.List.Basic

/-!
C45 (exact line search between Cauchy and Newton step).
-/

namespace Sleqp
variable {K : Type*} [Field K] [LinearOrder K] [IsStrictOrderedRing K]
variable {n m : Nat}
open Matrix Finset

/-! ### the values visited by the merge loop -/

omit [IsStrictOrderedRing K] in
theorem sum_split_at {N i : Nat} (hi : i < N) (a : K) {G G' : Nat → K} (h1 : G i = a) (h2 : G' i = 0) (h3 : ∀ k, k ≠ i → G k = G' k) :
    ∑ k ∈ range N, G k = a + ∑ k ∈ range N, G' k := by
  have : ∀ k ∈ range N, G k = (if k = i then a else 0) + G' k := by
    intro k _
    by_cases hk : k = i
    · subst hk; rw [if_pos rfl, h1, h2, add_zero]
    · rw [if_neg hk, zero_add, h3 k hk]
  rw [Finset.sum_congr rfl this, Finset.sum_add_distrib, Finset.sum_ite_eq', if_pos (by simpa using hi)]

omit [IsStrictOrderedRing K] in
/-- the entries skipped by the loop contribute nothing -/
theorem mergeBoth_sum (F : K → K → K) (hF : F 0 0 = 0) {N : Nat} (l t : List (Nat × K)) : Srt l → Srt t → (∀ e ∈ l, e.1 < N) →
    (∀ e ∈ t, e.1 < N) → (∀ e ∈ l, (∀ e' ∈ t, e'.1 < e.1) → F e.2 0 = 0) → (∀ e ∈ t, (∀ e' ∈ l, e'.1 < e.1) → F 0 e.2 = 0) →
    ((mergeBoth l t).map fun x => F x.1 x.2).sum = ∑ i ∈ range N, F (valAt l i) (valAt t i) := by
  fun_induction mergeBoth l t with
  | case1 t =>
    intro _ ht _ bt _ h2
    simp only [valAt_nil]
    rw [sum_range_valAt ht bt (fun _ x => F 0 x) (fun _ => hF), List.map_nil, List.sum_nil]
    refine (List.sum_eq_zero fun x hx => ?_).symm
    obtain ⟨e, he, rfl⟩ := List.mem_map.1 hx
    exact h2 e he (by simp)
  | case2 e l =>
    intro hl _ bl _ h1 _
    simp only [valAt_nil]
    rw [sum_range_valAt hl bl (fun _ x => F x 0) (fun _ => hF), List.map_nil, List.sum_nil]
    refine (List.sum_eq_zero fun x hx => ?_).symm
    obtain ⟨e, he, rfl⟩ := List.mem_map.1 hx
    exact h1 e he (by simp)
  | case3 v s j d t ih =>
    intro hl ht bl bt h1 h2
    rw [srt_cons] at hl ht
    rw [List.map_cons, List.sum_cons, ih hl.2 ht.2 (fun e he => bl e (by simp [he])) (fun e he => bt e (by simp [he]))
      (fun e he h => h1 e (by simp [he]) (by simpa using ⟨hl.1 e he, fun a b hab => h (a, b) hab⟩))
      (fun e he h => h2 e (by simp [he]) (by simpa using ⟨ht.1 e he, fun a b hab => h (a, b) hab⟩))]
    refine (sum_split_at (bl (j, v) (by simp)) (F v d) ?_ ?_ ?_).symm
    · rw [valAt_cons, valAt_cons, if_pos rfl, if_pos rfl]
    · show F (valAt s j) (valAt t j) = 0
      rw [valAt_of_lt hl.1, valAt_of_lt ht.1, hF]
    · intro k hk
      rw [valAt_cons, valAt_cons, if_neg (Ne.symm hk), if_neg (Ne.symm hk)]
  | case4 i v s j d t hij hlt ih =>
    intro hl ht bl bt h1 h2
    have hl' := hl
    have ht' := ht
    rw [srt_cons] at hl ht
    rw [List.map_cons, List.sum_cons, ih hl.2 ht' (fun e he => bl e (by simp [he])) bt
      (fun e he h => h1 e (by simp [he]) h)
      (fun e he h => h2 e he (by
        have hj : j ≤ e.1 := by
          rcases List.mem_cons.1 he with rfl | he
          · exact le_rfl
          · exact (ht.1 e he).le
        simpa using ⟨lt_of_lt_of_le hlt hj, fun a b hab => h (a, b) hab⟩))]
    refine (sum_split_at (bl (i, v) (by simp)) (F v 0) ?_ ?_ ?_).symm
    · rw [valAt_cons, if_pos rfl, valAt_of_lt (l := (j, d) :: t)]
      intro e he
      rcases List.mem_cons.1 he with rfl | he
      · exact hlt
      · exact hlt.trans (ht.1 e he)
    · show F (valAt s i) (valAt ((j, d) :: t) i) = 0
      rw [valAt_of_lt hl.1, valAt_of_lt (l := (j, d) :: t), hF]
      intro e he
      rcases List.mem_cons.1 he with rfl | he
      · exact hlt
      · exact hlt.trans (ht.1 e he)
    · intro k hk
      rw [valAt_cons (l := s), if_neg (Ne.symm hk)]
  | case5 i v s j d t hij hlt ih =>
    intro hl ht bl bt h1 h2
    have hl' := hl
    have ht' := ht
    have hlt : j < i := by omega
    rw [srt_cons] at hl ht
    rw [List.map_cons, List.sum_cons, ih hl' ht.2 bl (fun e he => bt e (by simp [he]))
      (fun e he h => h1 e he (by
        have hj : i ≤ e.1 := by
          rcases List.mem_cons.1 he with rfl | he
          · exact le_rfl
          · exact (hl.1 e he).le
        simpa using ⟨lt_of_lt_of_le hlt hj, fun a b hab => h (a, b) hab⟩))
      (fun e he h => h2 e (by simp [he]) h)]
    refine (sum_split_at (bt (j, d) (by simp)) (F 0 d) ?_ ?_ ?_).symm
    · rw [valAt_cons (l := t), if_pos rfl, valAt_of_lt (l := (i, v) :: s)]
      intro e he
      rcases List.mem_cons.1 he with rfl | he
      · exact hlt
      · exact hlt.trans (hl.1 e he)
    · show F (valAt ((i, v) :: s) j) (valAt t j) = 0
      rw [valAt_of_lt ht.1, valAt_of_lt (l := (i, v) :: s), hF]
      intro e he
      rcases List.mem_cons.1 he with rfl | he
      · exact hlt
      · exact hlt.trans (hl.1 e he)
    · intro k hk
      rw [valAt_cons (l := t), if_neg (Ne.symm hk)]

omit [IsStrictOrderedRing K] in
theorem mergeBoth_length {N : Nat} (l t : List (Nat × K)) : ∀ {a : Nat}, Srt l → Srt t → (∀ e ∈ l, a ≤ e.1 ∧ e.1 < N) →
    (∀ e ∈ t, a ≤ e.1 ∧ e.1 < N) → (mergeBoth l t).length + a ≤ max N a := by
  fun_induction mergeBoth l t with
  | case1 t => intro a _ _ _ _; simp
  | case2 e l => intro a _ _ _ _; simp
  | case3 v s j d t ih =>
    intro a hl ht bl bt
    rw [srt_cons] at hl ht
    have hj := bl (j, v) (by simp)
    have := ih (a := j + 1) hl.2 ht.2 (fun e he => ⟨hl.1 e he, (bl e (by simp [he])).2⟩) (fun e he => ⟨ht.1 e he, (bt e (by simp [he])).2⟩)
    simp only [List.length_cons] at this ⊢
    omega
  | case4 i v s j d t hij hlt ih =>
    intro a hl ht bl bt
    have ht' := ht
    rw [srt_cons] at hl ht
    have hj := bl (i, v) (by simp)
    have := ih (a := i + 1) hl.2 ht' (fun e he => ⟨hl.1 e he, (bl e (by simp [he])).2⟩) (fun e he => ⟨by
      rcases List.mem_cons.1 he with rfl | he
      · exact hlt
      · exact hlt.trans (ht.1 e he), (bt e he).2⟩)
    simp only [List.length_cons] at this ⊢
    omega
  | case5 i v s j d t hij hlt ih =>
    intro a hl ht bl bt
    have hl' := hl
    have hlt : j < i := by omega
    rw [srt_cons] at hl ht
    have hj := bt (j, d) (by simp)
    have := ih (a := j + 1) hl' ht.2 (fun e he => ⟨by
      rcases List.mem_cons.1 he with rfl | he
      · exact hlt
      · exact hlt.trans (hl.1 e he), (bl e he).2⟩) (fun e he => ⟨ht.1 e he, (bt e (by simp [he])).2⟩)
    simp only [List.length_cons] at this ⊢
    omega

/-! ### hinges -/

/-- total change of slope up to `beta` -/
def hinges (bps : List (BreakPoint K)) (beta : K) : K := (bps.map fun b => b.slopeChange * max (beta - b.point) 0).sum

/-- the function described by violation, slope and break points -/
def BpState.eval (s : BpState K) (beta : K) : K := s.viol + s.slope * beta + hinges s.bps beta

omit [IsStrictOrderedRing K] in
theorem hinges_append (a b : List (BreakPoint K)) (beta : K) : hinges (a ++ b) beta = hinges a beta + hinges b beta := by
  simp [hinges]

omit [IsStrictOrderedRing K] in
theorem hinges_perm {a b : List (BreakPoint K)} (h : a.Perm b) (beta : K) : hinges a beta = hinges b beta :=
  (h.map _).sum_eq

theorem hinges_before {bps : List (BreakPoint K)} {beta : K} (h : ∀ b ∈ bps, beta ≤ b.point) : hinges bps beta = 0 := by
  refine List.sum_eq_zero fun x hx => ?_
  obtain ⟨b, hb, rfl⟩ := List.mem_map.1 hx
  rw [max_eq_right (sub_nonpos.2 (h b hb)), mul_zero]

theorem bpOf_range {v d : K} {b : BreakPoint K} (h : b ∈ bpOf v d) : 0 ≤ b.point ∧ b.point ≤ 1 := by
  unfold bpOf at h
  split_ifs at h with h1 h2 h3 h2 h3 <;> simp only [List.mem_singleton, List.not_mem_nil] at h
  · subst h
    exact ⟨div_nonneg_of_nonpos (by linarith) h2.le, h3⟩
  · subst h
    exact ⟨div_nonneg (by linarith) h2.le, h3⟩

/-- the positive part of a linear function in terms of its break point -/
theorem hinge_eq (v d : K) {beta : K} (h0 : 0 ≤ beta) (h1 : beta ≤ 1) :
    max (v + beta * d) 0 = max v 0 + (if 0 ≤ v then d else 0) * beta + hinges (bpOf v d) beta := by
  unfold bpOf hinges
  by_cases hv : 0 ≤ v
  · rw [if_pos hv, if_pos hv, max_eq_left hv]
    by_cases hd : d < 0
    · rw [if_pos hd]
      have key : ∀ x : K, d * (x - -v / d) = v + x * d := by
        intro x
        rw [mul_sub, mul_div_cancel₀ _ hd.ne]; ring
      by_cases hb : -v / d ≤ 1
      · rw [if_pos hb]
        simp only [List.map_cons, List.map_nil, List.sum_cons, List.sum_nil, add_zero]
        by_cases hx : -v / d ≤ beta
        · have h2 : v + beta * d ≤ 0 := by rw [← key]; exact mul_nonpos_of_nonpos_of_nonneg hd.le (sub_nonneg.2 hx)
          rw [max_eq_right h2, max_eq_left (sub_nonneg.2 hx), neg_mul, key]; ring
        · have hx := (not_le.1 hx).le
          have h2 : 0 ≤ v + beta * d := by rw [← key]; exact mul_nonneg_of_nonpos_of_nonpos hd.le (sub_nonpos.2 hx)
          rw [max_eq_left h2, max_eq_right (sub_nonpos.2 hx)]; ring
      · rw [if_neg hb]
        have hx : beta ≤ -v / d := h1.trans (not_le.1 hb).le
        have h2 : 0 ≤ v + beta * d := by rw [← key]; exact mul_nonneg_of_nonpos_of_nonpos hd.le (sub_nonpos.2 hx)
        rw [max_eq_left h2]; simp; ring
    · rw [if_neg hd, max_eq_left (add_nonneg hv (mul_nonneg h0 (not_lt.1 hd)))]
      simp; ring
  · have hv' := not_le.1 hv
    rw [if_neg hv, if_neg hv, max_eq_right hv'.le]
    by_cases hd : 0 < d
    · rw [if_pos hd]
      have key : ∀ x : K, d * (x - -v / d) = v + x * d := by
        intro x
        rw [mul_sub, mul_div_cancel₀ _ hd.ne']; ring
      by_cases hb : -v / d ≤ 1
      · rw [if_pos hb]
        simp only [List.map_cons, List.map_nil, List.sum_cons, List.sum_nil, add_zero, zero_mul, zero_add]
        rw [← key]
        by_cases hx : -v / d ≤ beta
        · rw [max_eq_left (sub_nonneg.2 hx), max_eq_left (mul_nonneg hd.le (sub_nonneg.2 hx))]
        · have hx := (not_le.1 hx).le
          rw [max_eq_right (sub_nonpos.2 hx), mul_zero, max_eq_right (mul_nonpos_of_nonneg_of_nonpos hd.le (sub_nonpos.2 hx))]
      · rw [if_neg hb]
        have hx : beta ≤ -v / d := h1.trans (not_le.1 hb).le
        rw [← key, max_eq_right (mul_nonpos_of_nonneg_of_nonpos hd.le (sub_nonpos.2 hx))]; simp
    · rw [if_neg hd, max_eq_right (by have := mul_nonneg h0 (neg_nonneg.2 (not_lt.1 hd)); linarith)]
      simp

theorem collect_eval (L : List (K × K)) {beta : K} (h0 : 0 ≤ beta) (h1 : beta ≤ 1) : ∀ s : BpState K,
    (L.foldl collectBody s).eval beta = s.eval beta + (L.map fun x => max (x.1 + beta * x.2) 0).sum := by
  induction L with
  | nil => intro s; simp
  | cons x L ih =>
    intro s
    rw [List.foldl_cons, ih, List.map_cons, List.sum_cons, hinge_eq x.1 x.2 h0 h1]
    unfold BpState.eval collectBody
    rw [hinges_append]
    split <;> ring

theorem collect_range (L : List (K × K)) : ∀ s : BpState K, (∀ b ∈ s.bps, 0 ≤ b.point ∧ b.point ≤ 1) →
    ∀ b ∈ (L.foldl collectBody s).bps, 0 ≤ b.point ∧ b.point ≤ 1 := by
  induction L with
  | nil => intro s h; exact h
  | cons x L ih =>
    intro s h
    rw [List.foldl_cons]
    refine ih _ fun b hb => ?_
    rcases List.mem_append.1 hb with hb | hb
    · exact h b hb
    · exact bpOf_range hb

omit [IsStrictOrderedRing K] in
theorem collect_length (L : List (K × K)) : ∀ s : BpState K, (L.foldl collectBody s).bps.length ≤ s.bps.length + L.length := by
  induction L with
  | nil => intro s; simp
  | cons x L ih =>
    intro s
    rw [List.foldl_cons]
    refine (ih _).trans ?_
    have : (bpOf x.1 x.2).length ≤ 1 := by unfold bpOf; split_ifs <;> simp
    simp only [collectBody, List.length_append, List.length_cons]
    omega

/-! ### minimum over the pieces -/

/-- a quadratic function on an interval is bounded below by its values at the ends and at an inner stationary point -/
theorem quad_min (o l q last a b beta M : K) (h1 : a ≤ beta) (h2 : beta ≤ b)
    (ha : M ≤ o + l * (a - last) + 1 / 2 * a * q * a) (hb : M ≤ o + l * (b - last) + 1 / 2 * b * q * b)
    (hs : q ≠ 0 → a ≤ -1 * l / q → -1 * l / q ≤ b → M ≤ o + l * (-1 * l / q - last) + 1 / 2 * (-1 * l / q) * q * (-1 * l / q)) :
    M ≤ o + l * (beta - last) + 1 / 2 * beta * q * beta := by
  rcases le_or_gt q 0 with hq | hq
  · rcases h1.eq_or_lt with rfl | h1'
    · exact ha
    · have hab : 0 < b - a := by linarith
      -- concave: above the chord
      refine le_of_mul_le_mul_right ?_ hab
      have e1 := mul_le_mul_of_nonneg_right ha (sub_nonneg.2 h2)
      have e2 := mul_le_mul_of_nonneg_right hb (sub_nonneg.2 h1)
      have e3 : 0 ≤ 1 / 2 * (-q) * ((beta - a) * (b - beta) * (b - a)) :=
        mul_nonneg (mul_nonneg (by norm_num) (by linarith)) (mul_nonneg (mul_nonneg (sub_nonneg.2 h1) (sub_nonneg.2 h2)) hab.le)
      nlinarith [e1, e2, e3]
  · have hl : l = -(q * (-1 * l / q)) := by rw [mul_div_cancel₀ _ hq.ne']; ring
    set z := -1 * l / q with hz
    have hdiff : ∀ x y : K, (o + l * (x - last) + 1 / 2 * x * q * x) - (o + l * (y - last) + 1 / 2 * y * q * y) =
        1 / 2 * q * ((x - y) * ((x - z) + (y - z))) := by
      intro x y
      rw [hl]; ring
    have hq2 : (0 : K) ≤ 1 / 2 * q := by positivity
    by_cases za : a ≤ z
    · by_cases zb : z ≤ b
      · have := hdiff beta z
        have h3 : (0 : K) ≤ 1 / 2 * q * ((beta - z) * ((beta - z) + (z - z))) := by
          rw [sub_self, add_zero]; exact mul_nonneg hq2 (mul_self_nonneg _)
        have := hs hq.ne' za zb
        linarith
      · have := hdiff beta b
        have h3 : (0 : K) ≤ 1 / 2 * q * ((beta - b) * ((beta - z) + (b - z))) :=
          mul_nonneg hq2 (mul_nonneg_of_nonpos_of_nonpos (by linarith) (by linarith [not_le.1 zb]))
        linarith
    · have := hdiff beta a
      have h3 : (0 : K) ≤ 1 / 2 * q * ((beta - a) * ((beta - z) + (a - z))) :=
        mul_nonneg hq2 (mul_nonneg (by linarith) (by linarith [not_le.1 za]))
      linarith

/-- state of the loop: `phi` is the function to minimise, `rest` the remaining break points -/
structure ExactInv (phi : K → K) (pen q : K) (s : ExactLs K) (rest : List (BreakPoint K)) : Prop where
  last : 0 ≤ s.last
  eq : ∀ beta, s.last ≤ beta → phi beta = s.at q beta + pen * hinges rest beta
  low : 0 ≤ s.minAlpha
  high : s.minAlpha ≤ s.last
  value : s.minValue = phi s.minAlpha
  min : ∀ beta, 0 ≤ beta → beta ≤ s.last → s.minValue ≤ phi beta

omit [Field K] [IsStrictOrderedRing K] in
theorem keep_spec (s : ExactLs K) (a v : K) : (s.keep a v).minValue = min v s.minValue ∧
    ((s.keep a v).minAlpha = a ∧ (s.keep a v).minValue = v ∨ (s.keep a v).minAlpha = s.minAlpha ∧ (s.keep a v).minValue = s.minValue) := by
  unfold ExactLs.keep
  split
  · rename_i h; exact ⟨(min_eq_left h.le).symm, Or.inl ⟨rfl, rfl⟩⟩
  · rename_i h; exact ⟨(min_eq_right (not_lt.1 h)).symm, Or.inr ⟨rfl, rfl⟩⟩

theorem exactPass_spec {phi : K → K} {pen q : K} {s : ExactLs K} {b : BreakPoint K} {rest : List (BreakPoint K)}
    (h : ExactInv phi pen q s (b :: rest)) (hb : s.last ≤ b.point) (hr : ∀ x ∈ rest, b.point ≤ x.point) :
    ∃ s', exactPass pen q s b = some s' ∧ ExactInv phi pen q s' rest ∧ s'.last = b.point := by
  have hphi : ∀ beta, s.last ≤ beta → beta ≤ b.point → phi beta = s.at q beta := by
    intro beta h1 h2
    rw [h.eq beta h1, hinges_before, mul_zero, add_zero]
    intro x hx
    rcases List.mem_cons.1 hx with rfl | hx
    · exact h2
    · exact h2.trans (hr x hx)
  set z := -1 * s.linear / q with hz
  obtain ⟨s1, hs1⟩ : ∃ s1, s1 = (if q ≠ 0 then (if s.last ≤ z ∧ z ≤ b.point then s.keep z (s.at q z) else s) else s) := ⟨_, rfl⟩
  -- after the stationary point
  have k1 : 0 ≤ s1.minAlpha ∧ s1.minAlpha ≤ b.point ∧ s1.minValue = phi s1.minAlpha ∧ s1.minValue ≤ s.minValue ∧
      (q ≠ 0 → s.last ≤ z → z ≤ b.point → s1.minValue ≤ s.at q z) := by
    have base : 0 ≤ s.minAlpha ∧ s.minAlpha ≤ b.point ∧ s.minValue = phi s.minAlpha ∧ s.minValue ≤ s.minValue :=
      ⟨h.low, h.high.trans hb, h.value, le_rfl⟩
    by_cases hq : q ≠ 0
    · by_cases hzz : s.last ≤ z ∧ z ≤ b.point
      · rw [if_pos hq, if_pos hzz] at hs1
        obtain ⟨m1, m2⟩ := keep_spec s z (s.at q z)
        rw [← hs1] at m1 m2
        have hle : s1.minValue ≤ s.minValue := by rw [m1]; exact min_le_right _ _
        have hle2 : s1.minValue ≤ s.at q z := by rw [m1]; exact min_le_left _ _
        rcases m2 with ⟨e1, e2⟩ | ⟨e1, e2⟩
        · exact ⟨by rw [e1]; exact h.last.trans hzz.1, by rw [e1]; exact hzz.2, by rw [e1, e2, hphi z hzz.1 hzz.2], hle, fun _ _ _ => hle2⟩
        · exact ⟨by rw [e1]; exact base.1, by rw [e1]; exact base.2.1, by rw [e1, e2]; exact base.2.2.1, hle, fun _ _ _ => hle2⟩
      · rw [if_pos hq, if_neg hzz] at hs1
        subst hs1
        exact ⟨base.1, base.2.1, base.2.2.1, le_rfl, fun _ a c => absurd ⟨a, c⟩ hzz⟩
    · rw [if_neg hq] at hs1
      subst hs1
      exact ⟨base.1, base.2.1, base.2.2.1, le_rfl, fun a => absurd a hq⟩
  obtain ⟨m1, m2⟩ := keep_spec s1 b.point (s.at q b.point)
  set s2 := s1.keep b.point (s.at q b.point) with hs2
  have hle : s2.minValue ≤ s1.minValue := by rw [m1]; exact min_le_right _ _
  have hle2 : s2.minValue ≤ s.at q b.point := by rw [m1]; exact min_le_left _ _
  refine ⟨⟨s2.minValue, s2.minAlpha, b.point, s.offset + (b.point - s.last) * s.linear, s.linear + pen * b.slopeChange⟩, ?_, ?_, rfl⟩
  · unfold exactPass
    rw [if_pos hb]
    simp only [← hz, ← hs1, ← hs2]
  · refine ⟨h.last.trans hb, ?_, ?_, ?_, ?_, ?_⟩
    · intro beta hbeta
      have hbeta : b.point ≤ beta := hbeta
      rw [h.eq beta (hb.trans hbeta)]
      unfold ExactLs.at hinges
      rw [List.map_cons, List.sum_cons, max_eq_left (sub_nonneg.2 hbeta)]
      ring
    · show 0 ≤ s2.minAlpha
      rcases m2 with ⟨e1, e2⟩ | ⟨e1, e2⟩
      · rw [e1]; exact h.last.trans hb
      · rw [e1]; exact k1.1
    · show s2.minAlpha ≤ b.point
      rcases m2 with ⟨e1, e2⟩ | ⟨e1, e2⟩
      · rw [e1]
      · rw [e1]; exact k1.2.1
    · show s2.minValue = phi s2.minAlpha
      rcases m2 with ⟨e1, e2⟩ | ⟨e1, e2⟩
      · rw [e1, e2, hphi _ hb le_rfl]
      · rw [e1, e2]; exact k1.2.2.1
    · intro beta h0 h1
      show s2.minValue ≤ phi beta
      have h1 : beta ≤ b.point := h1
      rcases le_total beta s.last with h2 | h2
      · exact (hle.trans k1.2.2.2.1).trans (h.min beta h0 h2)
      · rw [hphi beta h2 h1]
        refine quad_min s.offset s.linear q s.last s.last b.point beta _ h2 h1 ?_ hle2 ?_
        · have := h.min s.last h.last le_rfl
          rw [hphi s.last le_rfl hb] at this
          exact (hle.trans k1.2.2.2.1).trans this
        · intro hq z1 z2
          exact hle.trans (k1.2.2.2.2 hq z1 z2)

theorem exactLoop_spec {phi : K → K} {pen q : K} (rest : List (BreakPoint K)) : ∀ {s : ExactLs K}, ExactInv phi pen q s rest →
    (∀ b ∈ rest, s.last ≤ b.point) → rest.Pairwise (fun a b => a.point ≤ b.point) →
    ∃ s', rest.foldlM (exactPass pen q) s = some s' ∧ ExactInv phi pen q s' [] ∧ s.last ≤ s'.last ∧ (∀ b ∈ rest, b.point ≤ s'.last) ∧
      (s'.last = s.last ∨ ∃ b ∈ rest, s'.last = b.point) := by
  induction rest with
  | nil => intro s h _ _; exact ⟨s, rfl, h, le_rfl, by simp, Or.inl rfl⟩
  | cons b rest ih =>
    intro s h h1 h2
    rw [List.pairwise_cons] at h2
    obtain ⟨s1, p1, p2, p3⟩ := exactPass_spec h (h1 b (by simp)) h2.1
    obtain ⟨s', q1, q2, q3, q4, q5⟩ := ih p2 (by rw [p3]; exact h2.1) h2.2
    refine ⟨s', ?_, q2, ?_, ?_, ?_⟩
    · rw [List.foldlM_cons, p1]; exact q1
    · exact (by rw [p3] at q3; exact (h1 b (by simp)).trans q3)
    · intro x hx
      rcases List.mem_cons.1 hx with rfl | hx
      · rw [p3] at q3; exact q3
      · exact q4 x hx
    · right
      rcases q5 with q5 | ⟨x, hx, q5⟩
      · exact ⟨b, by simp, by rw [q5, p3]⟩
      · exact ⟨x, by simp [hx], q5⟩

/-! ### C45 -/

/-- the loop over two sparse vectors stops at the end of the shorter one; what it skips is irrelevant: beyond the end of `d` there is no
positive entry of `v`, and beyond the end of `v` there is no positive entry of `d` -/
def Covered (v d : Fin m → K) : Prop := ∀ i, ((∀ j, i ≤ j → d j = 0) → v i ≤ 0) ∧ ((∀ j, i ≤ j → v j = 0) → d i ≤ 0)

/-- `qsort` returns a sorted permutation -/
def SortOk (sort : List (BreakPoint K) → List (BreakPoint K)) : Prop :=
  ∀ l, (sort l).Perm l ∧ (sort l).Pairwise fun a b => a.point ≤ b.point

theorem merge_covered {v d : Vec K} (hv : VOk m v) (hd : VOk m d) (h : Covered (dense m v) (dense m d)) {beta : K} (h0 : 0 ≤ beta) :
    ((mergeBoth v.ents d.ents).map fun x => max (x.1 + beta * x.2) 0).sum = ∑ i, max (dense m v i + beta * dense m d i) 0 := by
  have bv := fun e he => lt_of_lt_of_eq (hv.1.lt_dim e he) hv.2
  have bd := fun e he => lt_of_lt_of_eq (hd.1.lt_dim e he) hd.2
  rw [mergeBoth_sum (fun a b => max (a + beta * b) 0) (by simp) v.ents d.ents hv.1.srt hd.1.srt bv bd, Finset.sum_range]
  · rfl
  · intro e he hlast
    have := (h ⟨e.1, bv e he⟩).1 fun j hj => valAt_of_ge (n := j.val) (fun e' he' => lt_of_lt_of_le (hlast e' he') hj) le_rfl
    have h2 : dense m v ⟨e.1, bv e he⟩ = e.2 := valAt_of_mem hv.1.srt he
    rw [h2] at this
    show max (e.2 + beta * 0) 0 = 0
    rw [mul_zero, add_zero, max_eq_right this]
  · intro e he hlast
    have := (h ⟨e.1, bd e he⟩).2 fun j hj => valAt_of_ge (n := j.val) (fun e' he' => lt_of_lt_of_le (hlast e' he') hj) le_rfl
    have h2 : dense m d ⟨e.1, bd e he⟩ = e.2 := valAt_of_mem hd.1.srt he
    rw [h2] at this
    show max (0 + beta * e.2) 0 = 0
    rw [zero_add, max_eq_right (mul_nonpos_of_nonneg_of_nonpos h0 this)]

theorem viol_split {x l u : K} (h : l ≤ u) : viol x l u = max (x - u) 0 + max (l - x) 0 := by
  unfold viol
  rcases le_total x u with h1 | h1
  · rw [max_eq_right (sub_nonpos.2 h1), zero_add]
    rcases le_total l x with h2 | h2
    · rw [max_eq_right (sub_nonpos.2 h2), max_eq_right (max_le (sub_nonpos.2 h2) (sub_nonpos.2 h1))]
    · rw [max_eq_left (by linarith : x - u ≤ l - x)]
  · rw [max_eq_right (by linarith : l - x ≤ x - u), max_eq_right (by linarith : l - x ≤ 0), add_zero]

/-- the break points describe the violation between the steps -/
theorem computeBreakpoints_spec {q : LocalModel n m K} {e : MeritEnv K} (he : EnvFor q e) {sort : List (BreakPoint K) → List (BreakPoint K)}
    (hsort : SortOk sort) {cc jac : Vec K} (hc : VOk m cc) (hj : VOk m jac)
    (hup : Covered (dense m cc - q.ub) (dense m jac)) (hlo : Covered (q.lb - dense m cc) (-dense m jac)) :
    ∃ s, computeBreakpoints e sort cc jac = some s ∧ s.bps.length ≤ 2 * m + 1 ∧ s.bps.Pairwise (fun a b => a.point ≤ b.point) ∧
      (∀ b ∈ s.bps, 0 ≤ b.point ∧ b.point ≤ 1) ∧ (∃ b ∈ s.bps, b.point = 1) ∧
      ∀ beta, 0 ≤ beta → beta ≤ 1 →
        s.eval beta = ∑ i, viol (dense m cc i + beta * dense m jac i) (q.lb i) (q.ub i) := by
  obtain ⟨vu, a1, a2, a3⟩ := addScaled_dense (r0 := e.work) (1 : K) (-1) hc he.okU
  obtain ⟨vl, b1, b2, b3⟩ := addScaled_dense (r0 := e.work) (-1 : K) 1 hc he.okL
  obtain ⟨j1, j2⟩ := scale_dense hj (-1)
  have hu : dense m vu = dense m cc - q.ub := by rw [a3, he.ub, one_smul, neg_one_smul, sub_eq_add_neg]
  have hl : dense m vl = q.lb - dense m cc := by rw [b3, he.lb, one_smul, neg_one_smul, sub_eq_add_neg, add_comm]
  have hj' : dense m (jac.scale (-1)) = -dense m jac := by rw [j2, neg_one_smul]
  have hlen : ∀ {v d : Vec K}, VOk m v → VOk m d → (mergeBoth v.ents d.ents).length ≤ m := by
    intro v d hv hd
    have := mergeBoth_length (N := m) v.ents d.ents (a := 0) hv.1.srt hd.1.srt
      (fun e he => ⟨Nat.zero_le _, lt_of_lt_of_eq (hv.1.lt_dim e he) hv.2⟩)
      (fun e he => ⟨Nat.zero_le _, lt_of_lt_of_eq (hd.1.lt_dim e he) hd.2⟩)
    simpa using this
  obtain ⟨s1, hs1⟩ : ∃ s1, s1 = collectBreakpoints (⟨[], 0, 0⟩ : BpState K) vu jac := ⟨_, rfl⟩
  obtain ⟨s2, hs2⟩ : ∃ s2, s2 = collectBreakpoints s1 vl (jac.scale (-1)) := ⟨_, rfl⟩
  obtain ⟨p1, p2⟩ := hsort (s2.bps ++ [⟨1, 0⟩])
  have r1 : ∀ b ∈ s1.bps, 0 ≤ b.point ∧ b.point ≤ 1 := by rw [hs1]; exact collect_range _ _ (by simp)
  have r2 : ∀ b ∈ s2.bps, 0 ≤ b.point ∧ b.point ≤ 1 := by rw [hs2]; exact collect_range _ _ r1
  refine ⟨⟨sort (s2.bps ++ [⟨1, 0⟩]), s2.viol, s2.slope⟩, ?_, ?_, p2, ?_, ?_, ?_⟩
  · unfold computeBreakpoints
    rw [he.eps, a1, Option.bind_some, b1, Option.bind_some]
    simp only [← hs1, ← hs2]
  · show (sort (s2.bps ++ [⟨1, 0⟩])).length ≤ _
    rw [p1.length_eq, List.length_append]
    have l1 : s1.bps.length ≤ 0 + m := by
      rw [hs1]; exact (collect_length _ _).trans (Nat.add_le_add le_rfl (hlen a2 hj))
    have l2 : s2.bps.length ≤ s1.bps.length + m := by
      rw [hs2]; exact (collect_length _ _).trans (Nat.add_le_add le_rfl (hlen b2 j1))
    simp only [List.length_singleton]
    omega
  · intro b hb
    rcases List.mem_append.1 (p1.mem_iff.1 hb) with hb | hb
    · exact r2 b hb
    · rw [List.mem_singleton] at hb; subst hb; exact ⟨zero_le_one, le_rfl⟩
  · exact ⟨⟨1, 0⟩, p1.mem_iff.2 (by simp), rfl⟩
  · intro beta h0 h1
    have e1 : (⟨sort (s2.bps ++ [⟨1, 0⟩]), s2.viol, s2.slope⟩ : BpState K).eval beta = s2.eval beta := by
      unfold BpState.eval
      simp only
      rw [hinges_perm p1, hinges_append]
      simp [hinges]
    rw [e1, hs2]
    unfold collectBreakpoints
    rw [collect_eval _ h0 h1, hs1]
    unfold collectBreakpoints
    rw [collect_eval _ h0 h1, merge_covered a2 hj (by rw [hu]; exact hup) h0,
      merge_covered b2 j1 (by rw [hl, hj']; exact hlo) h0, hu, hl, hj']
    have e2 : (⟨[], 0, 0⟩ : BpState K).eval beta = 0 := by simp [BpState.eval, hinges]
    rw [e2, zero_add, ← Finset.sum_add_distrib]
    refine Finset.sum_congr rfl fun i _ => ?_
    rw [viol_split (he.le i)]
    simp only [Pi.sub_apply, Pi.neg_apply]
    congr 2 <;> ring

/-- C45: the exact line search returns the step length in [0,1] that minimises the quadratic merit model between Cauchy step and Newton step,
together with the corresponding direction and merit value. (Missing: the loop collecting the break points stops when one of the two sparse
vectors is exhausted, so `Covered` is needed, see `C45_minimum_violated`.) -/
theorem C45_minimum_partial {q : LocalModel n m K} (hH : q.H.IsSymm) {e : MeritEnv K} (he : EnvFor q e) {C N T : Dir K} {c d : Fin n → K}
    (hC : DirFor q C c) (hN : DirFor q N d) {grad work : Vec K} (hg : VOk n grad) (hgq : dense n grad = q.g)
    {sort : List (BreakPoint K) → List (BreakPoint K)} (hsort : SortOk sort)
    (hup : Covered (fun i => q.c i + (q.J *ᵥ c) i - q.ub i) (q.J *ᵥ (d - c)))
    (hlo : Covered (fun i => q.lb i - (q.c i + (q.J *ᵥ c) i)) (-(q.J *ᵥ (d - c)))) :
    ∃ r, trialStepExact e grad sort C N work T = some r ∧ 0 ≤ r.alpha ∧ r.alpha ≤ 1 ∧
      DirFor q r.dir ((1 - r.alpha) • c + r.alpha • d) ∧ r.merit = q.quad ((1 - r.alpha) • c + r.alpha • d) ∧
      ∀ beta : K, 0 ≤ beta → beta ≤ 1 → r.merit ≤ q.quad ((1 - beta) • c + beta • d) := by
  obtain ⟨cc, a1, a2, a3⟩ := addScaled_dense (r0 := e.work) (1 : K) 1 he.okC hC.okC
  obtain ⟨df, b1, b2, b3⟩ := addScaled_dense (r0 := work) (1 : K) (-1) hN.okP hC.okP
  obtain ⟨jac, j1, j2, j3⟩ := addScaled_dense (r0 := e.work) (1 : K) (-1) hN.okC hC.okC
  have hcc : dense m cc = fun i => q.c i + (q.J *ᵥ c) i := by
    rw [a3, he.c, hC.jac, one_smul, one_smul]; rfl
  have hdf : dense n df = d - c := by rw [b3, hN.primal, hC.primal, one_smul, neg_one_smul, sub_eq_add_neg]
  have hjac : dense m jac = q.J *ᵥ (d - c) := by rw [j3, hN.jac, hC.jac, one_smul, neg_one_smul, mulVec_sub, sub_eq_add_neg]
  obtain ⟨s, s1, -, s3, s4, s5, s6⟩ := computeBreakpoints_spec he hsort a2 j2 (by rw [hcc, hjac]; exact hup) (by rw [hcc, hjac]; exact hlo)
  obtain ⟨off, hoff⟩ : ∃ off, off = e.objVal + q.g ⬝ᵥ c + 1 / 2 * (c ⬝ᵥ q.H *ᵥ c) + e.penalty * s.viol := ⟨_, rfl⟩
  obtain ⟨lin, hlin⟩ : ∃ lin, lin = q.g ⬝ᵥ (d - c) + (d - c) ⬝ᵥ q.H *ᵥ c + e.penalty * s.slope := ⟨_, rfl⟩
  obtain ⟨cur, hcur⟩ : ∃ cur, cur = (d - c) ⬝ᵥ q.H *ᵥ d - (d - c) ⬝ᵥ q.H *ᵥ c := ⟨_, rfl⟩
  -- the function minimised by the loop
  obtain ⟨phi, hphi⟩ : ∃ phi : K → K, phi = fun beta => off + lin * beta + 1 / 2 * beta * cur * beta + e.penalty * hinges s.bps beta :=
    ⟨_, rfl⟩
  have hquad : ∀ beta, 0 ≤ beta → beta ≤ 1 → phi beta = q.quad (segment c d beta) := by
    intro beta h0 h1
    have hv : s.viol + s.slope * beta + hinges s.bps beta = q.viol (segment c d beta) := by
      rw [show s.viol + s.slope * beta + hinges s.bps beta = s.eval beta from rfl, s6 beta h0 h1, hcc, hjac]
      unfold LocalModel.viol
      refine Finset.sum_congr rfl fun i _ => ?_
      congr 1
      unfold segment
      simp only [mulVec_add, mulVec_sub, mulVec_smul, Pi.add_apply, Pi.sub_apply, Pi.smul_apply, smul_eq_mul]
      ring
    unfold LocalModel.quad LocalModel.lin
    rw [← hv, segment_curv hH, hphi, hoff, hlin, hcur, he.f, he.pen]
    have hs := symm_dot hH c d
    unfold segment
    simp only [mulVec_sub, sub_dotProduct, dotProduct_sub, dotProduct_add, dotProduct_smul, smul_eq_mul, hs]
    ring
  obtain ⟨s', f1, f2, f3, f4, f5⟩ := exactLoop_spec (phi := phi) (pen := e.penalty) (q := cur) s.bps (s := ⟨off, 0, 0, off, lin⟩) (by
    refine ⟨le_rfl, ?_, le_rfl, le_rfl, ?_, ?_⟩
    · intro beta _
      rw [hphi]
      unfold ExactLs.at
      ring
    · rw [hphi]
      show off = off + lin * 0 + 1 / 2 * 0 * cur * 0 + e.penalty * hinges s.bps 0
      rw [hinges_before fun b hb => (s4 b hb).1]; ring
    · intro beta h0 h1
      have : beta = 0 := le_antisymm h1 h0
      rw [this, hphi]
      show off ≤ off + lin * 0 + 1 / 2 * 0 * cur * 0 + e.penalty * hinges s.bps 0
      rw [hinges_before fun b hb => (s4 b hb).1]
      exact le_of_eq (by ring)) (fun b hb => (s4 b hb).1) s3
  have hlast : s'.last = 1 := by
    obtain ⟨b, hb, hb1⟩ := s5
    refine le_antisymm ?_ (by rw [← hb1]; exact f4 b hb)
    rcases f5 with f5 | ⟨x, hx, f5⟩
    · rw [f5]; exact zero_le_one
    · rw [f5]; exact (s4 x hx).2
  have hhigh : s'.minAlpha ≤ 1 := by rw [← hlast]; exact f2.high
  obtain ⟨D', g1, g2⟩ := C62_add_scaled (R := T) hC hN (1 - s'.minAlpha) s'.minAlpha
  refine ⟨⟨D', s'.minAlpha, s'.minValue⟩, ?_, f2.low, hhigh, g2, ?_, ?_⟩
  · unfold trialStepExact
    rw [he.eps, a1, Option.bind_some, b1, Option.bind_some, j1, Option.bind_some, dot_dense hg hC.okP, Option.bind_some,
      dot_dense hC.okP hC.okH, Option.bind_some, dot_dense hg b2, Option.bind_some, dot_dense b2 hC.okH, Option.bind_some,
      dot_dense b2 hN.okH, Option.bind_some, s1, Option.bind_some, hgq, hC.primal, hC.hess, hN.hess, hdf, ← hoff, ← hlin, ← hcur, f1,
      Option.bind_some, g1]
    rfl
  · show s'.minValue = _
    rw [f2.value, hquad _ f2.low hhigh]; rfl
  · intro beta h0 h1
    have := f2.min beta h0 (by rw [hlast]; exact h1)
    rw [hquad beta h0 h1] at this
    exact this

/-- C45: in the same situation the trial step is not worse than the Cauchy step, nor than the Newton step. -/
theorem C45_not_worse_partial {q : LocalModel n m K} (hH : q.H.IsSymm) {e : MeritEnv K} (he : EnvFor q e) {C N T : Dir K} {c d : Fin n → K}
    (hC : DirFor q C c) (hN : DirFor q N d) {grad work : Vec K} (hg : VOk n grad) (hgq : dense n grad = q.g)
    {sort : List (BreakPoint K) → List (BreakPoint K)} (hsort : SortOk sort)
    (hup : Covered (fun i => q.c i + (q.J *ᵥ c) i - q.ub i) (q.J *ᵥ (d - c)))
    (hlo : Covered (fun i => q.lb i - (q.c i + (q.J *ᵥ c) i)) (-(q.J *ᵥ (d - c)))) :
    ∃ r, trialStepExact e grad sort C N work T = some r ∧ r.merit ≤ q.quad c ∧ r.merit ≤ q.quad d := by
  obtain ⟨r, h1, -, -, -, -, h6⟩ := C45_minimum_partial (T := T) (work := work) hH he hC hN hg hgq hsort hup hlo
  refine ⟨r, h1, ?_, ?_⟩
  · have := h6 0 le_rfl zero_le_one
    simpa using this
  · have := h6 1 zero_le_one le_rfl
    simpa using this

/-- C45: the array of break points, with `2 m + 1` elements, is large enough. (No condition on the sparse vectors is needed.) -/
theorem C45_room {e : MeritEnv K} {sort : List (BreakPoint K) → List (BreakPoint K)} (hsort : SortOk sort) {cc jac : Vec K}
    (hc : VOk m cc) (hj : VOk m jac) (hl : VOk m e.consLb) (hu : VOk m e.consUb) (he : 0 ≤ e.zeroEps) :
    ∃ s, computeBreakpoints e sort cc jac = some s ∧ s.bps.length ≤ 2 * m + 1 := by
  obtain ⟨vu, a1, a2, a3, -⟩ := C03_add_scaled cc e.consUb e.work 1 (-1) e.zeroEps hc.1 hu.1 (by rw [hc.2, hu.2]) he
  obtain ⟨vl, b1, b2, b3, -⟩ := C03_add_scaled cc e.consLb e.work (-1) 1 e.zeroEps hc.1 hl.1 (by rw [hc.2, hl.2]) he
  replace a2 : VOk m vu := ⟨a2, a3.trans hc.2⟩
  replace b2 : VOk m vl := ⟨b2, b3.trans hc.2⟩
  obtain ⟨j1, -⟩ := scale_dense hj (-1)
  have hlen : ∀ {v d : Vec K}, VOk m v → VOk m d → (mergeBoth v.ents d.ents).length ≤ m := by
    intro v d hv hd
    have := mergeBoth_length (N := m) v.ents d.ents (a := 0) hv.1.srt hd.1.srt
      (fun e he => ⟨Nat.zero_le _, lt_of_lt_of_eq (hv.1.lt_dim e he) hv.2⟩)
      (fun e he => ⟨Nat.zero_le _, lt_of_lt_of_eq (hd.1.lt_dim e he) hd.2⟩)
    simpa using this
  unfold computeBreakpoints
  rw [a1, Option.bind_some, b1, Option.bind_some]
  refine ⟨_, rfl, ?_⟩
  simp only
  rw [((hsort _).1).length_eq, List.length_append]
  have l1 := (collect_length (mergeBoth vu.ents jac.ents) (⟨[], 0, 0⟩ : BpState K)).trans (Nat.add_le_add le_rfl (hlen a2 hj))
  have l2 := (collect_length (mergeBoth vl.ents (jac.scale (-1)).ents) (collectBreakpoints (⟨[], 0, 0⟩ : BpState K) vu jac)).trans
    (Nat.add_le_add le_rfl (hlen b2 j1))
  unfold collectBreakpoints at l2 ⊢
  simp only [List.length_singleton, List.length_nil] at l1 l2 ⊢
  omega

/-! ### sample and violation: one variable, one constraint `d ∈ [lb, ub]`, penalty 10, model `-d`, Cauchy step 0, Newton step 1 -/

/-- sample model -/
def exExact (ub : ℚ) : LocalModel 1 1 ℚ := ⟨0, ![-1], ![0], fun _ _ => 1, fun _ _ => 0, ![-5], ![ub], 10⟩
/-- sample environment -/
def exExactEnv (ub : Vec ℚ) : MeritEnv ℚ := ⟨1, 0, ⟨1, 0, []⟩, ⟨1, 1, [(0, -5)]⟩, ub, ⟨1, 0, []⟩, 0, 10⟩
/-- Newton step 1 -/
def exExactNewton : Dir ℚ := ⟨⟨1, 1, [(0, 1)]⟩, -1, ⟨1, 1, [(0, 1)]⟩, ⟨1, 0, []⟩⟩

theorem exExactEnvFor {ub : Vec ℚ} {u : ℚ} (h : VOk 1 ub) (hu : dense 1 ub = ![u]) (h5 : -5 ≤ u) : EnvFor (exExact u) (exExactEnv ub) :=
  ⟨rfl, rfl, exVok0, exVok _, h, exDense0, exLineDense _, hu, by
    intro i
    obtain rfl : i = 0 := Subsingleton.elim _ _
    exact h5, rfl, rfl⟩

theorem exExactCauchy (u : ℚ) : DirFor (exExact u) exCauchy ![0] :=
  ⟨exVok0, exVok0, exVok0, exDense0, by simp [exCauchy, exExact, dotProduct], by
    refine exDense0.trans (funext fun i => ?_)
    obtain rfl : i = 0 := Subsingleton.elim _ _
    simp [exExact, mulVec, dotProduct], by
    refine exDense0.trans (funext fun i => ?_)
    obtain rfl : i = 0 := Subsingleton.elim _ _
    simp [exExact, mulVec, dotProduct]⟩

theorem exExactNewtonFor (u : ℚ) : DirFor (exExact u) exExactNewton ![1] :=
  ⟨exVok _, exVok _, exVok0, exLineDense _, by simp [exExactNewton, exExact, dotProduct], by
    refine (exLineDense _).trans (funext fun i => ?_)
    obtain rfl : i = 0 := Subsingleton.elim _ _
    simp [exExact, mulVec, dotProduct], by
    refine exDense0.trans (funext fun i => ?_)
    obtain rfl : i = 0 := Subsingleton.elim _ _
    simp [exExact, mulVec, dotProduct]⟩

/-- insertion sort -/
def exSort (l : List (BreakPoint ℚ)) : List (BreakPoint ℚ) := l.insertionSort fun a b => a.point ≤ b.point

theorem exSortOk : SortOk exSort := by
  intro l
  haveI : IsTotal (BreakPoint ℚ) (fun a b => a.point ≤ b.point) := ⟨fun a b => le_total _ _⟩
  haveI : IsTrans (BreakPoint ℚ) (fun a b => a.point ≤ b.point) := ⟨fun a b c h h' => le_trans h h'⟩
  exact ⟨List.perm_insertionSort _ l, List.pairwise_insertionSort _ l⟩

/-- the upper bound 1/2 is reached half way: the hypotheses of `C45_minimum_partial` are met -/
example : ∃ r, trialStepExact (exExactEnv ⟨1, 1, [(0, 1 / 2)]⟩) ⟨1, 1, [(0, -1)]⟩ exSort exCauchy exExactNewton ⟨1, 0, []⟩ exCauchy = some r ∧
    r.merit ≤ (exExact (1 / 2)).quad ((1 - (1 / 2 : ℚ)) • ![0] + (1 / 2 : ℚ) • ![1]) := by
  obtain ⟨r, h1, -, -, -, -, h6⟩ := C45_minimum_partial (q := exExact (1 / 2)) (T := exCauchy) (work := ⟨1, 0, []⟩) rfl
    (exExactEnvFor (exVok _) (exLineDense _) (by norm_num)) (exExactCauchy _) (exExactNewtonFor _) (exVok _) (exLineDense _) exSortOk
    (by
      intro i
      obtain rfl : i = 0 := Subsingleton.elim _ _
      refine ⟨fun _ => by norm_num [exExact, mulVec, dotProduct], fun h => ?_⟩
      have := h 0 le_rfl
      norm_num [exExact, mulVec, dotProduct] at this)
    (by
      intro i
      obtain rfl : i = 0 := Subsingleton.elim _ _
      refine ⟨fun _ => by norm_num [exExact, mulVec, dotProduct], fun h => ?_⟩
      have := h 0 le_rfl
      norm_num [exExact, mulVec, dotProduct] at this)
  exact ⟨r, h1, h6 _ (by norm_num) (by norm_num)⟩

theorem exAdd00 (f g : ℚ) : Vec.addScaled ⟨1, 0, []⟩ ⟨1, 0, []⟩ f g 0 (⟨1, 0, []⟩ : Vec ℚ) = some ⟨1, 0, []⟩ := by
  have : merge2 ([] : List (Nat × ℚ)) ([] : List (Nat × ℚ)) = [] := by
    unfold merge2; rw [merge3]; rfl
  unfold Vec.addScaled
  rw [this]
  rfl

theorem exAdd10 (x f g : ℚ) (h : f * x ≠ 0) :
    Vec.addScaled ⟨1, 1, [(0, x)]⟩ ⟨1, 0, []⟩ f g 0 (⟨1, 0, []⟩ : Vec ℚ) = some ⟨1, 1, [(0, f * x)]⟩ := by
  have : merge2 ([(0, x)] : List (Nat × ℚ)) ([] : List (Nat × ℚ)) = [(0, some x, none)] := by
    unfold merge2; rw [merge3]; simp [headIdx, minIdx, takeAt]; rw [merge3]; rfl
  unfold Vec.addScaled
  rw [this]
  simp [Vec.addVal, orZero, isZero_iff, Vec.push, Vec.clear, Vec.reserve, Vec.resize, Vec.nnz, mul_ne_zero_iff.1 h]

theorem exAdd01 (y f g : ℚ) (h : g * y ≠ 0) :
    Vec.addScaled ⟨1, 0, []⟩ ⟨1, 1, [(0, y)]⟩ f g 0 (⟨1, 0, []⟩ : Vec ℚ) = some ⟨1, 1, [(0, g * y)]⟩ := by
  have : merge2 ([] : List (Nat × ℚ)) ([(0, y)] : List (Nat × ℚ)) = [(0, none, some y)] := by
    unfold merge2; rw [merge3]; simp [headIdx, minIdx, takeAt]; rw [merge3]; rfl
  unfold Vec.addScaled
  rw [this]
  simp [Vec.addVal, orZero, isZero_iff, Vec.push, Vec.clear, Vec.reserve, Vec.resize, Vec.nnz, mul_ne_zero_iff.1 h]

/-- The loop collecting the break points of the exact line search runs while *both* sparse vectors have entries left. Entries of one vector
beyond the end of the other are ignored. Here the constraint is at its upper bound at the Cauchy step, so its violation is not stored, and
moving towards the Newton step violates it. The search takes the full Newton step and reports the merit value -1, although the merit value
there is 9 and that of the Cauchy step is 0. -/
theorem C45_minimum_violated : ∃ (q : LocalModel 1 1 ℚ) (e : MeritEnv ℚ) (C N T : Dir ℚ) (c d : Fin 1 → ℚ) (grad work : Vec ℚ)
    (r : TrialRes ℚ), q.H.IsSymm ∧ EnvFor q e ∧ DirFor q C c ∧ DirFor q N d ∧ VOk 1 grad ∧ dense 1 grad = q.g ∧
      trialStepExact e grad exSort C N work T = some r ∧ r.alpha = 1 ∧ r.merit = -1 ∧ q.quad d = 9 ∧ q.quad c = 0 := by
  have he := exExactEnvFor (u := 0) exVok0 exDense0 (by norm_num)
  have hC := exExactCauchy 0
  have hN := exExactNewtonFor 0
  have hg : VOk 1 (⟨1, 1, [(0, -1)]⟩ : Vec ℚ) := exVok _
  have hb : computeBreakpoints (exExactEnv ⟨1, 0, []⟩) exSort ⟨1, 0, []⟩ ⟨1, 1, [(0, 1)]⟩ = some ⟨[⟨1, 0⟩], 0, 0⟩ := by
    unfold computeBreakpoints
    simp only [exExactEnv]
    rw [exAdd00, Option.bind_some, exAdd01 _ _ _ (by norm_num), Option.bind_some]
    unfold collectBreakpoints
    rw [mergeBoth, show (Vec.scale ⟨1, 1, [(0, (1 : ℚ))]⟩ (-1)).ents = [(0, -1)] by decide +kernel]
    simp only [mergeBoth, List.foldl_nil, List.foldl_cons, if_true]
    decide +kernel
  obtain ⟨D', g1, g2⟩ := C62_add_scaled (R := exCauchy) hC hN (1 - 1) 1
  refine ⟨exExact 0, exExactEnv ⟨1, 0, []⟩, exCauchy, exExactNewton, exCauchy, ![0], ![1], ⟨1, 1, [(0, -1)]⟩, ⟨1, 0, []⟩, ⟨D', 1, -1⟩, rfl,
    he, hC, hN, hg, exLineDense _, ?_, rfl, rfl, ?_, ?_⟩
  · unfold trialStepExact
    have e1 : (exExactEnv ⟨1, 0, []⟩).cons.addScaled exCauchy.consJac 1 1 0 (exExactEnv ⟨1, 0, []⟩).work = some ⟨1, 0, []⟩ := exAdd00 1 1
    have e2 : exExactNewton.primal.addScaled exCauchy.primal 1 (-1) 0 ⟨1, 0, []⟩ = some ⟨1, 1, [(0, 1 * 1)]⟩ := exAdd10 1 1 (-1) (by norm_num)
    have e3 : exExactNewton.consJac.addScaled exCauchy.consJac 1 (-1) 0 (exExactEnv ⟨1, 0, []⟩).work = some ⟨1, 1, [(0, 1 * 1)]⟩ :=
      exAdd10 1 1 (-1) (by norm_num)
    rw [he.eps, e1, Option.bind_some, e2, Option.bind_some, e3, Option.bind_some, dot_dense hg hC.okP, Option.bind_some,
      dot_dense hC.okP hC.okH, Option.bind_some, dot_dense hg (exVok _), Option.bind_some, dot_dense (exVok _) hC.okH, Option.bind_some,
      dot_dense (exVok _) hN.okH, Option.bind_some, one_mul, hb, Option.bind_some, hC.primal, hC.hess, hN.hess, exLineDense, exLineDense]
    have hs : [(⟨1, 0⟩ : BreakPoint ℚ)].foldlM (exactPass (exExactEnv ⟨1, 0, []⟩).penalty 0) ⟨0, 0, 0, 0, -1⟩ = some ⟨-1, 1, 1, -1, -1⟩ := by
      decide +kernel
    have z1 : (exExact 0).H *ᵥ ![0] = 0 := by
      funext i; simp [exExact, mulVec, dotProduct]
    have z2 : (exExact 0).H *ᵥ ![1] = 0 := by
      funext i; simp [exExact, mulVec, dotProduct]
    rw [z1, z2]
    have h1 : (exExactEnv ⟨1, 0, []⟩).objVal + ![-1] ⬝ᵥ ![0] + 1 / 2 * (![0] ⬝ᵥ 0) + (exExactEnv ⟨1, 0, []⟩).penalty * (0 : ℚ) = 0 := by
      simp [exExactEnv, dotProduct]
    have h2 : ![(-1 : ℚ)] ⬝ᵥ ![1] + ![(1 : ℚ)] ⬝ᵥ 0 + (exExactEnv ⟨1, 0, []⟩).penalty * (0 : ℚ) = -1 := by
      simp [dotProduct]
    have h3 : ![(1 : ℚ)] ⬝ᵥ 0 - ![(1 : ℚ)] ⬝ᵥ 0 = 0 := by simp
    rw [h1, h2, h3, hs, Option.bind_some, g1]
    rfl
  · simp [LocalModel.quad, LocalModel.lin, LocalModel.viol, exExact, mulVec, dotProduct, viol]
    norm_num
  · simp [LocalModel.quad, LocalModel.lin, LocalModel.viol, exExact, mulVec, dotProduct, viol]

end Sleqp
