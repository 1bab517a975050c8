import Verif.Model.MaxStep
import Verif.Lemmas.Feas
import Verif.Props.Feas
import Mathlib.Algebra.Order.Ring.Rat
import Mathlib.Data.Rat.Cast.Order
import Mathlib.Tactic.NormNum

/-! C47: maximum step length. -/

namespace Sleqp
variable {K : Type*} [Field K] [LinearOrder K] [IsStrictOrderedRing K]

omit [Field K] [IsStrictOrderedRing K] in
theorem foldl_limit {α : Type*} (P : α → Prop) [DecidablePred P] (q : α → K) (l : List α) (s : K) :
    let r := l.foldl (fun s t => if P t then min s (q t) else s) s
    r ≤ s ∧ (∀ t ∈ l, P t → r ≤ q t) ∧ (r = s ∨ ∃ t ∈ l, P t ∧ r = q t) := by
  induction l generalizing s with
  | nil => simp
  | cons a t ih =>
    simp only [List.foldl_cons]
    obtain ⟨h1, h2, h3⟩ := ih (if P a then min s (q a) else s)
    by_cases ha : P a
    · rw [if_pos ha] at *
      refine ⟨h1.trans (min_le_left _ _), ?_, ?_⟩
      · intro x hx hp
        rcases List.mem_cons.mp hx with rfl | hx
        · exact h1.trans (min_le_right _ _)
        · exact h2 x hx hp
      · rcases h3 with h3 | ⟨x, hx, h4, h5⟩
        · rcases min_choice s (q a) with hm | hm
          · left; rw [h3, hm]
          · right; exact ⟨a, by simp, ha, by rw [h3, hm]⟩
        · right; exact ⟨x, by simp [hx], h4, h5⟩
    · rw [if_neg ha] at *
      refine ⟨h1, ?_, ?_⟩
      · intro x hx hp
        rcases List.mem_cons.mp hx with rfl | hx
        · exact absurd hp ha
        · exact h2 x hx hp
      · rcases h3 with h3 | ⟨x, hx, h4, h5⟩
        · left; exact h3
        · right; exact ⟨x, by simp [hx], h4, h5⟩

omit [IsStrictOrderedRing K] in
/-- the same over the merge loop, by coordinates -/
theorem merge3_limit (P : K → K → K → Prop) [∀ a b c, Decidable (P a b c)] (hP : ¬ P 0 0 0) (q : K → K → K → K)
    {x y z : Vec K} (hx : x.WF) (hy : y.WF) (hz : z.WF) (dy : y.dim = x.dim) (dz : z.dim = x.dim) (s : K) :
    let r := (merge3 x.ents y.ents z.ents).foldl (fun s t => if P (val3 t).1 (val3 t).2.1 (val3 t).2.2 then
      min s (q (val3 t).1 (val3 t).2.1 (val3 t).2.2) else s) s
    r ≤ s ∧ (∀ i, P (x.value i) (y.value i) (z.value i) → r ≤ q (x.value i) (y.value i) (z.value i)) ∧
      (r = s ∨ ∃ i < x.dim, P (x.value i) (y.value i) (z.value i) ∧ r = q (x.value i) (y.value i) (z.value i)) := by
  obtain ⟨h1, h2, h3⟩ := foldl_limit (fun t : Nat × Option K × Option K × Option K => P (val3 t).1 (val3 t).2.1 (val3 t).2.2)
    (fun t => q (val3 t).1 (val3 t).2.1 (val3 t).2.2) (merge3 x.ents y.ents z.ents) s
  have hval : ∀ t ∈ merge3 x.ents y.ents z.ents, val3 t = (x.value t.1, y.value t.1, z.value t.1) := fun t ht =>
    val3_of_mem hx.srt hy.srt hz.srt ht
  refine ⟨h1, ?_, ?_⟩
  · intro i hp
    cases hat : at? (merge3 x.ents y.ents z.ents) i with
    | none =>
      rw [merge3_at hx.srt hy.srt hz.srt] at hat
      exfalso
      apply hP
      have hn : at? x.ents i = none ∧ at? y.ents i = none ∧ at? z.ents i = none := by
        revert hat
        cases at? x.ents i <;> cases at? y.ents i <;> cases at? z.ents i <;> simp [comb3]
      have e1 : x.value i = 0 := by unfold Vec.value valAt; rw [hn.1]; rfl
      have e2 : y.value i = 0 := by unfold Vec.value valAt; rw [hn.2.1]; rfl
      have e3 : z.value i = 0 := by unfold Vec.value valAt; rw [hn.2.2]; rfl
      rwa [e1, e2, e3] at hp
    | some a =>
      have hm := mem_of_at? hat
      have := h2 _ hm
      rw [hval _ hm] at this
      exact this hp
  · rcases h3 with h3 | ⟨t, ht, h4, h5⟩
    · exact Or.inl h3
    · right
      rw [hval t ht] at h4 h5
      exact ⟨t.1, merge3_lt hx.srt hy.srt hz.srt hx.lt_dim (dy ▸ hy.lt_dim) (dz ▸ hz.lt_dim) t ht, h4, h5⟩

/-- C47: for a point within the bounds the maximum step length is defined, in `(0, init]`, every larger step up to `init` leaves the bounds, and all
shorter steps stay within them, provided the direction does not point outwards at a bound the point is exactly
at (which is the missing part, see `C47_bound_violated`). -/
theorem C47_length_partial {x d l u : Vec K} (hx : x.WF) (hd : d.WF) (hl : l.WF) (hu : u.WF) (dd : d.dim = x.dim)
    (dl : l.dim = x.dim) (du : u.dim = x.dim) {init : K} (hi : 0 < init)
    (hb : ∀ i, l.value i ≤ x.value i ∧ x.value i ≤ u.value i) :
    ∃ s, maxStepLength x d l u init = some s ∧ 0 < s ∧ s ≤ init ∧
      (∀ t, s < t → t ≤ init → ∃ i < x.dim, x.value i + t * d.value i < l.value i ∨ u.value i < x.value i + t * d.value i) ∧
      ((∀ i, (x.value i = u.value i → d.value i ≤ 0) ∧ (x.value i = l.value i → 0 ≤ d.value i)) →
        ∀ t, 0 ≤ t → t ≤ s → ∀ i, l.value i ≤ x.value i + t * d.value i ∧ x.value i + t * d.value i ≤ u.value i) := by
  obtain ⟨a1, a2, a3⟩ := merge3_limit (fun x d u : K => (0 < d ∧ 0 < u - x) ∨ (d < 0 ∧ u - x < 0)) (by simp)
    (fun x d u => (u - x) / d) hx hd hu dd du init
  obtain ⟨r, hr⟩ : ∃ r, r = (merge3 x.ents d.ents u.ents).foldl (fun s t => if (0 < (val3 t).2.1 ∧ 0 < (val3 t).2.2 - (val3 t).1) ∨
      ((val3 t).2.1 < 0 ∧ (val3 t).2.2 - (val3 t).1 < 0) then
      min s (((val3 t).2.2 - (val3 t).1) / (val3 t).2.1) else s) init := ⟨_, rfl⟩
  simp only [← hr] at a1 a2 a3
  obtain ⟨b1, b2, b3⟩ := merge3_limit (fun x d l : K => (d < 0 ∧ l - x < 0) ∨ (0 < d ∧ 0 < l - x)) (by simp)
    (fun x d l => (l - x) / d) hx hd hl dd dl r
  obtain ⟨s, hs⟩ : ∃ s, s = (merge3 x.ents d.ents l.ents).foldl (fun s t => if ((val3 t).2.1 < 0 ∧ (val3 t).2.2 - (val3 t).1 < 0) ∨
      (0 < (val3 t).2.1 ∧ 0 < (val3 t).2.2 - (val3 t).1) then
      min s (((val3 t).2.2 - (val3 t).1) / (val3 t).2.1) else s) r := ⟨_, rfl⟩
  simp only [← hs] at b1 b2 b3
  -- positivity
  have hr0 : 0 < r := by
    rcases a3 with a3 | ⟨i, -, h1, h2⟩
    · rw [a3]; exact hi
    · rw [h2]
      rcases h1 with h1 | h1
      · exact div_pos h1.2 h1.1
      · exact div_pos_of_neg_of_neg h1.2 h1.1
  have hs0 : 0 < s := by
    rcases b3 with b3 | ⟨i, -, h1, h2⟩
    · rw [b3]; exact hr0
    · rw [h2]
      rcases h1 with h1 | h1
      · exact div_pos_of_neg_of_neg h1.2 h1.1
      · exact div_pos h1.2 h1.1
  refine ⟨s, ?_, hs0, b1.trans a1, ?_, ?_⟩
  · unfold maxStepLength
    rw [if_pos ⟨dl, du, dd, hi⟩]
    have e1 : (merge3 x.ents d.ents u.ents).foldl (fun s t => limitUpper s (val3 t).1 (val3 t).2.1 (val3 t).2.2) init = r := hr.symm
    simp only [e1]
    have e2 : (merge3 x.ents d.ents l.ents).foldl (fun s t => limitLower s (val3 t).1 (val3 t).2.1 (val3 t).2.2) r = s := hs.symm
    rw [e2, if_pos hs0.le]
  · intro t hst hti
    have hup : r < t → ∃ i < x.dim, x.value i + t * d.value i < l.value i ∨ u.value i < x.value i + t * d.value i := by
      intro hrt
      rcases a3 with a3 | ⟨i, hlt, h1, h2⟩
      · rw [a3] at hrt; exact absurd hti (not_le.mpr hrt)
      · rcases h1 with h1 | h1
        · refine ⟨i, hlt, Or.inr ?_⟩
          have := (div_lt_iff₀ h1.1).mp (h2 ▸ hrt)
          linarith
        · exact absurd h1.2 (not_lt.mpr (sub_nonneg.mpr (hb i).2))
    rcases b3 with b3 | ⟨i, hlt, h1, h2⟩
    · rw [b3] at hst; exact hup hst
    · rcases h1 with h1 | h1
      · refine ⟨i, hlt, Or.inl ?_⟩
        have := (div_lt_iff_of_neg h1.1).mp (h2 ▸ hst)
        linarith
      · exact absurd h1.2 (not_lt.mpr (sub_nonpos.mpr (hb i).1))
  · intro hdir t ht0 hts i
    obtain ⟨hl', hu'⟩ := hb i
    rcases lt_trichotomy (d.value i) 0 with hneg | hz | hpos
    · constructor
      · have hlx : l.value i - x.value i < 0 := by
          rcases lt_or_eq_of_le hl' with h | h
          · linarith
          · exact absurd ((hdir i).2 h.symm) (not_le.mpr hneg)
        have := hts.trans (b2 i (Or.inl ⟨hneg, hlx⟩))
        have := (le_div_iff_of_neg hneg).mp this
        linarith
      · have := mul_nonpos_of_nonneg_of_nonpos ht0 hneg.le
        linarith
    · rw [hz, mul_zero, add_zero]; exact ⟨hl', hu'⟩
    · constructor
      · have := mul_nonneg ht0 hpos.le
        linarith
      · have hux : 0 < u.value i - x.value i := by
          rcases lt_or_eq_of_le hu' with h | h
          · linarith
          · exact absurd ((hdir i).1 h) (not_le.mpr hpos)
        have := (hts.trans b1).trans (a2 i (Or.inl ⟨hpos, hux⟩))
        have := (le_div_iff₀ hpos).mp this
        linarith

omit [IsStrictOrderedRing K] in
/-- C47: a variable exactly at its upper bound with a direction pointing outwards does not limit the step length: the
full step leaves the bounds. -/
theorem C47_bound_violated [IsStrictOrderedRing K] : ∃ x d l u : Vec K, x.WF ∧ d.WF ∧ l.WF ∧ u.WF ∧
    (∀ i, l.value i ≤ x.value i ∧ x.value i ≤ u.value i) ∧
    ∃ s, maxStepLength x d l u 1 = some s ∧ u.value 0 < x.value 0 + s * d.value 0 := by
  have hz : (⟨1, 1, []⟩ : Vec K).WF := ⟨by simp [Srt], by simp, by simp⟩
  have hd : (⟨1, 1, [(0, 1)]⟩ : Vec K).WF := ⟨by simp [Srt], by simp, by simp⟩
  have ev : ∀ i, (⟨1, 1, []⟩ : Vec K).value i = 0 := fun i => rfl
  have ed : (⟨1, 1, [(0, 1)]⟩ : Vec K).value 0 = 1 := by simp [Vec.value, valAt, at?]
  refine ⟨⟨1, 1, []⟩, ⟨1, 1, [(0, 1)]⟩, ⟨1, 1, []⟩, ⟨1, 1, []⟩, hz, hd, hz, hz, fun i => ⟨le_rfl, le_rfl⟩, ?_⟩
  obtain ⟨s, h1, h2, h3, -⟩ := C47_length_partial (init := (1 : K)) hz hd hz hz rfl rfl rfl zero_lt_one (fun i => ⟨le_rfl, le_rfl⟩)
  refine ⟨s, h1, ?_⟩
  rw [ev, ed]
  simpa using h2

/-- non-vacuity: from 0 in direction 2 within [-1, 1] the length is 1/2 -/
example : ∃ s, maxStepLength (K := ℚ) ⟨1, 1, []⟩ ⟨1, 1, [(0, 2)]⟩ ⟨1, 1, [(0, -1)]⟩ ⟨1, 1, [(0, 1)]⟩ 1 = some s ∧ 0 < s ∧ s ≤ 1 := by
  have e : ∀ (c : ℚ) i, (⟨1, 1, [(0, c)]⟩ : Vec ℚ).value i = if i = 0 then c else 0 := by
    intro c i
    by_cases h : i = 0
    · subst h; simp [Vec.value, valAt, at?]
    · rw [if_neg h]
      unfold Vec.value valAt
      rw [at?_none_of_forall]
      · rfl
      · intro e he; simp at he; rw [he]; exact Ne.symm h
  obtain ⟨s, h1, h2, h3, -⟩ := C47_length_partial (K := ℚ) (x := ⟨1, 1, []⟩) (d := ⟨1, 1, [(0, 2)]⟩) (l := ⟨1, 1, [(0, -1)]⟩)
    (u := ⟨1, 1, [(0, 1)]⟩) (init := 1) ⟨by simp [Srt], by simp, by simp⟩ ⟨by simp [Srt], by simp, by simp⟩
    ⟨by simp [Srt], by simp, by simp⟩ ⟨by simp [Srt], by simp, by simp⟩ rfl rfl rfl (by norm_num) (fun i => by
      rw [e, e, show (⟨1, 1, []⟩ : Vec ℚ).value i = 0 from rfl]
      split <;> norm_num)
  exact ⟨s, h1, h2, h3⟩

end Sleqp
