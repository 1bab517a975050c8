import Verif.Model.Feas
import Verif.Spec.Feas
import Verif.Spec.Mat
import Verif.Lemmas.VecNum
import Mathlib.Tactic.Linarith
import Mathlib.Tactic.Ring
import Mathlib.Tactic.LinearCombination

/-! Helper lemmas for merge loops that push, sum or take maxima. -/

namespace Sleqp

open Finset

section Struct
variable {K τ : Type*}

theorem pushLoop_eq (f : Nat × τ → Option K) (r : Vec K) (l : List (Nat × τ)) :
    pushLoop f r l = r.pushAll (l.filterMap fun t => (f t).map fun v => (t.1, v)) := by
  induction l generalizing r with
  | nil => rfl
  | cons t l ih =>
    rw [List.filterMap_cons]
    unfold pushLoop at ih ⊢
    rw [List.foldlM_cons]
    rcases hf : f t with _ | v
    · simp only [Option.map_none, Option.bind_eq_bind, Option.bind_some]
      exact ih r
    · simp only [Option.map_some, Option.bind_eq_bind]
      unfold Vec.pushAll
      rw [List.foldlM_cons]
      simp only [Option.bind_eq_bind]
      congr 1
      funext w
      exact ih w

theorem filterMap_srt (f : Nat × τ → Option K) {l : List (Nat × τ)} (hs : Srt l) :
    Srt (l.filterMap fun t => (f t).map fun v => (t.1, v)) := by
  induction l with
  | nil => exact Srt.nil
  | cons t l ih =>
    rw [srt_cons] at hs
    rw [List.filterMap_cons]
    rcases f t with _ | v
    · exact ih hs.2
    · rw [Option.map_some, srt_cons]
      refine ⟨?_, ih hs.2⟩
      intro e he
      obtain ⟨a, ha, hae⟩ := List.mem_filterMap.mp he
      obtain ⟨v', _, rfl⟩ := Option.map_eq_some_iff.mp hae
      exact hs.1 a ha

theorem filterMap_at (f : Nat × τ → Option K) {l : List (Nat × τ)} (hs : Srt l) (k : Nat) :
    at? (l.filterMap fun t => (f t).map fun v => (t.1, v)) k =
      (at? l k).bind fun a => f (k, a) := by
  induction l with
  | nil => rfl
  | cons t l ih =>
    rw [srt_cons] at hs
    rw [List.filterMap_cons, at?_cons]
    by_cases hk : t.1 = k
    · subst hk
      have hno : at? (l.filterMap fun t => (f t).map fun v => (t.1, v)) t.1 = none := by
        rw [ih hs.2, at?_none_of_lt hs.1]; rfl
      rw [if_pos rfl]
      simp only [Option.bind_some, Prod.mk.eta]
      rcases f t with _ | v
      · exact hno
      · rw [Option.map_some, at?_cons]; simp
    · rw [if_neg hk, ← ih hs.2]
      rcases f t with _ | v
      · rfl
      · rw [Option.map_some, at?_cons, if_neg hk]

/-- A push loop over a sorted list into a large enough empty vector succeeds. -/
theorem pushLoop_ok (f : Nat × τ → Option K) {r : Vec K} {l : List (Nat × τ)} (hs : Srt l)
    (hd : ∀ e ∈ l, e.1 < r.dim) (he : r.ents = []) (hc : min l.length r.dim ≤ r.cap) :
    ∃ w, pushLoop f r l = some w ∧ w.WF ∧ w.dim = r.dim ∧
      ∀ k, at? w.ents k = (at? l k).bind fun a => f (k, a) := by
  set L := l.filterMap fun t => (f t).map fun v => (t.1, v) with hL
  have sL : Srt L := filterMap_srt f hs
  have hlt : ∀ e ∈ L, e.1 < r.dim := by
    intro e he
    obtain ⟨a, ha, hae⟩ := List.mem_filterMap.mp he
    obtain ⟨v', _, rfl⟩ := Option.map_eq_some_iff.mp hae
    exact hd a ha
  have hcap : L.length ≤ r.cap := by
    refine le_trans (le_min ?_ (srt_length_le sL hlt)) hc
    exact List.length_filterMap_le _ _
  have hpush := Vec.pushAll_ok r L (by rw [he]; simpa using sL) hlt (by rw [he]; simpa using hcap)
  refine ⟨{ r with ents := L }, ?_, ⟨sL, hlt, hcap⟩, rfl, fun k => filterMap_at f hs k⟩
  rw [pushLoop_eq, ← hL, hpush, he]; simp

theorem mem_iff_of_head {α : Type*} {l : List (Nat × α)} {i : Nat} (h : headIdx l = some i) :
    ∃ e ∈ l, e.1 = i := by
  cases l with
  | nil => simp [headIdx] at h
  | cons e t => simp [headIdx] at h; exact ⟨e, by simp, h⟩

theorem merge4d_spec {α : Type*} (v lb ub d : List (Nat × α)) (hv : Srt v) (hl : Srt lb)
    (hu : Srt ub) (hd : Srt d) :
    Srt (merge4d v lb ub d) ∧
    (∀ m, LowerBd m v → LowerBd m lb → LowerBd m ub → LowerBd m d → LowerBd m (merge4d v lb ub d)) ∧
    (∀ t ∈ merge4d v lb ub d,
      t.2 = (at? v t.1, at? lb t.1, at? ub t.1, at? d t.1) ∧
      ((at? v t.1).isSome ∨ (at? lb t.1).isSome ∨ (at? ub t.1).isSome ∨ (at? d t.1).isSome)) ∧
    ∀ k, (at? d k).isSome → ((at? v k).isSome ∨ (at? lb k).isSome ∨ (at? ub k).isSome) →
      ∃ t ∈ merge4d v lb ub d, t.1 = k := by
  fun_induction merge4d v lb ub d with
  | case1 v lb ub d h =>
    obtain ⟨h1, h2⟩ := minIdx_eq_none h
    obtain ⟨h3, h4⟩ := minIdx_eq_none h1
    rw [headIdx_eq_none h3, headIdx_eq_none h4, headIdx_eq_none h2]
    refine ⟨Srt.nil, ?_, by simp, by simp⟩
    intro m _ _ _ _ e he; simp at he
  | case2 v lb ub d a h hh =>
    rw [headIdx_eq_none hh]
    refine ⟨Srt.nil, ?_, by simp, by simp⟩
    intro m _ _ _ _ e he; simp at he
  | case3 v lb ub d a b h hh i ih =>
    have hia : i ≤ a := min_le_left _ _
    have hib : i ≤ b := min_le_right _ _
    have hb := minIdx_le h
    have bu : LowerBd i ub := lowerBd_of_head hu fun k hk => le_trans hia (hb.2 k hk)
    have hxy : LowerBd i v ∧ LowerBd i lb := by
      rcases hmm : minIdx (headIdx v) (headIdx lb) with _ | j
      · obtain ⟨h3, h4⟩ := minIdx_eq_none hmm
        rw [headIdx_eq_none h3, headIdx_eq_none h4]
        exact ⟨by intro e he; simp at he, by intro e he; simp at he⟩
      · have h1 := le_trans hia (hb.1 j hmm)
        have h2 := minIdx_le hmm
        exact ⟨lowerBd_of_head hv fun k hk => le_trans h1 (h2.1 k hk),
          lowerBd_of_head hl fun k hk => le_trans h1 (h2.2 k hk)⟩
    obtain ⟨bv, bl⟩ := hxy
    have bd : LowerBd i d := lowerBd_of_head hd fun k hk => by
      rw [hh] at hk; cases hk; exact hib
    obtain ⟨x1, x2, x3, x4⟩ := takeAt_spec hv bv
    obtain ⟨y1, y2, y3, y4⟩ := takeAt_spec hl bl
    obtain ⟨z1, z2, z3, z4⟩ := takeAt_spec hu bu
    obtain ⟨w1, w2, w3, w4⟩ := takeAt_spec hd bd
    obtain ⟨i1, i2, i3, i4⟩ := ih x2 y2 z2 w2
    have hlb := i2 (i + 1) (fun e he => x3 e he) (fun e he => y3 e he) (fun e he => z3 e he)
      (fun e he => w3 e he)
    have hmem : (∃ e ∈ v, e.1 = i) ∨ (∃ e ∈ lb, e.1 = i) ∨ (∃ e ∈ ub, e.1 = i) ∨
        ∃ e ∈ d, e.1 = i := by
      rcases le_total a b with hab | hab
      · have : i = a := min_eq_left hab
        rw [this]
        rcases minIdx_eq_some h with h1 | h1
        · rcases minIdx_eq_some h1 with h1 | h1
          · exact Or.inl (mem_iff_of_head h1)
          · exact Or.inr (Or.inl (mem_iff_of_head h1))
        · exact Or.inr (Or.inr (Or.inl (mem_iff_of_head h1)))
      · have : i = b := min_eq_right hab
        rw [this]
        exact Or.inr (Or.inr (Or.inr (mem_iff_of_head hh)))
    refine ⟨?_, ?_, ?_, ?_⟩
    · rw [srt_cons]; exact ⟨fun e he => hlb e he, i1⟩
    · intro m mv ml mu md e he
      have hmi : m ≤ i := by
        rcases hmem with ⟨e, he, hi⟩ | ⟨e, he, hi⟩ | ⟨e, he, hi⟩ | ⟨e, he, hi⟩ <;> rw [← hi]
        · exact mv e he
        · exact ml e he
        · exact mu e he
        · exact md e he
      rcases List.mem_cons.mp he with h1 | h1
      · rw [h1]; exact hmi
      · have := hlb e h1; omega
    · intro t ht
      rcases List.mem_cons.mp ht with h1 | h1
      · subst h1
        refine ⟨by simp [x1, y1, z1, w1], ?_⟩
        rcases hmem with h | h | h | h
        · exact Or.inl (at?_isSome_iff.mpr h)
        · exact Or.inr (Or.inl (at?_isSome_iff.mpr h))
        · exact Or.inr (Or.inr (Or.inl (at?_isSome_iff.mpr h)))
        · exact Or.inr (Or.inr (Or.inr (at?_isSome_iff.mpr h)))
      · have hgt : i < t.1 := hlb t h1
        have hne : t.1 ≠ i := by omega
        have := i3 t h1
        rw [x4 t.1 hne, y4 t.1 hne, z4 t.1 hne, w4 t.1 hne] at this
        exact this
    · intro k h1 h2
      by_cases hk : k = i
      · exact ⟨_, List.mem_cons_self, hk.symm⟩
      · rw [← w4 k hk] at h1
        rw [← x4 k hk, ← y4 k hk, ← z4 k hk] at h2
        obtain ⟨t, ht, hte⟩ := i4 k h1 h2
        exact ⟨t, List.mem_cons_of_mem _ ht, hte⟩

end Struct

variable {K : Type*} [Field K] [LinearOrder K]

/-- The push loops over `merge3` compute `F` coordinatewise. -/
theorem merge3_pushLoop (F : Nat → K → K → K → Option K) (hF : ∀ i, orZero (F i 0 0 0) = 0)
    {x y z r : Vec K} (hx : x.WF) (hy : y.WF) (hz : z.WF) (dy : y.dim = x.dim) (dz : z.dim = x.dim)
    (dr : r.dim = x.dim) (he : r.ents = [])
    (hc : min (x.nnz + y.nnz + z.nnz) x.dim ≤ r.cap) :
    ∃ w, pushLoop (fun t => F t.1 (val3 t).1 (val3 t).2.1 (val3 t).2.2) r
        (merge3 x.ents y.ents z.ents) = some w ∧ w.WF ∧ w.dim = x.dim ∧
      ∀ i, w.value i = orZero (F i (x.value i) (y.value i) (z.value i)) := by
  have hs := merge3_srt hx.srt hy.srt hz.srt
  obtain ⟨w, h1, h2, h3, h4⟩ := pushLoop_ok
    (fun t => F t.1 (val3 t).1 (val3 t).2.1 (val3 t).2.2) (r := r) hs
    (fun e he => dr ▸ merge3_lt hx.srt hy.srt hz.srt hx.lt_dim (dy ▸ hy.lt_dim) (dz ▸ hz.lt_dim) e he)
    he (by
      rw [dr]
      refine le_trans (min_le_min_right _ (merge3_length_le _ _ _)) hc)
  refine ⟨w, h1, h2, h3.trans dr, ?_⟩
  intro i
  unfold Vec.value valAt
  rw [h4, merge3_at hx.srt hy.srt hz.srt]
  have h0 := hF i
  rcases at? x.ents i with _ | a <;> rcases at? y.ents i with _ | b <;>
    rcases at? z.ents i with _ | c <;> simp [comb3, val3, h0]

theorem val3_of_mem {x y z : List (Nat × K)} (hx : Srt x) (hy : Srt y) (hz : Srt z)
    {t} (ht : t ∈ merge3 x y z) : val3 t = (valAt x t.1, valAt y t.1, valAt z t.1) := by
  have := (merge3_mem hx hy hz ht).1
  unfold val3 valAt
  rw [this]

theorem foldl_max_gen {τ : Type*} (h : τ → K) (l : List τ) (s : K) :
    s ≤ l.foldl (fun s e => max s (h e)) s ∧ (∀ e ∈ l, h e ≤ l.foldl (fun s e => max s (h e)) s) ∧
    (l.foldl (fun s e => max s (h e)) s = s ∨ ∃ e ∈ l, l.foldl (fun s e => max s (h e)) s = h e) := by
  induction l generalizing s with
  | nil => simp
  | cons e t ih =>
    obtain ⟨h1, h2, h3⟩ := ih (max s (h e))
    rw [List.foldl_cons]
    refine ⟨le_trans (le_max_left _ _) h1, ?_, ?_⟩
    · intro a ha
      rcases List.mem_cons.mp ha with h | h
      · rw [h]; exact le_trans (le_max_right _ _) h1
      · exact h2 a h
    · rcases h3 with h3 | ⟨a, ha, h3⟩
      · rcases max_choice s (h e) with h4 | h4
        · left; rw [h3]; exact h4
        · right; exact ⟨e, by simp, by rw [h3]; exact h4⟩
      · right; exact ⟨a, by simp [ha], h3⟩

/-- Maximum over visited indices = maximum over all indices. -/
theorem merge3_max (F : K → K → K → K) (hF : F 0 0 0 = 0)
    {x y z : List (Nat × K)} (hx : Srt x) (hy : Srt y) (hz : Srt z) {n : Nat}
    (bx : ∀ e ∈ x, e.1 < n) (bY : ∀ e ∈ y, e.1 < n) (bz : ∀ e ∈ z, e.1 < n) :
    IsMaxZero ((merge3 x y z).foldl (fun s t => max s (F (val3 t).1 (val3 t).2.1 (val3 t).2.2)) 0)
      n (fun i => F (valAt x i) (valAt y i) (valAt z i)) := by
  obtain ⟨h1, h2, h3⟩ := foldl_max_gen
    (fun t => F (val3 t).1 (val3 t).2.1 (val3 t).2.2) (merge3 x y z) 0
  refine ⟨h1, ?_, ?_⟩
  · intro i _
    rcases hat : at? (merge3 x y z) i with _ | a
    · rw [merge3_at hx hy hz] at hat
      obtain ⟨e1, e2, e3⟩ := comb3_eq_none hat
      have : F (valAt x i) (valAt y i) (valAt z i) = 0 := by
        unfold valAt; rw [e1, e2, e3]; exact hF
      simp only [this]; exact h1
    · have hm := mem_of_at? hat
      have := h2 _ hm
      simp only [val3_of_mem hx hy hz hm] at this
      exact this
  · rcases h3 with h3 | ⟨t, ht, h3⟩
    · exact Or.inl h3
    · right
      refine ⟨t.1, merge3_lt hx hy hz bx bY bz t ht, ?_⟩
      rw [h3, val3_of_mem hx hy hz ht]

/-- Sum over visited indices = sum over all indices. -/
theorem merge3_sum (F : K → K → K → K) (hF : F 0 0 0 = 0)
    {x y z : List (Nat × K)} (hx : Srt x) (hy : Srt y) (hz : Srt z) {n : Nat}
    (bx : ∀ e ∈ x, e.1 < n) (bY : ∀ e ∈ y, e.1 < n) (bz : ∀ e ∈ z, e.1 < n) :
    (merge3 x y z).foldl (fun s t => s + F (val3 t).1 (val3 t).2.1 (val3 t).2.2) 0 =
      ∑ i ∈ range n, F (valAt x i) (valAt y i) (valAt z i) := by
  rw [foldl_add_map, zero_add]
  set L := (merge3 x y z).map fun t => (t.1, F (val3 t).1 (val3 t).2.1 (val3 t).2.2) with hL
  have sL : Srt L := srt_map_snd _ (merge3_srt hx hy hz)
  have hlt : ∀ e ∈ L, e.1 < n := by
    intro e he
    obtain ⟨t, ht, rfl⟩ := List.mem_map.mp he
    exact merge3_lt hx hy hz bx bY bz t ht
  have hv : ∀ i, valAt L i = F (valAt x i) (valAt y i) (valAt z i) := by
    intro i
    unfold valAt
    rw [hL, at?_map, merge3_at hx hy hz]
    rcases at? x i with _ | a <;> rcases at? y i with _ | b <;> rcases at? z i with _ | c <;>
      simp [comb3, val3, hF]
  have := sum_range_valAt sL hlt (fun _ a => a) (fun _ => rfl)
  simp only [hv] at this
  rw [this, hL, List.map_map]
  rfl

variable [IsStrictOrderedRing K]

theorem upperViol_pos {c ub : K} : 0 < upperViol c ub ↔ ub < c := by
  unfold upperViol; rw [lt_max_iff]; simp

theorem lowerViol_pos {c lb : K} : 0 < lowerViol c lb ↔ c < lb := by
  unfold lowerViol; rw [lt_max_iff]; simp

theorem orZero_violAmount {c lb ub : K} (h : lb ≤ ub) : orZero (violAmount c lb ub) = viol c lb ub := by
  unfold violAmount
  by_cases h1 : ub < c
  · rw [if_pos (upperViol_pos.mpr h1)]
    unfold viol upperViol
    simp only [orZero_some]
    rw [max_eq_right (by linarith : lb - c ≤ c - ub)]
  · rw [if_neg (fun h => h1 (upperViol_pos.mp h))]
    push Not at h1
    by_cases h2 : c < lb
    · rw [if_pos (lowerViol_pos.mpr h2)]
      unfold viol lowerViol
      simp only [orZero_some]
      rw [max_eq_left (by linarith : c - ub ≤ lb - c)]
    · rw [if_neg (fun h => h2 (lowerViol_pos.mp h))]
      push Not at h2
      unfold viol
      simp only [orZero_none]
      rw [max_eq_right]
      exact max_le (by linarith) (by linarith)

theorem violAmount_nonneg {c lb ub : K} : 0 ≤ orZero (violAmount c lb ub) := by
  unfold violAmount
  split
  · rename_i h; simpa using h.le
  · split
    · rename_i h; simpa using h.le
    · simp

theorem viol_nonneg (c lb ub : K) : 0 ≤ viol c lb ub := le_max_right _ _

theorem viol_le_iff {c lb ub tol : K} (h : 0 ≤ tol) :
    viol c lb ub ≤ tol ↔ lb - tol ≤ c ∧ c ≤ ub + tol := by
  unfold viol
  rw [max_le_iff, max_le_iff]
  constructor
  · rintro ⟨⟨h1, h2⟩, _⟩; constructor <;> linarith
  · rintro ⟨h1, h2⟩; exact ⟨⟨by linarith, by linarith⟩, h⟩

theorem viol_eq_zero_iff {c lb ub : K} : viol c lb ub = 0 ↔ lb ≤ c ∧ c ≤ ub := by
  have := viol_le_iff (c := c) (lb := lb) (ub := ub) (tol := 0) le_rfl
  rw [sub_zero, add_zero] at this
  rw [← this]
  exact ⟨fun h => h.le, fun h => le_antisymm h (viol_nonneg _ _ _)⟩

theorem viol_zero {c : K} : viol c c c = 0 := by simp [viol]

/-- `viol` is 1-Lipschitz in the value -/
theorem viol_lipschitz (c c' lb ub : K) : |viol c lb ub - viol c' lb ub| ≤ |c - c'| := by
  have key : ∀ a b : K, viol a lb ub ≤ viol b lb ub + |a - b| := by
    intro a b
    have h1 : b - a ≤ |a - b| := by rw [abs_sub_comm]; exact le_abs_self _
    have h2 : a - b ≤ |a - b| := le_abs_self _
    have h3 : lb - b ≤ viol b lb ub := le_trans (le_max_left _ _) (le_max_left _ _)
    have h4 : b - ub ≤ viol b lb ub := le_trans (le_max_right _ _) (le_max_left _ _)
    have h5 := viol_nonneg b lb ub
    unfold viol at *
    refine max_le (max_le ?_ ?_) ?_
    · linarith
    · linarith
    · have := abs_nonneg (a - b); linarith
  rw [abs_le]
  have h1 := key c c'
  have h2 := key c' c
  rw [abs_sub_comm c' c] at h2
  constructor <;> linarith

/-- `viol` is convex in the value -/
theorem viol_convex (c c' lb ub s : K) (h0 : 0 ≤ s) (h1 : s ≤ 1) :
    viol ((1 - s) * c + s * c') lb ub ≤ (1 - s) * viol c lb ub + s * viol c' lb ub := by
  have a1 : lb - c ≤ viol c lb ub := le_trans (le_max_left _ _) (le_max_left _ _)
  have a2 : c - ub ≤ viol c lb ub := le_trans (le_max_right _ _) (le_max_left _ _)
  have a3 := viol_nonneg c lb ub
  have b1 : lb - c' ≤ viol c' lb ub := le_trans (le_max_left _ _) (le_max_left _ _)
  have b2 : c' - ub ≤ viol c' lb ub := le_trans (le_max_right _ _) (le_max_left _ _)
  have b3 := viol_nonneg c' lb ub
  have hs : 0 ≤ 1 - s := by linarith
  have m1 := mul_le_mul_of_nonneg_left a1 hs
  have m2 := mul_le_mul_of_nonneg_left a2 hs
  have m3 := mul_nonneg hs a3
  have n1 := mul_le_mul_of_nonneg_left b1 h0
  have n2 := mul_le_mul_of_nonneg_left b2 h0
  have n3 := mul_nonneg h0 b3
  show max (max _ _) _ ≤ _
  refine max_le (max_le ?_ ?_) ?_
  · linear_combination m1 + n1
  · linear_combination m2 + n2
  · linarith

theorem slackCur_zero_of_d (v lb ub : K) : slackCur v lb ub 0 = 0 := by simp [slackCur]

theorem slackCur_zero_of_v (d : K) : slackCur 0 0 0 d = 0 := by simp [slackCur]

theorem slackVal_of_mem {v lb ub d : List (Nat × K)} (hv : Srt v) (hl : Srt lb) (hu : Srt ub)
    (hd : Srt d) {t} (ht : t ∈ merge4d v lb ub d) :
    slackVal t = slackCur (valAt v t.1) (valAt lb t.1) (valAt ub t.1) (valAt d t.1) := by
  have := ((merge4d_spec v lb ub d hv hl hu hd).2.2.1 t ht).1
  unfold slackVal valAt
  rw [this]

/-- indices not visited by the four-cursor loop have no residual -/
theorem slackCur_of_not_visited {v lb ub d : List (Nat × K)} (hv : Srt v) (hl : Srt lb) (hu : Srt ub)
    (hd : Srt d) {i : Nat} (h : ∀ t ∈ merge4d v lb ub d, t.1 ≠ i) :
    slackCur (valAt v i) (valAt lb i) (valAt ub i) (valAt d i) = 0 := by
  have h4 := (merge4d_spec v lb ub d hv hl hu hd).2.2.2 i
  by_cases h1 : (at? d i).isSome
  · by_cases h2 : (at? v i).isSome ∨ (at? lb i).isSome ∨ (at? ub i).isSome
    · obtain ⟨t, ht, hti⟩ := h4 h1 h2
      exact absurd hti (h t ht)
    · push Not at h2
      simp only [Option.isSome_iff_ne_none, ne_eq, not_not] at h2
      unfold valAt
      rw [h2.1, h2.2.1, h2.2.2]
      exact slackCur_zero_of_v _
  · simp only [Option.isSome_iff_ne_none, ne_eq, not_not] at h1
    have : valAt d i = 0 := by unfold valAt; rw [h1]; rfl
    rw [this]; exact slackCur_zero_of_d _ _ _

theorem merge4d_lt {v lb ub d : List (Nat × K)} (hv : Srt v) (hl : Srt lb) (hu : Srt ub)
    (hd : Srt d) {n : Nat} (bv : ∀ e ∈ v, e.1 < n) (bl : ∀ e ∈ lb, e.1 < n)
    (bu : ∀ e ∈ ub, e.1 < n) (bd : ∀ e ∈ d, e.1 < n) : ∀ t ∈ merge4d v lb ub d, t.1 < n := by
  intro t ht
  rcases ((merge4d_spec v lb ub d hv hl hu hd).2.2.1 t ht).2 with h | h | h | h
  · exact lt_of_at?_isSome bv h
  · exact lt_of_at?_isSome bl h
  · exact lt_of_at?_isSome bu h
  · exact lt_of_at?_isSome bd h

omit [IsStrictOrderedRing K] in
theorem addInto_get (l : List (Nat × K)) (hs : Srt l) (a : List K) (i : Nat) :
    (addInto a l)[i]? = (a[i]?).map (· + valAt l i) := by
  induction l generalizing a with
  | nil => simp [addInto]
  | cons e t ih =>
    rw [srt_cons] at hs
    unfold addInto at ih ⊢
    rw [List.foldl_cons, ih hs.2, valAt_cons, List.getElem?_modify]
    by_cases h : e.1 = i
    · subst h
      rw [valAt_of_lt hs.1, if_pos rfl]
      cases a[e.1]? <;> simp
    · rw [if_neg h]
      cases a[i]? <;> simp [h]

omit [IsStrictOrderedRing K] in
theorem addInto_length (l : List (Nat × K)) (a : List K) : (addInto a l).length = a.length := by
  induction l generalizing a with
  | nil => rfl
  | cons e t ih =>
    unfold addInto at ih ⊢
    rw [List.foldl_cons, ih, List.length_modify]

end Sleqp
