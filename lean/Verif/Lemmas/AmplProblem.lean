import Verif.Spec.AmplProblem
import Verif.Lemmas.Ampl
import Verif.Props.Ampl
import Verif.Props.Problem
import Verif.Props.Vec
import Mathlib.Tactic.Linarith

/-! Lemmas for C111. -/

namespace Sleqp

/-- the entries written so far are those in `S` -/
def Written (S : Nat → Nat → Nat → Prop) (a : Nat → Option (Nat × Nat)) : Prop :=
  (∀ k i j, a k = some (i, j) → S i k j) ∧ ∀ k i j, S i k j → a k ≠ none

theorem scatter_inner {nzc i : Nat} {L : List (Nat × Nat)} : ∀ {S : Nat → Nat → Nat → Prop} {a : Nat → Option (Nat × Nat)},
    (∀ cg ∈ L, cg.1 < nzc) → Written S a →
    ∃ a', L.foldlM (fun (a : Nat → Option (Nat × Nat)) cg =>
      if cg.1 < nzc then some (setAt a cg.1 (some (i, cg.2))) else none) a = some a' ∧
      Written (fun i' k j => S i' k j ∨ (i' = i ∧ (k, j) ∈ L)) a' := by
  induction L with
  | nil =>
    intro S a _ h
    exact ⟨a, rfl, fun k i' j e => Or.inl (h.1 k i' j e), fun k i' j e => h.2 k i' j (by simpa using e)⟩
  | cons cg L ih =>
    intro S a hb h
    have h1 : Written (fun i' k j => S i' k j ∨ (i' = i ∧ (k, j) = cg)) (setAt a cg.1 (some (i, cg.2))) := by
      constructor
      · intro k i' j e
        unfold setAt at e
        split_ifs at e with hk
        · obtain ⟨rfl, rfl⟩ := Prod.mk.inj (Option.some.inj e)
          exact Or.inr ⟨rfl, by rw [hk]⟩
        · exact Or.inl (h.1 k i' j e)
      · intro k i' j e
        unfold setAt
        split_ifs with hk
        · simp
        · rcases e with e | ⟨_, e⟩
          · exact h.2 k i' j e
          · rw [← e] at hk
            exact absurd rfl hk
    obtain ⟨a', e', w1, w2⟩ := ih (fun c hc => hb c (List.mem_cons_of_mem _ hc)) h1
    refine ⟨a', ?_, ?_, ?_⟩
    · rw [List.foldlM_cons, if_pos (hb cg List.mem_cons_self)]
      exact e'
    · intro k i' j e
      rcases w1 k i' j e with (e | ⟨e, e2⟩) | ⟨e, e2⟩
      · exact Or.inl e
      · exact Or.inr ⟨e, by rw [e2]; exact List.mem_cons_self⟩
      · exact Or.inr ⟨e, List.mem_cons_of_mem _ e2⟩
    · intro k i' j e
      refine w2 k i' j ?_
      rcases e with e | ⟨e, e2⟩
      · exact Or.inl (Or.inl e)
      · rcases List.mem_cons.mp e2 with e2 | e2
        · exact Or.inl (Or.inr ⟨e, e2⟩)
        · exact Or.inr ⟨e, e2⟩

theorem scatter_outer {nzc : Nat} {cgrad : Nat → List (Nat × Nat)} {R : List Nat} :
    ∀ {S : Nat → Nat → Nat → Prop} {a : Nat → Option (Nat × Nat)},
    (∀ i ∈ R, ∀ cg ∈ cgrad i, cg.1 < nzc) → Written S a →
    ∃ a', R.foldlM (fun (a : Nat → Option (Nat × Nat)) i => (cgrad i).foldlM (fun (a : Nat → Option (Nat × Nat)) cg =>
      if cg.1 < nzc then some (setAt a cg.1 (some (i, cg.2))) else none) a) a = some a' ∧
      Written (fun i k j => S i k j ∨ (i ∈ R ∧ (k, j) ∈ cgrad i)) a' := by
  induction R with
  | nil =>
    intro S a _ h
    exact ⟨a, rfl, fun k i' j e => Or.inl (h.1 k i' j e), fun k i' j e => h.2 k i' j (by simpa using e)⟩
  | cons i R ih =>
    intro S a hb h
    obtain ⟨a1, e1, h1⟩ := scatter_inner (i := i) (hb i List.mem_cons_self) h
    obtain ⟨a', e', w1, w2⟩ := ih (fun c hc => hb c (List.mem_cons_of_mem _ hc)) h1
    refine ⟨a', ?_, ?_, ?_⟩
    · rw [List.foldlM_cons, e1]
      exact e'
    · intro k i' j e
      rcases w1 k i' j e with (e | ⟨e, e2⟩) | ⟨e, e2⟩
      · exact Or.inl e
      · exact Or.inr ⟨by rw [e]; exact List.mem_cons_self, by rw [e]; exact e2⟩
      · exact Or.inr ⟨List.mem_cons_of_mem _ e, e2⟩
    · intro k i' j e
      refine w2 k i' j ?_
      rcases e with e | ⟨e, e2⟩
      · exact Or.inl (Or.inl e)
      · rcases List.mem_cons.mp e with e | e
        · exact Or.inl (Or.inr ⟨e, by rw [← e]; exact e2⟩)
        · exact Or.inr ⟨e, e2⟩

variable {K : Type*} [Field K] [LinearOrder K]

/-- the scattered arrays contain exactly the nonzeros -/
theorem scatter_spec {d : AmplRead K} (h : d.Sparse) :
    ∃ a, amplScatter d.numCons d.nzc d.cgrad = some a ∧
      (∀ k i j, a k = some (i, j) ↔ i < d.numCons ∧ (k, j) ∈ d.cgrad i) ∧ ∀ k < d.nzc, ∃ i j, a k = some (i, j) := by
  obtain ⟨a, e, w1, w2⟩ := scatter_outer (nzc := d.nzc) (cgrad := d.cgrad) (R := List.range d.numCons)
    (S := fun _ _ _ => False) (a := fun _ => none) (fun i hi cg hc => (h.bound i (List.mem_range.mp hi) cg hc).1)
    ⟨fun k i j e => (by cases e), fun k i j e => e.elim⟩
  have h1 : ∀ k i j, a k = some (i, j) → i < d.numCons ∧ (k, j) ∈ d.cgrad i := by
    intro k i j e
    rcases w1 k i j e with e | ⟨e1, e2⟩
    · exact e.elim
    · exact ⟨List.mem_range.mp e1, e2⟩
  have h2 : ∀ k i j, i < d.numCons → (k, j) ∈ d.cgrad i → a k = some (i, j) := by
    intro k i j hi hj
    rcases hak : a k with _ | ⟨i', j'⟩
    · exact absurd hak (w2 k i j (Or.inr ⟨List.mem_range.mpr hi, hj⟩))
    · obtain ⟨g1, g2⟩ := h1 k i' j' hak
      obtain ⟨e1, e2⟩ := h.one i' g1 i hi _ g2 _ hj rfl
      rw [e1]
      exact congrArg some (Prod.ext rfl e2)
  refine ⟨a, e, fun k i j => ⟨h1 k i j, fun hh => h2 k i j hh.1 hh.2⟩, fun k hk => ?_⟩
  obtain ⟨i, hi, j, hj⟩ := h.cover k hk
  exact ⟨i, j, h2 k i j hi hj⟩

/-- the assertions hold -/
theorem ordered_spec {d : AmplRead K} (h : d.Sparse) {a : Nat → Option (Nat × Nat)}
    (ha : ∀ k i j, a k = some (i, j) ↔ i < d.numCons ∧ (k, j) ∈ d.cgrad i) (hc : ∀ k < d.nzc, ∃ i j, a k = some (i, j)) :
    amplOrdered d.numVars d.numCons d.nzc a = true := by
  unfold amplOrdered
  rw [List.all_eq_true]
  intro k hk
  have hk := List.mem_range.mp hk
  obtain ⟨i, j, e⟩ := hc k (by omega)
  obtain ⟨i', j', e'⟩ := hc (k + 1) (by omega)
  obtain ⟨hi, hj⟩ := (ha _ _ _).mp e
  obtain ⟨hi', hj'⟩ := (ha _ _ _).mp e'
  rw [e, e']
  have h1 := (h.bound i hi _ hj).2
  have h2 := h.order i hi i' hi' _ hj _ hj' (Nat.lt_succ_self k)
  simp only [Bool.and_eq_true, Bool.or_eq_true, decide_eq_true_eq]
  dsimp only at h1 h2
  refine ⟨⟨⟨h1, hi⟩, by omega⟩, ?_⟩
  rcases h2 with h2 | h2
  · exact Or.inl (by omega)
  · exact Or.inr h2.2

theorem mapM_getD {α β : Type*} {f : α → Option β} {g : α → β} {L : List α} (h : ∀ x ∈ L, f x = some (g x)) :
    L.mapM f = some (L.map g) := by
  induction L with
  | nil => rfl
  | cons x L ih =>
    rw [List.mapM_cons, h x List.mem_cons_self, ih fun y hy => h y (List.mem_cons_of_mem _ hy)]
    rfl

/-- the nonzeros as a list -/
theorem triplets_spec {d : AmplRead K} (h : d.Sparse) {a : Nat → Option (Nat × Nat)}
    (ha : ∀ k i j, a k = some (i, j) ↔ i < d.numCons ∧ (k, j) ∈ d.cgrad i) (hc : ∀ k < d.nzc, ∃ i j, a k = some (i, j)) :
    ∃ es, amplTriplets d a = some es ∧ TripletsSorted es ∧ (∀ e ∈ es, e.1 < d.numCons ∧ e.2.1 < d.numVars) ∧
      ∀ i j v, (i, j, v) ∈ es ↔ ∃ k < d.nzc, i < d.numCons ∧ (k, j) ∈ d.cgrad i ∧ v = d.jacVal d.x k := by
  have hmem : ∀ i j v, (i, j, v) ∈ (List.range d.nzc).map (fun k => (((a k).getD (0, 0)).1, ((a k).getD (0, 0)).2, d.jacVal d.x k)) ↔
      ∃ k < d.nzc, i < d.numCons ∧ (k, j) ∈ d.cgrad i ∧ v = d.jacVal d.x k := by
    intro i j v
    rw [List.mem_map]
    constructor
    · rintro ⟨k, hk, e⟩
      have hk := List.mem_range.mp hk
      obtain ⟨i', j', e'⟩ := hc k hk
      rw [e'] at e
      obtain ⟨rfl, e2⟩ := Prod.mk.inj e
      obtain ⟨rfl, rfl⟩ := Prod.mk.inj e2
      obtain ⟨g1, g2⟩ := (ha _ _ _).mp e'
      exact ⟨k, hk, g1, g2, rfl⟩
    · rintro ⟨k, hk, h1, h2, rfl⟩
      refine ⟨k, List.mem_range.mpr hk, ?_⟩
      rw [(ha k i j).mpr ⟨h1, h2⟩]
      rfl
  refine ⟨(List.range d.nzc).map (fun k => (((a k).getD (0, 0)).1, ((a k).getD (0, 0)).2, d.jacVal d.x k)), ?_, ?_, ?_, hmem⟩
  · unfold amplTriplets
    refine mapM_getD fun k hk => ?_
    obtain ⟨i, j, e⟩ := hc k (List.mem_range.mp hk)
    rw [e]
    rfl
  · unfold TripletsSorted
    rw [List.pairwise_map]
    refine List.Pairwise.imp_of_mem ?_ List.pairwise_lt_range
    intro k k' hk hk' hlt
    obtain ⟨i, j, e⟩ := hc k (List.mem_range.mp hk)
    obtain ⟨i', j', e'⟩ := hc k' (List.mem_range.mp hk')
    obtain ⟨hi, hj⟩ := (ha _ _ _).mp e
    obtain ⟨hi', hj'⟩ := (ha _ _ _).mp e'
    rw [e, e']
    exact h.order i hi i' hi' (k, j) hj (k', j') hj' hlt
  · rintro ⟨i, j, v⟩ he
    obtain ⟨k, _, h1, h2, _⟩ := (hmem i j v).mp he
    exact ⟨h1, (h.bound i h1 _ h2).2⟩

variable [IsStrictOrderedRing K]

theorem rawVec_spec {eps : K} {n : Nat} {f : Nat → K} (hf : ∀ i < n, |f i| ≤ eps → f i = 0) :
    ∃ r, rawVec eps n f = some r ∧ VOk n r ∧ ∀ i < n, r.value i = f i := by
  obtain ⟨r, h1, h2, h3, h4⟩ := setFromRaw_spec eps (Vec.create n 0 : Vec K) ((List.range n).map f)
  refine ⟨r, h1, ⟨h2, by simpa using h3⟩, fun i hi => ?_⟩
  have hv : ((List.range n).map f)[i]? = some (f i) := by simp [hi]
  rw [h4, hv]
  show (if |f i| ≤ eps then 0 else f i) = f i
  split_ifs with hc
  · exact (hf i hi hc).symm
  · rfl

/-- a bound which is infinite or ordinary, after mapping -/
theorem mapInf_lb {aInf inf eps b : K} (ha : inf / 2 ≤ aInf) (he : eps < inf / 2) (h0 : 0 ≤ eps)
    (h : b = -aInf ∨ |b| < inf / 2) : (b = -aInf ∧ mapAmplInf aInf inf b = -inf) ∨ (b ≠ -aInf ∧ b ≠ aInf ∧ mapAmplInf aInf inf b = b) := by
  rcases h with h | h
  · exact Or.inl ⟨h, by rw [mapAmplInf, if_pos h]⟩
  · obtain ⟨h1, h2⟩ := abs_lt.mp h
    have e1 : b ≠ -aInf := by intro hh; linarith
    have e2 : b ≠ aInf := by intro hh; linarith
    exact Or.inr ⟨e1, e2, by rw [mapAmplInf, if_neg e1, if_neg e2]⟩

theorem mapInf_ub {aInf inf eps b : K} (ha : inf / 2 ≤ aInf) (he : eps < inf / 2) (h0 : 0 ≤ eps)
    (h : b = aInf ∨ |b| < inf / 2) : (b = aInf ∧ mapAmplInf aInf inf b = inf) ∨ (b ≠ -aInf ∧ b ≠ aInf ∧ mapAmplInf aInf inf b = b) := by
  rcases h with h | h
  · refine Or.inl ⟨h, ?_⟩
    have e1 : b ≠ -aInf := by intro hh; linarith
    rw [mapAmplInf, if_neg e1, if_pos h]
  · obtain ⟨h1, h2⟩ := abs_lt.mp h
    have e1 : b ≠ -aInf := by intro hh; linarith
    have e2 : b ≠ aInf := by intro hh; linarith
    exact Or.inr ⟨e1, e2, by rw [mapAmplInf, if_neg e1, if_neg e2]⟩

/-- mapped bounds say the same as those of the model -/
theorem respects_iff {aInf inf eps l u v : K} (ha : inf / 2 ≤ aInf) (he : eps < inf / 2) (h0 : 0 ≤ eps)
    (hl : l = -aInf ∨ |l| < inf / 2) (hu : u = aInf ∨ |u| < inf / 2) :
    RespectsBounds inf (mapAmplInf aInf inf l, mapAmplInf aInf inf u) v ↔ AmplWithin aInf l u v := by
  unfold RespectsBounds AmplWithin
  have h1 : (-(inf / 2) < mapAmplInf aInf inf l → mapAmplInf aInf inf l ≤ v) ↔ (l = -aInf ∨ l ≤ v) := by
    rcases mapInf_lb ha he h0 hl with ⟨e1, e2⟩ | ⟨e1, _, e2⟩
    · rw [e2]
      exact ⟨fun _ => Or.inl e1, fun _ hh => by exfalso; linarith⟩
    · rw [e2]
      have := (abs_lt.mp (hl.resolve_left e1)).1
      exact ⟨fun hh => Or.inr (hh this), fun hh _ => hh.resolve_left e1⟩
  have h2 : (mapAmplInf aInf inf u < inf / 2 → v ≤ mapAmplInf aInf inf u) ↔ (u = aInf ∨ v ≤ u) := by
    rcases mapInf_ub ha he h0 hu with ⟨e1, e2⟩ | ⟨_, e1, e2⟩
    · rw [e2]
      exact ⟨fun _ => Or.inl e1, fun _ hh => by exfalso; linarith⟩
    · rw [e2]
      have := (abs_lt.mp (hu.resolve_left e1)).2
      exact ⟨fun hh => Or.inr (hh this), fun hh _ => hh.resolve_left e1⟩
  exact and_congr h1 h2

theorem mapInf_le {aInf inf eps l u : K} (ha : inf / 2 ≤ aInf) (he : eps < inf / 2) (h0 : 0 ≤ eps)
    (hl : l = -aInf ∨ |l| < inf / 2) (hu : u = aInf ∨ |u| < inf / 2) :
    mapAmplInf aInf inf l ≤ mapAmplInf aInf inf u ↔ l ≤ u := by
  rcases mapInf_lb ha he h0 hl with ⟨e1, e2⟩ | ⟨e1, _, e2⟩ <;> rcases mapInf_ub ha he h0 hu with ⟨f1, f2⟩ | ⟨_, f1, f2⟩ <;> rw [e2, f2]
  · exact ⟨fun _ => by linarith, fun _ => by linarith⟩
  · have := abs_lt.mp (hu.resolve_left f1)
    exact ⟨fun _ => by linarith, fun _ => by linarith⟩
  · have := abs_lt.mp (hl.resolve_left e1)
    exact ⟨fun _ => by linarith, fun _ => by linarith⟩

theorem mapInf_keep_lb {aInf inf eps b : K} (ha : inf / 2 ≤ aInf) (he : eps < inf / 2) (h0 : 0 ≤ eps)
    (h : b = -aInf ∨ Ordinary inf eps b) : |mapAmplInf aInf inf b| ≤ eps → mapAmplInf aInf inf b = 0 := by
  rcases mapInf_lb ha he h0 (h.imp_right And.left) with ⟨e1, e2⟩ | ⟨e1, _, e2⟩
  · rw [e2, abs_neg, abs_of_pos (by linarith)]
    intro hh
    exfalso
    linarith
  · rw [e2]
    exact (h.resolve_left e1).2

theorem mapInf_keep_ub {aInf inf eps b : K} (ha : inf / 2 ≤ aInf) (he : eps < inf / 2) (h0 : 0 ≤ eps)
    (h : b = aInf ∨ Ordinary inf eps b) : |mapAmplInf aInf inf b| ≤ eps → mapAmplInf aInf inf b = 0 := by
  rcases mapInf_ub ha he h0 (h.imp_right And.left) with ⟨e1, e2⟩ | ⟨_, e1, e2⟩
  · rw [e2, abs_of_pos (by linarith)]
    intro hh
    exfalso
    linarith
  · rw [e2]
    exact (h.resolve_left e1).2

/-- the shifted bounds of a linear constraint -/
theorem shift_cases {aInf inf eps c l u : K} (ha : inf / 2 ≤ aInf) (he : eps < inf / 2) (h0 : 0 ≤ eps) (hc : |c| ≤ inf / 2)
    (hl : l = -aInf ∨ (|l| < inf / 2 ∧ Ordinary inf eps (l - c))) (hu : u = aInf ∨ (|u| < inf / 2 ∧ Ordinary inf eps (u - c))) :
    ((l = -aInf ∧ (amplShiftBounds inf c (mapAmplInf aInf inf l) (mapAmplInf aInf inf u)).1 = -inf) ∨
      (l ≠ -aInf ∧ (amplShiftBounds inf c (mapAmplInf aInf inf l) (mapAmplInf aInf inf u)).1 = l - c)) ∧
    ((u = aInf ∧ (amplShiftBounds inf c (mapAmplInf aInf inf l) (mapAmplInf aInf inf u)).2 = inf - c) ∨
      (u ≠ aInf ∧ (amplShiftBounds inf c (mapAmplInf aInf inf l) (mapAmplInf aInf inf u)).2 = u - c)) := by
  unfold amplShiftBounds
  dsimp only
  constructor
  · rcases mapInf_lb ha he h0 (hl.imp_right And.left) with ⟨e1, e2⟩ | ⟨e1, _, e2⟩
    · exact Or.inl ⟨e1, by rw [e2, if_neg (not_not.mpr rfl)]⟩
    · have := abs_lt.mp (hl.resolve_left e1).1
      exact Or.inr ⟨e1, by rw [e2, if_pos (by intro hh; linarith)]⟩
  · rcases mapInf_ub ha he h0 (hu.imp_right And.left) with ⟨e1, e2⟩ | ⟨_, e1, e2⟩
    · exact Or.inl ⟨e1, by rw [e2, if_pos (by intro hh; linarith)]⟩
    · have := abs_lt.mp (hu.resolve_left e1).1
      exact Or.inr ⟨e1, by rw [e2, if_pos (by intro hh; linarith)]⟩

theorem shift_keep {aInf inf eps c l u : K} (ha : inf / 2 ≤ aInf) (he : eps < inf / 2) (h0 : 0 ≤ eps) (hc : |c| ≤ inf / 2)
    (hl : l = -aInf ∨ (|l| < inf / 2 ∧ Ordinary inf eps (l - c))) (hu : u = aInf ∨ (|u| < inf / 2 ∧ Ordinary inf eps (u - c))) :
    (|(amplShiftBounds inf c (mapAmplInf aInf inf l) (mapAmplInf aInf inf u)).1| ≤ eps →
      (amplShiftBounds inf c (mapAmplInf aInf inf l) (mapAmplInf aInf inf u)).1 = 0) ∧
    (|(amplShiftBounds inf c (mapAmplInf aInf inf l) (mapAmplInf aInf inf u)).2| ≤ eps →
      (amplShiftBounds inf c (mapAmplInf aInf inf l) (mapAmplInf aInf inf u)).2 = 0) := by
  obtain ⟨hh1, hh2⟩ := shift_cases ha he h0 hc hl hu
  obtain ⟨c1, c2⟩ := abs_le.mp hc
  constructor
  · rcases hh1 with ⟨_, e2⟩ | ⟨e1, e2⟩
    · rw [e2, abs_neg, abs_of_pos (by linarith)]
      intro hh
      exfalso
      linarith
    · rw [e2]
      exact (hl.resolve_left e1).2.2
  · rcases hh2 with ⟨_, e2⟩ | ⟨e1, e2⟩
    · rw [e2, abs_of_pos (by linarith)]
      intro hh
      exfalso
      linarith
    · rw [e2]
      exact (hu.resolve_left e1).2.2

theorem shift_respects {aInf inf eps c l u v : K} (ha : inf / 2 ≤ aInf) (he : eps < inf / 2) (h0 : 0 ≤ eps) (hc : |c| ≤ inf / 2)
    (hl : l = -aInf ∨ (|l| < inf / 2 ∧ Ordinary inf eps (l - c))) (hu : u = aInf ∨ (|u| < inf / 2 ∧ Ordinary inf eps (u - c))) :
    RespectsBounds inf (amplShiftBounds inf c (mapAmplInf aInf inf l) (mapAmplInf aInf inf u)) v ↔ AmplWithin aInf l u (v + c) := by
  obtain ⟨hh1, hh2⟩ := shift_cases ha he h0 hc hl hu
  obtain ⟨c1, c2⟩ := abs_le.mp hc
  unfold RespectsBounds AmplWithin
  refine and_congr ?_ ?_
  · rcases hh1 with ⟨e1, e2⟩ | ⟨e1, e2⟩
    · rw [e2]
      exact ⟨fun _ => Or.inl e1, fun _ hh => by exfalso; linarith⟩
    · rw [e2]
      have := (abs_lt.mp (hl.resolve_left e1).2.1).1
      exact ⟨fun hh => Or.inr (by linarith [hh this]), fun hh _ => by linarith [hh.resolve_left e1]⟩
  · rcases hh2 with ⟨e1, e2⟩ | ⟨e1, e2⟩
    · rw [e2]
      exact ⟨fun _ => Or.inl e1, fun _ hh => by exfalso; linarith⟩
    · rw [e2]
      have := (abs_lt.mp (hu.resolve_left e1).2.1).2
      exact ⟨fun hh => Or.inr (by linarith [hh this]), fun hh _ => by linarith [hh.resolve_left e1]⟩

theorem shift_le {aInf inf eps c l u : K} (ha : inf / 2 ≤ aInf) (he : eps < inf / 2) (h0 : 0 ≤ eps) (hc : |c| ≤ inf / 2)
    (hl : l = -aInf ∨ (|l| < inf / 2 ∧ Ordinary inf eps (l - c))) (hu : u = aInf ∨ (|u| < inf / 2 ∧ Ordinary inf eps (u - c))) :
    (amplShiftBounds inf c (mapAmplInf aInf inf l) (mapAmplInf aInf inf u)).1 ≤
      (amplShiftBounds inf c (mapAmplInf aInf inf l) (mapAmplInf aInf inf u)).2 ↔ l ≤ u := by
  obtain ⟨hh1, hh2⟩ := shift_cases ha he h0 hc hl hu
  obtain ⟨c1, c2⟩ := abs_le.mp hc
  rcases hh1 with ⟨e1, e2⟩ | ⟨e1, e2⟩ <;> rcases hh2 with ⟨f1, f2⟩ | ⟨f1, f2⟩ <;> rw [e2, f2]
  · exact ⟨fun _ => by linarith, fun _ => by linarith⟩
  · have h1 := abs_lt.mp (hu.resolve_left f1).1
    have h2 := abs_lt.mp (hu.resolve_left f1).2.1
    exact ⟨fun _ => by linarith, fun _ => by linarith⟩
  · have h1 := abs_lt.mp (hl.resolve_left e1).1
    have h2 := abs_lt.mp (hl.resolve_left e1).2.1
    exact ⟨fun _ => by linarith, fun _ => by linarith⟩
  · exact ⟨fun _ => by linarith, fun _ => by linarith⟩

end Sleqp
