import Verif.Lemmas.VecNum
import Verif.Model.Ext
import Mathlib.Tactic.IntervalCases
import Mathlib.Tactic.NormNum

/-! C02–C06: sparse vectors. -/

namespace Sleqp

open Finset

/-! ## C02 -/

section C02
variable {K : Type*} [Field K] [LinearOrder K]

/-- Mutating calls of the vector API on one target vector.  Arguments that are
vectors are arbitrary (even ill formed) values. -/
inductive VecOp (K : Type*) where
  | push (i : Nat) (x : K)
  | clear
  | reserve (n : Nat)
  | resize (n : Nat)
  | scale (f : K)
  | fill (x : K)
  | copyFrom (w : Vec K)
  | addScaled (a b : Vec K) (f g eps : K)
  | clip (x lb ub : Vec K) (eps : K)
  | concat (a b : Vec K)
  | remove (s : Vec K) (rem : List Nat)
  | setFromRaw (eps : K) (values : List K)

/-- Effect of one call on the target vector; `none` = assertion failure. -/
def VecOp.apply (v : Vec K) : VecOp K → Option (Vec K)
  | .push i x => v.push i x
  | .clear => some v.clear
  | .reserve n => some (v.reserve n)
  | .resize n => some (v.resize n)
  | .scale f => some (v.scale f)
  | .fill x => some (v.fill x)
  | .copyFrom w => Vec.copy w v
  | .addScaled a b f g eps => Vec.addScaled a b f g eps v
  | .clip x lb ub eps => Vec.clip x lb ub eps v
  | .concat a b => Vec.concat a b v
  | .remove s rem => Vec.removeEntries s v rem
  | .setFromRaw eps vals => v.setFromRaw eps vals

omit [Field K] [LinearOrder K] in
theorem push_wf {v w : Vec K} {i : Nat} {x : K} (hv : v.WF) (h : v.push i x = some w) : w.WF := by
  obtain ⟨rfl, h1, h2, h3⟩ := Vec.push_eq_some h
  refine ⟨?_, ?_, ?_⟩
  · rw [srt_append]
    refine ⟨hv.srt, by simp [Srt], ?_⟩
    intro a ha b hb
    simp only [List.mem_singleton] at hb
    subst hb
    rcases List.eq_nil_or_concat v.ents with h4 | ⟨l, z, h4⟩
    · rw [h4] at ha; simp at ha
    · have h5 : z.1 < i := h3 z (by simp [h4])
      rw [h4] at ha
      rw [List.concat_eq_append] at ha
      rcases List.mem_append.mp ha with h6 | h6
      · have := hv.srt; rw [h4] at this
        rw [List.concat_eq_append] at this
        exact lt_trans ((srt_append.mp this).2.2 a h6 z (by simp)) h5
      · rw [List.mem_singleton] at h6; rw [h6]; exact h5
  · intro e he
    rcases List.mem_append.mp he with h | h
    · exact hv.lt_dim e h
    · simp at h; rw [h]; exact h2
  · simp only [List.length_append, List.length_singleton]; omega

omit [Field K] [LinearOrder K] in
theorem foldlM_wf {τ : Type*} (f : Vec K → τ → Option (Vec K))
    (hf : ∀ v t w, v.WF → f v t = some w → w.WF) (l : List τ) :
    ∀ v w : Vec K, v.WF → l.foldlM f v = some w → w.WF := by
  induction l with
  | nil => intro v w hv h; simp at h; rw [← h]; exact hv
  | cons e t ih =>
    intro v w hv h
    rw [List.foldlM_cons] at h
    simp only [Option.bind_eq_bind] at h
    obtain ⟨u, h1, h2⟩ := Option.bind_eq_some_iff.mp h
    exact ih u w (hf v e u hv h1) h2

omit [Field K] [LinearOrder K] in
theorem pushAll_wf {v w : Vec K} {l : List (Nat × K)} (hv : v.WF) (h : v.pushAll l = some w) : w.WF :=
  foldlM_wf _ (fun _ _ _ h1 h2 => push_wf h1 h2) l v w hv h

omit [Field K] [LinearOrder K] in
theorem clear_wf (v : Vec K) : v.clear.WF := ⟨by simp [Vec.clear, Srt], by simp [Vec.clear], by simp [Vec.clear]⟩

omit [Field K] [LinearOrder K] in
theorem reserve_wf {v : Vec K} (hv : v.WF) (n : Nat) : (v.reserve n).WF :=
  ⟨hv.srt, hv.lt_dim, le_trans hv.le_cap (le_max_left _ _)⟩

omit [Field K] [LinearOrder K] in
theorem resize_wf {v : Vec K} (hv : v.WF) (n : Nat) : (v.resize n).WF := by
  unfold Vec.resize
  split
  · rename_i h
    set p : Nat × K → Bool := fun e => decide (n ≤ e.1) with hp
    have hsub : (v.ents.reverse.dropWhile p).reverse <+: v.ents := by
      have h1 := List.dropWhile_suffix p (l := v.ents.reverse)
      have := List.reverse_prefix.mpr h1
      simpa using this
    refine ⟨List.Pairwise.sublist hsub.sublist hv.srt, ?_, le_trans hsub.length_le hv.le_cap⟩
    intro e he
    have he' : e ∈ v.ents.reverse.dropWhile p := by simpa using he
    have hrev : (v.ents.reverse).Pairwise fun a b => b.1 < a.1 := by
      rw [List.pairwise_reverse]; exact hv.srt
    clear hsub he h hv
    generalize v.ents.reverse = l at he' hrev
    induction l with
    | nil => simp at he'
    | cons a t ih =>
      rw [List.pairwise_cons] at hrev
      rw [List.dropWhile_cons] at he'
      by_cases hpa : p a = true
      · rw [if_pos hpa] at he'; exact ih he' hrev.2
      · rw [if_neg hpa] at he'
        have ha : a.1 < n := by simpa [hp] using hpa
        rcases List.mem_cons.mp he' with h | h
        · rw [h]; exact ha
        · exact lt_trans (hrev.1 e h) ha
  · rename_i h
    exact ⟨hv.srt, fun e he => lt_of_lt_of_le (hv.lt_dim e he) (by simpa using h), hv.le_cap⟩

theorem scale_wf {v : Vec K} (hv : v.WF) (f : K) : (v.scale f).WF := by
  unfold Vec.scale
  split
  · exact clear_wf v
  · split
    · exact hv
    · refine ⟨srt_map_snd _ hv.srt, ?_, by simpa using hv.le_cap⟩
      intro e he
      obtain ⟨a, ha, rfl⟩ := List.mem_map.mp he
      exact hv.lt_dim a ha

theorem fill_wf (v : Vec K) (x : K) : (v.fill x).WF := by
  unfold Vec.fill
  split
  · exact clear_wf v
  · refine ⟨?_, ?_, ?_⟩
    · simp only [Srt, List.pairwise_map]
      exact List.pairwise_lt_range
    · intro e he
      obtain ⟨a, ha, rfl⟩ := List.mem_map.mp he
      exact List.mem_range.mp ha
    · simp [Vec.reserve]

/-- C02 (one call): a successful call leaves a well formed vector, whatever the
arguments. -/
theorem C02_step (v w : Vec K) (op : VecOp K) (hv : v.WF) (h : op.apply v = some w) : w.WF := by
  cases op with
  | push i x => exact push_wf hv h
  | clear => simp [VecOp.apply] at h; rw [← h]; exact clear_wf v
  | reserve n => simp [VecOp.apply] at h; rw [← h]; exact reserve_wf hv n
  | resize n => simp [VecOp.apply] at h; rw [← h]; exact resize_wf hv n
  | scale f => simp [VecOp.apply] at h; rw [← h]; exact scale_wf hv f
  | fill x => simp [VecOp.apply] at h; rw [← h]; exact fill_wf v x
  | copyFrom w' =>
    simp only [VecOp.apply, Vec.copy] at h
    split at h
    · exact pushAll_wf (clear_wf _) h
    · simp at h
  | addScaled a b f g eps =>
    simp only [VecOp.apply, Vec.addScaled] at h
    split at h
    · refine foldlM_wf _ ?_ _ _ _ (reserve_wf (resize_wf (clear_wf v) _) _) h
      intro v t w hv hs
      split at hs
      · simp at hs; rw [← hs]; exact hv
      · exact push_wf hv hs
    · simp at h
  | clip x lb ub eps =>
    simp only [VecOp.apply, Vec.clip] at h
    obtain ⟨u, h1, h2⟩ := Option.bind_eq_some_iff.mp h
    have hu : u.WF := by
      unfold Vec.clipLoop at h1
      split at h1
      · refine foldlM_wf _ ?_ _ _ _ (reserve_wf (clear_wf v) _) h1
        intro v t w hv hs
        split at hs
        · exact push_wf hv hs
        · simp at hs; rw [← hs]; exact hv
      · simp at h1
    split at h2
    · simp at h2; rw [← h2]; exact hu
    · simp at h2
  | concat a b =>
    simp only [VecOp.apply, Vec.concat] at h
    obtain ⟨u, h1, h2⟩ := Option.bind_eq_some_iff.mp h
    exact pushAll_wf (pushAll_wf (resize_wf (reserve_wf (clear_wf v) _) _) h1) h2
  | remove s rem =>
    simp only [VecOp.apply, Vec.removeEntries] at h
    split at h
    · exact pushAll_wf (reserve_wf (clear_wf v) _) h
    · simp at h
  | setFromRaw eps vals =>
    simp only [VecOp.apply, Vec.setFromRaw, Vec.setFromRawWith] at h
    exact pushAll_wf (reserve_wf (resize_wf (clear_wf v) _) _) h

/-- C02: any sequence of successful calls on a freshly created vector leaves it
well formed. -/
theorem C02_reachable_wf (dim cap : Nat) (ops : List (VecOp K)) (w : Vec K)
    (h : ops.foldlM (fun v op => op.apply v) (Vec.create dim cap) = some w) : w.WF :=
  foldlM_wf _ (fun v op w hv hs => C02_step v w op hv hs) ops _ _
    ⟨by simp [Vec.create, Srt], by simp [Vec.create], by simp [Vec.create]⟩ h

omit [Field K] [LinearOrder K] in
/-- The library's own validity check accepts exactly the well formed vectors. -/
theorem C02_isValid_iff (v : Vec K) : v.isValid = true ↔ v.WF := by
  have key : ∀ l : List (Nat × K), ((l.zip l.tail).all fun p => decide (p.1.1 < p.2.1)) = true ↔ Srt l := by
    intro l
    induction l with
    | nil => simp [Srt]
    | cons a t ih =>
      cases t with
      | nil => simp [Srt]
      | cons b s =>
        have h2 : ((a :: b :: s).zip (a :: b :: s).tail) = (a, b) :: ((b :: s).zip (b :: s).tail) := rfl
        rw [h2, List.all_cons, Bool.and_eq_true, ih, srt_cons (e := a)]
        simp only [decide_eq_true_eq]
        constructor
        · rintro ⟨h1, h3⟩
          refine ⟨?_, h3⟩
          intro e he
          rcases List.mem_cons.mp he with h | h
          · rw [h]; exact h1
          · exact lt_trans h1 ((srt_cons.mp h3).1 e h)
        · rintro ⟨h1, h3⟩
          exact ⟨h1 b (by simp), h3⟩
  unfold Vec.isValid
  rw [Bool.and_eq_true, Bool.or_eq_true, Bool.and_eq_true, key, decide_eq_true_eq]
  constructor
  · rintro ⟨h1, h2⟩
    rcases h2 with h2 | ⟨h2, h3⟩
    · have : v.ents = [] := by simpa using h2
      exact ⟨by rw [this]; exact Srt.nil, by rw [this]; simp, h1⟩
    · refine ⟨h2, ?_, h1⟩
      intro e he
      rcases List.eq_nil_or_concat v.ents with h4 | ⟨l, z, h4⟩
      · rw [h4] at he; simp at he
      · rw [List.concat_eq_append] at h4
        have hz : z.1 < v.dim := by rw [h4] at h3; simpa using h3
        rw [h4] at he h2
        rcases List.mem_append.mp he with h6 | h6
        · exact lt_trans ((srt_append.mp h2).2.2 e h6 z (by simp)) hz
        · simp at h6; rw [h6]; exact hz
  · intro h
    refine ⟨h.le_cap, Or.inr ⟨h.srt, ?_⟩⟩
    rcases h1 : v.ents.getLast? with _ | z
    · rfl
    · simpa using h.lt_dim z (List.mem_of_getLast? h1)

/-- Refusal: pushing out of range, out of order or beyond the capacity is
refused. -/
theorem C02_push_refused (v : Vec ℚ) (i : Nat) (x : ℚ)
    (h : v.cap ≤ v.nnz ∨ v.dim ≤ i ∨ ∃ e ∈ v.ents.getLast?, i ≤ e.1) : v.push i x = none := by
  unfold Vec.push
  rw [if_neg]
  rintro ⟨h1, h2, h3⟩
  rcases h with h | h | ⟨e, he, h⟩
  · unfold Vec.nnz at h; omega
  · omega
  · have := h3 e he; omega

-- non-vacuity: a successful sequence ending in a non-trivial vector
example : ([VecOp.push 1 (2 : ℚ), .push 3 5, .resize 7, .reserve 4, .push 6 1].foldlM
    (fun v op => op.apply v) (Vec.create 4 2)) =
    some ⟨7, 4, [(1, 2), (3, 5), (6, 1)]⟩ := by
  simp [VecOp.apply, Vec.push, Vec.create, Vec.resize, Vec.reserve]

end C02

/-! ## C03 -/

section C03
variable {K : Type*} [Field K] [LinearOrder K] [IsStrictOrderedRing K]

/-- C03: scaled addition never runs out of the capacity it reserved, returns a
well formed vector and computes the dense sum, with entries of magnitude at most
`eps` replaced by `0`. -/
theorem C03_add_scaled (a b r0 : Vec K) (f g eps : K) (ha : a.WF) (hb : b.WF) (hd : a.dim = b.dim)
    (heps : 0 ≤ eps) :
    ∃ r, Vec.addScaled a b f g eps r0 = some r ∧ r.WF ∧ r.dim = a.dim ∧
      ∀ i, r.value i =
        (if |f * a.value i + g * b.value i| ≤ eps then 0 else f * a.value i + g * b.value i) := by
  have hsm := merge2_srt ha.srt hb.srt
  set L := ((merge2 a.ents b.ents).filter fun t => !isZero (Vec.addVal f g t) eps).map
      fun t => (t.1, Vec.addVal f g t) with hL
  set r1 := ((r0.clear).resize a.dim).reserve (a.nnz + b.nnz) with hr1
  have e1 : r1.ents = [] := by
    have : (r0.clear.resize a.dim).ents = [] := by unfold Vec.resize; split <;> simp [Vec.clear]
    rw [hr1]; exact this
  have d1 : r1.dim = a.dim := by
    have : (r0.clear.resize a.dim).dim = a.dim := by unfold Vec.resize; split <;> rfl
    rw [hr1]; exact this
  have sL : Srt L := srt_map_snd (fun t => Vec.addVal f g t) (srt_filter _ hsm)
  have hcap : L.length ≤ r1.cap := by
    have : L.length ≤ a.nnz + b.nnz := by
      rw [hL, List.length_map]
      exact le_trans (List.length_filter_le _ _) (merge2_length_le _ _)
    exact le_trans this (le_max_right _ _)
  have hlt : ∀ e ∈ L, e.1 < r1.dim := by
    intro e he
    obtain ⟨t, ht, rfl⟩ := List.mem_map.mp he
    rw [d1]
    exact merge2_lt ha.srt hb.srt ha.lt_dim (hd ▸ hb.lt_dim) t (List.mem_of_mem_filter ht)
  have hpush := Vec.pushAll_ok r1 L (by rw [e1]; simpa using sL) hlt (by rw [e1]; simpa using hcap)
  refine ⟨{ r1 with ents := L }, ?_, ⟨sL, hlt, hcap⟩, d1, ?_⟩
  · unfold Vec.addScaled
    rw [if_pos hd]
    have := Vec.foldlM_push_map (fun t => isZero (Vec.addVal f g t) eps)
      (fun t => (t.1, Vec.addVal f g t)) r1 (merge2 a.ents b.ents)
    simp only at this ⊢
    rw [this, ← hL, hpush, e1]; simp
  · intro i
    change valAt L i = _
    rw [hL, valAt_filter_map hsm (fun t => isZero (Vec.addVal f g t) eps) (fun t => Vec.addVal f g t),
      merge2_at ha.srt hb.srt]
    unfold Vec.value valAt
    rcases at? a.ents i with _ | x <;> rcases at? b.ents i with _ | y <;>
      simp [comb2, Vec.addVal, isZero]
    by_cases h : |f * x + g * y| ≤ eps <;> simp [h]

/-- C03: the dot product is the dense dot product. -/
theorem C03_dot (a b : Vec K) (ha : a.WF) (hb : b.WF) (hd : a.dim = b.dim) :
    Vec.dot a b = some (∑ i ∈ range a.dim, a.value i * b.value i) := by
  unfold Vec.dot
  rw [if_pos hd, dotList_eq ha.srt hb.srt, zero_add]
  congr 1
  have := sum_range_valAt ha.srt ha.lt_dim (fun i x => x * valAt b.ents i) (by simp)
  rw [← this]; rfl

/-- C03: scaling multiplies every coordinate. -/
theorem C03_scale (a : Vec K) (f : K) :
    (a.scale f).dim = a.dim ∧ ∀ i, (a.scale f).value i = a.value i * f := by
  unfold Vec.scale
  split
  · rename_i h; subst h; exact ⟨rfl, fun i => by simp [Vec.clear, Vec.value]⟩
  · split
    · rename_i h; subst h; exact ⟨rfl, by simp⟩
    · refine ⟨rfl, fun i => ?_⟩
      unfold Vec.value valAt
      rw [show (List.map (fun e : Nat × K => (e.1, e.2 * f)) a.ents) =
        a.ents.map (fun e => (e.1, (fun e : Nat × K => e.2 * f) e)) from rfl, at?_map]
      rcases at? a.ents i with _ | x <;> simp

/-- C03: filling sets every coordinate. -/
theorem C03_fill (a : Vec K) (x : K) : (a.fill x).dim = a.dim ∧ ∀ i < a.dim, (a.fill x).value i = x := by
  unfold Vec.fill
  split
  · rename_i h; subst h; exact ⟨rfl, fun i _ => by simp [Vec.clear, Vec.value]⟩
  · refine ⟨rfl, fun i hi => ?_⟩
    have hw := (fill_wf a x).srt
    unfold Vec.fill at hw
    rw [if_neg ‹_›] at hw
    exact valAt_of_mem hw (e := (i, x)) (List.mem_map.mpr ⟨i, List.mem_range.mpr hi, rfl⟩)

/-- C03: concatenation places the second vector behind the first. -/
theorem C03_concat (a b r0 : Vec K) (ha : a.WF) (hb : b.WF) :
    ∃ r, Vec.concat a b r0 = some r ∧ r.WF ∧ r.dim = a.dim + b.dim ∧
      (∀ i < a.dim, r.value i = a.value i) ∧ ∀ i, r.value (a.dim + i) = b.value i := by
  set r1 := ((r0.clear).reserve (a.nnz + b.nnz)).resize (a.dim + b.dim) with hr1
  have e1 : r1.ents = [] := by
    rw [hr1]; unfold Vec.resize; split <;> simp [Vec.clear, Vec.reserve]
  have d1 : r1.dim = a.dim + b.dim := by rw [hr1]; unfold Vec.resize; split <;> rfl
  have c1 : a.nnz + b.nnz ≤ r1.cap := by
    rw [hr1]; unfold Vec.resize; split <;> exact le_max_right _ _
  set B := b.ents.map fun e => (e.1 + a.dim, e.2) with hB
  have sB : Srt B := by
    rw [hB, Srt, List.pairwise_map]; exact hb.srt.imp fun h => by simpa using h
  have hp1 := Vec.pushAll_ok r1 a.ents (by rw [e1]; simpa using ha.srt)
    (fun e he => by rw [d1]; have := ha.lt_dim e he; omega)
    (by rw [e1]; unfold Vec.nnz at c1; simp; omega)
  rw [e1, List.nil_append] at hp1
  have sAB : Srt (a.ents ++ B) := by
    rw [srt_append]
    refine ⟨ha.srt, sB, ?_⟩
    intro x hx y hy
    obtain ⟨z, hz, rfl⟩ := List.mem_map.mp hy
    have := ha.lt_dim x hx
    simp; omega
  have hltB : ∀ e ∈ B, e.1 < a.dim + b.dim := by
    intro e he
    obtain ⟨z, hz, rfl⟩ := List.mem_map.mp he
    have := hb.lt_dim z hz
    simp; omega
  have hp2 := Vec.pushAll_ok { r1 with ents := a.ents } B sAB
    (fun e he => by rw [show ({ r1 with ents := a.ents } : Vec K).dim = r1.dim from rfl, d1]; exact hltB e he)
    (by rw [hB]; unfold Vec.nnz at c1; simp; omega)
  refine ⟨{ r1 with ents := a.ents ++ B }, ?_, ⟨sAB, ?_, ?_⟩, d1, ?_, ?_⟩
  · unfold Vec.concat
    simp only [← hr1, ← hB]
    rw [hp1]; exact hp2
  · intro e he
    change e.1 < r1.dim
    rw [d1]
    rcases List.mem_append.mp he with h | h
    · have := ha.lt_dim e h; omega
    · exact hltB e h
  · change (a.ents ++ B).length ≤ r1.cap
    unfold Vec.nnz at c1
    simp [hB]; omega
  · intro i hi
    unfold Vec.value valAt
    congr 1
    rcases h : at? a.ents i with _ | x
    · apply at?_none_of_forall
      intro e he
      rcases List.mem_append.mp he with h1 | h1
      · intro h2
        have := at?_isSome_iff.mpr ⟨e, h1, h2⟩
        rw [h] at this; simp at this
      · obtain ⟨z, hz, rfl⟩ := List.mem_map.mp h1
        simp; omega
    · exact at?_of_mem sAB (List.mem_append_left _ (mem_of_at? h))
  · intro i
    unfold Vec.value valAt
    congr 1
    rcases h : at? b.ents i with _ | x
    · apply at?_none_of_forall
      intro e he
      rcases List.mem_append.mp he with h1 | h1
      · have := ha.lt_dim e h1; omega
      · obtain ⟨z, hz, rfl⟩ := List.mem_map.mp h1
        intro h2
        simp at h2
        have h2 : z.1 = i := by omega
        have := at?_isSome_iff.mpr ⟨z, hz, h2⟩
        rw [h] at this; simp at this
    · refine at?_of_mem sAB (List.mem_append_right _ ?_)
      exact List.mem_map.mpr ⟨(i, x), mem_of_at? h, by simp [add_comm]⟩

/-- C03: one norm, squared two norm. -/
theorem C03_norms (a : Vec K) (ha : a.WF) :
    a.oneNorm = ∑ i ∈ range a.dim, |a.value i| ∧ a.normSq = ∑ i ∈ range a.dim, a.value i ^ 2 := by
  constructor
  · unfold Vec.oneNorm
    rw [foldl_add_map (fun e : Nat × K => |e.2|), zero_add]
    have := sum_range_valAt ha.srt ha.lt_dim (fun _ x => |x|) (by simp)
    exact this.symm
  · unfold Vec.normSq
    rw [foldl_add_map (fun e : Nat × K => e.2 * e.2), zero_add]
    have := sum_range_valAt ha.srt ha.lt_dim (fun _ x => x * x) (by simp)
    rw [← this]
    exact Finset.sum_congr rfl fun i _ => (sq _).symm

/-- C03: the infinity norm is the largest magnitude (0 for the zero vector). -/
theorem C03_inf_norm (a : Vec K) (ha : a.WF) :
    (∀ i, |a.value i| ≤ a.infNorm) ∧ (a.infNorm = 0 ∨ ∃ i < a.dim, a.infNorm = |a.value i|) := by
  obtain ⟨h1, h2, h3⟩ := foldl_max_spec a.ents 0
  constructor
  · intro i
    unfold Vec.value
    by_cases h : valAt a.ents i = 0
    · rw [h, abs_zero]; exact h1
    · obtain ⟨x, hx⟩ := Option.isSome_iff_exists.mp (valAt_ne_zero h)
      have : valAt a.ents i = x := by unfold valAt; rw [hx]; rfl
      rw [this]; exact h2 _ (mem_of_at? hx)
  · rcases h3 with h3 | ⟨e, he, h3⟩
    · left; exact h3
    · right
      refine ⟨e.1, ha.lt_dim e he, ?_⟩
      unfold Vec.value
      rw [valAt_of_mem ha.srt he]; exact h3

-- non-vacuity
example : (⟨5, 3, [(1, 2), (4, 3)]⟩ : Vec ℚ).WF :=
  ⟨by simp [Srt], by simp, by simp⟩

end C03

/-! ## C04 -/

section C04
variable {K : Type*} [Field K] [LinearOrder K] [IsStrictOrderedRing K]

theorem toRaw_length (v : Vec K) : v.toRaw.length = v.dim := by
  unfold Vec.toRaw; rw [foldl_set_length, List.length_replicate]

theorem toRaw_get (v : Vec K) (hv : v.WF) (i : Nat) (hi : i < v.dim) :
    v.toRaw[i]? = some (v.value i) := by
  unfold Vec.toRaw
  rw [foldl_set_get v.ents hv.srt _ i (by simpa using hi)]
  unfold Vec.value valAt
  rcases at? v.ents i with _ | x
  · simp [hi]
  · rfl

theorem setFromRaw_spec (eps : K) (v : Vec K) (vals : List K) :
    ∃ r, v.setFromRaw eps vals = some r ∧ r.WF ∧ r.dim = vals.length ∧
      ∀ i, r.value i = match vals[i]? with
        | some x => if |x| ≤ eps then 0 else x
        | none => 0 := by
  obtain ⟨s0, b0⟩ := zipIdx_srt vals 0
  set Z := vals.zipIdx.map fun p => (p.2, p.1) with hZ
  set L := Z.filter fun e => !isZero e.2 eps with hL
  set r1 := ((v.clear).resize vals.length).reserve L.length with hr1
  have e1 : r1.ents = [] := by
    have : (v.clear.resize vals.length).ents = [] := by unfold Vec.resize; split <;> simp [Vec.clear]
    rw [hr1]; exact this
  have d1 : r1.dim = vals.length := by
    have : (v.clear.resize vals.length).dim = vals.length := by unfold Vec.resize; split <;> rfl
    rw [hr1]; exact this
  have hcap : L.length ≤ r1.cap := le_max_right _ _
  have sL : Srt L := srt_filter _ s0
  have hlt : ∀ e ∈ L, e.1 < r1.dim := by
    intro e he
    have := (b0 e (List.mem_of_mem_filter he)).2
    rw [d1]; omega
  have hpush := Vec.pushAll_ok r1 L (by rw [e1]; simpa using sL) hlt (by rw [e1]; simpa using hcap)
  refine ⟨{ r1 with ents := L }, ?_, ⟨sL, hlt, hcap⟩, d1, ?_⟩
  · unfold Vec.setFromRaw Vec.setFromRawWith
    simp only [← hZ, ← hL, ← hr1]
    rw [hpush, e1]; simp
  · intro i
    change valAt L i = _
    unfold valAt
    rw [hL, at?_filter _ s0, hZ, zipIdx_at]
    simp only [Nat.not_lt_zero, if_false, Nat.sub_zero]
    rcases vals[i]? with _ | x
    · rfl
    · by_cases h : |x| ≤ eps <;> simp [Option.filter, isZero, h]

/-- C04: array → sparse → array replaces entries of magnitude at most `eps` by `0`. -/
theorem C04_raw_roundtrip (eps : K) (v : Vec K) (vals : List K) :
    ∃ r, v.setFromRaw eps vals = some r ∧ r.WF ∧ r.dim = vals.length ∧
      r.toRaw = vals.map fun x => if |x| ≤ eps then 0 else x := by
  obtain ⟨r, h1, h2, h3, h4⟩ := setFromRaw_spec eps v vals
  refine ⟨r, h1, h2, h3, ?_⟩
  apply List.ext_getElem?
  intro i
  by_cases hi : i < vals.length
  · rw [toRaw_get r h2 i (by omega), h4 i]; simp [hi]
  · rw [List.getElem?_eq_none (by rw [toRaw_length]; omega), List.getElem?_eq_none (by simp; omega)]

/-- C04: exact round trip for tolerance `0`. -/
theorem C04_raw_roundtrip_exact (v : Vec K) (vals : List K) :
    ∃ r, v.setFromRaw 0 vals = some r ∧ r.toRaw = vals := by
  obtain ⟨r, h1, _, _, h4⟩ := C04_raw_roundtrip 0 v vals
  refine ⟨r, h1, ?_⟩
  rw [h4]
  conv_rhs => rw [← List.map_id vals]
  apply List.map_congr_left
  intro x _
  by_cases h : x = 0 <;> simp [h]

/-- C04: sparse → array → sparse preserves every coordinate. -/
theorem C04_sparse_roundtrip (v w : Vec K) (hv : v.WF) :
    ∃ r, w.setFromRaw 0 v.toRaw = some r ∧ r.WF ∧ r.dim = v.dim ∧
      (∀ i, r.value i = v.value i) ∧ ∀ e ∈ r.ents, e.2 ≠ 0 := by
  obtain ⟨r, h1, h2, h3, h4⟩ := setFromRaw_spec 0 w v.toRaw
  refine ⟨r, h1, h2, by rw [h3, toRaw_length], ?_, ?_⟩
  · intro i
    rw [h4 i]
    by_cases hi : i < v.dim
    · rw [toRaw_get v hv i hi]
      by_cases h : v.value i = 0 <;> simp [h]
    · rw [List.getElem?_eq_none (by rw [toRaw_length]; omega)]
      exact (valAt_of_ge hv.lt_dim (by omega)).symm
  · intro e he h0
    unfold Vec.setFromRaw Vec.setFromRawWith at h1
    simp only at h1
    obtain ⟨s0, b0⟩ := zipIdx_srt v.toRaw 0
    rw [Vec.pushAll_ok] at h1
    · simp at h1
      have he2 : e ∈ (v.toRaw.zipIdx.map fun p => (p.2, p.1)).filter fun e => !isZero e.2 0 := by
        have hcl : (Vec.resize w.clear v.toRaw.length).ents = [] := by
          unfold Vec.resize; split <;> simp [Vec.clear]
        rw [← h1] at he
        simp only [Vec.reserve] at he
        rw [hcl] at he
        simpa using he
      have := List.of_mem_filter he2
      simp [isZero, h0] at this
    · have hcl : (Vec.resize w.clear v.toRaw.length).ents = [] := by
        unfold Vec.resize; split <;> simp [Vec.clear]
      simp only [Vec.reserve]
      rw [hcl]
      exact srt_filter _ s0
    · intro e he
      have h5 := (b0 e (List.mem_of_mem_filter he)).2
      have hd : (Vec.resize w.clear v.toRaw.length).dim = v.toRaw.length := by
        unfold Vec.resize; split <;> rfl
      simp only [Vec.reserve]
      rw [hd]; omega
    · have hcl : (Vec.resize w.clear v.toRaw.length).ents = [] := by
        unfold Vec.resize; split <;> simp [Vec.clear]
      simp only [Vec.reserve]
      rw [hcl]; simp

-- non-vacuity: a dense array with zeros and small entries
example : (Vec.create 0 0 : Vec ℚ).setFromRaw (1/10) [0, 3, 1/100, -2] =
    some ⟨4, 2, [(1, 3), (3, -2)]⟩ := by
  decide +kernel

end C04

/-! ## C05 -/

section C05
variable {K : Type*} [Field K] [LinearOrder K] [IsStrictOrderedRing K]

/-- C05: the box test is exact. -/
theorem C05_is_boxed (x lb ub : Vec K) (hx : x.WF) (hl : lb.WF) (hu : ub.WF)
    (d1 : lb.dim = x.dim) (d2 : ub.dim = x.dim) :
    ∃ b, Vec.isBoxed x lb ub = some b ∧
      (b = true ↔ ∀ i < x.dim, lb.value i ≤ x.value i ∧ x.value i ≤ ub.value i) := by
  unfold Vec.isBoxed
  rw [if_pos ⟨d1, d2⟩]
  refine ⟨_, rfl, ?_⟩
  rw [List.all_eq_true]
  constructor
  · intro h i hi
    unfold Vec.value valAt
    rcases hm : at? (merge3 x.ents lb.ents ub.ents) i with _ | t
    · rw [merge3_at hx.srt hl.srt hu.srt] at hm
      obtain ⟨h1, h2, h3⟩ := comb3_eq_none hm
      simp [h1, h2, h3]
    · have h1 := h (i, t) (mem_of_at? hm)
      rw [merge3_at hx.srt hl.srt hu.srt] at hm
      obtain ⟨rfl, _⟩ := comb3_eq_some hm
      simp at h1
      exact h1
  · intro h t ht
    have h1 := (merge3_mem hx.srt hl.srt hu.srt ht).1
    have h2 := merge3_lt hx.srt hl.srt hu.srt hx.lt_dim (d1 ▸ hl.lt_dim) (d2 ▸ hu.lt_dim) t ht
    have h3 := h t.1 h2
    unfold Vec.value valAt at h3
    rw [h1]
    simp
    exact h3

/-- C05: for `lb ≤ ub` the clipping loop never exceeds its reserved capacity and
computes the projection onto the box, with values of magnitude at most `eps`
replaced by `0`. -/
theorem C05_clip_loop (x lb ub x0 : Vec K) (eps : K) (hx : x.WF) (hl : lb.WF) (hu : ub.WF)
    (d1 : lb.dim = x.dim) (d2 : ub.dim = x.dim) (d3 : x0.dim = x.dim)
    (hle : ∀ i < x.dim, lb.value i ≤ ub.value i) (heps : 0 ≤ eps) :
    ∃ r, Vec.clipLoop x lb ub eps x0 = some r ∧ r.WF ∧ r.dim = x.dim ∧
      ∀ i, r.value i =
        (if |min (max (x.value i) (lb.value i)) (ub.value i)| ≤ eps then 0
         else min (max (x.value i) (lb.value i)) (ub.value i)) := by
  have hsm := merge3_srt hx.srt hl.srt hu.srt
  have hle' : ∀ i, lb.value i ≤ ub.value i := by
    intro i
    by_cases h : i < x.dim
    · exact hle i h
    · unfold Vec.value
      rw [valAt_of_ge hl.lt_dim (by omega), valAt_of_ge hu.lt_dim (by omega)]
  set M := merge3 x.ents lb.ents ub.ents with hM
  set L := (M.filter fun t => !isZero (Vec.clipVal t) eps).map fun t => (t.1, Vec.clipVal t) with hL
  set r1 := (x0.clear).reserve (min (max lb.nnz x.nnz + max ub.nnz x.nnz) x.dim) with hr1
  have e1 : r1.ents = [] := rfl
  have dr : r1.dim = x.dim := d3
  have sL : Srt L := srt_map_snd (fun t => Vec.clipVal t) (srt_filter _ hsm)
  have hlt : ∀ e ∈ L, e.1 < r1.dim := by
    intro e he
    obtain ⟨t, ht, rfl⟩ := List.mem_map.mp he
    rw [dr]
    exact merge3_lt hx.srt hl.srt hu.srt hx.lt_dim (d1 ▸ hl.lt_dim) (d2 ▸ hu.lt_dim) t
      (List.mem_of_mem_filter ht)
  have hcap : L.length ≤ r1.cap := by
    have c1 : L.length ≤ x.dim := dr ▸ srt_length_le sL hlt
    have c2 : L.length ≤ x.nnz + lb.nnz := by
      have hnd : (L.map Prod.fst).Nodup := by
        rw [List.Nodup, List.pairwise_map]; exact sL.imp fun h => h.ne
      have hsub : L.map Prod.fst ⊆ x.ents.map Prod.fst ++ lb.ents.map Prod.fst := by
        intro k hk
        obtain ⟨e, he, rfl⟩ := List.mem_map.mp hk
        obtain ⟨t, ht, rfl⟩ := List.mem_map.mp he
        have hnz := List.of_mem_filter ht
        have hval := (merge3_mem hx.srt hl.srt hu.srt (List.mem_of_mem_filter ht)).1
        rw [List.mem_append]
        by_contra hcon
        push Not at hcon
        have nx : at? x.ents t.1 = none := at?_none_of_forall fun e he h =>
          hcon.1 (List.mem_map.mpr ⟨e, he, h⟩)
        have nl : at? lb.ents t.1 = none := at?_none_of_forall fun e he h =>
          hcon.2 (List.mem_map.mpr ⟨e, he, h⟩)
        have hb := hle' t.1
        unfold Vec.value valAt at hb
        rw [nl] at hb
        have : Vec.clipVal t = 0 := by
          unfold Vec.clipVal
          rw [hval, nx, nl]
          simpa using hb
        rw [this] at hnz
        simp [isZero, heps] at hnz
      have := (hnd.subperm hsub).length_le
      simpa [Vec.nnz] using this
    have c3 : x.nnz + lb.nnz ≤ max lb.nnz x.nnz + max ub.nnz x.nnz := by
      have := le_max_left lb.nnz x.nnz
      have := le_max_right ub.nnz x.nnz
      omega
    exact le_trans (le_min (le_trans c2 c3) c1) (le_max_right _ _)
  have hpush := Vec.pushAll_ok r1 L (by rw [e1]; simpa using sL) hlt (by rw [e1]; simpa using hcap)
  refine ⟨{ r1 with ents := L }, ?_, ⟨sL, hlt, hcap⟩, dr, ?_⟩
  · unfold Vec.clipLoop
    rw [if_pos ⟨d1, d2, d3⟩]
    have := Vec.foldlM_push_map (fun t => isZero (Vec.clipVal t) eps)
      (fun t => (t.1, Vec.clipVal t)) r1 M
    simp only at this ⊢
    rw [e1, List.nil_append] at hpush
    rw [← hL, hpush] at this
    rw [← this]
    congr 1
    funext r t
    by_cases h : isZero (Vec.clipVal t) eps = true <;> simp [h]
  · intro i
    have hb := hle' i
    change valAt L i = _
    rw [hL, valAt_filter_map hsm (fun t => isZero (Vec.clipVal t) eps) (fun t => Vec.clipVal t),
      merge3_at hx.srt hl.srt hu.srt]
    have hmm : ∀ a b c : K, b ≤ c → max (min a c) b = min (max a b) c := by
      intro a b c h
      rw [max_min_distrib_right, max_eq_left h]
    rw [← hmm _ _ _ hb]
    unfold Vec.value valAt
    rcases hc : comb3 (at? x.ents i) (at? lb.ents i) (at? ub.ents i) with _ | t
    · obtain ⟨h1, h2, h3⟩ := comb3_eq_none hc
      simp [h1, h2, h3]
    · obtain ⟨rfl, _⟩ := comb3_eq_some hc
      simp only [Vec.clipVal, isZero_iff]

/-- C05: with zero tolerance clipping succeeds (including its final assertion) and
returns exactly the projection onto the box. -/
theorem C05_clip_exact (x lb ub x0 : Vec K) (hx : x.WF) (hl : lb.WF) (hu : ub.WF)
    (d1 : lb.dim = x.dim) (d2 : ub.dim = x.dim) (d3 : x0.dim = x.dim)
    (hle : ∀ i < x.dim, lb.value i ≤ ub.value i) :
    ∃ r, Vec.clip x lb ub 0 x0 = some r ∧ r.WF ∧ r.dim = x.dim ∧
      (∀ i < x.dim, r.value i = min (max (x.value i) (lb.value i)) (ub.value i)) ∧
      (∀ i < x.dim, lb.value i ≤ r.value i ∧ r.value i ≤ ub.value i) ∧
      ((∀ i < x.dim, lb.value i ≤ x.value i ∧ x.value i ≤ ub.value i) →
        ∀ i, r.value i = x.value i) := by
  obtain ⟨r, h1, h2, h3, h4⟩ := C05_clip_loop x lb ub x0 0 hx hl hu d1 d2 d3 hle le_rfl
  have h5 : ∀ i, r.value i = min (max (x.value i) (lb.value i)) (ub.value i) := by
    intro i
    rw [h4 i]
    split_ifs with h
    · exact (abs_nonpos_iff.mp h).symm
    · rfl
  have h6 : ∀ i < x.dim, lb.value i ≤ r.value i ∧ r.value i ≤ ub.value i := by
    intro i hi
    rw [h5 i]
    exact ⟨le_min (le_max_right _ _) (hle i hi), min_le_right _ _⟩
  obtain ⟨b, hb1, hb2⟩ := C05_is_boxed r lb ub h2 hl hu (d1.trans h3.symm) (d2.trans h3.symm)
  have hb : b = true := hb2.mpr fun i hi => h6 i (h3 ▸ hi)
  refine ⟨r, ?_, h2, h3, fun i _ => h5 i, h6, ?_⟩
  · unfold Vec.clip
    rw [h1]; simp [hb1, hb]
  · intro hin i
    by_cases hi : i < x.dim
    · rw [h5 i, max_eq_left (hin i hi).1, min_eq_left (hin i hi).2]
    · unfold Vec.value
      rw [valAt_of_ge h2.lt_dim (by omega), valAt_of_ge hx.lt_dim (by omega)]

/-- C05, limit of the claim: with a positive tolerance the final assertion of the
clipping routine can fail on valid input, because a bound of magnitude below the
tolerance is dropped to `0` (here `lb = ub = 1/2`, tolerance `1`). -/
theorem C05_clip_tolerance_assert_fails :
    Vec.clip (⟨1, 1, []⟩ : Vec ℚ) ⟨1, 1, [(0, 1/2)]⟩ ⟨1, 1, [(0, 1/2)]⟩ 1 ⟨1, 1, []⟩ = none := by
  have h : Vec.clipLoop (⟨1, 1, []⟩ : Vec ℚ) ⟨1, 1, [(0, 1/2)]⟩ ⟨1, 1, [(0, 1/2)]⟩ 1 ⟨1, 1, []⟩ =
      some ⟨1, 1, []⟩ := by
    simp [Vec.clipLoop, merge3, headIdx, minIdx, takeAt, Vec.clipVal, isZero, Vec.clear,
      Vec.reserve, Vec.nnz, abs_of_pos]
    norm_num [abs_of_pos]
  obtain ⟨b, hb1, hb2⟩ := C05_is_boxed (⟨1, 1, []⟩ : Vec ℚ) ⟨1, 1, [(0, 1/2)]⟩ ⟨1, 1, [(0, 1/2)]⟩
    ⟨by simp [Srt], by simp, by simp⟩ ⟨by simp [Srt], by simp, by simp⟩
    ⟨by simp [Srt], by simp, by simp⟩ rfl rfl
  have hb : b = false := by
    rw [Bool.eq_false_iff]
    intro h'
    have h2 := ((hb2.mp h') 0 (by decide)).1
    norm_num [Vec.value, valAt, at?] at h2
  unfold Vec.clip
  rw [h, Option.bind_some, hb1, hb]

-- non-vacuity: hypotheses of `C05_clip_exact` for a genuinely clipped point
example : ∀ i < 3, (⟨3, 3, [(1, -5)]⟩ : Vec ℚ).value i ≤ (⟨3, 3, [(0, 1), (1, 2)]⟩ : Vec ℚ).value i := by
  intro i hi
  interval_cases i <;> simp [Vec.value, valAt, at?]
  norm_num

end C05

/-! ## C06 -/

section C06
variable {K : Type*} [LinearOrder K]

/-- C06 (partial): the check is exact for all entries but the last one.  Missing:
the last stored entry is never inspected, see `C06_vec_is_finite_violated`. -/
theorem C06_vec_is_finite_partial (v : Vec (Ext K)) :
    v.isFiniteChk = true ↔ ∀ k, k + 1 < v.nnz → ∀ e, v.ents[k]? = some e → ∃ x, e.2 = .fin x := by
  unfold Vec.isFiniteChk Vec.nnz
  rw [List.all_eq_true]
  have hfin : ∀ y : Ext K, (!(y.isNan || y.isInf)) = true ↔ ∃ x, y = .fin x := by
    intro y; cases y <;> simp [Ext.isNan, Ext.isInf]
  constructor
  · intro h k hk e he
    have : e ∈ v.ents.dropLast := by
      rw [List.mem_iff_getElem?]
      exact ⟨k, by rw [List.getElem?_dropLast, if_pos (by omega)]; exact he⟩
    exact (hfin _).mp (h e this)
  · intro h e he
    obtain ⟨k, hk⟩ := List.mem_iff_getElem?.mp he
    rw [List.getElem?_dropLast] at hk
    split at hk
    · rename_i hlt
      exact (hfin _).mpr (h k (by omega) e hk)
    · simp at hk

/-- C06 violated by the code: a well formed vector whose only entry is NaN passes
the finiteness check. -/
theorem C06_vec_is_finite_violated :
    ∃ v : Vec (Ext ℚ), v.WF ∧ v.isFiniteChk = true ∧ ∃ e ∈ v.ents, e.2 = .nan :=
  ⟨⟨1, 1, [(0, .nan)]⟩, ⟨by simp [Srt], by simp, by simp⟩, rfl, ⟨(0, .nan), by simp, rfl⟩⟩

end C06

end Sleqp
