import Verif.Lemmas.Remove
import Verif.Lemmas.VecNum

/-! C07: removing and re-inserting coordinates. -/

namespace Sleqp

/-! ### The specification `oldIdx` is the increasing enumeration of the complement -/

/-- C07: `oldIdx rem` enumerates, in increasing order, exactly the coordinates not in `rem`. -/
theorem C07_oldIdx_characterised (rem : List Nat) (hs : rem.Pairwise (· < ·)) :
    StrictMono (oldIdx rem) ∧ Set.range (oldIdx rem) = {j | j ∉ rem} := by
  refine ⟨fun i j h => oldIdx_strictMono hs h, ?_⟩
  ext j
  constructor
  · rintro ⟨i, rfl⟩; exact oldIdx_not_mem hs i
  · intro h; exact oldIdx_surj hs h

section Structural
variable {K : Type*}

theorem oldIdx_lt {rem : List Nat} {n i : Nat} (h : i + rem.length < n) : oldIdx rem i < n :=
  lt_of_le_of_lt (oldIdx_le rem i) h

theorem oldIdx_lt' {rem : List Nat} (hs : rem.Pairwise (· < ·)) {n m i : Nat}
    (hr : ∀ r ∈ rem, r < n) (hn : n = m + rem.length) (h : oldIdx rem i < n) : i < m := by
  by_contra hcon
  -- the values `oldIdx 0 .. oldIdx m` and `rem` would be `n + 1` distinct numbers below `n`
  have hnd : (rem ++ (List.range (m + 1)).map (oldIdx rem)).Nodup := by
    rw [List.nodup_append]
    refine ⟨hs.imp (fun h => h.ne), ?_, ?_⟩
    · exact List.Nodup.map (fun a b h => oldIdx_inj hs h) List.nodup_range
    · intro a ha b hb hab
      obtain ⟨k, _, rfl⟩ := List.mem_map.mp hb
      exact oldIdx_not_mem hs k (hab ▸ ha)
  have hsub : (rem ++ (List.range (m + 1)).map (oldIdx rem)) ⊆ List.range n := by
    intro a ha
    rw [List.mem_append] at ha
    rw [List.mem_range]
    rcases ha with ha | ha
    · exact hr a ha
    · obtain ⟨k, hk, rfl⟩ := List.mem_map.mp ha
      rw [List.mem_range] at hk
      rcases Nat.lt_or_ge k i with h1 | h1
      · exact lt_trans (oldIdx_strictMono hs h1) h
      · have : k = i := by omega
        rw [this]; exact h
  have := (hnd.subperm hsub).length_le
  simp at this
  omega

/-- C07: deleting the coordinates `rem` succeeds within the reserved capacity and
yields a well formed vector whose coordinate `j` is the surviving coordinate
`oldIdx rem j` of the source (also as far as stored entries are concerned). -/
theorem C07_remove (source target : Vec K) (rem : List Nat) (hw : source.WF)
    (hs : rem.Pairwise (· < ·)) (hr : ∀ r ∈ rem, r < source.dim)
    (hd : source.dim = target.dim + rem.length) :
    ∃ r, Vec.removeEntries source target rem = some r ∧ r.WF ∧ r.dim = target.dim ∧
      ∀ j, at? r.ents j = at? source.ents (oldIdx rem j) := by
  obtain ⟨s, m⟩ := Vec.removeLoop_spec rem 0 source.ents hs hw.srt (by simp) (by simp)
  simp only [Nat.add_zero] at m
  have hlt : ∀ e ∈ Vec.removeLoop rem 0 source.ents, e.1 < target.dim := by
    rintro ⟨j, v⟩ he
    exact oldIdx_lt' hs hr hd (hw.lt_dim _ ((m j v).mp he))
  have hlen : (Vec.removeLoop rem 0 source.ents).length ≤ source.nnz := by
    have hnd : ((Vec.removeLoop rem 0 source.ents).map fun e => oldIdx rem e.1).Nodup := by
      rw [List.Nodup, List.pairwise_map]
      exact s.imp fun h => (oldIdx_strictMono hs h).ne
    have hsub : ((Vec.removeLoop rem 0 source.ents).map fun e => oldIdx rem e.1) ⊆
        source.ents.map Prod.fst := by
      intro k hk
      obtain ⟨⟨j, v⟩, he, rfl⟩ := List.mem_map.mp hk
      exact List.mem_map.mpr ⟨_, (m j v).mp he, rfl⟩
    simpa [Vec.nnz] using (hnd.subperm hsub).length_le
  have hp := Vec.pushAll_ok ((target.clear).reserve source.nnz) (Vec.removeLoop rem 0 source.ents)
    (by simpa [Vec.clear, Vec.reserve] using s) hlt
    (by simp only [Vec.clear, Vec.reserve, List.length_nil]; omega)
  refine ⟨⟨target.dim, max target.cap source.nnz, Vec.removeLoop rem 0 source.ents⟩, ?_,
    ⟨s, hlt, le_trans hlen (le_max_right _ _)⟩, rfl, ?_⟩
  · unfold Vec.removeEntries
    rw [if_pos hd, hp]; simp [Vec.clear, Vec.reserve]
  · intro j
    exact at?_congr s hw.srt fun v => m j v

/-- C07: re-inserting the coordinates `fx` (index/value pairs) succeeds within the
reserved capacity, and gives a well formed vector with the given values at the
given coordinates and the source's coordinates everywhere else, in order. -/
theorem C07_merge (source target : Vec K) (fx : List (Nat × K)) (hw : source.WF)
    (hs : Srt fx) (hr : ∀ e ∈ fx, e.1 < target.dim)
    (hd : source.dim + fx.length = target.dim) :
    ∃ r, Vec.mergeEntries source target fx = some r ∧ r.WF ∧ r.dim = target.dim ∧
      (∀ e ∈ fx, at? r.ents e.1 = some e.2) ∧
      ∀ i, at? r.ents (oldIdx (fx.map Prod.fst) i) = at? source.ents i := by
  have hs' : (fx.map Prod.fst).Pairwise (· < ·) := by rw [List.pairwise_map]; exact hs
  obtain ⟨s, m⟩ := Vec.mergeLoop_spec fx 0 source.ents hs hw.srt
  simp only [Nat.add_zero] at m
  have hlt : ∀ e ∈ Vec.mergeLoop fx 0 source.ents, e.1 < target.dim := by
    rintro ⟨j, v⟩ he
    rcases (m j v).mp he with h | ⟨i, hi, rfl⟩
    · exact hr _ h
    · have := hw.lt_dim _ hi
      have h2 := oldIdx_le (fx.map Prod.fst) i
      simp only [List.length_map] at h2
      simp only at this ⊢
      omega
  have hlen : (Vec.mergeLoop fx 0 source.ents).length ≤ source.nnz + fx.length := by
    have hnd : ((Vec.mergeLoop fx 0 source.ents).map Prod.fst).Nodup := by
      rw [List.Nodup, List.pairwise_map]
      exact s.imp fun h => h.ne
    have hsub : ((Vec.mergeLoop fx 0 source.ents).map Prod.fst) ⊆
        (source.ents.map fun e => oldIdx (fx.map Prod.fst) e.1) ++ fx.map Prod.fst := by
      intro k hk
      obtain ⟨⟨j, v⟩, he, rfl⟩ := List.mem_map.mp hk
      rw [List.mem_append]
      rcases (m j v).mp he with h | ⟨i, hi, rfl⟩
      · right; exact List.mem_map.mpr ⟨_, h, rfl⟩
      · left; exact List.mem_map.mpr ⟨_, hi, rfl⟩
    simpa [Vec.nnz] using (hnd.subperm hsub).length_le
  have hp := Vec.pushAll_ok ((target.clear).reserve (source.nnz + fx.length))
    (Vec.mergeLoop fx 0 source.ents)
    (by simpa [Vec.clear, Vec.reserve] using s) hlt
    (by simp only [Vec.clear, Vec.reserve, List.length_nil]; omega)
  refine ⟨⟨target.dim, max target.cap (source.nnz + fx.length), Vec.mergeLoop fx 0 source.ents⟩, ?_,
    ⟨s, hlt, le_trans hlen (le_max_right _ _)⟩, rfl, ?_, ?_⟩
  · unfold Vec.mergeEntries
    rw [if_pos hd, hp]; simp [Vec.clear, Vec.reserve]
  · rintro ⟨j, v⟩ he
    exact at?_of_mem s ((m j v).mpr (Or.inl he))
  · intro i
    refine at?_congr s hw.srt fun v => ?_
    rw [m]
    constructor
    · rintro (h | ⟨k, hk, h⟩)
      · exact absurd (List.mem_map.mpr ⟨_, h, rfl⟩) (oldIdx_not_mem hs' i)
      · rw [oldIdx_inj hs' h]; exact hk
    · intro h; exact Or.inr ⟨i, h, rfl⟩

/-- C07: inserting then deleting restores the stored entries exactly. -/
theorem C07_remove_merge (source t1 t2 : Vec K) (fx : List (Nat × K)) (hw : source.WF)
    (hs : Srt fx) (hr : ∀ e ∈ fx, e.1 < t1.dim)
    (hd : source.dim + fx.length = t1.dim) (hd2 : t2.dim = source.dim) :
    ∃ r r', Vec.mergeEntries source t1 fx = some r ∧
      Vec.removeEntries r t2 (fx.map Prod.fst) = some r' ∧
      r'.dim = source.dim ∧ r'.ents = source.ents := by
  have hs' : (fx.map Prod.fst).Pairwise (· < ·) := by rw [List.pairwise_map]; exact hs
  obtain ⟨r, h1, h2, h3, h4, h5⟩ := C07_merge source t1 fx hw hs hr hd
  obtain ⟨r', g1, g2, g3, g4⟩ := C07_remove r t2 (fx.map Prod.fst) h2 hs' (by
    intro x hx
    obtain ⟨e, he, rfl⟩ := List.mem_map.mp hx
    rw [h3]; exact hr e he) (by rw [h3, hd2, List.length_map]; exact hd.symm)
  refine ⟨r, r', h1, g1, g3.trans hd2, srt_ext g2.srt hw.srt fun k => ?_⟩
  rw [g4, h5]

end Structural

section Numeric
variable {K : Type*} [Field K] [LinearOrder K]

/-- C07: deleting coordinates and re-inserting the values they had restores every
coordinate. -/
theorem C07_merge_remove (source t1 t2 : Vec K) (fx : List (Nat × K)) (hw : source.WF)
    (hs : Srt fx) (hr : ∀ e ∈ fx, e.1 < source.dim)
    (hv : ∀ e ∈ fx, source.value e.1 = e.2)
    (hd : source.dim = t1.dim + fx.length) (hd2 : t2.dim = source.dim) :
    ∃ r r', Vec.removeEntries source t1 (fx.map Prod.fst) = some r ∧
      Vec.mergeEntries r t2 fx = some r' ∧ r'.WF ∧ r'.dim = source.dim ∧
      ∀ k, r'.value k = source.value k := by
  have hs' : (fx.map Prod.fst).Pairwise (· < ·) := by rw [List.pairwise_map]; exact hs
  obtain ⟨r, h1, h2, h3, h4⟩ := C07_remove source t1 (fx.map Prod.fst) hw hs' (by
    intro x hx
    obtain ⟨e, he, rfl⟩ := List.mem_map.mp hx
    exact hr e he) (by rw [List.length_map]; exact hd)
  obtain ⟨r', g1, g2, g3, g4, g5⟩ := C07_merge r t2 fx h2 hs (by rw [hd2]; exact hr)
    (by rw [h3, hd2]; exact hd.symm)
  refine ⟨r, r', h1, g1, g2, g3.trans hd2, fun k => ?_⟩
  by_cases hk : k ∈ fx.map Prod.fst
  · obtain ⟨e, he, rfl⟩ := List.mem_map.mp hk
    rw [hv e he]
    unfold Vec.value valAt
    rw [g4 e he]; rfl
  · obtain ⟨i, rfl⟩ := oldIdx_surj hs' hk
    unfold Vec.value valAt
    rw [g5, h4]

/-- C07: re-inserting zero coordinates (used when restoring gradients and
multipliers). -/
theorem C07_add_zero (source target : Vec K) (rem : List Nat) (hw : source.WF)
    (hs : rem.Pairwise (· < ·)) (hd : source.dim + rem.length = target.dim) :
    ∃ r, Vec.addZeroEntries source target rem = some r ∧ r.WF ∧ r.dim = target.dim ∧
      (∀ k ∈ rem, r.value k = 0) ∧ ∀ i, r.value (oldIdx rem i) = source.value i := by
  obtain ⟨s, m⟩ := Vec.addZeroLoop_spec rem 0 source.ents hs hw.srt
  simp only [Nat.add_zero] at m
  have hlt : ∀ e ∈ Vec.addZeroLoop rem 0 source.ents, e.1 < target.dim := by
    rintro ⟨j, v⟩ he
    obtain ⟨i, hi, rfl⟩ := (m j v).mp he
    have := hw.lt_dim _ hi
    have h2 := oldIdx_le rem i
    simp only at this ⊢
    omega
  have hlen : (Vec.addZeroLoop rem 0 source.ents).length ≤ source.nnz := by
    have hnd : ((Vec.addZeroLoop rem 0 source.ents).map Prod.fst).Nodup := by
      rw [List.Nodup, List.pairwise_map]
      exact s.imp fun h => h.ne
    have hsub : ((Vec.addZeroLoop rem 0 source.ents).map Prod.fst) ⊆
        (source.ents.map fun e => oldIdx rem e.1) := by
      intro k hk
      obtain ⟨⟨j, v⟩, he, rfl⟩ := List.mem_map.mp hk
      obtain ⟨i, hi, rfl⟩ := (m j v).mp he
      exact List.mem_map.mpr ⟨_, hi, rfl⟩
    simpa [Vec.nnz] using (hnd.subperm hsub).length_le
  have hp := Vec.pushAll_ok ((target.clear).reserve source.nnz)
    (Vec.addZeroLoop rem 0 source.ents)
    (by simpa [Vec.clear, Vec.reserve] using s) hlt
    (by simp only [Vec.clear, Vec.reserve, List.length_nil]; omega)
  refine ⟨⟨target.dim, max target.cap source.nnz, Vec.addZeroLoop rem 0 source.ents⟩, ?_,
    ⟨s, hlt, le_trans hlen (le_max_right _ _)⟩, rfl, ?_, ?_⟩
  · unfold Vec.addZeroEntries
    rw [hp]; simp [Vec.clear, Vec.reserve]
  · intro k hk
    unfold Vec.value valAt
    rw [at?_none_of_forall]; · rfl
    rintro ⟨j, v⟩ he rfl
    obtain ⟨i, _, h⟩ := (m j v).mp he
    simp only at hk
    rw [h] at hk
    exact oldIdx_not_mem hs i hk
  · intro i
    unfold Vec.value valAt
    rw [at?_congr s hw.srt fun v => ?_]
    rw [m]
    constructor
    · rintro ⟨k, hk, h⟩
      rw [oldIdx_inj hs h]; exact hk
    · intro h; exact ⟨i, h, rfl⟩

end Numeric

/-! Non-vacuity: a vector of dimension 4 losing coordinates 0 and 2. -/

example : (⟨4, 4, [(1, 5), (2, 7), (3, 9)]⟩ : Vec ℚ).WF ∧ Srt [((0 : Nat), (0 : ℚ)), (2, 7)] ∧
    (∀ e ∈ [((0 : Nat), (0 : ℚ)), (2, 7)], (⟨4, 4, [(1, 5), (2, 7), (3, 9)]⟩ : Vec ℚ).value e.1 = e.2) := by
  refine ⟨⟨by simp [Srt], by simp, by simp⟩, by simp [Srt], ?_⟩
  intro e he
  simp at he
  rcases he with rfl | rfl <;> simp [Vec.value, valAt, at?]

example : (List.range 2).map (oldIdx [0, 2]) = [1, 3] := by decide

end Sleqp
