import Verif.Lemmas.Sr1
import Verif.Props.Bfgs

/-!
C27: the SR1 model of the Hessian is the textbook matrix built from the latest pairs,
symmetric, and satisfies the secant condition for the newest pair unless that pair was
skipped.  C28 (SR1 part): the memory holds the latest pairs.

All statements are for `zero_eps = 0` (no entries dropped).  The Euclidean norm enters
only through the safeguard; `norm` is any function of the coordinates.
-/

namespace Sleqp
open Matrix

variable {K : Type*} [Field K] [LinearOrder K] [IsStrictOrderedRing K] {n : Nat}

/-- invariant of a block after a history with pairs `ps` -/
structure Sr1Inv (n num : Nat) (nrm : (Fin n → K) → K) (b : Sr1Block K)
    (ps : List ((Fin n → K) × (Fin n → K))) : Prop where
  dim : b.dim = n
  inv : b.ring.Inv
  hnum : b.ring.num = num
  dims : ∀ i, (b.ring.arr i).s.dim = n ∧ (b.ring.arr i).y.dim = n
  slots : ∀ i < b.ring.len, Sr1SlotIn n (b.ring.arr (b.ring.slotAt i))
  pairs : b.ring.contents.map (sr1Pair n) = lastN num ps
  prod : b.ring.len ≠ 0 → ∃ p, ps.getLast? = some p ∧ b.scale = sr1Scale p.1 p.2 ∧
    Sr1Done n nrm b.scale b.ring.contents
      ((lastN num ps).foldl (sr1Step nrm) (b.scale • (1 : Matrix (Fin n) (Fin n) K)))

variable {nrm : (Fin n → K) → K} {norm : Vec K → K}

theorem sr1Inv_create {num : Nat} {u : K} {b : Sr1Block K} (h : Sr1Block.create n num u = some b) :
    Sr1Inv n num nrm b [] := by
  unfold Sr1Block.create at h
  split at h
  · rename_i hp
    injection h with h
    subst h
    exact ⟨rfl, ⟨hp.2, Nat.zero_le _⟩, rfl, fun i => ⟨rfl, rfl⟩, fun i hi => absurd hi (Nat.not_lt_zero _),
      by rw [Ring.contents_nil _ rfl]; simp [lastN], fun h => absurd rfl h⟩
  · simp at h

theorem sr1Inv_reset {num : Nat} {b : Sr1Block K} {ps : List ((Fin n → K) × (Fin n → K))}
    (h : Sr1Inv n num nrm b ps) : Sr1Inv n num nrm b.reset [] :=
  ⟨h.dim, ⟨h.inv.pos, Nat.zero_le _⟩, h.hnum, h.dims, fun i hi => absurd hi (Nat.not_lt_zero _),
    by rw [Ring.contents_nil _ rfl]; simp [lastN], fun h => absurd rfl h⟩

theorem sr1Inv_push {num : Nat} (hnorm : ∀ v, VOk n v → norm v = nrm (dense n v)) {b : Sr1Block K}
    {ps : List ((Fin n → K) × (Fin n → K))} (h : Sr1Inv n num nrm b ps) {s y : Vec K} (hs : VOk n s)
    (hy : VOk n y) :
    ∃ b', b.push norm 0 s y = some b' ∧ Sr1Inv n num nrm b' (ps ++ [(dense n s, dense n y)]) := by
  obtain ⟨old, hold⟩ : ∃ old, old = b.ring.arr (b.ring.dataIndex (b.ring.curr + 1)) := ⟨_, rfl⟩
  have hod := h.dims (b.ring.dataIndex (b.ring.curr + 1))
  rw [← hold] at hod
  obtain ⟨s', cs1, cs2, cs3⟩ := copy_spec (t := old.s) hs hod.1
  obtain ⟨y', cy1, cy2, cy3⟩ := copy_spec (t := old.y) hy hod.2
  have es : dense n s' = dense n s := dense_of_ents cs3
  have ey : dense n y' = dense n y := dense_of_ents cy3
  obtain ⟨sl, hsl, hsls, hsly⟩ : ∃ sl : Sr1Slot K, sl = { old with s := s', y := y' } ∧
      sl.s = s' ∧ sl.y = y' := ⟨_, rfl, rfl, rfl⟩
  have hslin : Sr1SlotIn n sl := ⟨by rw [hsls]; exact cs2, by rw [hsly]; exact cy2⟩
  have hinv2 : (b.ring.pushSet sl).Inv := Ring.store_inv _ h.inv _ _ _
  have hcont := Ring.pushSet_contents b.ring h.inv sl
  have hlenpos := Ring.pushSet_len b.ring h.inv sl
  have hpair : sr1Pair n sl = (dense n s, dense n y) := by
    unfold sr1Pair; rw [hsls, hsly, es, ey]
  have hpairs2 : (b.ring.pushSet sl).contents.map (sr1Pair n) = lastN num (ps ++ [(dense n s, dense n y)]) := by
    rw [hcont, List.map_drop, List.map_append, h.pairs, List.map_singleton, hpair, ← lastN_push, ← h.pairs,
      List.length_map, Ring.contents_length, h.hnum]
  have hslots2 : ∀ i < (b.ring.pushSet sl).len,
      Sr1SlotIn n ((b.ring.pushSet sl).arr ((b.ring.pushSet sl).slotAt i)) := by
    intro i hi
    have hmem : (b.ring.pushSet sl).arr ((b.ring.pushSet sl).slotAt i) ∈ (b.ring.pushSet sl).contents :=
      List.mem_map.mpr ⟨i, List.mem_range.mpr hi, rfl⟩
    rw [hcont] at hmem
    rcases List.mem_append.mp (List.mem_of_mem_drop hmem) with hm | hm
    · obtain ⟨k, hk, hk2⟩ := List.mem_map.mp hm
      rw [← hk2]
      exact h.slots k (List.mem_range.mp hk)
    · rw [List.mem_singleton.mp hm]; exact hslin
  have hdims2 : ∀ i, ((b.ring.pushSet sl).arr i).s.dim = n ∧ ((b.ring.pushSet sl).arr i).y.dim = n := by
    intro i
    show (if i = b.ring.dataIndex (b.ring.curr + 1) then sl else b.ring.arr i).s.dim = n ∧
      (if i = b.ring.dataIndex (b.ring.curr + 1) then sl else b.ring.arr i).y.dim = n
    split
    · exact ⟨hslin.hs.2, hslin.hy.2⟩
    · exact h.dims i
  have hnew : (b.ring.pushSet sl).arr ((b.ring.pushSet sl).dataIndex (b.ring.pushSet sl).curr) = sl := by
    have h1 : (b.ring.pushSet sl).dataIndex (b.ring.pushSet sl).curr = (b.ring.pushSet sl).curr.toNat := by
      have hlt := Ring.dataIndex_lt b.ring (b.ring.curr + 1) h.inv.pos
      have h3 := Ring.dataIndex_eq (b.ring.pushSet sl) (b.ring.pushSet sl).curr hlenpos hinv2.pos
      have h2 : (b.ring.pushSet sl).curr = (b.ring.dataIndex (b.ring.curr + 1) : Int) := rfl
      have h4 : (b.ring.pushSet sl).num = b.ring.num := rfl
      rw [h2, h4] at h3
      rw [Int.emod_eq_of_lt (by omega) (by omega)] at h3
      rw [h2]; omega
    rw [h1, Ring.pushSet_newest]
  obtain ⟨b', a1, a2, a5, a6, a7, a8, a9, a10, a11⟩ := sr1_processLoop_spec (n := n) hnorm
    { b with ring := b.ring.pushSet sl, scale := sr1Scale (dense n s) (dense n y) } h.dim hinv2
    hslots2 (b.ring.pushSet sl).len le_rfl
  have hrun : b.push norm 0 s y = some b' := by
    unfold Sr1Block.push
    simp only [← hold]
    rw [cs1, Option.bind_some, cy1, Option.bind_some, ← hsl]
    unfold Sr1Block.computeProducts
    simp only [hnew]
    rw [hsls, hsly, sr1_initialScale_spec cs2 cy2, Option.bind_some, es, ey]
    exact a1
  have hcont' : b'.ring.contents.map (sr1Pair n) = lastN num (ps ++ [(dense n s, dense n y)]) := by
    rw [← hpairs2]
    show (List.map (fun k : Nat => b'.ring.arr (b'.ring.slotAt k)) (List.range b'.ring.len)).map _ =
      (List.map (fun k : Nat => (b.ring.pushSet sl).arr ((b.ring.pushSet sl).slotAt k))
        (List.range (b.ring.pushSet sl).len)).map _
    rw [List.map_map, List.map_map, a7]
    refine List.map_congr_left fun i hi => ?_
    have := a9 i (List.mem_range.mp hi)
    simp only [Function.comp, sr1Pair, this.1, this.2]
  refine ⟨b', hrun, a2, a6, by rw [a8]; exact h.hnum, ?_, ?_, hcont', ?_⟩
  · intro i
    rw [(a10 i).1, (a10 i).2]
    exact hdims2 i
  · intro i hi
    rw [a7] at hi
    have h1 := hslots2 i hi
    exact ⟨by rw [(a9 i hi).1]; exact h1.hs, by rw [(a9 i hi).2]; exact h1.hy⟩
  · intro _
    refine ⟨(dense n s, dense n y), by simp, a5, ?_⟩
    rw [a5, ← hpairs2]
    have : b'.ring.window (b.ring.pushSet sl).len = b'.ring.contents := by
      rw [← Ring.window_len, a7]
    rw [this] at a11
    exact a11

/-- what the caller of a block provides: well formed vectors of the block's dimension -/
def Sr1Legal (n : Nat) : BfgsBlock.Op K → Prop
  | .push s y => VOk n s ∧ VOk n y
  | .reset => True

theorem sr1Inv_run {num : Nat} (hnorm : ∀ v, VOk n v → norm v = nrm (dense n v)) (ops : List (BfgsBlock.Op K))
    (b : Sr1Block K) (ps : List ((Fin n → K) × (Fin n → K))) (h : Sr1Inv n num nrm b ps)
    (hl : ∀ op ∈ ops, Sr1Legal n op) :
    ∃ b', b.run norm 0 ops = some b' ∧ Sr1Inv n num nrm b' (pairsSince n ps ops) := by
  induction ops generalizing b ps with
  | nil => exact ⟨b, rfl, h⟩
  | cons op ops ih =>
    unfold Sr1Block.run
    rw [List.foldlM_cons]
    cases op with
    | push s y =>
      obtain ⟨hs, hy⟩ := hl _ (by simp : BfgsBlock.Op.push s y ∈ _)
      obtain ⟨b1, h1, h2⟩ := sr1Inv_push hnorm h hs hy
      obtain ⟨b', h3, h4⟩ := ih b1 _ h2 (fun op hop => hl op (by simp [hop]))
      exact ⟨b', by simp only [Sr1Block.step, h1]; exact h3, h4⟩
    | reset =>
      obtain ⟨b', h3, h4⟩ := ih b.reset [] (sr1Inv_reset h) (fun op hop => hl op (by simp [hop]))
      exact ⟨b', h3, h4⟩

/-- product of a block, from the invariant -/
theorem sr1Inv_prod {num : Nat} {b : Sr1Block K} {ps : List ((Fin n → K) × (Fin n → K))}
    (h : Sr1Inv n num nrm b ps) {d : Vec K} (hd : VOk n d) :
    ∃ q, b.hessProd 0 d = some q ∧ VOk n q ∧ dense n q = sr1Matrix nrm (lastN num ps) *ᵥ dense n d := by
  have hpos : 0 < num := by rw [← h.hnum]; exact h.inv.pos
  obtain ⟨p0, c1, c2, c3⟩ := copy_spec (t := Vec.create b.dim 0) hd h.dim
  unfold Sr1Block.hessProd
  rw [c1, Option.bind_some]
  by_cases h0 : b.ring.len = 0
  · have hnil : lastN num ps = [] := by
      rw [← h.pairs]
      have : b.ring.contents.length = 0 := by rw [Ring.contents_length, h0]
      rw [List.eq_nil_of_length_eq_zero this]; rfl
    refine ⟨p0, by rw [if_pos h0], c2, ?_⟩
    rw [hnil, dense_of_ents c3]
    simp [sr1Matrix]
  · obtain ⟨p, hp, hsc, hdone⟩ := h.prod h0
    obtain ⟨q, q1, q2, q3⟩ := (sr1Done_prod hdone hd c2 c3).1
    refine ⟨q, ?_, q2, ?_⟩
    · rw [if_neg h0, h.dim, Ring.window_len, q1]
    · rw [q3]
      unfold sr1Matrix
      rw [lastN_getLast? hpos, hp]
      simp only []
      rw [← hsc]

/-- C28 (SR1): after every history of pushes and resets, the memory holds exactly the
latest `num` pairs pushed since the latest reset, oldest first. -/
theorem C28_sr1_memory (num : Nat) (u : K) (hnorm : ∀ v, VOk n v → norm v = nrm (dense n v)) (b0 : Sr1Block K)
    (hb : Sr1Block.create n num u = some b0) (ops : List (BfgsBlock.Op K)) (hl : ∀ op ∈ ops, Sr1Legal n op) :
    ∃ b, b0.run norm 0 ops = some b ∧
      b.ring.contents.map (fun sl => (dense n sl.s, dense n sl.y)) = lastN num (pairsSince n [] ops) := by
  obtain ⟨b, h1, h2⟩ := sr1Inv_run hnorm ops b0 [] (sr1Inv_create (nrm := nrm) hb) hl
  exact ⟨b, h1, h2.pairs⟩

/-- C27: after every history of pushes and resets — with no condition on the curvature of
the pairs — the product with any direction succeeds and is the product with the SR1 matrix
of the latest `num` pairs.
This is for `zero_eps = 0`; with a positive drop tolerance it fails (`C27_drop_violated`). -/
theorem C27_product_partial (num : Nat) (u : K) (hnorm : ∀ v, VOk n v → norm v = nrm (dense n v)) (b0 : Sr1Block K)
    (hb : Sr1Block.create n num u = some b0) (ops : List (BfgsBlock.Op K)) (hl : ∀ op ∈ ops, Sr1Legal n op) :
    ∃ b, b0.run norm 0 ops = some b ∧ ∀ d, VOk n d → ∃ q, b.hessProd 0 d = some q ∧ VOk n q ∧
      dense n q = sr1Matrix nrm (lastN num (pairsSince n [] ops)) *ᵥ dense n d := by
  obtain ⟨b, h1, h2⟩ := sr1Inv_run hnorm ops b0 [] (sr1Inv_create (nrm := nrm) hb) hl
  exact ⟨b, h1, fun d hd => sr1Inv_prod h2 hd⟩

/-- C27: the SR1 matrix is symmetric. -/
theorem C27_symmetric (nrm : (Fin n → K) → K) (ps : List ((Fin n → K) × (Fin n → K))) :
    (sr1Matrix nrm ps).IsSymm := by
  unfold sr1Matrix
  split
  · exact isSymm_one
  · refine sr1Fold_symm nrm _ ?_
    unfold IsSymm
    rw [transpose_smul, transpose_one]

/-- C27: the newest pair `(s, y)` satisfies the secant condition `B s = y`, unless the
safeguard skipped it, i.e. unless `|s · (y - B' s)| < 1e-8 ‖y - B' s‖ ‖s‖` for the matrix
`B'` of the other pairs in the memory.  Needs of the norm only that it vanishes exactly at 0. -/
theorem C27_secant (nrm : (Fin n → K) → K) (h0 : ∀ v, 0 ≤ nrm v) (h1 : ∀ v, nrm v = 0 ↔ v = 0)
    (ps : List ((Fin n → K) × (Fin n → K))) (s y : Fin n → K) (hs : s ≠ 0) :
    ∃ B', B' = ps.foldl (sr1Step nrm) (sr1Scale s y • (1 : Matrix (Fin n) (Fin n) K)) ∧
      (¬ (|s ⬝ᵥ (y - B' *ᵥ s)| < 1 / 100000000 * nrm (y - B' *ᵥ s) * nrm s) →
        sr1Matrix nrm (ps ++ [(s, y)]) *ᵥ s = y) ∧
      (|s ⬝ᵥ (y - B' *ᵥ s)| < 1 / 100000000 * nrm (y - B' *ᵥ s) * nrm s →
        sr1Matrix nrm (ps ++ [(s, y)]) = B') := by
  refine ⟨_, rfl, ?_, ?_⟩
  · intro hns
    obtain ⟨B', hB'⟩ : ∃ B', B' = ps.foldl (sr1Step nrm) (sr1Scale s y • (1 : Matrix (Fin n) (Fin n) K)) := ⟨_, rfl⟩
    have hM : sr1Matrix nrm (ps ++ [(s, y)]) = sr1Step nrm B' (s, y) := by
      unfold sr1Matrix
      simp [List.foldl_append, hB']
    rw [hM]
    rw [← hB'] at hns
    by_cases hz : s ⬝ᵥ (y - B' *ᵥ s) = 0
    · have ha : y - B' *ᵥ s = 0 := by
        by_contra hne
        have h2 : 0 < nrm (y - B' *ᵥ s) := lt_of_le_of_ne (h0 _) fun h => hne ((h1 _).mp h.symm)
        have h3 : 0 < nrm s := lt_of_le_of_ne (h0 _) fun h => hs ((h1 _).mp h.symm)
        apply hns
        rw [hz, abs_zero]
        positivity
      rw [sr1Step_mulVec, if_pos (show sr1Skip nrm (s, y).1 ((s, y).2 - B' *ᵥ (s, y).1) from Or.inr hz)]
      exact (sub_eq_zero.mp ha).symm
    · exact sr1Step_secant nrm B' (s, y) (by
        rintro (h | h)
        · exact hns h
        · exact hz h)
  · intro hs
    unfold sr1Matrix
    simp only [List.getLast?_append, List.getLast?_singleton, Option.or_some, Option.some_or, List.foldl_append,
      List.foldl_cons, List.foldl_nil]
    have : ∀ B : Matrix (Fin n) (Fin n) K, |s ⬝ᵥ (y - B *ᵥ s)| < 1 / 100000000 * nrm (y - B *ᵥ s) * nrm s →
        sr1Step nrm B (s, y) = B := by
      intro B h
      unfold sr1Step
      exact if_pos (Or.inl h)
    exact this _ hs

/-- the hypotheses are met in dimension 1 with `‖v‖ = |v|` and pairs of negative, positive
and no curvature -/
example : ∃ b0 : Sr1Block ℚ, Sr1Block.create 1 2 0 = some b0 ∧
    ∃ b, b0.run (fun v => |dense 1 v 0|) 0
      [.push ⟨1, 1, [(0, 1)]⟩ ⟨1, 1, [(0, -1)]⟩, .push ⟨1, 1, [(0, 2)]⟩ ⟨1, 1, [(0, 1)]⟩,
      .push ⟨1, 1, [(0, 1)]⟩ ⟨1, 1, []⟩] = some b := by
  have hv : ∀ x : ℚ, VOk 1 (⟨1, 1, [(0, x)]⟩ : Vec ℚ) := fun x => ⟨⟨by simp [Srt], by simp, by simp⟩, rfl⟩
  have h0 : VOk 1 (⟨1, 1, []⟩ : Vec ℚ) := ⟨⟨by simp [Srt], by simp, by simp⟩, rfl⟩
  obtain ⟨b, hb, _⟩ := C27_product_partial (n := 1) (nrm := fun v : Fin 1 → ℚ => |v 0|) (norm := fun v => |dense 1 v 0|)
    2 0 (fun _ _ => rfl) _ rfl
    [.push ⟨1, 1, [(0, 1)]⟩ ⟨1, 1, [(0, -1)]⟩, .push ⟨1, 1, [(0, 2)]⟩ ⟨1, 1, [(0, 1)]⟩,
      .push ⟨1, 1, [(0, 1)]⟩ ⟨1, 1, []⟩] (by
      intro op hop
      simp only [List.mem_cons, List.not_mem_nil, or_false] at hop
      rcases hop with rfl | rfl | rfl
      · exact ⟨hv _, hv _⟩
      · exact ⟨hv _, hv _⟩
      · exact ⟨hv _, h0⟩)
  exact ⟨_, rfl, b, hb⟩

example : (∀ v : Fin 1 → ℚ, 0 ≤ |v 0|) ∧ ∀ v : Fin 1 → ℚ, |v 0| = 0 ↔ v = 0 := by
  refine ⟨fun v => abs_nonneg _, fun v => ?_⟩
  rw [abs_eq_zero]
  exact ⟨fun h => by funext i; rw [Subsingleton.elim i 0]; exact h, fun h => by rw [h]; rfl⟩

end Sleqp
