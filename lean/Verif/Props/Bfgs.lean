import Verif.Lemmas.Bfgs
import Verif.Lemmas.Hist
import Mathlib.Data.Rat.Defs

/-!
C26: the BFGS model of the Hessian is the textbook matrix built from the latest pairs,
symmetric and positive definite.  C28 (BFGS part): the memory holds the latest pairs.

All statements are for `zero_eps = 0` (no entries dropped).
-/

namespace Sleqp
open Matrix

section
variable {K : Type*} [Field K] [LinearOrder K]

/-- the pairs pushed since the latest reset, oldest first (`acc`: pairs before) -/
def pairsSince (n : Nat) (acc : List ((Fin n → K) × (Fin n → K))) :
    List (BfgsBlock.Op K) → List ((Fin n → K) × (Fin n → K))
  | [] => acc
  | .push s y :: ops => pairsSince n (acc ++ [(dense n s, dense n y)]) ops
  | .reset :: ops => pairsSince n [] ops

/-- what the caller of a block provides: well formed vectors of the block's dimension,
a nonzero step and — for plain BFGS — positive curvature along the step -/
def BfgsLegal (n : Nat) (damped : Bool) : BfgsBlock.Op K → Prop
  | .push s y => VOk n s ∧ VOk n y ∧ PairOk damped (dense n s, dense n y)
  | .reset => True

end

variable {K : Type*} [Field K] [LinearOrder K] [IsStrictOrderedRing K] {n : Nat}

/-- invariant of a block after a history with pairs `ps` -/
structure BfgsInv (n num : Nat) (damped ol : Bool) (b : BfgsBlock K)
    (ps : List ((Fin n → K) × (Fin n → K))) : Prop where
  dim : b.dim = n
  hdamped : b.damped = damped
  hol : b.ol = ol
  inv : b.ring.Inv
  hnum : b.ring.num = num
  slots : ∀ i < b.ring.len, SlotIn n damped ol (b.ring.arr (b.ring.slotAt i))
  sz : ol = false → ∀ i, (b.ring.arr i).sizing = 1
  pairs : b.ring.contents.map (slotPair n) = lastN num ps
  prod : b.ring.len ≠ 0 → ∃ p, ps.getLast? = some p ∧ b.scale = bfgsScale damped p.1 p.2 ∧
    BfgsDone n damped ol b.scale b.ring.contents (bfgsFold damped ol b.scale (lastN num ps))

theorem bfgsInv_create {num : Nat} {damped ol : Bool} {u : K} {b : BfgsBlock K}
    (h : BfgsBlock.create n num damped ol u = some b) : BfgsInv n num damped ol b [] := by
  unfold BfgsBlock.create at h
  split at h
  · rename_i hp
    injection h with h
    subst h
    exact ⟨rfl, rfl, rfl, ⟨hp.2, Nat.zero_le _⟩, rfl, fun i hi => absurd hi (Nat.not_lt_zero _), fun _ i => rfl,
      by rw [Ring.contents_nil _ rfl]; simp [lastN], fun h => absurd rfl h⟩
  · simp at h

theorem bfgsInv_reset {num : Nat} {damped ol : Bool} {b : BfgsBlock K}
    {ps : List ((Fin n → K) × (Fin n → K))} (h : BfgsInv n num damped ol b ps) :
    BfgsInv n num damped ol b.reset [] :=
  ⟨h.dim, h.hdamped, h.hol, ⟨h.inv.pos, Nat.zero_le _⟩, h.hnum, fun i hi => absurd hi (Nat.not_lt_zero _), h.sz,
    by rw [Ring.contents_nil _ rfl]; simp [lastN], fun h => absurd rfl h⟩

theorem bfgsInv_push {num : Nat} {damped ol : Bool} {b : BfgsBlock K}
    {ps : List ((Fin n → K) × (Fin n → K))} (h : BfgsInv n num damped ol b ps) {s y : Vec K} (hs : VOk n s)
    (hy : VOk n y) (hok : PairOk damped (dense n s, dense n y)) :
    ∃ b', b.push 0 s y = some b' ∧ BfgsInv n num damped ol b' (ps ++ [(dense n s, dense n y)]) := by
  obtain ⟨s', cs1, cs2, cs3⟩ := copy_spec (t := Vec.create b.dim 0) hs h.dim
  obtain ⟨y', cy1, cy2, cy3⟩ := copy_spec (t := Vec.create b.dim 0) hy h.dim
  have es : dense n s' = dense n s := dense_of_ents cs3
  have ey : dense n y' = dense n y := dense_of_ents cy3
  obtain ⟨old, hold⟩ : ∃ old, old = b.ring.arr (b.ring.dataIndex (b.ring.curr + 1)) := ⟨_, rfl⟩
  obtain ⟨sl, hsl, hsls, hsly, hslin⟩ : ∃ sl : BfgsSlot K, sl = (if b.ol then
      { old with s := s', y := y', ss := s.normSq, ys := dense n s ⬝ᵥ dense n y } else { old with s := s', y := y' }) ∧
      sl.s = s' ∧ sl.y = y' ∧ SlotIn n damped ol sl := by
    refine ⟨_, rfl, by split <;> rfl, by split <;> rfl, ?_⟩
    have hok' : PairOk damped (dense n s', dense n y') := by rw [es, ey]; exact hok
    rw [h.hol]
    rcases ol with _ | _
    · rw [if_neg (by simp)]
      exact ⟨cs2, cy2, hok', by simp, fun _ => by rw [hold]; exact h.sz rfl _⟩
    · rw [if_pos rfl]
      exact ⟨cs2, cy2, hok', fun _ => ⟨by simp only; rw [es, ey, dotProduct_comm], by simp only; rw [es, normSq_dense hs]⟩,
        by simp⟩
  have hinv2 : (b.ring.pushSet sl).Inv := Ring.store_inv _ h.inv _ _ _
  have hcont := Ring.pushSet_contents b.ring h.inv sl
  have hlenpos := Ring.pushSet_len b.ring h.inv sl
  have hpair : slotPair n sl = (dense n s, dense n y) := by
    unfold slotPair; rw [hsls, hsly, es, ey]
  have hpairs2 : (b.ring.pushSet sl).contents.map (slotPair n) = lastN num (ps ++ [(dense n s, dense n y)]) := by
    rw [hcont, List.map_drop, List.map_append, h.pairs, List.map_singleton, hpair, ← lastN_push, ← h.pairs,
      List.length_map, Ring.contents_length, h.hnum]
  have hslots2 : ∀ i < (b.ring.pushSet sl).len,
      SlotIn n damped ol ((b.ring.pushSet sl).arr ((b.ring.pushSet sl).slotAt i)) := by
    intro i hi
    have hmem : (b.ring.pushSet sl).arr ((b.ring.pushSet sl).slotAt i) ∈ (b.ring.pushSet sl).contents :=
      List.mem_map.mpr ⟨i, List.mem_range.mpr hi, rfl⟩
    rw [hcont] at hmem
    rcases List.mem_append.mp (List.mem_of_mem_drop hmem) with hm | hm
    · obtain ⟨k, hk, hk2⟩ := List.mem_map.mp hm
      rw [← hk2]
      exact h.slots k (List.mem_range.mp hk)
    · rw [List.mem_singleton.mp hm]; exact hslin
  have hsz2 : ol = false → ∀ i, ((b.ring.pushSet sl).arr i).sizing = 1 := by
    intro ho i
    show (if i = b.ring.dataIndex (b.ring.curr + 1) then sl else b.ring.arr i).sizing = 1
    split
    · exact hslin.szv ho
    · exact h.sz ho i
  have hsc := bfgsScale_pos damped (dense n s) (dense n y)
  obtain ⟨b', a1, a2, a3, a4, a5, a6, a7, a8, a9, a10, a11⟩ := processLoop_spec (n := n)
    { b with ring := b.ring.pushSet sl, scale := bfgsScale damped (dense n s) (dense n y) } h.dim hinv2 hsc
    (by rw [h.hdamped, h.hol]; exact hslots2) (b.ring.pushSet sl).len le_rfl
  have hrun : b.push 0 s y = some b' := by
    unfold BfgsBlock.push
    rw [cs1, Option.bind_some, cy1, Option.bind_some, dot_dense hs hy, Option.bind_some]
    simp only [← hold]
    rw [← hsl]
    unfold BfgsBlock.computeProducts
    simp only [Ring.pushSet_newest]
    rw [hsls, hsly, initialScale_spec cs2 cy2, Option.bind_some, es, ey, h.hdamped]
    simp only [h.hdamped] at a1 ⊢
    exact a1
  have hcont' : b'.ring.contents.map (slotPair n) = lastN num (ps ++ [(dense n s, dense n y)]) := by
    rw [← hpairs2]
    show (List.map (fun k : Nat => b'.ring.arr (b'.ring.slotAt k)) (List.range b'.ring.len)).map _ =
      (List.map (fun k : Nat => (b.ring.pushSet sl).arr ((b.ring.pushSet sl).slotAt k))
        (List.range (b.ring.pushSet sl).len)).map _
    rw [List.map_map, List.map_map, a7]
    refine List.map_congr_left fun i hi => ?_
    exact (a9 i (List.mem_range.mp hi)).2
  simp only [h.hdamped, h.hol] at a3 a4 a9 a10 a11
  refine ⟨b', hrun, a2, a3, a4, a6, by rw [a8]; exact h.hnum, ?_, ?_, hcont', ?_⟩
  · intro i hi
    rw [a7] at hi
    exact (a9 i hi).1
  · intro ho; exact a10 ho (hsz2 ho)
  · intro _
    refine ⟨(dense n s, dense n y), by simp, a5, ?_⟩
    rw [a5, ← hpairs2]
    have : b'.ring.window (b.ring.pushSet sl).len = b'.ring.contents := by
      rw [← Ring.window_len, a7]
    rw [this] at a11
    exact a11

theorem bfgsInv_run {num : Nat} {damped ol : Bool} (ops : List (BfgsBlock.Op K)) (b : BfgsBlock K)
    (ps : List ((Fin n → K) × (Fin n → K))) (h : BfgsInv n num damped ol b ps)
    (hl : ∀ op ∈ ops, BfgsLegal n damped op) :
    ∃ b', b.run 0 ops = some b' ∧ BfgsInv n num damped ol b' (pairsSince n ps ops) := by
  induction ops generalizing b ps with
  | nil => exact ⟨b, rfl, h⟩
  | cons op ops ih =>
    unfold BfgsBlock.run
    rw [List.foldlM_cons]
    cases op with
    | push s y =>
      obtain ⟨hs, hy, hok⟩ := hl _ (by simp : BfgsBlock.Op.push s y ∈ _)
      obtain ⟨b1, h1, h2⟩ := bfgsInv_push h hs hy hok
      obtain ⟨b', h3, h4⟩ := ih b1 _ h2 (fun op hop => hl op (by simp [hop]))
      exact ⟨b', by simp only [BfgsBlock.step, h1]; exact h3, h4⟩
    | reset =>
      obtain ⟨b', h3, h4⟩ := ih b.reset [] (bfgsInv_reset h) (fun op hop => hl op (by simp [hop]))
      exact ⟨b', h3, h4⟩

theorem lastN_getLast? {α : Type*} {num : Nat} (hn : 0 < num) (l : List α) : (lastN num l).getLast? = l.getLast? := by
  unfold lastN
  rcases l.eq_nil_or_concat with rfl | ⟨l', a, rfl⟩
  · simp
  · rw [List.concat_eq_append, List.drop_append_of_le_length (by simp; omega)]
    simp

/-- product of a block, from the invariant -/
theorem bfgsInv_prod {num : Nat} {damped ol : Bool} {b : BfgsBlock K}
    {ps : List ((Fin n → K) × (Fin n → K))} (h : BfgsInv n num damped ol b ps) {d : Vec K} (hd : VOk n d) :
    ∃ q, b.prod 0 d = some q ∧ VOk n q ∧
      dense n q = bfgsMatrix damped ol (lastN num ps) *ᵥ dense n d := by
  have hpos : 0 < num := by rw [← h.hnum]; exact h.inv.pos
  by_cases h0 : b.ring.len = 0
  · have hnil : lastN num ps = [] := by
      rw [← h.pairs]
      have : b.ring.contents.length = 0 := by rw [Ring.contents_length, h0]
      rw [List.eq_nil_of_length_eq_zero this]; rfl
    refine ⟨d, by unfold BfgsBlock.prod BfgsBlock.prod?; rw [if_pos h0], hd, ?_⟩
    rw [hnil]
    simp [bfgsMatrix]
  · obtain ⟨p, hp, hsc, hdone⟩ := h.prod h0
    obtain ⟨p0, c1, c2, c3⟩ := copy_spec (t := Vec.create b.dim 0) hd h.dim
    obtain ⟨q, q1, q2, q3⟩ := bfgsDone_prod hdone hd c2 c3
    refine ⟨q, ?_, q2, ?_⟩
    · unfold BfgsBlock.prod BfgsBlock.prod?
      rw [if_neg h0]
      simp only
      unfold BfgsBlock.hessProdRange
      rw [c1, Option.bind_some, h.dim, Ring.window_len, q1]
    · rw [q3]
      unfold bfgsMatrix
      rw [lastN_getLast? hpos, hp]
      simp only []
      rw [← hsc]

/-- C28 (BFGS): after every history of pushes and resets, the memory holds exactly the
latest `num` pairs pushed since the latest reset, oldest first. -/
theorem C28_bfgs_memory (num : Nat) (damped ol : Bool) (u : K) (b0 : BfgsBlock K)
    (hb : BfgsBlock.create n num damped ol u = some b0) (ops : List (BfgsBlock.Op K))
    (hl : ∀ op ∈ ops, BfgsLegal n damped op) :
    ∃ b, b0.run 0 ops = some b ∧
      b.ring.contents.map (fun sl => (dense n sl.s, dense n sl.y)) = lastN num (pairsSince n [] ops) := by
  obtain ⟨b, h1, h2⟩ := bfgsInv_run ops b0 [] (bfgsInv_create hb) hl
  exact ⟨b, h1, h2.pairs⟩

/-- C26: after every history, the product with a block is the product with the
limited-memory BFGS matrix of the latest `num` pairs; no assert fails and no division
by zero occurs.
This is for `zero_eps = 0`; with a positive drop tolerance it fails (`C26_drop_violated`). -/
theorem C26_product_partial (num : Nat) (damped ol : Bool) (u : K) (b0 : BfgsBlock K)
    (hb : BfgsBlock.create n num damped ol u = some b0) (ops : List (BfgsBlock.Op K))
    (hl : ∀ op ∈ ops, BfgsLegal n damped op) :
    ∃ b, b0.run 0 ops = some b ∧ ∀ d : Vec K, VOk n d →
      ∃ q, b.prod 0 d = some q ∧ VOk n q ∧
        dense n q = bfgsMatrix damped ol (lastN num (pairsSince n [] ops)) *ᵥ dense n d := by
  obtain ⟨b, h1, h2⟩ := bfgsInv_run ops b0 [] (bfgsInv_create hb) hl
  exact ⟨b, h1, fun d hd => bfgsInv_prod h2 hd⟩

/-- C26: this matrix is symmetric and positive definite, for pairs with nonzero steps
and — unless damping is switched on — positive curvature.
This is about the matrix, which the product is for `zero_eps = 0` only (`C26_drop_violated`). -/
theorem C26_posdef_partial (damped ol : Bool) (ps : List ((Fin n → K) × (Fin n → K)))
    (h : ∀ p ∈ ps, p.1 ≠ 0 ∧ (damped = true ∨ 0 < p.2 ⬝ᵥ p.1)) : SymPos (bfgsMatrix damped ol ps) := by
  unfold bfgsMatrix
  rcases ps.getLast? with _ | p
  · exact one_symPos
  · exact bfgsFold_symPos damped ol (bfgsScale_pos _ _ _) ps h

/-- C26: the newest pair satisfies the damped secant equation `B s = r`, where `r` is
`y` itself unless damping was necessary (`y · s < 0.2 sᵀ B₋ s`, `B₋` being the matrix before the pair
is added); then `r · s = 0.2 sᵀ B₋ s`.
This is about the matrix, which the product is for `zero_eps = 0` only (`C26_drop_violated`). -/
theorem C26_secant_partial (damped ol : Bool) (ps : List ((Fin n → K) × (Fin n → K))) (s y : Fin n → K)
    (h : ∀ p ∈ ps ++ [(s, y)], p.1 ≠ 0 ∧ (damped = true ∨ 0 < p.2 ⬝ᵥ p.1)) :
    ∃ (B : Matrix (Fin n) (Fin n) K) (r : Fin n → K), SymPos B ∧
      bfgsMatrix damped ol (ps ++ [(s, y)]) *ᵥ s = r ∧ 0 < r ⬝ᵥ s ∧
      (damped = false → r = y) ∧ (1 / 5 * (s ⬝ᵥ B *ᵥ s) ≤ y ⬝ᵥ s → r = y) ∧
      (damped = true → y ⬝ᵥ s < 1 / 5 * (s ⬝ᵥ B *ᵥ s) → r ⬝ᵥ s = 1 / 5 * (s ⬝ᵥ B *ᵥ s)) := by
  have hlast : (ps ++ [(s, y)]).getLast? = some (s, y) := by simp
  have hp := h (s, y) (by simp)
  have hB : SymPos (bfgsFold damped ol (bfgsScale damped s y) ps).1 :=
    bfgsFold_symPos damped ol (bfgsScale_pos _ _ _) ps fun p hp => h p (by simp [hp])
  obtain ⟨st, hst⟩ : ∃ st, st = bfgsFold damped ol (bfgsScale damped s y) ps := ⟨_, rfl⟩
  rw [← hst] at hB
  have hbp := hB.2 s hp.1
  have hr := powell_pos damped s y hbp hp.2
  refine ⟨st.1, powell damped st.1 s y, hB, ?_, hr, ?_, ?_, ?_⟩
  · unfold bfgsMatrix
    rw [hlast]
    simp only
    unfold bfgsFold at hst ⊢
    rw [List.foldl_append, ← hst]
    simp only [List.foldl_cons, List.foldl_nil]
    unfold bfgsStep
    exact bfgsUpdate_secant _ _ _ _ hbp.ne' hr.ne'
  · intro hd; unfold powell; rw [if_neg (by simp [hd])]
  · intro hle; unfold powell; rw [if_neg (fun hc => absurd hc.2 (not_lt.mpr hle))]
  · intro hd hlt
    unfold powell
    rw [if_pos ⟨hd, hlt⟩]
    have hne : s ⬝ᵥ st.1 *ᵥ s - y ⬝ᵥ s ≠ 0 := by intro h0; linarith
    simp only
    rw [add_dotProduct, smul_dotProduct, smul_dotProduct, dotProduct_comm (st.1 *ᵥ s) s]
    simp only [smul_eq_mul]
    field_simp
    ring

theorem bfgs_undamped_fails {num : Nat} {ol : Bool} {b : BfgsBlock K}
    {ps : List ((Fin n → K) × (Fin n → K))} (h : BfgsInv n num false ol b ps) (hfresh : b.ring.len = 0)
    {s y : Vec K} (hs : VOk n s) (hy : VOk n y) (hc : dense n y ⬝ᵥ dense n s ≤ 0) :
    b.push 0 s y = none := by
  obtain ⟨s', cs1, cs2, cs3⟩ := copy_spec (t := Vec.create b.dim 0) hs h.dim
  obtain ⟨y', cy1, cy2, cy3⟩ := copy_spec (t := Vec.create b.dim 0) hy h.dim
  have es : dense n s' = dense n s := dense_of_ents cs3
  have ey : dense n y' = dense n y := dense_of_ents cy3
  obtain ⟨old, hold⟩ : ∃ old, old = b.ring.arr (b.ring.dataIndex (b.ring.curr + 1)) := ⟨_, rfl⟩
  obtain ⟨sl, hsl, hsls, hsly⟩ : ∃ sl : BfgsSlot K, sl = (if b.ol then
      { old with s := s', y := y', ss := s.normSq, ys := dense n s ⬝ᵥ dense n y } else { old with s := s', y := y' }) ∧
      sl.s = s' ∧ sl.y = y' := ⟨_, rfl, by split <;> rfl, by split <;> rfl⟩
  have hinv2 : (b.ring.pushSet sl).Inv := Ring.store_inv _ h.inv _ _ _
  have hcont := Ring.pushSet_contents b.ring h.inv sl
  have hnum := h.inv.pos
  have hlen : (b.ring.pushSet sl).len = 1 := by
    simp only [Ring.pushSet, Ring.store, hfresh]; rw [if_pos hnum]
  have hc0 : b.ring.contents = [] :=
    List.eq_nil_of_length_eq_zero (by rw [Ring.contents_length, hfresh])
  have hslot : (b.ring.pushSet sl).arr ((b.ring.pushSet sl).slotAt 0) = sl := by
    have h1 : (b.ring.pushSet sl).contents = [sl] := by
      rw [hcont, hc0, hfresh]; simp [show 1 - b.ring.num = 0 by omega]
    have h2 : (b.ring.pushSet sl).window 1 = [sl] := by rw [← hlen, Ring.window_len, h1]
    have h3 := Ring.window_succ (b.ring.pushSet sl) 0
    rw [h2] at h3
    simpa [Ring.window] using h3.symm
  unfold BfgsBlock.push
  rw [cs1, Option.bind_some, cy1, Option.bind_some, dot_dense hs hy, Option.bind_some]
  simp only [← hold]
  rw [← hsl]
  unfold BfgsBlock.computeProducts
  simp only [Ring.pushSet_newest]
  rw [hsls, hsly, initialScale_spec cs2 cy2, Option.bind_some, hlen, h.hdamped]
  simp only [List.range_one, List.foldlM_cons, List.foldlM_nil]
  suffices hnone : BfgsBlock.processSlot 0 { b with ring := b.ring.pushSet sl, scale := bfgsScale false (dense n s') (dense n y') } 0 = none by
    rw [h.hdamped] at hnone; rw [hnone]; rfl
  unfold BfgsBlock.processSlot
  simp only [hslot]
  obtain ⟨p0, c1, c2, c3⟩ := copy_spec (t := Vec.create b.dim 0) cs2 h.dim
  have hz := scale_dense c2 (bfgsScale false (dense n s') (dense n y'))
  have hprod : BfgsBlock.hessProdRange { b with ring := b.ring.pushSet sl, scale := bfgsScale false (dense n s') (dense n y') } 0 s' 0 =
      some (p0.scale (bfgsScale false (dense n s') (dense n y'))) := by
    unfold BfgsBlock.hessProdRange
    simp only []
    rw [c1, Option.bind_some]
    simp [Ring.window]
  rw [hsls, hsly, hprod, Option.bind_some, dot_dense hz.1 cs2, Option.bind_some]
  split
  · rw [dot_dense cy2 cs2, Option.bind_some]
    unfold BfgsBlock.dampedDiff
    rw [if_neg (by simp [h.hdamped]), hsly]
    obtain ⟨y2, c4, _⟩ := copy_spec (t := Vec.create b.dim 0) cy2 h.dim
    simp only [c4, Option.map_some, Option.bind_some]
    rw [if_neg (by rw [es, ey]; exact not_lt.mpr hc)]
  · rfl

/-- C26: plain BFGS violates the property: a pair without positive curvature along the
step makes the update hit a failed assertion (in a release build: divide by a
nonpositive number).  Nothing in the solver prevents such pairs, which arise for every
nonconvex objective. -/
theorem C26_undamped_violated (num : Nat) (ol : Bool) (u : K) (b : BfgsBlock K)
    (hb : BfgsBlock.create n num false ol u = some b) (s y : Vec K) (hs : VOk n s) (hy : VOk n y)
    (hc : dense n y ⬝ᵥ dense n s ≤ 0) : b.push 0 s y = none := by
  have hi := bfgsInv_create hb
  refine bfgs_undamped_fails hi ?_ hs hy hc
  unfold BfgsBlock.create at hb
  split at hb
  · injection hb with hb; rw [← hb]; rfl
  · simp at hb

/-- such a pair: `s = 1`, `y = -1` in dimension 1 -/
example : ∃ b : BfgsBlock ℚ, BfgsBlock.create 1 5 false false 0 = some b ∧
    b.push 0 ⟨1, 1, [(0, 1)]⟩ ⟨1, 1, [(0, -1)]⟩ = none :=
  ⟨_, rfl, C26_undamped_violated (n := 1) 5 false 0 _ rfl _ _
    ⟨⟨by simp [Srt], by simp, by simp⟩, rfl⟩ ⟨⟨by simp [Srt], by simp, by simp⟩, rfl⟩ (by decide +kernel)⟩

/-- the hypotheses of `C26_product_partial` for the damped method are met by that pair (and two more,
with a memory of two pairs) -/
example : ∃ b0 : BfgsBlock ℚ, BfgsBlock.create 1 2 true true 0 = some b0 ∧
    ∃ b, b0.run 0 [.push ⟨1, 1, [(0, 1)]⟩ ⟨1, 1, [(0, -1)]⟩, .push ⟨1, 1, [(0, 2)]⟩ ⟨1, 1, [(0, 1)]⟩,
      .push ⟨1, 1, [(0, 1)]⟩ ⟨1, 1, []⟩] = some b := by
  have hv : ∀ x : ℚ, VOk 1 (⟨1, 1, [(0, x)]⟩ : Vec ℚ) := fun x => ⟨⟨by simp [Srt], by simp, by simp⟩, rfl⟩
  have h0 : VOk 1 (⟨1, 1, []⟩ : Vec ℚ) := ⟨⟨by simp [Srt], by simp, by simp⟩, rfl⟩
  have hne : ∀ x : ℚ, x ≠ 0 → dense 1 (⟨1, 1, [(0, x)]⟩ : Vec ℚ) ≠ 0 := by
    intro x hx h
    have := congrFun h 0
    simp [dense, Vec.value, valAt, at?, orZero] at this
    exact hx this
  obtain ⟨b, hb, _⟩ := C26_product_partial (n := 1) 2 true true (0 : ℚ) _ rfl
    [.push ⟨1, 1, [(0, 1)]⟩ ⟨1, 1, [(0, -1)]⟩, .push ⟨1, 1, [(0, 2)]⟩ ⟨1, 1, [(0, 1)]⟩,
      .push ⟨1, 1, [(0, 1)]⟩ ⟨1, 1, []⟩] (by
      intro op hop
      simp only [List.mem_cons, List.not_mem_nil, or_false] at hop
      rcases hop with rfl | rfl | rfl
      · exact ⟨hv _, hv _, hne _ (by norm_num), Or.inl rfl⟩
      · exact ⟨hv _, hv _, hne _ (by norm_num), Or.inl rfl⟩
      · exact ⟨hv _, h0, hne _ (by norm_num), Or.inl rfl⟩)
  exact ⟨_, rfl, b, hb⟩

end Sleqp
