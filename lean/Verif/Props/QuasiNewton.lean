import Verif.Props.Sr1
import Verif.Lemmas.QnRun

/-!
C26, C27: the complete (block-diagonal) quasi-Newton models, for every sequence of pairs
and resets.  As in `Props/Bfgs.lean`, `zero_eps = 0`.
-/

namespace Sleqp
open Matrix

variable {K : Type*} [Field K] [LinearOrder K] [IsStrictOrderedRing K]

theorem bfgs_method (num : Nat) (ol : Bool) :
    QnMethod (K := K) BfgsBlock.dim (fun b s y => b.push 0 s y) BfgsBlock.reset (fun b => b.prod? 0)
      (fun m b ps => BfgsInv m num true ol b ps) (fun _ ps => bfgsMatrix true ol (lastN num ps)) where
  hdim := fun h => h.dim
  hpush := fun h s y hs hy h0 => bfgsInv_push h hs hy ⟨h0, Or.inl rfl⟩
  hreset := fun h => bfgsInv_reset h
  hprod := by
    intro m b ps h
    refine ⟨h.dim, ?_⟩
    by_cases h0 : b.ring.len = 0
    · have hnil : lastN num ps = [] := by
        rw [← h.pairs, Ring.contents_nil _ h0]; rfl
      simp only [BfgsBlock.prod?, if_pos h0, hnil]
      rfl
    · simp only [BfgsBlock.prod?, if_neg h0]
      intro d hd
      obtain ⟨q, q1, q2, q3⟩ := bfgsInv_prod h hd
      simp only [BfgsBlock.prod, BfgsBlock.prod?, if_neg h0] at q1
      exact ⟨q, q1, q2, q3⟩

theorem sr1_method (num : Nat) (norm : Vec K → K) (nrm : (m : Nat) → (Fin m → K) → K)
    (hnorm : ∀ m v, VOk m v → norm v = nrm m (dense m v)) :
    QnMethod (K := K) Sr1Block.dim (fun b s y => b.push norm 0 s y) Sr1Block.reset (fun b => b.prod? 0)
      (fun m b ps => Sr1Inv m num (nrm m) b ps) (fun m ps => sr1Matrix (nrm m) (lastN num ps)) where
  hdim := fun h => h.dim
  hpush := fun h s y hs hy _ => sr1Inv_push (hnorm _) h hs hy
  hreset := fun h => sr1Inv_reset h
  hprod := by
    intro m b ps h
    refine ⟨h.dim, ?_⟩
    by_cases h0 : b.ring.len = 0
    · have hnil : lastN num ps = [] := by
        rw [← h.pairs, Ring.contents_nil _ h0]; rfl
      simp only [Sr1Block.prod?, if_pos h0, hnil]
      rfl
    · simp only [Sr1Block.prod?, if_neg h0]
      intro d hd
      exact sr1Inv_prod h hd

theorem mapM_forall₂ {α β : Type*} {f : α → Option β} {R : α → β → Prop} (hf : ∀ a b, f a = some b → R a b) :
    ∀ (l : List α) (r : List β), l.mapM f = some r → List.Forall₂ R l r := by
  intro l
  induction l with
  | nil => intro r h; simp at h; subst h; exact List.Forall₂.nil
  | cons a l ih =>
    intro r h
    rw [List.mapM_cons] at h
    rcases h1 : f a with _ | b
    · simp [h1] at h
    · rcases h2 : l.mapM f with _ | r'
      · simp [h1, h2] at h
      · simp [h1, h2] at h
        subst h
        exact List.Forall₂.cons (hf a b h1) (ih r' h2)

theorem forall₂_offsets {β : Type*} {R : Nat → β → Prop} {dims : List Nat} {bs : List β}
    (h : List.Forall₂ R dims bs) : ∀ off, List.Forall₂ (fun p : Nat × Nat => R p.2) (offsets off dims) bs := by
  induction h with
  | nil => intro _; exact List.Forall₂.nil
  | cons h1 _ ih => intro off; exact List.Forall₂.cons h1 (ih _)

/-- C26 (whole model): for every Hessian structure and every history of pairs and resets
— with no condition on the pairs — damped BFGS succeeds, and on the block at offset `p.1`
of dimension `p.2` the product with any direction is the product with the BFGS matrix of
the latest `num` pairs seen by that block; variables outside all blocks contribute zero.
This is for `zero_eps = 0`; with a positive drop tolerance it fails (`C26_drop_violated`). -/
theorem C26_block_diagonal_partial (numVars : Nat) (dims : List Nat) (hn : dims.sum ≤ numVars) (num : Nat) (ol : Bool)
    (u tol : K) (ht : 0 ≤ tol) (bs0 : List (BfgsBlock K)) (hb : bfgsCreate dims num true ol u = some bs0)
    (ops : List (BfgsBlock.Op K)) (hl : ∀ s y, BfgsBlock.Op.push s y ∈ ops → VOk numVars s ∧ VOk numVars y) :
    ∃ bs, blocksRun numVars tol BfgsBlock.dim (fun b s y => b.push 0 s y) BfgsBlock.reset bs0 ops = some bs ∧
      ∀ d product : Vec K, VOk numVars d → product.dim = numVars →
        ∃ r, blockHessProd numVars (bs.map fun b => (b.dim, b.prod? 0)) d product = some r ∧ VOk numVars r ∧
          (∀ p ∈ offsets 0 dims, part p.1 p.2 r =
            bfgsMatrix true ol (lastN num (blockHistory tol p.1 p.2 [] ops)) *ᵥ part p.1 p.2 d) ∧
          ∀ k, dims.sum ≤ k → r.value k = 0 := by
  have h0 : List.Forall₂ (fun (p : Nat × Nat) b => BfgsInv p.2 num true ol b []) (offsets 0 dims) bs0 :=
    forall₂_offsets (mapM_forall₂ (R := fun m b => BfgsInv m num true ol b [])
      (fun m b h => bfgsInv_create h) dims bs0 hb) 0
  obtain ⟨bs, h1, h2⟩ := blocksRun_spec (numVars := numVars) (bfgs_method num ol) ht dims hn ops bs0
    (fun _ _ => []) h0 hl
  exact ⟨bs, h1, fun d product hd hp => blocksProd_spec (numVars := numVars) (bfgs_method num ol) dims hn
    (fun off m => blockHistory tol off m [] ops) bs h2 d product hd hp⟩

theorem pairOk_history (tol : K) (ht : 0 ≤ tol) (off m : Nat) (ops : List (BfgsBlock.Op K)) :
    ∀ acc : List ((Fin m → K) × (Fin m → K)), (∀ p ∈ acc, p.1 ≠ 0) →
      ∀ p ∈ blockHistory tol off m acc ops, p.1 ≠ 0 := by
  induction ops with
  | nil => intro acc h; exact h
  | cons op ops ih =>
    intro acc h
    cases op with
    | reset => exact ih [] (by simp)
    | push s y =>
      unfold blockHistory
      refine ih _ ?_
      split
      · exact h
      · rename_i hz
        intro p hp
        rcases List.mem_append.mp hp with h1 | h1
        · exact h p h1
        · rw [List.mem_singleton.mp h1]
          intro h0
          simp only at h0
          rw [h0] at hz
          exact hz (by simpa using ht)

/-- sum over consecutive blocks -/
theorem sum_offsets (f : Nat → K) (dims : List Nat) : ∀ off,
    ((offsets off dims).map fun p => ∑ j : Fin p.2, f (p.1 + j)).sum =
      ∑ k ∈ Finset.range dims.sum, f (off + k) := by
  induction dims with
  | nil => intro off; simp [offsets]
  | cons m dims ih =>
    intro off
    simp only [offsets, List.map_cons, List.sum_cons, ih (off + m)]
    rw [Finset.sum_range_add, Finset.sum_range fun k => f (off + k)]
    congr 1
    refine Finset.sum_congr rfl fun k _ => ?_
    rw [Nat.add_assoc]

/-- C26 (whole model): the curvature `d · (H d)` reported by damped BFGS is never negative,
and it is positive for every direction that does not vanish on all blocks — for every
history of pairs and resets.
This is for `zero_eps = 0`; a positive drop tolerance is missing. -/
theorem C26_curvature_partial (numVars : Nat) (dims : List Nat) (hn : dims.sum ≤ numVars) (num : Nat)
    (ol : Bool) (u tol : K) (ht : 0 ≤ tol) (bs0 : List (BfgsBlock K)) (hb : bfgsCreate dims num true ol u = some bs0)
    (ops : List (BfgsBlock.Op K)) (hl : ∀ s y, BfgsBlock.Op.push s y ∈ ops → VOk numVars s ∧ VOk numVars y) :
    ∃ bs, blocksRun numVars tol BfgsBlock.dim (fun b s y => b.push 0 s y) BfgsBlock.reset bs0 ops = some bs ∧
      ∀ d product : Vec K, VOk numVars d → product.dim = numVars →
        ∃ r, blockHessProd numVars (bs.map fun b => (b.dim, b.prod? 0)) d product = some r ∧
          0 ≤ ∑ k ∈ Finset.range numVars, d.value k * r.value k ∧
          ((∃ k < dims.sum, d.value k ≠ 0) → 0 < ∑ k ∈ Finset.range numVars, d.value k * r.value k) := by
  obtain ⟨bs, h1, h2⟩ := C26_block_diagonal_partial numVars dims hn num ol u tol ht bs0 hb ops hl
  refine ⟨bs, h1, fun d product hd hp => ?_⟩
  obtain ⟨r, r1, _, r3, r4⟩ := h2 d product hd hp
  refine ⟨r, r1, ?_⟩
  have hsum : ∑ k ∈ Finset.range numVars, d.value k * r.value k =
      ((offsets 0 dims).map fun p => part p.1 p.2 d ⬝ᵥ
        bfgsMatrix true ol (lastN num (blockHistory tol p.1 p.2 [] ops)) *ᵥ part p.1 p.2 d).sum := by
    have e1 : ∑ k ∈ Finset.range numVars, d.value k * r.value k =
        ∑ k ∈ Finset.range dims.sum, d.value (0 + k) * r.value (0 + k) := by
      obtain ⟨c, hc⟩ := Nat.exists_eq_add_of_le hn
      rw [hc, Finset.sum_range_add]
      simp only [Nat.zero_add]
      rw [Finset.sum_eq_zero (s := Finset.range c), add_zero]
      intro k _
      rw [r4 _ (by omega), mul_zero]
    rw [e1, ← sum_offsets (fun k => d.value k * r.value k) dims 0]
    refine congrArg List.sum (List.map_congr_left fun p hp => ?_)
    rw [← r3 p hp]
    rfl
  have hpos : ∀ p ∈ offsets 0 dims,
      SymPos (bfgsMatrix true ol (lastN num (blockHistory tol p.1 p.2 [] ops))) := by
    intro p _
    refine C26_posdef_partial true ol _ fun q hq => ?_
    have hq' := lastN_mem hq
    exact ⟨pairOk_history tol ht p.1 p.2 ops [] (by simp) q hq', Or.inl rfl⟩
  rw [hsum]
  have hnn : ∀ x ∈ (offsets 0 dims).map (fun p => part p.1 p.2 d ⬝ᵥ
        bfgsMatrix true ol (lastN num (blockHistory tol p.1 p.2 [] ops)) *ᵥ part p.1 p.2 d), 0 ≤ x := by
    intro x hx
    obtain ⟨p, hp, rfl⟩ := List.mem_map.mp hx
    by_cases h0 : part p.1 p.2 d = 0
    · rw [h0]; simp
    · exact ((hpos p hp).2 _ h0).le
  refine ⟨List.sum_nonneg hnn, ?_⟩
  rintro ⟨k, hk, hdk⟩
  by_contra hle
  have hall := fun x => List.all_zero_of_le_zero_le_of_sum_eq_zero (x := x) (l := (offsets 0 dims).map (fun p => part p.1 p.2 d ⬝ᵥ
        bfgsMatrix true ol (lastN num (blockHistory tol p.1 p.2 [] ops)) *ᵥ part p.1 p.2 d)) hnn
    (le_antisymm (not_lt.mp hle) (List.sum_nonneg hnn))
  have hz : ∀ p ∈ offsets 0 dims, part p.1 p.2 d = 0 := by
    intro p hp
    by_contra h0
    have h3 := (hpos p hp).2 _ h0
    have h4 := hall _ (List.mem_map_of_mem (f := fun p : Nat × Nat => part p.1 p.2 d ⬝ᵥ
        bfgsMatrix true ol (lastN num (blockHistory tol p.1 p.2 [] ops)) *ᵥ part p.1 p.2 d) hp)
    rw [h4] at h3
    exact lt_irrefl _ h3
  have hs2 := sum_offsets (fun k => d.value k * d.value k) dims 0
  have h5 : ((offsets 0 dims).map fun p => ∑ j : Fin p.2, d.value (p.1 + j) * d.value (p.1 + j)).sum = 0 := by
    refine List.sum_eq_zero fun x hx => ?_
    obtain ⟨p, hp, rfl⟩ := List.mem_map.mp hx
    refine Finset.sum_eq_zero fun j _ => ?_
    have := congrFun (hz p hp) j
    simp only [part, Pi.zero_apply] at this
    rw [this, mul_zero]
  rw [h5] at hs2
  have h6 := (Finset.sum_eq_zero_iff_of_nonneg fun k _ => mul_self_nonneg (d.value (0 + k))).mp hs2.symm k
    (Finset.mem_range.mpr hk)
  rw [Nat.zero_add] at h6
  exact hdk (mul_self_eq_zero.mp h6)

/-- C27 (whole model): for every Hessian structure and every history of pairs and resets,
SR1 succeeds, and on every block the product is the product with the SR1 matrix of the
latest `num` pairs seen by that block.
This is for `zero_eps = 0`; with a positive drop tolerance it fails (`C27_drop_violated`). -/
theorem C27_block_diagonal_partial (numVars : Nat) (dims : List Nat) (hn : dims.sum ≤ numVars) (num : Nat)
    (norm : Vec K → K) (nrm : (m : Nat) → (Fin m → K) → K) (hnorm : ∀ m v, VOk m v → norm v = nrm m (dense m v))
    (u tol : K) (ht : 0 ≤ tol) (bs0 : List (Sr1Block K)) (hb : sr1Create dims num u = some bs0)
    (ops : List (BfgsBlock.Op K)) (hl : ∀ s y, BfgsBlock.Op.push s y ∈ ops → VOk numVars s ∧ VOk numVars y) :
    ∃ bs, blocksRun numVars tol Sr1Block.dim (fun b s y => b.push norm 0 s y) Sr1Block.reset bs0 ops = some bs ∧
      ∀ d product : Vec K, VOk numVars d → product.dim = numVars →
        ∃ r, blockHessProd numVars (bs.map fun b => (b.dim, b.prod? 0)) d product = some r ∧ VOk numVars r ∧
          (∀ p ∈ offsets 0 dims, part p.1 p.2 r =
            sr1Matrix (nrm p.2) (lastN num (blockHistory tol p.1 p.2 [] ops)) *ᵥ part p.1 p.2 d) ∧
          ∀ k, dims.sum ≤ k → r.value k = 0 := by
  have h0 : List.Forall₂ (fun (p : Nat × Nat) b => Sr1Inv p.2 num (nrm p.2) b []) (offsets 0 dims) bs0 :=
    forall₂_offsets (mapM_forall₂ (R := fun m b => Sr1Inv m num (nrm m) b [])
      (fun m b h => sr1Inv_create h) dims bs0 hb) 0
  obtain ⟨bs, h1, h2⟩ := blocksRun_spec (numVars := numVars) (sr1_method num norm nrm hnorm) ht dims hn ops bs0
    (fun _ _ => []) h0 hl
  exact ⟨bs, h1, fun d product hd hp => blocksProd_spec (numVars := numVars) (sr1_method num norm nrm hnorm) dims hn
    (fun off m => blockHistory tol off m [] ops) bs h2 d product hd hp⟩

/-- the hypotheses are met: three variables, two blocks (the last variable is linear), one pair -/
example : ∃ bs0 : List (BfgsBlock ℚ), bfgsCreate [1, 1] 2 true false 0 = some bs0 ∧
    ∃ bs, blocksRun 3 (1 / 10000000000) BfgsBlock.dim (fun b s y => b.push 0 s y) BfgsBlock.reset bs0
      [.push ⟨3, 3, [(0, 1), (1, 1), (2, 1)]⟩ ⟨3, 3, [(0, -1), (2, 4)]⟩] = some bs := by
  obtain ⟨bs, h, _⟩ := C26_block_diagonal_partial (K := ℚ) 3 [1, 1] (by decide) 2 false 0 (1 / 10000000000) (by norm_num) _ rfl
    [.push ⟨3, 3, [(0, 1), (1, 1), (2, 1)]⟩ ⟨3, 3, [(0, -1), (2, 4)]⟩] (by
      intro s y h
      simp only [List.mem_singleton, BfgsBlock.Op.push.injEq] at h
      obtain ⟨rfl, rfl⟩ := h
      exact ⟨⟨⟨by simp [Srt], by simp, by simp⟩, rfl⟩, ⟨⟨by simp [Srt], by simp, by simp⟩, rfl⟩⟩)
  exact ⟨_, rfl, bs, h⟩

/-- C26/C27: the pair computed from two iterates and the multipliers is the difference of
the points and the difference of the gradients of the Lagrangean with these multipliers.
This is for `zero_eps = 0`; a positive drop tolerance is missing. -/
theorem C26_pair_partial (n m : Nat) (x0 g0 x1 g1 mult : Vec K) (j0 j1 : Mat K) (hx0 : VOk n x0) (hx1 : VOk n x1)
    (hg0 : VOk n g0) (hg1 : VOk n g1) (hj0 : j0.WF) (hj1 : j1.WF) (d0 : j0.numRows = m ∧ j0.numCols = n)
    (d1 : j1.numRows = m ∧ j1.numCols = n) (hm : VOk m mult) :
    ∃ s y, lagrangeDiffs 0 n x0 g0 j0 x1 g1 j1 mult = some (s, y) ∧ VOk n s ∧ VOk n y ∧
      (∀ k < n, s.value k = x1.value k - x0.value k) ∧
      ∀ k < n, y.value k = (g1.value k + ∑ i ∈ Finset.range m, j1.value i k * mult.value i) -
        (g0.value k + ∑ i ∈ Finset.range m, j0.value i k * mult.value i) := by
  obtain ⟨p0, a1, a2, a3, a4⟩ := C08_mult_vec_trans j0 mult (Vec.create n 0) 0 le_rfl hj0 hm.1
    (by rw [d0.1, hm.2]) (by rw [d0.2]; rfl)
  obtain ⟨p1, b1, b2, b3, b4⟩ := C08_mult_vec_trans j1 mult (Vec.create n 0) 0 le_rfl hj1 hm.1
    (by rw [d1.1, hm.2]) (by rw [d1.2]; rfl)
  rw [d0.2] at a3 a4
  rw [d1.2] at b3 b4
  rw [d0.1] at a4
  rw [d1.1] at b4
  obtain ⟨l0, c1, c2, c3⟩ := addScaled_dense (r0 := Vec.create n 0) 1 1 (⟨a2, a3⟩ : VOk n p0) hg0
  obtain ⟨l1, e1, e2, e3⟩ := addScaled_dense (r0 := Vec.create n 0) 1 1 (⟨b2, b3⟩ : VOk n p1) hg1
  obtain ⟨y, f1, f2, f3⟩ := addScaled_dense (r0 := Vec.create n 0) (-1) 1 c2 e2
  obtain ⟨s, g1', g2, g3⟩ := addScaled_dense (r0 := Vec.create n 0) (-1) 1 hx0 hx1
  refine ⟨s, y, ?_, g2, f2, ?_, ?_⟩
  · unfold lagrangeDiffs
    rw [a1, Option.bind_some, c1, Option.bind_some, b1, Option.bind_some, e1, Option.bind_some, f1,
      Option.bind_some, g1', Option.map_some]
  · intro k hk
    have := congrFun g3 ⟨k, hk⟩
    simp only [dense, Pi.add_apply, Pi.smul_apply, smul_eq_mul] at this
    rw [this]; ring
  · intro k hk
    have h1 := congrFun f3 ⟨k, hk⟩
    have h2 := congrFun c3 ⟨k, hk⟩
    have h3 := congrFun e3 ⟨k, hk⟩
    simp only [dense, Pi.add_apply, Pi.smul_apply, smul_eq_mul] at h1 h2 h3
    have hz : ∀ t : K, (if |t| ≤ 0 then 0 else t) = t := by
      intro t
      split
      · rename_i h; exact (abs_nonpos_iff.mp h).symm
      · rfl
    rw [h1, h2, h3, a4 k hk, b4 k hk, hz, hz]
    ring

end Sleqp
