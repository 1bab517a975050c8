import Verif.Model.Sr1
import Verif.Spec.Sr1
import Verif.Lemmas.Bfgs

/-! The ring buffer computations of an SR1 block compute the matrix recursion. -/

namespace Sleqp
open Matrix

variable {K : Type*} [Field K] [LinearOrder K] [IsStrictOrderedRing K] {n : Nat}

theorem sr1Step_mulVec (nrm : (Fin n → K) → K) (B : Matrix (Fin n) (Fin n) K) (p : (Fin n → K) × (Fin n → K))
    (d : Fin n → K) :
    sr1Step nrm B p *ᵥ d =
      if sr1Skip nrm p.1 (p.2 - B *ᵥ p.1) then B *ᵥ d
      else B *ᵥ d + (((p.2 - B *ᵥ p.1) ⬝ᵥ d) / (p.1 ⬝ᵥ (p.2 - B *ᵥ p.1))) • (p.2 - B *ᵥ p.1) := by
  unfold sr1Step
  simp only
  split
  · rfl
  · rw [add_mulVec, smul_mulVec, vecMulVec_mulVec]
    congr 1
    funext i
    simp only [Pi.smul_apply, smul_eq_mul, MulOpposite.smul_eq_mul_unop, MulOpposite.unop_op]
    ring

theorem sr1Step_symm (nrm : (Fin n → K) → K) {B : Matrix (Fin n) (Fin n) K} (hB : B.IsSymm)
    (p : (Fin n → K) × (Fin n → K)) : (sr1Step nrm B p).IsSymm := by
  unfold sr1Step
  simp only
  split
  · exact hB
  · refine hB.add ?_
    unfold IsSymm
    rw [transpose_smul, transpose_vecMulVec]

theorem sr1Fold_symm (nrm : (Fin n → K) → K) (ps : List ((Fin n → K) × (Fin n → K)))
    {B : Matrix (Fin n) (Fin n) K} (hB : B.IsSymm) : (ps.foldl (sr1Step nrm) B).IsSymm := by
  induction ps generalizing B with
  | nil => exact hB
  | cons p ps ih => exact ih (sr1Step_symm nrm hB p)

theorem sr1Step_secant (nrm : (Fin n → K) → K) (B : Matrix (Fin n) (Fin n) K) (p : (Fin n → K) × (Fin n → K))
    (h : ¬ sr1Skip nrm p.1 (p.2 - B *ᵥ p.1)) : sr1Step nrm B p *ᵥ p.1 = p.2 := by
  rw [sr1Step_mulVec, if_neg h, dotProduct_comm, div_self (fun h0 => h (Or.inr h0)), one_smul,
    add_sub_cancel]

/-- the slots of a processed prefix carry the data of the recursion -/
inductive Sr1Done (n : Nat) (nrm : (Fin n → K) → K) (c : K) : List (Sr1Slot K) → Matrix (Fin n) (Fin n) K → Prop
  | nil : Sr1Done n nrm c [] (c • (1 : Matrix (Fin n) (Fin n) K))
  | snoc {l : List (Sr1Slot K)} {B : Matrix (Fin n) (Fin n) K} {sl : Sr1Slot K}
      (h : Sr1Done n nrm c l B) (hs : VOk n sl.s) (hy : VOk n sl.y) (ha : VOk n sl.a)
      (ea : dense n sl.a = dense n sl.y - B *ᵥ dense n sl.s)
      (ed : sl.dot = if sr1Skip nrm (dense n sl.s) (dense n sl.a) then 0 else dense n sl.s ⬝ᵥ dense n sl.a) :
      Sr1Done n nrm c (l ++ [sl]) (sr1Step nrm B (dense n sl.s, dense n sl.y))

variable {nrm : (Fin n → K) → K} {c : K}

theorem sr1_dot_zero {sl : Sr1Slot K}
    (ed : sl.dot = if sr1Skip nrm (dense n sl.s) (dense n sl.a) then 0 else dense n sl.s ⬝ᵥ dense n sl.a) :
    sl.dot = 0 ↔ sr1Skip nrm (dense n sl.s) (dense n sl.a) := by
  rw [ed]
  by_cases h : sr1Skip nrm (dense n sl.s) (dense n sl.a)
  · simp [h]
  · rw [if_neg h]; exact ⟨fun h0 => absurd (Or.inr h0) h, fun h1 => absurd h1 h⟩

/-- both product loops over a processed prefix multiply by the matrix -/
theorem sr1Done_prod {l : List (Sr1Slot K)} {B : Matrix (Fin n) (Fin n) K} (h : Sr1Done n nrm c l B)
    {d p0 : Vec K} (hd : VOk n d) (hp : VOk n p0) (he : p0.ents = d.ents) :
    (∃ q, l.foldlM (Sr1Block.prodStep 0 n d) (p0.scale c) = some q ∧ VOk n q ∧ dense n q = B *ᵥ dense n d) ∧
    ∃ q, l.foldlM (Sr1Block.innerStep 0 n d) (p0.scale c) = some q ∧ VOk n q ∧ dense n q = B *ᵥ dense n d := by
  induction h with
  | nil =>
    obtain ⟨h1, h2⟩ := scale_dense hp c
    have h3 : dense n (p0.scale c) = (c • (1 : Matrix (Fin n) (Fin n) K)) *ᵥ dense n d := by
      rw [h2, smul_mulVec, one_mulVec, dense_of_ents he]
    exact ⟨⟨_, rfl, h1, h3⟩, ⟨_, rfl, h1, h3⟩⟩
  | @snoc l B sl h hs hy ha ea ed ih =>
    obtain ⟨⟨q, q1, q2, q3⟩, ⟨w, w1, w2, w3⟩⟩ := ih
    have hz := sr1_dot_zero ed
    rw [ea] at hz
    by_cases h0 : sl.dot = 0
    · have hskip := hz.mp h0
      refine ⟨⟨q, ?_, q2, ?_⟩, ⟨w, ?_, w2, ?_⟩⟩
      · rw [List.foldlM_append, q1]
        simp [Sr1Block.prodStep, h0]
      · rw [sr1Step_mulVec, if_pos hskip, q3]
      · rw [List.foldlM_append, w1]
        simp [Sr1Block.innerStep, h0]
      · rw [sr1Step_mulVec, if_pos hskip, w3]
    · have hskip : ¬ _ := fun hc => h0 (hz.mpr hc)
      have hdot : sl.dot = dense n sl.s ⬝ᵥ dense n sl.a := by
        rw [ed, if_neg (by rw [ea]; exact hskip)]
      obtain ⟨u, u1, u2, u3⟩ := addScaled_dense (r0 := Vec.create n 0) 1
        (dense n sl.a ⬝ᵥ dense n d / sl.dot) q2 ha
      obtain ⟨u', u1', u2', u3'⟩ := copy_spec (t := Vec.create n 0) u2 rfl
      obtain ⟨x, x1, x2, x3⟩ := addScaled_dense (r0 := Vec.create n 0) 1
        (dense n d ⬝ᵥ dense n sl.a / sl.dot) w2 ha
      obtain ⟨x', x1', x2', x3'⟩ := copy_spec (t := Vec.create n 0) x2 rfl
      refine ⟨⟨u', ?_, u2', ?_⟩, ⟨x', ?_, x2', ?_⟩⟩
      · rw [List.foldlM_append, q1]
        simp only [Option.bind_eq_bind, Option.bind_some, List.foldlM_cons, List.foldlM_nil, Option.pure_def]
        unfold Sr1Block.prodStep
        rw [if_neg h0, dot_dense ha hd, Option.bind_some, cdiv_ok h0, Option.bind_some, u1, Option.bind_some, u1']
        rfl
      · rw [sr1Step_mulVec, if_neg hskip, dense_of_ents u3', u3, q3, one_smul, hdot, ea]
      · rw [List.foldlM_append, w1]
        simp only [Option.bind_eq_bind, Option.bind_some, List.foldlM_cons, List.foldlM_nil, Option.pure_def]
        unfold Sr1Block.innerStep
        rw [if_neg h0, dot_dense hd ha, Option.bind_some, cdiv_ok h0, Option.bind_some, x1, Option.bind_some, x1']
        rfl
      · rw [sr1Step_mulVec, if_neg hskip, dense_of_ents x3', x3, w3, one_smul, hdot, ea,
          dotProduct_comm (dense n d)]

/-- data of a slot as stored by `push` -/
structure Sr1SlotIn (n : Nat) (sl : Sr1Slot K) : Prop where
  hs : VOk n sl.s
  hy : VOk n sl.y

/-- coordinates of the pair stored in a slot -/
def sr1Pair (n : Nat) (sl : Sr1Slot K) : (Fin n → K) × (Fin n → K) := (dense n sl.s, dense n sl.y)

theorem sr1_processSlot_spec {norm : Vec K → K} (hnorm : ∀ v, VOk n v → norm v = nrm (dense n v))
    {b : Sr1Block K} (hd : b.dim = n) {k : Nat} {B : Matrix (Fin n) (Fin n) K}
    (hdone : Sr1Done n nrm b.scale (b.ring.window k) B)
    (hsl : Sr1SlotIn n (b.ring.arr (b.ring.slotAt k))) :
    ∃ sl', b.processSlot norm 0 k = some { b with ring := b.ring.setSlot k sl' } ∧
      sl'.s = (b.ring.arr (b.ring.slotAt k)).s ∧ sl'.y = (b.ring.arr (b.ring.slotAt k)).y ∧
      Sr1Done n nrm b.scale (b.ring.window k ++ [sl']) (sr1Step nrm B (sr1Pair n sl')) := by
  obtain ⟨sl, hsle⟩ : ∃ sl, sl = b.ring.arr (b.ring.slotAt k) := ⟨_, rfl⟩
  rw [← hsle] at hsl ⊢
  obtain ⟨p0, c1, c2, c3⟩ := copy_spec (t := Vec.create b.dim 0) hsl.hs hd
  obtain ⟨q, q1, q2, q3⟩ := (sr1Done_prod hdone hsl.hs c2 c3).2
  obtain ⟨a, a1, a2, a3⟩ := addScaled_dense (r0 := sl.a) (-1) 1 q2 hsl.hy
  have ea : dense n a = dense n sl.y - B *ᵥ dense n sl.s := by
    rw [a3, q3, one_smul, neg_one_smul, neg_add_eq_sub]
  refine ⟨{ sl with a := a, dot := Sr1Block.safeguard norm sl.s a (dense n sl.s ⬝ᵥ dense n a) }, ?_, rfl, rfl, ?_⟩
  · unfold Sr1Block.processSlot
    simp only []
    rw [← hsle, c1, Option.bind_some, hd, q1, Option.bind_some, a1, Option.bind_some, dot_dense hsl.hs a2,
      Option.map_some]
  · refine Sr1Done.snoc hdone hsl.hs hsl.hy a2 ea ?_
    simp only
    unfold Sr1Block.safeguard
    rw [hnorm _ a2, hnorm _ hsl.hs]
    by_cases h1 : |dense n sl.s ⬝ᵥ dense n a| < 1 / 100000000 * nrm (dense n a) * nrm (dense n sl.s)
    · rw [if_pos h1, if_pos (show sr1Skip _ _ _ from Or.inl h1)]
    · rw [if_neg h1]
      by_cases h2 : dense n sl.s ⬝ᵥ dense n a = 0
      · rw [if_pos (show sr1Skip _ _ _ from Or.inr h2), h2]
      · rw [if_neg (show ¬ sr1Skip _ _ _ from fun h => h.elim h1 h2)]

theorem sr1_processLoop_spec {norm : Vec K → K} (hnorm : ∀ v, VOk n v → norm v = nrm (dense n v))
    (b : Sr1Block K) (hd : b.dim = n) (hr : b.ring.Inv)
    (hin : ∀ i < b.ring.len, Sr1SlotIn n (b.ring.arr (b.ring.slotAt i))) :
    ∀ k ≤ b.ring.len, ∃ b', (List.range k).foldlM (Sr1Block.processSlot norm 0) b = some b' ∧
      b'.dim = n ∧ b'.scale = b.scale ∧ b'.ring.Inv ∧
      b'.ring.len = b.ring.len ∧ b'.ring.num = b.ring.num ∧
      (∀ i < b.ring.len, (b'.ring.arr (b'.ring.slotAt i)).s = (b.ring.arr (b.ring.slotAt i)).s ∧
        (b'.ring.arr (b'.ring.slotAt i)).y = (b.ring.arr (b.ring.slotAt i)).y) ∧
      (∀ i, (b'.ring.arr i).s = (b.ring.arr i).s ∧ (b'.ring.arr i).y = (b.ring.arr i).y) ∧
      Sr1Done n nrm b.scale (b'.ring.window k)
        (((b.ring.window k).map (sr1Pair n)).foldl (sr1Step nrm) (b.scale • (1 : Matrix (Fin n) (Fin n) K))) := by
  intro k
  induction k with
  | zero =>
    intro _
    exact ⟨b, rfl, hd, rfl, hr, rfl, rfl, fun i hi => ⟨rfl, rfl⟩, fun i => ⟨rfl, rfl⟩, Sr1Done.nil⟩
  | succ k ih =>
    intro hk
    obtain ⟨b1, a1, a2, a5, a6, a7, a8, a9, a11, a10⟩ := ih (by omega)
    have hk9 := a9 k (by omega)
    obtain ⟨sl', s1, s3, s4, s5⟩ := sr1_processSlot_spec hnorm (b := b1) a2 (k := k)
      (by rw [a5]; exact a10)
      (by
        have := hin k (by omega)
        exact ⟨by rw [hk9.1]; exact this.hs, by rw [hk9.2]; exact this.hy⟩)
    have hpair : sr1Pair n sl' = sr1Pair n (b.ring.arr (b.ring.slotAt k)) := by
      unfold sr1Pair; rw [s3, s4, hk9.1, hk9.2]
    refine ⟨{ b1 with ring := b1.ring.setSlot k sl' }, ?_, a2, a5, Ring.setSlot_inv _ a6 _ _, a7, a8,
      ?_, ?_, ?_⟩
    · rw [List.range_succ, List.foldlM_append, a1]
      simp only [Option.bind_eq_bind, Option.bind_some, List.foldlM_cons, List.foldlM_nil, Option.pure_def]
      rw [s1]; rfl
    · intro i hi
      rw [Ring.setSlot_slotAt, Ring.setSlot_arr _ a6 _ (by omega) (by omega)]
      split
      · rename_i h; subst h
        exact ⟨s3.trans hk9.1, s4.trans hk9.2⟩
      · exact a9 i hi
    · intro i
      show (if i = b1.ring.slotAt k then sl' else b1.ring.arr i).s = _ ∧
        (if i = b1.ring.slotAt k then sl' else b1.ring.arr i).y = _
      split
      · rename_i h; rw [h, s3, s4]; exact a11 _
      · exact a11 i
    · rw [Ring.setSlot_window_succ _ a6 _ (by omega), Ring.window_succ, List.map_append]
      rw [List.foldl_append]
      rw [a5] at s5
      simp only [List.map_cons, List.map_nil, List.foldl_cons, List.foldl_nil]
      rw [← hpair]
      exact s5

theorem sr1_initialScale_spec {s y : Vec K} (hs : VOk n s) (hy : VOk n y) :
    Sr1Block.initialScale s y = some (sr1Scale (dense n s) (dense n y)) := by
  unfold Sr1Block.initialScale sr1Scale
  rw [dot_dense hy hs, Option.bind_some]
  by_cases h : 0 < dense n y ⬝ᵥ dense n s
  · rw [if_pos h, if_pos h, cdiv_ok h.ne', normSq_dense hy]
  · rw [if_neg h, if_neg h]

end Sleqp
