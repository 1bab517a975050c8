import Verif.Lemmas.QnBlocks
import Verif.Spec.QuasiNewton

/-! Runs of a block-diagonal quasi-Newton method, for any method on the blocks. -/

namespace Sleqp
open Matrix

variable {K : Type*} [Field K] [LinearOrder K] [IsStrictOrderedRing K]

/-- what is needed of the method used on the blocks: `I m b ps` says that block `b` of
dimension `m` has seen the pairs `ps`, then its matrix is `M m ps` -/
structure QnMethod {β : Type*} (dim : β → Nat) (push : β → Vec K → Vec K → Option β) (reset : β → β)
    (prod? : β → Option (Vec K → Option (Vec K)))
    (I : (m : Nat) → β → List ((Fin m → K) × (Fin m → K)) → Prop)
    (M : (m : Nat) → List ((Fin m → K) × (Fin m → K)) → Matrix (Fin m) (Fin m) K) : Prop where
  hdim : ∀ {m b ps}, I m b ps → dim b = m
  hpush : ∀ {m b ps}, I m b ps → ∀ s y, VOk m s → VOk m y → dense m s ≠ 0 →
    ∃ b', push b s y = some b' ∧ I m b' (ps ++ [(dense m s, dense m y)])
  hreset : ∀ {m b ps}, I m b ps → I m (reset b) []
  hprod : ∀ {m b ps}, I m b ps → BlockMat (dim b, prod? b) ⟨m, M m ps⟩

variable {β : Type*} {dim : β → Nat} {push : β → Vec K → Vec K → Option β} {reset : β → β}
  {prod? : β → Option (Vec K → Option (Vec K))}
  {I : (m : Nat) → β → List ((Fin m → K) × (Fin m → K)) → Prop}
  {M : (m : Nat) → List ((Fin m → K) × (Fin m → K)) → Matrix (Fin m) (Fin m) K}

theorem blockPush_spec (hq : QnMethod dim push reset prod? I M) {numVars : Nat} {tol : K} (ht : 0 ≤ tol)
    (H : (off m : Nat) → List ((Fin m → K) × (Fin m → K))) (s y : Vec K) (hs : Srt s.ents) (hy : Srt y.ents)
    (dims : List Nat) : ∀ (off : Nat) (bs : List β) (sE yE : List (Nat × K)),
      off + dims.sum ≤ numVars →
      List.Forall₂ (fun (p : Nat × Nat) b => I p.2 b (H p.1 p.2)) (offsets off dims) bs →
      Srt sE → Srt yE → (∀ e ∈ sE, off ≤ e.1) → (∀ e ∈ yE, off ≤ e.1) →
      (∀ k, off ≤ k → valAt sE k = s.value k) → (∀ k, off ≤ k → valAt yE k = y.value k) →
      ∃ bs', blockPushLoop numVars tol dim push bs off sE yE = some bs' ∧
        List.Forall₂ (fun (p : Nat × Nat) b => I p.2 b
          (if |part p.1 p.2 s ⬝ᵥ part p.1 p.2 s| ≤ tol then H p.1 p.2
            else H p.1 p.2 ++ [(part p.1 p.2 s, part p.1 p.2 y)])) (offsets off dims) bs' := by
  induction dims with
  | nil =>
    intro off bs sE yE _ h _ _ _ _ _ _
    cases h
    exact ⟨[], rfl, List.Forall₂.nil⟩
  | cons m dims ih =>
    intro off bs sE yE hn h h1 h2 h3 h4 h5 h6
    unfold offsets at h ⊢
    cases h with
    | @cons _ b _ bs hb hbs =>
    simp only at hb
    rw [List.sum_cons] at hn
    have hdim := hq.hdim hb
    obtain ⟨sv, s1, s2, s3⟩ := takeBlock_spec (numVars := numVars) (dim := m) h1 h3 (by omega)
    obtain ⟨yv, y1, y2, y3⟩ := takeBlock_spec (numVars := numVars) (dim := m) h2 h4 (by omega)
    have es : dense m sv = part off m s := by
      rw [s3]; funext j; exact h5 _ (by omega)
    have ey : dense m yv = part off m y := by
      rw [y3]; funext j; exact h6 _ (by omega)
    have hb' : ∃ b', (if isZero sv.normSq tol then some b else push b sv yv) = some b' ∧
        I m b' (if |part off m s ⬝ᵥ part off m s| ≤ tol then H off m
            else H off m ++ [(part off m s, part off m y)]) := by
      rw [← es, ← ey, normSq_dense s2]
      by_cases hz : |dense m sv ⬝ᵥ dense m sv| ≤ tol
      · refine ⟨b, by rw [if_pos (isZero_iff.mpr hz)], ?_⟩
        rw [if_pos hz]; exact hb
      · rw [if_neg (fun hc => hz (isZero_iff.mp hc)), if_neg hz]
        refine hq.hpush hb sv yv s2 y2 ?_
        intro h0
        rw [h0] at hz
        exact hz (by simpa using ht)
    obtain ⟨b', b1, b2⟩ := hb'
    obtain ⟨bs', c1, c2⟩ := ih (off + m) bs (sE.dropWhile fun e => decide (e.1 < off + m))
      (yE.dropWhile fun e => decide (e.1 < off + m)) (by omega) hbs (srt_dropWhile h1 _) (srt_dropWhile h2 _)
      (fun e he => ((mem_dropWhile_lt h1 _ e).mp he).2) (fun e he => ((mem_dropWhile_lt h2 _ e).mp he).2)
      (fun k hk => by rw [valAt_dropWhile h1 hk]; exact h5 k (by omega))
      (fun k hk => by rw [valAt_dropWhile h2 hk]; exact h6 k (by omega))
    refine ⟨b' :: bs', ?_, List.Forall₂.cons b2 c2⟩
    unfold blockPushLoop
    rw [hdim, s1, Option.bind_some, y1, Option.bind_some, b1, Option.bind_some, c1, Option.map_some]

theorem forall₂_map_right' {α γ δ : Type*} {R : α → γ → Prop} {S : α → δ → Prop} {f : γ → δ}
    {l : List α} {l' : List γ} (h : List.Forall₂ R l l') (hf : ∀ a c, R a c → S a (f c)) :
    List.Forall₂ S l (l'.map f) := by
  induction h with
  | nil => exact List.Forall₂.nil
  | cons h1 _ ih => exact List.Forall₂.cons (hf _ _ h1) ih

theorem blocksRun_spec (hq : QnMethod dim push reset prod? I M) {numVars : Nat} {tol : K} (ht : 0 ≤ tol)
    (dims : List Nat) (hn : dims.sum ≤ numVars) (ops : List (BfgsBlock.Op K)) :
    ∀ (bs : List β) (H : (off m : Nat) → List ((Fin m → K) × (Fin m → K))),
    List.Forall₂ (fun (p : Nat × Nat) b => I p.2 b (H p.1 p.2)) (offsets 0 dims) bs →
    (∀ s y, BfgsBlock.Op.push s y ∈ ops → VOk numVars s ∧ VOk numVars y) →
    ∃ bs', blocksRun numVars tol dim push reset bs ops = some bs' ∧
      List.Forall₂ (fun (p : Nat × Nat) b => I p.2 b (blockHistory tol p.1 p.2 (H p.1 p.2) ops)) (offsets 0 dims) bs' := by
  induction ops with
  | nil => intro bs H h _; exact ⟨bs, rfl, h⟩
  | cons op ops ih =>
    intro bs H h hl
    unfold blocksRun
    rw [List.foldlM_cons]
    cases op with
    | push s y =>
      obtain ⟨hs, hy⟩ := hl s y (by simp)
      obtain ⟨b1, h1, h2⟩ := blockPush_spec (numVars := numVars) hq ht H s y hs.1.srt hy.1.srt dims 0 bs s.ents y.ents
        (by omega) h hs.1.srt hy.1.srt (fun _ _ => Nat.zero_le _) (fun _ _ => Nat.zero_le _) (fun _ _ => rfl) (fun _ _ => rfl)
      obtain ⟨bs', h3, h4⟩ := ih b1 (fun off m => if |part off m s ⬝ᵥ part off m s| ≤ tol then H off m
            else H off m ++ [(part off m s, part off m y)]) h2 (fun s y h => hl s y (by simp [h]))
      exact ⟨bs', by simp only [blocksStep, h1]; exact h3, h4⟩
    | reset =>
      obtain ⟨bs', h3, h4⟩ := ih (bs.map reset) (fun off m => [])
        (forall₂_map_right' h fun a c hc => hq.hreset hc) (fun s y h => hl s y (by simp [h]))
      exact ⟨bs', h3, h4⟩

/-- the block matrices after the histories `H` -/
def blockMats (M : (m : Nat) → List ((Fin m → K) × (Fin m → K)) → Matrix (Fin m) (Fin m) K)
    (H : (off m : Nat) → List ((Fin m → K) × (Fin m → K))) (dims : List Nat) :
    List ((n : Nat) × Matrix (Fin n) (Fin n) K) :=
  (offsets 0 dims).map fun p => ⟨p.2, M p.2 (H p.1 p.2)⟩

theorem offsets_getElem (dims : List Nat) : ∀ (off i : Nat) (hi : i < (offsets off dims).length),
    (offsets off dims)[i] = (off + (dims.take i).sum, dims[i]?.getD 0) := by
  induction dims with
  | nil => intro off i hi; exact absurd hi (Nat.not_lt_zero _)
  | cons m dims ih =>
    intro off i hi
    cases i with
    | zero => simp [offsets]
    | succ i =>
      simp only [offsets, List.getElem_cons_succ, List.take_succ_cons, List.sum_cons, List.getElem?_cons_succ]
      rw [ih (off + m) i (by simpa [offsets] using hi), Nat.add_assoc]

theorem offsets_length (dims : List Nat) : ∀ off, (offsets off dims).length = dims.length := by
  induction dims with
  | nil => intro; rfl
  | cons m dims ih => intro off; simp [offsets, ih]

theorem offsets_snd (dims : List Nat) : ∀ off, (offsets off dims).map Prod.snd = dims := by
  induction dims with
  | nil => intro; rfl
  | cons m dims ih => intro off; simp [offsets, ih]

theorem blocksProd_spec (hq : QnMethod dim push reset prod? I M) {numVars : Nat}
    (dims : List Nat) (hn : dims.sum ≤ numVars) (H : (off m : Nat) → List ((Fin m → K) × (Fin m → K)))
    (bs : List β) (h : List.Forall₂ (fun (p : Nat × Nat) b => I p.2 b (H p.1 p.2)) (offsets 0 dims) bs)
    (d product : Vec K) (hd : VOk numVars d) (hp : product.dim = numVars) :
    ∃ r, blockHessProd numVars (bs.map fun b => (dim b, prod? b)) d product = some r ∧ VOk numVars r ∧
      (∀ p ∈ offsets 0 dims, part p.1 p.2 r = M p.2 (H p.1 p.2) *ᵥ part p.1 p.2 d) ∧
      ∀ k, dims.sum ≤ k → r.value k = 0 := by
  have hB : List.Forall₂ BlockMat (bs.map fun b => (dim b, prod? b)) (blockMats M H dims) := by
    unfold blockMats
    rw [List.forall₂_map_right_iff, List.forall₂_map_left_iff]
    exact h.flip.imp fun a c hc => hq.hprod hc
  have htot : totalDim (blockMats M H dims) = dims.sum := by
    unfold totalDim blockMats
    rw [List.map_map]
    exact congrArg List.sum (offsets_snd dims 0)
  obtain ⟨r, r1, r2, r3, _, r5, r6⟩ := blockProdLoop_spec (numVars := numVars) _ _ hB 0 d.ents
    ((product.clear).reserve numVars) hd.1.srt (fun _ _ => Nat.zero_le _)
    (by simp [Vec.clear, Vec.reserve, Srt]) (by simp [Vec.clear, Vec.reserve])
    (by simp [Vec.clear, Vec.reserve, hp]) (by simp [Vec.clear, Vec.reserve]) (by rw [htot]; omega)
  refine ⟨r, r1, ⟨r2, r3⟩, ?_, fun k hk => r6 k (by rw [htot]; omega)⟩
  intro p hpm
  obtain ⟨i, hi, hpi⟩ := List.getElem_of_mem hpm
  have hi' : i < (blockMats M H dims).length := by unfold blockMats; rw [List.length_map]; exact hi
  have e1 : (blockMats M H dims)[i] = ⟨p.2, M p.2 (H p.1 p.2)⟩ := by
    have h1 : (blockMats M H dims)[i] = ⟨((offsets 0 dims)[i]).2, M ((offsets 0 dims)[i]).2
        (H ((offsets 0 dims)[i]).1 ((offsets 0 dims)[i]).2)⟩ := List.getElem_map ..
    rw [hpi] at h1
    exact h1
  have e2 : totalDim ((blockMats M H dims).take i) = p.1 := by
    unfold totalDim blockMats
    rw [List.map_take, List.map_map]
    have : List.map (Sigma.fst ∘ fun p : Nat × Nat => (⟨p.2, M p.2 (H p.1 p.2)⟩ : (n : Nat) × Matrix (Fin n) (Fin n) K))
        (offsets 0 dims) = dims := offsets_snd dims 0
    rw [this, ← hpi, offsets_getElem]
    simp
  have h5 := r5 i hi'
  rw [e2] at h5
  clear r5
  revert h5
  generalize (blockMats M H dims)[i] = X at e1
  subst e1
  intro h5
  funext j
  have := h5 j
  simp only [Nat.zero_add] at this
  exact this

end Sleqp
