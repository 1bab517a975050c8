import Verif.Lemmas.QnVec
import Verif.Lemmas.Restoration
import Verif.Lemmas.Remove

/-! Splitting of vectors into the blocks of a quasi-Newton method. -/

namespace Sleqp
open Matrix

section Structural
variable {K : Type*}

theorem mem_takeWhile_lt {l : List (Nat × K)} (hs : Srt l) (m : Nat) (e : Nat × K) :
    e ∈ l.takeWhile (fun e => decide (e.1 < m)) ↔ e ∈ l ∧ e.1 < m := by
  induction l with
  | nil => simp
  | cons a t ih =>
    obtain ⟨h1, h2⟩ := srt_cons.mp hs
    rw [List.takeWhile_cons]
    by_cases h : a.1 < m
    · simp only [h, decide_true, if_true, List.mem_cons, ih h2]
      constructor
      · rintro (rfl | h3)
        · exact ⟨Or.inl rfl, h⟩
        · exact ⟨Or.inr h3.1, h3.2⟩
      · rintro ⟨h3 | h3, h4⟩
        · exact Or.inl h3
        · exact Or.inr ⟨h3, h4⟩
    · simp only [h, decide_false, Bool.false_eq_true, if_false, List.not_mem_nil, List.mem_cons, false_iff,
        not_and, not_lt]
      rintro (rfl | h3)
      · omega
      · have := h1 e h3; omega

theorem mem_dropWhile_lt {l : List (Nat × K)} (hs : Srt l) (m : Nat) (e : Nat × K) :
    e ∈ l.dropWhile (fun e => decide (e.1 < m)) ↔ e ∈ l ∧ m ≤ e.1 := by
  induction l with
  | nil => simp
  | cons a t ih =>
    obtain ⟨h1, h2⟩ := srt_cons.mp hs
    rw [List.dropWhile_cons]
    by_cases h : a.1 < m
    · simp only [h, decide_true, if_true, List.mem_cons, ih h2]
      constructor
      · rintro ⟨h3, h4⟩; exact ⟨Or.inr h3, h4⟩
      · rintro ⟨rfl | h3, h4⟩
        · omega
        · exact ⟨h3, h4⟩
    · simp only [h, decide_false, Bool.false_eq_true, if_false, List.mem_cons]
      constructor
      · rintro (rfl | h3)
        · exact ⟨Or.inl rfl, by omega⟩
        · have := h1 e h3; exact ⟨Or.inr h3, by omega⟩
      · rintro ⟨h3, _⟩; exact h3

theorem srt_takeWhile {l : List (Nat × K)} (hs : Srt l) (p : Nat × K → Bool) : Srt (l.takeWhile p) :=
  List.Pairwise.sublist (List.takeWhile_sublist p) hs

theorem srt_dropWhile {l : List (Nat × K)} (hs : Srt l) (p : Nat × K → Bool) : Srt (l.dropWhile p) :=
  List.Pairwise.sublist (List.dropWhile_sublist p) hs

end Structural

variable {K : Type*} [Field K] [LinearOrder K]

theorem valAt_dropWhile {l : List (Nat × K)} (hs : Srt l) {m k : Nat} (hk : m ≤ k) :
    valAt (l.dropWhile fun e => decide (e.1 < m)) k = valAt l k := by
  unfold valAt
  rw [at?_congr (srt_dropWhile hs _) hs (i := k) (j := k)]
  intro v
  rw [mem_dropWhile_lt hs]
  exact ⟨fun h => h.1, fun h => ⟨h, hk⟩⟩

theorem takeBlock_spec {numVars off dim : Nat} {ents : List (Nat × K)} (hs : Srt ents)
    (hoff : ∀ e ∈ ents, off ≤ e.1) (hdim : dim ≤ numVars) :
    ∃ dv, takeBlock numVars off dim ents = some dv ∧ VOk dim dv ∧
      dense dim dv = fun j : Fin dim => valAt ents (off + j) := by
  obtain ⟨L, hL⟩ : ∃ L, L = (ents.takeWhile fun e => decide (e.1 < off + dim)).map fun e => (e.1 - off, e.2) :=
    ⟨_, rfl⟩
  have hmem : ∀ j v, (j, v) ∈ L ↔ (off + j, v) ∈ ents ∧ j < dim := by
    intro j v
    rw [hL, List.mem_map]
    constructor
    · rintro ⟨e, he, h1⟩
      obtain ⟨h2, h3⟩ := (mem_takeWhile_lt hs _ e).mp he
      have h4 := hoff e h2
      obtain ⟨h5, h6⟩ := Prod.mk.injEq _ _ _ _ ▸ h1
      have h7 : off + j = e.1 := by omega
      exact ⟨by rw [h7, ← h6]; exact h2, by omega⟩
    · rintro ⟨h1, h2⟩
      refine ⟨(off + j, v), (mem_takeWhile_lt hs _ _).mpr ⟨h1, by simp only; omega⟩, ?_⟩
      simp only [Prod.mk.injEq, and_true]; omega
  have hsL : Srt L := by
    have h1 : Srt (ents.takeWhile fun e => decide (e.1 < off + dim)) := srt_takeWhile hs _
    rw [hL, Srt, List.pairwise_map]
    refine List.Pairwise.imp_of_mem ?_ h1
    intro a b ha hb hab
    have h2 := hoff a ((mem_takeWhile_lt hs _ a).mp ha).1
    have h3 := hoff b ((mem_takeWhile_lt hs _ b).mp hb).1
    simp only; omega
  have hlt : ∀ e ∈ L, e.1 < dim := fun e he => ((hmem e.1 e.2).mp he).2
  have hp := Vec.pushAll_ok (Vec.create dim numVars) L (by simpa [Vec.create] using hsL)
    (by simpa [Vec.create] using hlt) (by have := srt_length_le hsL hlt; simp [Vec.create]; omega)
  refine ⟨⟨dim, numVars, L⟩, ?_, ⟨⟨hsL, hlt, le_trans (srt_length_le hsL hlt) hdim⟩, rfl⟩, ?_⟩
  · unfold takeBlock
    rw [← hL, hp]
    simp [Vec.create]
  · funext j
    unfold dense Vec.value valAt
    rw [at?_congr hsL hs (i := j) (j := off + j)]
    intro v
    rw [hmem]
    exact ⟨fun h => h.1, fun h => ⟨h, j.2⟩⟩

/-- a block whose product (identity if empty) is multiplication by a matrix -/
def BlockMat (b : Nat × Option (Vec K → Option (Vec K))) (B : (n : Nat) × Matrix (Fin n) (Fin n) K) : Prop :=
  b.1 = B.1 ∧
  match b.2 with
  | none => B.2 = 1
  | some f => ∀ d, VOk B.1 d → ∃ q, f d = some q ∧ VOk B.1 q ∧ dense B.1 q = B.2 *ᵥ dense B.1 d

/-- sum of the block dimensions -/
def totalDim (Bs : List ((n : Nat) × Matrix (Fin n) (Fin n) K)) : Nat := (Bs.map Sigma.fst).sum

theorem blockProdLoop_spec {numVars : Nat} (bs : List (Nat × Option (Vec K → Option (Vec K))))
    (Bs : List ((n : Nat) × Matrix (Fin n) (Fin n) K)) (hB : List.Forall₂ BlockMat bs Bs) :
    ∀ (off : Nat) (ents : List (Nat × K)) (product : Vec K), Srt ents → (∀ e ∈ ents, off ≤ e.1) →
      Srt product.ents → (∀ e ∈ product.ents, e.1 < off) → product.dim = numVars → numVars ≤ product.cap →
      off + totalDim Bs ≤ numVars →
      ∃ r, blockProdLoop numVars bs off ents product = some r ∧ r.WF ∧ r.dim = numVars ∧
        (∀ k < off, r.value k = product.value k) ∧
        (∀ i (hi : i < Bs.length), ∀ j : Fin (Bs[i]).1,
          r.value (off + totalDim (Bs.take i) + j) =
            ((Bs[i]).2 *ᵥ fun j' : Fin (Bs[i]).1 => valAt ents (off + totalDim (Bs.take i) + j')) j) ∧
        ∀ k, off + totalDim Bs ≤ k → r.value k = 0 := by
  induction hB with
  | nil =>
    intro off ents product hs ho hp1 hp2 hd hc ht
    have hlt : ∀ e ∈ product.ents, e.1 < product.dim := fun e he => by
      have := hp2 e he; simp [totalDim] at ht; omega
    refine ⟨product, rfl, ⟨hp1, hlt, ?_⟩, hd, fun _ _ => rfl, fun i hi => absurd hi (Nat.not_lt_zero _), ?_⟩
    · have := srt_length_le hp1 hlt; omega
    · intro k hk
      unfold Vec.value valAt
      rw [at?_none_of_gt hp2 (by simp [totalDim] at hk; omega)]; rfl
  | @cons b B bs Bs hb hBs ih =>
    intro off ents product hs ho hp1 hp2 hd hc ht
    obtain ⟨dim, f?⟩ := b
    obtain ⟨m, M⟩ := B
    obtain ⟨hdim, hf⟩ := hb
    simp only at hdim hf
    subst hdim
    have htot : totalDim (⟨dim, M⟩ :: Bs) = dim + totalDim Bs := by simp [totalDim]
    rw [htot] at ht
    obtain ⟨dv, v1, v2, v3⟩ := takeBlock_spec (numVars := numVars) (dim := dim) hs ho (by omega)
    -- the product after this block
    obtain ⟨L, hpush, hsL, hL1, hL2, hval⟩ : ∃ L : List (Nat × K),
        (match f? with
          | none => product.pushAll (ents.takeWhile fun e => decide (e.1 < off + dim))
          | some f => (takeBlock numVars off dim ents).bind fun d => (f d).bind fun q =>
            product.pushAll (q.ents.map fun e : Nat × K => (e.1 + off, e.2))) = product.pushAll L ∧ Srt L ∧
        (∀ e ∈ L, off ≤ e.1) ∧ (∀ e ∈ L, e.1 < off + dim) ∧
        ∀ j : Fin dim, valAt L (off + j) = (M *ᵥ fun j' : Fin dim => valAt ents (off + j')) j := by
      rcases f? with _ | f
      · refine ⟨_, rfl, srt_takeWhile hs _, fun e he => ho e ((mem_takeWhile_lt hs _ e).mp he).1,
          fun e he => ((mem_takeWhile_lt hs _ e).mp he).2, fun j => ?_⟩
        rw [hf, one_mulVec]
        unfold valAt
        rw [at?_congr (srt_takeWhile hs _) hs (i := off + j) (j := off + j)]
        intro v
        rw [mem_takeWhile_lt hs]
        exact ⟨fun h => h.1, fun h => ⟨h, by simp⟩⟩
      · obtain ⟨q, q1, q2, q3⟩ := hf dv v2
        have hsq : Srt (q.ents.map fun e : Nat × K => (e.1 + off, e.2)) := by
          rw [Srt, List.pairwise_map]; exact q2.1.srt.imp fun h => by simpa using h
        refine ⟨q.ents.map fun e => (e.1 + off, e.2), by simp only [v1, Option.bind_some, q1], hsq, ?_, ?_, ?_⟩
        · intro e he
          obtain ⟨x, _, rfl⟩ := List.mem_map.mp he
          simp
        · intro e he
          obtain ⟨x, hx, rfl⟩ := List.mem_map.mp he
          have := q2.1.lt_dim x hx
          rw [q2.2] at this
          simp only; omega
        · intro j
          have h1 := congrFun q3 j
          rw [v3] at h1
          rw [← h1]
          unfold dense Vec.value valAt
          rw [at?_congr hsq q2.1.srt (i := off + j) (j := j)]
          intro v
          rw [List.mem_map]
          constructor
          · rintro ⟨x, hx, h2⟩
            obtain ⟨h3, h4⟩ := Prod.mk.injEq _ _ _ _ ▸ h2
            have : (j : Nat) = x.1 := by omega
            rw [this, ← h4]; exact hx
          · intro hx
            exact ⟨(j, v), hx, by simp only [Prod.mk.injEq, and_true]; omega⟩
    have hsA : Srt (product.ents ++ L) := srt_append.mpr ⟨hp1, hsL, fun a ha b hb => by
      have h1 := hp2 a ha; have h2 := hL1 b hb; omega⟩
    have hltA : ∀ e ∈ product.ents ++ L, e.1 < off + dim := by
      intro e he
      rcases List.mem_append.mp he with h1 | h1
      · have := hp2 e h1; omega
      · exact hL2 e h1
    have hp := Vec.pushAll_ok product L hsA (fun e he => by have := hL2 e he; omega) (by
      have := srt_length_le hsA hltA
      rw [List.length_append] at this
      omega)
    obtain ⟨r, r1, r2, r3, r4, r5, r6⟩ := ih (off + dim) (ents.dropWhile fun e => decide (e.1 < off + dim))
      { product with ents := product.ents ++ L } (srt_dropWhile hs _)
      (fun e he => ((mem_dropWhile_lt hs _ e).mp he).2) hsA hltA hd hc (by omega)
    have hpv : ∀ k, ({ product with ents := product.ents ++ L } : Vec K).value k =
        orZero ((at? product.ents k).or (at? L k)) := by
      intro k; unfold Vec.value valAt; rw [at?_append]
    refine ⟨r, ?_, r2, r3, ?_, ?_, ?_⟩
    · unfold blockProdLoop
      simp only []
      have hpush' := hpush.trans hp
      rcases f? with _ | f
      · simp only at hpush' ⊢
        rw [hpush', Option.bind_some]; exact r1
      · simp only at hpush' ⊢
        rw [hpush', Option.bind_some]; exact r1
    · intro k hk
      rw [r4 k (by omega), hpv]
      rw [at?_none_of_forall (l := L) fun e he => by have := hL1 e he; omega]
      rcases hh : at? product.ents k with _ | x <;> simp [Vec.value, valAt, hh]
    · intro i hi j
      cases i with
      | zero =>
        simp only [List.take_zero, List.getElem_cons_zero, totalDim, List.map_nil, List.sum_nil, Nat.add_zero] at j ⊢
        rw [r4 (off + j) (by have := j.2; omega), hpv,
          at?_none_of_gt (n := off) hp2 (by omega), Option.none_or]
        exact hval j
      | succ i =>
        have h1 := r5 i (by simpa using hi) j
        have e1 : off + totalDim ((⟨dim, M⟩ :: Bs).take (i + 1)) = off + dim + totalDim (Bs.take i) := by
          simp [totalDim, Nat.add_assoc]
        rw [e1, h1]
        simp only [List.getElem_cons_succ]
        congr 1
        congr 1
        funext j'
        exact valAt_dropWhile hs (by omega)
    · intro k hk
      rw [htot] at hk
      exact r6 k (by omega)

end Sleqp
