import Verif.Spec.FactBackend
import Verif.Lemmas.AugJac
import Verif.Lemmas.MatNum
import Verif.Props.Vec
import Mathlib.Algebra.BigOperators.Group.Finset.Piecewise

/-! Lemmas on the factorization back ends: arrays, systems in the formats of the libraries. -/

namespace Sleqp
open Finset

/-! ### Arrays -/

section Arrays
variable {α : Type*}

theorem writeAll_spec (l : List (Nat × α)) : ∀ (b : Buf α), (∀ e ∈ l, e.1 < b.size) →
    (∀ e ∈ l, ∀ e' ∈ l, e.1 = e'.1 → e.2 = e'.2) →
    ∃ b', b.writeAll l = some b' ∧ b'.size = b.size ∧ (∀ e ∈ l, b'.get e.1 = e.2) ∧
      ∀ k, (∀ e ∈ l, e.1 ≠ k) → b'.get k = b.get k := by
  induction l with
  | nil => intro b _ _; exact ⟨b, rfl, rfl, by simp, by simp⟩
  | cons a t ih =>
    intro b hs hf
    have ha : b.write a.1 a.2 = some { b with get := setAt b.get a.1 a.2 } := if_pos (hs a (by simp))
    obtain ⟨b', h1, h2, h3, h4⟩ := ih { b with get := setAt b.get a.1 a.2 }
      (fun e he => hs e (by simp [he])) (fun e he e' he' => hf e (by simp [he]) e' (by simp [he']))
    refine ⟨b', ?_, h2, ?_, ?_⟩
    · show List.foldlM _ _ _ = _
      rw [List.foldlM_cons, ha]
      exact h1
    · intro e he
      by_cases hm : ∃ e' ∈ t, e'.1 = e.1
      · obtain ⟨e', he', hk⟩ := hm
        rw [← hk, h3 e' he']
        exact hf e' (by simp [he']) e he hk
      · have hea : e = a := by
          rcases List.mem_cons.mp he with h | h
          · exact h
          · exact absurd ⟨e, h, rfl⟩ hm
        subst hea
        rw [h4 e.1 fun e' he' hk => hm ⟨e', he', hk⟩]
        exact if_pos rfl
    · intro k hk
      rw [h4 k fun e he => hk e (by simp [he])]
      exact if_neg fun h => hk a (by simp) h.symm

/-- assignments in a loop over `0, …, n - 1` -/
theorem writeRange_spec (b : Buf α) (n : Nat) (f : Nat → α) (h : n ≤ b.size) :
    ∃ b', b.writeAll ((List.range n).map fun k => (k, f k)) = some b' ∧ b'.size = b.size ∧
      ∀ k < n, b'.get k = f k := by
  obtain ⟨b', h1, h2, h3, -⟩ := writeAll_spec ((List.range n).map fun k => (k, f k)) b
    (by simp; omega) (by
      intro e he e' he'
      simp only [List.mem_map, List.mem_range] at he he'
      obtain ⟨k, _, rfl⟩ := he
      obtain ⟨k', _, rfl⟩ := he'
      rintro rfl; rfl)
  exact ⟨b', h1, h2, fun k hk => h3 (k, f k) (List.mem_map.mpr ⟨k, List.mem_range.mpr hk, rfl⟩)⟩

end Arrays

variable {K : Type*} [Field K] [LinearOrder K]

theorem load_spec [IsStrictOrderedRing K] {b : Buf K} {v : Vec K} (hv : v.WF) (h : v.dim ≤ b.size) :
    ∃ x, b.load v = some x ∧ x.size = b.size ∧ ∀ k < v.dim, x.get k = v.value k := by
  have hl : (v.toRaw.zipIdx.map fun p => (p.2, p.1)) = (List.range v.dim).map fun k => (k, v.value k) := by
    apply List.ext_getElem?
    intro i
    rw [List.getElem?_map, List.getElem?_map, List.getElem?_zipIdx]
    by_cases hi : i < v.dim
    · rw [toRaw_get v hv i hi, List.getElem?_range hi]; simp
    · rw [List.getElem?_eq_none (by rw [toRaw_length]; omega), List.getElem?_eq_none (by simp; omega)]
      rfl
  unfold Buf.load
  rw [hl]
  exact writeRange_spec b v.dim v.value h

/-- the right-hand side is written into an array of zeros, and zeros are restored -/
theorem cache_spec {b : Buf K} {v : Vec K} {n : Nat} (hv : v.WF) (h : v.dim ≤ b.size) (hz : ∀ k < n, b.get k = 0) :
    ∃ z, b.setCache v = some z ∧ z.size = b.size ∧ (∀ k < n, z.get k = v.value k) ∧
      ∃ z', z.resetCache v = some z' ∧ z'.size = b.size ∧ ∀ k < n, z'.get k = 0 := by
  have hfun : ∀ e ∈ v.ents, ∀ e' ∈ v.ents, e.1 = e'.1 → e.2 = e'.2 := by
    intro e he e' he' hk
    have h1 := at?_of_mem hv.srt he
    have h2 := at?_of_mem hv.srt he'
    rw [hk, h2] at h1
    exact (Option.some.inj h1).symm
  have hlt : ∀ e ∈ v.ents, e.1 < b.size := fun e he => lt_of_lt_of_le (hv.lt_dim e he) h
  obtain ⟨z, h1, h2, h3, h4⟩ := writeAll_spec v.ents b hlt hfun
  obtain ⟨z', g1, g2, g3, g4⟩ := writeAll_spec (v.ents.map fun e => (e.1, (0 : K))) z
    (by
      intro e he
      obtain ⟨a, ha, rfl⟩ := List.mem_map.mp he
      rw [h2]; exact hlt a ha)
    (by
      intro e he e' he' _
      obtain ⟨a, _, rfl⟩ := List.mem_map.mp he
      obtain ⟨a', _, rfl⟩ := List.mem_map.mp he'
      rfl)
  refine ⟨z, h1, h2, ?_, z', g1, g2.trans h2, ?_⟩
  · intro k hk
    by_cases hm : ∃ e ∈ v.ents, e.1 = k
    · obtain ⟨e, he, rfl⟩ := hm
      rw [h3 e he]
      unfold Vec.value valAt
      rw [at?_of_mem hv.srt he]; rfl
    · have hn : ∀ e ∈ v.ents, e.1 ≠ k := fun e he hk => hm ⟨e, he, hk⟩
      rw [h4 k hn, hz k hk]
      unfold Vec.value valAt
      rw [at?_none_of_forall hn]; rfl
  · intro k hk
    by_cases hm : ∃ e ∈ v.ents, e.1 = k
    · obtain ⟨e, he, rfl⟩ := hm
      exact g3 (e.1, 0) (List.mem_map.mpr ⟨e, he, rfl⟩)
    · have hn : ∀ e ∈ v.ents, e.1 ≠ k := fun e he hk => hm ⟨e, he, hk⟩
      rw [g4 k fun e he => by
        obtain ⟨a, ha, rfl⟩ := List.mem_map.mp he
        exact hn a ha, h4 k hn, hz k hk]

/-! ### Entries -/

theorem sum_valAt {l : List (Nat × K)} (hs : Srt l) (i : Nat) :
    (l.map fun e => if e.1 = i then e.2 else 0).sum = valAt l i := by
  by_cases hm : ∃ e ∈ l, e.1 = i
  · obtain ⟨e, he, rfl⟩ := hm
    have hv : valAt l e.1 = e.2 := by unfold valAt; rw [at?_of_mem hs he]; rfl
    rw [hv]
    clear hv
    induction l with
    | nil => simp at he
    | cons a t ih =>
      rw [List.map_cons, List.sum_cons]
      rcases List.mem_cons.mp he with h | h
      · subst h
        rw [if_pos rfl, List.sum_eq_zero, add_zero]
        intro x hx
        obtain ⟨c, hc, rfl⟩ := List.mem_map.mp hx
        exact if_neg fun h => absurd (List.rel_of_pairwise_cons hs hc) (by simp [h])
      · have : a.1 < e.1 := List.rel_of_pairwise_cons hs h
        rw [if_neg (by omega), ih (List.Pairwise.of_cons hs) h, zero_add]
  · have hn : ∀ e ∈ l, e.1 ≠ i := fun e he hk => hm ⟨e, he, hk⟩
    have hv : valAt l i = 0 := by unfold valAt; rw [at?_none_of_forall hn]; rfl
    rw [hv, List.sum_eq_zero]
    intro x hx
    obtain ⟨c, hc, rfl⟩ := List.mem_map.mp hx
    exact if_neg (hn c hc)

theorem csc_entry {M : Mat K} (hw : M.WF) (i : Nat) {j : Nat} (hj : j < M.numCols) : M.csc.entry i j = M.value i j := by
  unfold Mat.value
  rw [← sum_valAt (hw.srt j hj) i]
  unfold Mat.col CscSys.entry
  rw [List.map_map]
  rfl

/-- only the first `nnz` rows and values and the first `numCols + 1` pointers are read -/
theorem csc_entry_congr {M : Mat K} (hw : M.WF) {s : CscSys K} (hp : ∀ j ≤ M.numCols, s.ptr j = M.ptr j)
    (hr : ∀ k < M.nnz, s.row k = M.row k) (hv : ∀ k < M.nnz, s.val k = M.val k) (i : Nat) {j : Nat}
    (hj : j < M.numCols) : s.entry i j = M.value i j := by
  rw [← csc_entry hw i hj]
  unfold CscSys.entry
  rw [hp j hj.le, hp (j + 1) hj]
  congr 1
  apply List.map_congr_left
  intro k hk
  have h1 : M.ptr (j + 1) ≤ M.ptr M.numCols := hw.ptr_le hj le_rfl
  have hk' : k < M.nnz := by
    rw [← hw.ptr_last]
    have := List.mem_range'_1.mp hk
    have h2 : M.ptr j ≤ M.ptr (j + 1) := hw.ptr_mono j hj
    omega
  rw [hr k hk', hv k hk']
  rfl

theorem lower_zero {M : Mat K} (h : M.isLower = true) {i j : Nat} (hj : j < M.numCols) (hij : i < j) : M.value i j = 0 := by
  unfold Mat.value valAt
  rw [at?_none_of_forall]
  · rfl
  · intro e he hk
    have := List.all_eq_true.mp (List.all_eq_true.mp h j (List.mem_range.mpr hj)) e he
    simp at this; omega

/-- the array indices are visited in their order -/
theorem colCells_snd {M : Mat K} (hw : M.WF) {n : Nat} (hn : n ≤ M.numCols) : (colCells M n).map Prod.snd = List.range (M.ptr n) := by
  induction n with
  | zero => rw [hw.ptr_zero]; rfl
  | succ n ih =>
    have h1 : M.ptr n ≤ M.ptr (n + 1) := hw.ptr_mono n hn
    unfold colCells at ih ⊢
    rw [List.range_succ, List.flatMap_append, List.map_append, ih (by omega)]
    simp only [List.flatMap_cons, List.flatMap_nil, List.append_nil, List.map_map]
    have : (Prod.snd ∘ fun k => (n, k)) = (id : Nat → Nat) := rfl
    have hr := List.range'_append_1 (s := 0) (m := M.ptr n) (n := M.ptr (n + 1) - M.ptr n)
    rw [Nat.zero_add, Nat.add_sub_cancel' h1] at hr
    rw [this, List.map_id, List.range_eq_range', List.range_eq_range', hr]

/-- triplets of a lower triangle -/
theorem coord_entry {M : Mat K} (hw : M.WF) (hsq : M.numRows = M.numCols) {s : CoordSys K}
    (hs : s.trip = ((colCells M M.numCols).filter fun c => decide (c.1 ≤ M.row c.2)).map fun c => (M.row c.2 + 1, c.1 + 1, M.val c.2))
    {i j : Nat} (hi : i < M.numRows) (hj : j < M.numRows) : s.entry i j = symEntry true M i j := by
  -- one column after the other
  have hcols : s.entry i j = ((List.range M.numCols).map fun c =>
      ((M.col c).map fun e => if (c ≤ e.1) ∧ ((e.1 = i ∧ c = j) ∨ (e.1 = j ∧ c = i)) then e.2 else 0).sum).sum := by
    unfold CoordSys.entry
    rw [hs, List.map_map]
    unfold colCells
    generalize List.range M.numCols = cs
    induction cs with
    | nil => rfl
    | cons c t ih =>
      rw [List.flatMap_cons, List.filter_append, List.map_append, List.sum_append, List.map_cons, List.sum_cons, ih]
      congr 1
      unfold Mat.col
      rw [List.map_map]
      generalize List.range' _ _ = ks
      induction ks with
      | nil => rfl
      | cons k u ihu =>
        simp only [List.map_cons, List.filter_cons, List.sum_cons, Function.comp_def, Nat.add_right_cancel_iff] at ihu ⊢
        by_cases hl : c ≤ M.row k
        · simp [hl, ihu]
        · simp [hl, ihu]
  rw [hcols]
  -- only one column contributes
  have key : ∀ a b : Nat, b ≤ a → a < M.numRows → b < M.numRows → (∀ e c : Nat, ((e = i ∧ c = j) ∨ (e = j ∧ c = i)) ∧ c ≤ e ↔ e = a ∧ c = b) →
      ((List.range M.numCols).map fun c =>
        ((M.col c).map fun e => if (c ≤ e.1) ∧ ((e.1 = i ∧ c = j) ∨ (e.1 = j ∧ c = i)) then e.2 else 0).sum).sum = M.value a b := by
    intro a b hba ha hb hiff
    have h1 : ∀ c ∈ List.range M.numCols, ((M.col c).map fun e =>
        if (c ≤ e.1) ∧ ((e.1 = i ∧ c = j) ∨ (e.1 = j ∧ c = i)) then e.2 else 0).sum = if c = b then M.value a b else 0 := by
      intro c hc
      by_cases hcb : c = b
      · subst hcb
        rw [if_pos rfl]
        unfold Mat.value
        rw [← sum_valAt (hw.srt c (List.mem_range.mp hc)) a]
        congr 1
        apply List.map_congr_left
        intro e _
        have := hiff e.1 c
        by_cases hea : e.1 = a
        · rw [if_pos hea, if_pos]
          exact (and_comm.mp (this.mpr ⟨hea, rfl⟩))
        · rw [if_neg hea, if_neg]
          exact fun h => hea (this.mp (and_comm.mp h)).1
      · rw [if_neg hcb, List.sum_eq_zero]
        intro x hx
        obtain ⟨e, _, rfl⟩ := List.mem_map.mp hx
        exact if_neg fun h => hcb ((hiff e.1 c).mp (and_comm.mp h)).2
    rw [List.map_congr_left h1, ← List.sum_toFinset _ List.nodup_range, List.toFinset_range, sum_ite_eq', if_pos (mem_range.mpr (by omega))]
  unfold symEntry
  by_cases hij : i < j
  · rw [if_pos ⟨rfl, hij⟩]
    exact key j i hij.le hj hi fun e c => by constructor <;> (intro h; omega)
  · rw [if_neg fun h => hij h.2]
    exact key i j (by omega) hi hj fun e c => by constructor <;> (intro h; omega)

end Sleqp
