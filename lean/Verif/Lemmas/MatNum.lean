import Verif.Lemmas.Mat
import Verif.Lemmas.VecNum

/-! Numeric helper lemmas on compressed-column matrices. -/

namespace Sleqp

open Finset

namespace Mat

section Trans
variable {K : Type*}

theorem foldl_setAt_count (row : Nat → Nat) (l : List Nat) (s : Nat → Nat) (r : Nat) :
    l.foldl (fun s k => setAt s (row k) (s (row k) + 1)) s r =
      s r + (l.filter fun k => decide (row k = r)).length := by
  induction l generalizing s with
  | nil => simp
  | cons k t ih =>
    rw [List.foldl_cons, ih]
    by_cases h : row k = r
    · rw [List.filter_cons_of_pos (by simpa using h), ← h]
      simp; omega
    · rw [List.filter_cons_of_neg (by simpa using h), setAt_ne _ _ (Ne.symm h)]

theorem entries_row_count {m : Mat K} (hw : m.WF) (r : Nat) :
    m.rowSums r = (m.entries.filter fun e => decide (e.1 = r)).length := by
  unfold rowSums
  rw [foldl_setAt_count, Nat.zero_add]
  have h : ∀ n ≤ m.numCols, ((List.range (m.ptr n)).filter fun k => decide (m.row k = r)).length =
      (((List.range n).flatMap fun j => (m.col j).map fun e => (e.1, j, e.2)).filter
        fun e => decide (e.1 = r)).length := by
    intro n hn
    induction n with
    | zero => simp [hw.ptr_zero]
    | succ n ih =>
      rw [List.range_succ, List.flatMap_append, List.filter_append, List.length_append, ← ih (by omega)]
      have hm := hw.ptr_mono n (by omega)
      have : List.range (m.ptr (n + 1)) =
          List.range (m.ptr n) ++ List.range' (m.ptr n) (m.ptr (n + 1) - m.ptr n) := by
        have h2 := List.range'_append_1 (s := 0) (m := m.ptr n) (n := m.ptr (n + 1) - m.ptr n)
        rw [Nat.zero_add] at h2
        rw [List.range_eq_range', List.range_eq_range', h2]
        congr 1; omega
      rw [this, List.filter_append, List.length_append]
      congr 1
      simp only [List.flatMap_cons, List.flatMap_nil, List.append_nil, col, List.map_map]
      rw [List.filter_map, List.length_map]
      rfl
  have := h m.numCols le_rfl
  rw [hw.ptr_last] at this
  exact this

/-- The state after storing the entries `P`: row counters and stored cells. -/
theorem transFold_spec (tptr : Nat → Nat) (n : Nat) (total : Nat → Nat)
    (hmono : ∀ r < n, tptr r + total r = tptr (r + 1)) (s0 : (Nat → Nat) × (Nat → Nat) × (Nat → K))
    (h0 : ∀ r < n, s0.1 r = 0) (P : List (Nat × Nat × K)) (hP : ∀ e ∈ P, e.1 < n)
    (hcnt : ∀ r < n, (P.filter fun e => decide (e.1 = r)).length ≤ total r) :
    ∀ r < n,
      (P.foldl (transStep tptr) s0).1 r = (P.filter fun e => decide (e.1 = r)).length ∧
      (List.range' (tptr r) (P.filter fun e => decide (e.1 = r)).length).map
          (fun k => ((P.foldl (transStep tptr) s0).2.1 k, (P.foldl (transStep tptr) s0).2.2 k)) =
        (P.filter fun e => decide (e.1 = r)).map fun e => (e.2.1, e.2.2) := by
  have mono : ∀ a b, a ≤ b → b ≤ n → tptr a ≤ tptr b := by
    intro a b hab hb
    induction b with
    | zero => rw [Nat.le_zero.mp hab]
    | succ b ih =>
      rcases Nat.lt_or_ge a (b + 1) with h | h
      · have := ih (by omega) (by omega)
        have := hmono b (by omega)
        omega
      · rw [show a = b + 1 by omega]
  induction P using List.reverseRecOn with
  | nil => intro r hr; simp [h0 r hr]
  | append_singleton P e ih =>
    have ih' := ih (fun x hx => hP x (by simp [hx])) (fun r hr => by
      have := hcnt r hr
      rw [List.filter_append, List.length_append] at this; omega)
    intro r hr
    have he := hP e (by simp)
    rw [List.foldl_append, List.foldl_cons, List.foldl_nil]
    set s := P.foldl (transStep tptr) s0 with hs
    obtain ⟨i1, i2⟩ := ih' r hr
    obtain ⟨j1, j2⟩ := ih' e.1 he
    have hce := hcnt e.1 he
    rw [List.filter_append, List.length_append] at hce
    simp at hce
    have hmr := hmono r hr
    have hme := hmono e.1 he
    have hcr := hcnt r hr
    rw [List.filter_append, List.length_append] at hcr
    by_cases h : e.1 = r
    · subst h
      simp only [List.filter_append, List.filter_cons, List.filter_nil, decide_true, if_true,
        List.length_append, List.length_singleton, List.map_append, List.map_singleton]
      refine ⟨by simp [transStep, i1], ?_⟩
      rw [← List.range'_append_1, List.map_append]
      congr 1
      · rw [← i2]
        apply List.map_congr_left
        intro k hk
        rw [List.mem_range'_1] at hk
        simp only [transStep, i1]
        rw [setAt_ne _ _ (by omega), setAt_ne _ _ (by omega)]
      · simp [transStep, i1]
    · have hf : ([e].filter fun e => decide (e.1 = r)) = [] := by simp [h]
      rw [List.filter_append, hf, List.append_nil]
      refine ⟨by simp [transStep, setAt_ne _ _ (Ne.symm h), i1], ?_⟩
      rw [← i2]
      apply List.map_congr_left
      intro k hk
      rw [List.mem_range'_1] at hk
      have hne : k ≠ tptr e.1 + s.1 e.1 := by
        rw [j1]
        rcases Nat.lt_or_ge e.1 r with h1 | h1
        · have := mono (e.1 + 1) r h1 (by omega); omega
        · have := mono (r + 1) e.1 (by omega) (by omega); omega
      simp only [transStep]
      rw [setAt_ne _ _ hne, setAt_ne _ _ hne]

theorem prefixSum_mono (s : Nat → Nat) (j : Nat) : prefixSum s j + s j = prefixSum s (j + 1) := rfl

theorem entries_mem {m : Mat K} {r j : Nat} {x : K} :
    (r, j, x) ∈ m.entries ↔ j < m.numCols ∧ (r, x) ∈ m.col j := by
  unfold entries
  simp only [List.mem_flatMap, List.mem_range, List.mem_map, Prod.mk.injEq]
  constructor
  · rintro ⟨a, ha, ⟨e1, e2⟩, he, rfl, rfl, rfl⟩; exact ⟨ha, he⟩
  · rintro ⟨ha, he⟩; exact ⟨j, ha, (r, x), he, rfl, rfl, rfl⟩

theorem entries_row_srt {m : Mat K} (hw : m.WF) (r : Nat) :
    Srt ((m.entries.filter fun e => decide (e.1 = r)).map fun e => (e.2.1, e.2.2)) := by
  unfold entries
  have : ∀ n ≤ m.numCols,
      Srt ((((List.range n).flatMap fun j => (m.col j).map fun e => (e.1, j, e.2)).filter
        fun e => decide (e.1 = r)).map fun e => (e.2.1, e.2.2)) := by
    intro n hn
    induction n with
    | zero => simp [Srt]
    | succ n ih =>
      rw [List.range_succ, List.flatMap_append, List.filter_append, List.map_append, srt_append]
      refine ⟨ih (by omega), ?_, ?_⟩
      · simp only [List.flatMap_cons, List.flatMap_nil, List.append_nil]
        rw [List.filter_map, List.map_map]
        have hs : ∀ l : List (Nat × K), Srt l →
            (l.filter ((fun e : Nat × Nat × K => decide (e.1 = r)) ∘ fun e => (e.1, n, e.2))).length ≤ 1 := by
          intro l hl
          induction l with
          | nil => simp
          | cons a t ih =>
            obtain ⟨h1, h2⟩ := srt_cons.mp hl
            rw [List.filter_cons]
            split
            · rename_i har
              simp at har
              have : t.filter ((fun e : Nat × Nat × K => decide (e.1 = r)) ∘ fun e => (e.1, n, e.2)) = [] := by
                rw [List.filter_eq_nil_iff]
                intro b hb
                have := h1 b hb
                simp; omega
              simp [this]
            · exact ih h2
        have h1 := hs (m.col n) (hw.srt n (by omega))
        generalize (m.col n).filter _ = l at h1
        match l, h1 with
        | [], _ => simp [Srt]
        | [a], _ => simp [Srt]
      · intro a ha b hb
        simp only [List.mem_map, List.mem_filter, List.mem_flatMap, List.mem_range] at ha hb
        obtain ⟨a', ⟨⟨j, hj, e, he, rfl⟩, _⟩, rfl⟩ := ha
        obtain ⟨b', ⟨⟨j', hj', e', he', rfl⟩, _⟩, rfl⟩ := hb
        simp at hj'
        simp; omega
  exact this m.numCols le_rfl

theorem prefixSum_total {m : Mat K} (hw : m.WF) : prefixSum m.rowSums m.numRows = m.nnz := by
  have hlen : m.entries.length = m.nnz := by
    rw [← hw.sum_col]
    unfold entries
    rw [List.length_flatMap]
    simp
  rw [← hlen]
  have hlt : ∀ e ∈ m.entries, e.1 < m.numRows := by
    rintro ⟨r, j, x⟩ he
    obtain ⟨h1, h2⟩ := entries_mem.mp he
    exact hw.lt_rows j h1 _ h2
  have hgen : ∀ (L : List (Nat × Nat × K)) (n : Nat),
      prefixSum (fun r => (L.filter fun e => decide (e.1 = r)).length) n =
        (L.filter fun e => decide (e.1 < n)).length := by
    intro L n
    induction n with
    | zero => simp [prefixSum]
    | succ n ih =>
      rw [prefixSum, ih]
      clear ih
      induction L with
      | nil => simp
      | cons a t ih =>
        simp only [List.filter_cons]
        rcases Nat.lt_trichotomy a.1 n with h | h | h
        · simp [h, show a.1 ≠ n by omega, show a.1 < n + 1 by omega]; omega
        · simp [h]; omega
        · simp [show ¬ a.1 < n by omega, show a.1 ≠ n by omega, show ¬ a.1 < n + 1 by omega]; omega
  have : m.rowSums = fun r => (m.entries.filter fun e => decide (e.1 = r)).length := by
    funext r; exact entries_row_count hw r
  rw [this, hgen]
  rw [List.filter_eq_self.mpr]
  intro e he
  simpa using hlt e he

end Trans

variable {K : Type*} [Field K] [LinearOrder K]

theorem addCol_spec (res : Nat → K) (f : K) (c : List (Nat × K)) (hs : Srt c) (i : Nat) :
    addCol res f c i = res i + f * valAt c i := by
  unfold addCol
  induction c generalizing res with
  | nil => simp
  | cons e t ih =>
    obtain ⟨h1, h2⟩ := srt_cons.mp hs
    rw [List.foldl_cons, ih _ h2, valAt_cons]
    by_cases h : e.1 = i
    · rw [if_pos h, valAt_of_lt (fun a ha => h ▸ h1 a ha), ← h]
      simp
    · rw [if_neg h, setAt_ne _ _ (Ne.symm h)]

theorem foldl_addCol (m : Mat K) (hw : m.WF) (l : List (Nat × K)) (hl : ∀ e ∈ l, e.1 < m.numCols)
    (res : Nat → K) (i : Nat) :
    l.foldl (fun res e => addCol res e.2 (m.col e.1)) res i =
      res i + (l.map fun e => e.2 * m.value i e.1).sum := by
  induction l generalizing res with
  | nil => simp
  | cons e t ih =>
    rw [List.foldl_cons, ih (fun a ha => hl a (by simp [ha])),
      addCol_spec _ _ _ (hw.srt _ (hl e (by simp)))]
    simp [value, add_assoc]

end Mat
end Sleqp
