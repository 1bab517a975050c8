import Verif.Lemmas.Vec
import Verif.Spec.Mat
import Mathlib.Tactic.Ring
import Mathlib.Algebra.BigOperators.Group.List.Basic

/-! Helper lemmas on compressed-column matrices (structure only). -/

namespace Sleqp

@[simp] theorem setAt_same {α : Type*} (f : Nat → α) (i : Nat) (x : α) : setAt f i x i = x := by
  simp [setAt]

theorem setAt_ne {α : Type*} (f : Nat → α) {i k : Nat} (x : α) (h : k ≠ i) :
    setAt f i x k = f k := by simp [setAt, h]

namespace Mat

variable {K : Type*}

theorem col_length (m : Mat K) (j : Nat) : (m.col j).length = m.ptr (j + 1) - m.ptr j := by
  simp [col]

theorem col_congr {m n : Mat K} {j : Nat} (h0 : m.ptr j = n.ptr j) (h1 : m.ptr (j + 1) = n.ptr (j + 1))
    (h : ∀ k, n.ptr j ≤ k → k < n.ptr (j + 1) → m.row k = n.row k ∧ m.val k = n.val k) :
    m.col j = n.col j := by
  unfold col
  rw [h0, h1]
  apply List.map_congr_left
  intro k hk
  rw [List.mem_range'_1] at hk
  obtain ⟨h1, h2⟩ := h k hk.1 (by omega)
  rw [h1, h2]

theorem pushAll_spec (m : Mat K) (j : Nat) (l : List (Nat × K)) (hj : j < m.numCols)
    (hr : ∀ e ∈ l, e.1 < m.numRows) (hc : m.nnz + l.length ≤ m.cap) :
    ∃ m', m.pushAll j l = some m' ∧ m'.numRows = m.numRows ∧ m'.numCols = m.numCols ∧
      m'.cap = m.cap ∧ m'.nnz = m.nnz + l.length ∧
      (∀ k, m'.ptr k = if k = j + 1 then m.ptr (j + 1) + l.length else m.ptr k) ∧
      (∀ k < m.nnz, m'.row k = m.row k ∧ m'.val k = m.val k) ∧
      (List.range' m.nnz l.length).map (fun k => (m'.row k, m'.val k)) = l := by
  induction l generalizing m with
  | nil =>
    refine ⟨m, rfl, rfl, rfl, rfl, rfl, ?_, fun k _ => ⟨rfl, rfl⟩, rfl⟩
    intro k; split <;> simp_all
  | cons e t ih =>
    have hp : m.push e.1 j e.2 = some { m with
      val := setAt m.val m.nnz e.2
      row := setAt m.row m.nnz e.1
      ptr := setAt m.ptr (j + 1) (m.ptr (j + 1) + 1)
      nnz := m.nnz + 1 } := by
      unfold push
      rw [if_pos ⟨by simp at hc; omega, hr e (by simp), hj⟩]
    obtain ⟨m', h1, h2, h3, h4, h5, h6, h7, h8⟩ := ih { m with
      val := setAt m.val m.nnz e.2
      row := setAt m.row m.nnz e.1
      ptr := setAt m.ptr (j + 1) (m.ptr (j + 1) + 1)
      nnz := m.nnz + 1 } hj (fun x hx => hr x (by simp [hx])) (by simp at hc ⊢; omega)
    refine ⟨m', ?_, h2, h3, h4, ?_, ?_, ?_, ?_⟩
    · unfold pushAll at h1 ⊢
      rw [List.foldlM_cons, hp]
      exact h1
    · rw [h5]; simp; omega
    · intro k
      rw [h6 k]
      simp only [setAt_same, List.length_cons]
      split
      · omega
      · rw [setAt_ne _ _ (by assumption)]
    · intro k hk
      obtain ⟨ha, hb⟩ := h7 k (by simp; omega)
      rw [ha, hb]
      simp only
      rw [setAt_ne _ _ (by omega), setAt_ne _ _ (by omega)]
      exact ⟨rfl, rfl⟩
    · simp only [List.length_cons, List.range'_succ, List.map_cons]
      simp only at h8
      rw [h8]
      obtain ⟨ha, hb⟩ := h7 m.nnz (by simp)
      rw [ha, hb]
      simp

theorem assembleFrom_spec (m : Mat K) (j : Nat) (cs : List (List (Nat × K)))
    (hn : m.ptr j = m.nnz) (hj : j + cs.length ≤ m.numCols)
    (hr : ∀ c ∈ cs, ∀ e ∈ c, e.1 < m.numRows)
    (hc : m.nnz + (cs.map List.length).sum ≤ m.cap) :
    ∃ m', m.assembleFrom j cs = some m' ∧ m'.numRows = m.numRows ∧ m'.numCols = m.numCols ∧
      m'.cap = m.cap ∧ m'.nnz = m.nnz + (cs.map List.length).sum ∧
      (∀ k ≤ j, m'.ptr k = m.ptr k) ∧
      (∀ k < m.nnz, m'.row k = m.row k ∧ m'.val k = m.val k) ∧
      m'.ptr (j + cs.length) = m'.nnz ∧
      ∀ i (h : i < cs.length), m'.col (j + i) = cs[i] ∧ m'.ptr (j + i) ≤ m'.ptr (j + i + 1) := by
  induction cs generalizing m j with
  | nil => exact ⟨m, rfl, rfl, rfl, rfl, by simp, fun k _ => rfl, fun k _ => ⟨rfl, rfl⟩, by simpa using hn,
      fun i h => by simp at h⟩
  | cons c cs ih =>
    simp only [List.length_cons, List.map_cons, List.sum_cons] at hj hc ⊢
    have hp : m.pushCol j = some { m with ptr := setAt m.ptr (j + 1) (m.ptr j) } := by
      unfold pushCol; rw [if_pos (by omega)]
    set m1 : Mat K := { m with ptr := setAt m.ptr (j + 1) (m.ptr j) } with hm1
    obtain ⟨m2, a1, a2, a3, a4, a5, a6, a7, a8⟩ := pushAll_spec m1 j c (by simp [hm1]; omega)
      (fun e he => hr c (by simp) e he) (by simp [hm1]; omega)
    simp only [hm1] at a2 a3 a4 a5 a7 a8
    have p1 : m2.ptr (j + 1) = m2.nnz := by
      rw [a6, if_pos rfl, a5, hm1]; simp [hn]
    obtain ⟨m3, b1, b2, b3, b4, b5, b6, b7, b8, b9⟩ := ih m2 (j + 1) p1 (by rw [a3]; omega)
      (by rw [a2]; exact fun c' hc' => hr c' (by simp [hc'])) (by rw [a5, a4]; omega)
    have q0 : m3.ptr j = m.nnz := by
      rw [b6 j (by omega), a6, if_neg (by omega), hm1]
      simp only
      rw [setAt_ne _ _ (by omega), hn]
    have q1 : m3.ptr (j + 1) = m.nnz + c.length := by
      rw [b6 (j + 1) le_rfl, p1, a5]
    refine ⟨m3, ?_, b2.trans a2, b3.trans a3, b4.trans a4, ?_, ?_, ?_, ?_, ?_⟩
    · unfold assembleFrom
      rw [hp, Option.bind_some, a1, Option.bind_some, b1]
    · rw [b5, a5]; omega
    · intro k hk
      rw [b6 k (by omega), a6, if_neg (by omega), hm1]
      simp only
      rw [setAt_ne _ _ (by omega)]
    · intro k hk
      obtain ⟨x1, x2⟩ := b7 k (by omega)
      obtain ⟨y1, y2⟩ := a7 k hk
      exact ⟨x1.trans y1, x2.trans y2⟩
    · rw [show j + (cs.length + 1) = j + 1 + cs.length by omega, b8]
    · intro i hi
      cases i with
      | zero =>
        refine ⟨?_, by simp [q0, q1]⟩
        simp only [Nat.add_zero, List.getElem_cons_zero]
        unfold col
        rw [q0, q1, Nat.add_sub_cancel_left]
        conv_rhs => rw [← a8]
        apply List.map_congr_left
        intro k hk
        rw [List.mem_range'_1] at hk
        obtain ⟨x1, x2⟩ := b7 k (by omega)
        rw [x1, x2]
      | succ i =>
        obtain ⟨z1, z2⟩ := b9 i (by simpa using hi)
        rw [show j + (i + 1) = j + 1 + i by omega]
        exact ⟨by rw [z1]; simp, z2⟩

/-- Assembling all columns of an empty matrix. -/
theorem assemble_wf (m : Mat K) (cs : List (List (Nat × K))) (h0 : m.ptr 0 = 0) (hn : m.nnz = 0)
    (hl : cs.length = m.numCols) (hs : ∀ c ∈ cs, Srt c)
    (hr : ∀ c ∈ cs, ∀ e ∈ c, e.1 < m.numRows)
    (hc : (cs.map List.length).sum ≤ m.cap) :
    ∃ m', m.assembleFrom 0 cs = some m' ∧ m'.WF ∧ m'.numRows = m.numRows ∧
      m'.numCols = m.numCols ∧ m'.cap = m.cap ∧ ∀ i (h : i < cs.length), m'.col i = cs[i] := by
  obtain ⟨m', h1, h2, h3, h4, h5, h6, h7, h8, h9⟩ := assembleFrom_spec m 0 cs (by rw [h0, hn])
    (by omega) hr (by omega)
  simp only [Nat.zero_add] at h8 h9
  refine ⟨m', h1, ⟨?_, ?_, ?_, ?_, ?_, ?_⟩, h2, h3, h4, fun i h => (h9 i h).1⟩
  · rw [h6 0 le_rfl, h0]
  · intro j hj
    exact (h9 j (by omega)).2
  · rw [h3, ← hl, h8]
  · rw [h4, h5, hn]; omega
  · intro j hj
    rw [(h9 j (by omega)).1]
    exact hs _ (List.getElem_mem _)
  · intro j hj
    rw [(h9 j (by omega)).1, h2]
    exact hr _ (List.getElem_mem _)

theorem push_some {m m' : Mat K} {r j : Nat} {x : K} (h : m.push r j x = some m') :
    m.nnz < m.cap ∧ r < m.numRows ∧ m'.nnz = m.nnz + 1 ∧ m'.cap = m.cap ∧ m'.numRows = m.numRows := by
  unfold push at h
  split at h
  · rename_i hc
    injection h with h
    subst h
    exact ⟨hc.1, hc.2.1, rfl, rfl, rfl⟩
  · simp at h

theorem pushAll_some {m m' : Mat K} {j : Nat} {l : List (Nat × K)} (h : m.pushAll j l = some m') :
    (∀ e ∈ l, e.1 < m.numRows) ∧ m'.nnz = m.nnz + l.length ∧ m'.cap = m.cap ∧
      m'.numRows = m.numRows ∧ (l ≠ [] → m.nnz + l.length ≤ m.cap) := by
  unfold pushAll at h
  induction l generalizing m with
  | nil =>
    simp only [List.foldlM_nil] at h
    injection h with h
    subst h; simp
  | cons e t ih =>
    rw [List.foldlM_cons] at h
    rcases hp : m.push e.1 j e.2 with _ | m1
    · rw [hp] at h; simp at h
    · rw [hp] at h
      obtain ⟨a1, a2, a3, a4, a5⟩ := push_some hp
      obtain ⟨b1, b2, b3, b4, b5⟩ := ih h
      refine ⟨?_, ?_, b3.trans a4, b4.trans a5, ?_⟩
      · intro x hx
        rw [List.mem_cons] at hx
        rcases hx with rfl | hx
        · exact a2
        · rw [← a5]; exact b1 x hx
      · rw [b2, a3]; simp; omega
      · intro _
        by_cases ht : t = []
        · subst ht; simp; omega
        · have := b5 ht
          rw [a3, a4] at this
          simp; omega

/-- A successful assembly respected row range and capacity. -/
theorem assembleFrom_some (m : Mat K) (j : Nat) (cs : List (List (Nat × K))) (m' : Mat K)
    (h : m.assembleFrom j cs = some m') :
    (∀ c ∈ cs, ∀ e ∈ c, e.1 < m.numRows) ∧
      ((cs.map List.length).sum + m.nnz ≤ m.cap ∨ (cs.map List.length).sum = 0) := by
  induction cs generalizing m j with
  | nil => simp
  | cons c cs ih =>
    unfold assembleFrom at h
    rcases hp : m.pushCol j with _ | m1
    · rw [hp] at h; simp at h
    · rw [hp, Option.bind_some] at h
      rcases hq : m1.pushAll j c with _ | m2
      · rw [hq] at h; simp at h
      · rw [hq, Option.bind_some] at h
        have e1 : m1.numRows = m.numRows ∧ m1.nnz = m.nnz ∧ m1.cap = m.cap := by
          unfold pushCol at hp
          split at hp
          · injection hp with hp; subst hp; exact ⟨rfl, rfl, rfl⟩
          · simp at hp
        obtain ⟨a1, a2, a3, a4, a5⟩ := pushAll_some hq
        obtain ⟨b1, b2⟩ := ih m2 (j + 1) h
        refine ⟨?_, ?_⟩
        · intro c' hc'
          rw [List.mem_cons] at hc'
          rcases hc' with rfl | hc'
          · rw [← e1.1]; exact a1
          · rw [← e1.1, ← a4]; exact b1 c' hc'
        · simp only [List.map_cons, List.sum_cons]
          rw [a2, a3, e1.2.1, e1.2.2] at b2
          rw [e1.2.1, e1.2.2] at a5
          by_cases hc : c = []
          · subst hc
            simpa using b2
          · have := a5 hc
            rcases b2 with b2 | b2
            · left; omega
            · left; omega

theorem ptr_le_of_mono {m : Mat K} {n : Nat} (h : ∀ j < n, m.ptr j ≤ m.ptr (j + 1)) {i j : Nat}
    (hij : i ≤ j) (hj : j ≤ n) : m.ptr i ≤ m.ptr j := by
  induction j with
  | zero => rw [Nat.le_zero.mp hij]
  | succ j ih =>
    rcases Nat.lt_or_ge i (j + 1) with h1 | h1
    · exact le_trans (ih (by omega) (by omega)) (h j (by omega))
    · rw [show i = j + 1 by omega]

theorem sum_col_length {m : Mat K} {n : Nat} (h0 : m.ptr 0 = 0)
    (h : ∀ j < n, m.ptr j ≤ m.ptr (j + 1)) :
    ((List.range n).map fun j => (m.col j).length).sum = m.ptr n := by
  induction n with
  | zero => simp [h0]
  | succ n ih =>
    rw [List.range_succ, List.map_append, List.sum_append, ih (fun j hj => h j (by omega))]
    simp only [List.map_cons, List.map_nil, List.sum_cons, List.sum_nil, col_length]
    have := h n (by omega)
    omega

theorem WF.sum_col {m : Mat K} (h : m.WF) :
    ((List.range m.numCols).map fun j => (m.col j).length).sum = m.nnz := by
  rw [sum_col_length h.ptr_zero h.ptr_mono, h.ptr_last]

theorem WF.ptr_le {m : Mat K} (h : m.WF) {i j : Nat} (hij : i ≤ j) (hj : j ≤ m.numCols) :
    m.ptr i ≤ m.ptr j := ptr_le_of_mono h.ptr_mono hij hj

theorem WF.ptr_le_nnz {m : Mat K} (h : m.WF) {j : Nat} (hj : j ≤ m.numCols) : m.ptr j ≤ m.nnz := by
  rw [← h.ptr_last]; exact h.ptr_le hj le_rfl

/-- `clear` establishes the starting state of assembly. -/
theorem clear_wf (m : Mat K) : m.clear.WF := by
  refine ⟨by simp [clear], ?_, by simp [clear], by simp [clear], ?_, ?_⟩
  · intro j hj
    simp only [clear] at hj ⊢
    simp [show j ≤ m.numCols by omega, show j + 1 ≤ m.numCols by omega]
  · intro j hj
    simp only [clear] at hj
    simp [col, clear, show j ≤ m.numCols by omega, show j + 1 ≤ m.numCols by omega, Srt]
  · intro j hj
    simp only [clear] at hj
    simp [col, clear, show j ≤ m.numCols by omega, show j + 1 ≤ m.numCols by omega]

end Mat
end Sleqp
