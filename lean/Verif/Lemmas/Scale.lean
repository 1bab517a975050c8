import Verif.Spec.Scale
import Verif.Lemmas.QnVec
import Verif.Lemmas.Mat
import Verif.Props.Cauchy
import Mathlib.Tactic.FieldSimp
import Mathlib.Tactic.Ring

/-! Lemmas on scaling by powers of two. -/

namespace Sleqp
variable {K : Type*} [Field K]

/-- every stored entry multiplied by `2 ^ w i` -/
def Vec.scaledBy (w : Nat → ℤ) (v : Vec K) : Vec K :=
  { v with ents := v.ents.map fun e => (e.1, ldexp e.2 (w e.1)) }

theorem srt_map_ldexp {l : List (Nat × K)} (h : Srt l) (w : Nat → ℤ) :
    Srt (l.map fun e => (e.1, ldexp e.2 (w e.1))) := by
  rw [Srt, List.pairwise_map]
  exact h

theorem scaledBy_ok {n : Nat} {v : Vec K} (h : VOk n v) (w : Nat → ℤ) : VOk n (v.scaledBy w) := by
  refine ⟨⟨srt_map_ldexp h.1.srt w, ?_, by simpa [Vec.scaledBy] using h.1.le_cap⟩, h.2⟩
  intro e he
  obtain ⟨a, ha, rfl⟩ := List.mem_map.mp he
  exact h.1.lt_dim a ha

theorem valAt_map_ldexp (l : List (Nat × K)) (w : Nat → ℤ) (i : Nat) :
    valAt (l.map fun e => (e.1, ldexp e.2 (w e.1))) i = valAt l i * 2 ^ w i := by
  unfold valAt
  rw [at?_map (fun e : Nat × K => ldexp e.2 (w e.1))]
  cases at? l i with
  | none => simp [orZero]
  | some x => rfl

theorem scaledBy_value (v : Vec K) (w : Nat → ℤ) (i : Nat) : (v.scaledBy w).value i = v.value i * 2 ^ w i :=
  valAt_map_ldexp v.ents w i

theorem mapM_weights (scales : List ℤ) (f : ℤ → ℤ) (l : List (Nat × K)) (h : ∀ e ∈ l, e.1 < scales.length) :
    (l.mapM fun e => (scales[e.1]?).map fun w => (e.1, ldexp e.2 (f w))) =
      some (l.map fun e => (e.1, ldexp e.2 (f ((scales[e.1]?).getD 0)))) := by
  induction l with
  | nil => rfl
  | cons e t ih =>
    have h1 := h e List.mem_cons_self
    rw [List.mapM_cons, ih fun a ha => h a (List.mem_cons_of_mem _ ha), List.getElem?_eq_getElem h1]
    simp [List.getElem?_eq_getElem h1]

theorem applyUnscaling_eq {n : Nat} {v : Vec K} (h : VOk n v) {scales : List ℤ} (hs : scales.length = n) (o : ℤ) :
    applyUnscaling v scales o = some (v.scaledBy fun i => (scales[i]?).getD 0 + o) := by
  unfold applyUnscaling
  rw [mapM_weights scales (fun w => w + o) v.ents (by intro e he; rw [hs, ← h.2]; exact h.1.lt_dim e he)]
  rfl

theorem applyScaling_eq {n : Nat} {v : Vec K} (h : VOk n v) {scales : List ℤ} (hs : scales.length = n) (o : ℤ) :
    applyScaling v scales o = some (v.scaledBy fun i => -1 * (scales[i]?).getD 0 + o) := by
  unfold applyScaling
  rw [mapM_weights scales (fun w => -1 * w + o) v.ents (by intro e he; rw [hs, ← h.2]; exact h.1.lt_dim e he)]
  rfl

section
variable [CharZero K]

theorem scaledBy_scaledBy (v : Vec K) (w w' : Nat → ℤ) :
    (v.scaledBy w).scaledBy w' = v.scaledBy fun i => w i + w' i := by
  unfold Vec.scaledBy
  simp only [List.map_map]
  congr 1
  apply List.map_congr_left
  intro e _
  show (e.1, ldexp (ldexp e.2 (w e.1)) (w' e.1)) = _
  unfold ldexp
  rw [mul_assoc, ← zpow_add₀ (two_ne_zero)]

theorem scaledBy_inv (v : Vec K) (w w' : Nat → ℤ) (h : ∀ i, w i + w' i = 0) : (v.scaledBy w).scaledBy w' = v := by
  rw [scaledBy_scaledBy]
  unfold Vec.scaledBy
  have : (v.ents.map fun e => (e.1, ldexp e.2 (w e.1 + w' e.1))) = v.ents := by
    conv_rhs => rw [← List.map_id v.ents]
    apply List.map_congr_left
    intro e _
    rw [h]; simp [ldexp]
  rw [this]
end

/-! matrices -/

theorem advanceCol_spec {m : Mat K} (index : Nat) (f : Nat) : ∀ c, c + f = m.numCols → m.ptr c ≤ index →
    index < m.ptr m.numCols →
    ∃ c', advanceCol m index f c = some c' ∧ c ≤ c' ∧ c' < m.numCols ∧ m.ptr c' ≤ index ∧ index < m.ptr (c' + 1) := by
  induction f with
  | zero => intro c hc h1 h2; rw [Nat.add_zero] at hc; rw [hc] at h1; omega
  | succ f ih =>
    intro c hc h1 h2
    unfold advanceCol
    by_cases h : index ≥ m.ptr (c + 1)
    · rw [if_pos h]
      obtain ⟨c', a1, a2, a3⟩ := ih (c + 1) (by omega) h h2
      exact ⟨c', a1, by omega, a3⟩
    · rw [if_neg h]
      exact ⟨c, rfl, le_rfl, by omega, h1, by omega⟩

/-- the column of an entry is unique -/
theorem col_unique {m : Mat K} (hm : m.WF) {k i j : Nat} (hi : i < m.numCols) (hj : j < m.numCols)
    (i1 : m.ptr i ≤ k) (i2 : k < m.ptr (i + 1)) (j1 : m.ptr j ≤ k) (j2 : k < m.ptr (j + 1)) : i = j := by
  rcases lt_trichotomy i j with h | h | h
  · have := hm.ptr_le (i := i + 1) (j := j) (by omega) (by omega); omega
  · exact h
  · have := hm.ptr_le (i := j + 1) (j := i) (by omega) (by omega); omega

theorem row_lt {m : Mat K} (hm : m.WF) {k j : Nat} (hj : j < m.numCols) (h1 : m.ptr j ≤ k) (h2 : k < m.ptr (j + 1)) :
    m.row k < m.numRows := by
  have := hm.lt_rows j hj (m.row k, m.val k)
  apply this
  unfold Mat.col
  refine List.mem_map.mpr ⟨k, ?_, rfl⟩
  rw [List.mem_range'_1]
  omega

theorem exists_col {m : Mat K} (hm : m.WF) {k : Nat} (hk : k < m.nnz) :
    ∃ j < m.numCols, m.ptr j ≤ k ∧ k < m.ptr (j + 1) := by
  obtain ⟨c, -, -, h1, h2, h3⟩ := advanceCol_spec (m := m) k m.numCols 0 (by omega) (by rw [hm.ptr_zero]; omega)
    (by rw [hm.ptr_last]; exact hk)
  exact ⟨c, h1, h2, h3⟩

theorem scaleMat_spec {m : Mat K} (hm : m.WF) {w : Nat → Nat → Option ℤ} {W : Nat → Nat → ℤ}
    (hw : ∀ i < m.numRows, ∀ j < m.numCols, w i j = some (W i j)) :
    ∃ v, scaleMat m w = some { m with val := v } ∧ (∀ k ≥ m.nnz, v k = m.val k) ∧
      ∀ j < m.numCols, ∀ k, m.ptr j ≤ k → k < m.ptr (j + 1) → v k = m.val k * 2 ^ W (m.row k) j := by
  obtain ⟨s, s1, s2⟩ := foldlM_range_inv (f := scaleMatBody m w) m.nnz (s0 := (0, m.val))
    (P := fun t s => s.1 ≤ m.numCols ∧ m.ptr s.1 ≤ t ∧ (∀ k ≥ t, s.2 k = m.val k) ∧
      ∀ j < m.numCols, ∀ k < t, m.ptr j ≤ k → k < m.ptr (j + 1) → s.2 k = m.val k * 2 ^ W (m.row k) j)
    ⟨Nat.zero_le _, by simp [hm.ptr_zero], fun _ _ => rfl, fun _ _ k hk => absurd hk (Nat.not_lt_zero _)⟩
    (by
      rintro t ht ⟨c, v⟩ ⟨h1, h2, h3, h4⟩
      simp only at h1 h2 h3 h4
      obtain ⟨c', a1, a2, a3, a4, a5⟩ := advanceCol_spec (m := m) t (m.numCols - c) c (by omega) h2
        (by rw [hm.ptr_last]; exact ht)
      refine ⟨(c', setAt v t (ldexp (v t) (W (m.row t) c'))), ?_, a3.le, Nat.le_succ_of_le a4, ?_, ?_⟩
      · unfold scaleMatBody
        rw [a1]
        simp only [Option.bind_some]
        rw [hw _ (row_lt hm a3 a4 a5) _ a3]
        rfl
      · intro k hk
        show setAt v t _ k = _
        unfold setAt
        rw [if_neg (by omega), h3 k (by omega)]
      · intro j hj k hk j1 j2
        show setAt v t _ k = _
        unfold setAt
        by_cases hkt : k = t
        · rw [if_pos hkt]
          subst hkt
          rw [h3 k le_rfl, col_unique hm hj a3 j1 j2 a4 a5]
          rfl
        · rw [if_neg hkt, h4 j hj k (by omega) j1 j2])
  refine ⟨s.2, ?_, s2.2.2.1, fun j hj k h1 h2 => s2.2.2.2 j hj k ?_ h1 h2⟩
  · unfold scaleMat
    rw [s1]; rfl
  · have := hm.ptr_le_nnz (j := j + 1) (by omega)
    omega

theorem scaledMat_wf {m : Mat K} (hm : m.WF) {v : Nat → K} {W : Nat → Nat → ℤ}
    (hv : ∀ j < m.numCols, ∀ k, m.ptr j ≤ k → k < m.ptr (j + 1) → v k = m.val k * 2 ^ W (m.row k) j) :
    ({ m with val := v } : Mat K).WF ∧
      ∀ j < m.numCols, ({ m with val := v } : Mat K).col j = (m.col j).map fun e => (e.1, ldexp e.2 (W e.1 j)) := by
  have hc : ∀ j < m.numCols, ({ m with val := v } : Mat K).col j =
      (m.col j).map fun e => (e.1, ldexp e.2 (W e.1 j)) := by
    intro j hj
    unfold Mat.col
    rw [List.map_map]
    apply List.map_congr_left
    intro k hk
    rw [List.mem_range'_1] at hk
    replace hk : m.ptr j ≤ k ∧ k < m.ptr j + (m.ptr (j + 1) - m.ptr j) := hk
    show (m.row k, v k) = (m.row k, m.val k * 2 ^ W (m.row k) j)
    rw [hv j hj k hk.1 (by omega)]
  refine ⟨⟨hm.ptr_zero, hm.ptr_mono, hm.ptr_last, hm.le_cap, ?_, ?_⟩, hc⟩
  · intro j hj
    rw [hc j hj]
    exact srt_map_ldexp (hm.srt j hj) fun i => W i j
  · intro j hj e he
    rw [hc j hj] at he
    obtain ⟨a, ha, rfl⟩ := List.mem_map.mp he
    exact hm.lt_rows j hj a ha

theorem scaleMat_ok {m : Mat K} (hm : m.WF) {w : Nat → Nat → Option ℤ} {W : Nat → Nat → ℤ}
    (hw : ∀ i < m.numRows, ∀ j < m.numCols, w i j = some (W i j)) :
    ∃ r, scaleMat m w = some r ∧ r.WF ∧ r.numRows = m.numRows ∧ r.numCols = m.numCols ∧
      ∀ i, ∀ j < m.numCols, r.value i j = m.value i j * 2 ^ W i j := by
  obtain ⟨v, h1, _, h3⟩ := scaleMat_spec hm hw
  obtain ⟨g1, g2⟩ := scaledMat_wf hm h3
  refine ⟨_, h1, g1, rfl, rfl, fun i j hj => ?_⟩
  unfold Mat.value
  rw [g2 j hj]
  exact valAt_map_ldexp (m.col j) (fun i => W i j) i

theorem scaleMat_inv [CharZero K] {m : Mat K} (hm : m.WF) {w w' : Nat → Nat → Option ℤ} {W W' : Nat → Nat → ℤ}
    (hw : ∀ i < m.numRows, ∀ j < m.numCols, w i j = some (W i j))
    (hw' : ∀ i < m.numRows, ∀ j < m.numCols, w' i j = some (W' i j)) (h : ∀ i j, W i j + W' i j = 0) :
    (scaleMat m w).bind (fun r => scaleMat r w') = some m := by
  obtain ⟨v, h1, h2, h3⟩ := scaleMat_spec hm hw
  obtain ⟨g1, -⟩ := scaledMat_wf hm h3
  obtain ⟨v', k1, k2, k3⟩ := scaleMat_spec (w := w') (W := W') g1 hw'
  rw [h1]
  simp only [Option.bind_some]
  rw [k1]
  have : v' = m.val := by
    funext k
    by_cases hk : k < m.nnz
    · obtain ⟨j, j1, j2, j3⟩ := exists_col hm hk
      rw [k3 j j1 k j2 j3]
      show v k * _ = _
      rw [h3 j j1 k j2 j3, mul_assoc, ← zpow_add₀ two_ne_zero]
      show m.val k * 2 ^ (W (m.row k) j + W' (m.row k) j) = _
      rw [h, zpow_zero, mul_one]
    · rw [k2 k (by show k ≥ m.nnz; omega)]
      exact h2 k (by omega)
  rw [this]

end Sleqp
