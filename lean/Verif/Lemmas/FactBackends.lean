import Verif.Lemmas.FactBackend
import Verif.Lemmas.AugJac

/-! Invariants of the factorization back ends. -/

namespace Sleqp
open Finset

/-- what holds after a call, if it raises an error or succeeds -/
def Call.Post {σ : Type*} (c : Call σ) (r o : σ → Prop) : Prop :=
  match c with
  | .ub => False
  | .endless => True
  | .raised s => r s
  | .okay s => o s

variable {K : Type*} [Field K] [LinearOrder K] {H : Type*}

theorem reach_of {σ : Type*} {B : Backend σ K} {lower : Bool} (P : σ → Option (Mat K) → Prop) (h0 : P B.init none)
    (hset : ∀ s m M, P s m → M.Fits lower → (B.setMatrix s M).Post (fun s' => P s' none) fun s' => P s' (some M))
    (hsolve : ∀ s M (b : Vec K), P s (some M) → b.WF → b.dim = M.numRows →
      (B.solve s b).Post (fun s' => P s' (some M)) fun s' => P s' (some M) ∧ M.numRows ≤ (B.sol s').size ∧
        SolvesSys M.numRows (symEntry lower M) b.value (B.sol s').get) {s : σ} {m : Option (Mat K)} (h : B.Reach lower s m) :
    P s m := by
  induction h with
  | init => exact h0
  | set _ hM he ih => have := hset _ _ _ ih hM; rw [he] at this; exact this
  | setFails _ hM he ih => have := hset _ _ _ ih hM; rw [he] at this; exact this
  | solve _ hb hd he ih => have := hsolve _ _ _ ih hb hd; rw [he] at this; exact this.1
  | solveFails _ hb hd he ih => have := hsolve _ _ _ ih hb hd; rw [he] at this; exact this

theorem reliable_of {σ : Type*} {B : Backend σ K} {lower : Bool} (P : σ → Option (Mat K) → Prop) (h0 : P B.init none)
    (hset : ∀ s m M, P s m → M.Fits lower → (B.setMatrix s M).Post (fun s' => P s' none) fun s' => P s' (some M))
    (hsolve : ∀ s M (b : Vec K), P s (some M) → b.WF → b.dim = M.numRows →
      (B.solve s b).Post (fun s' => P s' (some M)) fun s' => P s' (some M) ∧ M.numRows ≤ (B.sol s').size ∧
        SolvesSys M.numRows (symEntry lower M) b.value (B.sol s').get) : B.Reliable lower := by
  intro s m h
  have hinv := reach_of P h0 hset hsolve h
  refine ⟨fun M hM he => ?_, fun M hm b hb hd => ⟨fun he => ?_, fun s' he => ?_⟩⟩
  · have := hset _ _ _ hinv hM; rw [he] at this; exact this
  · subst hm; have := hsolve _ _ _ hinv hb hd; rw [he] at this; exact this
  · subst hm; have := hsolve _ _ _ hinv hb hd; rw [he] at this; exact this.2

theorem solvesSys_congr {n : Nat} {E E' : Nat → Nat → K} {b b' x x' : Nat → K} (h : SolvesSys n E b x)
    (hE : ∀ i < n, ∀ j < n, E i j = E' i j) (hb : ∀ i < n, b i = b' i) (hx : ∀ i < n, x i = x' i) :
    SolvesSys n E' b' x' := by
  intro i hi
  rw [← hb i hi, ← h i hi]
  exact sum_congr rfl fun j hj => by rw [hE i hi j (mem_range.mp hj), hx j (mem_range.mp hj)]

/-! ### LAPACK -/

theorem cell_value {M : Mat K} (hw : M.WF) {c : Nat × Nat} (h : c ∈ colCells M M.numCols) : M.value (M.row c.2) c.1 = M.val c.2 := by
  unfold colCells at h
  simp only [List.mem_flatMap, List.mem_range, List.mem_map] at h
  obtain ⟨j, hj, k, hk, rfl⟩ := h
  unfold Mat.value valAt
  rw [at?_of_mem (hw.srt j hj) (List.mem_map.mpr ⟨k, hk, rfl⟩)]
  rfl

theorem no_cell_value {M : Mat K} {i j : Nat} (hj : j < M.numCols) (h : ∀ c ∈ colCells M M.numCols, ¬ (M.row c.2 = i ∧ c.1 = j)) :
    M.value i j = 0 := by
  unfold Mat.value valAt
  rw [at?_none_of_forall]
  · rfl
  · intro e he hk
    obtain ⟨k, hk', rfl⟩ := List.mem_map.mp he
    exact h (j, k) (List.mem_flatMap.mpr ⟨j, List.mem_range.mpr hj, List.mem_map.mpr ⟨k, hk', rfl⟩⟩) ⟨hk, rfl⟩

theorem cell_lower {M : Mat K} (h : M.isLower = true) {c : Nat × Nat} (hc : c ∈ colCells M M.numCols) : c.1 ≤ M.row c.2 := by
  unfold colCells at hc
  simp only [List.mem_flatMap, List.mem_range, List.mem_map] at hc
  obtain ⟨j, hj, k, hk, rfl⟩ := hc
  have := List.all_eq_true.mp (List.all_eq_true.mp h j (List.mem_range.mpr hj)) (M.row k, M.val k) (List.mem_map.mpr ⟨k, hk, rfl⟩)
  simpa using this

theorem cell_bound {M : Mat K} {lower : Bool} (hM : M.Fits lower) {c : Nat × Nat} (hc : c ∈ colCells M M.numCols) :
    c.1 < M.numRows ∧ M.row c.2 < M.numRows ∧ c.2 < M.nnz := by
  have := Mat.mem_colCells (m := M) (n := M.numCols) hM.wf hc
  rw [hM.wf.ptr_last] at this
  exact ⟨hM.square ▸ this.1, this.2.2, this.2.1⟩

theorem pos_lt {n a b : Nat} (ha : a < n) (hb : b < n) : a * n + b < n * n :=
  calc a * n + b < a * n + n := by omega
    _ = (a + 1) * n := by ring
    _ ≤ n * n := Nat.mul_le_mul_right n ha

theorem pos_inj {n a b a' b' : Nat} (hb : b < n) (hb' : b' < n) (h : a * n + b = a' * n + b') : a = a' ∧ b = b' := by
  have h1 : (a * n + b) / n = a := by rw [Nat.mul_comm, Nat.mul_add_div (by omega), Nat.div_eq_of_lt hb, Nat.add_zero]
  have h2 : (a' * n + b') / n = a' := by rw [Nat.mul_comm, Nat.mul_add_div (by omega), Nat.div_eq_of_lt hb', Nat.add_zero]
  have : a = a' := by rw [← h1, ← h2, h]
  exact ⟨this, by subst this; omega⟩

theorem storeValues_spec {M : Mat K} (hM : M.Fits true) {v : Buf K} (hv : M.numRows * M.numRows ≤ v.size)
    (hz : ∀ k < M.numRows * M.numRows, v.get k = 0) :
    ∃ v', v.writeAll (Lapack.storeValues M) = some v' ∧ v'.size = v.size ∧
      ∀ i < M.numRows, ∀ j < M.numRows, denseEntry M.numRows v'.get i j = symEntry true M i j := by
  have hlow := hM.lower rfl
  have hsq := hM.square
  have hmem : ∀ e ∈ Lapack.storeValues M, ∃ c ∈ colCells M M.numCols,
      e = (M.row c.2 * M.numRows + c.1, M.val c.2) ∨ e = (c.1 * M.numRows + M.row c.2, M.val c.2) := by
    intro e he
    obtain ⟨c, hc, h⟩ := List.mem_flatMap.mp he
    rw [← hsq] at h
    refine ⟨c, hc, ?_⟩
    simpa using h
  have hval : ∀ e ∈ Lapack.storeValues M, ∀ i < M.numRows, ∀ j < M.numRows, e.1 = j * M.numRows + i → e.2 = symEntry true M i j := by
    intro e he i hi j hj hp
    obtain ⟨c, hc, h⟩ := hmem e he
    have hb := cell_bound hM hc
    have hl := cell_lower hlow hc
    have hcv := cell_value hM.wf hc
    unfold symEntry
    rcases h with rfl | rfl
    · obtain ⟨h1, h2⟩ := pos_inj hb.1 hi hp
      rw [h1, h2] at hcv hl
      by_cases hij : i < j
      · rw [if_pos ⟨rfl, hij⟩, hcv]
      · have : i = j := by omega
        subst this
        rw [if_neg fun h => hij h.2, hcv]
    · obtain ⟨h1, h2⟩ := pos_inj hb.2.1 hi hp
      rw [h1, h2] at hcv hl
      rw [if_neg fun h => by omega, hcv]
  obtain ⟨v', h1, h2, h3, h4⟩ := writeAll_spec (Lapack.storeValues M) v
    (by
      intro e he
      obtain ⟨c, hc, h⟩ := hmem e he
      have hb := cell_bound hM hc
      have g1 := pos_lt hb.2.1 hb.1
      have g2 := pos_lt hb.1 hb.2.1
      rcases h with rfl | rfl <;> (simp only; omega))
    (by
      intro e he e' he' hp
      obtain ⟨c, hc, h⟩ := hmem e he
      have hb := cell_bound hM hc
      rcases h with rfl | rfl
      · rw [hval _ he c.1 hb.1 (M.row c.2) hb.2.1 rfl, hval _ he' c.1 hb.1 (M.row c.2) hb.2.1 hp.symm]
      · rw [hval _ he (M.row c.2) hb.2.1 c.1 hb.1 rfl, hval _ he' (M.row c.2) hb.2.1 c.1 hb.1 hp.symm])
  refine ⟨v', h1, h2, fun i hi j hj => ?_⟩
  unfold denseEntry
  by_cases hm : ∃ e ∈ Lapack.storeValues M, e.1 = j * M.numRows + i
  · obtain ⟨e, he, hp⟩ := hm
    rw [← hp, h3 e he, hval e he i hi j hj hp]
  · rw [h4 _ fun e he hp => hm ⟨e, he, hp⟩, hz _ (pos_lt hj hi)]
    unfold symEntry
    have hno : ∀ a < M.numRows, ∀ b < M.numRows, (a * M.numRows + b = j * M.numRows + i ∨ b * M.numRows + a = j * M.numRows + i) →
        M.value a b = 0 := by
      intro a ha b hb hp
      refine no_cell_value (hsq ▸ hb) fun c hc h => hm ?_
      rcases hp with hp | hp
      · exact ⟨(M.row c.2 * M.numCols + c.1, M.val c.2), List.mem_flatMap.mpr ⟨c, hc, by simp⟩, by
          rw [h.1, h.2, ← hsq]; exact hp⟩
      · exact ⟨(c.1 * M.numCols + M.row c.2, M.val c.2), List.mem_flatMap.mpr ⟨c, hc, by simp⟩, by
          rw [h.1, h.2, ← hsq]; exact hp⟩
    split
    · exact (hno j hj i hi (Or.inl rfl)).symm
    · exact (hno i hi j hj (Or.inr rfl)).symm

/-- invariant of the LAPACK back end -/
structure Lapack.Inv (L : LapackLib K) (s : Lapack K) (m : Option (Mat K)) : Prop where
  values : s.values.size = s.maxSize
  ipiv : s.ipiv = s.maxRows
  sol : s.sol.size = s.maxRows
  ready : ∀ M, m = some M → s.rows = M.numRows ∧ s.rows ≤ s.maxRows ∧ s.rows * s.rows ≤ s.maxSize ∧
    ∃ a, (L.factor s.rows a).1 = 0 ∧ (∀ k < s.rows * s.rows, s.values.get k = (L.factor s.rows a).2 k) ∧
      ∀ i < s.rows, ∀ j < s.rows, denseEntry s.rows a i j = symEntry true M i j

theorem Lapack.inv_set {L : LapackLib K} {s : Lapack K} {m : Option (Mat K)} {M : Mat K} (h : Lapack.Inv L s m) (hM : M.Fits true) :
    (Lapack.setMatrix L s M).Post (fun s' => Lapack.Inv L s' none) fun s' => Lapack.Inv L s' (some M) := by
  unfold Lapack.setMatrix
  rw [if_pos hM.square.symm]
  simp only
  generalize h1 : (if s.maxSize < M.numRows * M.numRows then
    { s with values := s.values.realloc (M.numRows * M.numRows), maxSize := M.numRows * M.numRows } else s) = s1
  have g1 : s1.values.size = s1.maxSize ∧ s1.ipiv = s1.maxRows ∧ s1.sol.size = s1.maxRows ∧ M.numRows * M.numRows ≤ s1.maxSize := by
    subst h1; split
    · exact ⟨rfl, h.ipiv, h.sol, le_rfl⟩
    · exact ⟨h.values, h.ipiv, h.sol, by omega⟩
  generalize h2 : (if s1.maxRows < M.numRows then
    { s1 with ipiv := M.numRows, sol := s1.sol.realloc M.numRows, maxRows := M.numRows } else s1) = s2
  have g2 : s2.values.size = s2.maxSize ∧ s2.ipiv = s2.maxRows ∧ s2.sol.size = s2.maxRows ∧ M.numRows * M.numRows ≤ s2.maxSize ∧
      M.numRows ≤ s2.maxRows := by
    subst h2; split
    · exact ⟨g1.1, rfl, rfl, g1.2.2.2, le_rfl⟩
    · exact ⟨g1.1, g1.2.1, g1.2.2.1, g1.2.2.2, by omega⟩
  obtain ⟨v0, e0, z0, w0⟩ := writeRange_spec s2.values (M.numRows * M.numRows) (fun _ => 0) (by omega)
  obtain ⟨v, e1, z1, w1⟩ := storeValues_spec hM (v := v0) (by omega) w0
  have hw : ((s2.values.writeAll ((List.range (M.numRows * M.numRows)).map fun i => (i, 0))).bind fun v => v.writeAll (Lapack.storeValues M)) = some v := by
    rw [e0]; exact e1
  rw [hw]
  simp only
  rw [if_pos ⟨by omega, by omega⟩]
  split
  · exact ⟨by show v.size = s2.maxSize; omega, g2.2.1, g2.2.2.1, fun _ hm => by cases hm⟩
  · rename_i hr
    refine ⟨by show v.size = s2.maxSize; omega, g2.2.1, g2.2.2.1, ?_⟩
    intro M' hm
    cases hm
    refine ⟨rfl, g2.2.2.2.2, g2.2.2.2.1, v.get, not_not.mp hr, fun k hk => if_pos hk, w1⟩

theorem Lapack.inv_solve [IsStrictOrderedRing K] {L : LapackLib K} (hL : L.Correct) {s : Lapack K} {M : Mat K} {b : Vec K}
    (h : Lapack.Inv L s (some M)) (hb : b.WF) (hd : b.dim = M.numRows) :
    (Lapack.solve L s b).Post (fun s' => Lapack.Inv L s' (some M)) fun s' => Lapack.Inv L s' (some M) ∧ M.numRows ≤ s'.sol.size ∧
      SolvesSys M.numRows (symEntry true M) b.value s'.sol.get := by
  obtain ⟨hr, hle, hsz, a, ha, hf, hE⟩ := h.ready M rfl
  have hv := h.values
  have hi := h.ipiv
  have hs := h.sol
  unfold Lapack.solve
  rw [if_pos (by omega)]
  obtain ⟨x, e, z, w⟩ := load_spec (b := s.sol) hb (by omega)
  rw [e]
  simp only
  rw [if_pos ⟨by omega, by omega, by omega⟩]
  have hinv : ∀ y : Nat → K, Lapack.Inv L { s with sol := x.fillBy s.rows y } (some M) := fun y =>
    ⟨hv, hi, by show x.size = s.maxRows; omega, fun M' hm => by cases hm; exact ⟨hr, hle, hsz, a, ha, hf, hE⟩⟩
  split
  · exact hinv _
  · rename_i hne
    refine ⟨hinv _, by show M.numRows ≤ x.size; omega, ?_⟩
    have := hL s.rows a s.values.get x.get ha hf (not_not.mp hne)
    rw [hr] at this hE
    refine solvesSys_congr this hE (fun i hi => w i (by omega)) fun i hi => ?_
    show _ = if i < s.rows then _ else _
    rw [hr, if_pos hi]

/-! ### The matrix of the HSL solvers -/

/-- invariant of the HSL matrix: the arrays have the size noted -/
structure Hsl.Inv (h : Hsl K) : Prop where
  rows : h.rows.size = h.maxNnz
  cols : h.cols.size = h.maxNnz
  data : h.data.size = h.maxNnz

/-- the HSL matrix holds `M` -/
structure Hsl.Holds (h : Hsl K) (M : Mat K) : Prop where
  inv : h.Inv
  dim : h.dim = M.numRows
  nnz : h.nnz = M.nnz
  le : h.nnz ≤ h.maxNnz
  sys : ∀ a : Buf K, (∀ k < M.nnz, a.get k = M.val k) → M.nnz ≤ a.size →
    ∃ s, h.system a = some s ∧ s.dim = M.numRows ∧ ∀ i < M.numRows, ∀ j < M.numRows, s.entry i j = symEntry true M i j
  dat : ∀ k < M.nnz, h.data.get k = M.val k

theorem Hsl.set_spec {h : Hsl K} (hi : h.Inv) {M : Mat K} (hM : M.Fits true) : ∃ h', h.set M = some h' ∧ h'.Holds M := by
  unfold Hsl.set
  rw [if_pos hM.square]
  simp only
  generalize h1 : (if h.maxNnz < M.nnz then
      { h with
        cols := h.cols.realloc M.nnz, rows := h.rows.realloc M.nnz, data := h.data.realloc M.nnz,
        maxNnz := M.nnz }
    else h) = g
  have hg : g.Inv ∧ M.nnz ≤ g.maxNnz := by
    subst h1; split
    · exact ⟨⟨rfl, rfl, rfl⟩, le_rfl⟩
    · exact ⟨hi, by omega⟩
  obtain ⟨⟨gr, gc, gd⟩, gm⟩ := hg
  obtain ⟨d, e1, z1, w1⟩ := writeRange_spec g.data M.nnz M.val (by omega)
  obtain ⟨r, e2, z2, w2⟩ := writeRange_spec g.rows M.nnz (fun k => M.row k + 1) (by omega)
  have hsnd := colCells_snd hM.wf (n := M.numCols) le_rfl
  rw [hM.wf.ptr_last] at hsnd
  have hnd : ((colCells M M.numCols).map Prod.snd).Nodup := by rw [hsnd]; exact List.nodup_range
  obtain ⟨c, e3, z3, w3, -⟩ := writeAll_spec ((colCells M M.numCols).map fun c => (c.2, c.1 + 1)) g.cols
    (by
      intro e he
      obtain ⟨a, ha, rfl⟩ := List.mem_map.mp he
      have := (cell_bound hM ha).2.2
      simp only; omega)
    (by
      intro e he e' he' hp
      obtain ⟨a, ha, rfl⟩ := List.mem_map.mp he
      obtain ⟨a', ha', rfl⟩ := List.mem_map.mp he'
      have : a = a' := List.inj_on_of_nodup_map hnd ha ha' hp
      rw [this])
  rw [e1, Option.bind_some, e2, Option.bind_some, e3]
  refine ⟨_, rfl, ⟨by show r.size = g.maxNnz; omega, by show c.size = g.maxNnz; omega, by show d.size = g.maxNnz; omega⟩, rfl, rfl, gm, ?_, w1⟩
  intro a ha hsz
  refine ⟨_, if_pos ⟨by show M.nnz ≤ r.size; omega, by show M.nnz ≤ c.size; omega, hsz⟩, rfl, fun i hi' j hj' =>
    coord_entry hM.wf hM.square ?_ hi' hj'⟩
  rw [List.filter_eq_self.mpr fun c hc => by simpa using cell_lower (hM.lower rfl) hc]
  show (List.range M.nnz).map _ = _
  rw [← hsnd, List.map_map]
  apply List.map_congr_left
  intro cell hc
  have hb := cell_bound hM hc
  show (r.get cell.2, c.get cell.2, a.get cell.2) = _
  rw [w2 _ hb.2.2, ha _ hb.2.2, w3 (cell.2, cell.1 + 1) (List.mem_map.mpr ⟨cell, hc, rfl⟩)]

end Sleqp
