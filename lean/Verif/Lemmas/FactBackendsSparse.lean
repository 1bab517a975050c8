import Verif.Lemmas.FactBackendsHsl

/-! Invariants of the back ends MUMPS, UMFPACK and CHOLMOD. -/

namespace Sleqp
open Finset
variable {K : Type*} [Field K] [LinearOrder K] {H : Type*}

/-! ### MUMPS -/

theorem Mumps.nextCol_spec {M : Mat K} (hw : M.WF) {k c : Nat} (hc : c < M.numCols) (h1 : M.ptr c ≤ k) (h2 : k < M.ptr (c + 1)) :
    ∀ (d col : Nat), col + d = c → Mumps.nextCol M.ptr k (M.numCols - col) col = some c := by
  intro d
  induction d with
  | zero =>
    intro col hcol
    have : col = c := by omega
    subst this
    obtain ⟨l, hl⟩ : ∃ l, M.numCols - col = l + 1 := ⟨M.numCols - col - 1, by omega⟩
    rw [hl]
    unfold Mumps.nextCol
    rw [if_pos h2]
  | succ d ih =>
    intro col hcol
    obtain ⟨l, hl⟩ : ∃ l, M.numCols - col = l + 1 := ⟨M.numCols - col - 1, by omega⟩
    rw [hl]
    unfold Mumps.nextCol
    have : M.ptr (col + 1) ≤ M.ptr c := hw.ptr_le (by omega) hc.le
    rw [if_neg (by omega)]
    have hl' : l = M.numCols - (col + 1) := by omega
    rw [hl']
    exact ih (col + 1) (by omega)

/-- the triplets written by `matrix_fill` -/
def Mumps.Fill.trip (f : Mumps.Fill K) : List (Nat × Nat × K) :=
  (List.range f.count).map fun k => (f.rows.get k, f.cols.get k, f.data.get k)

/-- the triplets to be written after `k` rounds -/
def Mumps.todo (M : Mat K) (k : Nat) : List (Nat × Nat × K) :=
  (((colCells M M.numCols).take k).filter fun c => decide (c.1 ≤ M.row c.2)).map fun c => (M.row c.2 + 1, c.1 + 1, M.val c.2)

theorem Mumps.write_spec {α : Type*} {b : Buf α} {k : Nat} (x : α) (h : k < b.size) :
    ∃ b', b.write k x = some b' ∧ b'.size = b.size ∧ b'.get k = x ∧ ∀ t < k, b'.get t = b.get t :=
  ⟨_, if_pos h, rfl, setAt_same _ _ _, fun t ht => setAt_ne _ _ (by omega)⟩

theorem Mumps.fill_fold {M : Mat K} (hM : M.Fits true) {r c : Buf Nat} {d : Buf K} (hr : M.nnz ≤ r.size) (hc : M.nnz ≤ c.size)
    (hd : M.nnz ≤ d.size) : ∀ k ≤ M.nnz, ∃ f : Mumps.Fill K,
      (List.range k).foldlM (Mumps.fillStep M) (⟨0, 0, r, c, d⟩ : Mumps.Fill K) = some f ∧ M.ptr f.col ≤ k ∧ f.col ≤ M.numCols ∧
      f.count ≤ k ∧ f.rows.size = r.size ∧ f.cols.size = c.size ∧ f.data.size = d.size ∧ f.trip = Mumps.todo M k := by
  have hsnd := colCells_snd hM.wf (n := M.numCols) le_rfl
  rw [hM.wf.ptr_last] at hsnd
  have hlen : (colCells M M.numCols).length = M.nnz := by rw [← List.length_map (f := Prod.snd), hsnd, List.length_range]
  intro k
  induction k with
  | zero => intro _; exact ⟨_, rfl, by simp only; rw [hM.wf.ptr_zero], Nat.zero_le _, le_rfl, rfl, rfl, rfl, rfl⟩
  | succ k ih =>
    intro hk
    obtain ⟨f, e, hp, hcol, hcount, s1, s2, s3, ht⟩ := ih (by omega)
    have hlt : k < (colCells M M.numCols).length := by omega
    obtain ⟨cell, hcell⟩ : ∃ cell, (colCells M M.numCols)[k] = cell := ⟨_, rfl⟩
    have hmem : cell ∈ colCells M M.numCols := hcell ▸ List.getElem_mem hlt
    have hk2 : cell.2 = k := by
      have h1 : ((colCells M M.numCols).map Prod.snd)[k]'(by rw [List.length_map]; omega) = cell.2 := by
        rw [List.getElem_map, hcell]
      rw [← h1]
      simp only [hsnd, List.getElem_range]
    have hb := cell_bound hM hmem
    have hin : M.ptr cell.1 ≤ k ∧ k < M.ptr (cell.1 + 1) := by
      have hm := hmem
      unfold colCells at hm
      simp only [List.mem_flatMap, List.mem_range, List.mem_map, List.mem_range'_1] at hm
      obtain ⟨j, hj, t, ht, he⟩ := hm
      have := hM.wf.ptr_mono j hj
      rw [← he] at hk2 ⊢
      simp only at hk2 ⊢
      omega
    have hcc : cell.1 < M.numCols := hM.square ▸ hb.1
    have hle : f.col ≤ cell.1 := by
      by_contra hcon
      have : M.ptr (cell.1 + 1) ≤ M.ptr f.col := hM.wf.ptr_le (by omega) hcol
      omega
    have hnext := Mumps.nextCol_spec hM.wf hcc hin.1 hin.2 (cell.1 - f.col) f.col (by omega)
    have htodo : Mumps.todo M (k + 1) = Mumps.todo M k ++
        (if cell.1 ≤ M.row k then [(M.row k + 1, cell.1 + 1, M.val k)] else []) := by
      unfold Mumps.todo
      rw [List.take_succ_eq_append_getElem hlt, hcell, List.filter_append, List.map_append]
      congr 1
      by_cases hle' : cell.1 ≤ M.row k
      · rw [if_pos hle', List.filter_cons, if_pos (by rw [hk2]; simpa using hle')]; simp [hk2]
      · rw [if_neg hle', List.filter_cons, if_neg (by rw [hk2]; simpa using hle')]; rfl
    rw [List.range_succ, List.foldlM_append, e]
    have hstep : ∀ f', Mumps.fillStep M f k = some f' →
        ((some f : Option (Mumps.Fill K)) >>= fun f => List.foldlM (Mumps.fillStep M) f [k]) = some f' := by
      intro f' h
      show List.foldlM (Mumps.fillStep M) f [k] = some f'
      rw [List.foldlM_cons, h]; rfl
    by_cases hlow : M.row k < cell.1
    · refine ⟨{ f with col := cell.1 }, hstep _ ?_, by simp only; omega, by simp only; omega, by simp only; omega, s1, s2, s3, ?_⟩
      · unfold Mumps.fillStep
        rw [hnext, Option.bind_some, if_pos hlow]
      · rw [htodo, if_neg (by omega), List.append_nil, ← ht]; rfl
    · obtain ⟨r', w1, z1, g1, k1⟩ := Mumps.write_spec (b := f.rows) (k := f.count) (M.row k + 1) (by omega)
      obtain ⟨c', w2, z2, g2, k2⟩ := Mumps.write_spec (b := f.cols) (k := f.count) (cell.1 + 1) (by omega)
      obtain ⟨d', w3, z3, g3, k3⟩ := Mumps.write_spec (b := f.data) (k := f.count) (M.val k) (by omega)
      refine ⟨⟨cell.1, f.count + 1, r', c', d'⟩, hstep _ ?_, by simp only; omega, by simp only; omega, by simp only; omega,
        by simp only; omega, by simp only; omega, by simp only; omega, ?_⟩
      · unfold Mumps.fillStep
        rw [hnext, Option.bind_some, if_neg hlow, w1, Option.bind_some, w2, Option.bind_some, w3]; rfl
      · rw [htodo, if_pos (by omega), ← ht]
        unfold Mumps.Fill.trip
        simp only
        rw [List.range_succ, List.map_append]
        congr 1
        · apply List.map_congr_left
          intro t htm
          have := List.mem_range.mp htm
          rw [k1 t this, k2 t this, k3 t this]
        · simp [g1, g2, g3]

/-- invariant of MUMPS -/
structure Mumps.Inv (L : FactLib (CoordSys K) H K) (s : Mumps H K) (m : Option (Mat K)) : Prop where
  rows : s.rows.size = s.maxNnz
  cols : s.cols.size = s.maxNnz
  data : s.data.size = s.maxNnz
  rhs : s.dim ≤ s.rhsSol.size
  ready : ∀ M, m = some M → s.dim = M.numRows ∧ ∃ sys, sys.dim = M.numRows ∧
    (∀ i < M.numRows, ∀ j < M.numRows, sys.entry i j = symEntry true M i j) ∧
    0 ≤ (L.factor sys).1 ∧ s.handle = some (L.factor sys).2

theorem Mumps.inv_set {L : FactLib (CoordSys K) H K} {s : Mumps H K} {m : Option (Mat K)} {M : Mat K} (h : Mumps.Inv L s m)
    (hM : M.Fits true) :
    (Mumps.setMatrix L s M).Post (fun s' => Mumps.Inv L s' none) fun s' => Mumps.Inv L s' (some M) := by
  have hsq := hM.square
  unfold Mumps.setMatrix Mumps.fill
  rw [if_pos hsq]
  simp only
  generalize h1 : (if s.dim < M.numRows then { s with rhsSol := s.rhsSol.realloc M.numRows } else s) = s1
  have g1 : M.numRows ≤ s1.rhsSol.size ∧ s1.rows.size = s1.maxNnz ∧ s1.cols.size = s1.maxNnz ∧ s1.data.size = s1.maxNnz := by
    have := h.rhs
    subst h1; split
    · exact ⟨le_rfl, h.rows, h.cols, h.data⟩
    · exact ⟨by omega, h.rows, h.cols, h.data⟩
  generalize h2 : (if s1.maxNnz < M.nnz then
        { s1 with
          cols := s1.cols.realloc M.nnz, rows := s1.rows.realloc M.nnz, data := s1.data.realloc M.nnz,
          maxNnz := M.nnz }
      else s1) = s2
  have g2 : M.numRows ≤ s2.rhsSol.size ∧ s2.rows.size = s2.maxNnz ∧ s2.cols.size = s2.maxNnz ∧ s2.data.size = s2.maxNnz ∧
      M.nnz ≤ s2.maxNnz := by
    subst h2; split
    · exact ⟨g1.1, rfl, rfl, rfl, le_rfl⟩
    · exact ⟨g1.1, g1.2.1, g1.2.2.1, g1.2.2.2, by omega⟩
  obtain ⟨f, e, -, -, hc, z1, z2, z3, ht⟩ := Mumps.fill_fold hM (r := s2.rows) (c := s2.cols) (d := s2.data) (by omega) (by omega)
    (by omega) M.nnz le_rfl
  rw [e, Option.bind_some, if_pos hc]
  simp only
  rw [if_pos ⟨by omega, by omega, by omega⟩]
  split
  · exact ⟨by show f.rows.size = s2.maxNnz; omega, by show f.cols.size = s2.maxNnz; omega, by show f.data.size = s2.maxNnz; omega,
      g2.1, fun _ hm => by cases hm⟩
  · refine ⟨by show f.rows.size = s2.maxNnz; omega, by show f.cols.size = s2.maxNnz; omega, by show f.data.size = s2.maxNnz; omega,
      g2.1, fun M' hm => ?_⟩
    cases hm
    refine ⟨rfl, _, ?_, fun i hi j hj => coord_entry hM.wf hsq ?_ hi hj, by rename_i hne; exact not_lt.mp hne, rfl⟩
    · rfl
    · refine Eq.trans (show _ = f.trip from rfl) (ht.trans ?_)
      unfold Mumps.todo
      have hsnd := colCells_snd hM.wf (n := M.numCols) le_rfl
      rw [hM.wf.ptr_last] at hsnd
      have hlen : (colCells M M.numCols).length = M.nnz := by rw [← List.length_map (f := Prod.snd), hsnd, List.length_range]
      rw [← hlen, List.take_length]

theorem Mumps.inv_solve [IsStrictOrderedRing K] {L : FactLib (CoordSys K) H K}
    (hL : L.Correct CoordSys.dim CoordSys.entry fun st => 0 ≤ st) {s : Mumps H K} {M : Mat K} {b : Vec K}
    (h : Mumps.Inv L s (some M)) (hb : b.WF) (hd : b.dim = M.numRows) :
    (Mumps.solve L s b).Post (fun s' => Mumps.Inv L s' (some M)) fun s' => Mumps.Inv L s' (some M) ∧ M.numRows ≤ s'.rhsSol.size ∧
      SolvesSys M.numRows (symEntry true M) b.value s'.rhsSol.get := by
  obtain ⟨hr, sys, hsd, hE, hst, hh⟩ := h.ready M rfl
  have hrs := h.rhs
  unfold Mumps.solve
  rw [if_pos (by omega)]
  obtain ⟨x, e, z, w⟩ := load_spec (b := s.rhsSol) hb (by omega)
  rw [e, hh]
  simp only
  rw [if_pos (by omega)]
  have hinv : ∀ y : Nat → K, Mumps.Inv L { s with rhsSol := x.fillBy s.dim y } (some M) := fun y =>
    ⟨h.rows, h.cols, h.data, by show s.dim ≤ x.size; omega, fun M' hm => by cases hm; exact ⟨hr, sys, hsd, hE, hst, hh⟩⟩
  split
  · exact hh ▸ hinv _
  · rename_i hne
    refine ⟨hh ▸ hinv _, by show M.numRows ≤ x.size; omega, ?_⟩
    have := hL sys x.get hst (not_lt.mp hne)
    rw [hsd] at this
    refine solvesSys_congr this hE (fun i hi => w i (by omega)) fun i hi => ?_
    show _ = if i < s.dim then _ else _
    rw [hr, if_pos hi]

/-! ### UMFPACK -/

/-- invariant of UMFPACK -/
structure Umfpack.Inv (L : FactLib (CscSys K) H K) (s : Umfpack H K) (m : Option (Mat K)) : Prop where
  rhs : s.rhs.size = s.currentSize
  sol : s.solution.size = s.currentSize
  ready : ∀ M, m = some M → M.Fits false ∧ s.matrix = some M ∧ M.numRows ≤ s.currentSize ∧ (∀ k < M.numRows, s.rhs.get k = 0) ∧
    (L.factor M.csc).1 = 0 ∧ s.handle = some (L.factor M.csc).2

theorem Umfpack.inv_set {L : FactLib (CscSys K) H K} {s : Umfpack H K} {m : Option (Mat K)} {M : Mat K} (h : Umfpack.Inv L s m)
    (hM : M.Fits false) :
    (Umfpack.setMatrix L s M).Post (fun s' => Umfpack.Inv L s' none) fun s' => Umfpack.Inv L s' (some M) := by
  unfold Umfpack.setMatrix
  rw [if_pos hM.square.symm]
  simp only
  generalize h1 : (if s.currentSize < M.numRows then
        { s with rhs := s.rhs.realloc M.numRows, solution := s.solution.realloc M.numRows, currentSize := M.numRows }
      else s) = s1
  have g1 : s1.rhs.size = s1.currentSize ∧ s1.solution.size = s1.currentSize ∧ M.numRows ≤ s1.currentSize := by
    subst h1; split
    · exact ⟨rfl, rfl, le_rfl⟩
    · exact ⟨h.rhs, h.sol, by omega⟩
  split
  · exact ⟨g1.1, g1.2.1, fun _ hm => by cases hm⟩
  · rename_i hne
    obtain ⟨z, e, hz, hw⟩ := writeRange_spec s1.rhs M.numRows (fun _ => 0) (by omega)
    rw [e]
    refine ⟨by show z.size = s1.currentSize; omega, g1.2.1, fun M' hm => ?_⟩
    cases hm
    exact ⟨hM, rfl, g1.2.2, hw, not_not.mp hne, rfl⟩

/-- a solve which fails leaves the right-hand side behind, so it is assumed not to fail -/
theorem Umfpack.inv_solve {L : FactLib (CscSys K) H K}
    (hL : L.Correct CscSys.numRows CscSys.entry fun st => st = 0) (hok : ∀ k x, (L.solve k x).1 = 0) {s : Umfpack H K} {M : Mat K}
    {b : Vec K} (h : Umfpack.Inv L s (some M)) (hb : b.WF) (hd : b.dim = M.numRows) :
    (Umfpack.solve L s b).Post (fun s' => Umfpack.Inv L s' (some M)) fun s' => Umfpack.Inv L s' (some M) ∧
      M.numRows ≤ s'.solution.size ∧ SolvesSys M.numRows (symEntry false M) b.value s'.solution.get := by
  obtain ⟨hM, hm, hn, hz, hst, hh⟩ := h.ready M rfl
  have h1 := h.rhs
  have h2 := h.sol
  have hsq := hM.square
  unfold Umfpack.solve
  rw [hm, hh]
  simp only
  rw [if_pos hd]
  obtain ⟨z, e, hs, hv, z', e', hs', hv'⟩ := cache_spec (b := s.rhs) hb (by omega) hz
  rw [e]
  simp only
  rw [if_pos ⟨by omega, by omega⟩, if_neg (not_not.mpr (hok _ _)), e']
  refine ⟨⟨by show z'.size = s.currentSize; omega, h2, fun M' hm' => ?_⟩, by show M.numRows ≤ s.solution.size; omega, ?_⟩
  · cases hm'
    exact ⟨hM, rfl, hn, hv', hst, rfl⟩
  · have := hL M.csc z.get hst (hok _ _)
    refine solvesSys_congr (n := M.numRows) this (fun i hi j hj => ?_) hv fun i hi => ?_
    · rw [csc_entry hM.wf i (by omega)]
      unfold symEntry
      rw [if_neg fun g => absurd g.1 Bool.false_ne_true]
    · show _ = if i < M.numRows then _ else _
      rw [if_pos hi]

/-! ### CHOLMOD -/

/-- invariant of CHOLMOD -/
structure Cholmod.Inv (L : CholLib H K) (s : Cholmod H K) (m : Option (Mat K)) : Prop where
  rhs : ∀ r c, s.shape = some (r, c) → ∃ z, s.rhs = some z ∧ z.size = r ∧ ∀ k < r, z.get k = 0
  sparse : ∀ r c sp, s.shape = some (r, c) → s.sparse = some sp →
    sp.ptr.size = c + 1 ∧ sp.row.size = sp.nzmax ∧ sp.val.size = sp.nzmax
  ready : ∀ M, m = some M → s.shape = some (M.numRows, M.numCols) ∧ ∃ sys : CscSys K, sys.numRows = M.numRows ∧ sys.numRows = sys.numCols ∧
    (∀ i < M.numRows, ∀ j < M.numRows, sys.lowerEntry i j = symEntry true M i j) ∧
    0 ≤ (L.factor sys).1 ∧ s.handle = some (L.factor sys).2

theorem Cholmod.shape_spec {L : CholLib H K} {s : Cholmod H K} {m : Option (Mat K)} (h : Cholmod.Inv L s m) (r c n : Nat) :
    ∃ s1 sp z, s.updateShape r c n = s1 ∧ s1.shape = some (r, c) ∧ s1.sparse = some sp ∧ sp.ptr.size = c + 1 ∧
      sp.row.size = sp.nzmax ∧ sp.val.size = sp.nzmax ∧ n ≤ sp.nzmax ∧ s1.rhs = some z ∧ z.size = r ∧ ∀ k < r, z.get k = 0 := by
  obtain ⟨z, hz1, hz2, hz3⟩ : ∃ z, (s.updateShape r c n).rhs = some z ∧ z.size = r ∧ ∀ k < r, z.get k = 0 := by
    unfold Cholmod.updateShape
    simp only
    split
    · exact ⟨_, rfl, rfl, fun _ _ => rfl⟩
    · rename_i hne
      obtain ⟨p, hp, hpr⟩ := Option.map_eq_some_iff.mp (not_not.mp hne)
      obtain ⟨p1, p2⟩ := p
      simp only at hpr
      subst hpr
      exact h.rhs _ _ hp
  obtain ⟨sp, hs1, hs2, hs3, hs4, hs5⟩ : ∃ sp, (s.updateShape r c n).sparse = some sp ∧ sp.ptr.size = c + 1 ∧
      sp.row.size = sp.nzmax ∧ sp.val.size = sp.nzmax ∧ n ≤ sp.nzmax := by
    refine ⟨_, rfl, ?_⟩
    split
    · rename_i sp hsp
      split
      · exact ⟨rfl, rfl, rfl, le_rfl⟩
      · rename_i hne
        have := h.sparse _ _ _ (not_not.mp hne) hsp
        split
        · exact ⟨this.1, rfl, rfl, le_rfl⟩
        · exact ⟨this.1, this.2.1, this.2.2, by omega⟩
    · exact ⟨rfl, rfl, rfl, le_rfl⟩
  exact ⟨_, sp, z, rfl, rfl, hs1, hs2, hs3, hs4, hs5, hz1, hz2, hz3⟩

theorem Cholmod.inv_set {L : CholLib H K} {s : Cholmod H K} {m : Option (Mat K)} {M : Mat K} (h : Cholmod.Inv L s m)
    (hM : M.Fits true) :
    (Cholmod.setMatrix L s M).Post (fun s' => Cholmod.Inv L s' none) fun s' => Cholmod.Inv L s' (some M) := by
  obtain ⟨s1, sp, z, e, h1, h2, h3, h4, h5, h6, h7, h8, h9⟩ := Cholmod.shape_spec h M.numRows M.numCols M.nnz
  have hsq := hM.square
  unfold Cholmod.setMatrix
  simp only
  rw [e, if_pos hsq.symm, h2, Option.bind_some]
  obtain ⟨p, e1, z1, w1⟩ := writeRange_spec sp.ptr (M.numCols + 1) M.ptr (by omega)
  obtain ⟨r, e2, z2, w2⟩ := writeRange_spec sp.row M.nnz M.row (by omega)
  obtain ⟨v, e3, z3, w3⟩ := writeRange_spec sp.val M.nnz M.val (by omega)
  have hfill : sp.fill M = some { sp with ptr := p, row := r, val := v } := by
    unfold CholSparse.fill
    rw [e1, Option.bind_some, e2, Option.bind_some, e3]; rfl
  rw [hfill]
  simp only
  have hrhs : ∀ r' c', s1.shape = some (r', c') → ∃ z, s1.rhs = some z ∧ z.size = r' ∧ ∀ k < r', z.get k = 0 := by
    intro r' c' hs
    rw [h1] at hs
    cases hs
    exact ⟨z, h7, h8, h9⟩
  have hsp : ∀ r' c' sp', s1.shape = some (r', c') → some ({ sp with ptr := p, row := r, val := v } : CholSparse K) = some sp' →
      sp'.ptr.size = c' + 1 ∧ sp'.row.size = sp'.nzmax ∧ sp'.val.size = sp'.nzmax := by
    intro r' c' sp' hs he
    rw [h1] at hs
    cases hs; cases he
    exact ⟨by show p.size = _; omega, by show r.size = sp.nzmax; omega, by show v.size = sp.nzmax; omega⟩
  split
  · exact ⟨hrhs, hsp, fun _ hm => by cases hm⟩
  · rename_i hne
    refine ⟨hrhs, hsp, fun M' hm => ?_⟩
    cases hm
    refine ⟨h1, ⟨M.numRows, M.numCols, p.get, r.get, v.get⟩, rfl, hsq, fun i hi j hj => ?_, not_lt.mp hne, rfl⟩
    have hc := csc_entry_congr hM.wf (s := ⟨M.numRows, M.numCols, p.get, r.get, v.get⟩) (fun j hj => w1 j (by omega)) w2 w3
    unfold CscSys.lowerEntry symEntry
    by_cases hij : i < j
    · rw [if_pos hij, if_pos ⟨rfl, hij⟩, hc j (by omega)]
    · rw [if_neg hij, if_neg fun g => hij g.2, hc i (by omega)]

theorem Cholmod.inv_solve {L : CholLib H K} (hL : L.Correct) (hpd : ∀ sys, 0 ≤ (L.factor sys).1 → (L.factor sys).1 = 0)
    (hok : ∀ k x, L.solve k x ≠ none) {s : Cholmod H K} {M : Mat K} {b : Vec K}
    (h : Cholmod.Inv L s (some M)) (hb : b.WF) (hd : b.dim = M.numRows) :
    (Cholmod.solve L s b).Post (fun s' => Cholmod.Inv L s' (some M)) fun s' => Cholmod.Inv L s' (some M) ∧
      M.numRows ≤ (s'.sol.getD ⟨0, fun _ => 0⟩).size ∧
      SolvesSys M.numRows (symEntry true M) b.value (s'.sol.getD ⟨0, fun _ => 0⟩).get := by
  obtain ⟨hsh, sys, hsd, hsq, hE, hst, hh⟩ := h.ready M rfl
  obtain ⟨z0, hz, hzs, hz0⟩ := h.rhs _ _ hsh
  unfold Cholmod.solve
  rw [hz, hh, hsh]
  simp only
  obtain ⟨z, e, hs, hv, z', e', hs', hv'⟩ := cache_spec (b := z0) hb (by omega) hz0
  rw [e]
  simp only
  rw [if_pos (by omega)]
  obtain ⟨x, hx⟩ := Option.ne_none_iff_exists'.mp (hok (L.factor sys).2 z.get)
  rw [hx, e']
  refine ⟨⟨fun r c hsc => ?_, fun r c sp hsc hsp => ?_, fun M' hm => ?_⟩, le_rfl, ?_⟩
  · cases hsc
    exact ⟨z', rfl, by omega, hv'⟩
  · cases hsc
    exact h.sparse _ _ _ hsh hsp
  · cases hm
    exact ⟨rfl, sys, hsd, hsq, hE, hst, rfl⟩
  · have := hL sys z.get x hsq (hpd _ hst) hx
    rw [hsd] at this
    exact solvesSys_congr this hE hv fun i hi => rfl

end Sleqp
