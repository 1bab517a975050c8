import Verif.Lemmas.FactBackends

/-! Invariants of the back ends MA27, MA57, MA86 and MA97. -/

namespace Sleqp
open Finset
variable {K : Type*} [Field K] [LinearOrder K] {H : Type*}

theorem size20_le (n : Nat) : n ≤ size20 n := by unfold size20; omega

theorem size20_lt {n : Nat} (h : 5 ≤ n) : n < size20 n := by unfold size20; omega

theorem Hsl.Holds.pattern {h : Hsl K} {M : Mat K} (hh : h.Holds M) : ∃ p, h.pattern = some p := by
  have h1 := hh.inv.rows
  have h2 := hh.inv.cols
  have h3 := hh.le
  exact ⟨_, if_pos ⟨by omega, by omega⟩⟩

/-! ### MA27 -/

/-- invariant of MA27 -/
structure Ma27.Inv (L : Ma27Lib H K) (s : Ma27 H K) (m : Option (Mat K)) : Prop where
  hsl : s.hsl.Inv
  rhs : s.hsl.dim ≤ s.rhsSol.size
  fac : s.factor.size = s.factorSize
  ready : ∀ M, m = some M → s.hsl.dim = M.numRows ∧ ∃ sys la liw, sys.dim = M.numRows ∧
    (∀ i < M.numRows, ∀ j < M.numRows, sys.entry i j = symEntry true M i j) ∧
    (L.factor sys la liw).1 = 0 ∧ s.handle = some (L.factor sys la liw).2.2.2

theorem Ma27.reserve_spec (s : Ma27 H K) (n : Nat) (h : s.factor.size = s.factorSize) :
    (s.reserve n).factor.size = (s.reserve n).factorSize ∧ s.factorSize ≤ (s.reserve n).factorSize ∧
      n ≤ (s.reserve n).factorSize ∧ (s.reserve n).hsl = s.hsl ∧ (s.reserve n).rhsSol = s.rhsSol := by
  unfold Ma27.reserve
  split
  · exact ⟨rfl, by simp only; omega, le_rfl, rfl, rfl⟩
  · exact ⟨h, le_rfl, by omega, rfl, rfl⟩

theorem Ma27.inv_loop {L : Ma27Lib H K} {M : Mat K} (fuel : Nat) : ∀ s : Ma27 H K, s.hsl.Holds M → s.hsl.dim ≤ s.rhsSol.size →
    s.factor.size = s.factorSize → M.nnz ≤ s.factorSize →
    (Ma27.loop L fuel s).Post (fun s' => Ma27.Inv L s' none) fun s' => Ma27.Inv L s' (some M) := by
  induction fuel with
  | zero => intro s _ _ _ _; exact trivial
  | succ fuel ih =>
    intro s hh hr hf hn
    unfold Ma27.loop
    obtain ⟨a, e, z, w⟩ := writeRange_spec s.factor s.hsl.nnz s.hsl.data.get (by rw [hh.nnz]; omega)
    rw [e]
    simp only
    rw [hh.nnz] at w
    obtain ⟨sys, e1, hd, hE⟩ := hh.sys a (fun k hk => by rw [w k hk, hh.dat k hk]) (by omega)
    rw [e1]
    simp only
    rw [if_pos (by omega)]
    split
    · have hrs := Ma27.reserve_spec { s with factor := a } (max (L.factor sys s.factorSize s.iw).2.1 (size20 s.factorSize))
        (by show a.size = s.factorSize; omega)
      refine ih _ (by rw [hrs.2.2.2.1]; exact hh) ?_ hrs.1 (le_trans hn hrs.2.1)
      rw [hrs.2.2.2.1, hrs.2.2.2.2]; exact hr
    · split
      · exact ⟨hh.inv, hr, by show a.size = s.factorSize; omega, fun _ hm => by cases hm⟩
      · rename_i hne
        refine ⟨hh.inv, hr, by show a.size = s.factorSize; omega, fun M' hm => ?_⟩
        cases hm
        exact ⟨hh.dim, sys, _, _, hd, hE, not_not.mp hne, rfl⟩

theorem Ma27.inv_set {L : Ma27Lib H K} {fuel : Nat} {s : Ma27 H K} {m : Option (Mat K)} {M : Mat K} (h : Ma27.Inv L s m)
    (hM : M.Fits true) :
    (Ma27.setMatrix L fuel s M).Post (fun s' => Ma27.Inv L s' none) fun s' => Ma27.Inv L s' (some M) := by
  unfold Ma27.setMatrix
  simp only
  have hsq := hM.square
  generalize h1 : (if s.hsl.dim < M.numCols then { s with rhsSol := s.rhsSol.realloc M.numCols } else s) = s1
  have g1 : s1.hsl = s.hsl ∧ M.numRows ≤ s1.rhsSol.size ∧ s1.factor.size = s1.factorSize := by
    have := h.rhs
    subst h1; split
    · exact ⟨rfl, by show M.numRows ≤ M.numCols; omega, h.fac⟩
    · exact ⟨rfl, by omega, h.fac⟩
  obtain ⟨k, e, hk⟩ := Hsl.set_spec (g1.1 ▸ h.hsl : s1.hsl.Inv) hM
  obtain ⟨p, hp⟩ := hk.pattern
  have hkd := hk.dim
  have hkn := hk.nnz
  rw [e]
  simp only [hp]
  rw [if_pos]
  · have hr : k.dim ≤ s1.rhsSol.size := by omega
    split
    · exact ⟨hk.inv, hr, g1.2.2, fun _ hm => by cases hm⟩
    · have hrs := Ma27.reserve_spec { s1 with
        hsl := k,
        iw := max s1.iw (size20 (max (2 * M.nnz + 3 * M.numCols + 1) (M.nnz + 3 * M.numCols + 1))),
        ikeep := max s1.ikeep (3 * M.numCols), iw1 := max s1.iw1 (2 * M.numCols),
        nsteps := (L.analyse k.dim p).2.2.2 } (max (size20 (L.analyse k.dim p).2.1) k.nnz) g1.2.2
      refine Ma27.inv_loop fuel _ ?_ ?_ hrs.1 ?_
      · exact hrs.2.2.2.1 ▸ hk
      · show (Ma27.reserve _ _).hsl.dim ≤ (Ma27.reserve _ _).rhsSol.size
        rw [hrs.2.2.2.1, hrs.2.2.2.2]; exact hr
      · refine le_trans ?_ hrs.2.2.1
        rw [hkn]; exact le_max_right _ _
  · have := size20_le (max (2 * M.nnz + 3 * M.numCols + 1) (M.nnz + 3 * M.numCols + 1))
    omega

theorem Ma27.inv_solve [IsStrictOrderedRing K] {L : Ma27Lib H K} (hL : L.Correct) {s : Ma27 H K} {M : Mat K} {b : Vec K}
    (h : Ma27.Inv L s (some M)) (hb : b.WF) (hd : b.dim = M.numRows) :
    (Ma27.solve L s b).Post (fun s' => Ma27.Inv L s' (some M)) fun s' => Ma27.Inv L s' (some M) ∧ M.numRows ≤ s'.rhsSol.size ∧
      SolvesSys M.numRows (symEntry true M) b.value s'.rhsSol.get := by
  obtain ⟨hr, sys, la, liw, hsd, hE, hst, hh⟩ := h.ready M rfl
  have hrs := h.rhs
  unfold Ma27.solve
  rw [if_pos (by omega)]
  obtain ⟨x, e, z, w⟩ := load_spec (b := s.rhsSol) hb (by omega)
  rw [e, hh]
  simp only
  rw [if_pos (by omega)]
  split
  · exact ⟨h.hsl, by show s.hsl.dim ≤ x.size; omega, h.fac, fun M' hm => by cases hm; exact ⟨hr, sys, la, liw, hsd, hE, hst, rfl⟩⟩
  · rename_i hne
    refine ⟨⟨h.hsl, by show s.hsl.dim ≤ x.size; omega, h.fac, fun M' hm => by
      cases hm; exact ⟨hr, sys, la, liw, hsd, hE, hst, rfl⟩⟩, by show M.numRows ≤ x.size; omega, ?_⟩
    have := hL sys la liw x.get hst (not_not.mp hne)
    rw [hsd] at this
    refine solvesSys_congr this hE (fun i hi => w i (by omega)) fun i hi => ?_
    show _ = if i < s.hsl.dim then _ else _
    rw [hr, if_pos hi]

/-! ### MA57 -/

/-- invariant of MA57 -/
structure Ma57.Inv (L : Ma57Lib H K) (s : Ma57 H K) (m : Option (Mat K)) : Prop where
  hsl : s.hsl.Inv
  rhs : s.sol.size = s.rhsSolSize
  ready : ∀ M, m = some M → s.hsl.dim = M.numRows ∧ M.numRows ≤ s.rhsSolSize ∧ M.numRows ≤ s.work ∧ M.numRows ≤ s.iwork ∧
    ∃ sys la liw, sys.dim = M.numRows ∧
    (∀ i < M.numRows, ∀ j < M.numRows, sys.entry i j = symEntry true M i j) ∧
    0 ≤ (L.factor sys la liw).1 ∧ s.handle = some (L.factor sys la liw).2

theorem Ma57.inv_loop {L : Ma57Lib H K} {M : Mat K} (fuel : Nat) : ∀ s : Ma57 H K, s.hsl.Holds M → s.sol.size = s.rhsSolSize →
    M.numRows ≤ s.rhsSolSize → M.numRows ≤ s.work → M.numRows ≤ s.iwork → 5 ≤ s.factorSize → 5 ≤ s.ifactorSize →
    (Ma57.loop L fuel s).Post (fun s' => Ma57.Inv L s' none) fun s' => Ma57.Inv L s' (some M) := by
  induction fuel with
  | zero => intro s _ _ _ _ _ _ _; exact trivial
  | succ fuel ih =>
    intro s hh hr h1 h2 h3 hf hi
    unfold Ma57.loop
    obtain ⟨sys, e1, hd, hE⟩ := hh.sys s.hsl.data hh.dat (by rw [hh.inv.data, ← hh.nnz]; exact hh.le)
    have hf' := size20_lt hf
    have hi' := size20_lt hi
    rw [e1]
    simp only
    split
    · split
      · exact ⟨hh.inv, hr, fun _ hm => by cases hm⟩
      · exact ih _ hh hr h1 h2 h3 (by simp only; omega) hi
    · split
      · split
        · exact ⟨hh.inv, hr, fun _ hm => by cases hm⟩
        · exact ih _ hh hr h1 h2 h3 hf (by simp only; omega)
      · split
        · exact ⟨hh.inv, hr, fun _ hm => by cases hm⟩
        · rename_i hne
          refine ⟨hh.inv, hr, fun M' hm => ?_⟩
          cases hm
          exact ⟨hh.dim, h1, h2, h3, sys, _, _, hd, hE, by omega, rfl⟩

theorem Ma57.reqWork_le {L : Ma57Lib H K} (h : 1 ≤ L.refine) (n : Nat) : n ≤ Ma57.reqWork L n := by
  unfold Ma57.reqWork
  split
  · exact le_rfl
  · split <;> omega

theorem Ma57.inv_set {L : Ma57Lib H K} (hre : 1 ≤ L.refine) (hfc : ∀ n p, 5 ≤ (L.analyse n p).2.1 ∧ 5 ≤ (L.analyse n p).2.2)
    {fuel : Nat} {s : Ma57 H K} {m : Option (Mat K)} {M : Mat K} (h : Ma57.Inv L s m) (hM : M.Fits true) :
    (Ma57.setMatrix L fuel s M).Post (fun s' => Ma57.Inv L s' none) fun s' => Ma57.Inv L s' (some M) := by
  unfold Ma57.setMatrix
  simp only
  have hsq := hM.square
  generalize h1 : (if s.rhsSolSize < M.numCols then { s with sol := s.sol.realloc M.numCols, rhsSolSize := M.numCols } else s) = s1
  have g1 : s1.hsl = s.hsl ∧ M.numRows ≤ s1.rhsSolSize ∧ s1.sol.size = s1.rhsSolSize := by
    have := h.rhs
    subst h1; split
    · exact ⟨rfl, by show M.numRows ≤ M.numCols; omega, rfl⟩
    · exact ⟨rfl, by omega, h.rhs⟩
  obtain ⟨k, e, hk⟩ := Hsl.set_spec (g1.1 ▸ h.hsl : s1.hsl.Inv) hM
  obtain ⟨p, hp⟩ := hk.pattern
  have hkd := hk.dim
  have hkn := hk.nnz
  have hw := Ma57.reqWork_le hre M.numCols
  have hf := hfc k.dim p
  rw [e]
  simp only [hp]
  rw [if_pos]
  · split
    · exact ⟨hk.inv, g1.2.2, fun _ hm => by cases hm⟩
    · exact Ma57.inv_loop fuel _ hk g1.2.2 g1.2.1 (by simp only; omega) (by simp only; omega) (by simp only; omega) (by simp only; omega)
  · omega

theorem Ma57.inv_solve [IsStrictOrderedRing K] {L : Ma57Lib H K} (hL : L.Correct)
    (hrank : ∀ sys la lia, (L.factor sys la lia).1 ≠ 4) {s : Ma57 H K} {M : Mat K} {b : Vec K}
    (h : Ma57.Inv L s (some M)) (hb : b.WF) (hd : b.dim = M.numRows) :
    (Ma57.solve L s b).Post (fun s' => Ma57.Inv L s' (some M)) fun s' => Ma57.Inv L s' (some M) ∧ M.numRows ≤ s'.sol.size ∧
      SolvesSys M.numRows (symEntry true M) b.value s'.sol.get := by
  obtain ⟨hr, h1, h2, h3, sys, la, liw, hsd, hE, hst, hh⟩ := h.ready M rfl
  have hrs := h.rhs
  unfold Ma57.solve
  rw [if_pos (by omega)]
  obtain ⟨x, e, z, w⟩ := load_spec (b := s.sol) hb (by omega)
  rw [e, hh]
  simp only
  rw [if_pos (by omega)]
  have hinv : ∀ y : Nat → K, Ma57.Inv L { s with sol := x.fillBy s.hsl.dim y } (some M) := fun y =>
    ⟨h.hsl, by show x.size = s.rhsSolSize; omega, fun M' hm => by cases hm; exact ⟨hr, h1, h2, h3, sys, la, liw, hsd, hE, hst, hh⟩⟩
  split
  · exact hh ▸ hinv _
  · rename_i hne
    refine ⟨hh ▸ hinv _, by show M.numRows ≤ x.size; omega, ?_⟩
    have := hL sys la liw x.get hst (hrank _ _ _) (not_lt.mp hne)
    rw [hsd] at this
    refine solvesSys_congr this hE (fun i hi => w i (by omega)) fun i hi => ?_
    show _ = if i < s.hsl.dim then _ else _
    rw [hr, if_pos hi]

/-! ### MA86 and MA97 -/

/-- invariant of MA86 and MA97 -/
structure Ma86.Inv (L : Ma86Lib H K) (s : Ma86 H K) (m : Option (Mat K)) : Prop where
  order : s.order = s.maxDim
  rhs : s.rhsSol.size = s.maxDim
  ready : ∀ M, m = some M → M.Fits true ∧ s.dim = M.numRows ∧ M.numRows ≤ s.maxDim ∧
    0 ≤ (L.order M.csc).stat ∧ 0 ≤ (L.analyse M.csc).stat ∧ 0 ≤ (L.factor M.csc).1.stat ∧ s.handle = some (L.factor M.csc).2

theorem Ma86.inv_set {L : Ma86Lib H K} {s : Ma86 H K} {m : Option (Mat K)} {M : Mat K} (h : Ma86.Inv L s m) (hM : M.Fits true) :
    (Ma86.setMatrix L s M).Post (fun s' => Ma86.Inv L s' none) fun s' => Ma86.Inv L s' (some M) := by
  unfold Ma86.setMatrix
  rw [if_pos hM.square.symm]
  simp only
  have hsq := hM.square
  generalize h1 : (if s.maxDim < M.numCols then
    { s with order := M.numCols, rhsSol := s.rhsSol.realloc M.numCols, maxDim := M.numCols } else s) = s1
  have g1 : s1.order = s1.maxDim ∧ s1.rhsSol.size = s1.maxDim ∧ M.numRows ≤ s1.maxDim := by
    subst h1; split
    · exact ⟨rfl, rfl, by show M.numRows ≤ M.numCols; omega⟩
    · exact ⟨h.order, h.rhs, by omega⟩
  rw [if_pos (by omega)]
  split
  · exact ⟨g1.1, g1.2.1, fun _ hm => by cases hm⟩
  · split
    · exact ⟨g1.1, g1.2.1, fun _ hm => by cases hm⟩
    · split
      · exact ⟨g1.1, g1.2.1, fun _ hm => by cases hm⟩
      · refine ⟨g1.1, g1.2.1, fun M' hm => ?_⟩
        cases hm
        exact ⟨hM, hsq.symm, g1.2.2, by omega, by omega, by omega, rfl⟩

theorem csc_lower {M : Mat K} (hM : M.Fits true) {i j : Nat} (hi : i < M.numRows) (hj : j < M.numRows) :
    M.csc.lowerEntry i j = symEntry true M i j := by
  have hsq := hM.square
  unfold CscSys.lowerEntry symEntry
  by_cases h : i < j
  · rw [if_pos h, if_pos ⟨rfl, h⟩, csc_entry hM.wf j (by omega)]
  · rw [if_neg h, if_neg fun g => h g.2, csc_entry hM.wf i (by omega)]

theorem Ma86.inv_solve [IsStrictOrderedRing K] {L : Ma86Lib H K} (hL : L.Correct)
    (ho : ∀ sys, 0 ≤ (L.order sys).stat → 0 ≤ (L.order sys).flag)
    (ha : ∀ sys, 0 ≤ (L.analyse sys).stat → 0 ≤ (L.analyse sys).flag)
    (hf : ∀ sys, 0 ≤ (L.factor sys).1.stat → 0 ≤ (L.factor sys).1.flag)
    (hs : ∀ k x, 0 ≤ (L.solve k x).1.stat → 0 ≤ (L.solve k x).1.flag) {s : Ma86 H K} {M : Mat K} {b : Vec K}
    (h : Ma86.Inv L s (some M)) (hb : b.WF) (hd : b.dim = M.numRows) :
    (Ma86.solve L s b).Post (fun s' => Ma86.Inv L s' (some M)) fun s' => Ma86.Inv L s' (some M) ∧ M.numRows ≤ s'.rhsSol.size ∧
      SolvesSys M.numRows (symEntry true M) b.value s'.rhsSol.get := by
  obtain ⟨hM, hr, h1, h2, h3, h4, hh⟩ := h.ready M rfl
  have hrs := h.rhs
  unfold Ma86.solve
  rw [if_pos (by omega)]
  obtain ⟨x, e, z, w⟩ := load_spec (b := s.rhsSol) hb (by omega)
  rw [e, hh]
  simp only
  rw [if_pos (by omega)]
  have hinv : ∀ y : Nat → K, Ma86.Inv L { s with rhsSol := x.fillBy s.dim y } (some M) := fun y =>
    ⟨h.order, by show x.size = s.maxDim; omega, fun M' hm => by cases hm; exact ⟨hM, hr, h1, h2, h3, h4, hh⟩⟩
  split
  · exact hh ▸ hinv _
  · rename_i hne
    refine ⟨hh ▸ hinv _, by show M.numRows ≤ x.size; omega, ?_⟩
    have := hL M.csc x.get hM.square (ho _ h2) (ha _ h3) (hf _ h4) (hs _ _ (not_lt.mp hne))
    refine solvesSys_congr (n := M.numRows) this (fun i hi j hj => csc_lower hM hi hj) (fun i hi => w i (by omega)) fun i hi => ?_
    show _ = if i < s.dim then _ else _
    rw [hr, if_pos hi]

end Sleqp
