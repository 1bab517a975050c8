import Verif.Lemmas.FactBackendsSparse
import Verif.Spec.Spqr
import Mathlib.Algebra.BigOperators.Ring.Finset

/-! Invariants of SPQR. -/

namespace Sleqp
open Finset
variable {K : Type*} [Field K] [LinearOrder K] {H : Type*}

/-- the state between two operations -/
structure Spqr.Ready (s : Spqr H K) (m n : Nat) (h : H) : Prop where
  shape : s.shape = some (m, n)
  rhs : ∃ nr z, s.rhs = some (nr, z) ∧ nr ≤ z.size ∧ m ≤ z.size ∧ ∀ k < z.size, z.get k = 0
  sparse : ∀ sp, s.sparse = some sp → sp.ptr.size = n + 1 ∧ sp.row.size = sp.nzmax ∧ sp.val.size = sp.nzmax
  handle : s.handle = some h

theorem value_beyond {v : Vec K} (hv : v.WF) {k : Nat} (h : v.dim ≤ k) : v.value k = 0 := by
  unfold Vec.value valAt
  rw [at?_none_of_forall fun e he hk => by have := hv.lt_dim e he; omega]
  rfl

theorem Spqr.setSol_some (s : Spqr H K) (y : Buf K) : s.setSol (some y) = { s with sol := some y } := rfl

/-- an operation which does not fail -/
theorem Spqr.op_spec {s : Spqr H K} {m n : Nat} {h : H} (hs : s.Ready m n h) {b : Vec K} (hb : b.WF) {nrow d : Nat} (hd : b.dim ≤ m)
    (hn : nrow ≤ m) {f : H → (Nat → K) → Option (Buf K)} (hf : ∀ x, f h x ≠ none) (hsz : ∀ x y, f h x = some y → d ≤ y.size) :
    ∃ s' x y, s.op b nrow d f = .okay (s', y.get) ∧ s'.Ready m n h ∧ f h x = some y ∧ ∀ k < m, x k = b.value k := by
  obtain ⟨nr, z0, hr, h1, h2, hz⟩ := hs.rhs
  obtain ⟨z, e, zs, zv, z', e', zs', zv'⟩ := cache_spec (b := z0) hb (by omega) hz
  obtain ⟨y, hy⟩ := Option.ne_none_iff_exists'.mp (hf z.get)
  have hw : s.withRhs b nrow f = some { s with rhs := some (nrow, z'), sol := some y } := by
    unfold Spqr.withRhs
    rw [hr, Option.bind_some]
    simp only
    rw [e, Option.bind_some, hs.handle, Option.bind_some, if_pos (by omega), e', hy]
    rfl
  refine ⟨{ s with rhs := some (nrow, z'), sol := some y }, z.get, y, ?_, ⟨hs.shape, ⟨nrow, z', rfl, by omega, by omega, fun k hk => zv' k (by omega)⟩,
    hs.sparse, hs.handle⟩, hy, fun k hk => zv k (by omega)⟩
  unfold Spqr.op Spqr.read
  rw [hw]
  simp only
  rw [if_pos (hsz _ _ hy)]

/-- the first part of `spqr_qr_mult_orth_trans` and of `spqr_fact_solve` -/
theorem Spqr.begin_spec {s : Spqr H K} {m n : Nat} {h : H} (hs : s.Ready m n h) {b : Vec K} (hb : b.WF) (hd : b.dim = m) :
    ∃ z z', (s.rhs.bind fun r => (r.2.setCache b).bind fun z => s.handle.bind fun h => if b.dim ≤ z.size then some (z, h) else none)
        = some (z, h) ∧ (∀ k < m, z.get k = b.value k) ∧ z.resetCache b = some z' ∧ m ≤ z'.size ∧ ∀ k < z'.size, z'.get k = 0 := by
  obtain ⟨nr, z0, hr, h1, h2, hz⟩ := hs.rhs
  obtain ⟨z, e, zs, zv, z', e', zs', zv'⟩ := cache_spec (b := z0) hb (by omega) hz
  refine ⟨z, z', ?_, fun k hk => zv k (by omega), e', by omega, fun k hk => zv' k (by omega)⟩
  rw [hr, Option.bind_some]
  simp only
  rw [e, Option.bind_some, hs.handle, Option.bind_some, if_pos (by omega)]

theorem Spqr.solveTri_spec {L : SpqrLib H K} (hT : L.Total) {s : Spqr H K} {m n : Nat} {h : H} (hs : s.Ready m n h) (hmn : n ≤ m)
    {Q R : Nat → Nat → K} {E : Nat → Nat} (hL : L.Serves h m n Q R E) {b : Vec K} (hb : b.WF) (hd : b.dim = n) :
    ∃ s' x, Spqr.solveTri L s b n = .okay (s', x) ∧ s'.Ready m n h ∧ ∀ k < n, ∑ l ∈ range n, R k l * x l = b.value k := by
  unfold Spqr.solveTri
  rw [hs.shape]
  simp only
  obtain ⟨s', x, y, h1, h2, h3, h4⟩ := Spqr.op_spec hs hb (nrow := m) (d := n) (f := fun h x => L.solve .rx h m x) (by omega) le_rfl
    (fun x => hT.2 _ _ _ _) fun x y hy => (hL.rx x y hy).1
  exact ⟨s', y.get, h1, h2, fun k hk => by rw [(hL.rx x y h3).2 k hk, h4 k (by omega)]⟩

theorem Spqr.solveTriTrans_spec {L : SpqrLib H K} (hT : L.Total) {s : Spqr H K} {m n : Nat} {h : H} (hs : s.Ready m n h) (hmn : n ≤ m)
    {Q R : Nat → Nat → K} {E : Nat → Nat} (hL : L.Serves h m n Q R E) {b : Vec K} (hb : b.WF) (hd : b.dim = n) :
    ∃ s' x, Spqr.solveTriTrans L s b n = .okay (s', x) ∧ s'.Ready m n h ∧ ∀ k < n, ∑ l ∈ range n, R l k * x l = b.value k := by
  unfold Spqr.solveTriTrans
  rw [hd]
  obtain ⟨s', x, y, h1, h2, h3, h4⟩ := Spqr.op_spec hs hb (nrow := n) (d := n) (f := fun h x => L.solve .rtx h n x) (by omega) hmn
    (fun x => hT.2 _ _ _ _) fun x y hy => (hL.rtx x y hy).1
  exact ⟨s', y.get, h1, h2, fun k hk => by rw [(hL.rtx x y h3).2 k hk, h4 k (by omega)]⟩

theorem Spqr.multOrth_spec {L : SpqrLib H K} (hT : L.Total) {s : Spqr H K} {m n : Nat} {h : H} (hs : s.Ready m n h)
    {Q R : Nat → Nat → K} {E : Nat → Nat} (hL : L.Serves h m n Q R E) {b : Vec K} (hb : b.WF) (hd : b.dim = m) :
    ∃ s' x, Spqr.multOrth L s b m = .okay (s', x) ∧ s'.Ready m n h ∧ ∀ i < m, x i = ∑ l ∈ range m, Q i l * b.value l := by
  unfold Spqr.multOrth
  rw [hs.shape]
  simp only
  obtain ⟨s', x, y, h1, h2, h3, h4⟩ := Spqr.op_spec hs hb (nrow := m) (d := m) (f := fun h x => L.qmult false h m x) (by omega) le_rfl
    (fun x => hT.1 _ _ _ _) fun x y hy => (hL.qx x y hy).1.ge
  refine ⟨s', y.get, h1, h2, fun i hi => ?_⟩
  rw [(hL.qx x y h3).2 i hi]
  exact sum_congr rfl fun l hl => by rw [h4 l (mem_range.mp hl)]

theorem Spqr.multOrthTrans_spec {L : SpqrLib H K} (hT : L.Total) {s : Spqr H K} {m n : Nat} {h : H} (hs : s.Ready m n h)
    {Q R : Nat → Nat → K} {E : Nat → Nat} (hL : L.Serves h m n Q R E) {b : Vec K} (hb : b.WF) (hd : b.dim = m) :
    ∃ s' x, Spqr.multOrthTrans L s b m = .okay (s', x) ∧ s'.Ready m n h ∧ ∀ i < m, x i = ∑ l ∈ range m, Q l i * b.value l := by
  obtain ⟨z, z', e, hv, e', hm, hz⟩ := Spqr.begin_spec hs hb hd
  obtain ⟨y, hy⟩ := Option.ne_none_iff_exists'.mp (hT.1 true h m z.get)
  obtain ⟨hsz, hq⟩ := hL.qtx _ _ hy
  unfold Spqr.multOrthTrans
  rw [e]
  simp only
  rw [hd, hy, Spqr.setSol_some]
  simp only [Option.isNone_some, Bool.false_eq_true, if_false]
  rw [e']
  simp only
  unfold Spqr.read
  simp only
  rw [if_pos hsz.ge]
  refine ⟨_, _, rfl, ⟨hs.shape, ⟨m, z', rfl, hm, hm, hz⟩, hs.sparse, hs.handle⟩, fun i hi => ?_⟩
  rw [hq i hi]
  exact sum_congr rfl fun l hl => by rw [hv l (mem_range.mp hl)]

/-! ### Setting a matrix -/

/-- invariant of SPQR -/
structure Spqr.Inv (L : SpqrLib H K) (s : Spqr H K) (m : Option (Mat K)) : Prop where
  rhs : ∀ nr z, s.rhs = some (nr, z) → nr ≤ z.size ∧ ∀ k < z.size, z.get k = 0
  sparse : ∀ r c sp, s.shape = some (r, c) → s.sparse = some sp →
    sp.ptr.size = c + 1 ∧ sp.row.size = sp.nzmax ∧ sp.val.size = sp.nzmax
  ready : ∀ M, m = some M → M.Tall ∧ ∃ h sys, s.Ready M.numRows M.numCols h ∧ L.factor sys = some h ∧
    sys.numRows = M.numRows ∧ sys.numCols = M.numCols ∧ ∀ i, ∀ j < M.numCols, sys.entry i j = M.value i j

theorem Spqr.Ready.inv {L : SpqrLib H K} {s s' : Spqr H K} {M : Mat K} (hi : Spqr.Inv L s (some M)) {h : H}
    (hh : s.handle = some h) (hs : s'.Ready M.numRows M.numCols h) : Spqr.Inv L s' (some M) := by
  obtain ⟨hM, h', sys, hr, hf, h1, h2, h3⟩ := hi.ready M rfl
  have : h' = h := by
    have := hr.handle
    rw [hh] at this
    exact (Option.some.inj this).symm
  subst this
  refine ⟨fun nr z hz => ?_, fun r c sp hsh hsp => ?_, fun M' hm => ?_⟩
  · obtain ⟨nr', z', e, g1, g2, g3⟩ := hs.rhs
    rw [hz] at e
    cases e
    exact ⟨g1, g3⟩
  · rw [hs.shape] at hsh
    cases hsh
    exact hs.sparse sp hsp
  · cases hm
    exact ⟨hM, h', sys, hs, hf, h1, h2, h3⟩

theorem Spqr.shape_spec {L : SpqrLib H K} {s : Spqr H K} {m : Option (Mat K)} (h : Spqr.Inv L s m) {r c : Nat} (hrc : c ≤ r) (n : Nat) :
    ∃ s1 sp nr z, s.updateShape r c n = s1 ∧ s1.shape = some (r, c) ∧ s1.sparse = some sp ∧ sp.ptr.size = c + 1 ∧
      sp.row.size = sp.nzmax ∧ sp.val.size = sp.nzmax ∧ n ≤ sp.nzmax ∧ s1.rhs = some (nr, z) ∧ nr ≤ z.size ∧ r ≤ z.size ∧
      ∀ k < z.size, z.get k = 0 := by
  obtain ⟨nr, z, hz1, hz2, hz3, hz4⟩ : ∃ nr z, (s.updateShape r c n).rhs = some (nr, z) ∧ nr ≤ z.size ∧ r ≤ z.size ∧
      ∀ k < z.size, z.get k = 0 := by
    unfold Spqr.updateShape
    simp only
    have hmax : max r c = r := max_eq_left hrc
    rw [hmax]
    split
    · exact ⟨r, _, rfl, le_rfl, le_rfl, fun _ _ => rfl⟩
    · rename_i hne
      obtain ⟨p, hp, hpr⟩ := Option.map_eq_some_iff.mp (not_not.mp hne)
      obtain ⟨p1, p2⟩ := p
      simp only at hpr
      subst hpr
      have := h.rhs _ _ hp
      exact ⟨p1, p2, hp, this.1, this.1, this.2⟩
  obtain ⟨sp, hs1, hs2, hs3, hs4, hs5⟩ : ∃ sp, (s.updateShape r c n).sparse = some sp ∧ sp.ptr.size = c + 1 ∧
      sp.row.size = sp.nzmax ∧ sp.val.size = sp.nzmax ∧ n ≤ sp.nzmax := by
    refine ⟨_, rfl, ?_⟩
    split
    · rename_i sp hsp
      split
      · exact ⟨rfl, rfl, rfl, le_rfl⟩
      · rename_i hne
        have := h.sparse _ _ _ (not_not.mp hne) hsp
        split
        · exact ⟨this.1, rfl, rfl, le_rfl⟩
        · exact ⟨this.1, this.2.1, this.2.2, by omega⟩
    · exact ⟨rfl, rfl, rfl, le_rfl⟩
  exact ⟨_, sp, nr, z, rfl, rfl, hs1, hs2, hs3, hs4, hs5, hz1, hz2, hz3, hz4⟩

theorem Spqr.inv_set {L : SpqrLib H K} {s : Spqr H K} {m : Option (Mat K)} {M : Mat K} (h : Spqr.Inv L s m) (hM : M.Tall) :
    (Spqr.setMatrix L s M).Post (fun s' => Spqr.Inv L s' none) fun s' => Spqr.Inv L s' (some M) := by
  obtain ⟨s1, sp, nr, z, e, h1, h2, h3, h4, h5, h6, h7, h8, h9, h10⟩ := Spqr.shape_spec h hM.tall M.nnz
  unfold Spqr.setMatrix
  rw [if_pos hM.tall]
  simp only
  rw [e, h2, Option.bind_some]
  obtain ⟨p, e1, z1, w1⟩ := writeRange_spec sp.ptr (M.numCols + 1) M.ptr (by omega)
  obtain ⟨r, e2, z2, w2⟩ := writeRange_spec sp.row M.nnz M.row (by omega)
  obtain ⟨v, e3, z3, w3⟩ := writeRange_spec sp.val M.nnz M.val (by omega)
  have hfill : sp.fill M = some { sp with ptr := p, row := r, val := v } := by
    unfold CholSparse.fill
    rw [e1, Option.bind_some, e2, Option.bind_some, e3]; rfl
  rw [hfill]
  simp only
  have hrhs : ∀ nr' z', s1.rhs = some (nr', z') → nr' ≤ z'.size ∧ ∀ k < z'.size, z'.get k = 0 := by
    intro nr' z' hz
    rw [h7] at hz
    cases hz
    exact ⟨h8, h10⟩
  have hsp' : ∀ sp', some ({ sp with ptr := p, row := r, val := v } : CholSparse K) = some sp' →
      sp'.ptr.size = M.numCols + 1 ∧ sp'.row.size = sp'.nzmax ∧ sp'.val.size = sp'.nzmax := by
    intro sp' he
    cases he
    exact ⟨by show p.size = _; omega, by show r.size = sp.nzmax; omega, by show v.size = sp.nzmax; omega⟩
  have hsp : ∀ r' c' sp', s1.shape = some (r', c') → some ({ sp with ptr := p, row := r, val := v } : CholSparse K) = some sp' →
      sp'.ptr.size = c' + 1 ∧ sp'.row.size = sp'.nzmax ∧ sp'.val.size = sp'.nzmax := by
    intro r' c' sp' hs he
    rw [h1] at hs
    cases hs
    exact hsp' sp' he
  split
  · exact ⟨hrhs, hsp, fun _ hm => by cases hm⟩
  · rename_i hne
    refine ⟨hrhs, hsp, fun M' hm => ?_⟩
    cases hm
    obtain ⟨hh, hhe⟩ := Option.ne_none_iff_exists'.mp (by simpa using hne)
    exact ⟨hM, hh, _, ⟨h1, ⟨nr, z, h7, h8, h9, h10⟩, hsp', hhe⟩, hhe, rfl, rfl, fun i j hj =>
      csc_entry_congr hM.wf (s := ⟨M.numRows, M.numCols, p.get, r.get, v.get⟩) (fun j hj => w1 j (by omega)) w2 w3 i hj⟩

/-! ### Square matrices -/

theorem sum_perm {n : Nat} {E : Nat → Nat} (hE : PermutesBelow n E) (f : Nat → K) :
    ∑ j ∈ range n, f j = ∑ k ∈ range n, f (E k) := by
  have himg : (range n).image E = range n := by
    apply Finset.eq_of_subset_of_card_le
    · intro x hx
      obtain ⟨k, hk, rfl⟩ := mem_image.mp hx
      exact mem_range.mpr (hE.1 k (mem_range.mp hk))
    · rw [card_image_of_injOn]
      intro a ha b hb hab
      exact hE.2 a (by simpa using ha) b (by simpa using hb) hab
  conv_lhs => rw [← himg]
  rw [sum_image]
  intro a ha b hb hab
  exact hE.2 a (by simpa using ha) b (by simpa using hb) hab

theorem qr_solves {n : Nat} {A Q R : Nat → Nat → K} {E : Nat → Nat} (h : IsQr n n A Q R E) {b y x : Nat → K}
    (hy : ∀ i < n, y i = ∑ l ∈ range n, Q l i * b l) (hx : ∀ k < n, ∑ l ∈ range n, R k l * x (E l) = y k) : SolvesSys n A b x := by
  intro i hi
  rw [sum_perm h.perm fun j => A i j * x j]
  have h1 : ∑ k ∈ range n, A i (E k) * x (E k) = ∑ l ∈ range n, Q i l * y l := by
    have : ∀ k ∈ range n, A i (E k) * x (E k) = ∑ l ∈ range n, Q i l * (R l k * x (E k)) := by
      intro k hk
      rw [h.prod i hi k (mem_range.mp hk), sum_mul]
      exact sum_congr rfl fun l _ => by ring
    rw [sum_congr rfl this, sum_comm]
    exact sum_congr rfl fun l hl => by rw [← mul_sum, hx l (mem_range.mp hl)]
  rw [h1]
  have h2 : ∀ l ∈ range n, Q i l * y l = ∑ j ∈ range n, Q i l * Q j l * b j := by
    intro l hl
    rw [hy l (mem_range.mp hl), mul_sum]
    exact sum_congr rfl fun j _ => by ring
  rw [sum_congr rfl h2, sum_comm]
  have h3 : ∀ j ∈ range n, ∑ l ∈ range n, Q i l * Q j l * b j = if i = j then b j else 0 := by
    intro j hj
    rw [← sum_mul, h.rows i hi j (mem_range.mp hj)]
    split
    · rw [one_mul]
    · rw [zero_mul]
  rw [sum_congr rfl h3, sum_ite_eq, if_pos (mem_range.mpr hi)]

theorem Spqr.inv_solve {L : SpqrLib H K} (hL : L.Correct) (hR : L.Rejects) (hT : L.Total) {s : Spqr H K} {M : Mat K} {b : Vec K}
    (h : Spqr.Inv L s (some M)) (hsq : M.numRows = M.numCols) (hb : b.WF) (hd : b.dim = M.numRows) :
    (Spqr.factSolve L s b).Post (fun s' => Spqr.Inv L s' (some M)) fun s' => Spqr.Inv L s' (some M) ∧
      M.numRows ≤ (s'.sol.getD ⟨0, fun _ => 0⟩).size ∧
      SolvesSys M.numRows (symEntry false M) b.value (s'.sol.getD ⟨0, fun _ => 0⟩).get := by
  obtain ⟨hM, k, sys, hr, hf, h1, h2, h3⟩ := h.ready M rfl
  obtain ⟨Q, R, E, hq, hv⟩ := hL sys k (by rw [h1, h2]; exact hM.tall) (hR _ _ hf) hf
  obtain ⟨z, z', e, hz, e', hm, hz0⟩ := Spqr.begin_spec hr hb hd
  obtain ⟨y, hy⟩ := Option.ne_none_iff_exists'.mp (hT.1 true k M.numRows z.get)
  rw [h1, h2] at hv hq
  rw [← hsq] at hq
  obtain ⟨hys, hyv⟩ := hv.qtx _ _ hy
  obtain ⟨x, hx⟩ := Option.ne_none_iff_exists'.mp (hT.2 .retx k M.numRows y.get)
  obtain ⟨hxs, hxv⟩ := hv.retx _ _ hx
  unfold Spqr.factSolve
  rw [e]
  simp only
  rw [hd, hy]
  simp only
  rw [hys, hx, e', Spqr.setSol_some]
  refine ⟨Spqr.Ready.inv h hr.handle ⟨hr.shape, ⟨M.numRows, z', rfl, hm, hm, hz0⟩, hr.sparse, hr.handle⟩, by
    show M.numRows ≤ x.size; omega, ?_⟩
  show SolvesSys M.numRows _ _ x.get
  rw [← hsq] at hxv
  refine solvesSys_congr (qr_solves hq hyv hxv) (fun i _ j hj => ?_) hz fun _ _ => rfl
  rw [h3 i j (by omega)]
  unfold symEntry
  rw [if_neg fun g => absurd g.1 Bool.false_ne_true]

end Sleqp
