import Verif.Spec.Trlib
import Verif.Lemmas.QnVec
import Verif.Lemmas.Steihaug
import Verif.Lemmas.RestorePrep
import Verif.Props.MatRemove

/-! The memory of the trlib solver holds the vectors of the documented protocol. -/

namespace Sleqp
variable {K : Type*} [Field K] [LinearOrder K] {n : Nat}
open Matrix

/-- the matrix has the given columns -/
structure HasCols (n : Nat) (Q : Mat K) (k : Nat) (X : Nat → Fin n → K) : Prop where
  wf : Q.WF
  rows : Q.numRows = n
  cols : Q.numCols = k
  val : ∀ j < k, ∀ i : Fin n, Q.value i j = X j i

/-- appending a scaled column -/
theorem trlibPush_spec {Q : Mat K} {k : Nat} {X : Nat → Fin n → K} (h : HasCols n Q k X) {v : Vec K} (hv : VOk n v) (f : K) :
    ∃ Q', trlibPush Q v f = some Q' ∧ HasCols n Q' (k + 1) (Function.update X k (f • dense n v)) := by
  have hr : (Q.reserve (Q.nnz + v.nnz)).WF :=
    ⟨h.wf.ptr_zero, h.wf.ptr_mono, h.wf.ptr_last, le_trans h.wf.le_cap (le_max_left _ _), h.wf.srt, h.wf.lt_rows⟩
  obtain ⟨r1, r2, r3, r4, r5⟩ := Mat.resize_wf (Q.reserve (Q.nnz + v.nnz)) Q.numRows (Q.numCols + 1) hr
    (fun j hj e he => h.wf.lt_rows j (lt_of_lt_of_le hj (min_le_right _ _)) e he)
  have hR : (Q.reserve (Q.nnz + v.nnz)).resize Q.numRows (Q.numCols + 1) =
      (Q.reserve (Q.nnz + v.nnz)).resize Q.numRows (Q.numCols + 1) := rfl
  generalize hRR : (Q.reserve (Q.nnz + v.nnz)).resize Q.numRows (Q.numCols + 1) = R at r1 r2 r3 r4 r5 hR
  have hnnz : R.nnz = Q.nnz := by
    rw [← hRR]; unfold Mat.resize; rw [if_pos (show (Q.reserve (Q.nnz + v.nnz)).numCols < Q.numCols + 1 from Nat.lt_succ_self _)]; rfl
  have hcap : R.cap = max Q.cap (Q.nnz + v.nnz) := by
    rw [← hRR]; unfold Mat.resize; rw [if_pos (show (Q.reserve (Q.nnz + v.nnz)).numCols < Q.numCols + 1 from Nat.lt_succ_self _)]; rfl
  have hlast := r1.ptr_last
  rw [r3] at hlast
  have hlen : (v.ents.map fun e => (e.1, e.2 * f)).length = v.nnz := List.length_map _
  obtain ⟨Q', p1, p2, p3, p4, p5, p6, p7, p8⟩ := Mat.pushAll_spec R Q.numCols (v.ents.map fun e => (e.1, e.2 * f)) (by omega)
    (by
      intro e he
      obtain ⟨e0, he0, rfl⟩ := List.mem_map.mp he
      have := hv.1.lt_dim e0 he0
      rw [r2, h.rows, ← hv.2]; exact this)
    (by rw [hlen, hnnz, hcap]; exact le_max_right _ _)
  have hcl : R.ptr Q.numCols = R.nnz := by
    have h5 := r5 Q.numCols le_rfl (by omega)
    have hl : (R.col Q.numCols).length = 0 := by rw [h5]; rfl
    rw [Mat.col_length] at hl
    have := r1.ptr_mono Q.numCols (by omega)
    omega
  have hold : ∀ j < Q.numCols, Q'.col j = Q.col j := by
    intro j hj
    rw [show Q.col j = R.col j from (r4 j (lt_min (by omega) hj)).symm]
    refine Mat.col_congr ?_ ?_ ?_
    · rw [p6, if_neg (by omega)]
    · rw [p6, if_neg (by omega)]
    · intro i _ hi
      have := r1.ptr_le_nnz (j := j + 1) (by omega)
      exact p7 i (by omega)
  have hnew : Q'.col Q.numCols = v.ents.map fun e => (e.1, e.2 * f) := by
    unfold Mat.col
    rw [p6, p6, if_neg (by omega), if_pos rfl, hlast, hcl]
    rw [show R.nnz + (v.ents.map fun e => (e.1, e.2 * f)).length - R.nnz = (v.ents.map fun e => (e.1, e.2 * f)).length by omega]
    exact p8
  have hsrt : Srt (v.ents.map fun e => (e.1, e.2 * f)) := by
    have := hv.1.srt
    unfold Srt at this ⊢
    rw [List.pairwise_map]
    exact this
  refine ⟨Q', by rw [← hRR] at p1; exact p1, ⟨⟨?_, ?_, ?_, ?_, ?_, ?_⟩, by rw [p2, r2, h.rows], by rw [p3, r3, h.cols], ?_⟩⟩
  · rw [p6, if_neg (by omega)]; exact r1.ptr_zero
  · intro j hj
    rw [p3, r3] at hj
    by_cases he : j = Q.numCols
    · subst he
      rw [p6, p6, if_neg (by omega), if_pos rfl, hcl, hlast]; omega
    · rw [p6, p6, if_neg (by omega), if_neg (by omega)]; exact r1.ptr_mono j (by omega)
  · rw [p3, r3, p6, if_pos rfl, p5, hlast]
  · rw [p5, p4, hlen, hcap, hnnz]; exact le_max_right _ _
  · intro j hj
    rw [p3, r3] at hj
    by_cases he : j = Q.numCols
    · subst he; rw [hnew]; exact hsrt
    · rw [hold j (by omega)]; exact h.wf.srt j (by omega)
  · intro j hj e he
    rw [p3, r3] at hj
    rw [p2, r2]
    by_cases hjc : j = Q.numCols
    · subst hjc; rw [hnew] at he
      obtain ⟨e0, he0, rfl⟩ := List.mem_map.mp he
      have := hv.1.lt_dim e0 he0
      rw [h.rows, ← hv.2]; exact this
    · rw [hold j (by omega)] at he; exact h.wf.lt_rows j (by omega) e he
  · intro j hj i
    by_cases hjc : j = k
    · subst hjc
      rw [Function.update_self]
      unfold Mat.value
      rw [← h.cols, hnew]
      show valAt _ _ = f * v.value i
      have hmap : ∀ l : List (Nat × K), valAt (l.map fun e => (e.1, e.2 * f)) i = f * valAt l i := by
        intro l
        unfold valAt
        induction l with
        | nil => simp [at?, orZero]
        | cons a t ih =>
          simp only [List.map_cons, at?]
          split
          · simp [orZero, mul_comm]
          · exact ih
      exact hmap _
    · rw [Function.update_of_ne hjc]
      unfold Mat.value
      rw [hold j (by have := h.cols; omega)]
      exact h.val j (by omega) i

/-- dropping the last column if it is to be set again -/
theorem trlibTrim_spec {Q : Mat K} {k : Nat} {X : Nat → Fin n → K} (h : HasCols n Q k X) {iter : Nat} (hi : iter = k ∨ iter + 1 = k) :
    ∃ Q', trlibTrim Q iter = some Q' ∧ HasCols n Q' iter X := by
  unfold trlibTrim
  have hc := h.cols
  by_cases he : iter + 1 = Q.numCols
  · obtain ⟨r1, r2, r3, r4, r5⟩ := Mat.resize_wf Q Q.numRows iter h.wf
      (fun j hj e he => h.wf.lt_rows j (lt_of_lt_of_le hj (min_le_right _ _)) e he)
    simp only [if_pos he]
    refine ⟨_, if_pos r3.symm, ⟨r1, by rw [r2, h.rows], r3, fun j hj i => ?_⟩⟩
    unfold Mat.value
    rw [r4 j (lt_min hj (by omega))]
    exact h.val j (by omega) i
  · simp only [if_neg he]
    have : iter = Q.numCols := by omega
    exact ⟨_, if_pos this, ⟨h.wf, h.rows, this.symm, fun j hj i => h.val j (by omega) i⟩⟩

/-- the memory holds the vectors of the protocol -/
structure TrlibMem.Holds (m : TrlibMem K) (x : TrlibSt n K) : Prop where
  s : VOk n m.s
  g : VOk n m.g
  gm : VOk n m.gm
  v : VOk n m.v
  p : VOk n m.p
  Hp : VOk n m.Hp
  ds : dense n m.s = x.s
  dg : dense n m.g = x.g
  dgm : dense n m.gm = x.gm
  dv : dense n m.v = x.v
  dp : dense n m.p = x.p
  dHp : dense n m.Hp = x.Hp
  Q : HasCols n m.Q x.cols x.Q
  gg : m.gg = x.gg
  vg : m.vg = x.vg
  pHp : m.pHp = x.pHp

theorem dense_clear (v : Vec K) : dense n v.clear = 0 := by
  funext i; rfl

omit [Field K] [LinearOrder K] in
theorem clear_ok {v : Vec K} (h : v.dim = n) : VOk n v.clear :=
  ⟨⟨by simp [Vec.clear, Srt], by simp [Vec.clear], by simp [Vec.clear]⟩, h⟩

/-- `copy` with its dense value -/
theorem copy_dense {v t : Vec K} (hv : VOk n v) (ht : t.dim = n) :
    ∃ r, Vec.copy v t = some r ∧ VOk n r ∧ dense n r = dense n v := by
  obtain ⟨r, h1, h2, h3⟩ := copy_spec hv ht
  exact ⟨r, h1, h2, dense_of_ents h3⟩

theorem trlibInit_spec [IsStrictOrderedRing K] {q : TrProblem n K} {e : TrEnv K} {grad : Vec K} (he : TrlibFor q e grad)
    {m : TrlibMem K} (hm : m.Ready n) {c : TrlibCall K} (hc : c.action = .init) (x : TrlibSt n K) :
    ∃ m', trlibInit e grad m = some m' ∧ m'.Holds (q.serve e.sqrt c x) := by
  have hd := hm.vecs
  obtain ⟨g, g1, g2, g3⟩ := copy_dense (t := m.g) he.gradOk (hd _ (by simp))
  obtain ⟨v, v1, v2, v3⟩ := he.proj g m.v g2
  obtain ⟨p0, p1, p2, p3⟩ := copy_dense (t := m.p) v2 (hd _ (by simp))
  obtain ⟨ps1, ps2⟩ := scale_dense p2 (-1)
  obtain ⟨Hp, h1, h2, h3⟩ := he.hp (p0.scale (-1)) m.Hp ps1
  have dg : dense n g = q.g := by rw [g3, he.gradQ]
  have dv : dense n v = q.P *ᵥ q.g := by rw [v3, dg]
  have dp : dense n (p0.scale (-1)) = -(q.P *ᵥ q.g) := by rw [ps2, p3, dv, neg_one_smul]
  have dHp : dense n Hp = q.B *ᵥ (-(q.P *ᵥ q.g)) := by rw [h3, dp]
  have hvg := dot_dense v2 g2
  have hpH := dot_dense ps1 h2
  obtain ⟨r1, r2, r3, r4, r5⟩ := Mat.resize_wf m.Q m.Q.numRows 0 hm.wf (fun j hj => absurd hj (by simp))
  have hQ0 : HasCols n (m.Q.resize m.Q.numRows 0).clear 0 fun _ => (1 / e.sqrt ((q.P *ᵥ q.g) ⬝ᵥ q.g)) • (q.P *ᵥ q.g) :=
    ⟨Mat.clear_wf _, by show (m.Q.resize m.Q.numRows 0).numRows = n; rw [r2, hm.rows],
      by show (m.Q.resize m.Q.numRows 0).numCols = 0; exact r3, fun j hj => absurd hj (by omega)⟩
  have hs := clear_ok (hd m.s (by simp))
  have hgm := clear_ok (hd m.gm (by simp))
  have e1 : trlibInit e grad m =
      if isPos (e.sqrt (dense n v ⬝ᵥ dense n g)) e.zeroEps then
        (trlibPush (m.Q.resize m.Q.numRows 0).clear v (1 / e.sqrt (dense n v ⬝ᵥ dense n g))).map fun Q' =>
          (⟨m.s.clear, g, m.gm.clear, m.h, v, p0.scale (-1), Hp, m.l, m.hl, m.hr, m.t, Q', g.normSq, dense n v ⬝ᵥ dense n g,
            dense n (p0.scale (-1)) ⬝ᵥ dense n Hp⟩ : TrlibMem K)
      else some ⟨m.s.clear, g, m.gm.clear, m.h, v, p0.scale (-1), Hp, m.l, m.hl, m.hr, m.t, (m.Q.resize m.Q.numRows 0).clear, g.normSq,
        dense n v ⬝ᵥ dense n g, dense n (p0.scale (-1)) ⬝ᵥ dense n Hp⟩ := by
    unfold trlibInit
    rw [g1, Option.bind_some, v1, Option.bind_some, p1, Option.bind_some]
    simp only []
    rw [hvg, Option.bind_some, h1, Option.bind_some, hpH, Option.bind_some]
  unfold TrProblem.serve
  rw [hc]
  simp only []
  by_cases hpos : 0 < e.sqrt (dense n v ⬝ᵥ dense n g)
  · obtain ⟨Q', q1, q2⟩ := trlibPush_spec hQ0 v2 (1 / e.sqrt (dense n v ⬝ᵥ dense n g))
    refine ⟨_, by rw [e1, if_pos (by rw [he.zeroEps]; exact decide_eq_true hpos), q1, Option.map_some], ?_⟩
    refine ⟨hs, g2, hgm, v2, ps1, h2, dense_clear _, dg, dense_clear _, dv, dp, dHp, ?_, ?_, ?_, ?_⟩
    · rw [dv, dg] at hpos q2
      simp only [if_pos hpos]
      refine ⟨q2.wf, q2.rows, q2.cols, fun j hj i => ?_⟩
      rw [q2.val j hj i]
      have : j = 0 := by omega
      subst this
      rw [Function.update_self]
    · show g.normSq = _
      rw [normSq_dense g2, dg]
    · show dense n v ⬝ᵥ dense n g = _
      rw [dv, dg]
    · show dense n (p0.scale (-1)) ⬝ᵥ dense n Hp = _
      rw [dp, dHp]
  · refine ⟨_, by rw [e1, if_neg (by rw [he.zeroEps]; intro h; exact hpos (of_decide_eq_true h))], ?_⟩
    refine ⟨hs, g2, hgm, v2, ps1, h2, dense_clear _, dg, dense_clear _, dv, dp, dHp, ?_, ?_, ?_, ?_⟩
    · rw [dv, dg] at hpos
      simp only [if_neg hpos]
      exact hQ0
    · show g.normSq = _
      rw [normSq_dense g2, dg]
    · show dense n v ⬝ᵥ dense n g = _
      rw [dv, dg]
    · show dense n (p0.scale (-1)) ⬝ᵥ dense n Hp = _
      rw [dp, dHp]

/-- the direction and its product with the Hessian -/
theorem trlibDirection_spec [IsStrictOrderedRing K] {q : TrProblem n K} {e : TrEnv K} {grad : Vec K} (he : TrlibFor q e grad)
    {m : TrlibMem K} {x : TrlibSt n K} (hm : m.Holds x) (c : TrlibCall K) :
    ∃ m', trlibDirection e c m = some m' ∧ VOk n m'.p ∧ dense n m'.p = c.flt1 • x.v + c.flt2 • x.p ∧
      m'.Holds { x with p := c.flt1 • x.v + c.flt2 • x.p, Hp := q.B *ᵥ (c.flt1 • x.v + c.flt2 • x.p),
                        pHp := (c.flt1 • x.v + c.flt2 • x.p) ⬝ᵥ q.B *ᵥ (c.flt1 • x.v + c.flt2 • x.p) } ∧ m'.Q = m.Q := by
  obtain ⟨t, t1, t2, t3⟩ := addScaled_dense (r0 := m.t) c.flt1 c.flt2 hm.v hm.p
  obtain ⟨p, p1, p2, p3⟩ := copy_dense (t := m.p) t2 hm.p.2
  obtain ⟨Hp, h1, h2, h3⟩ := he.hp p m.Hp p2
  have dp : dense n p = c.flt1 • x.v + c.flt2 • x.p := by rw [p3, t3, hm.dv, hm.dp]
  have dHp : dense n Hp = q.B *ᵥ (c.flt1 • x.v + c.flt2 • x.p) := by rw [h3, dp]
  refine ⟨{ m with p := p, Hp := Hp, t := t, pHp := dense n p ⬝ᵥ dense n Hp }, ?_, p2, dp, ?_, rfl⟩
  · unfold trlibDirection
    rw [he.zeroEps, t1, Option.bind_some, p1, Option.bind_some, h1, Option.bind_some, dot_dense p2 h2, Option.map_some]
  · refine ⟨hm.s, hm.g, hm.gm, hm.v, p2, h2, hm.ds, hm.dg, hm.dgm, hm.dv, dp, dHp, hm.Q, hm.gg, hm.vg, ?_⟩
    show dense n p ⬝ᵥ dense n Hp = _
    rw [dp, dHp]

theorem TrlibMem.Holds.ready {m : TrlibMem K} {x : TrlibSt n K} (hm : m.Holds x) : m.Ready n := by
  refine ⟨fun v hv => ?_, hm.Q.rows, hm.Q.wf⟩
  simp only [List.mem_cons, List.not_mem_nil, or_false] at hv
  rcases hv with rfl | rfl | rfl | rfl | rfl | rfl
  · exact hm.s.2
  · exact hm.g.2
  · exact hm.gm.2
  · exact hm.v.2
  · exact hm.p.2
  · exact hm.Hp.2

/-- the combination of the columns -/
theorem trlibRetransf_spec [IsStrictOrderedRing K] {q : TrProblem n K} {e : TrEnv K} {grad : Vec K} (he : TrlibFor q e grad)
    {m : TrlibMem K} {x : TrlibSt n K} (hm : m.Holds x) {c : TrlibCall K} (hc : c.iter < x.cols) :
    ∃ m', trlibRetransf e n c m = some m' ∧
      m'.Holds { x with s := fun i => ∑ j ∈ Finset.range (c.iter + 1), c.h j * x.Q j i } := by
  obtain ⟨h0, a1, a2, a3, a4⟩ := setFromRaw_zero m.h (c.iter + 1) c.h
  have hcol := hm.Q.cols
  have hrs : h0.resize m.Q.numCols = { h0 with dim := m.Q.numCols } := by
    unfold Vec.resize; rw [if_neg (by omega)]
  have hrw : (h0.resize m.Q.numCols).WF := resize_wf a2 _
  obtain ⟨y, y1, y2⟩ := C08_mult_vec m.Q (h0.resize m.Q.numCols) hm.Q.wf hrw (by rw [hrs])
  obtain ⟨s, s1, s2, s3, s4⟩ := setFromRaw_zero m.s n y
  refine ⟨{ m with h := h0.resize m.Q.numCols, s := s }, ?_, ?_⟩
  · unfold trlibRetransf
    rw [he.zeroEps, a1, Option.bind_some]
    simp only []
    rw [y1, Option.bind_some, s1, Option.map_some]
  · refine ⟨⟨s2, s3⟩, hm.g, hm.gm, hm.v, hm.p, hm.Hp, ?_, hm.dg, hm.dgm, hm.dv, hm.dp, hm.dHp, hm.Q, hm.gg, hm.vg, hm.pHp⟩
    funext i
    show s.value i = _
    rw [s4 i i.2, y2, hcol]
    have hout : ∀ j, c.iter + 1 ≤ j → h0.value j = 0 := by
      intro j hj
      unfold Vec.value valAt
      rw [at?_none_of_forall fun e hee => ?_]
      · rfl
      · have := a2.lt_dim e hee; omega
    have hval : ∀ j, (h0.resize x.cols).value j = h0.value j := by intro j; rw [← hcol, hrs]; rfl
    show _ = ∑ j ∈ Finset.range (c.iter + 1), c.h j * x.Q j i
    rw [← Finset.sum_subset (Finset.range_mono (show c.iter + 1 ≤ x.cols from hc)) fun j _ hj => ?_]
    · refine Finset.sum_congr rfl fun j hj => ?_
      have hj' := Finset.mem_range.mp hj
      rw [hval, a4 j hj', hm.Q.val j (by omega) i, mul_comm]
    · rw [Finset.mem_range] at hj
      rw [hval, hout j (by omega), mul_zero]

/-- every action but the question for the objective has the documented effect -/
theorem trlibServe_spec [IsStrictOrderedRing K] {q : TrProblem n K} {e : TrEnv K} {grad : Vec K} (he : TrlibFor q e grad)
    {m : TrlibMem K} {x : TrlibSt n K} (hm : m.Holds x) {c : TrlibCall K} (hc : c.InOrder x.cols) (ho : c.action ≠ .objval) :
    ∃ m', trlibServe e n grad c m = some m' ∧ m'.Holds (q.serve e.sqrt c x) := by
  unfold TrlibCall.InOrder at hc
  unfold trlibServe
  cases ha : c.action with
  | trivial => exact ⟨m, rfl, by unfold TrProblem.serve; rw [ha]; exact hm⟩
  | init => exact trlibInit_spec he hm.ready ha x
  | retransf =>
    rw [ha] at hc
    have := trlibRetransf_spec he hm hc
    unfold TrProblem.serve; rw [ha]; exact this
  | updateStatio =>
    unfold TrProblem.serve; rw [ha]
    simp only [trlibStatio]
    by_cases ht : c.typ = .cg
    · rw [if_pos ht, if_pos ht]
      obtain ⟨t, t1, t2, t3⟩ := addScaled_dense (r0 := m.t) 1 c.flt1 hm.s hm.p
      obtain ⟨s, s1, s2, s3⟩ := copy_dense (t := m.s) t2 hm.s.2
      refine ⟨{ m with s := s, t := t }, by rw [he.zeroEps, t1, Option.bind_some, s1, Option.map_some], ?_⟩
      exact ⟨s2, hm.g, hm.gm, hm.v, hm.p, hm.Hp, by show dense n s = _; rw [s3, t3, hm.ds, hm.dp, one_smul], hm.dg, hm.dgm, hm.dv, hm.dp,
        hm.dHp, hm.Q, hm.gg, hm.vg, hm.pHp⟩
    · rw [if_neg ht, if_neg ht]; exact ⟨m, rfl, hm⟩
  | updateGrad =>
    rw [ha] at hc
    unfold TrProblem.serve; rw [ha]
    simp only [trlibGrad]
    cases ht : c.typ with
    | cg =>
      obtain ⟨Q0, a1, a2⟩ := trlibTrim_spec hm.Q (hc ht)
      obtain ⟨Q, b1, b2⟩ := trlibPush_spec a2 hm.v c.flt2
      obtain ⟨gm, c1, c2, c3⟩ := copy_dense (t := m.gm) hm.g hm.gm.2
      obtain ⟨t, t1, t2, t3⟩ := addScaled_dense (r0 := m.t) 1 c.flt1 hm.g hm.Hp
      obtain ⟨g, g1, g2, g3⟩ := copy_dense (t := m.g) t2 hm.g.2
      obtain ⟨v, v1, v2, v3⟩ := he.proj g m.v g2
      have dg : dense n g = x.g + c.flt1 • x.Hp := by rw [g3, t3, hm.dg, hm.dHp, one_smul]
      have dv : dense n v = q.P *ᵥ (x.g + c.flt1 • x.Hp) := by rw [v3, dg]
      refine ⟨{ m with Q := Q, gm := gm, g := g, v := v, t := t, gg := g.normSq, vg := dense n v ⬝ᵥ dense n g }, ?_, ?_⟩
      · simp only []
        rw [a1, Option.bind_some, b1, Option.bind_some, c1, Option.bind_some, he.zeroEps, t1, Option.bind_some, g1, Option.bind_some, v1,
          Option.bind_some, dot_dense v2 g2, Option.map_some]
      · refine ⟨hm.s, g2, c2, v2, hm.p, hm.Hp, hm.ds, dg, by show dense n gm = _; rw [c3, hm.dg], dv, hm.dp, hm.dHp, ?_, ?_, ?_, hm.pHp⟩
        · rw [hm.dv] at b2; exact b2
        · show g.normSq = _
          rw [normSq_dense g2, dg]
        · show dense n v ⬝ᵥ dense n g = _
          rw [dv, dg]
    | lanczos =>
      obtain ⟨t, t1, t2, t3⟩ := addScaled_dense (r0 := m.t) 1 c.flt1 hm.Hp hm.g
      obtain ⟨s, s1, s2, s3⟩ := addScaled_dense (r0 := m.s) 1 c.flt2 t2 hm.gm
      obtain ⟨gm, c1, c2, c3⟩ := copy_dense (t := m.gm) hm.g hm.gm.2
      obtain ⟨d1, d2⟩ := scale_dense c2 c.flt3
      obtain ⟨g, g1, g2, g3⟩ := copy_dense (t := m.g) s2 hm.g.2
      obtain ⟨v, v1, v2, v3⟩ := he.proj g m.v g2
      have ds : dense n s = x.Hp + c.flt1 • x.g + c.flt2 • x.gm := by rw [s3, t3, hm.dg, hm.dHp, hm.dgm, one_smul, one_smul]
      have dg : dense n g = x.Hp + c.flt1 • x.g + c.flt2 • x.gm := by rw [g3, ds]
      have dv : dense n v = q.P *ᵥ (x.Hp + c.flt1 • x.g + c.flt2 • x.gm) := by rw [v3, dg]
      refine ⟨{ m with s := s, gm := gm.scale c.flt3, g := g, v := v, t := t, vg := dense n v ⬝ᵥ dense n g }, ?_, ?_⟩
      · simp only []
        rw [he.zeroEps, t1, Option.bind_some, s1, Option.bind_some, c1, Option.bind_some, g1, Option.bind_some, v1, Option.bind_some,
          dot_dense v2 g2, Option.map_some]
      · refine ⟨s2, g2, d1, v2, hm.p, hm.Hp, ds, dg, by show dense n (gm.scale c.flt3) = _; rw [d2, c3, hm.dg], dv, hm.dp, hm.dHp, hm.Q, hm.gg,
          ?_, hm.pHp⟩
        show dense n v ⬝ᵥ dense n g = _
        rw [dv, dg]
    | other => exact ⟨m, rfl, hm⟩
  | convHard =>
    unfold TrProblem.serve; rw [ha]
    simp only [trlibHard]
    obtain ⟨t0, a1, a2, a3⟩ := he.hp m.s m.t hm.s
    obtain ⟨l, l1, l2, l3⟩ := addScaled_dense (r0 := m.l) 1 1 a2 he.gradOk
    obtain ⟨hl, b1, b2, b3⟩ := addScaled_dense (r0 := m.hl) 1 c.flt1 l2 hm.s
    obtain ⟨t, t1, t2, t3⟩ := he.proj l t0 l2
    obtain ⟨hr, c1, c2, c3⟩ := addScaled_dense (r0 := m.hr) 1 c.flt1 t2 hm.s
    have dl : dense n l = q.B *ᵥ x.s + q.g := by rw [l3, a3, he.gradQ, hm.ds, one_smul, one_smul]
    refine ⟨{ m with t := t, l := l, hl := hl, hr := hr, vg := dense n hl ⬝ᵥ dense n hr }, ?_, ?_⟩
    · rw [a1, Option.bind_some, he.zeroEps, l1, Option.bind_some, b1, Option.bind_some, t1, Option.bind_some, c1, Option.bind_some,
        dot_dense b2 c2, Option.map_some]
    · refine ⟨hm.s, hm.g, hm.gm, hm.v, hm.p, hm.Hp, hm.ds, hm.dg, hm.dgm, hm.dv, hm.dp, hm.dHp, hm.Q, hm.gg, ?_, hm.pHp⟩
      show dense n hl ⬝ᵥ dense n hr = _
      rw [b3, c3, t3, dl, hm.ds, one_smul, one_smul]
  | newKrylov => rw [ha] at hc; exact hc.elim
  | updateDir =>
    rw [ha] at hc
    unfold TrProblem.serve; rw [ha]
    simp only [trlibDir]
    obtain ⟨m', a1, a2, a3, a4, a5⟩ := trlibDirection_spec he hm c
    cases ht : c.typ with
    | cg => exact ⟨m', by simp only []; rw [if_pos (hc.1 ht)]; exact a1, a4⟩
    | lanczos =>
      obtain ⟨h1, h2⟩ := hc.2 ht
      obtain ⟨Q0, b1, b2⟩ := trlibTrim_spec hm.Q h2
      obtain ⟨Q, c1, c2⟩ := trlibPush_spec b2 a2 1
      refine ⟨{ m' with Q := Q }, ?_, ?_⟩
      · simp only []
        rw [if_pos h1, b1, Option.bind_some, a1, Option.bind_some, c1, Option.map_some]
      · rw [a3, one_smul] at c2
        exact ⟨a4.s, a4.g, a4.gm, a4.v, a4.p, a4.Hp, a4.ds, a4.dg, a4.dgm, a4.dv, a4.dp, a4.dHp, c2, a4.gg, a4.vg, a4.pHp⟩
    | other => exact ⟨m, rfl, hm⟩
  | objval => exact absurd ha ho
  | unknown => rw [ha] at hc; exact hc.elim

/-- ends of the loop which belong together -/
def TrlibEnd.Matches : TrlibEnd (TrlibMem K) K → TrlibEnd (TrlibSt n K) K → Prop
  | .ended ret dual m, .ended ret' dual' x => ret = ret' ∧ dual = dual' ∧ m.Holds x
  | .timeout, .timeout => True
  | .endless, .endless => True
  | _, _ => False

theorem trlibLoop_spec [IsStrictOrderedRing K] {L : Type*} {lib : TrlibLib L K} {q : TrProblem n K} {e : TrEnv K} {grad : Vec K}
    (he : TrlibFor q e grad) (hl : lib.Orderly q e.sqrt) (ho : lib.NoObjective q e.sqrt) :
    ∀ (fuel it : Nat) {l : L} {m : TrlibMem K} {x : TrlibSt n K}, lib.Serving q e.sqrt l x → m.Holds x →
      ∃ r, trlibLoop lib e n grad fuel it l m = some r ∧ r.Matches (lib.run q e.sqrt e.timeUp fuel it l x)
  | 0, _, _, _, _, _, _ => ⟨.endless, rfl, trivial⟩
  | fuel + 1, it, l, m, x, hs, hm => by
    unfold trlibLoop TrlibLib.run
    rw [hm.gg, hm.vg, hm.pHp]
    have hin := hl.2 l x hs
    obtain ⟨m', a1, a2⟩ := trlibServe_spec he hm hin (ho l x hs)
    have hk : (lib.step l x.gg x.vg x.pHp).1.action ≠ .unknown := by
      intro hk
      unfold TrlibCall.InOrder at hin
      rw [hk] at hin
      exact hin
    simp only [if_neg hk, a1, Option.bind_some]
    by_cases hr : (lib.step l x.gg x.vg x.pHp).1.ret = .goOn
    · rw [if_neg (not_not.mpr hr), if_neg (not_not.mpr hr)]
      by_cases ht : e.timeUp it = true
      · rw [if_pos ht, if_pos ht]; exact ⟨_, rfl, trivial⟩
      · rw [if_neg ht, if_neg ht]
        exact trlibLoop_spec he hl ho fuel (it + 1) (.next hs hr) a2
    · rw [if_pos hr, if_pos hr]
      exact ⟨_, rfl, rfl, rfl, a2⟩

/-- the first call, and the loop after it -/
theorem trlibStart_spec [IsStrictOrderedRing K] {L : Type*} {lib : TrlibLib L K} {q : TrProblem n K} {e : TrEnv K} {grad : Vec K}
    (he : TrlibFor q e grad) (hl : lib.Orderly q e.sqrt) (ho : lib.NoObjective q e.sqrt) (fuel : Nat) {m : TrlibMem K} (hm : m.Ready n) :
    ∃ r, trlibLoop lib e n grad fuel 0 lib.start
        { m with Q := m.Q.clear, p := m.p.clear, Hp := m.Hp.clear, gg := 0, vg := 0, pHp := 0 } = some r ∧
      r.Matches (lib.run q e.sqrt e.timeUp fuel 0 lib.start (TrlibSt.zero n K)) := by
  cases fuel with
  | zero => exact ⟨.endless, rfl, trivial⟩
  | succ fuel =>
    unfold trlibLoop TrlibLib.run
    have hi := hl.1
    obtain ⟨m', a1, a2⟩ := trlibInit_spec (q := q) (c := (lib.step lib.start 0 0 0).1) he
      (m := { m with Q := m.Q.clear, p := m.p.clear, Hp := m.Hp.clear, gg := 0, vg := 0, pHp := 0 })
      ⟨fun v hv => by
        have hd := hm.vecs
        simp only [List.mem_cons, List.not_mem_nil, or_false] at hv hd
        rcases hv with rfl | rfl | rfl | rfl | rfl | rfl
        · exact hd _ (by simp)
        · exact hd _ (by simp)
        · exact hd _ (by simp)
        · exact hd _ (by simp)
        · exact hd m.p (by simp)
        · exact hd m.Hp (by simp), hm.rows, Mat.clear_wf _⟩ hi (TrlibSt.zero n K)
    have hz : lib.step lib.start (TrlibSt.zero n K).gg (TrlibSt.zero n K).vg (TrlibSt.zero n K).pHp = lib.step lib.start 0 0 0 := rfl
    simp only [hz]
    rw [if_neg (by rw [hi]; decide)]
    have hsv : trlibServe e n grad (lib.step lib.start 0 0 0).1
        { m with Q := m.Q.clear, p := m.p.clear, Hp := m.Hp.clear, gg := 0, vg := 0, pHp := 0 } = some m' := by
      unfold trlibServe; rw [hi]; exact a1
    rw [hsv, Option.bind_some]
    by_cases hr : (lib.step lib.start 0 0 0).1.ret = .goOn
    · rw [if_neg (not_not.mpr hr), if_neg (not_not.mpr hr)]
      by_cases ht : e.timeUp 0 = true
      · rw [if_pos ht, if_pos ht]; exact ⟨_, rfl, trivial⟩
      · rw [if_neg ht, if_neg ht]
        exact trlibLoop_spec he hl ho fuel 1 (.first _ hr) a2
    · rw [if_pos hr, if_pos hr]
      exact ⟨_, rfl, rfl, rfl, a2⟩

end Sleqp
