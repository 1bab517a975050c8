import Verif.Spec.DerivCheck
import Verif.Lemmas.QnVec
import Verif.Lemmas.Mat
import Verif.Props.Mat
import Verif.Props.Cauchy
import Mathlib.Tactic.Ring
import Mathlib.Tactic.Linarith

/-! Helper lemmas for the derivative check. -/

namespace Sleqp
open Finset
variable {K : Type*} [Field K] [LinearOrder K] [IsStrictOrderedRing K] {n m : Nat}

theorem isEq_iff_close (a b tol : K) : isEq a b tol = true ↔ Close tol a b := by
  unfold isEq Close relDiff
  have hM : (0 : K) < max (max |a| |b|) 1 := lt_of_lt_of_le one_pos (le_max_right _ _)
  rw [decide_eq_true_iff, abs_div, abs_of_pos hM, div_le_iff₀ hM]

omit [IsStrictOrderedRing K] in
theorem dcUnit_spec (j : Fin n) (v : K) : ∃ u, dcUnit n j v = some u ∧ VOk n u ∧ dense n u = Pi.single j v := by
  have hp : dcUnit n j v = some ⟨n, 1, [((j : Nat), v)]⟩ := by
    unfold dcUnit Vec.push Vec.create Vec.clear
    rw [if_pos ⟨by simp, j.2, by simp⟩]
    rfl
  refine ⟨_, hp, ⟨⟨by simp [Srt], by simp, by simp⟩, rfl⟩, ?_⟩
  funext k
  unfold dense Vec.value valAt
  by_cases hk : k = j
  · subst hk; simp [at?]
  · have : (j : Nat) ≠ k := fun h => hk (Fin.ext h.symm)
    simp [at?, this, hk]

theorem dcPoint_spec {e : DcEnv K} (hn : e.numVars = n) (hz : e.zeroEps = 0) {x : Vec K} (hx : VOk n x) (j : Fin n) (out : Vec K) :
    ∃ y, dcPoint e x j out = some y ∧ VOk n y ∧ dense n y = shift (dense n x) j (diffStep e.perturbation (dense n x) j) := by
  subst hn
  obtain ⟨u, h1, h2, h3⟩ := dcUnit_spec j (dcPerturbation e x j)
  obtain ⟨y, h4, h5, h6⟩ := addScaled_dense (r0 := out) 1 1 hx h2
  refine ⟨y, ?_, h5, ?_⟩
  · unfold dcPoint
    rw [h1, Option.bind_some, hz, h4]
  · rw [h6, h3, one_smul, one_smul]; rfl

omit [LinearOrder K] [IsStrictOrderedRing K] in
theorem mulVec_unit (M : Matrix (Fin n) (Fin n) K) (j : Fin n) (k : Fin n) : M.mulVec (Pi.single j 1) k = M k j := by
  rw [Matrix.mulVec_single_one]; rfl

/-- invariant of the assembly of the products with the Hessians of the constraints -/
structure ProdsInv (n m : Nat) (P : Nat → Fin n → K) (k : Nat) (M : Mat K) : Prop where
  rows : M.numRows = n
  cols : M.numCols = m
  zero : M.ptr 0 = 0
  last : M.ptr k = M.nnz
  le_cap : M.nnz ≤ M.cap
  col : ∀ i < k, Srt (M.col i) ∧ (∀ t ∈ M.col i, t.1 < n) ∧ M.ptr i ≤ M.ptr (i + 1) ∧ M.ptr (i + 1) ≤ M.nnz ∧
    ∀ l : Fin n, valAt (M.col i) l = P i l

omit [LinearOrder K] [IsStrictOrderedRing K] in
theorem prodsInv_step {P : Nat → Fin n → K} {k : Nat} (hk : k < m) {M : Mat K} (h : ProdsInv n m P k M) {d : Vec K} (hd : VOk n d)
    (hP : dense n d = P k) :
    ∃ M1 M2, (M.reserve (M.nnz + d.nnz)).pushCol k = some M1 ∧ (M1.ptr k = M1.ptr (k + 1) ∧ d.dim = M1.numRows) ∧
      M1.pushAll k d.ents = some M2 ∧ ProdsInv n m P (k + 1) M2 := by
  set R := M.reserve (M.nnz + d.nnz) with hR
  have hp : R.pushCol k = some { R with ptr := setAt R.ptr (k + 1) (R.ptr k) } := by
    unfold Mat.pushCol; rw [if_pos (show k < R.numCols from (show M.numCols = m from h.cols).symm ▸ hk)]
  set M1 : Mat K := { R with ptr := setAt R.ptr (k + 1) (R.ptr k) } with hM1
  have p0 : ∀ i, i ≠ k + 1 → M1.ptr i = M.ptr i := fun i hi => setAt_ne _ _ hi
  have p1 : M1.ptr (k + 1) = M.ptr k := setAt_same _ _ _
  have hnnz : M1.nnz = M.nnz := rfl
  obtain ⟨M2, a1, a2, a3, a4, a5, a6, a7, a8⟩ := Mat.pushAll_spec M1 k d.ents (show k < M.numCols by rw [h.cols]; exact hk)
    (fun t ht => by
      have := hd.1.lt_dim t ht
      rw [hd.2] at this
      exact (show M1.numRows = n from h.rows) ▸ this)
    (le_max_right _ _)
  refine ⟨M1, M2, hp, ⟨by rw [p1, p0 k (by omega)], hd.2.trans h.rows.symm⟩, a1, ?_⟩
  have q : ∀ i ≤ k, M2.ptr i = M.ptr i := fun i hi => by rw [a6, if_neg (by omega), p0 i (by omega)]
  have qk : M2.ptr (k + 1) = M2.nnz := by rw [a6, if_pos rfl, p1, a5, hnnz, h.last]
  have hcol : ∀ i < k, M2.col i = M.col i := by
    intro i hi
    have hc := h.col i hi
    refine Mat.col_congr (q i (by omega)) (q (i + 1) (by omega)) fun l _ hl => ?_
    exact a7 l (by rw [hnnz]; exact lt_of_lt_of_le hl hc.2.2.2.1)
  have hck : M2.col k = d.ents := by
    unfold Mat.col
    rw [qk, q k le_rfl, h.last, a5, hnnz, Nat.add_sub_cancel_left]
    exact a8
  refine ⟨a2.trans h.rows, a3.trans h.cols, (q 0 (by omega)).trans h.zero, qk, ?_, fun i hi => ?_⟩
  · rw [a5, a4]; exact le_max_right _ _
  · rcases Nat.lt_succ_iff_lt_or_eq.mp hi with hi | rfl
    · rw [hcol i hi, q i (by omega), q (i + 1) (by omega), a5, hnnz]
      obtain ⟨c1, c2, c3, c4, c5⟩ := h.col i hi
      exact ⟨c1, c2, c3, by omega, c5⟩
    · rw [hck, qk, q i le_rfl, h.last, a5, hnnz]
      refine ⟨hd.1.srt, fun t ht => ?_, by omega, le_rfl, fun l => ?_⟩
      · have := hd.1.lt_dim t ht
        rwa [hd.2] at this
      · exact congrFun hP l

omit [LinearOrder K] [IsStrictOrderedRing K] in
theorem ProdsInv.wf {P : Nat → Fin n → K} {M : Mat K} (h : ProdsInv n m P m M) : M.WF :=
  ⟨h.zero, fun j hj => (h.col j (h.cols ▸ hj)).2.2.1, by rw [h.cols]; exact h.last, h.le_cap,
    fun j hj => (h.col j (h.cols ▸ hj)).1, fun j hj => h.rows ▸ (h.col j (h.cols ▸ hj)).2.1⟩

theorem dcConsProducts_spec {e : DcEnv K} {d : DerivData n m K} (hd : DcFor e d) (hz : e.zeroEps = 0) {cur func : Vec K}
    (hc : VOk n cur) (hf : VOk n func) (j : Fin n) (hfv : ∀ k, dense n func k = d.H (dense n cur) 0 k j) :
    ∃ M, dcConsProducts e cur func j = some M ∧ M.WF ∧ M.numRows = n ∧ M.numCols = m ∧
      ∀ (i : Fin m) (k : Fin n), M.value k i = d.H (dense n cur) (Pi.single i 1) k j - d.H (dense n cur) 0 k j := by
  obtain ⟨u, u1, u2, u3⟩ := dcUnit_spec (K := K) j 1
  set P : Nat → Fin n → K := fun i k =>
    if h : i < m then d.H (dense n cur) (Pi.single ⟨i, h⟩ 1) k j - d.H (dense n cur) 0 k j else 0 with hP
  obtain ⟨M, hM, hI⟩ := foldlM_range_inv (P := ProdsInv n m P) (f := dcConsStep e cur u func) e.numCons
    (s0 := (Mat.create e.numVars e.numCons 0 (fun _ => 0) (fun _ => 0)).clear)
    ⟨hd.vars, hd.cons', by simp [Mat.clear], by simp [Mat.clear], by simp [Mat.clear], fun i hi => absurd hi (by omega)⟩
    (fun k hk M hM => by
      rw [hd.cons'] at hk
      obtain ⟨mu, m1, m2, m3⟩ := dcUnit_spec (K := K) (⟨k, hk⟩ : Fin m) 1
      obtain ⟨p, p1, p2, p3, p4⟩ := hd.hess cur u mu (Vec.create e.numVars 0) hc.1 hc.2 u2.1 u2.2 m2.1 m2.2 hd.vars
      obtain ⟨w, w1, w2, w3⟩ := addScaled_dense (r0 := Vec.create e.numVars 0) 1 (-1) (⟨p2, p3⟩ : VOk n p) hf
      have hw : dense n w = P k := by
        funext l
        have hl : dense n p l = d.H (dense n cur) (Pi.single ⟨k, hk⟩ 1) l j := by rw [p4, u3, m3, mulVec_unit]
        rw [w3, hP]
        simp only [Pi.add_apply, Pi.smul_apply, smul_eq_mul, hl, hfv l, dif_pos hk]
        ring
      obtain ⟨M1, M2, s1, s2, s3, s4⟩ := prodsInv_step hk hM w2 hw
      refine ⟨M2, ?_, s4⟩
      unfold dcConsStep
      rw [hd.cons', m1, Option.bind_some, p1, Option.bind_some, hz, w1, Option.bind_some, s1, Option.bind_some, if_pos s2, s3])
  rw [hd.cons'] at hI
  have hW := hI.wf
  refine ⟨M, ?_, hW, hI.rows, hI.cols, fun i k => ?_⟩
  · unfold dcConsProducts
    rw [hd.vars, u1, Option.bind_some]
    rw [hd.vars] at hM
    rw [hM, Option.bind_some, if_pos]
    by_cases h0 : M.nnz = 0
    · unfold Mat.isValid; simp [h0]
    · exact (C09_isValid_iff M hW.ptr_zero h0).mpr hW
  · have := (hI.col i i.2).2.2.2.2 k
    rw [show M.value k i = valAt (M.col i) k from rfl, this, hP]
    simp

/-- product of the transposed matrix with a vector, for tolerance 0 -/
theorem multVecTrans_dense {M : Mat K} (hM : M.WF) (hr : M.numRows = m) (hc : M.numCols = n) {mu : Vec K} (hmu : VOk m mu)
    {r0 : Vec K} (h0 : r0.dim = n) :
    ∃ r, M.multVecTrans mu 0 r0 = some r ∧ VOk n r ∧ ∀ k : Fin n, dense n r k = ∑ i : Fin m, M.value i k * dense m mu i := by
  obtain ⟨r, h1, h2, h3, h4⟩ := C08_mult_vec_trans M mu r0 0 le_rfl hM hmu.1 (hr.trans hmu.2.symm) (hc.trans h0.symm)
  refine ⟨r, h1, ⟨h2, h3.trans hc⟩, fun k => ?_⟩
  unfold dense
  rw [h4 k (by rw [hc]; exact k.2), hr]
  have : ∑ i ∈ range m, M.value i k * mu.value i = ∑ i : Fin m, M.value i k * mu.value i := Finset.sum_range _
  rw [this]
  split
  · rename_i h; exact (abs_nonpos_iff.mp h).symm
  · rfl

omit [LinearOrder K] [IsStrictOrderedRing K] in
/-- a loop collecting Booleans -/
theorem foldlM_and {N : Nat} {F : Nat → Bool} {f : Bool → Nat → Option Bool} (h : ∀ k < N, ∀ b, f b k = some (b && F k)) (b : Bool) :
    ∃ r, (List.range N).foldlM f b = some r ∧ (r = true ↔ b = true ∧ ∀ k < N, F k = true) := by
  obtain ⟨r, h1, h2⟩ := foldlM_range_inv (P := fun k r => r = true ↔ b = true ∧ ∀ l < k, F l = true) (f := f) N (s0 := b)
    (by simp) (fun k hk r hr => ⟨_, h k hk r, by
      rw [Bool.and_eq_true, hr]
      constructor
      · rintro ⟨⟨a, b⟩, c⟩
        refine ⟨a, fun l hl => ?_⟩
        rcases Nat.lt_succ_iff_lt_or_eq.mp hl with hl | rfl
        exacts [b l hl, c]
      · rintro ⟨a, b⟩
        exact ⟨⟨a, fun l hl => b l (by omega)⟩, b k (by omega)⟩⟩)
  exact ⟨r, h1, h2⟩

omit [Field K] [LinearOrder K] [IsStrictOrderedRing K] in
theorem all_range {N : Nat} {F : Nat → Bool} : (List.range N).all F = true ↔ ∀ k : Fin N, F k = true := by
  simp only [List.all_eq_true, List.mem_range]
  exact ⟨fun h k => h k k.2, fun h k hk => h ⟨k, hk⟩⟩

variable {e : DcEnv K} {d : DerivData n m K} {it ck : Iterate K}

/-- the values needed for the check have been computed at the perturbed point -/
structure CheckAt (d : DerivData n m K) (fl : DcFlags) (y : Fin n → K) (ck : Iterate K) : Prop where
  dims : IterateDims n m ck
  objVal : fl.firstObj = true → ck.objVal = d.f y
  objGrad : fl.secondObj = true ∨ fl.secondSimple = true → ck.objGrad.WF ∧ dense n ck.objGrad = d.g y
  consVal : fl.firstCons = true → dense m ck.consVal = d.c y
  consJac : fl.secondCons = true ∨ fl.secondSimple = true →
    ck.consJac.WF ∧ ∀ (i : Fin m) (k : Fin n), ck.consJac.value i k = d.J y i k

theorem dcEval_spec (hd : DcFor e d) (fl : DcFlags) {cur : Vec K} (hc : VOk n cur) (hk : IterateDims n m ck) :
    ∃ ck', dcEval e fl cur ck = some ck' ∧ ck'.primal = ck.primal ∧ CheckAt d fl (dense n cur) ck' := by
  obtain ⟨g, g1, g2⟩ : ∃ g, (if fl.secondObj || fl.secondSimple then e.grad cur ck.objGrad else some ck.objGrad) = some g ∧
      g.dim = n ∧ (fl.secondObj = true ∨ fl.secondSimple = true → g.WF ∧ dense n g = d.g (dense n cur)) := by
    by_cases h : fl.secondObj = true ∨ fl.secondSimple = true
    · obtain ⟨g, a, b, c, f⟩ := hd.grad cur ck.objGrad hc.1 hc.2 hk.objGrad
      exact ⟨g, by rw [if_pos (by simpa using h), a], c, fun _ => ⟨b, f⟩⟩
    · exact ⟨_, if_neg (by simpa using h), hk.objGrad, fun h' => absurd h' h⟩
  obtain ⟨c, c1, c2⟩ : ∃ c, (if fl.firstCons then e.cons cur ck.consVal else some ck.consVal) = some c ∧
      c.dim = m ∧ (fl.firstCons = true → dense m c = d.c (dense n cur)) := by
    by_cases h : fl.firstCons = true
    · obtain ⟨g, a, b, c, f⟩ := hd.cons cur ck.consVal hc.1 hc.2 hk.consVal
      exact ⟨g, by rw [if_pos h, a], c, fun _ => f⟩
    · exact ⟨_, if_neg h, hk.consVal, fun h' => absurd h' h⟩
  obtain ⟨J, j1, j2⟩ : ∃ J, (if fl.secondCons || fl.secondSimple then e.jac cur ck.consJac else some ck.consJac) = some J ∧
      J.numRows = m ∧ J.numCols = n ∧ (fl.secondCons = true ∨ fl.secondSimple = true → J.WF ∧
        ∀ (i : Fin m) (k : Fin n), J.value i k = d.J (dense n cur) i k) := by
    by_cases h : fl.secondCons = true ∨ fl.secondSimple = true
    · obtain ⟨g, a, b, c, f, v⟩ := hd.jac cur ck.consJac hc.1 hc.2 hk.rows hk.cols
      exact ⟨g, by rw [if_pos (by simpa using h), a], c, f, fun _ => ⟨b, v⟩⟩
    · exact ⟨_, if_neg (by simpa using h), hk.rows, hk.cols, fun h' => absurd h' h⟩
  refine ⟨{ ck with objVal := if fl.firstObj then e.obj cur else ck.objVal, objGrad := g, consVal := c, consJac := J },
    by unfold dcEval; rw [g1, Option.bind_some, c1, Option.bind_some, j1, Option.map_some], rfl,
    ⟨⟨hk.primal, g2.1, c2.1, j2.1, j2.2.1⟩, fun h => ?_, g2.2, c2.2, j2.2.2⟩⟩
  simp only [h, if_true]
  exact hd.obj cur hc.1 hc.2

/-- the products with the Hessian at the point `y` that are needed for the check -/
structure HessAt (d : DerivData n m K) (fl : DcFlags) (y : Fin n → K) (mu : Fin m → K) (j : Fin n) (p : DcHess K) : Prop where
  func : fl.secondObj = true → VOk n p.func ∧ ∀ k, dense n p.func k = d.H y 0 k j
  cons : fl.secondCons = true → p.cons.WF ∧ p.cons.numRows = n ∧ p.cons.numCols = m ∧
    ∀ (i : Fin m) (k : Fin n), p.cons.value k i = d.H y (Pi.single i 1) k j - d.H y 0 k j
  lagr : fl.secondSimple = true → ∀ k, dense n p.lagr k = d.H y mu k j

theorem dcHessProducts_spec (hd : DcFor e d) (hz : e.zeroEps = 0) (fl : DcFlags) (hit : IterateAt d it) {cur : Vec K} (hc : VOk n cur)
    (j : Fin n) : ∃ p, dcHessProducts e fl it cur j = some p ∧ HessAt d fl (dense n cur) (dense m it.consDual) j p := by
  obtain ⟨u, u1, u2, u3⟩ := dcUnit_spec (K := K) j 1
  have hcl : VOk m (Vec.create m 1 : Vec K).clear := ⟨⟨by simp [Vec.create, Vec.clear, Srt], by simp [Vec.create, Vec.clear],
    by simp [Vec.create, Vec.clear]⟩, rfl⟩
  have hcd : dense m (Vec.create m 1 : Vec K).clear = 0 := by
    funext i; simp [dense, Vec.value, Vec.clear, Vec.create, valAt, at?]
  obtain ⟨p, p1, p2⟩ : ∃ p, (if fl.secondCons || fl.secondObj then e.hess cur u (Vec.create m 1).clear (Vec.create n 0)
      else some (Vec.create n 0)) = some p ∧ (fl.secondCons = true ∨ fl.secondObj = true → VOk n p ∧
        ∀ k, dense n p k = d.H (dense n cur) 0 k j) := by
    by_cases h : fl.secondCons = true ∨ fl.secondObj = true
    · obtain ⟨p, a, b, c, f⟩ := hd.hess cur u (Vec.create m 1).clear (Vec.create n 0) hc.1 hc.2 u2.1 u2.2 hcl.1 hcl.2 rfl
      exact ⟨p, by rw [if_pos (by simpa using h), a], fun _ => ⟨⟨b, c⟩, fun k => by rw [f, hcd, u3, mulVec_unit]⟩⟩
    · exact ⟨_, if_neg (by simpa using h), fun h' => absurd h' h⟩
  obtain ⟨M, m1, m2⟩ : ∃ M, (if fl.secondCons then dcConsProducts e cur p j else some (Mat.create n m 0 (fun _ => 0) (fun _ => 0))) = some M ∧
      (fl.secondCons = true → M.WF ∧ M.numRows = n ∧ M.numCols = m ∧
    ∀ (i : Fin m) (k : Fin n), M.value k i = d.H (dense n cur) (Pi.single i 1) k j - d.H (dense n cur) 0 k j) := by
    by_cases h : fl.secondCons = true
    · obtain ⟨M, a, b⟩ := dcConsProducts_spec hd hz hc (p2 (Or.inl h)).1 j (p2 (Or.inl h)).2
      exact ⟨M, by rw [if_pos h, a], fun _ => b⟩
    · exact ⟨_, if_neg h, fun h' => absurd h' h⟩
  obtain ⟨q, q1, q2⟩ : ∃ q, (if fl.secondSimple then e.hess cur u it.consDual (Vec.create n 0) else some (Vec.create n 0)) = some q ∧
      (fl.secondSimple = true → ∀ k, dense n q k = d.H (dense n cur) (dense m it.consDual) k j) := by
    by_cases h : fl.secondSimple = true
    · obtain ⟨p, a, b, c, f⟩ := hd.hess cur u it.consDual (Vec.create n 0) hc.1 hc.2 u2.1 u2.2 hit.consDual hit.consDual_dim rfl
      exact ⟨p, by rw [if_pos h, a], fun _ k => by rw [f, u3, mulVec_unit]⟩
    · exact ⟨_, if_neg h, fun h' => absurd h' h⟩
  refine ⟨⟨p, M, q⟩, ?_, fun h => p2 (Or.inr h), m2, q2⟩
  unfold dcHessProducts
  rw [hd.vars, hd.cons', u1, Option.bind_some, p1, Option.bind_some, m1, Option.bind_some, q1, Option.map_some]

/-- the value compared with a second derivative -/
theorem diff_value {a b r : Vec K} (ha : VOk n a) (hb : VOk n b) (hr : VOk n r) (h : dense n r = (-1 : K) • dense n a + (1 : K) • dense n b) (t : K) (k : Fin n) :
    (r.scale (1 / t)).value k = (dense n b k - dense n a k) / t := by
  have := congrFun (scale_dense hr (1 / t)).2 k
  rw [show (r.scale (1 / t)).value k = dense n (r.scale (1 / t)) k from rfl, this, h]
  simp only [Pi.smul_apply, Pi.add_apply, smul_eq_mul]
  ring

theorem dcSecondObj_spec (hd : DcFor e d) (hit : IterateAt d it) {x : Fin n → K} (hx : dense n it.primal = x) {j : Fin n} {h : K} {func : Vec K}
    (hk : IterateDims n m ck) (hg : ck.objGrad.WF ∧ dense n ck.objGrad = d.g (shift x j h)) {y : Fin n → K}
    (hf : VOk n func ∧ ∀ k, dense n func k = d.H y 0 k j) :
    ∃ b, dcSecondObj e it ck func h = some b ∧
      (b = true ↔ ∀ k, Close e.tol (d.H y 0 k j) (forwardDiff (fun z => d.g z k) x j h)) := by
  have ha : VOk n it.objGrad := ⟨hit.objGrad, hit.objGrad_dim⟩
  have hb : VOk n ck.objGrad := ⟨hg.1, hk.objGrad⟩
  obtain ⟨r, r1, r2, r3⟩ := addScaled_dense (r0 := Vec.create n 0) (-1) 1 ha hb
  obtain ⟨b, b1, b2⟩ := foldlM_and (N := n) (F := fun k => if hk : k < n then isEq (dense n func ⟨k, hk⟩) ((r.scale (1 / h)).value k) e.tol else true)
    (f := fun ok k => (dcUnit n k 1).bind fun u => (u.dot func).map fun v => ok && isEq v ((r.scale (1 / h)).value k) e.tol)
    (fun k hk b => by
      obtain ⟨u, u1, u2, u3⟩ := dcUnit_spec (K := K) (⟨k, hk⟩ : Fin n) 1
      show ((dcUnit n ((⟨k, hk⟩ : Fin n) : Nat) 1).bind _) = _
      rw [u1, Option.bind_some, dot_dense u2 hf.1, u3, Option.map_some, single_one_dotProduct, dif_pos hk]) true
  refine ⟨b, ?_, b2.trans ?_⟩
  · unfold dcSecondObj
    rw [hd.vars, r1, Option.bind_some, b1]
  · simp only [true_and]
    constructor
    · intro hh k
      have := hh k k.2
      rw [dif_pos k.2, isEq_iff_close, diff_value ha hb r2 r3, hg.2, hit.objGrad_eq, hx] at this
      rw [← hf.2 k]
      exact this
    · intro hh k hk
      rw [dif_pos hk, isEq_iff_close, hf.2]
      have := diff_value ha hb r2 r3 h ⟨k, hk⟩
      rw [show (r.scale (1 / h)).value k = _ from this, hg.2, hit.objGrad_eq, hx]
      exact hh ⟨k, hk⟩

theorem unit_row {J : Mat K} {A : Fin m → Fin n → K} (hJ : ∀ (i : Fin m) (k : Fin n), J.value i k = A i k) (i : Fin m) (k : Fin n) :
    ∑ l : Fin m, J.value l k * (Pi.single i 1 : Fin m → K) l = A i k := by
  rw [Finset.sum_eq_single i]
  · rw [hJ, Pi.single_eq_same, mul_one]
  · intro l _ hl; rw [Pi.single_eq_of_ne hl, mul_zero]
  · simp

theorem dcSecondCons_spec (hd : DcFor e d) (hz : e.zeroEps = 0) (hit : IterateAt d it) {x : Fin n → K} (hx : dense n it.primal = x) {j : Fin n} {h : K}
    {P : Mat K} (hk : IterateDims n m ck) {y : Fin n → K}
    (hg : ck.consJac.WF ∧ ∀ (i : Fin m) (k : Fin n), ck.consJac.value i k = d.J (shift x j h) i k)
    (hP : P.WF ∧ P.numRows = n ∧ P.numCols = m ∧ ∀ (i : Fin m) (k : Fin n), P.value k i = d.H y (Pi.single i 1) k j - d.H y 0 k j) :
    ∃ b, dcSecondCons e it ck P h = some b ∧
      (b = true ↔ ∀ i k, Close e.tol (d.H y (Pi.single i 1) k j - d.H y 0 k j) (forwardDiff (fun z => d.J z i k) x j h)) := by
  classical
  obtain ⟨b, b1, b2⟩ := foldlM_and (N := m)
    (F := fun i => if hi : i < m then decide (∀ k : Fin n,
      Close e.tol (d.H y (Pi.single ⟨i, hi⟩ 1) k j - d.H y 0 k j) (forwardDiff (fun z => d.J z ⟨i, hi⟩ k) x j h)) else true)
    (f := dcSecondConsStep e it ck P h)
    (fun i hi b => by
      obtain ⟨u, u1, u2, u3⟩ := dcUnit_spec (K := K) (⟨i, hi⟩ : Fin m) 1
      obtain ⟨r, r1, r2, r3⟩ := multVecTrans_dense hit.consJac hit.consJac_rows hit.consJac_cols u2 (r0 := (Vec.create n 0 : Vec K)) rfl
      obtain ⟨q, q1, q2, q3⟩ := multVecTrans_dense hg.1 hk.rows hk.cols u2 (r0 := (Vec.create n 0 : Vec K)) rfl
      obtain ⟨w, w1, w2, w3⟩ := addScaled_dense (r0 := Vec.create n 0) 1 (-1) q2 r2
      have hw : dense n w = (-1 : K) • dense n r + (1 : K) • dense n q := by rw [w3, add_comm]
      have hiP : i < P.numCols := by rw [hP.2.2.1]; exact hi
      have hcol := Vec.pushAll_ok (((Vec.create n 0 : Vec K).reserve (P.col i).length).clear) (P.col i)
        (by simpa [Vec.clear] using hP.1.srt i hiP)
        (fun t ht => by
          have := hP.1.lt_rows i hiP t ht
          rw [hP.2.1] at this
          exact this) (by simp [Vec.clear, Vec.reserve])
      have hc1 : dcCol P i (Vec.create n 0) = some { ((Vec.create n 0 : Vec K).reserve (P.col i).length).clear with ents := P.col i } := by
        unfold dcCol
        rw [if_pos ⟨hP.2.1, hiP⟩, hcol]
        rfl
      unfold dcSecondConsStep
      rw [hd.vars, hd.cons', hc1, Option.bind_some]
      show ((dcUnit m ((⟨i, hi⟩ : Fin m) : Nat) 1).bind _) = _
      rw [u1, Option.bind_some, hz, r1, Option.bind_some, q1, Option.bind_some, w1, Option.map_some, dif_pos hi]
      congr 2
      rw [Bool.eq_iff_iff, all_range, decide_eq_true_iff]
      refine forall_congr' fun k => ?_
      rw [isEq_iff_close, diff_value r2 q2 w2 hw, q3, r3, u3, unit_row hg.2, unit_row hit.consJac_eq, hx]
      rw [show Vec.value _ (k : Nat) = P.value k ((⟨i, hi⟩ : Fin m) : Nat) from rfl, hP.2.2.2]
      rfl) true
  refine ⟨b, ?_, b2.trans ?_⟩
  · unfold dcSecondCons
    rw [hd.cons', b1]
  · simp only [true_and]
    constructor
    · intro hh i
      have := hh i i.2
      rw [dif_pos i.2, decide_eq_true_iff] at this
      exact this
    · intro hh i hi
      rw [dif_pos hi, decide_eq_true_iff]
      exact hh ⟨i, hi⟩

theorem dcCombined_spec (hd : DcFor e d) (hz : e.zeroEps = 0) {mu : Vec K} (hmu : VOk m mu) {a : Iterate K} {z : Fin n → K} (hg : VOk n a.objGrad)
    (hge : dense n a.objGrad = d.g z) (hJ : a.consJac.WF) (hr : a.consJac.numRows = m) (hc : a.consJac.numCols = n)
    (hJe : ∀ (i : Fin m) (k : Fin n), a.consJac.value i k = d.J z i k) :
    ∃ r, dcCombined e mu a = some r ∧ VOk n r ∧ ∀ k, dense n r k = d.lagr (dense m mu) k z := by
  obtain ⟨p, p1, p2, p3⟩ := multVecTrans_dense hJ hr hc hmu (r0 := (Vec.create n 0 : Vec K)) rfl
  obtain ⟨r, r1, r2, r3⟩ := addScaled_dense (r0 := Vec.create n 0) 1 1 hg p2
  refine ⟨r, ?_, r2, fun k => ?_⟩
  · unfold dcCombined
    rw [hd.vars, hz, p1, Option.bind_some, r1]
  · rw [r3]
    simp only [Pi.add_apply, Pi.smul_apply, smul_eq_mul, one_mul, p3, hge, hJe]
    rfl

theorem dcSecondSimple_spec (hd : DcFor e d) (hz : e.zeroEps = 0) (hit : IterateAt d it) {x : Fin n → K} (hx : dense n it.primal = x) {j : Fin n}
    {h : K} (hh : h = diffStep e.perturbation x j) {q : Vec K} (hk : IterateDims n m ck) {y : Fin n → K}
    (hg : ck.objGrad.WF ∧ dense n ck.objGrad = d.g (shift x j h))
    (hJ : ck.consJac.WF ∧ ∀ (i : Fin m) (k : Fin n), ck.consJac.value i k = d.J (shift x j h) i k)
    (hq : ∀ k, dense n q k = d.H y (dense m it.consDual) k j) :
    ∃ b ck', dcSecondSimple e it ck q j = some (b, ck') ∧ IterateDims n m ck' ∧
      (b = true ↔ ∀ k, Close e.tol (d.H y (dense m it.consDual) k j) (forwardDiff (d.lagr (dense m it.consDual) k) x j h)) := by
  have hmu : VOk m it.consDual := ⟨hit.consDual, hit.consDual_dim⟩
  obtain ⟨a, a1, a2, a3⟩ := dcCombined_spec hd hz hmu ⟨hit.objGrad, hit.objGrad_dim⟩ hit.objGrad_eq hit.consJac hit.consJac_rows hit.consJac_cols
    hit.consJac_eq
  obtain ⟨z, z1, z2, z3⟩ := dcPoint_spec hd.vars hz ⟨hit.primal, hit.primal_dim⟩ j ck.primal
  obtain ⟨b, b1, b2, b3⟩ := dcCombined_spec (a := { ck with primal := z }) hd hz hmu ⟨hg.1, hk.objGrad⟩ hg.2 hJ.1 hk.rows hk.cols hJ.2
  obtain ⟨r, r1, r2, r3⟩ := addScaled_dense (r0 := Vec.create n 0) (-1) 1 a2 b2
  have hp : dcPerturbation e it.primal j = h := by rw [hh, ← hx]; rfl
  refine ⟨_, { ck with primal := z }, by unfold dcSecondSimple; rw [hd.vars, a1, Option.bind_some, z1, Option.bind_some, b1, Option.bind_some, r1, Option.map_some],
    ⟨z2.2, hk.objGrad, hk.consVal, hk.rows, hk.cols⟩, ?_⟩
  rw [all_range]
  refine forall_congr' fun k => ?_
  rw [isEq_iff_close, diff_value a2 b2 r2 r3, hp, a3, b3, hx, ← hq k]
  rfl

theorem dcCheck_spec (hd : DcFor e d) (hz : e.zeroEps = 0) (fl : DcFlags) (hit : IterateAt d it) {x : Fin n → K} (hx : dense n it.primal = x) {j : Fin n}
    {h : K} (hh : h = diffStep e.perturbation x j) (h0 : h ≠ 0) {y : Fin n → K} {p : DcHess K}
    (hk : CheckAt d fl (shift x j h) ck) (hp : HessAt d fl y (dense m it.consDual) j p) :
    ∃ b ck', dcCheck e fl it ck p j h = some (b, ck') ∧ IterateDims n m ck' ∧
      (b = true ↔ DerivOk d e.tol fl x y (dense m it.consDual) j h) := by
  obtain ⟨b3, s1, s2⟩ : ∃ b, (if fl.secondObj then dcSecondObj e it ck p.func h else some true) = some b ∧
      (b = true ↔ (fl.secondObj = true → ∀ k, Close e.tol (d.H y 0 k j) (forwardDiff (fun z => d.g z k) x j h))) := by
    by_cases hf : fl.secondObj = true
    · obtain ⟨b, c1, c2⟩ := dcSecondObj_spec hd hit hx hk.dims (hk.objGrad (Or.inl hf)) (hp.func hf)
      exact ⟨b, by rw [if_pos hf, c1], by simp [hf, c2]⟩
    · exact ⟨true, if_neg hf, by simp [hf]⟩
  obtain ⟨b4, t1, t2⟩ : ∃ b, (if fl.secondCons then dcSecondCons e it ck p.cons h else some true) = some b ∧
      (b = true ↔ (fl.secondCons = true → ∀ i k,
        Close e.tol (d.H y (Pi.single i 1) k j - d.H y 0 k j) (forwardDiff (fun z => d.J z i k) x j h))) := by
    by_cases hf : fl.secondCons = true
    · obtain ⟨b, c1, c2⟩ := dcSecondCons_spec hd hz hit hx hk.dims (hk.consJac (Or.inl hf)) (hp.cons hf)
      exact ⟨b, by rw [if_pos hf, c1], by simp [hf, c2]⟩
    · exact ⟨true, if_neg hf, by simp [hf]⟩
  obtain ⟨b5, ck', v1, v2, v3⟩ : ∃ b ck', (if fl.secondSimple then dcSecondSimple e it ck p.lagr j else some (true, ck)) = some (b, ck') ∧
      IterateDims n m ck' ∧ (b = true ↔ (fl.secondSimple = true → ∀ k,
        Close e.tol (d.H y (dense m it.consDual) k j) (forwardDiff (d.lagr (dense m it.consDual) k) x j h))) := by
    by_cases hf : fl.secondSimple = true
    · obtain ⟨b, ck', c1, c2, c3⟩ := dcSecondSimple_spec hd hz hit hx hh hk.dims (hk.objGrad (Or.inr hf)) (hk.consJac (Or.inr hf)) (hp.lagr hf)
      exact ⟨b, ck', by rw [if_pos hf, c1], c2, by simp [hf, c3]⟩
    · exact ⟨true, ck, if_neg hf, hk.dims, by simp [hf]⟩
  refine ⟨_, ck', by unfold dcCheck; rw [if_neg h0, s1, Option.bind_some, t1, Option.bind_some, v1, Option.map_some], v2, ?_⟩
  have e1 : ((!fl.firstObj || dcFirstObj e it ck j h) = true) ↔
      (fl.firstObj = true → Close e.tol (d.g x j) (forwardDiff d.f x j h)) := by
    by_cases hf : fl.firstObj = true
    · simp only [hf, Bool.not_true, Bool.false_or, forall_const]
      unfold dcFirstObj
      rw [isEq_iff_close, hk.objVal hf, hit.objVal, hx, show it.objGrad.value j = dense n it.objGrad j from rfl, hit.objGrad_eq, hx]
      rfl
    · simp [hf]
  have e2 : ((!fl.firstCons || dcFirstCons e it ck j h) = true) ↔
      (fl.firstCons = true → ∀ i, Close e.tol (d.J x i j) (forwardDiff (fun z => d.c z i) x j h)) := by
    by_cases hf : fl.firstCons = true
    · simp only [hf, Bool.not_true, Bool.false_or, forall_const]
      unfold dcFirstCons
      rw [hd.cons', all_range]
      refine forall_congr' fun i => ?_
      rw [isEq_iff_close, hit.consJac_eq, hx, show ck.consVal.value i = dense m ck.consVal i from rfl, hk.consVal hf,
        show it.consVal.value i = dense m it.consVal i from rfl, hit.consVal_eq, hx]
      rfl
    · simp [hf]
  simp only [Bool.and_eq_true]
  rw [e1, e2, s2, t2, v3]
  constructor
  · rintro ⟨⟨⟨⟨a, b⟩, c⟩, f⟩, g⟩
    exact ⟨a, b, c, f, g⟩
  · rintro ⟨a, b, c, f, g⟩
    exact ⟨⟨⟨⟨a, b⟩, c⟩, f⟩, g⟩

end Sleqp
