import Verif.Lemmas.AugJacDirect
import Verif.Spec.AugJacDirect
import Verif.Props.AugJacReduced

/-!
C67: linear algebra with the working set through a QR factorization (`SLEQP_AUG_JAC_DIRECT`).
-/

namespace Sleqp
open Finset
variable {K : Type*} [Field K] [LinearOrder K]

/-- C67 in part: for a working set in order with at most as many entries as there are constraints
and variables, such that no active constraint depends on a variable before the first active one,
the transposed matrix of the working set is computed. Missing: the other working sets, for which
the code is wrong (`C67_columns_violated`, `C67_overrun_violated`). -/
theorem C67_matrix_partial {n m : Nat} {w : WSet} {l : List WEntry} {J : Mat K} (h : WRep n m w l) (ho : w.Ordered)
    (hJ : J.WF) (hr : J.numRows = m) (hc : J.numCols = n) (hlm : l.length ≤ m) (hln : l.length ≤ n)
    (hfirst : w.actVars ≠ 0 → ∀ j < n, (∀ j' ≤ j, w.varState j' = .inactive) → ∀ i < m, w.consState i ≠ .inactive → J.at? i j = none)
    (W T : Mat K) :
    ∃ W' T', directSet w J W T = some (W', T') ∧ IsTransposed n l.length (workMat l J.value) T' := by
  obtain ⟨q1, q2, q3, q4, q5, q6⟩ := C30_queries h
  have hsz : w.size = w.actVars + w.actCons := by unfold WSet.size; omega
  have hrl := removedRows_length h ho
  have hd1 : (directDims w J W).numCols = n := by
    unfold directDims Mat.resize
    split
    · exact hc
    · split
      · exact hc
      · simp only; omega
  have hd2 : (directDims w J W).numRows = w.actCons := by
    unfold directDims Mat.resize
    split
    · rfl
    · split <;> rfl
  obtain ⟨W0, r1, r2, r3, r4, r5⟩ := C07_mat_remove_rows J (directDims w J W) (removedRows w m) hJ (removedRows_sorted w m)
    (by rw [hr]; exact removedRows_lt w m) (by rw [hc, hd1]) (by rw [hr, hd2]; exact hrl)
  rw [hd2] at r3
  rw [hd1] at r4
  rw [r4] at r5
  -- what a matrix with these rows stores
  have hfin : ∀ W' : Mat K, workingJac w J W = some W' → W'.WF → W'.numRows = l.length → W'.numCols = n →
      (∀ k < l.length, ∀ j < n, W'.value k j = workMat l J.value k j) →
      ∃ W' T', directSet w J W T = some (W', T') ∧ IsTransposed n l.length (workMat l J.value) T' := by
    intro W' w1 w2 w3 w4 w5
    obtain ⟨t1, t2, t3, t4⟩ := C08_trans W' T w2
    refine ⟨W', Mat.trans W' T, ?_, t1, by rw [t2, w4], by rw [t3, w3], fun k hk j hj => ?_⟩
    · unfold directSet
      rw [w1, Option.bind_some, if_pos (by rw [w3, hr]; exact hlm)]
      simp only
      rw [if_pos ⟨Mat.isValid_of_wf t1, by rw [t2, t3, w3, w4]; exact hln⟩]
    · rw [← w5 k hk j hj]
      have := t4 k (by omega) j (by omega)
      unfold Mat.at? at this
      unfold Mat.value valAt
      rw [this]
  -- rows of constraints
  have hcons : ∀ i < w.actCons, ∀ j < n, W0.value i j = workMat l J.value (w.actVars + i) j := by
    intro i hi j hj
    have h1 := r5 i j hj
    rw [oldIdx_removed h ho hi] at h1
    have hk : w.actVars + i < l.length := by omega
    have h2 : ¬ w.content (w.actVars + i) < n := fun h3 => by
      have := (q6 (w.actVars + i) (by omega)).1.mpr h3; omega
    have hcon := h.content (w.actVars + i) hk
    have hok := (h.ok _ (List.getElem_mem hk)).1
    unfold workMat
    rw [List.getElem?_eq_getElem hk]
    simp only [Option.elim_some, WEntry.gradient]
    cases hcs : (l[w.actVars + i]).constraint
    · rw [hcs] at hcon hok
      simp only [Bool.false_eq_true, if_false] at hcon hok
      omega
    · rw [hcs] at hcon
      simp only [if_true] at hcon ⊢
      rw [hcon, Nat.add_sub_cancel_left] at h1
      unfold Mat.at? at h1
      unfold Mat.value valAt
      rw [h1]
  by_cases hav : w.actVars = 0
  · refine hfin W0 ?_ r2 (by omega) r4 fun k hk j hj => ?_
    · unfold workingJac
      rw [hr, r1, Option.bind_some, if_pos hav]
    · have := hcons k (by omega) j hj
      rw [hav, Nat.zero_add] at this
      exact this
  · set W1 := (W0.reserve (W0.nnz + w.actVars)).resize w.size J.numCols with hW1
    have hdef : W1 = { W0 with cap := max W0.cap (W0.nnz + w.actVars), numRows := w.size } := by
      rw [hW1]
      unfold Mat.resize
      rw [if_neg (by simp only [Mat.reserve]; omega), if_neg (by simp only [Mat.reserve]; omega)]
      rfl
    have e1 : W1.ptr = W0.ptr := by rw [hdef]
    have e2 : W1.row = W0.row := by rw [hdef]
    have e3 : W1.val = W0.val := by rw [hdef]
    have e4 : W1.numCols = n := by rw [hdef]; exact r4
    have e5 : W1.numRows = w.size := by rw [hdef]
    have e6 : W1.nnz = W0.nnz := by rw [hdef]
    have hcol : ∀ j, W1.col j = W0.col j := by intro j; unfold Mat.col; rw [e1, e2, e3]
    have hw1 : W1.WF := by
      refine ⟨by rw [e1]; exact r2.ptr_zero, fun j hj => by rw [e1]; exact r2.ptr_mono j (by omega), ?_, ?_, ?_, ?_⟩
      · rw [e1, e4, e6, ← r4]; exact r2.ptr_last
      · rw [hdef]; have := r2.le_cap; simp only; omega
      · intro j hj; rw [hcol]; exact r2.srt j (by omega)
      · intro j hj e he
        rw [hcol] at he
        have := r2.lt_rows j (by omega) e he
        omega
    set S := shiftCols w w.actVars n ⟨w.actVars, W1.ptr, W1.row, W1.val⟩ with hS
    set W2 : Mat K := { W1 with ptr := S.ptr, row := S.row, val := S.val, nnz := W0.nnz + w.actVars } with hW2
    have hempty : ∀ k < n, varRank w (k + 1) = 0 → W1.col k = [] := by
      intro k hk hv
      rw [hcol]
      refine List.eq_nil_iff_forall_not_mem.mpr fun e he => ?_
      have hlt := r2.lt_rows k (by omega) e he
      rw [r3] at hlt
      have hat : W0.at? e.1 k = some e.2 := by
        unfold Mat.at?
        exact (at?_eq_some_iff (r2.srt k (by omega))).mpr he
      rw [r5 e.1 k hk] at hat
      have hin : ∀ j' ≤ k, w.varState j' = .inactive := by
        intro j' hj'
        by_contra hne
        have h1 := varRank_succ w j'
        rw [if_pos hne] at h1
        have := varRank_mono w (a := j' + 1) (b := k + 1) (by omega)
        omega
      have hlt2 : oldIdx (removedRows w m) e.1 < m := by have := oldIdx_le (removedRows w m) e.1; omega
      have hst : w.consState (oldIdx (removedRows w m) e.1) ≠ .inactive := by
        intro h1
        exact oldIdx_not_mem (removedRows_sorted w m) e.1 (List.mem_filter.mpr ⟨List.mem_range.mpr hlt2, by simpa using h1⟩)
      rw [hfirst hav k hk hin _ hlt2 hst] at hat
      simp at hat
    obtain ⟨s1, s2, s3⟩ := shiftCols_col (w := w) hw1 e4 (varRank_all h ho).symm hempty W2 rfl rfl rfl
    rw [← hS] at s1
    have hlow : ∀ j < n, w.varState j ≠ .inactive → varRank w j < w.actVars := by
      intro j hj hne
      have h1 := varRank_succ w j
      rw [if_pos hne] at h1
      have := varRank_mono w (a := j + 1) (b := n) hj
      rw [varRank_all h ho] at this
      omega
    have hwf : W2.WF := by
      refine ⟨?_, fun j hj => ?_, ?_, ?_, fun j hj => ?_, fun j hj e he => ?_⟩
      · rw [s2 0 (Nat.zero_le _), hw1.ptr_zero]; rfl
      · have hj : j < n := by rw [← e4]; exact hj
        rw [s2 j (by omega), s2 (j + 1) hj]
        have := hw1.ptr_mono j (by omega)
        have := varRank_mono w (a := j) (b := j + 1) (by omega)
        omega
      · have : W2.numCols = n := e4
        rw [this, s2 n le_rfl, varRank_all h ho, ← e4, hw1.ptr_last, e6]
      · show W0.nnz + w.actVars ≤ W1.cap
        rw [hdef]; simp only; omega
      · have hj : j < n := by rw [← e4]; exact hj
        rw [s3 j hj]
        have hm : Srt ((W1.col j).map fun e => (e.1 + w.actVars, e.2)) := by
          rw [Srt, List.pairwise_map]
          exact (hw1.srt j (by omega)).imp fun {a b} hab => by simp only; omega
        split
        · rename_i hne
          rw [List.singleton_append, srt_cons]
          refine ⟨fun e he => ?_, hm⟩
          obtain ⟨e', -, rfl⟩ := List.mem_map.mp he
          have := hlow j hj hne
          simp only; omega
        · exact hm
      · have hj : j < n := by rw [← e4]; exact hj
        show e.1 < W1.numRows
        rw [s3 j hj] at he
        rw [e5, hsz]
        rcases List.mem_append.mp he with h1 | h1
        · split at h1
          · rename_i hne
            rw [List.mem_singleton.mp h1]
            have := hlow j hj hne
            simp only; omega
          · simp at h1
        · obtain ⟨e', h2, rfl⟩ := List.mem_map.mp h1
          rw [hcol] at h2
          have := r2.lt_rows j (by omega) e' h2
          simp only; omega
    refine hfin W2 ?_ hwf (by show W1.numRows = _; omega) e4 fun k hk j hj => ?_
    · unfold workingJac
      rw [hr, r1, Option.bind_some, if_neg hav, hc]
      simp only
      rw [← hc, ← hW1, hc, ← hS, if_pos s1, if_pos (Mat.isValid_of_wf hwf)]
    · have hsrt2 := hwf.srt j (by show j < W1.numCols; omega)
      rcases Nat.lt_or_ge k w.actVars with h1 | h1
      · -- row of a variable
        have hcn := (q6 k (by omega)).1.mp h1
        have hcon := h.content k hk
        have hW : workMat l J.value k j = if w.content k = j then 1 else 0 := by
          unfold workMat
          rw [List.getElem?_eq_getElem hk]
          simp only [Option.elim_some, WEntry.gradient]
          cases hcs : (l[k]).constraint
          · rw [hcs] at hcon
            simp only [Bool.false_eq_true, if_false] at hcon ⊢
            rw [hcon]
          · rw [hcs] at hcon; simp only [if_true] at hcon; omega
        rw [hW]
        have hidx := (q2 _ hcn k).mpr ⟨by omega, rfl⟩
        split
        · rename_i heq
          have hrk := varRank_of_idx h ho hcn hidx
          rw [heq] at hidx hrk
          have hne : w.varState j ≠ .inactive := fun h2 => by
            rw [(q4 j hj).mpr h2] at hidx; simp at hidx
          show valAt (W2.col j) k = 1
          refine valAt_of_mem hsrt2 (e := (k, 1)) ?_
          rw [s3 j hj, if_pos hne, hrk]; simp
        · rename_i hneq
          show valAt (W2.col j) k = 0
          unfold valAt
          rw [at?_none_of_forall]; · rfl
          intro e he hek
          rw [s3 j hj] at he
          rcases List.mem_append.mp he with h2 | h2
          · split at h2
            · rename_i hne
              rw [List.mem_singleton.mp h2] at hek
              simp only at hek
              have h3 : w.varIdx j ≠ none := fun h4 => hne ((q4 j hj).mp h4)
              obtain ⟨i, hi⟩ := Option.ne_none_iff_exists'.mp h3
              have h5 := varRank_of_idx h ho hj hi
              have h6 := (q2 j hj i).mp hi
              rw [show i = k by omega] at h6
              exact hneq h6.2
            · simp at h2
          · obtain ⟨e', -, rfl⟩ := List.mem_map.mp h2
            simp only at hek; omega
      · -- row of a constraint
        obtain ⟨i, rfl⟩ : ∃ i, k = w.actVars + i := ⟨k - w.actVars, by omega⟩
        rw [← hcons i (by omega) j hj]
        show valAt (W2.col j) (w.actVars + i) = valAt (W0.col j) i
        unfold valAt
        rw [at?_congr hsrt2 (r2.srt j (by omega)) (i := w.actVars + i) (j := i)]
        intro v
        rw [s3 j hj, List.mem_append, hcol]
        constructor
        · rintro (h2 | h2)
          · split at h2
            · rename_i hne
              have h3 := List.mem_singleton.mp h2
              simp only [Prod.mk.injEq] at h3
              have := hlow j hj hne
              omega
            · simp at h2
          · obtain ⟨⟨a, b⟩, h3, h4⟩ := List.mem_map.mp h2
            simp only [Prod.mk.injEq] at h4
            rw [show i = a by omega, ← h4.2]; exact h3
        · intro h2
          right
          exact List.mem_map.mpr ⟨(i, v), h2, by simp; omega⟩

/-! ### The services -/

theorem qrResult_spec [IsStrictOrderedRing K] (x : Nat → K) {d : Nat} {b out : Vec K} (hb : b.dim = d) (ho : out.dim = d) :
    ∃ v, qrResult x d b out = some v ∧ v.WF ∧ v.dim = d ∧ ∀ i < d, v.value i = x i := by
  obtain ⟨v, v1, v2⟩ := setFromRaw_stores x out d 0
  refine ⟨v, ?_, v2.1, v2.2.1, v2.zero⟩
  unfold qrResult
  rw [if_pos ⟨hb, ho⟩, v1]

/-- `Σ Q i l (Σ Q i l' x l')` -/
theorem orth_cancel {n : Nat} {Q : Nat → Nat → K}
    (h : ∀ l < n, ∀ l' < n, ∑ i ∈ range n, Q i l * Q i l' = if l = l' then 1 else 0) (x : Nat → K) {l : Nat} (hl : l < n) :
    ∑ i ∈ range n, Q i l * (∑ l' ∈ range n, Q i l' * x l') = x l := by
  have h1 : ∀ i ∈ range n, Q i l * (∑ l' ∈ range n, Q i l' * x l') = ∑ l' ∈ range n, Q i l * Q i l' * x l' := fun i _ => by
    rw [Finset.mul_sum]
    exact Finset.sum_congr rfl fun l' _ => (mul_assoc _ _ _).symm
  rw [Finset.sum_congr rfl h1, Finset.sum_comm]
  have h2 : ∀ l' ∈ range n, ∑ i ∈ range n, Q i l * Q i l' * x l' = if l = l' then x l' else 0 := fun l' hl' => by
    rw [← Finset.sum_mul, h l hl l' (Finset.mem_range.mp hl')]
    split
    · rw [one_mul]
    · rw [zero_mul]
  rw [Finset.sum_congr rfl h2, Finset.sum_ite_eq, if_pos (Finset.mem_range.mpr hl)]

/-- a sum over the first `s` of `n` indices -/
theorem sum_first {n s : Nat} (h : s ≤ n) (f : Nat → K) : ∑ l ∈ range n, (if l < s then f l else 0) = ∑ l ∈ range s, f l := by
  rw [← Finset.sum_filter]
  refine Finset.sum_congr ?_ fun _ _ => rfl
  ext l
  simp only [Finset.mem_filter, Finset.mem_range]
  omega

/-- rows of `A` against `Q x` -/
theorem qr_apply {n s : Nat} (hs : s ≤ n) {A Q R : Nat → Nat → K}
    (h : ∀ l < n, ∀ l' < n, ∑ i ∈ range n, Q i l * Q i l' = if l = l' then 1 else 0)
    (hA : ∀ k < s, ∀ j < n, A k j = ∑ l ∈ range s, Q j l * R l k) (x : Nat → K) {k : Nat} (hk : k < s) :
    ∑ j ∈ range n, A k j * (∑ l ∈ range n, Q j l * x l) = ∑ l ∈ range s, R l k * x l := by
  have h1 : ∀ j ∈ range n, A k j * (∑ l ∈ range n, Q j l * x l) =
      ∑ l ∈ range s, R l k * (Q j l * ∑ l' ∈ range n, Q j l' * x l') := fun j hj => by
    rw [hA k hk j (Finset.mem_range.mp hj), Finset.sum_mul]
    exact Finset.sum_congr rfl fun l _ => by ring
  rw [Finset.sum_congr rfl h1, Finset.sum_comm]
  refine Finset.sum_congr rfl fun l hl => ?_
  rw [← Finset.mul_sum, orth_cancel h x (by have := Finset.mem_range.mp hl; omega)]

/-- `Aᵀ y = Q [R y; 0]` -/
theorem qr_trans {n s : Nat} (hs : s ≤ n) {A Q R : Nat → Nat → K}
    (hA : ∀ k < s, ∀ j < n, A k j = ∑ l ∈ range s, Q j l * R l k) (y : Nat → K) {j : Nat} (hj : j < n) :
    ∑ k ∈ range s, A k j * y k = ∑ l ∈ range n, Q j l * (if l < s then ∑ k ∈ range s, R l k * y k else 0) := by
  have h0 : ∀ l ∈ range n, Q j l * (if l < s then ∑ k ∈ range s, R l k * y k else 0) =
      if l < s then Q j l * ∑ k ∈ range s, R l k * y k else 0 := fun l _ => by
    split
    · rfl
    · rw [mul_zero]
  rw [Finset.sum_congr rfl h0, sum_first hs]
  have h1 : ∀ k ∈ range s, A k j * y k = ∑ l ∈ range s, Q j l * (R l k * y k) := fun k hk => by
    rw [hA k (Finset.mem_range.mp hk) j hj, Finset.sum_mul]
    exact Finset.sum_congr rfl fun l _ => mul_assoc _ _ _
  rw [Finset.sum_congr rfl h1, Finset.sum_comm]
  exact Finset.sum_congr rfl fun l _ => (Finset.mul_sum _ _ _).symm

omit [Field K] [LinearOrder K] in
theorem mem_dropWhile_of_not {p : Nat × K → Bool} {L : List (Nat × K)} {e : Nat × K} (h : e ∈ L) (hp : p e = false) :
    e ∈ L.dropWhile p := by
  induction L with
  | nil => simp at h
  | cons a t ih =>
    rw [List.dropWhile_cons]
    split
    · rename_i h1
      rcases List.mem_cons.mp h with h2 | h2
      · rw [← h2, hp] at h1; simp at h1
      · exact ih h2
    · exact h

omit [LinearOrder K] in
theorem resize_value {v : Vec K} (hv : v.WF) (d i : Nat) (hi : i < d) : (v.resize d).value i = v.value i := by
  have hw := resize_wf hv d
  show valAt (v.resize d).ents i = valAt v.ents i
  unfold valAt
  rw [at?_congr hw.srt hv.srt (i := i) (j := i)]
  intro x
  unfold Vec.resize
  split
  · simp only [List.mem_reverse]
    constructor
    · intro h1
      have := (List.dropWhile_sublist _).mem h1
      simpa using this
    · intro h1
      exact mem_dropWhile_of_not (by simpa using h1) (by simp; omega)
  · rfl

omit [Field K] [LinearOrder K] in
theorem resize_dim (v : Vec K) (d : Nat) : (v.resize d).dim = d := by
  unfold Vec.resize; split <;> rfl

omit [LinearOrder K] in
/-- the slice taken by the projection -/
theorem slice_value {p : Vec K} (hp : p.WF) (s : Nat) :
    (⟨p.dim, p.cap, p.ents.dropWhile fun e => decide (e.1 < s)⟩ : Vec K).WF ∧
    ∀ i, (⟨p.dim, p.cap, p.ents.dropWhile fun e => decide (e.1 < s)⟩ : Vec K).value i = if i < s then 0 else p.value i := by
  have hsub := List.dropWhile_sublist (fun e : Nat × K => decide (e.1 < s)) (l := p.ents)
  have hw : (⟨p.dim, p.cap, p.ents.dropWhile fun e => decide (e.1 < s)⟩ : Vec K).WF :=
    ⟨List.Pairwise.sublist hsub hp.srt, fun e he => hp.lt_dim e (hsub.mem he), le_trans hsub.length_le hp.le_cap⟩
  refine ⟨hw, fun i => ?_⟩
  show valAt (p.ents.dropWhile fun e => decide (e.1 < s)) i = _
  split
  · rename_i hi
    unfold valAt
    rw [at?_none_of_forall]; · rfl
    intro e he hei
    have hs := hp.srt
    generalize p.ents = L at he hs
    induction L with
    | nil => simp at he
    | cons a t ih =>
      obtain ⟨h1, h2⟩ := srt_cons.mp hs
      rw [List.dropWhile_cons] at he
      split at he
      · exact ih he h2
      · rename_i h3
        simp only [decide_eq_true_eq] at h3
        rcases List.mem_cons.mp he with h4 | h4
        · rw [h4] at hei; omega
        · have := h1 e h4; omega
  · rename_i hi
    show valAt _ i = valAt p.ents i
    unfold valAt
    rw [at?_congr hw.srt hp.srt (i := i) (j := i)]
    intro x
    exact ⟨fun h1 => hsub.mem h1, fun h1 => mem_dropWhile_of_not h1 (by simpa using hi)⟩

/-- C67: with the transposed working set matrix and its QR factorization, `solve_min_norm` returns
the solution of `A x = rhs` of smallest norm. -/
theorem C67_min_norm [IsStrictOrderedRing K] {F : Qr K} {n s : Nat} (hs : s ≤ n) {A : Nat → Nat → K} {T : Mat K}
    (hT : IsTransposed n s A T) (hF : F.Factors T n s) {rhs : Vec K} (hr : rhs.WF) (hd : rhs.dim = s) (product : Vec K)
    {sol : Vec K} (hsol : sol.dim = n) :
    ∃ v, directMinNorm F T rhs product sol = some v ∧ v.WF ∧ v.dim = n ∧ IsMinNorm n s A rhs.value v.value := by
  obtain ⟨Q, R, h1, h2, h3, h4, h5, h6, h7⟩ := hF
  have hA : ∀ k < s, ∀ j < n, A k j = ∑ l ∈ range s, Q j l * R l k := fun k hk j hj => by
    rw [← hT.entry k hk j hj, h3 j hj k hk]
  obtain ⟨p, p1, p2, p3, p4⟩ := qrResult_spec (F.solveTriTrans T rhs) (d := s) hd (resize_dim (product.clear) s)
  obtain ⟨g1, g2, g3⟩ := resize_grow p2 (d := n) (by omega)
  obtain ⟨v, v1, v2, v3, v4⟩ := qrResult_spec (F.multOrth T (p.resize n)) (d := n) g2 hsol
  have hpv : ∀ l < n, (p.resize n).value l = if l < s then F.solveTriTrans T rhs l else 0 := by
    intro l hl
    rw [resize_value p2 n l hl]
    split
    · exact p4 l (by assumption)
    · exact valAt_of_ge p2.lt_dim (by omega)
  have hv : ∀ j < n, v.value j = ∑ l ∈ range n, Q j l * (if l < s then F.solveTriTrans T rhs l else 0) := by
    intro j hj
    rw [v4 j hj, h6 _ g1 g2 j hj]
    exact Finset.sum_congr rfl fun l hl => by rw [hpv l (Finset.mem_range.mp hl)]
  -- a multiplier for the row space
  obtain ⟨b, -, b2, b3, b4⟩ := qrResult_spec (F.solveTriTrans T rhs) (d := s) (b := p) (out := p) p3 p3
  refine ⟨v, ?_, v2, v3, isMinNorm_of_rowspace (y := F.solveTri T b) (fun k hk => ?_) fun j hj => ?_⟩
  · unfold directMinNorm
    rw [hT.cols, p1, Option.bind_some]
    simp only
    rw [hT.rows, v1]
  · have e1 : ∑ j ∈ range n, A k j * v.value j =
        ∑ j ∈ range n, A k j * ∑ l ∈ range n, Q j l * (if l < s then F.solveTriTrans T rhs l else 0) :=
      Finset.sum_congr rfl fun j hj => by rw [hv j (Finset.mem_range.mp hj)]
    rw [e1, qr_apply hs h1 hA (fun l => if l < s then F.solveTriTrans T rhs l else 0) hk, ← h5 rhs hr hd k hk]
    exact Finset.sum_congr rfl fun l hl => by rw [if_pos (Finset.mem_range.mp hl)]
  · rw [hv j hj, qr_trans hs hA _ hj]
    refine Finset.sum_congr rfl fun l _ => ?_
    split
    · rename_i hl
      rw [h4 b b2 b3 l hl, b4 l hl]
    · rfl

/-- C67: `solve_lsq` returns multipliers minimising the norm of `Aᵀ y - rhs`. -/
theorem C67_lsq [IsStrictOrderedRing K] {F : Qr K} {n s : Nat} (hs : s ≤ n) {A : Nat → Nat → K} {T : Mat K}
    (hT : IsTransposed n s A T) (hF : F.Factors T n s) {rhs : Vec K} (hr : rhs.WF) (hd : rhs.dim = n) (product : Vec K)
    {sol : Vec K} (hsol : sol.dim = s) :
    ∃ v, directLsq F T rhs product sol = some v ∧ v.WF ∧ v.dim = s ∧ IsLeastSquares n s A rhs.value v.value := by
  obtain ⟨Q, R, h1, h2, h3, h4, h5, h6, h7⟩ := hF
  have hA : ∀ k < s, ∀ j < n, A k j = ∑ l ∈ range s, Q j l * R l k := fun k hk j hj => by
    rw [← hT.entry k hk j hj, h3 j hj k hk]
  obtain ⟨p, p1, p2, p3, p4⟩ := qrResult_spec (F.multOrthTrans T rhs) (d := n) hd (resize_dim product n)
  have g1 := resize_wf p2 s
  obtain ⟨v, v1, v2, v3, v4⟩ := qrResult_spec (F.solveTri T (p.resize s)) (d := s) (resize_dim p s) hsol
  set u : Nat → K := fun l => ∑ i ∈ range n, Q i l * rhs.value i with hu
  have hRv : ∀ l < s, ∑ k ∈ range s, R l k * v.value k = u l := by
    intro l hl
    show _ = ∑ i ∈ range n, Q i l * rhs.value i
    rw [← h7 rhs hr hd l (by omega), ← p4 l (by omega), ← resize_value p2 s l hl, ← h4 _ g1 (resize_dim p s) l hl]
    exact Finset.sum_congr rfl fun k hk => by rw [v4 k (Finset.mem_range.mp hk)]
  have hg : ∀ j < n, rhs.value j = ∑ l ∈ range n, Q j l * u l := by
    intro j hj
    exact (orth_cancel (Q := fun l j => Q j l) (fun i hi i' hi' => h2 i hi i' hi') rhs.value hj).symm
  refine ⟨v, ?_, v2, v3, isLeastSquares_of_null (x := fun j => rhs.value j - ∑ k ∈ range s, A k j * v.value k)
    (fun k hk => ?_) fun j _ => rfl⟩
  · unfold directLsq
    rw [if_pos (by rw [hT.rows]; exact hd), hT.rows, p1, Option.bind_some]
    simp only
    rw [hT.cols, v1]
  · have e1 : ∀ j ∈ range n, A k j * (rhs.value j - ∑ i ∈ range s, A i j * v.value i) =
        A k j * ∑ l ∈ range n, Q j l * (if l < s then 0 else u l) := by
      intro j hj
      have hj := Finset.mem_range.mp hj
      congr 1
      rw [hg j hj, qr_trans hs hA _ hj, ← Finset.sum_sub_distrib]
      refine Finset.sum_congr rfl fun l _ => ?_
      split
      · rename_i hl
        rw [hRv l hl]; ring
      · ring
    rw [Finset.sum_congr rfl e1, qr_apply hs h1 hA (fun l => if l < s then 0 else u l) hk]
    exact Finset.sum_eq_zero fun l hl => by rw [if_pos (Finset.mem_range.mp hl), mul_zero]

/-- C67: `project_nullspace` returns the point of the null space of `A` closest to `rhs`. -/
theorem C67_project [IsStrictOrderedRing K] {F : Qr K} {n s : Nat} (hs : s ≤ n) {A : Nat → Nat → K} {T : Mat K}
    (hT : IsTransposed n s A T) (hF : F.Factors T n s) {rhs : Vec K} (hr : rhs.WF) (hd : rhs.dim = n) (product : Vec K)
    {sol : Vec K} (hsol : sol.dim = n) :
    ∃ v, directProject F T rhs product sol = some v ∧ v.WF ∧ v.dim = n ∧ IsProjection n s A rhs.value v.value := by
  obtain ⟨Q, R, h1, h2, h3, h4, h5, h6, h7⟩ := hF
  have hA : ∀ k < s, ∀ j < n, A k j = ∑ l ∈ range s, Q j l * R l k := fun k hk j hj => by
    rw [← hT.entry k hk j hj, h3 j hj k hk]
  obtain ⟨p, p1, p2, p3, p4⟩ := qrResult_spec (F.multOrthTrans T rhs) (d := n) (out := { product with dim := n }) hd rfl
  obtain ⟨g1, g2⟩ := slice_value p2 s
  obtain ⟨v, v1, v2, v3, v4⟩ := qrResult_spec
    (F.multOrth T (⟨p.dim, p.cap, p.ents.dropWhile fun e => decide (e.1 < s)⟩ : Vec K)) (d := n)
    (b := ⟨p.dim, p.cap, p.ents.dropWhile fun e => decide (e.1 < s)⟩) p3 hsol
  set u : Nat → K := fun l => ∑ i ∈ range n, Q i l * rhs.value i with hu
  have hv : ∀ j < n, v.value j = ∑ l ∈ range n, Q j l * (if l < s then 0 else u l) := by
    intro j hj
    rw [v4 j hj, h6 _ g1 p3 j hj]
    refine Finset.sum_congr rfl fun l hl => ?_
    have hl := Finset.mem_range.mp hl
    rw [g2 l, p4 l hl, h7 rhs hr hd l hl]
  have hg : ∀ j < n, rhs.value j = ∑ l ∈ range n, Q j l * u l := by
    intro j hj
    exact (orth_cancel (Q := fun l j => Q j l) (fun i hi i' hi' => h2 i hi i' hi') rhs.value hj).symm
  have gs := resize_wf p2 s
  refine ⟨v, ?_, v2, v3, isProjection_of_rowspace (y := F.solveTri T (p.resize s)) (fun k hk => ?_) fun j hj => ?_⟩
  · unfold directProject
    rw [hT.rows, p1, Option.bind_some]
    simp only
    rw [hT.cols]
    exact v1
  · have e1 : ∀ j ∈ range n, A k j * v.value j = A k j * ∑ l ∈ range n, Q j l * (if l < s then 0 else u l) := fun j hj => by
      rw [hv j (Finset.mem_range.mp hj)]
    rw [Finset.sum_congr rfl e1, qr_apply hs h1 hA (fun l => if l < s then 0 else u l) hk]
    exact Finset.sum_eq_zero fun l hl => by rw [if_pos (Finset.mem_range.mp hl), mul_zero]
  · rw [hv j hj, hg j hj, qr_trans hs hA _ hj, ← Finset.sum_sub_distrib]
    refine Finset.sum_congr rfl fun l hl => ?_
    have hln := Finset.mem_range.mp hl
    split
    · rename_i hl
      rw [h4 _ gs (resize_dim p s) l hl, resize_value p2 s l hl, p4 l hln, h7 rhs hr hd l hln]; ring
    · ring

/-! ### Violations -/

/-- the working set with variable 1 at its lower bound and constraint 0 at its upper bound -/
theorem exDirectSet : ∃ w, (((WSet.create 2 2 fun _ => 0).addVar 1 .lower).bind fun w => w.addCons 0 .upper) = some w ∧
    WRep 2 2 w [⟨false, 1, .lower⟩, ⟨true, 0, .upper⟩] ∧ w.Ordered := by
  obtain ⟨w1, a1, a2⟩ := wrep_addVar (wrep_create 2 2 fun _ => 0) (i := 1) (st := .lower) (by omega) (by simp)
    (by simp) (by decide)
  obtain ⟨w2, b1, b2⟩ := wrep_addCons a2 (i := 0) (st := .upper) (by omega) (by simp) (by decide)
  refine ⟨w2, by rw [a1, Option.bind_some, b1], b2, ?_⟩
  have hc0 := b2.content 0 (by simp)
  have hc1 := b2.content 1 (by simp)
  simp at hc0 hc1
  intro k k' h1 h2
  have hsz : w2.size = 2 := b2.size
  have : k = 0 ∧ k' = 1 := by omega
  rw [this.1, this.2, hc0, hc1]; omega

/-- the Jacobian `[[1, 1], [0, 1]]` -/
def exJac2 : Mat ℚ := ⟨2, 2, 3, 3, fun k => [0, 1, 3].getD k 3, fun k => [0, 0, 1].getD k 0, fun k => [1, 1, 1].getD k 0⟩

theorem exJac2_wf : exJac2.WF := (C09_isValid_iff exJac2 rfl (by decide)).mp (by decide +kernel)

/-- C67 violated by the code: for two variables `x₀, x₁` with `x₁` at a bound and the active
constraint `x₀ + x₁`, the loop that makes room for the rows of active variables ends at the first
active variable, so the entry of `x₀` stays in row 0, the row of the bound. The matrix factorized
has the rows `(1, 1)` and `(0, 1)` instead of `(0, 1)` and `(1, 1)`: asked for the smallest `x`
with `x₁ = 1` and `x₀ + x₁ = 0`, the code returns a vector with `x₁ = 0`, for every correct QR
factorization. -/
theorem C67_columns_violated : ∃ w W T, WRep 2 2 w [⟨false, 1, .lower⟩, ⟨true, 0, .upper⟩] ∧ w.Ordered ∧
    directSet w exJac2 exJac2 exJac2 = some (W, T) ∧
    T.value 0 1 ≠ workMat [⟨false, 1, .lower⟩, ⟨true, 0, .upper⟩] exJac2.value 1 0 ∧
    ∀ (F : Qr ℚ) (product : Vec ℚ), F.Factors T 2 2 →
      ∃ v, directMinNorm F T ⟨2, 2, [(0, 1)]⟩ product ⟨2, 2, []⟩ = some v ∧
        ¬ IsMinNorm 2 2 (workMat [⟨false, 1, .lower⟩, ⟨true, 0, .upper⟩] exJac2.value) (⟨2, 2, [(0, 1)]⟩ : Vec ℚ).value v.value := by
  obtain ⟨w, hw, h, ho⟩ := exDirectSet
  have hset : (((((WSet.create 2 2 fun _ => 0).addVar 1 .lower).bind fun w => w.addCons 0 .upper).bind fun w =>
      directSet w exJac2 exJac2 exJac2).map fun r => (r.2.isValid, r.2.numRows, r.2.numCols, r.2.nnz, r.2.ptr 0)) =
      some (true, 2, 2, 3, 0) := by decide +kernel
  have hval : (((((WSet.create 2 2 fun _ => 0).addVar 1 .lower).bind fun w => w.addCons 0 .upper).bind fun w =>
      directSet w exJac2 exJac2 exJac2).map fun r => (r.2.value 0 0, r.2.value 1 0, r.2.value 0 1, r.2.value 1 1)) =
      some (1, 1, 0, 1) := by decide +kernel
  rw [hw, Option.bind_some] at hset hval
  rcases hd : directSet w exJac2 exJac2 exJac2 with _ | ⟨W, T⟩
  · rw [hd] at hset; simp at hset
  rw [hd] at hset hval
  simp only [Option.map_some, Option.some.injEq, Prod.mk.injEq] at hset hval
  obtain ⟨k1, k2, k3, k4, k5⟩ := hset
  obtain ⟨m1, m2, m3, m4⟩ := hval
  have hTw : T.WF := (C09_isValid_iff T k5 (by omega)).mp k1
  refine ⟨w, W, T, h, ho, hd, by rw [m3]; decide +kernel, fun F product hF => ?_⟩
  have hrw : (⟨2, 2, [(0, 1)]⟩ : Vec ℚ).WF := (C02_isValid_iff _).mp (by decide +kernel)
  obtain ⟨v, v1, -, -, v4⟩ := C67_min_norm (A := fun k j => T.value j k) le_rfl ⟨hTw, k2, k3, fun _ _ _ _ => rfl⟩ hF hrw rfl product
    (sol := ⟨2, 2, []⟩) rfl
  refine ⟨v, v1, fun hbad => ?_⟩
  have e1 := v4.1 1 (by omega)
  have e2 := hbad.1 0 (by omega)
  rw [Finset.sum_range_succ, Finset.sum_range_one] at e1 e2
  simp only at e1
  rw [m3, m4] at e1
  have w0 : workMat [⟨false, 1, .lower⟩, ⟨true, 0, .upper⟩] exJac2.value 0 0 = 0 := by decide +kernel
  have w1 : workMat [⟨false, 1, .lower⟩, ⟨true, 0, .upper⟩] exJac2.value 0 1 = 1 := by decide +kernel
  have r0 : (⟨2, 2, [(0, 1)]⟩ : Vec ℚ).value 0 = 1 := by decide +kernel
  have r1 : (⟨2, 2, [(0, 1)]⟩ : Vec ℚ).value 1 = 0 := by decide +kernel
  rw [w0, w1, r0] at e2
  rw [r1] at e1
  simp only [zero_mul, zero_add, one_mul] at e1 e2
  rw [e1] at e2
  exact absurd e2 (by norm_num)

/-- C67 violated by the code: the array of row counts has one cell per constraint, but is used with
one cell per entry of the working set: with two variables at bounds and one (inactive) constraint
the transposition writes past its end. -/
theorem C67_overrun_violated : ∃ w W, WRep 2 1 w [⟨false, 0, .lower⟩, ⟨false, 1, .lower⟩] ∧ w.Ordered ∧
    workingJac w ⟨1, 2, 1, 1, fun k => [0, 1, 1].getD k 1, fun _ => 0, fun _ => (1 : ℚ)⟩ (Mat.create 0 0 0 (fun _ => 0) fun _ => 0) = some W ∧
    W.isValid = true ∧ 1 < W.numRows ∧
    directSet w ⟨1, 2, 1, 1, fun k => [0, 1, 1].getD k 1, fun _ => 0, fun _ => (1 : ℚ)⟩ (Mat.create 0 0 0 (fun _ => 0) fun _ => 0)
      (Mat.create 0 0 0 (fun _ => 0) fun _ => 0) = none := by
  obtain ⟨w1, a1, a2⟩ := wrep_addVar (wrep_create 2 1 fun _ => 0) (i := 0) (st := .lower) (by omega) (by simp)
    (by simp) (by decide)
  obtain ⟨w2, b1, b2⟩ := wrep_addVar a2 (i := 1) (st := .lower) (by omega) (by simp) (by simp) (by decide)
  have hd : (((WSet.create 2 1 fun _ => 0).addVar 0 .lower).bind fun w => w.addVar 1 .lower) = some w2 := by
    rw [a1, Option.bind_some, b1]
  have h1 : ((((WSet.create 2 1 fun _ => 0).addVar 0 .lower).bind fun w => w.addVar 1 .lower).bind fun w =>
      (workingJac w ⟨1, 2, 1, 1, fun k => [0, 1, 1].getD k 1, fun _ => 0, fun _ => (1 : ℚ)⟩ (Mat.create 0 0 0 (fun _ => 0) fun _ => 0)).map fun W =>
      (W.isValid, W.numRows)) = some (true, 2) := by decide +kernel
  rw [hd, Option.bind_some] at h1
  rcases hW : workingJac w2 ⟨1, 2, 1, 1, fun k => [0, 1, 1].getD k 1, fun _ => 0, fun _ => (1 : ℚ)⟩ (Mat.create 0 0 0 (fun _ => 0) fun _ => 0) with _ | W
  · rw [hW] at h1; simp at h1
  rw [hW] at h1
  simp only [Option.map_some, Option.some.injEq, Prod.mk.injEq] at h1
  refine ⟨w2, W, b2, ?_, hW, h1.1, by omega, ?_⟩
  · have hc0 := b2.content 0 (by simp)
    have hc1 := b2.content 1 (by simp)
    simp at hc0 hc1
    intro k k' h1 h2
    have hsz : w2.size = 2 := b2.size
    have : k = 0 ∧ k' = 1 := by omega
    rw [this.1, this.2, hc0, hc1]; omega
  · unfold directSet
    have hbig : ¬ W.numRows ≤ 1 := by omega
    rw [hW, Option.bind_some, if_neg hbig]

/-! ### Non-vacuity -/

/-- the hypotheses of `C67_matrix_partial` hold if the first variable is active: the working set
of variable 0 and constraint 0 for the Jacobian `[[1, 1], [0, 1]]` has the rows `(1, 0)` and
`(1, 1)` -/
example : ((((WSet.create 2 2 fun _ => 0).addVar 0 .lower).bind fun w => w.addCons 0 .upper).bind fun w =>
    (directSet w exJac2 exJac2 exJac2).map fun r => ((List.range 2).map r.2.col, decide (w.varState 0 = .inactive))) =
    some ([[(0, 1)], [(0, 1), (1, 1)]], false) := by decide +kernel

/-- and there is a QR factorization of a matrix with a null space: `T = (1, 0)ᵀ` -/
example : ∃ (F : Qr ℚ) (T : Mat ℚ), IsTransposed 2 1 (fun _ j => if j = 0 then 1 else 0) T ∧ F.Factors T 2 1 := by
  refine ⟨⟨fun _ b => b.value, fun _ b => b.value, fun _ b => b.value, fun _ b => b.value⟩,
    ⟨2, 1, 1, 1, fun k => [0, 1].getD k 1, fun _ => 0, fun _ => 1⟩, ⟨(C09_isValid_iff _ rfl (by decide)).mp (by decide +kernel), rfl, rfl, ?_⟩,
    fun i l => if i = l then 1 else 0, fun _ _ => 1, ?_, ?_, ?_, ?_, ?_, ?_, ?_⟩
  · decide +kernel
  · decide +kernel
  · decide +kernel
  · decide +kernel
  · intro b _ _ k hk
    obtain rfl : k = 0 := by omega
    simp
  · intro b _ _ k hk
    obtain rfl : k = 0 := by omega
    simp
  · intro b _ _ i hi
    simp [Finset.sum_ite_eq, hi]
  · intro b _ _ i hi
    simp [Finset.sum_ite_eq', hi]

end Sleqp
