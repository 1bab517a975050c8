import Verif.Spec.CauchyLp
import Verif.Props.Mat
import Verif.Props.Cauchy

/-! Lemmas about the linear program of the Cauchy step. -/

namespace Sleqp
open Finset
variable {K : Type*} [Field K] [LinearOrder K]

theorem isValid_of_wf {K : Type*} {m : Mat K} (h : m.WF) : m.isValid = true := by
  by_cases hn : m.nnz = 0
  · have hc := h.le_cap
    unfold Mat.isValid
    simp only [hn, decide_true, Bool.true_or, Bool.and_true, decide_eq_true_eq]
    omega
  · exact (C09_isValid_iff m h.ptr_zero hn).mpr h

theorem col_reserve {K : Type*} (m : Mat K) (c j : Nat) : (m.reserve c).col j = m.col j := rfl

/-- appending and removing the identities -/
theorem identities_spec {J : Mat K} {n m : Nat} (hJ : J.WF) (hr : J.numRows = m) (hc : J.numCols = n) :
    ∃ A J', appendIdentities J n m = some A ∧ A.WF ∧ A.numRows = m ∧ A.numCols = n + 2 * m ∧
      (∀ i, ∀ j < n, A.value i j = J.value i j) ∧
      (∀ i, ∀ k < m, A.value i (n + k) = if i = k then 1 else 0) ∧
      (∀ i, ∀ k < m, A.value i (n + m + k) = if i = k then -1 else 0) ∧
      removeIdentities A n m = some J' ∧ J'.WF ∧ J'.numRows = m ∧ J'.numCols = n ∧ ∀ j < n, J'.col j = J.col j := by
  have h0 : (J.reserve (J.nnz + 2 * m)).WF :=
    ⟨hJ.ptr_zero, hJ.ptr_mono, hJ.ptr_last, le_trans hJ.le_cap (le_max_left _ _), hJ.srt, hJ.lt_rows⟩
  obtain ⟨r1, r2, r3, r4, r5⟩ := Mat.resize_wf (J.reserve (J.nnz + 2 * m)) J.numRows (J.numCols + 2 * m) h0
    (fun j hj e he => h0.lt_rows j (lt_of_lt_of_le hj (min_le_right _ _)) e he)
  set B := (J.reserve (J.nnz + 2 * m)).resize J.numRows (J.numCols + 2 * m) with hB
  have hBn : B.nnz = J.nnz ∧ B.ptr n = J.nnz ∧ J.nnz + 2 * m ≤ B.cap := by
    have hl := hJ.ptr_last
    rw [hc] at hl
    rw [hB]
    unfold Mat.resize
    by_cases hm : 0 < m
    · rw [if_pos (by show J.numCols < _; omega)]
      refine ⟨rfl, ?_, le_max_right _ _⟩
      show (if J.numCols < n ∧ n ≤ J.numCols + 2 * m then (if J.numCols = 0 then setAt J.ptr 0 0 else J.ptr) J.numCols
        else (if J.numCols = 0 then setAt J.ptr 0 0 else J.ptr) n) = J.nnz
      rw [if_neg (by omega)]
      by_cases h : J.numCols = 0
      · rw [if_pos h, ← hl, show n = 0 by omega]; unfold setAt; rw [if_pos rfl, hJ.ptr_zero]
      · rw [if_neg h]; exact hl
    · rw [if_neg (by show ¬ J.numCols < _; omega), if_neg (by show ¬ J.numCols > _; omega)]
      exact ⟨rfl, hl, le_max_right _ _⟩
  obtain ⟨b1, b2, b3⟩ := hBn
  set cs : List (List (Nat × K)) := ((List.range m).map fun i => [(i, 1)]) ++ (List.range m).map fun i => [(i, -1)] with hcs
  have hlen : cs.length = 2 * m := by rw [hcs]; simp; omega
  have hsum : (cs.map List.length).sum = 2 * m := by
    rw [hcs]; simp [Function.comp_def]; omega
  have hmem : ∀ c ∈ cs, ∃ i < m, ∃ v : K, c = [(i, v)] := by
    intro c h
    rw [hcs, List.mem_append] at h
    rcases h with h | h <;>
    · obtain ⟨i, hi, rfl⟩ := List.mem_map.mp h
      exact ⟨i, List.mem_range.mp hi, _, rfl⟩
  obtain ⟨A, a1, a2, a3, a4, a5, a6, a7, a8, a9⟩ := Mat.assembleFrom_spec B n cs (by rw [b2, b1]) (by rw [hlen, r3]; omega)
    (by
      intro c h e he
      obtain ⟨i, hi, v, rfl⟩ := hmem c h
      rw [List.mem_singleton] at he
      rw [he, r2, hr]; exact hi)
    (by rw [hsum, b1]; exact b3)
  rw [hlen] at a8
  have hcA : ∀ j < n, A.col j = J.col j := by
    intro j hj
    have : A.col j = B.col j := by
      refine Mat.col_congr (a6 j (by omega)) (a6 (j + 1) (by omega)) fun k _ hk => a7 k ?_
      have hh : B.ptr (j + 1) ≤ B.ptr n := r1.ptr_le (i := j + 1) (j := n) hj (by rw [r3]; omega)
      omega
    rw [this, r4 j (lt_min (by omega) (by show j < J.numCols; omega))]; rfl
  have hcB : ∀ k < 2 * m, ∃ c ∈ cs, A.col (n + k) = c := by
    intro k hk
    exact ⟨_, List.getElem_mem _, (a9 k (by omega)).1⟩
  have hw : A.WF := by
    refine ⟨by rw [a6 0 (by omega)]; exact r1.ptr_zero, ?_, ?_, ?_, ?_, ?_⟩
    · intro j hj
      rw [a3, r3, hc] at hj
      rcases Nat.lt_or_ge j n with h1 | h1
      · rw [a6 j (by omega), a6 (j + 1) (by omega)]; exact r1.ptr_mono j (by omega)
      · obtain ⟨k, rfl⟩ := Nat.exists_eq_add_of_le h1
        exact (a9 k (by omega)).2
    · rw [a3, r3, hc, a8]
    · rw [a5, a4, hsum, b1]; exact b3
    · intro j hj
      rw [a3, r3, hc] at hj
      rcases Nat.lt_or_ge j n with h1 | h1
      · rw [hcA j h1]; exact hJ.srt j (by omega)
      · obtain ⟨k, rfl⟩ := Nat.exists_eq_add_of_le h1
        obtain ⟨c, h2, h3⟩ := hcB k (by omega)
        obtain ⟨i, hi, v, rfl⟩ := hmem c h2
        rw [h3]; simp [Srt]
    · intro j hj e he
      rw [a3, r3, hc] at hj
      rw [a2, r2, hr]
      rcases Nat.lt_or_ge j n with h1 | h1
      · rw [hcA j h1] at he; rw [← hr]; exact hJ.lt_rows j (by omega) e he
      · obtain ⟨k, rfl⟩ := Nat.exists_eq_add_of_le h1
        obtain ⟨c, h2, h3⟩ := hcB k (by omega)
        obtain ⟨i, hi, v, rfl⟩ := hmem c h2
        rw [h3, List.mem_singleton] at he
        rw [he]; exact hi
  obtain ⟨t1, t2, t3, t4, -⟩ := Mat.resize_wf A m n hw (fun j hj e he => by
    have := hw.lt_rows j (lt_of_lt_of_le hj (min_le_right _ _)) e he
    rw [a2, r2, hr] at this; exact this)
  refine ⟨A, A.resize m n, ?_, hw, by rw [a2, r2, hr], by rw [a3, r3, hc], ?_, ?_, ?_, ?_, t1, t2, t3, ?_⟩
  · unfold appendIdentities
    rw [if_pos ⟨hr.symm, hc.symm⟩]; exact a1
  · intro i j hj
    unfold Mat.value; rw [hcA j hj]
  · intro i k hk
    unfold Mat.value
    have : A.col (n + k) = [(k, 1)] := by
      rw [(a9 k (by omega)).1]
      simp only [hcs]
      rw [List.getElem_append_left (by simpa using hk)]; simp
    rw [this]
    by_cases h : i = k
    · simp [valAt, at?, orZero, h]
    · simp [valAt, at?, orZero, h, Ne.symm h]
  · intro i k hk
    unfold Mat.value
    have : A.col (n + m + k) = [(k, -1)] := by
      rw [show n + m + k = n + (m + k) by omega, (a9 (m + k) (by omega)).1]
      simp only [hcs]
      rw [List.getElem_append_right (by simp)]; simp
    rw [this]
    by_cases h : i = k
    · simp [valAt, at?, orZero, h]
    · simp [valAt, at?, orZero, h, Ne.symm h]
  · unfold removeIdentities
    rw [if_pos ⟨by rw [a2, r2, hr], by rw [a3, r3, hc]⟩]
  · intro j hj
    rw [t4 j (lt_min hj (by rw [a3, r3]; omega)), hcA j hj]

section Ordered
variable [IsStrictOrderedRing K]

/-- bounds of the linear program for a constraint -/
def lpConsLb (inf l c : K) : K := if isInfinite inf (-l) then -inf else l - c
/-- bounds of the linear program for a constraint -/
def lpConsUb (inf u c : K) : K := if isInfinite inf u then inf else u - c
/-- bounds of the linear program for a variable -/
def lpVarLb (inf r l x : K) : K := if isInfinite inf (-l) then -r else max (l - x) (-r)
/-- bounds of the linear program for a variable -/
def lpVarUb (inf r u x : K) : K := if isInfinite inf u then r else min (u - x) r

/-- state of a bounds loop -/
structure BndInv (x l u : Vec K) (f g : Nat → K) (lo0 hi0 : Nat → K) (j : Nat) (s : BndLoop K) : Prop where
  kx : ∀ i ≥ j, cursorTo i s.kx = cursorTo i x.ents
  kl : ∀ i ≥ j, cursorTo i s.kl = cursorTo i l.ents
  ku : ∀ i ≥ j, cursorTo i s.ku = cursorTo i u.ents
  lo : ∀ i, s.lo i = if i < j then f i else lo0 i
  hi : ∀ i, s.hi i = if i < j then g i else hi0 i

theorem upd_cell {f lo0 s : Nat → K} {j : Nat} (h : ∀ i, s i = if i < j then f i else lo0 i) {v : K} (hv : v = f j) (i : Nat) :
    WSet.upd s j v i = if i < j + 1 then f i else lo0 i := by
  unfold WSet.upd
  by_cases hi : i = j
  · rw [if_pos hi, if_pos (by omega), hi, hv]
  · rw [if_neg hi, h i]
    by_cases hlt : i < j
    · rw [if_pos hlt, if_pos (by omega)]
    · rw [if_neg hlt, if_neg (by omega)]

theorem cur_step {j : Nat} {k l : List (Nat × K)} (hk : ∀ i ≥ j, cursorTo i k = cursorTo i l) :
    ∀ i ≥ j + 1, cursorTo i (cursorTo j k) = cursorTo i l := by
  intro i hi
  rw [cursorTo_cursorTo (by omega), hk i (by omega)]

theorem cur_val {j : Nat} {k : List (Nat × K)} {v : Vec K} (hs : Srt v.ents) (hk : ∀ i ≥ j, cursorTo i k = cursorTo i v.ents) :
    cursorVal j (cursorTo j k) = v.value j := by
  rw [hk j le_rfl]; exact cursorVal_cursorTo hs j

theorem consBounds_fold {inf : K} {x l u : Vec K} (hx : Srt x.ents) (hl : Srt l.ents) (hu : Srt u.ents) (m : Nat)
    (hfin : ∀ i < m, l.value i < inf / 2 ∧ -(inf / 2) < u.value i ∧ l.value i ≤ u.value i ∧ |x.value i| < inf / 2)
    (hinf : 0 < inf) (lo0 hi0 : Nat → K) :
    ∃ b, (List.range m).foldlM (consBoundsBody inf) ⟨x.ents, l.ents, u.ents, lo0, hi0⟩ = some b ∧
      (∀ i, b.lo i = if i < m then lpConsLb inf (l.value i) (x.value i) else lo0 i) ∧
      (∀ i, b.hi i = if i < m then lpConsUb inf (u.value i) (x.value i) else hi0 i) := by
  obtain ⟨b, h1, h2⟩ := foldlM_range_inv
    (P := BndInv x l u (fun i => lpConsLb inf (l.value i) (x.value i)) (fun i => lpConsUb inf (u.value i) (x.value i)) lo0 hi0)
    (f := consBoundsBody inf) m (s0 := ⟨x.ents, l.ents, u.ents, lo0, hi0⟩)
    ⟨fun _ _ => rfl, fun _ _ => rfl, fun _ _ => rfl, fun i => by rw [if_neg (by omega)], fun i => by rw [if_neg (by omega)]⟩
    (by
      intro j hj s h
      obtain ⟨f1, f2, f3, f4⟩ := hfin j hj
      unfold consBoundsBody
      simp only [cur_val hx h.kx, cur_val hl h.kl, cur_val hu h.ku]
      have c1 : (!isInfinite inf (l.value j) && !isInfinite inf (-u.value j) && isFinite inf (x.value j)) = true := by
        unfold isFinite isInfinite
        simp only [ge_iff_le, Bool.and_eq_true, Bool.not_eq_true', decide_eq_false_iff_not, not_le]
        exact ⟨⟨f1, by linarith⟩, f4⟩
      rw [if_pos c1]
      have c2 : (if isInfinite inf (-l.value j) = true then -inf else l.value j - x.value j) ≤
          (if isInfinite inf (u.value j) = true then inf else u.value j - x.value j) := by
        have := abs_lt.mp f4
        split <;> split <;> linarith
      rw [if_pos c2]
      exact ⟨_, rfl, cur_step h.kx, cur_step h.kl, cur_step h.ku, upd_cell h.lo rfl, upd_cell h.hi rfl⟩)
  exact ⟨b, h1, h2.lo, h2.hi⟩

theorem varBounds_fold {inf r : K} {x l u : Vec K} (hx : Srt x.ents) (hl : Srt l.ents) (hu : Srt u.ents) (n : Nat)
    (hfin : ∀ i < n, l.value i < inf / 2 ∧ -(inf / 2) < u.value i ∧ l.value i ≤ x.value i ∧ x.value i ≤ u.value i ∧ |x.value i| < inf / 2)
    (hr : 0 < r) (lo0 hi0 : Nat → K) :
    ∃ b, (List.range n).foldlM (varBoundsBody inf r) ⟨x.ents, l.ents, u.ents, lo0, hi0⟩ = some b ∧
      (∀ i, b.lo i = if i < n then lpVarLb inf r (l.value i) (x.value i) else lo0 i) ∧
      (∀ i, b.hi i = if i < n then lpVarUb inf r (u.value i) (x.value i) else hi0 i) := by
  obtain ⟨b, h1, h2⟩ := foldlM_range_inv
    (P := BndInv x l u (fun i => lpVarLb inf r (l.value i) (x.value i)) (fun i => lpVarUb inf r (u.value i) (x.value i)) lo0 hi0)
    (f := varBoundsBody inf r) n (s0 := ⟨x.ents, l.ents, u.ents, lo0, hi0⟩)
    ⟨fun _ _ => rfl, fun _ _ => rfl, fun _ _ => rfl, fun i => by rw [if_neg (by omega)], fun i => by rw [if_neg (by omega)]⟩
    (by
      intro j hj s h
      obtain ⟨f1, f2, f3, f4, f5⟩ := hfin j hj
      unfold varBoundsBody
      simp only [cur_val hx h.kx, cur_val hl h.kl, cur_val hu h.ku]
      have c1 : (!isInfinite inf (l.value j) && !isInfinite inf (-u.value j) && isFinite inf (x.value j)) = true := by
        unfold isFinite isInfinite
        simp only [ge_iff_le, Bool.and_eq_true, Bool.not_eq_true', decide_eq_false_iff_not, not_le]
        exact ⟨⟨f1, by linarith⟩, f5⟩
      rw [if_pos c1]
      have c2 : (if isInfinite inf (-l.value j) = true then -r else max (l.value j - x.value j) (-r)) ≤
          (if isInfinite inf (u.value j) = true then r else min (u.value j - x.value j) r) := by
        split <;> split
        · linarith
        · exact le_min (by linarith) (by linarith)
        · exact max_le (by linarith) (by linarith)
        · exact max_le (le_min (by linarith) (by linarith)) (le_min (by linarith) (by linarith))
      rw [if_pos c2]
      exact ⟨_, rfl, cur_step h.kx, cur_step h.kl, cur_step h.ku, upd_cell h.lo rfl, upd_cell h.hi rfl⟩)
  exact ⟨b, h1, h2.lo, h2.hi⟩

/-- the linear program of an iterate and a trust radius -/
structure LpData (e : LpEnv K) (it : Iterate K) (r : K) (lp : LpArrays K) : Prop where
  nv : lp.numVars = e.numLp
  nc : lp.numCons = e.numCons
  vlb : ∀ j < e.numVars, lp.varsLb j = lpVarLb e.inf r (e.bounds.varsLb.value j) (it.primal.value j)
  vub : ∀ j < e.numVars, lp.varsUb j = lpVarUb e.inf r (e.bounds.varsUb.value j) (it.primal.value j)
  slb : ∀ j, e.numVars ≤ j → j < e.numLp → lp.varsLb j = 0
  sub : ∀ j, e.numVars ≤ j → j < e.numLp → lp.varsUb j = e.inf
  clb : ∀ i < e.numCons, lp.consLb i = lpConsLb e.inf (e.bounds.consLb.value i) (it.consVal.value i)
  cub : ∀ i < e.numCons, lp.consUb i = lpConsUb e.inf (e.bounds.consUb.value i) (it.consVal.value i)
  jac : ∀ i < e.numCons, ∀ j < e.numVars, lp.coeffs.value i j = it.consJac.value i j
  pos : ∀ i < e.numCons, ∀ k < e.numCons, lp.coeffs.value i (e.numVars + k) = if i = k then 1 else 0
  neg : ∀ i < e.numCons, ∀ k < e.numCons, lp.coeffs.value i (e.numVars + e.numCons + k) = if i = k then -1 else 0

/-- the objective of the linear program -/
structure LpObjData (e : LpEnv K) (grad : Option (Vec K)) (penalty : K) (obj : Nat → K) : Prop where
  grad : ∀ j < e.numVars, obj j = match grad with | none => 0 | some g => g.value j
  slack : ∀ j, e.numVars ≤ j → j < e.numLp → obj j = penalty

omit [LinearOrder K] [IsStrictOrderedRing K] in
theorem sum_lp (n m : Nat) (f : Nat → K) : ∑ j ∈ range (n + 2 * m), f j =
    ∑ j ∈ range n, f j + ∑ k ∈ range m, f (n + k) + ∑ k ∈ range m, f (n + m + k) := by
  rw [show n + 2 * m = n + m + m by omega, sum_range_add, sum_range_add]

theorem lp_row {e : LpEnv K} {it : Iterate K} {r : K} {lp : LpArrays K} (h : LpData e it r lp) (x : Nat → K) {i : Nat} (hi : i < e.numCons) :
    lp.row x i = ∑ j ∈ range e.numVars, it.consJac.value i j * x j + x (e.numVars + i) - x (e.numVars + e.numCons + i) := by
  unfold LpArrays.row
  rw [h.nv, LpEnv.numLp, sum_lp]
  have h1 : ∑ j ∈ range e.numVars, lp.coeffs.value i j * x j = ∑ j ∈ range e.numVars, it.consJac.value i j * x j :=
    sum_congr rfl fun j hj => by rw [h.jac i hi j (mem_range.mp hj)]
  have h2 : ∑ k ∈ range e.numCons, lp.coeffs.value i (e.numVars + k) * x (e.numVars + k) = x (e.numVars + i) := by
    rw [sum_eq_single_of_mem i (mem_range.mpr hi)]
    · rw [h.pos i hi i hi, if_pos rfl, one_mul]
    · intro k hk hne
      rw [h.pos i hi k (mem_range.mp hk), if_neg (Ne.symm hne), zero_mul]
  have h3 : ∑ k ∈ range e.numCons, lp.coeffs.value i (e.numVars + e.numCons + k) * x (e.numVars + e.numCons + k) =
      -x (e.numVars + e.numCons + i) := by
    rw [sum_eq_single_of_mem i (mem_range.mpr hi)]
    · rw [h.neg i hi i hi, if_pos rfl, neg_one_mul]
    · intro k hk hne
      rw [h.neg i hi k (mem_range.mp hk), if_neg (Ne.symm hne), zero_mul]
  rw [h1, h2, h3]; ring

omit [LinearOrder K] [IsStrictOrderedRing K] in
theorem grad_sum {n : Nat} {grad : Option (Vec K)} {obj : Nat → K}
    (h : ∀ j < n, obj j = match grad with | none => 0 | some g => g.value j) (x : Nat → K) :
    ∑ j ∈ range n, obj j * x j = gradPart grad n x := by
  unfold gradPart
  cases grad with
  | none => exact sum_eq_zero fun j hj => by rw [h j (mem_range.mp hj), zero_mul]
  | some g => exact sum_congr rfl fun j hj => by rw [h j (mem_range.mp hj)]

theorem lp_cost {e : LpEnv K} {grad : Option (Vec K)} {penalty : K} {lp : LpArrays K} (hn : lp.numVars = e.numLp)
    (h : LpObjData e grad penalty lp.obj) (x : Nat → K) :
    lp.cost x = gradPart grad e.numVars x +
      penalty * ∑ i ∈ range e.numCons, (x (e.numVars + i) + x (e.numVars + e.numCons + i)) := by
  unfold LpArrays.cost
  rw [hn, LpEnv.numLp, sum_lp, grad_sum h.grad, mul_sum]
  have h2 : ∑ k ∈ range e.numCons, lp.obj (e.numVars + k) * x (e.numVars + k) = ∑ k ∈ range e.numCons, penalty * x (e.numVars + k) :=
    sum_congr rfl fun k hk => by
      have := mem_range.mp hk
      rw [h.slack _ (by omega) (by unfold LpEnv.numLp; omega)]
  have h3 : ∑ k ∈ range e.numCons, lp.obj (e.numVars + e.numCons + k) * x (e.numVars + e.numCons + k) =
      ∑ k ∈ range e.numCons, penalty * x (e.numVars + e.numCons + k) :=
    sum_congr rfl fun k hk => by
      have := mem_range.mp hk
      rw [h.slack _ (by omega) (by unfold LpEnv.numLp; omega)]
  rw [h2, h3, add_assoc, ← sum_add_distrib]
  congr 1
  exact sum_congr rfl fun k _ => by ring

/-- slack of a constraint violating its lower bound -/
def lpLower (inf v lb : K) : K := if lb ≤ -(inf / 2) then 0 else max (lb - v) 0
/-- slack of a constraint violating its upper bound -/
def lpUpper (inf v ub : K) : K := if inf / 2 ≤ ub then 0 else max (v - ub) 0

theorem lp_viol_split {inf v lb ub : K} (h : lb ≤ ub) : lpLower inf v lb + lpUpper inf v ub = violInf inf v lb ub := by
  unfold lpLower lpUpper violInf
  split <;> split
  · simp
  · rw [zero_add, max_assoc, max_comm (v - ub) 0, ← max_assoc, max_self, max_comm]
  · rw [add_zero, max_assoc, max_self]
  · rcases le_total (lb - v) 0 with h1 | h1
    · rw [max_eq_right h1, zero_add]
      rcases le_total (v - ub) 0 with h2 | h2
      · rw [max_eq_right h2, max_eq_right (max_le h1 h2)]
      · rw [max_eq_left h2, max_eq_right (le_trans h1 h2), max_eq_left h2]
    · rw [max_eq_left h1, max_eq_right (show v - ub ≤ 0 by linarith), add_zero,
        max_eq_left (show v - ub ≤ lb - v by linarith), max_eq_left h1]

/-- the step together with the smallest slacks -/
def lpExtend (e : LpEnv K) (it : Iterate K) (d : Nat → K) : Nat → K := fun j =>
  if j < e.numVars then d j
  else if j < e.numVars + e.numCons then
    lpLower e.inf (it.lin e.numVars d (j - e.numVars)) (e.bounds.consLb.value (j - e.numVars))
  else lpUpper e.inf (it.lin e.numVars d (j - e.numVars - e.numCons)) (e.bounds.consUb.value (j - e.numVars - e.numCons))

theorem lpExtend_var {e : LpEnv K} {it : Iterate K} {d : Nat → K} {j : Nat} (h : j < e.numVars) : lpExtend e it d j = d j := by
  unfold lpExtend; rw [if_pos h]

theorem lpExtend_lower {e : LpEnv K} {it : Iterate K} {d : Nat → K} {i : Nat} (h : i < e.numCons) :
    lpExtend e it d (e.numVars + i) = lpLower e.inf (it.lin e.numVars d i) (e.bounds.consLb.value i) := by
  unfold lpExtend
  rw [if_neg (by omega), if_pos (by omega), Nat.add_sub_cancel_left]

theorem lpExtend_upper {e : LpEnv K} {it : Iterate K} {d : Nat → K} {i : Nat} :
    lpExtend e it d (e.numVars + e.numCons + i) = lpUpper e.inf (it.lin e.numVars d i) (e.bounds.consUb.value i) := by
  unfold lpExtend
  rw [if_neg (by omega), if_neg (by omega), show e.numVars + e.numCons + i - e.numVars - e.numCons = i by omega]

theorem gradPart_congr {grad : Option (Vec K)} {n : Nat} {d d' : Nat → K} (h : ∀ j < n, d j = d' j) : gradPart grad n d = gradPart grad n d' := by
  unfold gradPart
  cases grad with
  | none => rfl
  | some g => exact sum_congr rfl fun j hj => by rw [h j (mem_range.mp hj)]

theorem lin_congr {it : Iterate K} {n : Nat} {d d' : Nat → K} (h : ∀ j < n, d j = d' j) (i : Nat) : it.lin n d i = it.lin n d' i := by
  unfold Iterate.lin
  congr 1
  exact sum_congr rfl fun j hj => by rw [h j (mem_range.mp hj)]

theorem linViol_congr {e : LpEnv K} {it : Iterate K} {d d' : Nat → K} (h : ∀ j < e.numVars, d j = d' j) : linViol e it d = linViol e it d' :=
  sum_congr rfl fun i _ => by rw [lin_congr h]

theorem linModel_congr {e : LpEnv K} {it : Iterate K} {grad : Option (Vec K)} {penalty : K} {d d' : Nat → K}
    (h : ∀ j < e.numVars, d j = d' j) : linModel e it grad penalty d = linModel e it grad penalty d' := by
  unfold linModel
  rw [gradPart_congr h, linViol_congr h]

theorem inRegion_congr {e : LpEnv K} {it : Iterate K} {r : K} {d d' : Nat → K}
    (h : ∀ j < e.numVars, d j = d' j) (hd : InRegion e it r d) : InRegion e it r d' := by
  intro j hj
  rw [← h j hj]; exact hd j hj

variable {e : LpEnv K} {it : Iterate K} {r : K} {lp : LpArrays K} {grad : Option (Vec K)} {penalty : K}

theorem within_var (hb : LpBounds e) (hit : LpIterate e it) (hr : r < e.inf) {j : Nat} (hj : j < e.numVars) (d : K) :
    LpWithin e.inf (lpVarLb e.inf r (e.bounds.varsLb.value j) (it.primal.value j))
      (lpVarUb e.inf r (e.bounds.varsUb.value j) (it.primal.value j)) d ↔
    |d| ≤ r ∧ (e.bounds.varsLb.value j ≤ -(e.inf / 2) ∨ e.bounds.varsLb.value j ≤ it.primal.value j + d) ∧
      (e.inf / 2 ≤ e.bounds.varsUb.value j ∨ it.primal.value j + d ≤ e.bounds.varsUb.value j) := by
  unfold LpWithin lpVarLb lpVarUb isInfinite
  simp only [ge_iff_le, decide_eq_true_eq, abs_le]
  by_cases h1 : e.inf / 2 ≤ -e.bounds.varsLb.value j
  · rw [if_pos h1]
    have h1' : e.bounds.varsLb.value j ≤ -(e.inf / 2) := by linarith
    by_cases h2 : e.inf / 2 ≤ e.bounds.varsUb.value j
    · rw [if_pos h2]
      constructor
      · rintro ⟨a | a, b | b⟩
        · linarith
        · linarith
        · linarith
        · exact ⟨⟨a, b⟩, .inl h1', .inl h2⟩
      · rintro ⟨⟨a, b⟩, -⟩; exact ⟨.inr a, .inr b⟩
    · rw [if_neg h2]
      have := min_le_right (e.bounds.varsUb.value j - it.primal.value j) r
      constructor
      · rintro ⟨a | a, b | b⟩
        · linarith
        · linarith
        · linarith
        · rw [le_min_iff] at b
          exact ⟨⟨a, b.2⟩, .inl h1', .inr (by linarith [b.1])⟩
      · rintro ⟨⟨a, b⟩, -, c⟩
        exact ⟨.inr a, .inr (le_min (by linarith [c.resolve_left h2]) b)⟩
  · rw [if_neg h1]
    have h1' : ¬ e.bounds.varsLb.value j ≤ -(e.inf / 2) := by intro; apply h1; linarith
    have hl := le_max_right (e.bounds.varsLb.value j - it.primal.value j) (-r)
    by_cases h2 : e.inf / 2 ≤ e.bounds.varsUb.value j
    · rw [if_pos h2]
      constructor
      · rintro ⟨a | a, b | b⟩
        · linarith
        · linarith
        · linarith
        · rw [max_le_iff] at a
          exact ⟨⟨a.2, b⟩, .inr (by linarith [a.1]), .inl h2⟩
      · rintro ⟨⟨a, b⟩, c, -⟩
        exact ⟨.inr (max_le (by linarith [c.resolve_left h1']) a), .inr b⟩
    · rw [if_neg h2]
      have hu := min_le_right (e.bounds.varsUb.value j - it.primal.value j) r
      constructor
      · rintro ⟨a | a, b | b⟩
        · linarith
        · linarith
        · linarith
        · rw [max_le_iff] at a
          rw [le_min_iff] at b
          exact ⟨⟨a.2, b.2⟩, .inr (by linarith [a.1]), .inr (by linarith [b.1])⟩
      · rintro ⟨⟨a, b⟩, c, c'⟩
        exact ⟨.inr (max_le (by linarith [c.resolve_left h1']) a), .inr (le_min (by linarith [c'.resolve_left h2]) b)⟩

theorem within_cons (hb : LpBounds e) (hit : LpIterate e it) {i : Nat} (hi : i < e.numCons) (v : K) :
    LpWithin e.inf (lpConsLb e.inf (e.bounds.consLb.value i) (it.consVal.value i))
      (lpConsUb e.inf (e.bounds.consUb.value i) (it.consVal.value i)) v ↔
    (e.bounds.consLb.value i ≤ -(e.inf / 2) ∨ e.bounds.consLb.value i ≤ it.consVal.value i + v) ∧
      (e.inf / 2 ≤ e.bounds.consUb.value i ∨ it.consVal.value i + v ≤ e.bounds.consUb.value i) := by
  have hinf := hb.inf
  have hc := abs_lt.mp (hit.cfin i hi)
  unfold LpWithin lpConsLb lpConsUb isInfinite
  simp only [ge_iff_le, decide_eq_true_eq]
  refine and_congr ?_ ?_
  · by_cases h1 : e.inf / 2 ≤ -e.bounds.consLb.value i
    · rw [if_pos h1]
      exact iff_of_true (.inl le_rfl) (.inl (by linarith))
    · rw [if_neg h1]
      constructor
      · rintro (a | a)
        · left; linarith
        · right; linarith
      · rintro (a | a)
        · exfalso; apply h1; linarith
        · right; linarith
  · by_cases h1 : e.inf / 2 ≤ e.bounds.consUb.value i
    · rw [if_pos h1]
      exact iff_of_true (.inl le_rfl) (.inl h1)
    · rw [if_neg h1]
      constructor
      · rintro (a | a)
        · left; linarith
        · right; linarith
      · rintro (a | a)
        · exact absurd a h1
        · right; linarith

theorem within_slack (hinf : 0 < e.inf) (v : K) : LpWithin e.inf 0 e.inf v ↔ 0 ≤ v := by
  unfold LpWithin
  constructor
  · rintro ⟨a | a, -⟩
    · linarith
    · exact a
  · intro h; exact ⟨.inr h, .inl le_rfl⟩

/-- feasible points of the linear program: steps in the region, slacks covering the violation -/
theorem lp_feasible (hb : LpBounds e) (hit : LpIterate e it) (hr : r < e.inf) (hd : LpData e it r lp) {x : Nat → K}
    (h : LpFeasible e.inf lp x) : InRegion e it r x ∧
      (∀ i < e.numCons, 0 ≤ x (e.numVars + i) ∧ 0 ≤ x (e.numVars + e.numCons + i) ∧
        violInf e.inf (it.lin e.numVars x i) (e.bounds.consLb.value i) (e.bounds.consUb.value i) ≤
          x (e.numVars + i) + x (e.numVars + e.numCons + i)) := by
  have hs : ∀ j, e.numVars ≤ j → j < e.numLp → 0 ≤ x j := by
    intro j h1 h2
    have := h.vars j (by rw [hd.nv]; exact h2)
    rw [hd.slb j h1 h2, hd.sub j h1 h2] at this
    exact (within_slack hb.inf _).mp this
  refine ⟨fun j hj => ?_, fun i hi => ?_⟩
  · have := h.vars j (by rw [hd.nv]; unfold LpEnv.numLp; omega)
    rw [hd.vlb j hj, hd.vub j hj] at this
    exact (within_var hb hit hr hj _).mp this
  · have s1 := hs (e.numVars + i) (by omega) (by unfold LpEnv.numLp; omega)
    have s2 := hs (e.numVars + e.numCons + i) (by omega) (by unfold LpEnv.numLp; omega)
    refine ⟨s1, s2, ?_⟩
    have := h.cons i (by rw [hd.nc]; exact hi)
    rw [hd.clb i hi, hd.cub i hi, within_cons hb hit hi, lp_row hd x hi] at this
    unfold violInf Iterate.lin
    refine max_le (max_le ?_ ?_) (by linarith)
    · split
      · linarith
      · rename_i hn; have := this.1.resolve_left hn; linarith
    · split
      · linarith
      · rename_i hn; have := this.2.resolve_left hn; linarith

/-- a step in the region with the smallest slacks is feasible -/
theorem lp_extend (hb : LpBounds e) (hit : LpIterate e it) (hr : r < e.inf) (hd : LpData e it r lp) {d : Nat → K}
    (h : InRegion e it r d) : LpFeasible e.inf lp (lpExtend e it d) := by
  refine ⟨fun j hj => ?_, fun i hi => ?_⟩
  · rw [hd.nv] at hj
    by_cases h1 : j < e.numVars
    · rw [hd.vlb j h1, hd.vub j h1, lpExtend_var h1]
      exact (within_var hb hit hr h1 _).mpr (h j h1)
    · rw [hd.slb j (by omega) hj, hd.sub j (by omega) hj, within_slack hb.inf]
      unfold lpExtend lpLower lpUpper
      rw [if_neg h1]
      split <;> split
      · exact le_rfl
      · exact le_max_right _ _
      · exact le_rfl
      · exact le_max_right _ _
  · rw [hd.nc] at hi
    rw [hd.clb i hi, hd.cub i hi, within_cons hb hit hi, lp_row hd _ hi, lpExtend_lower hi, lpExtend_upper]
    have : ∑ j ∈ range e.numVars, it.consJac.value i j * lpExtend e it d j = ∑ j ∈ range e.numVars, it.consJac.value i j * d j :=
      sum_congr rfl fun j hj => by rw [lpExtend_var (mem_range.mp hj)]
    rw [this]
    have hl : it.lin e.numVars d i = it.consVal.value i + ∑ j ∈ range e.numVars, it.consJac.value i j * d j := rfl
    set v := it.lin e.numVars d i
    have hle := (hb.cons i hi).2.2
    have key : ∀ a b : K, it.consVal.value i + (∑ j ∈ range e.numVars, it.consJac.value i j * d j + a - b) = v + a - b := by
      intro a b; rw [hl]; ring
    rw [key]
    unfold lpLower lpUpper
    have m1 := le_max_left (e.bounds.consLb.value i - v) 0
    have m2 := le_max_left (v - e.bounds.consUb.value i) 0
    constructor
    · by_cases c1 : e.bounds.consLb.value i ≤ -(e.inf / 2)
      · exact .inl c1
      · right
        rw [if_neg c1]
        split
        · linarith
        · rcases le_total (v - e.bounds.consUb.value i) 0 with c3 | c3
          · rw [max_eq_right c3]; linarith
          · rw [max_eq_left c3]; linarith [le_max_right (e.bounds.consLb.value i - v) 0]
    · by_cases c1 : e.inf / 2 ≤ e.bounds.consUb.value i
      · exact .inl c1
      · right
        rw [if_neg c1]
        split
        · linarith
        · rcases le_total (e.bounds.consLb.value i - v) 0 with c3 | c3
          · rw [max_eq_right c3]; linarith
          · rw [max_eq_left c3]; linarith [le_max_right (v - e.bounds.consUb.value i) 0]

theorem lp_extend_cost (hb : LpBounds e) (hn : lp.numVars = e.numLp) (ho : LpObjData e grad penalty lp.obj) (d : Nat → K) :
    lp.cost (lpExtend e it d) = linModel e it grad penalty d := by
  rw [lp_cost hn ho, linModel, gradPart_congr (d' := d) (fun j hj => lpExtend_var hj)]
  congr 2
  unfold linViol
  exact sum_congr rfl fun i hi => by
    have hi := mem_range.mp hi
    rw [lpExtend_lower hi, lpExtend_upper, lp_viol_split (hb.cons i hi).2.2]

theorem lp_cost_ge (hb : LpBounds e) (hit : LpIterate e it) (hr : r < e.inf) (hd : LpData e it r lp)
    (ho : LpObjData e grad penalty lp.obj) (hp : 0 ≤ penalty) {x : Nat → K} (h : LpFeasible e.inf lp x) :
    linModel e it grad penalty x ≤ lp.cost x := by
  rw [lp_cost hd.nv ho, linModel]
  have := sum_le_sum fun i hi => ((lp_feasible hb hit hr hd h).2 i (mem_range.mp hi)).2.2
  have := mul_le_mul_of_nonneg_left this hp
  unfold linViol
  linarith

theorem optStep_congr {d d' : Nat → K} (h : ∀ j < e.numVars, d j = d' j) (hd : OptStep e it r grad penalty d) :
    OptStep e it r grad penalty d' :=
  ⟨inRegion_congr h hd.1, fun x hx => by rw [← linModel_congr h]; exact hd.2 x hx⟩

/-- the solution of the linear program -/
theorem lp_optimal (hb : LpBounds e) (hit : LpIterate e it) (hr : r < e.inf) (hd : LpData e it r lp)
    (ho : LpObjData e grad penalty lp.obj) (hp : 0 ≤ penalty) {x : Nat → K} (h : LpFeasible e.inf lp x)
    (hopt : ∀ y, LpFeasible e.inf lp y → lp.cost x ≤ lp.cost y) :
    OptStep e it r grad penalty x ∧ lp.cost x = linModel e it grad penalty x ∧
      (0 < penalty → ∀ i < e.numCons,
        x (e.numVars + i) = lpLower e.inf (it.lin e.numVars x i) (e.bounds.consLb.value i) ∧
        x (e.numVars + e.numCons + i) = lpUpper e.inf (it.lin e.numVars x i) (e.bounds.consUb.value i)) := by
  obtain ⟨h1, h2⟩ := lp_feasible hb hit hr hd h
  have hle : ∀ d', InRegion e it r d' → lp.cost x ≤ linModel e it grad penalty d' := fun d' hd' => by
    rw [← lp_extend_cost hb hd.nv ho]; exact hopt _ (lp_extend hb hit hr hd hd')
  have hge := lp_cost_ge hb hit hr hd ho hp h
  have heq := le_antisymm (hle x h1) hge
  refine ⟨⟨h1, fun d' hd' => le_trans hge (hle d' hd')⟩, heq, fun hpos => ?_⟩
  have hsum : ∑ i ∈ range e.numCons, (x (e.numVars + i) + x (e.numVars + e.numCons + i)) = linViol e it x := by
    rw [lp_cost hd.nv ho, linModel] at heq
    exact mul_left_cancel₀ hpos.ne' (add_left_cancel heq)
  have hpt : ∀ i ∈ range e.numCons, violInf e.inf (it.lin e.numVars x i) (e.bounds.consLb.value i) (e.bounds.consUb.value i) =
      x (e.numVars + i) + x (e.numVars + e.numCons + i) :=
    (sum_eq_sum_iff_of_le fun i hi => (h2 i (mem_range.mp hi)).2.2).mp hsum.symm
  intro i hi
  obtain ⟨s1, s2, -⟩ := h2 i hi
  have hv := hpt i (mem_range.mpr hi)
  rw [← lp_viol_split (hb.cons i hi).2.2] at hv
  have hf := h.cons i (by rw [hd.nc]; exact hi)
  rw [hd.clb i hi, hd.cub i hi, within_cons hb hit hi, lp_row hd x hi] at hf
  have hl : it.lin e.numVars x i = it.consVal.value i + ∑ j ∈ range e.numVars, it.consJac.value i j * x j := rfl
  have hle := (hb.cons i hi).2.2
  -- each slack is at least the violation of its bound
  have g1 : lpLower e.inf (it.lin e.numVars x i) (e.bounds.consLb.value i) ≤ x (e.numVars + i) := by
    unfold lpLower
    split
    · exact s1
    · rename_i hn
      have := hf.1.resolve_left hn
      exact max_le (by linarith) s1
  have g2 : lpUpper e.inf (it.lin e.numVars x i) (e.bounds.consUb.value i) ≤ x (e.numVars + e.numCons + i) := by
    unfold lpUpper
    split
    · exact s2
    · rename_i hn
      have := hf.2.resolve_left hn
      exact max_le (by linarith) s2
  constructor <;> linarith

end Ordered
end Sleqp
