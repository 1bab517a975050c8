import Verif.Model.AugJacReduced
import Verif.Lemmas.AugJac
import Verif.Props.AugJac

/-! Helper lemmas on the normal equations. -/

namespace Sleqp
open Finset

/-! ### Growing matrices -/

section Grow
variable {K : Type*}

theorem pushAllMore_eq (m : Mat K) (j : Nat) (c : List (Nat × K)) (hn : m.nnz ≤ m.cap)
    (ht : m.nnz + c.length ≤ m.numCols * m.numRows) (C : Nat) (M' : Mat K)
    (h : ({ m with cap := C } : Mat K).pushAll j c = some M') :
    ∃ d, c.foldlM (fun m e => pushMore m e.1 j e.2) m = some { M' with cap := d } ∧ M'.nnz ≤ d ∧
      M'.numRows = m.numRows ∧ M'.numCols = m.numCols ∧ M'.nnz = m.nnz + c.length ∧ M'.cap = C := by
  induction c generalizing m with
  | nil =>
    have : some ({ m with cap := C } : Mat K) = some M' := h
    injection this with this
    subst this
    exact ⟨m.cap, rfl, hn, rfl, rfl, rfl, rfl⟩
  | cons e t ih =>
    unfold Mat.pushAll at h
    rw [List.foldlM_cons] at h
    obtain ⟨m1, h1, h2⟩ := Option.bind_eq_some_iff.mp h
    unfold Mat.push at h1
    split at h1
    · rename_i hcond
      injection h1 with h1
      simp only at hcond
      simp only [List.length_cons] at ht
      obtain ⟨d0, hd0, hd1⟩ : ∃ d0, pushMore m e.1 j e.2 = some { m1 with cap := d0 } ∧ m.nnz + 1 ≤ d0 := by
        unfold pushMore
        by_cases hc : m.nnz = m.cap
        · rw [if_pos hc]
          refine ⟨max m.cap (min (m.numCols * m.numRows) (2 * m.nnz + 1)), ?_, ?_⟩
          · unfold Mat.push Mat.reserve
            simp only
            rw [if_pos ⟨by omega, hcond.2⟩, ← h1]
          · omega
        · rw [if_neg hc]
          refine ⟨m.cap, ?_, by omega⟩
          unfold Mat.push
          rw [if_pos ⟨by omega, hcond.2⟩, ← h1]
      rw [List.foldlM_cons, hd0]
      have e1 : m1.numRows = m.numRows := by rw [← h1]
      have e2 : m1.numCols = m.numCols := by rw [← h1]
      have e3 : m1.nnz = m.nnz + 1 := by rw [← h1]
      have e4 : m1.cap = C := by rw [← h1]
      have h2' : ({ ({ m1 with cap := d0 } : Mat K) with cap := C } : Mat K).pushAll j t = some M' := by
        have : ({ ({ m1 with cap := d0 } : Mat K) with cap := C } : Mat K) = m1 := by rw [← e4]
        rw [this]; exact h2
      obtain ⟨d, k1, k2, k3, k4, k5, k6⟩ := ih ({ m1 with cap := d0 } : Mat K) (by simp only; omega)
        (by simp only [e1, e2, e3]; omega) h2'
      simp only [e1, e2, e3] at k3 k4 k5
      exact ⟨d, k1, k2, k3, k4, by rw [k5]; simp; omega, k6⟩
    · simp at h1

theorem assembleMore_eq (m : Mat K) (j : Nat) (cs : List (List (Nat × K))) (hn : m.nnz ≤ m.cap)
    (ht : m.nnz + (cs.map List.length).sum ≤ m.numCols * m.numRows) (C : Nat) (M' : Mat K)
    (h : ({ m with cap := C } : Mat K).assembleFrom j cs = some M') :
    ∃ d, assembleMore m j cs = some { M' with cap := d } ∧ M'.nnz ≤ d := by
  induction cs generalizing m j with
  | nil =>
    have : some ({ m with cap := C } : Mat K) = some M' := h
    injection this with this
    subst this
    exact ⟨m.cap, rfl, hn⟩
  | cons c cs ih =>
    simp only [List.map_cons, List.sum_cons] at ht
    unfold Mat.assembleFrom at h
    obtain ⟨m1, h1, h2⟩ := Option.bind_eq_some_iff.mp h
    obtain ⟨m2, h3, h4⟩ := Option.bind_eq_some_iff.mp h2
    unfold Mat.pushCol at h1
    split at h1
    · rename_i hj
      injection h1 with h1
      set q : Mat K := { m with ptr := setAt m.ptr (j + 1) (m.ptr j) } with hq
      have hpc : m.pushCol j = some q := by unfold Mat.pushCol; rw [if_pos hj]
      have h3' : ({ q with cap := C } : Mat K).pushAll j c = some m2 := by
        rw [← h3, ← h1]
      obtain ⟨d, k1, k2, k3, k4, k5, k6⟩ := pushAllMore_eq q j c hn (by simp only [hq]; omega) C m2 h3'
      have h4' : ({ ({ m2 with cap := d } : Mat K) with cap := C } : Mat K).assembleFrom (j + 1) cs = some M' := by
        have : ({ ({ m2 with cap := d } : Mat K) with cap := C } : Mat K) = m2 := by rw [← k6]
        rw [this]; exact h4
      obtain ⟨d', l1, l2⟩ := ih ({ m2 with cap := d } : Mat K) (j + 1) k2
        (by simp only [k3, k4, k5, hq]; omega) h4'
      refine ⟨d', ?_, l2⟩
      unfold assembleMore
      rw [hpc, Option.bind_some, k1, Option.bind_some, l1]
    · simp at h1

/-- assembling all columns of an empty matrix, growing it as needed -/
theorem assembleMore_wf (m : Mat K) (cs : List (List (Nat × K))) (h0 : m.ptr 0 = 0) (hn : m.nnz = 0)
    (hl : cs.length = m.numCols) (hs : ∀ c ∈ cs, Srt c) (hr : ∀ c ∈ cs, ∀ e ∈ c, e.1 < m.numRows) :
    ∃ m', assembleMore m 0 cs = some m' ∧ m'.WF ∧ m'.numRows = m.numRows ∧
      m'.numCols = m.numCols ∧ ∀ i (h : i < cs.length), m'.col i = cs[i] := by
  have htot : (cs.map List.length).sum ≤ m.numCols * m.numRows := by
    rw [← hl]
    have : ∀ c ∈ cs, c.length ≤ m.numRows := fun c hc => srt_length_le (hs c hc) (hr c hc)
    clear hl hs hr
    induction cs with
    | nil => simp
    | cons c t ih =>
      have h1 := this c (by simp)
      have h2 := ih fun c' hc' => this c' (by simp [hc'])
      simp only [List.map_cons, List.sum_cons, List.length_cons, Nat.succ_mul]
      omega
  obtain ⟨M', a1, a2, a3, a4, -, a5⟩ := Mat.assemble_wf ({ m with cap := (cs.map List.length).sum } : Mat K) cs h0 hn hl hs hr le_rfl
  obtain ⟨d, b1, b2⟩ := assembleMore_eq m 0 cs (by omega) (by rw [hn]; omega) _ M' a1
  exact ⟨_, b1, ⟨a2.ptr_zero, a2.ptr_mono, a2.ptr_last, b2, a2.srt, a2.lt_rows⟩, a3, a4, a5⟩

end Grow

/-! ### The rows of the working set -/

section Rows
variable {K : Type*} [Field K] [LinearOrder K]
variable {n m : Nat} {w : WSet} {l : List WEntry} {J : Mat K}

omit [Field K] [LinearOrder K] in
theorem foldl_count {α : Type*} (f : α → Nat) (L : List α) (s : Nat → Nat) (r : Nat) :
    L.foldl (fun s e => setAt s (f e) (s (f e) + 1)) s r = s r + (L.filter fun e => decide (f e = r)).length := by
  induction L generalizing s with
  | nil => simp
  | cons k t ih =>
    rw [List.foldl_cons, ih]
    by_cases h : f k = r
    · rw [List.filter_cons_of_pos (by simpa using h), ← h]
      simp; omega
    · rw [List.filter_cons_of_neg (by simpa using h), setAt_ne _ _ (Ne.symm h)]

omit [LinearOrder K] in
theorem activeEntries_pos (h : WRep n m w l) (hJ : J.WF) (hr : J.numRows = m) :
    ∀ e ∈ activeEntries w J, w.actVars ≤ e.1 ∧ e.1 < w.size := by
  obtain ⟨q1, q2, q3, -, -, q6⟩ := C30_queries h
  intro e he
  unfold activeEntries at he
  obtain ⟨⟨i, j, x⟩, h1, h2⟩ := List.mem_filterMap.mp he
  obtain ⟨k, hk, rfl⟩ := Option.map_eq_some_iff.mp h2
  obtain ⟨h3, h4⟩ := Mat.entries_mem.mp h1
  have hi : i < m := by rw [← hr]; exact hJ.lt_rows j h3 _ h4
  obtain ⟨k1, k2⟩ := (q3 i hi k).mp hk
  refine ⟨?_, k1⟩
  by_contra hlt
  have := (q6 k k1).1.mp (by simpa using hlt)
  omega

omit [LinearOrder K] in
/-- the entries of one position are the entries of one row of the Jacobian -/
theorem activeEntries_row (h : WRep n m w l) (hJ : J.WF) (hr : J.numRows = m) {r : Nat} (hk : r < l.length)
    (hc : (l[r]).constraint = true) :
    ((activeEntries w J).filter fun e => decide (e.1 = r)).map (fun e => (e.2.1, e.2.2)) =
      (J.entries.filter fun e => decide (e.1 = (l[r]).index)).map fun e => (e.2.1, e.2.2) := by
  obtain ⟨q1, q2, q3, -⟩ := C30_queries h
  have hok := (h.ok _ (List.getElem_mem hk)).1
  have hcon := h.content r hk
  rw [hc] at hok hcon
  simp only [if_true] at hok hcon
  have hrow : ∀ e ∈ J.entries, (w.consIdx e.1 = some r ↔ e.1 = (l[r]).index) := by
    rintro ⟨i, j, x⟩ he
    obtain ⟨h3, h4⟩ := Mat.entries_mem.mp he
    have hi : i < m := by rw [← hr]; exact hJ.lt_rows j h3 _ h4
    simp only
    rw [q3 i hi r]
    constructor
    · rintro ⟨-, h5⟩; omega
    · intro h5; exact ⟨by omega, by omega⟩
  unfold activeEntries
  generalize J.entries = L at hrow
  induction L with
  | nil => rfl
  | cons e t ih =>
    have ih := ih fun e' he' => hrow e' (by simp [he'])
    have he := hrow e (by simp)
    rcases hv : w.consIdx e.1 with _ | k
    · rw [List.filterMap_cons_none (by simp [hv]), List.filter_cons_of_neg (by
        simp only [decide_eq_true_eq]; intro h6; rw [he.mpr h6] at hv; simp at hv)]
      exact ih
    · rw [List.filterMap_cons_some (b := (k, e.2.1, e.2.2)) (by simp [hv])]
      by_cases hkr : k = r
      · subst hkr
        rw [List.filter_cons_of_pos (by simp), List.filter_cons_of_pos (by simpa using he.mp hv), List.map_cons,
          List.map_cons, ih]
      · rw [List.filter_cons_of_neg (by simpa using hkr), List.filter_cons_of_neg (by
          simp only [decide_eq_true_eq]; intro h6; rw [he.mpr h6] at hv; injection hv with hv; exact hkr hv.symm)]
        exact ih

/-- the rows are stored as they are -/
structure RowsOf (n s : Nat) (A : Nat → Nat → K) (a : RowSys K) : Prop where
  size : a.size = s
  srt : ∀ r < s, Srt (a.row r)
  lt : ∀ r < s, ∀ e ∈ a.row r, e.1 < n
  val : ∀ r < s, ∀ j < n, valAt (a.row r) j = A r j

theorem fillSystem_spec (h : WRep n m w l) (hJ : J.WF) (hr : J.numRows = m) (hc : J.numCols = n) (col0 : Nat → Nat)
    (val0 : Nat → K) : ∃ a, fillSystem w J col0 val0 = some a ∧ RowsOf n l.length (workMat l J.value) a ∧
      ∀ r < w.actVars, ∃ c < n, a.row r = [(c, 1)] := by
  obtain ⟨q1, q2, q3, -, -, q6⟩ := C30_queries h
  have hpos := activeEntries_pos h hJ hr
  have hav : w.actVars ≤ w.size := by unfold WSet.size; omega
  set P := activeEntries w J with hP
  set ptr := Mat.prefixSum (rowCounts w J) with hptr
  have hcnt : ∀ r, rowCounts w J r = (if r < w.actVars then 1 else 0) + (P.filter fun e => decide (e.1 = r)).length := by
    intro r
    unfold rowCounts
    rw [foldl_count (fun e : Nat × Nat × K => e.1)]
  have hlow : ∀ r < w.actVars, rowCounts w J r = 1 := by
    intro r hr'
    rw [hcnt, if_pos hr', List.filter_eq_nil_iff.mpr]; · rfl
    intro e he
    have := (hpos e he).1
    simp; omega
  have hptr0 : ∀ r ≤ w.actVars, ptr r = r := by
    intro r
    induction r with
    | zero => intro _; rfl
    | succ r ih =>
      intro hr'
      rw [hptr, Mat.prefixSum, hlow r (by omega)]
      rw [hptr] at ih
      rw [ih (by omega)]
  have hmono : ∀ r, w.actVars ≤ r → r < w.size → ptr r + (P.filter fun e => decide (e.1 = r)).length = ptr (r + 1) := by
    intro r h1 _
    rw [hptr, Mat.prefixSum, hcnt, if_neg (by omega)]; omega
  set col1 := (List.range w.numVars).foldl (fillVar w) col0 with hcol1
  set val1 : Nat → K := fun i => if i < w.actVars then 1 else val0 i with hval1
  have hcol : ∀ r < w.actVars, col1 r = w.content r := by
    have hgen : ∀ N ≤ n, ∀ j < N, ∀ k, w.varIdx j = some k →
        (List.range N).foldl (fillVar w) col0 k = j := by
      intro N
      induction N with
      | zero => intro _ j hj; omega
      | succ N ih =>
        intro hN j hj k hk
        rw [List.range_succ, List.foldl_append, List.foldl_cons, List.foldl_nil]
        unfold fillVar
        rcases hv : w.varIdx N with _ | k'
        · have : j ≠ N := by intro hjn; subst hjn; rw [hv] at hk; simp at hk
          exact ih (by omega) j (by omega) k hk
        · simp only
          by_cases hjn : j = N
          · subst hjn
            rw [hv] at hk; injection hk with hk; subst hk
            simp
          · have hkk : k ≠ k' := by
              intro hkk; subst hkk
              have e1 := ((q2 j (by omega) k).mp hk).2
              have e2 := ((q2 N (by omega) k).mp hv).2
              omega
            rw [setAt_ne _ _ hkk]
            exact ih (by omega) j (by omega) k hk
    intro r hr'
    have hcn := (q6 r (by omega)).1.mp hr'
    rw [hcol1, h.nv]
    exact hgen n le_rfl _ hcn r ((q2 _ hcn r).mpr ⟨by omega, rfl⟩)
  obtain ⟨hspec, hkeep⟩ := Mat.transFold_spec_from ptr w.actVars w.size _ hmono ((fun _ => 0), col1, val1)
    (fun _ _ _ => rfl) P hpos (fun r _ _ => le_rfl)
  rw [hptr0 _ le_rfl] at hkeep
  set S := P.foldl (Mat.transStep ptr) ((fun _ => 0), col1, val1) with hS
  refine ⟨⟨w.size, ptr, S.2.1, S.2.2⟩, ?_, ?_⟩
  · unfold fillSystem
    have hall : (activeEntries w J).all (fun e => decide (w.actVars ≤ e.1 ∧ e.1 < w.size)) = true := by
      rw [List.all_eq_true]
      intro e he
      simpa using hpos e he
    simp only
    rw [if_pos hall]
  set a : RowSys K := ⟨w.size, ptr, S.2.1, S.2.2⟩ with ha
  have hvar : ∀ r < w.actVars, a.row r = [(w.content r, 1)] := by
    intro r hr'
    unfold RowSys.row
    simp only [ha]
    rw [hptr0 (r + 1) (by omega), hptr0 r (by omega), Nat.add_sub_cancel_left]
    obtain ⟨k1, k2⟩ : S.2.1 r = col1 r ∧ S.2.2 r = val1 r := hkeep r hr'
    simp only [List.range'_one, List.map_cons, List.map_nil]
    rw [k1, k2, hcol r hr', hval1]
    simp [hr']
  have hcons : ∀ r, w.actVars ≤ r → (hlt : r < l.length) → a.row r =
      (J.entries.filter fun e => decide (e.1 = (l[r]).index)).map fun e => (e.2.1, e.2.2) := by
    intro r h1 h2
    obtain ⟨s1, s2⟩ := hspec r h1 (by omega)
    have hcr : (l[r]).constraint = true := by
      by_contra hne
      have hok := (h.ok _ (List.getElem_mem h2)).1
      have hcon := h.content r h2
      simp only [hne] at hcon hok
      have := (q6 r (by omega)).1.mpr (by simp at hcon hok; omega)
      omega
    rw [← activeEntries_row h hJ hr h2 hcr, ← s2]
    unfold RowSys.row
    have := hmono r h1 (by omega)
    simp only [ha]
    rw [show ptr (r + 1) - ptr r = (P.filter fun e => decide (e.1 = r)).length by omega]
  refine ⟨⟨q1, ?_, ?_, ?_⟩, fun r hr' => ⟨w.content r, (q6 r (by omega)).1.mp hr', hvar r hr'⟩⟩
  · intro r hr'
    rcases Nat.lt_or_ge r w.actVars with h1 | h1
    · rw [hvar r h1]; simp [Srt]
    · rw [hcons r h1 hr']; exact Mat.entries_row_srt hJ _
  · intro r hr' e he
    rcases Nat.lt_or_ge r w.actVars with h1 | h1
    · rw [hvar r h1] at he
      rw [List.mem_singleton.mp he]
      exact (q6 r (by omega)).1.mp h1
    · rw [hcons r h1 hr'] at he
      simp only [List.mem_map, List.mem_filter] at he
      obtain ⟨⟨i, c, x⟩, ⟨he, _⟩, rfl⟩ := he
      rw [← hc]; exact (Mat.entries_mem.mp he).1
  · intro r hr' j hj
    unfold workMat
    rw [List.getElem?_eq_getElem hr']
    have hok := (h.ok _ (List.getElem_mem hr')).1
    have hcon := h.content r hr'
    simp only [Option.elim_some, WEntry.gradient]
    rcases Nat.lt_or_ge r w.actVars with h1 | h1
    · have hcn := (q6 r (by omega)).1.mp h1
      rw [hvar r h1, valAt_cons]
      cases hcs : (l[r]).constraint
      · rw [hcs] at hcon
        simp only [Bool.false_eq_true, if_false] at hcon ⊢
        rw [hcon]; rfl
      · rw [hcs] at hcon; simp only [if_true] at hcon; omega
    · cases hcs : (l[r]).constraint
      · rw [hcs] at hcon hok
        simp only [Bool.false_eq_true, if_false] at hcon hok
        have := (q6 r (by omega)).1.mpr (by omega)
        omega
      · simp only [if_true]
        rw [hcons r h1 hr']
        unfold Mat.value valAt
        rw [at?_congr (Mat.entries_row_srt hJ _) (hJ.srt j (by omega)) (i := j) (j := (l[r]).index)]
        intro v
        simp only [List.mem_map, List.mem_filter, decide_eq_true_eq, Prod.mk.injEq, Prod.exists]
        constructor
        · rintro ⟨r', c, x, ⟨he, rfl⟩, rfl, rfl⟩
          exact (Mat.entries_mem.mp he).2
        · intro he
          exact ⟨_, j, v, ⟨Mat.entries_mem.mpr ⟨by omega, he⟩, rfl⟩, rfl, rfl⟩

end Rows

/-! ### Products -/

section Products
variable {K : Type*} [Field K] [LinearOrder K]
variable {n s : Nat} {A : Nat → Nat → K} {a : RowSys K}

theorem RowsOf.dot (h : RowsOf n s A a) {i : Nat} (hi : i < s) {L : List (Nat × K)} (hL : Srt L) :
    Vec.dotList (a.row i) L 0 = ∑ t ∈ range n, A i t * valAt L t := by
  rw [dotList_eq (h.srt i hi) hL, zero_add,
    ← sum_range_valAt (h.srt i hi) (h.lt i hi) (fun t x => x * valAt L t) (fun t => zero_mul _)]
  exact Finset.sum_congr rfl fun t ht => by rw [h.val i hi t (Finset.mem_range.mp ht)]

theorem RowsOf.inner (h : RowsOf n s A a) {i j : Nat} (hi : i < s) (hj : j < s) :
    Vec.dotList (a.row i) (a.row j) 0 = ∑ t ∈ range n, A i t * A j t := by
  rw [h.dot hi (h.srt j hj)]
  exact Finset.sum_congr rfl fun t ht => by rw [h.val j hj t (Finset.mem_range.mp ht)]

theorem RowsOf.square (h : RowsOf n s A a) {i : Nat} (hi : i < s) :
    (a.row i).foldl (fun s e => s + e.2 * e.2) 0 = ∑ t ∈ range n, A i t * A i t := by
  have h1 : ∀ (L : List (Nat × K)) (c : K), L.foldl (fun s e => s + e.2 * e.2) c = c + (L.map fun e => e.2 * e.2).sum := by
    intro L
    induction L with
    | nil => simp
    | cons e t ih => intro c; rw [List.foldl_cons, ih, List.map_cons, List.sum_cons, add_assoc]
  rw [h1, zero_add, ← sum_range_valAt (h.srt i hi) (h.lt i hi) (fun _ x => x * x) (fun _ => zero_mul _)]
  exact Finset.sum_congr rfl fun t ht => by rw [h.val i hi t (Finset.mem_range.mp ht)]

theorem RowsOf.trans (h : RowsOf n s A a) {d : Vec K} (hd : d.WF) (hds : d.dim = s) {j : Nat} (hj : j < n) :
    redTransProduct a d j = ∑ k ∈ range s, A k j * d.value k := by
  have h1 : ∀ (L : List (Nat × K)) (c : Nat → K), (∀ e ∈ L, e.1 < s) →
      L.foldl (fun c e => Mat.addCol c e.2 (a.row e.1)) c j = c j + (L.map fun e => A e.1 j * e.2).sum := by
    intro L
    induction L with
    | nil => simp
    | cons e t ih =>
      intro c hL
      have he := hL e (by simp)
      rw [List.foldl_cons, ih _ fun e' he' => hL e' (by simp [he']), Mat.addCol_spec _ _ _ (h.srt _ he),
        h.val _ he j hj, List.map_cons, List.sum_cons]
      ring
  unfold redTransProduct
  rw [h1 _ _ fun e he => by have := hd.lt_dim e he; omega, zero_add]
  exact (sum_range_valAt hd.srt (fun e he => by have := hd.lt_dim e he; omega) (fun k x => A k j * x) (fun k => mul_zero _)).symm

theorem rowsMeet_false {L R : List (Nat × K)} (h : rowsMeet L R = false) (hL : Srt L) (hR : Srt R) : Vec.dotList L R 0 = 0 := by
  rw [dotList_eq hL hR, zero_add]
  refine List.sum_eq_zero fun x hx => ?_
  obtain ⟨e, he, rfl⟩ := List.mem_map.mp hx
  have : valAt R e.1 = 0 := by
    unfold valAt
    rw [at?_none_of_forall]; · rfl
    intro f hf hfe
    unfold rowsMeet at h
    have h1 := List.any_eq_false.mp h e he
    simp only [Bool.not_eq_true] at h1
    have h2 := List.any_eq_false.mp h1 f hf
    simp only [decide_eq_true_eq] at h2
    exact h2 hfe.symm
  rw [this, mul_zero]

theorem RowsOf.product (h : RowsOf n s A a) {d buf : Vec K} (hd : d.WF) (hdn : d.dim = n) (hb : buf.dim = s) :
    ∃ p, redProduct a d buf = some p ∧ p.WF ∧ p.dim = s ∧ ∀ k < s, p.value k = ∑ j ∈ range n, A k j * d.value j := by
  set L := ((List.range s).filter fun r => rowsMeet (a.row r) d.ents).map fun r => (r, Vec.dotList (a.row r) d.ents 0) with hL
  have hsrt : Srt L := by
    rw [hL, Srt, List.pairwise_map]
    exact List.Pairwise.filter _ (List.pairwise_lt_range (n := s))
  obtain ⟨v, v1, v2, v3, v4⟩ := push_list (sol := buf) (cap := s) hsrt
    (by
      intro e he
      obtain ⟨r, hr, rfl⟩ := List.mem_map.mp he
      rw [hb]; exact List.mem_range.mp (List.mem_of_mem_filter hr))
    (by
      rw [hL, List.length_map]
      have := List.length_filter_le (fun r => rowsMeet (a.row r) d.ents) (List.range s)
      rw [List.length_range] at this
      exact this)
  refine ⟨v, ?_, v2, v3.trans hb, fun k hk => ?_⟩
  · rw [← v1, hL]
    have := Vec.foldlM_push_map (fun r => !rowsMeet (a.row r) d.ents) (fun r => (r, Vec.dotList (a.row r) d.ents 0))
      ((buf.clear).reserve s) (List.range s)
    simp only [Bool.not_not] at this
    rw [← this]
    unfold redProduct
    rw [h.size]
    congr 1
    funext p r
    cases rowsMeet (a.row r) d.ents <;> rfl
  · rw [show ∑ j ∈ range n, A k j * d.value j = Vec.dotList (a.row k) d.ents 0 from (h.dot hk hd.srt).symm]
    show valAt v.ents k = _
    rw [v4]
    rcases hm : rowsMeet (a.row k) d.ents with _ | _
    · rw [rowsMeet_false hm (h.srt k hk) hd.srt]
      unfold valAt
      rw [at?_none_of_forall]; · rfl
      intro e he hek
      rw [hL] at he
      obtain ⟨r, hr, rfl⟩ := List.mem_map.mp he
      simp only at hek
      subst hek
      have := (List.mem_filter.mp hr).2
      rw [hm] at this; simp at this
    · exact valAt_of_mem hsrt (e := (k, Vec.dotList (a.row k) d.ents 0))
        (List.mem_map.mpr ⟨k, List.mem_filter.mpr ⟨List.mem_range.mpr hk, hm⟩, rfl⟩)

/-- the matrix of the normal equations -/
theorem normalMatrix_spec (h : RowsOf n s A a) {actVars : Nat} (hav : ∀ r < actVars, ∃ c < n, a.row r = [(c, 1)])
    (lower : Bool) (m0 : Mat K) : ∃ M, normalMatrix lower a actVars m0 = some M ∧ IsNormal lower n s A M := by
  set b0 := (m0.clear).resize s s with hb0
  have hcw := Mat.clear_wf m0
  have hce : ∀ j < m0.clear.numCols, m0.clear.col j = [] := by
    intro j hj
    have hj : j < m0.numCols := hj
    simp [Mat.col, Mat.clear, show j ≤ m0.numCols by omega, show j + 1 ≤ m0.numCols by omega]
  obtain ⟨r1, r2, r3, -, -⟩ := Mat.resize_wf _ s s hcw (fun j hj e he => by
    rw [hce j (by omega)] at he; simp at he)
  rw [← hb0] at r1 r2 r3
  have hnnz : b0.nnz = 0 := by
    rw [hb0]; unfold Mat.resize
    split
    · rfl
    · split
      · rename_i h2
        have h2 : s < m0.numCols := h2
        show (if s ≤ m0.numCols then 0 else _) = 0
        rw [if_pos (by omega)]
      · rfl
  have hcomm : ∀ i j, ∑ t ∈ range n, A i t * A j t = ∑ t ∈ range n, A j t * A i t := fun i j =>
    Finset.sum_congr rfl fun t _ => mul_comm _ _
  cases lower with
  | false =>
    have hsrt : ∀ j, Srt (generalCol a j) := by
      intro j
      unfold generalCol
      rw [Srt, List.pairwise_map]
      exact List.pairwise_lt_range
    have hmem : ∀ j, ∀ e ∈ generalCol a j, e.1 < s := by
      intro j e he
      obtain ⟨i, hi, rfl⟩ := List.mem_map.mp he
      rw [← h.size]; exact List.mem_range.mp hi
    obtain ⟨M, m1, m2, m3, m4, m5⟩ := assembleMore_wf b0 ((List.range s).map (generalCol a)) r1.ptr_zero hnnz
      (by simp [r3]) (by
        intro c hc
        obtain ⟨j, -, rfl⟩ := List.mem_map.mp hc
        exact hsrt j)
      (by
        intro c hc e he
        obtain ⟨j, -, rfl⟩ := List.mem_map.mp hc
        rw [r2]; exact hmem j e he)
    refine ⟨M, ?_, m2, by rw [m3, r2], by rw [m4, r3], fun i hi j hj => ?_⟩
    · unfold normalMatrix
      simp only [h.size, Bool.false_eq_true, if_false]
      exact m1
    · rw [if_neg (by simp)]
      unfold Mat.value
      rw [m5 j (by simpa using hj)]
      simp only [List.getElem_map, List.getElem_range]
      rw [← h.inner hi hj]
      exact valAt_of_mem (hsrt j) (e := (i, Vec.dotList (a.row i) (a.row j) 0))
        (List.mem_map.mpr ⟨i, List.mem_range.mpr (by rw [h.size]; exact hi), rfl⟩)
  | true =>
    have hsrt : ∀ j, Srt (lowerCol a actVars j) := by
      intro j
      unfold lowerCol
      rw [srt_cons]
      refine ⟨fun e he => ?_, ?_⟩
      · obtain ⟨i, hi, rfl⟩ := List.mem_map.mp he
        rw [List.mem_range'_1] at hi
        simp only; omega
      · rw [Srt, List.pairwise_map]
        exact List.pairwise_lt_range' (s := j + 1) (n := a.size - (j + 1)) (step := 1)
    have hmem : ∀ j < s, ∀ e ∈ lowerCol a actVars j, j ≤ e.1 ∧ e.1 < s := by
      intro j hj e he
      unfold lowerCol at he
      rw [List.mem_cons] at he
      rcases he with rfl | he
      · exact ⟨le_rfl, hj⟩
      · obtain ⟨i, hi, rfl⟩ := List.mem_map.mp he
        rw [List.mem_range'_1, h.size] at hi
        simp only; omega
    obtain ⟨M, m1, m2, m3, m4, m5⟩ := assembleMore_wf b0 ((List.range s).map (lowerCol a actVars)) r1.ptr_zero hnnz
      (by simp [r3]) (by
        intro c hc
        obtain ⟨j, -, rfl⟩ := List.mem_map.mp hc
        exact hsrt j)
      (by
        intro c hc e he
        obtain ⟨j, hj, rfl⟩ := List.mem_map.mp hc
        rw [r2]; exact (hmem j (List.mem_range.mp hj) e he).2)
    have hcol : ∀ j < s, M.col j = lowerCol a actVars j := by
      intro j hj
      rw [m5 j (by simpa using hj)]; simp
    have hlow : M.isLower = true := by
      unfold Mat.isLower
      rw [List.all_eq_true]
      intro j hj
      have hj := List.mem_range.mp hj
      rw [m4, r3] at hj
      rw [List.all_eq_true]
      intro e he
      rw [hcol j hj] at he
      exact decide_eq_true (hmem j hj e he).1
    have hlv : ∀ i < s, ∀ j < s, j ≤ i → M.value i j = ∑ t ∈ range n, A i t * A j t := by
      intro i hi j hj hij
      unfold Mat.value
      rw [hcol j hj]
      rcases Nat.lt_or_ge j i with h1 | h1
      · rw [← h.inner hi hj]
        refine valAt_of_mem (hsrt j) (e := (i, Vec.dotList (a.row i) (a.row j) 0)) ?_
        unfold lowerCol
        refine List.mem_cons_of_mem _ (List.mem_map.mpr ⟨i, ?_, rfl⟩)
        rw [List.mem_range'_1, h.size]; omega
      · obtain rfl : i = j := by omega
        have hd : (if i < actVars then 1 else (a.row i).foldl (fun s e => s + e.2 * e.2) 0) = ∑ t ∈ range n, A i t * A i t := by
          rw [← h.square hi]
          split
          · rename_i hia
            obtain ⟨c, -, hrow⟩ := hav i hia
            rw [hrow]; simp
          · rfl
        rw [← hd]
        unfold lowerCol
        rw [valAt_cons, if_pos rfl]
    refine ⟨M, ?_, m2, by rw [m3, r2], by rw [m4, r3], fun i hi j hj => ?_⟩
    · unfold normalMatrix
      simp only [h.size, if_true]
      rw [m1, Option.bind_some, if_pos hlow]
    · split
      · rename_i hij
        rw [hlv j hj i hi (by omega), hcomm]
      · rename_i hij
        exact hlv i hi j hj (by simp at hij; omega)

end Products
end Sleqp
