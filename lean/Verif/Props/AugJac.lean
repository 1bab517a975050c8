import Verif.Lemmas.AugJac
import Verif.Lemmas.QnVec

/-!
C66: linear algebra with the working set.

The matrix handed to the factorization is the augmented matrix of the working set and the
Jacobian last set; with it the three services return the solution of smallest norm, the
least-squares multipliers and the projection onto the null space (entries of size up to
`zero_eps` are dropped).
-/

namespace Sleqp
open Finset
variable {K : Type*} [Field K] [LinearOrder K]

/-! ### The matrix -/

/-- C66: for every working set in order and every Jacobian of fitting size the augmented matrix
is assembled without overrunning an array or failing an assert, whatever the matrix storage
contained before. -/
theorem C66_matrix {n m : Nat} {w : WSet} {l : List WEntry} {J : Mat K} (h : WRep n m w l) (ho : w.Ordered)
    (hJ : J.WF) (hr : J.numRows = m) (hc : J.numCols = n) (lower : Bool) (m0 : Mat K) :
    ∃ M, fillAugJac lower w J m0 = some M ∧ IsAug lower n l.length (workMat l J.value) M := by
  have hsz := h.size
  obtain ⟨q1, q2, q3, q4, q5, -⟩ := C30_queries h
  set s := l.length with hs
  set A := workMat l J.value with hA
  set maxNnz := n + (J.nnz + w.actVars) + (if lower then 0 else J.nnz + w.actVars) with hmax
  -- the starting state
  set b0 := ((m0.reserve maxNnz).clear).resize (n + s) (n + s) with hb0
  have hcw := Mat.clear_wf (m0.reserve maxNnz)
  have hce : ∀ j < (m0.reserve maxNnz).clear.numCols, (m0.reserve maxNnz).clear.col j = [] := by
    intro j hj
    have hj : j < (m0.reserve maxNnz).numCols := hj
    simp [Mat.col, Mat.clear, show j ≤ (m0.reserve maxNnz).numCols by omega,
      show j + 1 ≤ (m0.reserve maxNnz).numCols by omega]
  obtain ⟨r1, r2, r3, -, -⟩ := Mat.resize_wf _ (n + s) (n + s) hcw (fun j hj e he => by
    rw [hce j (by omega)] at he; simp at he)
  rw [← hb0] at r1 r2 r3
  have hcap : b0.cap = max m0.cap maxNnz := by
    rw [hb0]; unfold Mat.resize; split_ifs <;> rfl
  have hnnz : b0.nnz = 0 := by
    rw [hb0]; unfold Mat.resize
    split
    · rfl
    · split
      · rename_i h2
        have h2 : n + s < (m0.reserve maxNnz).numCols := h2
        show (if n + s ≤ (m0.reserve maxNnz).numCols then 0 else _) = 0
        rw [if_pos (by omega)]
      · rfl
  -- the first block of columns
  have hlen : ((List.range n).map (augCol w J)).length = n := by simp
  have hget : ∀ j (hj : j < ((List.range n).map (augCol w J)).length), ((List.range n).map (augCol w J))[j] = augCol w J j := by
    intro j hj; simp
  have hsum : (((List.range n).map (augCol w J)).map List.length).sum ≤ n + (J.nnz + w.actVars) := by
    rw [List.map_map]; exact sum_augCol_le h hJ hc
  obtain ⟨m1, a1, a2, a3, a4, a5, a6, a7, a8, a9⟩ := Mat.assembleFrom_spec b0 0 ((List.range n).map (augCol w J))
    (by rw [r1.ptr_zero, hnnz]) (by rw [hlen, r3]; omega)
    (by
      intro c hc' e he
      obtain ⟨j, hj, rfl⟩ := List.mem_map.mp hc'
      rw [r2]; exact (augCol_range h hJ hr hc (List.mem_range.mp hj) e he).1)
    (by rw [hnnz, hcap]; omega)
  simp only [Nat.zero_add, hlen] at a8 a9
  have hcol : ∀ j < n, m1.col j = augCol w J j := fun j hj => by
    rw [(a9 j hj).1]; exact hget j (by rw [hlen]; exact hj)
  set m1' : Mat K := { m1 with numCols := n } with hm1'
  have hw1 : m1'.WF := by
    refine ⟨?_, fun j hj => (a9 j hj).2, a8, ?_, fun j hj => ?_, fun j hj e he => ?_⟩
    · show m1.ptr 0 = 0
      rw [a6 0 le_rfl, r1.ptr_zero]
    · show m1.nnz ≤ m1.cap
      rw [a5, a4, hnnz, hcap]; omega
    · have : m1'.col j = augCol w J j := hcol j hj
      rw [this]; exact augCol_srt h ho hJ hr hc hj
    · have hcj : m1'.col j = augCol w J j := hcol j hj
      rw [hcj] at he
      show e.1 < m1.numRows
      rw [a2, r2]; exact (augCol_range h hJ hr hc hj e he).1
  have hass : (List.range n).all (augAsserts w J) = true := by
    rw [List.all_eq_true]
    intro j hj
    have hj := List.mem_range.mp hj
    unfold augAsserts
    simp only [Bool.and_eq_true, decide_eq_true_eq, List.all_eq_true]
    refine ⟨?_, fun e he => ?_⟩
    · rw [← not_iff_not, Bool.not_eq_true, Option.isSome_eq_false_iff, Option.isNone_iff_eq_none, q4 j hj, not_not]
    · rw [← not_iff_not, Bool.not_eq_true, Option.isSome_eq_false_iff, Option.isNone_iff_eq_none,
        q5 e.1 (by rw [← hr]; exact hJ.lt_rows j (by omega) e he), not_not]
  have hfill : ∀ M, (if lower then
          (m1.assembleFrom n (List.replicate s [])).bind fun m2 => if m2.isLower then some m2 else none
        else addUpper n m1) = some M → M.isValid = true → fillAugJac lower w J m0 = some M := by
    intro M hM hv
    unfold fillAugJac
    simp only [h.nv, hsz]
    rw [if_pos hass]
    have : (((m0.reserve (n + (J.nnz + w.actVars) + (if lower then 0 else J.nnz + w.actVars))).clear).resize (n + s)
      (n + s)).assembleFrom 0 ((List.range n).map (augCol w J)) = some m1 := a1
    rw [this, Option.bind_some, hM, Option.bind_some, if_pos hv]
  have hval1 : ∀ j < n, ∀ r, valAt (augCol w J j) r = augEntry n A r j := by
    intro j hj r
    rw [augCol_value h ho hJ hr hc hj r]
    unfold augEntry
    by_cases h1 : r < n <;> simp [h1, hj, hA]
  have hsym : ∀ i j, augEntry n A i j = augEntry n A j i := by
    intro i j
    unfold augEntry
    by_cases h1 : i < n <;> by_cases h2 : j < n <;> simp [h1, h2, eq_comm]
  cases lower with
  | true =>
    obtain ⟨m2, b1, b2, b3, b4, b5, b6, b7, b8, b9⟩ := Mat.assembleFrom_spec m1 n (List.replicate s [])
      a8 (by rw [List.length_replicate, a3, r3])
      (by intro c hc' e he; rw [List.eq_of_mem_replicate hc'] at he; simp at he)
      (by have := hw1.le_cap
          simpa using this)
    simp only [List.length_replicate, List.map_replicate, List.length_nil, List.sum_replicate, smul_zero, add_zero] at b5 b8 b9
    have hcA : ∀ j < n, m2.col j = augCol w J j := by
      intro j hj
      rw [← hcol j hj]
      refine Mat.col_congr (b6 j (by omega)) (b6 (j + 1) (by omega)) fun k _ hk => b7 k ?_
      have : m1.ptr (j + 1) ≤ m1.ptr n := hw1.ptr_le (i := j + 1) (j := n) hj le_rfl
      omega
    have hcB : ∀ k < s, m2.col (n + k) = [] := by
      intro k hk
      rw [(b9 k hk).1]; simp
    have hw2 : m2.WF := by
      refine ⟨?_, ?_, ?_, ?_, ?_, ?_⟩
      · rw [b6 0 (by omega)]; exact hw1.ptr_zero
      · intro j hj
        rw [b3, a3, r3] at hj
        rcases Nat.lt_or_ge j n with h1 | h1
        · rw [b6 j (by omega), b6 (j + 1) (by omega)]; exact hw1.ptr_mono j h1
        · obtain ⟨k, rfl⟩ := Nat.exists_eq_add_of_le h1
          exact (b9 k (by omega)).2
      · rw [b3, a3, r3, b8]
      · rw [b5, b4]; exact hw1.le_cap
      · intro j hj
        rw [b3, a3, r3] at hj
        rcases Nat.lt_or_ge j n with h1 | h1
        · rw [hcA j h1]; exact augCol_srt h ho hJ hr hc h1
        · obtain ⟨k, rfl⟩ := Nat.exists_eq_add_of_le h1
          rw [hcB k (by omega)]; simp [Srt]
      · intro j hj
        rw [b3, a3, r3] at hj
        rw [b2, a2, r2]
        rcases Nat.lt_or_ge j n with h1 | h1
        · rw [hcA j h1]; exact fun e he => (augCol_range h hJ hr hc h1 e he).1
        · obtain ⟨k, rfl⟩ := Nat.exists_eq_add_of_le h1
          rw [hcB k (by omega)]; simp
    have hlow : m2.isLower = true := by
      unfold Mat.isLower
      rw [List.all_eq_true]
      intro j hj
      have hj := List.mem_range.mp hj
      rw [b3, a3, r3] at hj
      rw [List.all_eq_true]
      intro e he
      rw [decide_eq_true_eq]
      rcases Nat.lt_or_ge j n with h1 | h1
      · rw [hcA j h1] at he
        rcases (augCol_range h hJ hr hc h1 e he).2 with h2 | h2 <;> omega
      · obtain ⟨k, rfl⟩ := Nat.exists_eq_add_of_le h1
        rw [hcB k (by omega)] at he; simp at he
    refine ⟨m2, hfill m2 (by rw [if_pos rfl, b1, Option.bind_some, if_pos hlow]) (Mat.isValid_of_wf hw2), hw2,
      by rw [b2, a2, r2], by rw [b3, a3, r3], ?_⟩
    have hlv : ∀ i < n + s, ∀ j < n + s, j ≤ i → m2.value i j = augEntry n A i j := by
      intro i hi j hj hij
      unfold Mat.value
      rcases Nat.lt_or_ge j n with h1 | h1
      · rw [hcA j h1, hval1 j h1]
      · obtain ⟨k, rfl⟩ := Nat.exists_eq_add_of_le h1
        rw [hcB k (by omega)]
        unfold augEntry
        rw [if_neg (by omega), if_neg (by omega)]; rfl
    intro i hi j hj
    split
    · rename_i hij
      rw [hlv j hj i hi (by omega), hsym]
    · rename_i hij
      exact hlv i hi j hj (by simp at hij; omega)
  | false =>
    have hadd : m1.nnz + ((colCells m1 n).filter fun c => !decide (m1.row c.2 < n)).length ≤ m1.cap := by
      have h1 : ((colCells m1 n).filter fun c => !decide (m1.row c.2 < n)).length + n ≤ m1.nnz := by
        have e1 : ((colCells m1 n).filter fun c => !decide (m1.row c.2 < n)).length =
            (m1'.entries.filter fun e => !decide (e.1 < n)).length := by
          rw [hm1', ← Mat.colCells_entries, List.filter_map, List.length_map]; rfl
        rw [e1]
        have e2 : m1'.nnz = m1'.entries.length := by
          rw [← hw1.sum_col]; unfold Mat.entries; rw [List.length_flatMap]; simp
        have e2' : m1.nnz = m1'.entries.length := e2
        rw [e2']
        unfold Mat.entries
        rw [List.filter_flatMap, List.length_flatMap, List.length_flatMap]
        have e4 : ((List.range n).map fun _ => 1).sum = n := by simp
        refine le_trans (Nat.add_le_add_left (le_of_eq e4.symm) _) ?_
        show ((List.range n).map _).sum + _ ≤ _
        rw [← sum_map_add']
        refine sum_map_le _ _ _ fun j hj => ?_
        have hj := List.mem_range.mp hj
        have : m1'.col j = augCol w J j := hcol j hj
        rw [this]
        unfold augCol
        rw [List.cons_append, List.map_cons, List.filter_cons_of_neg (by simpa using hj), List.length_cons]
        have := List.length_filter_le (fun e : Nat × Nat × K => !decide (e.1 < n))
          ((((w.varIdx j).map fun k => (w.numVars + k, (1 : K))).toList ++
            (J.col j).filterMap fun e => (w.consIdx e.1).map fun k => (w.numVars + k, e.2)).map fun e => (e.1, j, e.2))
        omega
      have h2 : m1.nnz ≤ n + (J.nnz + w.actVars) := by rw [a5, hnnz]; omega
      have h3 : m1.cap = max m0.cap maxNnz := by rw [a4, hcap]
      simp only [Bool.false_eq_true, if_false] at hmax
      omega
    obtain ⟨M, u1, u2, u3, u4, u5, u6⟩ := Mat.addUpper_spec hw1 (by rw [a2, r2]) (by rw [a3, r3]) hadd
    refine ⟨M, hfill M (by simpa using u1) (Mat.isValid_of_wf u2), u2, u3, u4, ?_⟩
    intro i hi j hj
    rw [if_neg (by simp)]
    unfold Mat.value
    rcases Nat.lt_or_ge j n with h1 | h1
    · rw [u5 j h1, hcol j h1, hval1 j h1]
    · obtain ⟨k, rfl⟩ := Nat.exists_eq_add_of_le h1
      rw [u6 k (by omega), hsym]
      have hsrt := Mat.entries_row_srt hw1 (n + k)
      rcases Nat.lt_or_ge i n with h2 | h2
      · rw [← hval1 i h2]
        unfold valAt
        rw [at?_congr hsrt (augCol_srt h ho hJ hr hc h2) (i := i) (j := n + k)]
        intro v
        rw [← hcol i h2]
        simp only [List.mem_map, List.mem_filter, decide_eq_true_eq, Prod.mk.injEq, Prod.exists]
        constructor
        · rintro ⟨r, c, x, ⟨he, rfl⟩, rfl, rfl⟩
          exact (Mat.entries_mem.mp he).2
        · intro he
          exact ⟨n + k, i, v, ⟨Mat.entries_mem.mpr ⟨h2, he⟩, rfl⟩, rfl, rfl⟩
      · have e1 : augEntry n A (n + k) i = 0 := by
          unfold augEntry; rw [if_neg (by omega), if_neg (by omega)]
        rw [e1]
        unfold valAt
        rw [at?_none_of_forall]; · rfl
        intro e he
        simp only [List.mem_map, List.mem_filter] at he
        obtain ⟨⟨r, c, x⟩, ⟨he, _⟩, rfl⟩ := he
        have : c < n := (Mat.entries_mem.mp he).1
        show c ≠ i
        omega

/-! ### The state kept between calls -/

/-- the matrix kept for a working set that has not changed is the one of that working set -/
def StdAug.Inv (lower : Bool) (n m : Nat) (jac : Nat → Nat → K) (a : StdAug K) : Prop :=
  ∀ c, a.cached = some c → ∃ lc, WRep n m c lc ∧
    (a.hasFact = true → a.size = lc.length ∧ IsAug lower n lc.length (workMat lc jac) a.matrix)

theorem workMat_congr {l l' : List WEntry} (h : l.map (fun e => (e.constraint, e.index)) = l'.map fun e => (e.constraint, e.index))
    (jac : Nat → Nat → K) : workMat l jac = workMat l' jac := by
  funext k j
  have h1 : (l.map (fun e => (e.constraint, e.index)))[k]? = (l'.map fun e => (e.constraint, e.index))[k]? := by rw [h]
  rw [List.getElem?_map, List.getElem?_map] at h1
  unfold workMat
  rcases h2 : l[k]? with _ | e <;> rcases h3 : l'[k]? with _ | e'
  · rfl
  · rw [h2, h3] at h1; simp at h1
  · rw [h2, h3] at h1; simp at h1
  · rw [h2, h3] at h1
    simp only [Option.map_some, Option.some.injEq, Prod.mk.injEq] at h1
    simp [WEntry.gradient, h1.1, h1.2]

/-- C66: one call of `set_iterate`. If the working set is remembered, the values of the Jacobian
must not have changed since (they do not: it is remembered for linear constraints only). -/
theorem C66_set_iterate {n m : Nat} {w : WSet} {l : List WEntry} {J : Mat K} (h : WRep n m w l) (ho : w.Ordered)
    (hJ : J.WF) (hr : J.numRows = m) (hc : J.numCols = n) {lower : Bool} {a : StdAug K}
    (ha : a.Inv lower n m J.value) :
    ∃ a', a.setIterate lower w J = some a' ∧ a'.hasFact = true ∧ a'.size = l.length ∧
      IsAug lower n l.length (workMat l J.value) a'.matrix ∧ a'.Inv lower n m J.value ∧
      (a'.cached.isSome = a.cached.isSome) := by
  obtain ⟨M, f1, f2⟩ := C66_matrix h ho hJ hr hc lower a.matrix
  unfold StdAug.setIterate
  simp only [f1, Option.map_some]
  rcases hca : a.cached with _ | c
  · exact ⟨_, rfl, rfl, h.size, f2, fun c hc => by simp at hc, rfl⟩
  · obtain ⟨lc, c1, c2⟩ := ha c hca
    obtain ⟨r, e1, e2⟩ := C30_eq h c1
    simp only [e1, Option.bind_some]
    split
    · rename_i hcond
      simp only [Bool.and_eq_true] at hcond
      have hl := e2.mp hcond.1
      have hlen : l.length = lc.length := by simpa using congrArg List.length hl
      obtain ⟨c3, c4⟩ := c2 hcond.2
      rw [workMat_congr hl, hlen]
      exact ⟨a, rfl, hcond.2, c3, c4, ha, by rw [hca]⟩
    · obtain ⟨c', w1, w2⟩ := wrep_copy h c1.nv c1.nc
      simp only [w1, Option.bind_some]
      refine ⟨_, rfl, rfl, h.size, f2, ?_, rfl⟩
      intro c'' hc''
      injection hc'' with hc''
      subst hc''
      exact ⟨l, w2, fun _ => ⟨h.size, f2⟩⟩

/-- one call: the working set, its entries, and the Jacobian of the iterate -/
structure AugCall (K : Type*) where
  w : WSet
  l : List WEntry
  J : Mat K

/-- calls the solver makes -/
def AugCall.Ok (n m : Nat) (c : AugCall K) : Prop :=
  WRep n m c.w c.l ∧ c.w.Ordered ∧ c.J.WF ∧ c.J.numRows = m ∧ c.J.numCols = n

/-- C66: over every history of calls, the matrix in use after the last call is the augmented
matrix of the working set and the Jacobian of that call: the shortcut for an unchanged working
set is safe if the constraints are linear (`linear`: a working set is remembered; the Jacobian
is the same in all calls). -/
theorem C66_history {n m : Nat} {lower : Bool} {a : StdAug K} (hnew : a.hasFact = false)
    (hca : ∀ c, a.cached = some c → ∃ lc, WRep n m c lc) (calls : List (AugCall K)) (hok : ∀ c ∈ calls, c.Ok n m)
    (hlin : a.cached ≠ none → ∃ jac, ∀ c ∈ calls, c.J.value = jac) (last : AugCall K) (hl : calls.getLast? = some last) :
    ∃ a', calls.foldlM (fun a c => a.setIterate lower c.w c.J) a = some a' ∧ a'.size = last.l.length ∧
      IsAug lower n last.l.length (workMat last.l last.J.value) a'.matrix := by
  have gen : ∀ (calls : List (AugCall K)) (a : StdAug K) (jac : Nat → Nat → K), (∀ c ∈ calls, c.Ok n m) →
      (a.cached ≠ none → (∀ c ∈ calls, c.J.value = jac) ∧ a.Inv lower n m jac) →
      ∀ last, calls.getLast? = some last →
      ∃ a', calls.foldlM (fun a c => a.setIterate lower c.w c.J) a = some a' ∧ a'.size = last.l.length ∧
      IsAug lower n last.l.length (workMat last.l last.J.value) a'.matrix := by
    intro calls
    induction calls with
    | nil => intro _ _ _ _ last hl; simp at hl
    | cons c t ih =>
      intro a jac hok hinv last hl
      obtain ⟨k1, k2, k3, k4, k5⟩ := hok c (by simp)
      have hi : a.Inv lower n m c.J.value := by
        by_cases hn : a.cached = none
        · intro c' hc'; rw [hn] at hc'; simp at hc'
        · obtain ⟨g1, g2⟩ := hinv hn
          rw [g1 c (by simp)]; exact g2
      obtain ⟨a1, s1, s2, s3, s4, s5, s6⟩ := C66_set_iterate k1 k2 k3 k4 k5 hi
      rw [List.foldlM_cons, s1]
      show ∃ a', List.foldlM _ a1 t = some a' ∧ _
      cases t with
      | nil =>
        simp only [List.getLast?_singleton, Option.some.injEq] at hl
        subst hl
        exact ⟨a1, rfl, s3, s4⟩
      | cons d t =>
        refine ih a1 jac (fun x hx => hok x (by simp [hx])) (fun hn => ?_) last (by rw [← hl]; simp [List.getLast?_cons_cons])
        have hn' : a.cached ≠ none := by
          intro h0
          rw [h0] at s6
          simp at s6
          exact hn s6
        obtain ⟨g1, g2⟩ := hinv hn'
        refine ⟨fun x hx => g1 x (by simp [hx]), ?_⟩
        rw [← g1 c (by simp)]; exact s5
  by_cases hn : a.cached = none
  · exact gen calls a (fun _ _ => 0) hok (fun h => absurd hn h) last hl
  · obtain ⟨jac, hj⟩ := hlin hn
    refine gen calls a jac hok (fun _ => ⟨hj, fun c hc => ?_⟩) last hl
    obtain ⟨lc, h1⟩ := hca c hc
    exact ⟨lc, h1, fun hf => by rw [hnew] at hf; simp at hf⟩

/-! ### The services -/

/-- a stored solution: entries of size up to `eps` are dropped -/
def Stores (n : Nat) (eps : K) (v : Vec K) (x : Nat → K) : Prop :=
  v.WF ∧ v.dim = n ∧ ∀ j < n, v.value j = if |x j| ≤ eps then 0 else x j

theorem factSolution_stores [IsStrictOrderedRing K] (z : Nat → K) (sol : Vec K) (first len : Nat) (eps : K) {v : Vec K}
    (h : factSolution z sol first (first + len) eps = some v) : Stores len eps v fun k => z (first + k) := by
  unfold factSolution at h
  obtain ⟨r, r1, r2, r3, r4⟩ := setFromRaw_spec eps sol ((List.range (first + len - first)).map fun k => z (first + k))
  rw [h] at r1
  injection r1 with r1
  subst r1
  rw [Nat.add_sub_cancel_left] at r3 r4
  refine ⟨r2, by rw [r3]; simp, fun j hj => ?_⟩
  rw [r4, List.getElem?_map, List.getElem?_range hj]
  rfl

/-- what the solution of the augmented system means -/
theorem aug_system [IsStrictOrderedRing K] {F : Fact K} (hF : F.Correct) {n s : Nat} {A : Nat → Nat → K} {M : Mat K} (hM : IsAug F.lower n s A M)
    {b : Vec K} (hb : b.WF) (hd : b.dim = n + s) {z : Nat → K} (hz : F.solve M b = some z) :
    (∀ j < n, z j = b.value j - ∑ k ∈ range s, A k j * z (n + k)) ∧
      ∀ k < s, ∑ j ∈ range n, A k j * z j = b.value (n + k) := by
  have h := hF M b z hM.wf (by rw [hM.rows, hM.cols]) hb (by rw [hd, hM.rows]) hz
  rw [hM.rows, hM.cols] at h
  have h' : ∀ i < n + s, ∑ j ∈ range n, augEntry n A i j * z j + ∑ k ∈ range s, augEntry n A i (n + k) * z (n + k) =
      b.value i := by
    intro i hi
    rw [← h i hi, Finset.sum_range_add]
    congr 1
    · refine Finset.sum_congr rfl fun j hj => ?_
      have := Finset.mem_range.mp hj
      rw [← hM.entry i hi j (by omega)]; rfl
    · refine Finset.sum_congr rfl fun k hk => ?_
      have := Finset.mem_range.mp hk
      rw [← hM.entry i hi (n + k) (by omega)]; rfl
  refine ⟨fun j hj => ?_, fun k hk => ?_⟩
  · have e := h' j (by omega)
    have e1 : ∑ j' ∈ range n, augEntry n A j j' * z j' = z j := by
      rw [Finset.sum_eq_single_of_mem j (Finset.mem_range.mpr hj)]
      · simp [augEntry, hj]
      · intro i hi hne
        have := Finset.mem_range.mp hi
        simp [augEntry, hj, this, Ne.symm hne]
    have e2 : ∑ k ∈ range s, augEntry n A j (n + k) * z (n + k) = ∑ k ∈ range s, A k j * z (n + k) :=
      Finset.sum_congr rfl fun k _ => by simp [augEntry, hj]
    rw [e1, e2] at e
    exact eq_sub_of_add_eq e
  · have e := h' (n + k) (by omega)
    have e1 : ∑ j ∈ range n, augEntry n A (n + k) j * z j = ∑ j ∈ range n, A k j * z j :=
      Finset.sum_congr rfl fun j hj => by simp [augEntry, Finset.mem_range.mp hj]
    have e2 : ∑ k' ∈ range s, augEntry n A (n + k) (n + k') * z (n + k') = 0 :=
      Finset.sum_eq_zero fun k' _ => by simp [augEntry]
    rw [e1, e2, add_zero] at e
    exact e

omit [LinearOrder K] in
theorem resize_grow {v : Vec K} (hv : v.WF) {d : Nat} (h : v.dim ≤ d) :
    (v.resize d).WF ∧ (v.resize d).dim = d ∧ (v.resize d).ents = v.ents := by
  unfold Vec.resize
  rw [if_neg (by omega)]
  exact ⟨⟨hv.srt, fun e he => by have := hv.lt_dim e he; simp only; omega, hv.le_cap⟩, rfl, rfl⟩

/-- C66: with a factorization that solves its systems, `solve_min_norm` returns the solution of
`A x = rhs` of smallest norm. -/
theorem C66_min_norm [IsStrictOrderedRing K] {F : Fact K} (hF : F.Correct) {n s : Nat} {A : Nat → Nat → K} {M : Mat K} (hM : IsAug F.lower n s A M)
    {rhs sol v : Vec K} (hr : rhs.WF) (hd : rhs.dim = s) {eps : K} (h : stdMinNorm F n M rhs eps sol = some v) :
    ∃ x, IsMinNorm n s A rhs.value x ∧ Stores n eps v x := by
  unfold stdMinNorm at h
  split at h
  · obtain ⟨z, z1, z2⟩ := Option.bind_eq_some_iff.mp h
    set b : Vec K := ⟨rhs.dim + n, rhs.cap, rhs.ents.map fun e => (e.1 + n, e.2)⟩ with hb
    have hbw : b.WF := by
      refine ⟨?_, ?_, by simpa [hb] using hr.le_cap⟩
      · rw [hb, Srt, List.pairwise_map]
        exact hr.srt.imp fun {a b} hab => by simp only; omega
      · intro e he
        obtain ⟨e', h1, rfl⟩ := List.mem_map.mp he
        have := hr.lt_dim e' h1
        simp only [hb]; omega
    have hlo : ∀ j < n, b.value j = 0 := by
      intro j hj
      show valAt b.ents j = 0
      unfold valAt
      rw [at?_none_of_forall]; · rfl
      intro e he
      obtain ⟨e', h1, rfl⟩ := List.mem_map.mp he
      show e'.1 + n ≠ j
      omega
    have hhi : ∀ k, b.value (n + k) = rhs.value k := by
      intro k
      show valAt b.ents (n + k) = valAt rhs.ents k
      unfold valAt
      rw [at?_congr hbw.srt hr.srt (i := n + k) (j := k)]
      intro x
      rw [hb, List.mem_map]
      constructor
      · rintro ⟨⟨i, y⟩, h1, h2⟩
        simp only [Prod.mk.injEq] at h2
        rw [show k = i by omega, ← h2.2]; exact h1
      · intro h1
        exact ⟨(k, x), h1, by simp; omega⟩
    obtain ⟨e1, e2⟩ := aug_system hF hM hbw (by rw [hb]; simp only; omega) z1
    have hst := factSolution_stores z sol 0 n eps (v := v) (by rw [Nat.zero_add]; exact z2)
    simp only [Nat.zero_add] at hst
    refine ⟨z, isMinNorm_of_rowspace (y := fun k => - z (n + k)) (fun k hk => by rw [e2 k hk, hhi]) (fun j hj => ?_), hst⟩
    rw [e1 j hj, hlo j hj, zero_sub, ← Finset.sum_neg_distrib]
    exact Finset.sum_congr rfl fun k _ => by ring
  · simp at h

/-- C66: `solve_lsq` returns multipliers minimising the norm of `Aᵀ y - rhs`. -/
theorem C66_lsq [IsStrictOrderedRing K] {F : Fact K} (hF : F.Correct) {n s : Nat} {A : Nat → Nat → K} {M : Mat K} (hM : IsAug F.lower n s A M)
    {rhs sol v : Vec K} (hr : rhs.WF) {eps : K} (h : stdLsq F n s M rhs eps sol = some v) :
    ∃ y, IsLeastSquares n s A rhs.value y ∧ Stores s eps v y := by
  unfold stdLsq at h
  split at h
  · rename_i hd
    obtain ⟨z, z1, z2⟩ := Option.bind_eq_some_iff.mp h
    obtain ⟨b1, b2, b3⟩ := resize_grow hr (d := n + s) (by omega)
    obtain ⟨e1, e2⟩ := aug_system hF hM b1 b2 z1
    have hbv : ∀ i, (rhs.resize (n + s)).value i = rhs.value i := fun i => by
      show valAt _ i = valAt _ i
      rw [b3]
    split at z2
    · refine ⟨fun k => z (n + k), isLeastSquares_of_null (x := z) (fun k hk => ?_) (fun j hj => ?_),
        factSolution_stores z sol n s eps z2⟩
      · rw [e2 k hk, hbv]
        exact valAt_of_ge hr.lt_dim (by omega)
      · rw [e1 j hj, hbv]
    · simp at z2
  · simp at h

/-- C66: `project_nullspace` returns the point of the null space of `A` closest to `rhs`. -/
theorem C66_project [IsStrictOrderedRing K] {F : Fact K} (hF : F.Correct) {n s : Nat} {A : Nat → Nat → K} {M : Mat K} (hM : IsAug F.lower n s A M)
    {rhs sol v : Vec K} (hr : rhs.WF) {eps : K} (h : stdProject F n s M rhs eps sol = some v) :
    ∃ p, IsProjection n s A rhs.value p ∧ Stores n eps v p := by
  unfold stdProject at h
  split at h
  · rename_i hd
    obtain ⟨z, z1, z2⟩ := Option.bind_eq_some_iff.mp h
    obtain ⟨b1, b2, b3⟩ := resize_grow hr (d := n + s) (by omega)
    obtain ⟨e1, e2⟩ := aug_system hF hM b1 b2 z1
    have hbv : ∀ i, (rhs.resize (n + s)).value i = rhs.value i := fun i => by
      show valAt _ i = valAt _ i
      rw [b3]
    split at z2
    · have hst := factSolution_stores z sol 0 n eps (v := v) (by rw [Nat.zero_add]; exact z2)
      simp only [Nat.zero_add] at hst
      refine ⟨z, isProjection_of_rowspace (y := fun k => z (n + k)) (fun k hk => ?_) (fun j hj => ?_), hst⟩
      · rw [e2 k hk, hbv]
        exact valAt_of_ge hr.lt_dim (by omega)
      · rw [e1 j hj, hbv]
    · simp at z2
  · simp at h

/-! ### Bounds only -/

omit [LinearOrder K] in
theorem foldlM_push_filterMap (g : Nat × K → Option (Nat × K)) (v : Vec K) (l : List (Nat × K)) :
    l.foldlM (fun r e => (g e).elim (some r) fun p => r.push p.1 p.2) v = v.pushAll (l.filterMap g) := by
  induction l generalizing v with
  | nil => rfl
  | cons e t ih =>
    rw [List.foldlM_cons]
    rcases h : g e with _ | p
    · rw [List.filterMap_cons_none h]; exact ih v
    · rw [List.filterMap_cons_some h]
      unfold Vec.pushAll
      rw [List.foldlM_cons]
      show (v.push p.1 p.2).bind _ = (v.push p.1 p.2).bind _
      congr 1
      funext v'
      exact ih v'

/-- the vector left by pushing a sorted list -/
theorem push_list {sol : Vec K} {cap : Nat} {L : List (Nat × K)} (hs : Srt L) (hd : ∀ e ∈ L, e.1 < sol.dim) (hc : L.length ≤ cap) :
    ∃ v, ((sol.clear).reserve cap).pushAll L = some v ∧ v.WF ∧ v.dim = sol.dim ∧ v.ents = L := by
  refine ⟨_, Vec.pushAll_ok _ L (by simpa [Vec.clear, Vec.reserve] using hs) hd
    (by simp [Vec.clear, Vec.reserve]; omega), ⟨?_, ?_, ?_⟩, rfl, by simp [Vec.clear, Vec.reserve]⟩
  · simpa [Vec.clear, Vec.reserve] using hs
  · simpa [Vec.clear, Vec.reserve] using hd
  · simp [Vec.clear, Vec.reserve]; omega

/-- rows of the working matrix if there are no constraints -/
theorem workMat_box {n : Nat} {w : WSet} {l : List WEntry} (h : WRep n 0 w l) (jac : Nat → Nat → K) {k : Nat} (hk : k < l.length)
    (j : Nat) : w.content k < n ∧ workMat l jac k j = if w.content k = j then 1 else 0 := by
  have hok := (h.ok _ (List.getElem_mem hk)).1
  have hcon := h.content k hk
  unfold workMat
  rw [List.getElem?_eq_getElem hk]
  simp only [Option.elim_some, WEntry.gradient]
  cases hcs : (l[k]).constraint
  · rw [hcs] at hcon hok
    simp only [Bool.false_eq_true, if_false] at hcon hok ⊢
    rw [hcon]; exact ⟨hok, rfl⟩
  · rw [hcs] at hok; simp at hok

theorem sum_box {n : Nat} {w : WSet} {l : List WEntry} (h : WRep n 0 w l) (jac : Nat → Nat → K) {k : Nat} (hk : k < l.length)
    (x : Nat → K) : ∑ j ∈ range n, workMat l jac k j * x j = x (w.content k) := by
  obtain ⟨h1, -⟩ := workMat_box h jac hk 0
  rw [Finset.sum_eq_single_of_mem (w.content k) (Finset.mem_range.mpr h1)]
  · rw [(workMat_box h jac hk _).2, if_pos rfl, one_mul]
  · intro j _ hne
    rw [(workMat_box h jac hk _).2, if_neg (Ne.symm hne), zero_mul]

theorem sum_box_trans {n : Nat} {w : WSet} {l : List WEntry} (h : WRep n 0 w l) (jac : Nat → Nat → K) {j : Nat} (hj : j < n)
    (y : Nat → K) : ∑ k ∈ range l.length, workMat l jac k j * y k = (w.varIdx j).elim 0 y := by
  obtain ⟨q1, q2, -⟩ := C30_queries h
  rcases hv : w.varIdx j with _ | k
  · refine Finset.sum_eq_zero fun k hk => ?_
    have hk := Finset.mem_range.mp hk
    rw [(workMat_box h jac hk _).2, if_neg, zero_mul]
    intro hcj
    have := (q2 j hj k).mpr ⟨by omega, hcj⟩
    rw [hv] at this; simp at this
  · obtain ⟨k1, k2⟩ := (q2 j hj k).mp hv
    rw [Finset.sum_eq_single_of_mem k (Finset.mem_range.mpr (by omega))]
    · rw [(workMat_box h jac (by omega) _).2, if_pos k2, one_mul]; rfl
    · intro k' hk' hne
      have hk' := Finset.mem_range.mp hk'
      rw [(workMat_box h jac hk' _).2, if_neg, zero_mul]
      intro hcj
      have := (q2 j hj k').mpr ⟨by omega, hcj⟩
      rw [hv] at this
      injection this with this
      exact hne this.symm

/-- C66 for problems with bounds only: `solve_min_norm` -/
theorem C66_box_min_norm [IsStrictOrderedRing K] {n : Nat} {w : WSet} {l : List WEntry} (h : WRep n 0 w l) (ho : w.Ordered) (jac : Nat → Nat → K)
    {rhs sol : Vec K} (hr : rhs.WF) (hd : rhs.dim = l.length) (hs : sol.dim = n) :
    ∃ v, boxMinNorm w rhs sol = some v ∧ v.WF ∧ v.dim = n ∧ IsMinNorm n l.length (workMat l jac) rhs.value v.value := by
  obtain ⟨q1, q2, -⟩ := C30_queries h
  set L := rhs.ents.map fun e => (w.content e.1, e.2) with hL
  have hsrt : Srt L := by
    rw [hL, Srt, List.pairwise_map]
    refine List.Pairwise.imp_of_mem ?_ hr.srt
    intro a b ha hb hab
    exact ho a.1 b.1 hab (by have := hr.lt_dim b hb; omega)
  obtain ⟨v, v1, v2, v3, v4⟩ := push_list (sol := sol) (cap := rhs.nnz) hsrt
    (by
      intro e he
      obtain ⟨e', h1, rfl⟩ := List.mem_map.mp he
      rw [hs]
      exact (workMat_box h jac (k := e'.1) (by have := hr.lt_dim e' h1; omega) 0).1)
    (by simp [hL, Vec.nnz])
  refine ⟨v, ?_, v2, v3.trans hs, ?_⟩
  · rw [← v1]
    unfold boxMinNorm Vec.pushAll
    rw [hL, List.foldlM_map]
  · have hval : ∀ k < l.length, v.value (w.content k) = rhs.value k := by
      intro k hk
      show valAt v.ents _ = valAt rhs.ents _
      rw [v4]
      unfold valAt
      rw [at?_congr hsrt hr.srt (i := w.content k) (j := k)]
      intro x
      rw [hL, List.mem_map]
      constructor
      · rintro ⟨⟨i, y⟩, h1, h2⟩
        simp only [Prod.mk.injEq] at h2
        have hi := hr.lt_dim _ h1
        simp only at hi
        have : k = i := by
          rcases Nat.lt_trichotomy i k with h3 | h3 | h3
          · have := ho i k h3 (by omega); omega
          · exact h3.symm
          · have := ho k i h3 (by omega); omega
        rw [this, ← h2.2]; exact h1
      · intro h1; exact ⟨(k, x), h1, rfl⟩
    refine isMinNorm_of_rowspace (y := rhs.value) (fun k hk => by rw [sum_box h jac hk, hval k hk]) (fun j hj => ?_)
    rw [sum_box_trans h jac hj]
    rcases hv : w.varIdx j with _ | k
    · show valAt v.ents j = 0
      unfold valAt
      rw [at?_none_of_forall]; · rfl
      intro e he
      rw [v4, hL] at he
      obtain ⟨e', h1, rfl⟩ := List.mem_map.mp he
      intro hcj
      have := (q2 j hj e'.1).mpr ⟨by have := hr.lt_dim e' h1; omega, hcj⟩
      rw [hv] at this; simp at this
    · obtain ⟨k1, k2⟩ := (q2 j hj k).mp hv
      rw [← k2]; exact hval k (by omega)

/-- C66 for problems with bounds only: `solve_lsq` -/
theorem C66_box_lsq [IsStrictOrderedRing K] {n : Nat} {w : WSet} {l : List WEntry} (h : WRep n 0 w l) (ho : w.Ordered) (jac : Nat → Nat → K)
    {rhs sol : Vec K} (hr : rhs.WF) (hd : rhs.dim = n) (hs : sol.dim = l.length) :
    ∃ v, boxLsq w rhs sol = some v ∧ v.WF ∧ v.dim = l.length ∧ IsLeastSquares n l.length (workMat l jac) rhs.value v.value := by
  obtain ⟨q1, q2, -⟩ := C30_queries h
  set g : Nat × K → Option (Nat × K) := fun e => (w.varIdx e.1).map fun k => (k, e.2) with hg
  have hlt : ∀ {k k'}, k < w.size → k' < w.size → w.content k < w.content k' → k < k' := by
    intro k k' hk hk' hcc
    rcases Nat.lt_trichotomy k k' with h1 | h1 | h1
    · exact h1
    · subst h1; omega
    · have := ho k' k h1 hk; omega
  have hsrt : Srt (rhs.ents.filterMap g) := by
    unfold Srt
    rw [List.pairwise_filterMap]
    refine List.Pairwise.imp_of_mem ?_ hr.srt
    intro a b ha hb hab x hx y hy
    simp only [hg, Option.map_eq_some_iff] at hx hy
    obtain ⟨k, hk, rfl⟩ := hx
    obtain ⟨k', hk', rfl⟩ := hy
    have la := hr.lt_dim a ha
    have lb := hr.lt_dim b hb
    obtain ⟨a1, a2⟩ := (q2 a.1 (by omega) k).mp hk
    obtain ⟨b1, b2⟩ := (q2 b.1 (by omega) k').mp hk'
    have hkk : k < k' := hlt a1 b1 (by omega)
    exact hkk
  obtain ⟨v, v1, v2, v3, v4⟩ := push_list (sol := sol) (cap := rhs.nnz) hsrt
    (by
      intro e he
      obtain ⟨e', h1, h2⟩ := List.mem_filterMap.mp he
      simp only [hg, Option.map_eq_some_iff] at h2
      obtain ⟨k, hk, rfl⟩ := h2
      have := hr.lt_dim e' h1
      have := ((q2 e'.1 (by omega) k).mp hk).1
      simp only; omega)
    (List.length_filterMap_le _ _)
  refine ⟨v, ?_, v2, v3.trans hs, ?_⟩
  · rw [← v1, ← foldlM_push_filterMap]
    unfold boxLsq
    congr 1
    funext r e
    simp only [hg]
    cases w.varIdx e.1 <;> rfl
  · have hval : ∀ j < n, ∀ k, w.varIdx j = some k → v.value k = rhs.value j := by
      intro j hj k hk
      show valAt v.ents _ = valAt rhs.ents _
      rw [v4]
      unfold valAt
      rw [at?_congr hsrt hr.srt (i := k) (j := j)]
      intro x
      rw [List.mem_filterMap]
      constructor
      · rintro ⟨⟨i, y⟩, h1, h2⟩
        simp only [hg, Option.map_eq_some_iff, Prod.mk.injEq] at h2
        obtain ⟨k', hk', rfl, rfl⟩ := h2
        have hi := hr.lt_dim _ h1
        simp only at hi
        have e1 := ((q2 j hj k').mp hk).2
        have e2 := ((q2 i (by omega) k').mp hk').2
        rw [show j = i by omega]; exact h1
      · intro h1
        exact ⟨(j, x), h1, by simp [hg, hk]⟩
    refine isLeastSquares_of_null (x := fun j => if (w.varIdx j).isSome then 0 else rhs.value j) (fun k hk => ?_) (fun j hj => ?_)
    · rw [sum_box h jac hk]
      obtain ⟨h1, -⟩ := workMat_box h jac hk 0
      rw [(q2 _ h1 k).mpr ⟨by omega, rfl⟩]; rfl
    · rw [sum_box_trans h jac hj]
      rcases hv : w.varIdx j with _ | k
      · simp
      · simp [hval j hj k hv]

/-- C66 for problems with bounds only: `project_nullspace` -/
theorem C66_box_project [IsStrictOrderedRing K] {n : Nat} {w : WSet} {l : List WEntry} (h : WRep n 0 w l) (jac : Nat → Nat → K)
    {rhs sol : Vec K} (hr : rhs.WF) (hd : rhs.dim = n) (hs : sol.dim = n) :
    ∃ v, boxProject w rhs sol = some v ∧ v.WF ∧ v.dim = n ∧ IsProjection n l.length (workMat l jac) rhs.value v.value := by
  obtain ⟨q1, q2, -⟩ := C30_queries h
  have hsrt : Srt (rhs.ents.filter fun e => !(w.varIdx e.1).isSome) := srt_filter _ hr.srt
  obtain ⟨v, v1, v2, v3, v4⟩ := push_list (sol := sol) (cap := rhs.nnz) hsrt
    (fun e he => by have := hr.lt_dim e (List.mem_of_mem_filter he); omega) (List.length_filter_le _ _)
  refine ⟨v, ?_, v2, v3.trans hs, ?_⟩
  · rw [← v1, ← Vec.foldlM_push_filter]
    unfold boxProject
    congr 1
    funext r e
    cases w.varIdx e.1 <;> rfl
  · have hval : ∀ j < n, v.value j = if (w.varIdx j).isSome then 0 else rhs.value j := by
      intro j hj
      show valAt v.ents _ = _
      rw [v4]
      split
      · rename_i hsome
        unfold valAt
        rw [at?_none_of_forall]; · rfl
        intro e he hej
        have := (List.mem_filter.mp he).2
        rw [hej, hsome] at this; simp at this
      · rename_i hsome
        show _ = valAt rhs.ents j
        unfold valAt
        rw [at?_congr hsrt hr.srt (i := j) (j := j)]
        intro x
        rw [List.mem_filter]
        exact ⟨fun h1 => h1.1, fun h1 => ⟨h1, by simpa using hsome⟩⟩
    refine isProjection_of_rowspace (y := fun k => rhs.value (w.content k)) (fun k hk => ?_) (fun j hj => ?_)
    · rw [sum_box h jac hk]
      obtain ⟨h1, -⟩ := workMat_box h jac hk 0
      rw [hval _ h1, (q2 _ h1 k).mpr ⟨by omega, rfl⟩]; rfl
    · rw [sum_box_trans h jac hj, hval j hj]
      rcases hv : w.varIdx j with _ | k
      · simp
      · simp [((q2 j hj k).mp hv).2]

/-! ### No bounds, no constraints -/

/-- C66 for unconstrained problems: the working set is always empty. -/
theorem C66_free [IsStrictOrderedRing K] {n : Nat} (A : Nat → Nat → K) {rhs0 rhs sol0 sol : Vec K} (h0 : rhs0.dim = 0)
    (hr : rhs.WF) (hd : rhs.dim = n) (hs0 : sol0.WF) (hs0d : sol0.dim = 0) (hs : sol.dim = n) :
    (∃ v, freeMinNorm rhs0 sol = some v ∧ v.WF ∧ v.dim = n ∧ IsMinNorm n 0 A rhs0.value v.value) ∧
    (∃ v, freeLsq rhs sol0 = some v ∧ v.WF ∧ v.dim = 0 ∧ IsLeastSquares n 0 A rhs.value v.value) ∧
    ∃ v, freeProject rhs sol = some v ∧ v.WF ∧ v.dim = n ∧ IsProjection n 0 A rhs.value v.value := by
  refine ⟨⟨sol.clear, ?_, ⟨by simp [Vec.clear, Srt], by simp [Vec.clear], by simp [Vec.clear]⟩, hs, ?_⟩,
    ⟨sol0, ?_, hs0, hs0d, ?_⟩, ?_⟩
  · unfold freeMinNorm; rw [if_pos h0]
  · refine isMinNorm_of_rowspace (y := fun _ => 0) (fun k hk => absurd hk (Nat.not_lt_zero _)) fun j _ => ?_
    rw [Finset.sum_range_zero]; rfl
  · unfold freeLsq; rw [if_pos hs0d]
  · intro y'; simp
  · obtain ⟨v, v1, v2, v3⟩ := copy_spec (t := sol) ⟨hr, hd⟩ hs
    refine ⟨v, v1, v2.1, v2.2, ?_⟩
    refine isProjection_of_rowspace (y := fun _ => 0) (fun k hk => absurd hk (Nat.not_lt_zero _)) fun j _ => ?_
    show valAt v.ents j = valAt rhs.ents j - _
    rw [v3]; simp

/-! ### Non-vacuity -/

/-- there is a factorization that solves every system that has a solution -/
theorem exists_fact (lower : Bool) : ∃ F : Fact K, F.lower = lower ∧ F.Correct ∧
    ∀ M b, (∃ z : Nat → K, ∀ i < M.numRows, ∑ j ∈ range M.numCols, F.entry M i j * z j = b.value i) → F.solve M b ≠ none := by
  classical
  refine ⟨⟨lower, fun M b => if h : ∃ z : Nat → K, ∀ i < M.numRows, ∑ j ∈ range M.numCols,
      (if lower = true ∧ i < j then M.value j i else M.value i j) * z j = b.value i then some h.choose else none⟩, rfl, ?_, ?_⟩
  · intro M b z _ _ _ _ hz
    simp only at hz
    split at hz
    · rename_i h
      injection hz with hz
      subst hz
      exact h.choose_spec
    · simp at hz
  · intro M b h
    simp only [Fact.entry] at h ⊢
    rw [dif_pos h]; simp

/-- three variables, the second one active, and the second of two constraints -/
theorem exWRep : ∃ w, WRep 3 2 w [⟨false, 1, .lower⟩, ⟨true, 1, .upper⟩] ∧ w.Ordered := by
  obtain ⟨w1, a1, a2⟩ := wrep_addVar (wrep_create 3 2 fun _ => 0) (i := 1) (st := .lower) (by omega) (by simp)
    (by simp) (by decide)
  obtain ⟨w2, b1, b2⟩ := wrep_addCons a2 (i := 1) (st := .upper) (by omega) (by simp) (by decide)
  refine ⟨w2, b2, ?_⟩
  have hc0 := b2.content 0 (by simp)
  have hc1 := b2.content 1 (by simp)
  simp at hc0 hc1
  intro k k' h1 h2
  have hsz : w2.size = 2 := b2.size
  have : k = 0 ∧ k' = 1 := by omega
  rw [this.1, this.2, hc0, hc1]; omega

/-- the Jacobian `[[1, 2, 3], [4, 0, 5]]` -/
def exJac : Mat ℚ := ⟨2, 3, 5, 5, fun k => [0, 2, 3, 5].getD k 5, fun k => [0, 1, 0, 0, 1].getD k 0,
  fun k => [1, 4, 2, 3, 5].getD k 0⟩

theorem exJac_wf : exJac.WF := (C09_isValid_iff exJac rfl (by decide)).mp (by decide +kernel)

/-- the hypotheses of `C66_matrix` hold for this working set; the matrix is the expected one,
and the minimum norm problem `x₁ = 1, 4 x₀ + 5 x₂ = 41` gets its solution `(4, 1, 5)` -/
example : ∃ (w : WSet) (M : Mat ℚ) (F : Fact ℚ) (v : Vec ℚ), fillAugJac F.lower w exJac exJac = some M ∧ F.Correct ∧
    IsAug F.lower 3 2 (workMat [⟨false, 1, .lower⟩, ⟨true, 1, .upper⟩] exJac.value) M ∧
    workMat [⟨false, 1, .lower⟩, ⟨true, 1, .upper⟩] exJac.value 1 2 = 5 ∧
    stdMinNorm F 3 M ⟨2, 2, [(0, 1), (1, 41)]⟩ 0 (⟨3, 3, []⟩ : Vec ℚ) = some v := by
  obtain ⟨w, h, ho⟩ := exWRep
  obtain ⟨F, hl, hF, hsol⟩ := exists_fact (K := ℚ) true
  obtain ⟨M, f1, f2⟩ := C66_matrix h ho exJac_wf rfl rfl F.lower exJac
  have hne : F.solve M ⟨5, 2, [(3, 1), (4, 41)]⟩ ≠ none := by
    refine hsol M _ ⟨fun j => [4, 1, 5, -1, -1].getD j 0, ?_⟩
    rw [f2.rows, f2.cols]
    intro i hi
    have hi : i < 5 := hi
    have : ∀ j ∈ range 5, F.entry M i j * [4, 1, 5, -1, -1].getD j 0 =
        augEntry 3 (workMat [⟨false, 1, .lower⟩, ⟨true, 1, .upper⟩] exJac.value) i j * [4, 1, 5, -1, -1].getD j 0 := by
      intro j hj
      congr 1
      exact f2.entry i hi j (Finset.mem_range.mp hj)
    show ∑ j ∈ range 5, _ = _
    rw [Finset.sum_congr rfl this]
    have hall : ∀ i < 5, ∑ j ∈ range 5, augEntry 3 (workMat [⟨false, 1, .lower⟩, ⟨true, 1, .upper⟩] exJac.value) i j *
      ([4, 1, 5, -1, -1] : List ℚ).getD j 0 = (⟨5, 2, [(3, 1), (4, 41)]⟩ : Vec ℚ).value i := by decide +kernel
    exact hall i hi
  obtain ⟨z, hz⟩ := Option.ne_none_iff_exists'.mp hne
  obtain ⟨v, v1, -⟩ := setFromRaw_spec (0 : ℚ) ⟨3, 3, []⟩ ((List.range (3 - 0)).map fun k => z (0 + k))
  refine ⟨w, M, F, v, f1, hF, f2, by decide +kernel, ?_⟩
  unfold stdMinNorm
  rw [if_pos rfl]
  have : F.solve M ⟨2 + 3, 2, [(0, 1), (1, 41)].map fun e : Nat × ℚ => (e.1 + 3, e.2)⟩ = some z := hz
  simp only [this, Option.bind_some]
  exact v1

/-- the full matrix of the example, entry by entry -/
example : ((((WSet.create 3 2 fun _ => 0).addVar 1 .lower).bind fun w => w.addCons 1 .upper).bind fun w =>
    (fillAugJac false w exJac exJac).map fun M => (List.range 5).map fun j => M.col j) =
    some [[(0, 1), (4, 4)], [(1, 1), (3, 1)], [(2, 1), (4, 5)], [(1, 1)], [(0, 4), (2, 5)]] := by decide +kernel

end Sleqp
