import Verif.Lemmas.Mex
import Verif.Props.Mat
import Mathlib.Data.Rat.Defs
import Mathlib.Algebra.Order.Field.Rat

/-! C93: numbers, vectors, Jacobians and Hessian products cross the MATLAB interface unchanged. -/

namespace Sleqp
open Finset

section
variable {K : Type*} [Field K] [LinearOrder K] [IsStrictOrderedRing K]

/-- C93 (in part): a vector computed by a callback is taken over with all its components (those of size at most `zeroEps` become zero)
if it is an ordinary array of doubles of the right size, in any shape; ordinary arrays of another size and arrays of other classes are
refused with an error. Missing: sparse arrays, see `C93_sparse_vector_violated`. -/
theorem C93_vector_partial (zeroEps : K) (v : Vec K) :
    (∀ rows cols data, data.length = v.dim →
      ∃ r, mexToVec zeroEps (.dense rows cols data) v = .ok r ∧ HoldsUpTo zeroEps v.dim (fun i => data.getD i 0) r) ∧
    (∀ rows cols data, data.length ≠ v.dim → mexToVec zeroEps (.dense rows cols data) v = .err) ∧
    ∀ n, mexToVec zeroEps (.other n) v = .err := by
  refine ⟨fun rows cols data h => ?_, fun rows cols data h => ?_, fun n => rfl⟩
  · obtain ⟨r, r1, r2, r3, r4⟩ := setFromRaw_spec zeroEps v data
    refine ⟨r, ?_, r2, r3.trans h, fun i hi => ?_⟩
    · show (if data.length = v.dim then ((MexRes.ofOption ((MxLeaf.dense rows cols data).prList v.dim)).bind fun data =>
        MexRes.ofOption (v.setFromRaw zeroEps data)) else .err) = _
      rw [if_pos h, ← h, prList_dense]
      show MexRes.ofOption (v.setFromRaw zeroEps data) = _
      rw [r1]; rfl
    · show _ = if |data.getD i 0| ≤ zeroEps then 0 else data.getD i 0
      rw [r4, List.getD_eq_getElem?_getD, List.getElem?_eq_getElem (by omega)]; rfl
  · show (if data.length = v.dim then _ else MexRes.err) = _
    rw [if_neg h]

/-- The values taken from an array of three numbers. -/
example : ∃ r, mexToVec (1 / 10 : ℚ) (.dense 3 1 [5, 1 / 100, -2]) (Vec.create 3 0) = .ok r ∧
    r.value 0 = 5 ∧ r.value 1 = 0 ∧ r.value 2 = -2 := by
  obtain ⟨r, h1, _, _, h2⟩ := (C93_vector_partial (1 / 10 : ℚ) (Vec.create 3 0)).1 3 1 [5, 1 / 100, -2] rfl
  exact ⟨r, h1, by rw [h2 0 (by decide)]; decide +kernel, by rw [h2 1 (by decide)]; decide +kernel,
    by rw [h2 2 (by decide)]; decide +kernel⟩

/-- C93 is violated: a callback may return a vector as a sparse array (of doubles, with the right number of elements), which passes all
checks. The conversion then reads as many numbers as the vector has components from the array of the stored elements, which is
shorter: a sparse gradient `[0; 7]` leads to reading past the end. -/
theorem C93_sparse_vector_violated :
    ∃ (s : Mat ℚ), s.WF ∧ s.numRows = 2 ∧ s.numCols = 1 ∧ s.value 0 0 = 0 ∧ s.value 1 0 = 7 ∧
      ∀ zeroEps, mexToVec zeroEps (.sparse s) (Vec.create 2 2) = .undef := by
  refine ⟨⟨2, 1, 1, 1, fun j => if j = 0 then 0 else 1, fun _ => 1, fun _ => 7⟩, ⟨?_, ?_, ?_, ?_, ?_, ?_⟩, rfl, rfl, ?_, ?_, fun _ => rfl⟩
  · decide
  · decide
  · decide
  · decide
  · intro j hj
    have hj : j = 0 := Nat.lt_one_iff.mp hj
    subst hj
    show List.Pairwise _ _
    decide +kernel
  · intro j hj
    have hj : j = 0 := Nat.lt_one_iff.mp hj
    subst hj
    decide +kernel
  · decide +kernel
  · decide +kernel

/-- C93: a number computed by a callback is taken over exactly from an ordinary array with a single element; other arrays which are not
sparse are refused. -/
theorem C93_number_partial (rows cols n : Nat) (data : List K) (x : K) :
    (mexToReal (.dense rows cols data) = .ok x ↔ data = [x]) ∧
    ((∀ y, data ≠ [y]) → mexToReal (.dense rows cols data) = .err) ∧ mexToReal (.other n : MxLeaf K) = .err := by
  have key : ∀ data : List K, data.length ≠ 1 → mexToReal (.dense rows cols data) = .err := by
    intro data h
    show (if data.length = 1 then _ else MexRes.err) = _
    rw [if_neg h]
  refine ⟨?_, fun h => ?_, rfl⟩
  · match data with
    | [] => exact ⟨fun h => (by cases h), fun h => (by cases h)⟩
    | [y] => exact ⟨fun h => (by cases h; rfl), fun h => (by cases h; rfl)⟩
    | a :: b :: t =>
      refine ⟨fun h => ?_, fun h => (by cases h)⟩
      rw [key (a :: b :: t) (by simp)] at h
      cases h
  · refine key data fun h1 => ?_
    obtain ⟨y, hy⟩ := List.length_eq_one_iff.mp h1
    exact h y hy

example : mexToReal (.dense 1 1 [(3 : ℚ)]) = .ok 3 := (C93_number_partial 1 1 0 [3] 3).1.mpr rfl

omit [IsStrictOrderedRing K] in
/-- C93: whatever array the callback for the Jacobian returns, the conversion is defined: a sparse array of the right shape is taken over
with exactly its entries, whatever the matrix contained before and however little space it had; every other array is refused. -/
theorem C93_jacobian (a : MxLeaf K) (ha : a.WF) (m : Mat K) :
    (∀ s, a = .sparse s → s.numRows = m.numRows → s.numCols = m.numCols →
      ∃ m', mexToMat a m = .ok m' ∧ m'.WF ∧ m'.numRows = m.numRows ∧ m'.numCols = m.numCols ∧ m'.nnz = s.nnz ∧
        ∀ j < m.numCols, m'.col j = s.col j) ∧
    ((∀ s, a = .sparse s → ¬ (s.numRows = m.numRows ∧ s.numCols = m.numCols)) → mexToMat a m = .err) := by
  constructor
  · rintro s rfl hr hc
    have hs : s.WF := ha
    have hlen : ((mexCols s 0 (List.range m.numCols)).map List.length).sum = s.nnz := by
      rw [← hc, mexCols_all s hs, List.map_map]
      have : ∀ k, k ≤ s.numCols → ((List.range k).map (List.length ∘ s.col)).sum = s.ptr k := by
        intro k
        induction k with
        | zero => intro _; simp [hs.ptr_zero]
        | succ k ih =>
          intro hk
          rw [List.range_succ, List.map_append, List.sum_append, ih (by omega)]
          have := hs.ptr_mono k (by omega)
          simp [Mat.col_length]; omega
      rw [this _ le_rfl, hs.ptr_last]
    obtain ⟨m', h1, h2, h3, h4, h5, h6⟩ := Mat.assemble_wf (m.clear.reserve (s.ptr m.numCols)) (mexCols s 0 (List.range m.numCols))
      (by simp [Mat.clear, Mat.reserve]) rfl
      (by rw [← hc, mexCols_all s hs]; simp [Mat.clear, Mat.reserve, hc])
      (by
        rw [← hc, mexCols_all s hs]
        intro c hc'
        obtain ⟨j, hj, rfl⟩ := List.mem_map.mp hc'
        exact hs.srt j (List.mem_range.mp hj))
      (by
        rw [← hc, mexCols_all s hs]
        intro c hc' e he
        obtain ⟨j, hj, rfl⟩ := List.mem_map.mp hc'
        exact (hs.lt_rows j (List.mem_range.mp hj) e he).trans_eq hr)
      (by
        rw [hlen]
        have := hs.ptr_last
        rw [hc] at this
        show s.nnz ≤ max m.cap (s.ptr m.numCols)
        rw [this]; exact le_max_right _ _)
    have hcol : ∀ j < m.numCols, m'.col j = s.col j := by
      intro j hj
      rw [h6 j (by rw [← hc, mexCols_all s hs]; simpa [hc] using hj)]
      simp only [← hc, mexCols_all s hs, List.getElem_map, List.getElem_range]
    refine ⟨m', ?_, h2, h3, h4, ?_, hcol⟩
    · show (if s.numRows = m.numRows ∧ s.numCols = m.numCols then _ else MexRes.err) = _
      rw [if_pos ⟨hr, hc⟩, h1]; rfl
    · have key : ∀ k, k ≤ m.numCols → m'.ptr k = s.ptr k := by
        intro k
        induction k with
        | zero => intro _; rw [h2.ptr_zero, hs.ptr_zero]
        | succ k ih =>
          intro hk
          have e1 := ih (by omega)
          have e2 := congrArg List.length (hcol k (by omega))
          rw [Mat.col_length, Mat.col_length] at e2
          have e3 := hs.ptr_mono k (by omega)
          have e4 := h2.ptr_mono k (by rw [h4]; exact hk)
          omega
      have hk := key m.numCols le_rfl
      have e1 := h2.ptr_last
      have e2 := hs.ptr_last
      rw [h4] at e1
      rw [hc] at e2
      exact e1.symm.trans (hk.trans e2)
  · intro h
    match a with
    | .dense .. => rfl
    | .other _ => rfl
    | .sparse s =>
      show (if s.numRows = m.numRows ∧ s.numCols = m.numCols then _ else MexRes.err) = _
      rw [if_neg (h s rfl)]

/-- C93: for every sparse array the callback for the Hessian may return: if it has no entries above the diagonal, the solver receives the
product of the direction with the symmetric matrix of which the array is the lower triangle (components of size at most `zeroEps`
become zero); if it has, or if it has the wrong shape, or is not sparse, an error is raised. -/
theorem C93_hessian (zeroEps : K) (n : Nat) (a : MxLeaf K) (ha : a.WF) (dir res : Vec K) (hd : dir.WF) (hn : dir.dim = n) :
    (∀ s, a = .sparse s → s.numRows = n → s.numCols = n → LowerTri s →
      ∃ r, mexHessProd zeroEps n a dir res = .ok r ∧ HoldsUpTo zeroEps n (fun i => ∑ j ∈ range n, symmEntry s i j * dir.value j) r) ∧
    ((∀ s, a = .sparse s → ¬ (s.numRows = n ∧ s.numCols = n ∧ LowerTri s)) → mexHessProd zeroEps n a dir res = .err) := by
  have hdir : ∀ j < n, dir.toRaw.getD j 0 = dir.value j := by
    intro j hj
    rw [List.getD_eq_getElem?_getD, toRaw_get dir hd j (by omega)]; rfl
  constructor
  · rintro s rfl hr hc hl
    have hs : s.WF := ha
    obtain ⟨p, p1, p2⟩ := mexHessCols_ok (fun i => dir.toRaw.getD i 0) s (List.range s.numCols) (fun _ => 0)
      fun j hj => hl j (List.mem_range.mp hj)
    obtain ⟨r, r1, r2, r3, r4⟩ := setFromRaw_spec zeroEps res ((List.range n).map p)
    refine ⟨r, ?_, r2, by rw [r3]; simp, fun i hi => ?_⟩
    · show (if s.numRows = n ∧ s.numCols = n then _ else MexRes.err) = _
      rw [if_pos ⟨hr, hc⟩]
      unfold mexHessProduct
      rw [mexCols_all s hs, p1]
      show MexRes.ofOption (res.setFromRaw zeroEps ((List.range n).map p)) = _
      rw [r1]; rfl
    · have hp : p i = ∑ j ∈ range n, symmEntry s i j * dir.value j := by
        rw [p2, zero_add, hc, hess_sum s hs hr hc hl _ hi]
        exact Finset.sum_congr rfl fun j hj => by rw [hdir j (mem_range.mp hj)]
      rw [r4]
      simp only [List.getElem?_map, List.getElem?_range hi, Option.map_some]
      rw [hp]
  · intro h
    match a with
    | .dense .. => rfl
    | .other _ => rfl
    | .sparse s =>
      show (if s.numRows = n ∧ s.numCols = n then _ else MexRes.err) = _
      by_cases hsh : s.numRows = n ∧ s.numCols = n
      · rw [if_pos hsh]
        have hs : s.WF := ha
        unfold mexHessProduct
        rw [mexCols_all s hs, mexHessCols_err]
        · rfl
        · intro hcon
          exact h s rfl ⟨hsh.1, hsh.2, fun j hj => hcon j (List.mem_range.mpr hj)⟩
      · rw [if_neg hsh]

/-- C93: the vectors handed to MATLAB (points, directions and multipliers as arguments of the callbacks, the solution and the multipliers
as results) have all their components, including the zeros. -/
theorem C93_results (v : Vec K) (hv : v.WF) :
    ∃ data, (mexFromVec v).Data data ∧ data.length = v.dim ∧ ∀ i < v.dim, data[i]? = some (v.value i) :=
  ⟨v.toRaw, ⟨v.dim, 1, rfl⟩, toRaw_length v, fun i hi => toRaw_get v hv i hi⟩

end

/-- the lower triangle of the matrix `[[2, 1], [1, 5]]` -/
def exMexHess : Mat ℚ := ⟨2, 2, 3, 3, fun j => if j = 0 then 0 else if j = 1 then 2 else 3, fun k => if k = 0 then 0 else 1,
  fun k => if k = 0 then 2 else if k = 1 then 1 else 5⟩

theorem exMexHess_wf : exMexHess.WF :=
  (C09_isValid_iff exMexHess rfl (by decide)).mp (by decide +kernel)

example : ∃ r, mexHessProd (0 : ℚ) 2 (.sparse exMexHess) ⟨2, 2, [(0, 3), (1, 1)]⟩ (Vec.create 2 0) = .ok r ∧
    r.value 0 = 7 ∧ r.value 1 = 8 := by
  obtain ⟨r, h1, _, _, h2⟩ := (C93_hessian (0 : ℚ) 2 (.sparse exMexHess) exMexHess_wf ⟨2, 2, [(0, 3), (1, 1)]⟩ (Vec.create 2 0)
    ((C02_isValid_iff _).mp (by decide +kernel)) rfl).1 exMexHess rfl rfl rfl (by
      intro j hj
      have : j = 0 ∨ j = 1 := by have : j < 2 := hj; omega
      rcases this with rfl | rfl <;> decide +kernel)
  exact ⟨r, h1, by rw [h2 0 (by decide)]; decide +kernel, by rw [h2 1 (by decide)]; decide +kernel⟩

example : ∃ m', mexToMat (.sparse exMexHess) (Mat.create 2 2 0 (fun _ => 0) fun _ => 0) = .ok m' ∧ m'.value 1 1 = 5 := by
  obtain ⟨m', h1, _, _, _, _, h2⟩ := (C93_jacobian (.sparse exMexHess) exMexHess_wf (Mat.create 2 2 0 (fun _ => 0) fun _ => 0)).1
    exMexHess rfl rfl rfl
  refine ⟨m', h1, ?_⟩
  show valAt (m'.col 1) 1 = 5
  rw [h2 1 (by decide)]
  decide +kernel

end Sleqp
