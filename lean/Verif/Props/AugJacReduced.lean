import Verif.Lemmas.AugJacReduced
import Verif.Lemmas.RestorePrep

/-!
C66 for the normal equations (`SLEQP_AUG_JAC_REDUCED`).
-/

namespace Sleqp
open Finset
variable {K : Type*} [Field K] [LinearOrder K]

/-- C66: for every working set and every Jacobian of fitting size the rows of the working set
and the matrix `A Aᵀ` are computed without overrunning an array or failing an assert, whatever
the storage contained before. -/
theorem C66_reduced_matrix {n m : Nat} {w : WSet} {l : List WEntry} {J : Mat K} (h : WRep n m w l)
    (hJ : J.WF) (hr : J.numRows = m) (hc : J.numCols = n) (lower : Bool) (col0 : Nat → Nat) (val0 : Nat → K) (m0 : Mat K) :
    ∃ a M, fillSystem w J col0 val0 = some a ∧ normalMatrix lower a w.actVars m0 = some M ∧
      RowsOf n l.length (workMat l J.value) a ∧ IsNormal lower n l.length (workMat l J.value) M := by
  obtain ⟨a, a1, a2, a3⟩ := fillSystem_spec h hJ hr hc col0 val0
  obtain ⟨M, m1, m2⟩ := normalMatrix_spec a2 a3 lower m0
  exact ⟨a, M, a1, m1, a2, m2⟩

/-- the matrix kept for a working set that has not changed is the one of that working set -/
def RedAug.Inv (lower : Bool) (n m : Nat) (jac : Nat → Nat → K) (a : RedAug K) : Prop :=
  ∀ c, a.cached = some c → ∃ lc, WRep n m c lc ∧
    (a.hasFact = true → RowsOf n lc.length (workMat lc jac) a.sys ∧ IsNormal lower n lc.length (workMat lc jac) a.matrix)

/-- C66: one call of `set_iterate` with the normal equations. -/
theorem C66_reduced_set_iterate {n m : Nat} {w : WSet} {l : List WEntry} {J : Mat K} (h : WRep n m w l)
    (hJ : J.WF) (hr : J.numRows = m) (hc : J.numCols = n) {lower : Bool} {a : RedAug K}
    (ha : a.Inv lower n m J.value) :
    ∃ a', a.setIterate lower w J = some a' ∧ a'.hasFact = true ∧
      RowsOf n l.length (workMat l J.value) a'.sys ∧
      IsNormal lower n l.length (workMat l J.value) a'.matrix ∧ a'.Inv lower n m J.value ∧
      (a'.cached.isSome = a.cached.isSome) := by
  obtain ⟨s, M, f0, f1, f2, f3⟩ := C66_reduced_matrix h hJ hr hc lower a.sys.col a.sys.val a.matrix
  unfold RedAug.setIterate
  simp only [f0, f1, Option.map_some, Option.bind_some]
  rcases hca : a.cached with _ | c
  · exact ⟨_, rfl, rfl, f2, f3, fun c hc => by simp at hc, rfl⟩
  · obtain ⟨lc, c1, c2⟩ := ha c hca
    obtain ⟨r, e1, e2⟩ := C30_eq h c1
    simp only [e1, Option.bind_some]
    split
    · rename_i hcond
      simp only [Bool.and_eq_true] at hcond
      have hl := e2.mp hcond.1
      have hlen : l.length = lc.length := by simpa using congrArg List.length hl
      obtain ⟨c3, c4⟩ := c2 hcond.2
      rw [workMat_congr hl, hlen]
      exact ⟨a, rfl, hcond.2, c3, c4, ha, by rw [hca]⟩
    · obtain ⟨c', w1, w2⟩ := wrep_copy h c1.nv c1.nc
      simp only [w1, Option.bind_some]
      refine ⟨_, rfl, rfl, f2, f3, ?_, rfl⟩
      intro c'' hc''
      injection hc'' with hc''
      subst hc''
      exact ⟨l, w2, fun _ => ⟨f2, f3⟩⟩

/-- C66: over every history of calls, rows and matrix in use after the last call are those of
the working set and the Jacobian of that call. -/
theorem C66_reduced_history {n m : Nat} {lower : Bool} {a : RedAug K} (hnew : a.hasFact = false)
    (hca : ∀ c, a.cached = some c → ∃ lc, WRep n m c lc) (calls : List (AugCall K)) (hok : ∀ c ∈ calls, c.Ok n m)
    (hlin : a.cached ≠ none → ∃ jac, ∀ c ∈ calls, c.J.value = jac) (last : AugCall K) (hl : calls.getLast? = some last) :
    ∃ a', calls.foldlM (fun a c => a.setIterate lower c.w c.J) a = some a' ∧
      RowsOf n last.l.length (workMat last.l last.J.value) a'.sys ∧
      IsNormal lower n last.l.length (workMat last.l last.J.value) a'.matrix := by
  have gen : ∀ (calls : List (AugCall K)) (a : RedAug K) (jac : Nat → Nat → K), (∀ c ∈ calls, c.Ok n m) →
      (a.cached ≠ none → (∀ c ∈ calls, c.J.value = jac) ∧ a.Inv lower n m jac) →
      ∀ last, calls.getLast? = some last →
      ∃ a', calls.foldlM (fun a c => a.setIterate lower c.w c.J) a = some a' ∧
      RowsOf n last.l.length (workMat last.l last.J.value) a'.sys ∧
      IsNormal lower n last.l.length (workMat last.l last.J.value) a'.matrix := by
    intro calls
    induction calls with
    | nil => intro _ _ _ _ last hl; simp at hl
    | cons c t ih =>
      intro a jac hok hinv last hl
      obtain ⟨k1, -, k3, k4, k5⟩ := hok c (by simp)
      have hi : a.Inv lower n m c.J.value := by
        by_cases hn : a.cached = none
        · intro c' hc'; rw [hn] at hc'; simp at hc'
        · obtain ⟨g1, g2⟩ := hinv hn
          rw [g1 c (by simp)]; exact g2
      obtain ⟨a1, s1, s2, s3, s4, s5, s6⟩ := C66_reduced_set_iterate k1 k3 k4 k5 hi
      rw [List.foldlM_cons, s1]
      show ∃ a', List.foldlM _ a1 t = some a' ∧ _
      cases t with
      | nil =>
        simp only [List.getLast?_singleton, Option.some.injEq] at hl
        subst hl
        exact ⟨a1, rfl, s3, s4⟩
      | cons d t =>
        refine ih a1 jac (fun x hx => hok x (by simp [hx])) (fun hn => ?_) last (by rw [← hl]; simp [List.getLast?_cons_cons])
        have hn' : a.cached ≠ none := by
          intro h0
          rw [h0] at s6
          simp at s6
          exact hn s6
        obtain ⟨g1, g2⟩ := hinv hn'
        refine ⟨fun x hx => g1 x (by simp [hx]), ?_⟩
        rw [← g1 c (by simp)]; exact s5
  by_cases hn : a.cached = none
  · exact gen calls a (fun _ _ => 0) hok (fun h => absurd hn h) last hl
  · obtain ⟨jac, hj⟩ := hlin hn
    refine gen calls a jac hok (fun _ => ⟨hj, fun c hc => ?_⟩) last hl
    obtain ⟨lc, h1⟩ := hca c hc
    exact ⟨lc, h1, fun hf => by rw [hnew] at hf; simp at hf⟩

/-! ### The services -/

/-- what the solution of the normal equations means -/
theorem normal_system {F : Fact K} (hF : F.Correct) {n s : Nat} {A : Nat → Nat → K} {M : Mat K} (hM : IsNormal F.lower n s A M)
    {b : Vec K} (hb : b.WF) (hd : b.dim = s) {z : Nat → K} (hz : F.solve M b = some z) :
    ∀ k < s, ∑ j ∈ range n, A k j * (∑ i ∈ range s, A i j * z i) = b.value k := by
  intro k hk
  have h1 := hF M b z hM.wf (by rw [hM.rows, hM.cols]) hb (by rw [hd, hM.rows]) hz k (by rw [hM.rows]; exact hk)
  rw [hM.cols] at h1
  rw [← h1]
  have h2 : ∀ i ∈ range s, F.entry M k i * z i = ∑ j ∈ range n, A k j * (A i j * z i) := by
    intro i hi
    have : F.entry M k i = ∑ j ∈ range n, A k j * A i j := hM.entry k hk i (Finset.mem_range.mp hi)
    rw [this, Finset.sum_mul]
    exact Finset.sum_congr rfl fun j _ => mul_assoc _ _ _
  rw [Finset.sum_congr rfl h2, Finset.sum_comm]
  exact Finset.sum_congr rfl fun j _ => Finset.mul_sum _ _ _

theorem factSolution_total [IsStrictOrderedRing K] (z : Nat → K) (sol : Vec K) (len : Nat) (eps : K) :
    ∃ v, factSolution z sol 0 len eps = some v ∧ Stores len eps v z := by
  obtain ⟨v, v1, -⟩ := setFromRaw_spec eps sol ((List.range (len - 0)).map fun k => z (0 + k))
  refine ⟨v, v1, ?_⟩
  have := factSolution_stores z sol 0 len eps (v := v) (by rw [Nat.zero_add]; exact v1)
  simpa using this

theorem setFromRaw_stores [IsStrictOrderedRing K] (x : Nat → K) (sol : Vec K) (n : Nat) (eps : K) :
    ∃ v, sol.setFromRaw eps ((List.range n).map x) = some v ∧ Stores n eps v x := by
  obtain ⟨v, v1, v2, v3, v4⟩ := setFromRaw_spec eps sol ((List.range n).map x)
  refine ⟨v, v1, v2, by rw [v3]; simp, fun j hj => ?_⟩
  rw [v4, List.getElem?_map, List.getElem?_range hj]
  rfl

/-- an exact result -/
theorem Stores.zero [IsStrictOrderedRing K] {n : Nat} {v : Vec K} {x : Nat → K} (h : Stores n 0 v x) : ∀ j < n, v.value j = x j := by
  intro j hj
  rw [h.2.2 j hj]
  split
  · rename_i h1; rw [abs_nonpos_iff.mp h1]
  · rfl

/-- C66: with the normal equations, `solve_min_norm` returns `Aᵀ y'`, where `Aᵀ y` is the solution
of `A x = rhs` of smallest norm and `y'` is `y` without entries of size up to `eps`. -/
theorem C66_reduced_min_norm [IsStrictOrderedRing K] {F : Fact K} (hF : F.Correct) {n s : Nat} {A : Nat → Nat → K}
    {a : RowSys K} (ha : RowsOf n s A a) {M : Mat K} (hM : IsNormal F.lower n s A M)
    (hsol : ∀ b : Vec K, b.WF → b.dim = s → F.solve M b ≠ none)
    {rhs : Vec K} (hr : rhs.WF) (hd : rhs.dim = s) (buf sol : Vec K) (eps : K) :
    ∃ (v : Vec K) (y y' : Nat → K), redMinNorm F n a M rhs eps buf sol = some v ∧
      IsMinNorm n s A rhs.value (fun j => ∑ k ∈ range s, A k j * y k) ∧
      (∀ k, y' k = if |y k| ≤ eps then 0 else y k) ∧ Stores n eps v fun j => ∑ k ∈ range s, A k j * y' k := by
  obtain ⟨z, hz⟩ := Option.ne_none_iff_exists'.mp (hsol rhs hr hd)
  obtain ⟨u, u1, u2, u3, u4⟩ := factSolution_total z buf s eps
  obtain ⟨v, v1, v2, v3, v4⟩ := setFromRaw_stores (redTransProduct a u) sol n eps
  refine ⟨v, z, fun k => if |z k| ≤ eps then 0 else z k, ?_, ?_, fun k => rfl, v2, v3, fun j hj => ?_⟩
  · unfold redMinNorm
    rw [hz, Option.bind_some, ha.size, u1, Option.bind_some, v1]
  · exact isMinNorm_of_rowspace (normal_system hF hM hr hd hz) fun j _ => rfl
  · have : redTransProduct a u j = ∑ k ∈ range s, A k j * (if |z k| ≤ eps then 0 else z k) := by
      rw [ha.trans u2 u3 hj]
      exact Finset.sum_congr rfl fun k hk => by rw [u4 k (Finset.mem_range.mp hk)]
    rw [v4 j hj, this]

/-- C66: with the normal equations and drop tolerance zero, `solve_min_norm` returns the solution
of `A x = rhs` of smallest norm. -/
theorem C66_reduced_min_norm_exact [IsStrictOrderedRing K] {F : Fact K} (hF : F.Correct) {n s : Nat} {A : Nat → Nat → K}
    {a : RowSys K} (ha : RowsOf n s A a) {M : Mat K} (hM : IsNormal F.lower n s A M)
    (hsol : ∀ b : Vec K, b.WF → b.dim = s → F.solve M b ≠ none)
    {rhs : Vec K} (hr : rhs.WF) (hd : rhs.dim = s) (buf sol : Vec K) :
    ∃ v, redMinNorm F n a M rhs 0 buf sol = some v ∧ v.WF ∧ v.dim = n ∧ IsMinNorm n s A rhs.value v.value := by
  obtain ⟨v, y, y', h1, h2, h3, h4⟩ := C66_reduced_min_norm hF ha hM hsol hr hd buf sol 0
  have hyy : y' = y := by
    funext k
    rw [h3]
    split
    · rename_i h5; rw [abs_nonpos_iff.mp h5]
    · rfl
  rw [hyy] at h4
  refine ⟨v, h1, h4.1, h4.2.1, ?_⟩
  have hv := h4.zero
  refine isMinNorm_of_rowspace (y := y) (fun k hk => ?_) hv
  rw [← h2.1 k hk]
  exact Finset.sum_congr rfl fun j hj => by rw [hv j (Finset.mem_range.mp hj)]

/-- C66: with the normal equations, `solve_lsq` returns multipliers minimising the norm of
`Aᵀ y - rhs`. -/
theorem C66_reduced_lsq [IsStrictOrderedRing K] {F : Fact K} (hF : F.Correct) {n s : Nat} {A : Nat → Nat → K}
    {a : RowSys K} (ha : RowsOf n s A a) {M : Mat K} (hM : IsNormal F.lower n s A M)
    (hsol : ∀ b : Vec K, b.WF → b.dim = s → F.solve M b ≠ none)
    {rhs : Vec K} (hr : rhs.WF) (hd : rhs.dim = n) {buf : Vec K} (hb : buf.dim = s) (sol : Vec K) (eps : K) :
    ∃ v y, redLsq F a M rhs eps buf sol = some v ∧ IsLeastSquares n s A rhs.value y ∧ Stores s eps v y := by
  obtain ⟨p, p1, p2, p3, p4⟩ := ha.product hr hd hb
  obtain ⟨z, hz⟩ := Option.ne_none_iff_exists'.mp (hsol p p2 p3)
  obtain ⟨v, v1, v2⟩ := factSolution_total z sol s eps
  refine ⟨v, z, ?_, isLeastSquares_of_null (x := fun j => rhs.value j - ∑ k ∈ range s, A k j * z k) (fun k hk => ?_)
    (fun j _ => rfl), v2⟩
  · unfold redLsq
    rw [p1, Option.bind_some, hz, Option.bind_some, ha.size, v1]
  · have := normal_system hF hM p2 p3 hz k hk
    rw [p4 k hk] at this
    simp only [mul_sub, Finset.sum_sub_distrib, this, sub_self]

/-- C66: with the normal equations and drop tolerance zero, `project_nullspace` returns the point
of the null space of `A` closest to `rhs`. -/
theorem C66_reduced_project_exact [IsStrictOrderedRing K] {F : Fact K} (hF : F.Correct) {n s : Nat} {A : Nat → Nat → K}
    {a : RowSys K} (ha : RowsOf n s A a) {M : Mat K} (hM : IsNormal F.lower n s A M)
    (hsol : ∀ b : Vec K, b.WF → b.dim = s → F.solve M b ≠ none)
    {rhs : Vec K} (hr : rhs.WF) (hd : rhs.dim = n) {buf : Vec K} (hb : buf.dim = s) (dir sol : Vec K) :
    ∃ v, redProject F n a M rhs 0 buf dir sol = some v ∧ v.WF ∧ v.dim = n ∧ IsProjection n s A rhs.value v.value := by
  obtain ⟨p, p1, p2, p3, p4⟩ := ha.product hr hd hb
  obtain ⟨z, hz⟩ := Option.ne_none_iff_exists'.mp (hsol p p2 p3)
  obtain ⟨u, u1, u2⟩ := factSolution_total z p s 0
  obtain ⟨d, d1, d2⟩ := setFromRaw_stores (redTransProduct a u) dir n 0
  obtain ⟨v, v1, v2, v3, v4⟩ := C03_add_scaled rhs d sol 1 (-1) 0 hr d2.1 (by rw [hd, d2.2.1]) le_rfl
  have hv : ∀ j < n, v.value j = rhs.value j - ∑ k ∈ range s, A k j * z k := by
    intro j hj
    have h1 : d.value j = ∑ k ∈ range s, A k j * z k := by
      rw [d2.zero j hj, ha.trans u2.1 u2.2.1 hj]
      exact Finset.sum_congr rfl fun k hk => by rw [u2.zero k (Finset.mem_range.mp hk)]
    rw [v4, ← h1]
    split
    · rename_i h5
      have := abs_nonpos_iff.mp h5
      rw [← this]; ring
    · ring
  refine ⟨v, ?_, v2, v3.trans hd, isProjection_of_rowspace (y := z) (fun k hk => ?_) hv⟩
  · unfold redProject
    rw [p1, Option.bind_some, hz, Option.bind_some, ha.size, u1, Option.bind_some, d1, Option.bind_some, v1]
  · have := normal_system hF hM p2 p3 hz k hk
    rw [p4 k hk] at this
    have h6 : ∀ j ∈ range n, A k j * v.value j = A k j * rhs.value j - A k j * ∑ i ∈ range s, A i j * z i := fun j hj => by
      rw [hv j (Finset.mem_range.mp hj), mul_sub]
    rw [Finset.sum_congr rfl h6, Finset.sum_sub_distrib, this, sub_self]

/-! ### Non-vacuity -/

/-- the normal equations of the example of `exWRep` are regular: all hypotheses above hold, and
the minimum norm problem has a solution -/
example : ∃ (w : WSet) (a : RowSys ℚ) (M : Mat ℚ) (F : Fact ℚ) (v : Vec ℚ), fillSystem w exJac (fun _ => 7) (fun _ => 7) = some a ∧
    normalMatrix F.lower a w.actVars exJac = some M ∧ F.Correct ∧
    redMinNorm F 3 a M ⟨2, 2, [(0, 1), (1, 41)]⟩ 0 (⟨2, 2, []⟩ : Vec ℚ) ⟨3, 3, []⟩ = some v ∧
    IsMinNorm 3 2 (workMat [⟨false, 1, .lower⟩, ⟨true, 1, .upper⟩] exJac.value) (fun k => [1, 41].getD k 0) v.value := by
  obtain ⟨w, h, -⟩ := exWRep
  obtain ⟨F, hl, hF, hsol⟩ := exists_fact (K := ℚ) true
  obtain ⟨a, M, f1, f2, f3, f4⟩ := C66_reduced_matrix h exJac_wf rfl rfl F.lower (fun _ => 7) (fun _ => 7) exJac
  simp only [List.length_cons, List.length_nil, zero_add, Nat.reduceAdd] at f3 f4
  have hent : ∀ i < 2, ∀ j < 2, F.entry M i j =
      ∑ t ∈ range 3, workMat [⟨false, 1, .lower⟩, ⟨true, 1, .upper⟩] exJac.value i t *
        workMat [⟨false, 1, .lower⟩, ⟨true, 1, .upper⟩] exJac.value j t := fun i hi j hj => f4.entry i hi j hj
  have e : ∀ i < 2, ∀ j < 2, ∑ t ∈ range 3, workMat [⟨false, 1, .lower⟩, ⟨true, 1, .upper⟩] exJac.value i t *
        workMat [⟨false, 1, .lower⟩, ⟨true, 1, .upper⟩] exJac.value j t = if i = j then (if i = 0 then 1 else 41) else 0 := by
    decide +kernel
  have hne : ∀ b : Vec ℚ, b.WF → b.dim = 2 → F.solve M b ≠ none := by
    intro b _ _
    refine hsol M b ⟨fun j => if j = 0 then b.value 0 else b.value 1 / 41, ?_⟩
    rw [f4.rows, f4.cols]
    intro i hi
    rw [Finset.sum_range_succ, Finset.sum_range_one, hent i hi 0 (by omega), hent i hi 1 (by omega),
      e i hi 0 (by omega), e i hi 1 (by omega)]
    rcases Nat.lt_or_ge i 1 with h1 | h1
    · obtain rfl : i = 0 := by omega
      simp
    · obtain rfl : i = 1 := by omega
      simp only [one_ne_zero, if_true, if_false]; ring
  have hrw : (⟨2, 2, [(0, 1), (1, 41)]⟩ : Vec ℚ).WF := (C02_isValid_iff _).mp (by decide +kernel)
  obtain ⟨v, v1, -, -, v4⟩ := C66_reduced_min_norm_exact hF f3 f4 hne hrw rfl (⟨2, 2, []⟩ : Vec ℚ) ⟨3, 3, []⟩
  refine ⟨w, a, M, F, v, f1, f2, hF, v1, ?_⟩
  have hval : ∀ k < 2, (⟨2, 2, [(0, 1), (1, 41)]⟩ : Vec ℚ).value k = ([1, 41] : List ℚ).getD k 0 := by decide +kernel
  refine ⟨fun k hk => by rw [v4.1 k hk, hval k hk], fun y hy => v4.2 y fun k hk => by rw [hy k hk, hval k hk]⟩

/-- the matrix of the example, entry by entry: gradients `(0, 1, 0)` and `(4, 0, 5)` -/
example : ((((WSet.create 3 2 fun _ => 0).addVar 1 .lower).bind fun w => w.addCons 1 .upper).bind fun w =>
    (fillSystem w exJac (fun _ => 7) fun _ => 7).bind fun a =>
      (normalMatrix true a w.actVars exJac).map fun M => ((List.range 2).map fun r => a.row r, (List.range 2).map fun j => M.col j)) =
    some ([[(1, 1)], [(0, 4), (2, 5)]], [[(0, 1), (1, 0)], [(1, 41)]]) := by decide +kernel

end Sleqp
