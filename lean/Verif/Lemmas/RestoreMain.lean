import Verif.Lemmas.RestoreForcing
import Verif.Lemmas.PresolveStruct
import Verif.Props.Cauchy

/-! Helper lemmas: the restored multipliers as a whole. -/

namespace Sleqp

open Finset

theorem storeWorkingSet_spec {n m : Nat} (vs cs : Nat → ActiveState) {w0 : WSet} (hn : w0.numVars = n) (hm : w0.numCons = m) :
    ∃ w1, storeWorkingSet n m vs cs w0 = some w1 ∧ (∀ j < n, w1.varState j = vs j) ∧ ∀ i < m, w1.consState i = cs i := by
  obtain ⟨wv, a1, a2, a3, a4, a5, a6⟩ := foldlM_range_inv (P := fun k w => w.numVars = n ∧ w.numCons = m ∧ w.actCons = 0 ∧
      (∀ j, w.varState j = if j < k then vs j else .inactive) ∧ ∀ i, w.consState i = .inactive)
    (f := fun w j => if vs j ≠ .inactive then w.addVar j (vs j) else some w) n (s0 := w0.reset)
    ⟨hn, hm, rfl, fun j => by simp [WSet.reset], fun i => rfl⟩ (by
      rintro k hk w ⟨b1, b2, b3, b4, b5⟩
      by_cases hs : vs k = .inactive
      · refine ⟨w, by rw [if_neg (by simpa using hs)], b1, b2, b3, fun j => ?_, b5⟩
        rw [b4 j]
        by_cases hjk : j = k
        · subst hjk; simp [hs]
        · have : j < k + 1 ↔ j < k := by omega
          simp only [this]
      · refine ⟨{ w with varIdx := WSet.upd w.varIdx k (some w.actVars), actVars := w.actVars + 1,
                         content := WSet.upd w.content w.size k, varState := WSet.upd w.varState k (vs k) },
          ?_, b1, b2, b3, fun j => ?_, b5⟩
        · rw [if_pos hs]
          unfold WSet.addVar
          rw [if_pos ⟨by omega, b3, by rw [b4 k, if_neg (lt_irrefl k)], hs⟩]
        · show WSet.upd w.varState k (vs k) j = _
          unfold WSet.upd
          by_cases hjk : j = k
          · subst hjk; simp
          · have : j < k + 1 ↔ j < k := by omega
            rw [if_neg hjk, b4 j]; simp only [this])
  obtain ⟨w1, c1, c2, c3, c4⟩ := foldlM_range_inv (P := fun k w => w.numCons = m ∧ w.varState = wv.varState ∧
      (∀ j, w.consState j = if j < k then cs j else .inactive))
    (f := fun w i => if cs i ≠ .inactive then w.addCons i (cs i) else some w) m (s0 := wv)
    ⟨a3, rfl, fun j => by simp [a6]⟩ (by
      rintro k hk w ⟨b1, b2, b4⟩
      by_cases hs : cs k = .inactive
      · refine ⟨w, by rw [if_neg (by simpa using hs)], b1, b2, fun j => ?_⟩
        rw [b4 j]
        by_cases hjk : j = k
        · subst hjk; simp [hs]
        · have : j < k + 1 ↔ j < k := by omega
          simp only [this]
      · refine ⟨{ w with consIdx := WSet.upd w.consIdx k (some (w.actVars + w.actCons)), actCons := w.actCons + 1,
                         content := WSet.upd w.content w.size (w.numVars + k), consState := WSet.upd w.consState k (cs k) },
          ?_, b1, b2, fun j => ?_⟩
        · rw [if_pos hs]
          unfold WSet.addCons
          rw [if_pos ⟨by omega, by rw [b4 k, if_neg (lt_irrefl k)], hs⟩]
        · show WSet.upd w.consState k (cs k) j = _
          unfold WSet.upd
          by_cases hjk : j = k
          · subst hjk; simp
          · have : j < k + 1 ↔ j < k := by omega
            rw [if_neg hjk, b4 j]; simp only [this])
  refine ⟨w1, ?_, fun j hj => ?_, fun i hi => ?_⟩
  · unfold storeWorkingSet; rw [a1, Option.bind_some]; exact c1
  · rw [c3, a5 j, if_pos hj]
  · rw [c4 i, if_pos hi]

section
variable {K : Type*} [Field K] [LinearOrder K]

theorem exists_between_all {ι : Type*} (l : List ι) (f : ι → K) {x A : K} (hA : x < A) (h : ∀ b ∈ l, x < f b) :
    ∃ z, x < z ∧ z ≤ A ∧ ∀ b ∈ l, z ≤ f b := by
  induction l with
  | nil => exact ⟨A, hA, le_rfl, by simp⟩
  | cons b t ih =>
    obtain ⟨z, h1, h2, h3⟩ := ih fun c hc => h c (by simp [hc])
    refine ⟨min z (f b), lt_min h1 (h b (by simp)), (min_le_left _ _).trans h2, fun c hc => ?_⟩
    rcases List.mem_cons.mp hc with rfl | hc
    · exact min_le_right _ _
    · exact (min_le_left _ _).trans (h3 c hc)

theorem exists_below_all {ι : Type*} (l : List ι) (f : ι → K) {x A : K} (hA : A < x) (h : ∀ b ∈ l, f b < x) :
    ∃ z, z < x ∧ A ≤ z ∧ ∀ b ∈ l, f b ≤ z := by
  induction l with
  | nil => exact ⟨A, hA, le_rfl, by simp⟩
  | cons b t ih =>
    obtain ⟨z, h1, h2, h3⟩ := ih fun c hc => h c (by simp [hc])
    refine ⟨max z (f b), max_lt h1 (h b (by simp)), h2.trans (le_max_left _ _), fun c hc => ?_⟩
    rcases List.mem_cons.mp hc with rfl | hc
    · exact le_max_right _ _
    · exact (h3 c hc).trans (le_max_left _ _)

variable [IsStrictOrderedRing K]

theorem forcingCoeffs_nodup {A : Mat K} (hA : A.WF) (i : Nat) : ((forcingCoeffs A i).map Prod.fst).Nodup := by
  unfold forcingCoeffs
  have key : ∀ l : List Nat, (∀ j ∈ l, j < A.numCols) → l.Nodup →
      ((l.flatMap fun j => (colCoeffs i (A.col j)).map fun v => (j, v)).map Prod.fst).Nodup := by
    intro l hl hn
    induction l with
    | nil => exact List.nodup_nil
    | cons j t ih =>
      obtain ⟨n1, n2⟩ := List.nodup_cons.mp hn
      rw [List.flatMap_cons, List.map_append, List.nodup_append]
      refine ⟨?_, ih (fun k hk => hl k (by simp [hk])) n2, ?_⟩
      · rw [colCoeffs_eq (hA.srt j (hl j (by simp)))]
        split <;> simp
      · intro a ha b hb hab
        subst hab
        have h1 : a = j := by
          obtain ⟨e, he, rfl⟩ := List.mem_map.mp ha
          obtain ⟨v, _, rfl⟩ := List.mem_map.mp he
          rfl
        obtain ⟨e, he, h2⟩ := List.mem_map.mp hb
        obtain ⟨k, hk, he⟩ := List.mem_flatMap.mp he
        obtain ⟨v, _, rfl⟩ := List.mem_map.mp he
        exact n1 (by rw [← h1, ← h2]; exact hk)
  exact key _ (fun j hj => List.mem_range.mp hj) List.nodup_range


theorem conv_ok {inf : K} {p : Prob K} {s : Presolve K} (hst : PStruct inf p s) (x c : Nat → K) {J : Nat → Nat → K}
    (hlin : ∀ i < p.numLin, ∀ j < p.numVars, J (p.numGen + i) j = p.coeffs.value i j) {b : ConvBound K} (hb : b ∈ s.conv) :
    ConvOk p.numVars (p.numGen + p.numLin) p.numGen x (stackFn p.numGen c (p.activity x))
      (stackFn p.numGen p.genLb.value p.linLb.value) (stackFn p.numGen p.genUb.value p.linUb.value) J b := by
  obtain ⟨h1, _, h3, h4, h5, h6, h7⟩ := hst.conv b hb
  have hst : ∀ (f g : Nat → K), stackFn p.numGen f g (b.cons + p.numGen) = g b.cons := by
    intro f g
    unfold stackFn
    rw [if_neg (by omega), Nat.add_sub_cancel]
  refine ⟨h4, by omega, h3, ?_, ?_, ?_, ?_⟩
  · rw [Nat.add_comm, hlin _ h1 _ h4, h5]
  · intro j hj hjb
    rw [Nat.add_comm, hlin _ h1 _ hj]
    have := h6 fun k => if k = j then 1 else 0
    unfold Prob.activity at this
    rw [if_neg (Ne.symm hjb)] at this
    simpa [hj] using this
  · rw [hst, hst, hst, h6, h7]
    unfold convBoundOf
    simp only []
    intro hx
    split
    · rename_i hneg; rw [if_pos hneg] at hx; rw [hx]; field_simp
    · rename_i hneg; rw [if_neg hneg] at hx; rw [hx]; field_simp
  · rw [hst, hst, hst, h6, h7]
    unfold convBoundOf
    simp only []
    intro hx
    split
    · rename_i hneg; rw [if_pos hneg] at hx; rw [hx]; field_simp
    · rename_i hneg; rw [if_neg hneg] at hx; rw [hx]; field_simp

theorem force_ok {inf : K} (hinf : 0 < inf) {p : Prob K} (hp : p.WF) {s : Presolve K} (hst : PStruct inf p s) {x : Nat → K}
    (hx : p.Pts inf x) (c : Nat → K) {J : Nat → Nat → K}
    (hlin : ∀ i < p.numLin, ∀ j < p.numVars, J (p.numGen + i) j = p.coeffs.value i j) {f : Forcing K} (hf : f ∈ s.forcing) :
    ForceOk p.numVars (p.numGen + p.numLin) p.numGen x p.varLb.value p.varUb.value (stackFn p.numGen c (p.activity x))
      (stackFn p.numGen p.genLb.value p.linLb.value) (stackFn p.numGen p.genUb.value p.linUb.value) J f := by
  obtain ⟨h1, h2, h3, h4, h5⟩ := hst.forcing f hf
  have hst : ∀ (u g : Nat → K), stackFn p.numGen u g (p.numGen + f.cons) = g f.cons := by
    intro f g
    unfold stackFn
    rw [if_neg (by omega), Nat.add_sub_cancel_left]
  have hmem : ∀ j v, (j, v) ∈ f.coeffs ↔ j < p.numVars ∧ p.coeffs.value f.cons j = v ∧ v ≠ 0 := by
    intro j v; rw [h3, mem_forcingCoeffs hp.coeffs, hp.cols]
  have hact : (if f.atUpper then p.activity x f.cons = p.linUb.value f.cons else p.activity x f.cons = p.linLb.value f.cons) ∧
      ∀ j < p.numVars, p.coeffs.value f.cons j ≠ 0 →
        x j = forcedValue p.varLb.value p.varUb.value f.atUpper (j, p.coeffs.value f.cons j) := by
    cases hu : f.atUpper
    · rw [hu] at h5
      simp only [Bool.false_eq_true, if_false] at h5 ⊢
      exact forced_lower hinf hp hx h1 h5.1 h5.2
    · rw [hu] at h5
      simp only [if_true] at h5 ⊢
      exact forced_upper hinf hp hx h1 h5.1 h5.2
  refine ⟨by omega, by rw [h3]; exact forcingCoeffs_nodup hp.coeffs _, ?_, ?_, ?_⟩
  · rintro ⟨j, v⟩ he
    obtain ⟨e1, e2, e3⟩ := (hmem j v).mp he
    have hxj := hact.2 j e1 (by rw [e2]; exact e3)
    rw [e2] at hxj
    refine ⟨e3, by rw [hlin _ h1 _ e1, e2], fun hs => ?_, fun hs => ?_⟩
    · have := (forcedState_upper f.atUpper v e3).mp hs
      simp only [] at hxj ⊢
      rw [hxj]; unfold forcedValue
      rw [if_neg]
      cases hu : f.atUpper <;> rw [hu] at this <;> simp_all
    · have h6 : ¬ forcedState f.atUpper v = .upper := by simp only [] at hs; rw [hs]; simp
      have := mt (forcedState_upper f.atUpper v e3).mpr h6
      simp only [] at hxj ⊢
      rw [hxj]; unfold forcedValue
      rw [if_pos]
      cases hu : f.atUpper <;> rw [hu] at this <;> simp_all
  · intro j hj hnm
    rw [hlin _ h1 _ hj]
    by_contra hne
    exact hnm (List.mem_map.mpr ⟨(j, p.coeffs.value f.cons j), (hmem _ _).mpr ⟨hj, rfl, hne⟩, rfl⟩)
  · rw [hst, hst, hst]; exact hact.1

/-- activities of the kept rows differ by the contribution of the fixed variables -/
theorem kept_activity {inf : K} {p q : Prob K} {s : Presolve K} (hc : PCore inf p s)
    (hn : q.numVars + (s.fixedList p.numVars).length = p.numVars) (ht : TransVals inf p s q) {x : Nat → K}
    (hx : p.Pts inf x) (k : Nat) :
    q.activity (fun k => x (oldIdx ((s.fixedList p.numVars).map Prod.fst) k)) k =
      p.activity x (oldIdx (s.removedList p.numLin) k) -
        ∑ j ∈ range p.numVars, p.coeffs.value (oldIdx (s.removedList p.numLin) k) j * valAt (s.fixedList p.numVars) j := by
  obtain ⟨f1, f2, f3⟩ := fixedList_spec s p.numVars
  have hval : ∀ j < p.numVars, ∀ v, (s.varSt j).fixed? = some v → valAt (s.fixedList p.numVars) j = v := fun j hj v hv =>
    valAt_of_mem f1 ((f2 j v).mpr ⟨hj, hv⟩)
  unfold Prob.activity
  rw [← sum_sub_distrib]
  have hs := sum_oldIdx (rem := (s.fixedList p.numVars).map Prod.fst) (List.pairwise_map.mpr f1) (n := p.numVars) (m := q.numVars)
    (by
      intro r hr
      obtain ⟨⟨j, v⟩, he, rfl⟩ := List.mem_map.mp hr
      exact ((f2 j v).mp he).1) (by rw [List.length_map]; omega)
    (h := fun j => p.coeffs.value (oldIdx (s.removedList p.numLin) k) j * x j -
      p.coeffs.value (oldIdx (s.removedList p.numLin) k) j * valAt (s.fixedList p.numVars) j) (by
      intro r hr
      obtain ⟨⟨j, v⟩, he, rfl⟩ := List.mem_map.mp hr
      obtain ⟨e1, e2⟩ := (f2 j v).mp he
      simp only []
      rw [hval j e1 v e2, hc.fixedOk j e1 v e2 x hx, sub_self])
  rw [hs]
  refine sum_congr rfl fun j hj => ?_
  rw [ht.coeffs _ _ (mem_range.mp hj)]
  have h0 : valAt (s.fixedList p.numVars) (oldIdx ((s.fixedList p.numVars).map Prod.fst) j) = 0 := by
    have hno := oldIdx_not_mem (rem := (s.fixedList p.numVars).map Prod.fst) (List.pairwise_map.mpr f1) j
    unfold valAt
    cases ha : at? (s.fixedList p.numVars) (oldIdx ((s.fixedList p.numVars).map Prod.fst) j) with
    | none => rfl
    | some v => exact absurd (List.mem_map.mpr ⟨_, mem_of_at? ha, rfl⟩) hno
  rw [h0, mul_zero, sub_zero]

/-- activities of the kept rows are finite -/
theorem kept_finite {inf : K} (hinf : 0 < inf) {p q : Prob K} {s : Presolve K}
    (hn : q.numVars + (s.fixedList p.numVars).length = p.numVars) (ht : TransVals inf p s q) {x : Nat → K}
    (hx : p.FiniteAt inf x) {k : Nat} (hk : oldIdx (s.removedList p.numLin) k < p.numLin) :
    |q.activity (fun k => x (oldIdx ((s.fixedList p.numVars).map Prod.fst) k)) k| < inf := by
  obtain ⟨f1, _, _⟩ := fixedList_spec s p.numVars
  unfold Prob.activity
  refine lt_of_le_of_lt (abs_sum_le_sum_abs _ _) ?_
  have h1 : ∑ j ∈ range q.numVars, |q.coeffs.value k j * x (oldIdx ((s.fixedList p.numVars).map Prod.fst) j)| ≤
      ∑ j ∈ range p.numVars, |p.coeffs.value (oldIdx (s.removedList p.numLin) k) j * x j| := by
    rw [sum_congr rfl fun j hj => by rw [ht.coeffs k j (mem_range.mp hj)]]
    rw [← Finset.sum_image (s := range q.numVars) (g := oldIdx ((s.fixedList p.numVars).map Prod.fst))
      (f := fun j => |p.coeffs.value (oldIdx (s.removedList p.numLin) k) j * x j|)
      (fun a _ b _ hab => oldIdx_inj (List.pairwise_map.mpr f1) hab)]
    refine sum_le_sum_of_subset_of_nonneg ?_ (fun _ _ _ => abs_nonneg _)
    intro j hj
    obtain ⟨i, hi, rfl⟩ := mem_image.mp hj
    rw [mem_range] at hi ⊢
    exact oldIdx_lt (by rw [List.length_map]; omega)
  have := hx.terms _ hk
  linarith

/-- the multipliers of the transformed problem, put into the arrays of the original one -/
theorem restore_start {inf : K} (hinf : 0 < inf) {p q : Prob K} {s : Presolve K} (hc : PCore inf p s)
    (hn : q.numVars + (s.fixedList p.numVars).length = p.numVars)
    (hm : q.numLin + (s.removedList p.numLin).length = p.numLin) (hg : q.numGen = p.numGen)
    (hgb : ∀ i, q.genLb.value i = p.genLb.value i ∧ q.genUb.value i = p.genUb.value i) (ht : TransVals inf p s q)
    {w : WSet} {vd cd : Vec K} (hv : VOk q.numVars vd) (hcd : VOk (q.numGen + q.numLin) cd) {it : Iterate K}
    (hit : DerivFits p.numVars (p.numGen + p.numLin) it) {x c : Nat → K} (hx : p.Pts inf x)
    (hlin : ∀ i < p.numLin, ∀ j < p.numVars, it.consJac.value (p.numGen + i) j = p.coeffs.value i j)
    (hw1 : ∀ k < q.numVars, (w.varState k).Admits (vd.value k))
    (hw2 : ∀ i < q.numGen + q.numLin, (w.consState i).Admits (cd.value i))
    (hk : q.Kkt (fun k => x (oldIdx ((s.fixedList p.numVars).map Prod.fst) k)) c
      (fun k => it.objGrad.value (oldIdx ((s.fixedList p.numVars).map Prod.fst) k))
      (fun i k => it.consJac.value i (oldIdx ((s.fixedList p.numVars).map Prod.fst) k)) vd.value cd.value) :
    ∃ st, prepareRestore 0 p s w vd cd it = some st ∧
      RBase p.numVars (p.numGen + p.numLin) (stackFn p.numGen c (p.activity x))
        (stackFn p.numGen p.genLb.value p.linLb.value) (stackFn p.numGen p.genUb.value p.linUb.value)
        it.objGrad.value it.consJac.value st ∧
      (∀ j < p.numVars, (s.varSt j).fixed? = none →
        st.res j = 0 ∧ ∃ k < q.numVars, j = oldIdx ((s.fixedList p.numVars).map Prod.fst) k ∧ st.varDual j = vd.value k) ∧
      (∀ j < p.numVars, (s.varSt j).fixed?.isSome = true → st.varDual j = 0 ∧ st.varState j = .inactive) ∧
      ∀ i < p.numLin, s.consSt i ≠ .unchanged →
        st.consDual (p.numGen + i) = 0 ∧ st.consState (p.numGen + i) = .inactive := by
  obtain ⟨f1, f2, f3⟩ := fixedList_spec s p.numVars
  obtain ⟨g1, g2, g3⟩ := removedList_spec s p.numLin
  obtain ⟨st, a1, a2, a3, a4, a5, a6, a7⟩ := prepareRestore_spec hn hm hg w hv hcd hit
  have hfs : ((s.fixedList p.numVars).map Prod.fst).Pairwise (· < ·) := List.pairwise_map.mpr f1
  have hflt : ∀ r ∈ (s.fixedList p.numVars).map Prod.fst, r < p.numVars := by
    intro r hr
    obtain ⟨⟨j, v⟩, he, rfl⟩ := List.mem_map.mp hr
    exact ((f2 j v).mp he).1
  have hvar : ∀ j < p.numVars, (s.varSt j).fixed? = none →
      ∃ k < q.numVars, j = oldIdx ((s.fixedList p.numVars).map Prod.fst) k := by
    intro j hj hu
    have hnm : j ∉ (s.fixedList p.numVars).map Prod.fst := by
      intro hmem
      obtain ⟨⟨j', v⟩, he, rfl⟩ := List.mem_map.mp hmem
      have := ((f2 j' v).mp he).2
      simp only [] at hu
      rw [hu] at this; cases this
    obtain ⟨k, hk⟩ := oldIdx_surj hfs hnm
    refine ⟨k, oldIdx_lt' hfs hflt (by rw [List.length_map]; omega) (by rw [hk]; exact hj), hk.symm⟩
  have hrow : ∀ i < p.numLin, s.consSt i = .unchanged → ∃ k < q.numLin, i = oldIdx (s.removedList p.numLin) k := by
    intro i hi hu
    have hnm : i ∉ s.removedList p.numLin := fun hmem => ((g2 i).mp hmem).2 hu
    obtain ⟨k, hk⟩ := oldIdx_surj g1 hnm
    exact ⟨k, oldIdx_lt' g1 (fun r hr => ((g2 r).mp hr).1) hm.symm (by rw [hk]; exact hi), hk.symm⟩
  refine ⟨st, a1, ⟨?_, ?_, ?_⟩, ?_, fun j hj hs => a3 j hs hj, a6⟩
  · intro j hj
    rw [a7 j hj]; rfl
  · intro j hj
    cases hu : (s.varSt j).fixed? with
    | none =>
      obtain ⟨k, hkn, rfl⟩ := hvar j hj hu
      rw [(a2 k hkn).1, (a2 k hkn).2]
      exact hw1 k hkn
    | some v =>
      obtain ⟨e1, e2⟩ := a3 j (by rw [hu]; rfl) hj
      rw [e1, e2]; rfl
  · intro i hi
    by_cases hig : i < p.numGen
    · have h1 := hk.cons i (by omega)
      unfold stackFn at h1 ⊢
      rw [if_pos (by omega), if_pos (by omega), if_pos (by omega), (hgb i).1, (hgb i).2] at h1
      rw [if_pos hig, if_pos hig, if_pos hig, (a4 i hig).1, (a4 i hig).2]
      exact ⟨h1, hw2 i (by omega)⟩
    · obtain ⟨i', rfl⟩ : ∃ i', i = p.numGen + i' := ⟨i - p.numGen, by omega⟩
      have hst : ∀ (u g : Nat → K), stackFn p.numGen u g (p.numGen + i') = g i' := by
        intro f g
        unfold stackFn
        rw [if_neg (by omega), Nat.add_sub_cancel_left]
      rw [hst, hst, hst]
      by_cases hu : s.consSt i' = .unchanged
      · obtain ⟨k, hkn, rfl⟩ := hrow i' (by omega) hu
        rw [(a5 k hkn).1, (a5 k hkn).2]
        refine ⟨?_, by have := hw2 (p.numGen + k) (by omega); exact this⟩
        have h1 := hk.cons (p.numGen + k) (by omega)
        have hst' : ∀ (u g : Nat → K), stackFn q.numGen u g (p.numGen + k) = g k := by
          intro f g
          unfold stackFn
          rw [if_neg (by omega), hg, Nat.add_sub_cancel_left]
        rw [hst', hst', hst'] at h1
        have hfin := kept_finite hinf hn ht hx.2 (k := k) (by omega)
        rw [abs_lt] at hfin
        have hact := kept_activity hc hn ht hx k
        rcases h1 with h0 | ⟨hd, hb⟩ | ⟨hd, hb⟩
        · exact Or.inl h0
        · refine Or.inr (Or.inl ⟨hd, ?_⟩)
          rw [ht.linUb k hkn] at hb
          split at hb
          · linarith [hfin.2]
          · rw [hact] at hb; linarith
        · refine Or.inr (Or.inr ⟨hd, ?_⟩)
          rw [ht.linLb k hkn] at hb
          split at hb
          · linarith [hfin.1]
          · rw [hact] at hb; linarith
      · obtain ⟨e1, e2⟩ := a6 i' (by omega) hu
        rw [e1, e2]; exact ⟨Or.inl rfl, rfl⟩
  · intro j hj hu
    obtain ⟨k, hkn, rfl⟩ := hvar j hj hu
    refine ⟨?_, k, hkn, rfl, (a2 k hkn).1⟩
    rw [a7 _ hj, (a2 k hkn).1]
    have h1 := hk.stationary k hkn
    rw [← h1]
    congr 1
    rw [Finset.sum_range_add, hg, Finset.sum_range_add]
    congr 1
    · refine sum_congr rfl fun i hi => ?_
      rw [(a4 i (mem_range.mp hi)).1]
      unfold stackFn
      rw [if_pos (mem_range.mp hi)]
    · rw [sum_oldIdx g1 (fun r hr => ((g2 r).mp hr).1) hm.symm (h := fun i => st.consDual (p.numGen + i) *
        it.consJac.value (p.numGen + i) (oldIdx ((s.fixedList p.numVars).map Prod.fst) k)) (by
          intro i hi
          rw [(a6 i ((g2 i).mp hi).1 ((g2 i).mp hi).2).1, zero_mul])]
      refine sum_congr rfl fun i hi => ?_
      have hi := mem_range.mp hi
      rw [(a5 i hi).1]
      unfold stackFn
      rw [if_neg (by omega), Nat.add_sub_cancel_left, ht.coeffs _ _ hkn, hlin _ (oldIdx_lt (by omega)) _ hj]

/-- a positive multiplier of a variable sits at an upper bound: that of the variable, or one from a converted row -/
theorem start_up {inf : K} (hinf : 0 < inf) {p q : Prob K} {s : Presolve K} (hc : PCore inf p s) (hst : PStruct inf p s)
    (ht : TransVals inf p s q) (hs : s.SingleConv) {x : Nat → K} (hx : p.Pts inf x) {k : Nat} (hk : k < q.numVars)
    {j : Nat} (hj : j < p.numVars) (hjk : j = oldIdx ((s.fixedList p.numVars).map Prod.fst) k)
    (hb : q.varUb.value k ≤ x j) :
    (x j = p.varUb.value j ∨ ∃ b ∈ s.conv, b.var = j ∧ b.upper = true) ∧
      ∀ b ∈ s.conv, b.var = j → b.upper = true → x j = b.ub := by
  have hrow : ∀ b ∈ s.conv, b.var = j → b.lb ≤ x j ∧ x j ≤ b.ub := by
    intro b hb hbj
    obtain ⟨h1, _, h3⟩ := hc.conv b hb
    have := (h3 x).mp (hx.1.2 _ h1)
    rwa [hbj] at this
  have hupper : ∀ b ∈ s.conv, b.var = j → (b.upper = true ↔ isFinite inf b.ub = true ∧ b.ub < p.varUb.value j) := by
    intro b hb hbj
    obtain ⟨_, _, _, _, _, _, h7⟩ := hst.conv b hb
    rw [← hbj]
    conv_lhs => rw [h7]
    unfold convBoundOf
    simp only [Bool.and_eq_true, decide_eq_true_eq]
    have : b.ub = if b.factor < 0 then p.linLb.value b.cons / b.factor else p.linUb.value b.cons / b.factor := by
      conv_lhs => rw [h7]
      rfl
    rw [this]
  have hle := (hx.1.1 j hj).2
  rcases hle.eq_or_lt with heq | hlt
  · refine ⟨Or.inl heq, fun b hb hbj hu => ?_⟩
    have := ((hupper b hb hbj).mp hu).2
    have := (hrow b hb hbj).2
    linarith
  · have hex : ∃ b ∈ s.conv, b.var = j ∧ b.ub ≤ x j := by
      by_contra hno
      have hno' : ∀ b ∈ s.conv, b.var = j → x j < b.ub := fun b hb hbj => by
        by_contra hcon
        exact hno ⟨b, hb, hbj, not_lt.mp hcon⟩
      have hxf := (abs_lt.mp (hx.2.coord j hj)).2
      obtain ⟨z, z1, z2, z3⟩ := exists_between_all (s.conv.filter fun b => decide (b.var = j)) ConvBound.ub (x := x j)
        (A := if s.varReq (oldIdx ((s.fixedList p.numVars).map Prod.fst) k) = .redUpper then inf
          else p.varUb.value (oldIdx ((s.fixedList p.numVars).map Prod.fst) k)) (by
          split
          · linarith
          · rw [← hjk]; exact hlt) (by
          intro b hb
          obtain ⟨b1, b2⟩ := List.mem_filter.mp hb
          exact hno' b b1 (by simpa using b2))
      have := (ht.varUb k hk z).mpr ⟨z2, fun b hb hbj => z3 b (List.mem_filter.mpr ⟨hb, by simpa [hjk] using hbj⟩)⟩
      linarith
    obtain ⟨b, hb, hbj, hle'⟩ := hex
    have hbx : x j = b.ub := le_antisymm (hrow b hb hbj).2 hle'
    have hbu : b.upper = true := (hupper b hb hbj).mpr ⟨by
      rw [← hbx]; unfold isFinite isInfinite; simp [hx.2.coord j hj], by rw [← hbx]; exact hlt⟩
    refine ⟨Or.inr ⟨b, hb, hbj, hbu⟩, fun b' hb' hbj' hu => ?_⟩
    rw [← (hs b hb b' hb' (by rw [hbj, hbj'])).1 hbu hu]
    exact hbx

/-- a negative multiplier of a variable sits at a lower bound: that of the variable, or one from a converted row -/
theorem start_low {inf : K} (hinf : 0 < inf) {p q : Prob K} {s : Presolve K} (hc : PCore inf p s) (hst : PStruct inf p s)
    (ht : TransVals inf p s q) (hs : s.SingleConv) {x : Nat → K} (hx : p.Pts inf x) {k : Nat} (hk : k < q.numVars)
    {j : Nat} (hj : j < p.numVars) (hjk : j = oldIdx ((s.fixedList p.numVars).map Prod.fst) k)
    (hb : x j ≤ q.varLb.value k) :
    (x j = p.varLb.value j ∨ ∃ b ∈ s.conv, b.var = j ∧ b.lower = true) ∧
      ∀ b ∈ s.conv, b.var = j → b.lower = true → x j = b.lb := by
  have hrow : ∀ b ∈ s.conv, b.var = j → b.lb ≤ x j ∧ x j ≤ b.ub := by
    intro b hb hbj
    obtain ⟨h1, _, h3⟩ := hc.conv b hb
    have := (h3 x).mp (hx.1.2 _ h1)
    rwa [hbj] at this
  have hlower : ∀ b ∈ s.conv, b.var = j → (b.lower = true ↔ isFinite inf b.lb = true ∧ p.varLb.value j < b.lb) := by
    intro b hb hbj
    obtain ⟨_, _, _, _, _, _, h7⟩ := hst.conv b hb
    rw [← hbj]
    conv_lhs => rw [h7]
    unfold convBoundOf
    simp only [Bool.and_eq_true, decide_eq_true_eq]
    have : b.lb = if b.factor < 0 then p.linUb.value b.cons / b.factor else p.linLb.value b.cons / b.factor := by
      conv_lhs => rw [h7]
      rfl
    rw [this]
  have hle := (hx.1.1 j hj).1
  rcases hle.eq_or_lt with heq | hlt
  · refine ⟨Or.inl heq.symm, fun b hb hbj hu => ?_⟩
    have := ((hlower b hb hbj).mp hu).2
    have := (hrow b hb hbj).1
    linarith
  · have hex : ∃ b ∈ s.conv, b.var = j ∧ x j ≤ b.lb := by
      by_contra hno
      have hno' : ∀ b ∈ s.conv, b.var = j → b.lb < x j := fun b hb hbj => by
        by_contra hcon
        exact hno ⟨b, hb, hbj, not_lt.mp hcon⟩
      have hxf := (abs_lt.mp (hx.2.coord j hj)).1
      obtain ⟨z, z1, z2, z3⟩ := exists_below_all (s.conv.filter fun b => decide (b.var = j)) ConvBound.lb (x := x j)
        (A := if s.varReq (oldIdx ((s.fixedList p.numVars).map Prod.fst) k) = .redLower then -inf
          else p.varLb.value (oldIdx ((s.fixedList p.numVars).map Prod.fst) k)) (by
          split
          · linarith
          · rw [← hjk]; exact hlt) (by
          intro b hb
          obtain ⟨b1, b2⟩ := List.mem_filter.mp hb
          exact hno' b b1 (by simpa using b2))
      have := (ht.varLb k hk z).mpr ⟨z2, fun b hb hbj => z3 b (List.mem_filter.mpr ⟨hb, by simpa [hjk] using hbj⟩)⟩
      linarith
    obtain ⟨b, hb, hbj, hle'⟩ := hex
    have hbx : x j = b.lb := le_antisymm hle' (hrow b hb hbj).1
    have hbu : b.lower = true := (hlower b hb hbj).mpr ⟨by
      rw [← hbx]; unfold isFinite isInfinite; simp [hx.2.coord j hj], by rw [← hbx]; exact hlt⟩
    refine ⟨Or.inr ⟨b, hb, hbj, hbu⟩, fun b' hb' hbj' hu => ?_⟩
    rw [← (hs b hb b' hb' (by rw [hbj, hbj'])).2 hbu hu]
    exact hbx

/-- all corrections -/
theorem restore_main {inf : K} (hinf : 0 < inf) {p q : Prob K} (hp : p.WF) {s : Presolve K} (hc : PCore inf p s)
    (hst : PStruct inf p s) (hn : q.numVars + (s.fixedList p.numVars).length = p.numVars)
    (hm : q.numLin + (s.removedList p.numLin).length = p.numLin) (hg : q.numGen = p.numGen)
    (hgb : ∀ i, q.genLb.value i = p.genLb.value i ∧ q.genUb.value i = p.genUb.value i) (ht : TransVals inf p s q)
    (hs : s.SingleConv) (hdf : s.DisjointForcing) {junk : Nat} (hjunk : ∀ f ∈ s.forcing, f.coeffs.length ≤ junk)
    {eps : K} (heps : 0 ≤ eps)
    {w : WSet} {vd cd : Vec K} (hv : VOk q.numVars vd) (hcd : VOk (q.numGen + q.numLin) cd) {it : Iterate K}
    (hit : DerivFits p.numVars (p.numGen + p.numLin) it) {x c : Nat → K} (hx : p.Pts inf x)
    (hlin : ∀ i < p.numLin, ∀ j < p.numVars, it.consJac.value (p.numGen + i) j = p.coeffs.value i j)
    (hw1 : ∀ k < q.numVars, (w.varState k).Admits (vd.value k))
    (hw2 : ∀ i < q.numGen + q.numLin, (w.consState i).Admits (cd.value i))
    (hk : q.Kkt (fun k => x (oldIdx ((s.fixedList p.numVars).map Prod.fst) k)) c
      (fun k => it.objGrad.value (oldIdx ((s.fixedList p.numVars).map Prod.fst) k))
      (fun i k => it.consJac.value i (oldIdx ((s.fixedList p.numVars).map Prod.fst) k)) vd.value cd.value)
    {w0 : WSet} (hw0 : w0.numVars = p.numVars) (hw0' : w0.numCons = p.numGen + p.numLin) :
    ∃ w1 it1, restoreMultipliers eps 0 p s junk w vd cd w0 it = some (w1, it1) ∧
      VOk p.numVars it1.varsDual ∧ VOk (p.numGen + p.numLin) it1.consDual ∧
      p.Kkt x c it.objGrad.value it.consJac.value it1.varsDual.value it1.consDual.value ∧
      (∀ j < p.numVars, (w1.varState j).Admits (it1.varsDual.value j)) ∧
      (∀ i < p.numGen + p.numLin, (w1.consState i).Admits (it1.consDual.value i)) := by
  obtain ⟨f1, f2, f3⟩ := fixedList_spec s p.numVars
  obtain ⟨st, a1, a2, a3, a4, a5⟩ := restore_start hinf hc hn hm hg hgb ht hv hcd hit hx hlin hw1 hw2 hk
  have hfnd : ((s.fixedList p.numVars).map Prod.fst).Nodup := List.pairwise_map.mpr (f1.imp fun h => ne_of_lt h)
  -- variables fixed by their bounds
  obtain ⟨s1, b1, b2, b3, b4, b5, b6⟩ := fixed_spec (s := s) (s.fixedList p.numVars) hfnd a2 (by
    rintro ⟨j, v⟩ he
    obtain ⟨e1, e2⟩ := (f2 j v).mp he
    exact (a4 j e1 (by rw [e2]; rfl)).1)
  have hbf : ∀ j < p.numVars, ∀ v, s.varSt j = .boundFixed v → j ∈ (s.fixedList p.numVars).map Prod.fst := by
    intro j hj v hv
    exact List.mem_map.mpr ⟨(j, v), (f2 j v).mpr ⟨hj, by rw [hv]; rfl⟩, rfl⟩
  -- converted bounds
  have hup : ∀ j < p.numVars, ∀ d, (s1.varDual j = d → 0 < d →
      (x j = p.varUb.value j ∨ ∃ b ∈ s.conv, b.var = j ∧ b.upper = true) ∧
      ∀ b ∈ s.conv, b.var = j → b.upper = true → x j = b.ub) ∧ (s1.varDual j = d → d < 0 →
      (x j = p.varLb.value j ∨ ∃ b ∈ s.conv, b.var = j ∧ b.lower = true) ∧
      ∀ b ∈ s.conv, b.var = j → b.lower = true → x j = b.lb) := by
    intro j hj d
    by_cases hbd : ∃ v, s.varSt j = .boundFixed v
    · obtain ⟨v, hv⟩ := hbd
      obtain ⟨e1, e2⟩ := hst.bound j v hv
      obtain ⟨e3, e4⟩ := hx.1.1 j hj
      have hxv : x j = v := le_antisymm (by rw [← e2]; exact e4) (by rw [← e1]; exact e3)
      have hrow : ∀ b ∈ s.conv, b.var = j → b.lb ≤ x j ∧ x j ≤ b.ub := by
        intro b hb hbj
        obtain ⟨h1, _, h3⟩ := hc.conv b hb
        have := (h3 x).mp (hx.1.2 _ h1)
        rwa [hbj] at this
      refine ⟨fun _ _ => ⟨Or.inl (by rw [hxv, e2]), fun b hb hbj hu => ?_⟩,
        fun _ _ => ⟨Or.inl (by rw [hxv, e1]), fun b hb hbj hu => ?_⟩⟩
      · obtain ⟨_, _, _, _, _, _, h7⟩ := hst.conv b hb
        rw [h7] at hu
        unfold convBoundOf at hu
        simp only [Bool.and_eq_true, decide_eq_true_eq] at hu
        have hub : b.ub = if b.factor < 0 then p.linLb.value b.cons / b.factor else p.linUb.value b.cons / b.factor := by
          conv_lhs => rw [h7]
          rfl
        rw [← hub, hbj, e2] at hu
        have := (hrow b hb hbj).2
        linarith [hu.2]
      · obtain ⟨_, _, _, _, _, _, h7⟩ := hst.conv b hb
        rw [h7] at hu
        unfold convBoundOf at hu
        simp only [Bool.and_eq_true, decide_eq_true_eq] at hu
        have hlb : b.lb = if b.factor < 0 then p.linUb.value b.cons / b.factor else p.linLb.value b.cons / b.factor := by
          conv_lhs => rw [h7]
          rfl
        rw [← hlb, hbj, e1] at hu
        have := (hrow b hb hbj).1
        linarith [hu.2]
    · have hkeep := (b6 j (Or.inr fun v hv => hbd ⟨v, hv⟩)).1
      cases hu : (s.varSt j).fixed? with
      | some v =>
        have h0 := (a4 j hj (by rw [hu]; rfl)).1
        rw [hkeep, h0]
        exact ⟨fun e h => absurd h (by rw [← e]; exact lt_irrefl _), fun e h => absurd h (by rw [← e]; exact lt_irrefl _)⟩
      | none =>
        obtain ⟨_, k, hkn, hjk, hd⟩ := a3 j hj hu
        rw [hkeep, hd]
        have hcomp := hk.vars k hkn
        simp only [← hjk] at hcomp
        refine ⟨fun e h => ?_, fun e h => ?_⟩
        · rw [e] at hcomp
          rcases hcomp with h0 | ⟨_, hb⟩ | ⟨h0, _⟩
          · linarith
          · exact start_up hinf hc hst ht hs hx hkn hj hjk hb
          · linarith
        · rw [e] at hcomp
          rcases hcomp with h0 | ⟨h0, _⟩ | ⟨_, hb⟩
          · linarith
          · linarith
          · exact start_low hinf hc hst ht hs hx hkn hj hjk hb
  have hCI : CInv p.numVars (p.numGen + p.numLin) p.numGen x p.varLb.value p.varUb.value
      (stackFn p.numGen c (p.activity x)) (stackFn p.numGen p.genLb.value p.linLb.value)
      (stackFn p.numGen p.genUb.value p.linUb.value) it.objGrad.value it.consJac.value s.conv s1 := by
    refine ⟨b2, fun j hj hd => (hup j hj _).1 rfl hd, fun j hj hd => (hup j hj _).2 rfl hd, fun b hb => ?_⟩
    obtain ⟨h1, ⟨k, h2⟩, _⟩ := hst.conv b hb
    rw [b3, b4, Nat.add_comm]
    obtain ⟨e1, e2⟩ := a5 b.cons h1 (by rw [h2]; simp)
    exact ⟨e2, e1⟩
  obtain ⟨s2, c1, c2, c3, c4, _, c6⟩ := converted_spec s.conv hCI (fun b hb => conv_ok hst x c hlin hb) hst.convNodup
  -- forcing constraints
  have hFI : FInv p.numVars (p.numGen + p.numLin) p.numGen x p.varLb.value p.varUb.value
      (stackFn p.numGen c (p.activity x)) (stackFn p.numGen p.genLb.value p.linLb.value)
      (stackFn p.numGen p.genUb.value p.linUb.value) it.objGrad.value it.consJac.value s.forcing s2 := by
    refine ⟨c2.toRBase, fun j hj => ?_, fun f hf => ?_, fun j hj => ?_⟩
    · rcases lt_trichotomy (s2.varDual j) 0 with h | h | h
      · rcases (c2.low j hj h).1 with e | ⟨b, hb, _⟩
        · exact Or.inr (Or.inr ⟨h, e.le⟩)
        · cases hb
      · exact Or.inl h
      · rcases (c2.up j hj h).1 with e | ⟨b, hb, _⟩
        · exact Or.inr (Or.inl ⟨h, e.ge⟩)
        · cases hb
    · obtain ⟨h1, h2, h3, h4, _⟩ := hst.forcing f hf
      constructor
      · rw [c6, b3]
        · exact (a5 f.cons h1 (by rw [h2]; simp)).1
        · intro b hb hbe
          obtain ⟨_, ⟨k, h5⟩, _⟩ := hst.conv b hb
          rw [show b.cons = f.cons by omega, h2] at h5; cases h5
      · rintro ⟨j, a⟩ he
        obtain ⟨v, hv⟩ := h4 _ he
        have hjn : j < p.numVars := by
          rw [h3, mem_forcingCoeffs hp.coeffs, hp.cols] at he; exact he.1
        simp only [] at hv ⊢
        refine c4 j ?_
        rw [(b6 j (Or.inr fun v' hv' => by rw [hv] at hv'; cases hv')).1]
        exact (a4 j hjn (by rw [hv]; rfl)).1
    · rw [c3]
      rcases hx' : s.varSt j with _ | v | v
      · left
        rw [(b6 j (Or.inr fun v hv => by rw [hx'] at hv; cases hv)).2.2]
        exact (a3 j hj (by rw [hx']; rfl)).1
      · left
        exact b5 j (hbf j hj v hx') ⟨v, hx'⟩
      · right
        obtain ⟨f, hf, e, he, hej⟩ := hst.forced j v hx'
        exact ⟨f, hf, List.mem_map.mpr ⟨e, he, hej⟩⟩
  obtain ⟨s3, d1, d2⟩ := forcing_spec heps s.forcing hFI
    (fun f hf => ⟨force_ok hinf hp hst hx c hlin hf, hjunk f hf⟩) hst.forcingNodup hdf
  obtain ⟨w1, e1, e2, e3⟩ := storeWorkingSet_spec s3.varState s3.consState hw0 hw0'
  obtain ⟨it1, g1, v1, v2, v3, v4, v5, v6, _⟩ := storeDuals_spec (n := p.numVars) (m := p.numGen + p.numLin)
    s3.varDual s3.consDual it
  refine ⟨w1, it1, ?_, ⟨v1, v2⟩, ⟨v3, v4⟩, ⟨?_, ?_, ?_⟩, ?_, ?_⟩
  · unfold restoreMultipliers correctAll
    rw [a1, Option.bind_some, b1, Option.bind_some, c1, Option.bind_some, d1, Option.bind_some, e1, Option.bind_some, g1]
    rfl
  · intro j hj
    have h1 := d2.tot j hj
    have h2 : s3.res j = 0 := by
      rcases d2.zero j hj with h | ⟨f, hf, _⟩
      · exact h
      · cases hf
    rw [h2] at h1
    rw [← h1]
    unfold RestoreSt.total
    rw [v5 j hj]
    congr 1
    refine sum_congr rfl fun i hi => ?_
    have hi := mem_range.mp hi
    rw [v6 i hi]
    unfold stackFn
    split
    · rfl
    · rename_i hge
      rw [← hlin (i - p.numGen) (by omega) j hj, show p.numGen + (i - p.numGen) = i by omega]
  · intro j hj; rw [v5 j hj]; exact d2.comp j hj
  · intro i hi; rw [v6 i hi]; exact (d2.cons i hi).1
  · intro j hj; rw [v5 j hj, e2 j hj]; exact d2.adm j hj
  · intro i hi; rw [v6 i hi, e3 i hi]; exact (d2.cons i hi).2

end
end Sleqp
