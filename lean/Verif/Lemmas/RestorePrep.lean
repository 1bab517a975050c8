import Verif.Model.RestoreDual
import Verif.Spec.RestoreDual
import Verif.Lemmas.Transform
import Verif.Lemmas.PresolveStruct
import Mathlib.Data.List.Sort

/-! Helper lemmas: the arrays before the corrections made when multipliers are restored. -/

namespace Sleqp

open Finset

/-- position of a kept index -/
theorem oldIdx_pos {rem : List Nat} (hs : rem.Pairwise (· < ·)) (i : Nat) :
    i + (rem.filter (· < oldIdx rem i)).length = oldIdx rem i := by
  induction rem generalizing i with
  | nil => simp [oldIdx]
  | cons r rs ih =>
    obtain ⟨h1, h2⟩ := List.pairwise_cons.mp hs
    unfold oldIdx
    split
    · rename_i h
      have := ih h2 (i + 1)
      have hge := oldIdx_ge rs (i + 1)
      rw [List.filter_cons_of_pos (by simp; omega), List.length_cons]
      omega
    · rename_i h
      rw [List.filter_eq_nil_iff.mpr]
      · simp
      · intro a ha
        rcases List.mem_cons.mp ha with rfl | ha
        · simp; omega
        · have := h1 a ha; simp; omega

/-- the kept indices below `n` are enumerated by `oldIdx` -/
theorem kept_eq {rem : List Nat} (hs : rem.Pairwise (· < ·)) {n m : Nat} (hr : ∀ r ∈ rem, r < n)
    (hd : m + rem.length = n) {P : Nat → Bool} (hP : ∀ i < n, P i = true ↔ i ∉ rem) :
    (List.range n).filter P = (List.range m).map (oldIdx rem) := by
  have h1 : ((List.range n).filter P).Pairwise (· < ·) := List.Pairwise.filter _ List.pairwise_lt_range
  have h2 : ((List.range m).map (oldIdx rem)).Pairwise (· < ·) :=
    List.pairwise_map.mpr (List.pairwise_lt_range.imp fun h => oldIdx_strictMono hs h)
  have hp : ((List.range n).filter P).Perm ((List.range m).map (oldIdx rem)) := by
    refine (List.perm_ext_iff_of_nodup (h1.imp fun h => h.ne) (h2.imp fun h => h.ne)).mpr fun a => ?_
    rw [List.mem_filter, List.mem_map, List.mem_range]
    constructor
    · rintro ⟨a1, a2⟩
      obtain ⟨i, rfl⟩ := oldIdx_surj hs ((hP a a1).mp a2)
      exact ⟨i, List.mem_range.mpr (oldIdx_lt' hs hr hd.symm a1), rfl⟩
    · rintro ⟨i, a1, rfl⟩
      have : oldIdx rem i < n := oldIdx_lt (by rw [List.mem_range] at a1; omega)
      exact ⟨this, (hP _ this).mpr (oldIdx_not_mem hs i)⟩
  exact hp.eq_of_pairwise' (h1.imp fun h => h.le) (h2.imp fun h => h.le)

/-- number of removed indices before a kept one -/
theorem removed_before {rem : List Nat} (hs : rem.Pairwise (· < ·)) {n : Nat} {P : Nat → Bool}
    (hP : ∀ i, i ∈ rem ↔ i < n ∧ P i = true) {k : Nat} (hk : oldIdx rem k < n) :
    oldIdx rem k - ((List.range (oldIdx rem k)).filter P).length = k := by
  have h := oldIdx_pos hs k
  have hp : ((List.range (oldIdx rem k)).filter P).Perm (rem.filter (· < oldIdx rem k)) := by
    refine (List.perm_ext_iff_of_nodup ((List.nodup_range).filter _) ((hs.imp fun h => h.ne).filter _)).mpr fun a => ?_
    rw [List.mem_filter, List.mem_filter, List.mem_range, hP]
    simp only [decide_eq_true_eq]
    constructor
    · rintro ⟨a1, a2⟩; exact ⟨⟨by omega, a2⟩, a1⟩
    · rintro ⟨⟨_, a2⟩, a1⟩; exact ⟨a1, a2⟩
  rw [hp.length_eq]
  omega

section
variable {K : Type*} [Field K] [LinearOrder K]

/-- entries of a sparse vector written to positions given by an injective function -/
theorem put_spec {step : (Nat → K) → Nat × K → Option (Nat → K)} {pos : Nat → Nat} {n : Nat}
    (hpos : ∀ i < n, ∀ j < n, pos i = pos j → i = j)
    (hstep : ∀ f e, e.1 < n → step f e = some (setAt f (pos e.1) e.2))
    (l : List (Nat × K)) (hs : Srt l) (hl : ∀ e ∈ l, e.1 < n) (f : Nat → K) :
    ∃ r, l.foldlM step f = some r ∧ (∀ i < n, r (pos i) = (at? l i).getD (f (pos i))) ∧
      ∀ j, (∀ i < n, pos i ≠ j) → r j = f j := by
  induction l generalizing f with
  | nil => exact ⟨f, rfl, fun i _ => by simp [at?], fun _ _ => rfl⟩
  | cons e t ih =>
    obtain ⟨h1, h2⟩ := List.pairwise_cons.mp hs
    have he := hl e (by simp)
    obtain ⟨r, r1, r2, r3⟩ := ih h2 (fun a ha => hl a (by simp [ha])) (setAt f (pos e.1) e.2)
    refine ⟨r, by rw [List.foldlM_cons, hstep f e he]; exact r1, fun i hi => ?_, fun j hj => ?_⟩
    · rw [r2 i hi, at?_cons]
      by_cases hei : e.1 = i
      · rw [if_pos hei, at?_none_of_lt (fun a ha => by rw [← hei]; exact h1 a ha), ← hei]
        simp [setAt_same]
      · rw [if_neg hei, setAt_ne]
        exact fun h => hei (hpos _ he _ hi h.symm)
    · rw [r3 j hj, setAt_ne _ _ (Ne.symm (hj _ he))]

variable [IsStrictOrderedRing K]

theorem setFromRaw_zero (v : Vec K) (n : Nat) (f : Nat → K) :
    ∃ r, v.setFromRaw 0 ((List.range n).map f) = some r ∧ r.WF ∧ r.dim = n ∧ ∀ i < n, r.value i = f i := by
  obtain ⟨r, r1, r2, r3, r4⟩ := setFromRaw_spec 0 v ((List.range n).map f)
  refine ⟨r, r1, r2, by rw [r3]; simp, fun i hi => ?_⟩
  rw [r4, List.getElem?_map, List.getElem?_range hi]
  simp only [Option.map_some]
  split
  · rename_i h; rw [abs_nonpos_iff.mp h]
  · rfl

theorem storeDuals_spec {n m : Nat} (vd cd : Nat → K) (it : Iterate K) :
    ∃ it1, storeDuals 0 n m vd cd it = some it1 ∧ it1.varsDual.WF ∧ it1.varsDual.dim = n ∧ it1.consDual.WF ∧
      it1.consDual.dim = m ∧ (∀ j < n, it1.varsDual.value j = vd j) ∧ (∀ i < m, it1.consDual.value i = cd i) ∧
      it1.primal = it.primal ∧ it1.objVal = it.objVal ∧ it1.objGrad = it.objGrad ∧ it1.consVal = it.consVal ∧
      it1.consJac = it.consJac := by
  obtain ⟨v, v1, v2, v3, v4⟩ := setFromRaw_zero it.varsDual n vd
  obtain ⟨c, c1, c2, c3, c4⟩ := setFromRaw_zero it.consDual m cd
  refine ⟨{ it with varsDual := v, consDual := c }, ?_, v2, v3, c2, c3, v4, c4, rfl, rfl, rfl, rfl, rfl⟩
  unfold storeDuals
  rw [v1, Option.bind_some, c1]; rfl

/-- shape of the derivatives stored in an iterate -/
structure DerivFits (n m : Nat) (it : Iterate K) : Prop where
  grad : it.objGrad.WF
  gradDim : it.objGrad.dim = n
  jac : it.consJac.WF
  rows : it.consJac.numRows = m
  cols : it.consJac.numCols = n

theorem restoreResiduals_spec {n m : Nat} (vd cd : Nat → K) {it : Iterate K} (h : DerivFits n m it) :
    ∃ r, restoreResiduals 0 n m vd cd it = some r ∧ ∀ j < n,
      r j = it.objGrad.value j + vd j + ∑ i ∈ range m, cd i * it.consJac.value i j := by
  obtain ⟨it1, e1, v1, v2, c1, c2, v3, c3, p1, p2, p3, p4, p5⟩ := storeDuals_spec (n := n) (m := m) vd cd it
  let it2 : Iterate K := { it1 with primal := Vec.create n 0, consVal := Vec.create m 0 }
  have hz : ∀ k : Nat, (Vec.create k 0 : Vec K).WF := fun k => ⟨List.Pairwise.nil, by simp [Vec.create], by simp [Vec.create, Vec.nnz]⟩
  have hfit : it2.Fits n m ⟨Vec.create n 0, Vec.create n 0, Vec.create m 0, Vec.create m 0⟩ :=
    ⟨⟨hz m, hz m, hz m, rfl, rfl, rfl, fun _ _ => le_rfl⟩, ⟨hz n, hz n, hz n, rfl, rfl, rfl, fun _ _ => le_rfl⟩, c1, c2, v1, v2,
      by show it1.objGrad.WF; rw [p3]; exact h.grad, by show it1.objGrad.dim = n; rw [p3]; exact h.gradDim,
      by show it1.consJac.WF; rw [p5]; exact h.jac, by show it1.consJac.numRows = m; rw [p5]; exact h.rows,
      by show it1.consJac.numCols = n; rw [p5]; exact h.cols⟩
  obtain ⟨cache, k1, k2, k3⟩ := C14_stationarity_cache hfit
  have k1' : it1.stationarityCache n m = some cache := k1
  have hcache : cache = (List.range n).map fun j => cache.getD j 0 := by
    apply List.ext_getElem?
    intro j
    by_cases hj : j < n
    · rw [List.getElem?_map, List.getElem?_range hj, List.getElem?_eq_getElem (by omega)]
      simp [List.getD_eq_getElem?_getD, List.getElem?_eq_getElem (show j < cache.length by omega)]
    · rw [List.getElem?_eq_none (by omega), List.getElem?_eq_none (by simp; omega)]
  obtain ⟨r, r1, r2, r3, r4⟩ := setFromRaw_zero (Vec.create n 0) n (fun j => cache.getD j 0)
  refine ⟨r.value, ?_, fun j hj => ?_⟩
  · unfold restoreResiduals Iterate.stationarityResiduals
    rw [e1, Option.bind_some, k1', Option.bind_some, hcache, r1]; rfl
  · rw [r4 j hj, List.getD_eq_getElem?_getD, k3 j hj]
    show (∑ i ∈ range m, it1.consDual.value i * it1.consJac.value i j) + it1.varsDual.value j + it1.objGrad.value j = _
    rw [v3 j hj, p3, p5, sum_congr rfl fun i hi => by rw [c3 i (mem_range.mp hi)]]
    ring

/-- the arrays before the corrections -/
theorem prepareRestore_spec {p q : Prob K} {s : Presolve K} (hn : q.numVars + (s.fixedList p.numVars).length = p.numVars)
    (hm : q.numLin + (s.removedList p.numLin).length = p.numLin) (hg : q.numGen = p.numGen) (w : WSet) {vd cd : Vec K}
    (hv : VOk q.numVars vd) (hc : VOk (q.numGen + q.numLin) cd) {it : Iterate K}
    (hit : DerivFits p.numVars (p.numGen + p.numLin) it) :
    ∃ st, prepareRestore 0 p s w vd cd it = some st ∧
      (∀ k < q.numVars, st.varDual (oldIdx ((s.fixedList p.numVars).map Prod.fst) k) = vd.value k ∧
        st.varState (oldIdx ((s.fixedList p.numVars).map Prod.fst) k) = w.varState k) ∧
      (∀ j, (s.varSt j).fixed?.isSome = true → j < p.numVars → st.varDual j = 0 ∧ st.varState j = .inactive) ∧
      (∀ i < p.numGen, st.consDual i = cd.value i ∧ st.consState i = w.consState i) ∧
      (∀ k < q.numLin, st.consDual (p.numGen + oldIdx (s.removedList p.numLin) k) = cd.value (p.numGen + k) ∧
        st.consState (p.numGen + oldIdx (s.removedList p.numLin) k) = w.consState (p.numGen + k)) ∧
      (∀ i < p.numLin, s.consSt i ≠ .unchanged →
        st.consDual (p.numGen + i) = 0 ∧ st.consState (p.numGen + i) = .inactive) ∧
      ∀ j < p.numVars, st.res j = it.objGrad.value j + st.varDual j +
        ∑ i ∈ range (p.numGen + p.numLin), st.consDual i * it.consJac.value i j := by
  obtain ⟨f1, f2, f3⟩ := fixedList_spec s p.numVars
  obtain ⟨g1, g2, g3⟩ := removedList_spec s p.numLin
  obtain ⟨fixed, hfixed⟩ : ∃ fixed, fixed = (s.fixedList p.numVars).map Prod.fst := ⟨_, rfl⟩
  obtain ⟨rem, hrem⟩ : ∃ rem, rem = s.removedList p.numLin := ⟨_, rfl⟩
  have hfs : fixed.Pairwise (· < ·) := by rw [hfixed]; exact List.pairwise_map.mpr f1
  have hfl : fixed.length = (s.fixedList p.numVars).length := by rw [hfixed, List.length_map]
  have hfmem : ∀ j, j ∈ fixed ↔ j < p.numVars ∧ (s.varSt j).fixed?.isSome = true := by
    intro j
    rw [hfixed, List.mem_map]
    constructor
    · rintro ⟨⟨k, v⟩, hk, rfl⟩
      obtain ⟨a, b⟩ := (f2 k v).mp hk
      exact ⟨a, by rw [b]; rfl⟩
    · rintro ⟨a, b⟩
      obtain ⟨v, hv⟩ := Option.isSome_iff_exists.mp b
      exact ⟨(j, v), (f2 j v).mpr ⟨a, hv⟩, rfl⟩
  have hgs : rem.Pairwise (· < ·) := by rw [hrem]; exact g1
  have hgmem : ∀ i, i ∈ rem ↔ i < p.numLin ∧ s.consSt i ≠ .unchanged := by rw [hrem]; exact g2
  rw [← hrem] at hm ⊢
  rw [← hfixed]
  have vmap : s.varMap p.numVars = (List.range q.numVars).map (oldIdx fixed) :=
    kept_eq hfs (fun r hr => ((hfmem r).mp hr).1) (by rw [hfl]; exact hn) (by
      intro i hi
      rw [hfmem, not_and, Bool.not_eq_true]
      cases (s.varSt i).fixed? <;> simp [hi])
  have lmap : s.linMap p.numLin = (List.range q.numLin).map (oldIdx rem) :=
    kept_eq hgs (fun r hr => ((hgmem r).mp hr).1) hm (by
      intro i hi
      rw [hgmem, not_and, not_not, decide_eq_true_eq]
      exact ⟨fun h _ => h, fun h => h hi⟩)
  have hold : ∀ k < q.numVars, oldIdx fixed k < p.numVars := fun k hk => oldIdx_lt (by rw [hfl]; omega)
  have holdl : ∀ k < q.numLin, oldIdx rem k < p.numLin := fun k hk => oldIdx_lt (by omega)
  have hstepv : ∀ (f : Nat → K) (e : Nat × K), e.1 < q.numVars →
      putVarDual (s.varMap p.numVars) f e = some (setAt f (oldIdx fixed e.1) e.2) := by
    intro f e he
    unfold putVarDual
    rw [vmap, List.getElem?_map, List.getElem?_range he]; rfl
  let pos : Nat → Nat := fun i => if i < p.numGen then i else p.numGen + oldIdx rem (i - p.numGen)
  have hstepc : ∀ (f : Nat → K) (e : Nat × K), e.1 < q.numGen + q.numLin →
      putConsDual p.numGen (s.linMap p.numLin) f e = some (setAt f (pos e.1) e.2) := by
    intro f e he
    unfold putConsDual
    by_cases hi : e.1 < p.numGen
    · rw [if_pos hi]; simp only [pos, if_pos hi]
    · rw [if_neg hi, lmap, List.getElem?_map, List.getElem?_range (by omega)]
      simp only [pos, if_neg hi]; rfl
  have hposinj : ∀ i < q.numGen + q.numLin, ∀ j < q.numGen + q.numLin, pos i = pos j → i = j := by
    intro i _ j _ h
    simp only [pos] at h
    split at h <;> split at h
    · exact h
    · omega
    · omega
    · have := oldIdx_inj hgs (show oldIdx rem (i - p.numGen) = oldIdx rem (j - p.numGen) by omega)
      omega
  obtain ⟨v, v1, v2, v3⟩ := put_spec (fun i _ j _ h => oldIdx_inj hfs h) hstepv vd.ents hv.1.srt
    (fun e he => by have := hv.1.lt_dim e he; rw [hv.2] at this; exact this) (fun _ => 0)
  obtain ⟨c, c1, c2, c3⟩ := put_spec hposinj hstepc cd.ents hc.1.srt
    (fun e he => by have := hc.1.lt_dim e he; rw [hc.2] at this; exact this) (fun _ => 0)
  obtain ⟨r, r1, r2⟩ := restoreResiduals_spec v c hit
  have hgetD : ∀ (l : List (Nat × K)) (i : Nat), (at? l i).getD 0 = valAt l i := by
    intro l i; unfold valAt; cases at? l i <;> rfl
  refine ⟨⟨restoreVarState s w, restoreConsState s p.numGen w, v, c, r⟩, ?_, ?_, ?_, ?_, ?_, ?_, r2⟩
  · unfold prepareRestore
    rw [v1, Option.bind_some, c1, Option.bind_some, r1]; rfl
  · intro k hk
    refine ⟨(v2 k hk).trans (hgetD _ _), ?_⟩
    have hnf : (s.varSt (oldIdx fixed k)).fixed?.isNone = true := by
      have := mt (hfmem (oldIdx fixed k)).mpr (oldIdx_not_mem hfs k)
      rw [not_and, Bool.not_eq_true] at this
      have := this (hold k hk)
      cases hx : (s.varSt (oldIdx fixed k)).fixed? with
      | none => rfl
      | some a => rw [hx] at this; cases this
    show restoreVarState s w _ = _
    unfold restoreVarState
    rw [if_pos hnf, removed_before hfs hfmem (hold k hk)]
  · intro j hj hjn
    constructor
    · refine v3 j fun i _ h => oldIdx_not_mem hfs i ?_
      rw [h, hfmem]; exact ⟨hjn, hj⟩
    · show restoreVarState s w _ = _
      unfold restoreVarState
      rw [if_neg]
      intro h
      cases hx : (s.varSt j).fixed? with
      | none => rw [hx] at hj; cases hj
      | some a => rw [hx] at h; cases h
  · intro i hi
    have := c2 i (by omega)
    simp only [pos, if_pos hi] at this
    refine ⟨this.trans (hgetD _ _), ?_⟩
    show restoreConsState s p.numGen w _ = _
    unfold restoreConsState
    rw [if_pos hi]
  · intro k hk
    have := c2 (p.numGen + k) (by omega)
    simp only [pos, if_neg (show ¬ p.numGen + k < p.numGen by omega), Nat.add_sub_cancel_left] at this
    refine ⟨this.trans (hgetD _ _), ?_⟩
    have hun : s.consSt (oldIdx rem k) = .unchanged := by
      have := mt (hgmem (oldIdx rem k)).mpr (oldIdx_not_mem hgs k)
      rw [not_and, not_not] at this
      exact this (holdl k hk)
    show restoreConsState s p.numGen w _ = _
    unfold restoreConsState
    rw [if_neg (by omega), Nat.add_sub_cancel_left, if_pos hun]
    have := removed_before (P := fun k => decide (s.consSt k ≠ .unchanged)) hgs
      (by intro i; rw [hgmem, decide_eq_true_eq]) (holdl k hk)
    congr 1
    have h2 := List.length_filter_le (fun k => decide (s.consSt k ≠ .unchanged)) (List.range (oldIdx rem k))
    rw [List.length_range] at h2
    omega
  · intro i hi hne
    constructor
    · refine c3 _ fun k hk h => ?_
      simp only [pos] at h
      split at h
      · omega
      · refine oldIdx_not_mem hgs (k - p.numGen) ?_
        rw [show oldIdx rem (k - p.numGen) = i by omega, hgmem]; exact ⟨hi, hne⟩
    · show restoreConsState s p.numGen w _ = _
      unfold restoreConsState
      rw [if_neg (by omega), Nat.add_sub_cancel_left, if_neg hne]

end
end Sleqp
