import Verif.Model.Polish
import Verif.Props.Cauchy
import Verif.Props.DualEstimation

/-! C32: polishing a working set only removes entries. -/

namespace Sleqp
variable {K : Type*} [Field K] [LinearOrder K]

theorem cursorAt_cursorTo {l : List (Nat × K)} (hs : Srt l) (j : Nat) :
    cursorAt j (cursorTo j l) = (at? l j).isSome := by
  unfold cursorTo
  induction l with
  | nil => rfl
  | cons e t ih =>
    have hs' := (srt_cons.mp hs)
    by_cases h1 : e.1 < j
    · rw [List.dropWhile_cons_of_pos (by simpa using h1), ih hs'.2, at?_cons, if_neg (by omega)]
    · rw [List.dropWhile_cons_of_neg (by simpa using h1), at?_cons]
      show decide (e.1 = j) = _
      by_cases h2 : e.1 = j
      · simp [h2]
      · rw [if_neg h2, at?_none_of_lt]
        · simp [h2]
        · intro a ha
          have := hs'.1 a ha
          omega

/-- the entries kept from a range -/
def polished (source : WSet) (c : Bool) (keep : Nat → Bool) (N : Nat) : List WEntry :=
  ((List.range N).filter fun i => decide (source.state c i ≠ .inactive) && keep i).map
    fun i => ⟨c, i, source.state c i⟩

/-- the number of entries removed from a range -/
def removedCount (source : WSet) (c : Bool) (keep : Nat → Bool) (N : Nat) : Nat :=
  (List.range N).countP fun i => decide (source.state c i ≠ .inactive) && !keep i

theorem polished_succ (source : WSet) (c : Bool) (keep : Nat → Bool) (j : Nat) :
    polished source c keep (j + 1) = polished source c keep j ++
      (if source.state c j ≠ .inactive ∧ keep j = true then [⟨c, j, source.state c j⟩] else []) := by
  unfold polished
  rw [List.range_succ, List.filter_append, List.map_append]
  congr 1
  by_cases h : source.state c j ≠ .inactive ∧ keep j = true
  · rw [if_pos h]; simp [h.1, h.2]
  · rw [if_neg h, List.filter_cons_of_neg (by simpa using h)]; rfl

theorem removedCount_succ (source : WSet) (c : Bool) (keep : Nat → Bool) (j : Nat) :
    removedCount source c keep (j + 1) = removedCount source c keep j +
      (if source.state c j ≠ .inactive ∧ keep j = false then 1 else 0) := by
  unfold removedCount
  rw [List.range_succ, List.countP_append]
  congr 1
  by_cases h : source.state c j ≠ .inactive ∧ keep j = false
  · rw [if_pos h]; simp [h.1, h.2]
  · rw [if_neg h, List.countP_cons_of_neg (by simpa using h)]; rfl

theorem polished_mem {source : WSet} {c : Bool} {keep : Nat → Bool} {N : Nat} {e : WEntry} :
    e ∈ polished source c keep N ↔
      e.constraint = c ∧ e.index < N ∧ e.state = source.state c e.index ∧ e.state ≠ .inactive ∧ keep e.index = true := by
  unfold polished
  rw [List.mem_map]
  constructor
  · rintro ⟨i, hi, rfl⟩
    obtain ⟨h1, h2⟩ := List.mem_filter.mp hi
    simp only [Bool.and_eq_true, decide_eq_true_eq] at h2
    exact ⟨rfl, List.mem_range.mp h1, rfl, h2.1, h2.2⟩
  · rintro ⟨h1, h2, h3, h4, h5⟩
    refine ⟨e.index, List.mem_filter.mpr ⟨List.mem_range.mpr h2, ?_⟩, ?_⟩
    · rw [Bool.and_eq_true, decide_eq_true_eq, ← h3]; exact ⟨h4, h5⟩
    · rw [← h1] at h3 ⊢; rw [← h3]

/-- adding the next entry of a range -/
theorem polish_add {n m : Nat} {source t : WSet} {c : Bool} {keep : Nat → Bool} {j : Nat} {L : List WEntry}
    (hL : ∀ e ∈ L, e.constraint = false ∧ c = true) (ht : WRep n m t (L ++ polished source c keep j))
    (hj : j < if c then m else n) (ha : source.state c j ≠ .inactive) (hk : keep j = true) :
    ∃ t', t.add c j (source.state c j) = some t' ∧ WRep n m t' (L ++ polished source c keep (j + 1)) := by
  have hnew : ∀ e ∈ L ++ polished source c keep j, ¬ (e.constraint = c ∧ e.index = j) := by
    rintro e he ⟨h1, h2⟩
    rcases List.mem_append.mp he with he | he
    · obtain ⟨a, b⟩ := hL e he
      rw [a, b] at h1; cases h1
    · have := (polished_mem.mp he).2.1
      omega
  rw [polished_succ, if_pos ⟨ha, hk⟩, ← List.append_assoc]
  cases c
  · obtain ⟨t', h1, h2⟩ := wrep_addVar ht (i := j) (st := source.state false j) (by simpa using hj)
      (by
        intro e he
        rcases List.mem_append.mp he with he | he
        · exact (hL e he).1
        · exact (polished_mem.mp he).1) hnew ha
    exact ⟨t', by simpa [WSet.add] using h1, h2⟩
  · obtain ⟨t', h1, h2⟩ := wrep_addCons ht (i := j) (st := source.state true j) (by simpa using hj) hnew ha
    exact ⟨t', by simpa [WSet.add] using h1, h2⟩

theorem polishZero_range {n m N : Nat} {source t : WSet} {c : Bool} {dual : Vec K} {L : List WEntry}
    (hL : ∀ e ∈ L, e.constraint = false ∧ c = true) (ht : WRep n m t L) (hd : VOk N dual) (hN : N = if c then m else n) :
    ∃ t', polishZeroRange source t dual c = some (t', removedCount source c (fun i => (at? dual.ents i).isSome) N) ∧
      WRep n m t' (L ++ polished source c (fun i => (at? dual.ents i).isSome) N) := by
  obtain ⟨keep, hkeep⟩ : ∃ keep, keep = fun i => (at? dual.ents i).isSome := ⟨_, rfl⟩
  obtain ⟨s, s1, s2⟩ := foldlM_range_inv (f := polishZeroBody source c) N (s0 := (t, dual.ents, 0))
    (P := fun j s => WRep n m s.1 (L ++ polished source c keep j) ∧ (∀ i ≥ j, cursorTo i s.2.1 = cursorTo i dual.ents) ∧
      s.2.2 = removedCount source c keep j)
    ⟨by simpa [polished] using ht, fun _ _ => rfl, rfl⟩
    (by
      rintro j hj ⟨t1, k1, r1⟩ ⟨h1, h2, h3⟩
      simp only at h1 h2 h3
      unfold polishZeroBody
      simp only []
      by_cases ha : source.state c j = .inactive
      · rw [if_pos ha]
        refine ⟨_, rfl, ?_, fun i hi => h2 i (by omega), ?_⟩
        · rw [polished_succ, if_neg (by simp [ha])]; simpa using h1
        · rw [removedCount_succ, if_neg (by simp [ha])]; exact h3
      · rw [if_neg ha, h2 j le_rfl, cursorAt_cursorTo hd.1.srt]
        by_cases hk : (at? dual.ents j).isSome = true
        · rw [if_pos hk]
          obtain ⟨t', a1, a2⟩ := polish_add hL h1 (by rw [← hN]; exact hj) ha (by rw [hkeep]; exact hk)
          rw [a1]
          refine ⟨_, rfl, a2, fun i hi => cursorTo_cursorTo (by omega) _, ?_⟩
          rw [removedCount_succ, if_neg (by simp [hkeep, hk])]; exact h3
        · rw [if_neg hk]
          refine ⟨_, rfl, ?_, fun i hi => cursorTo_cursorTo (by omega) _, ?_⟩
          · rw [polished_succ, if_neg (by rw [hkeep]; exact fun h => hk h.2)]; simpa using h1
          · rw [removedCount_succ, if_pos ⟨ha, by rw [hkeep]; simpa using hk⟩, h3])
  refine ⟨s.1, ?_, by rw [← hkeep]; exact s2.1⟩
  unfold polishZeroRange
  rw [hd.2, s1, ← hkeep]
  simp only [Option.map_some, s2.2.2]

/-- kept by `polish_inactive`: a multiplier is stored, or the value is at one of the bounds -/
def keepsInactive (eps : K) (lb primal ub dual : Vec K) (i : Nat) : Bool :=
  (at? dual.ents i).isSome || isEq (lb.value i) (primal.value i) eps || isEq (primal.value i) (ub.value i) eps

theorem polishInactive_range {n m N : Nat} {source t : WSet} {c : Bool} {lb primal ub dual : Vec K} {eps : K}
    {L : List WEntry} (hL : ∀ e ∈ L, e.constraint = false ∧ c = true) (ht : WRep n m t L) (hd : VOk N dual)
    (hl : lb.WF) (hu : ub.WF) (hp : primal.WF) (hN : N = if c then m else n) :
    ∃ t', polishInactiveRange source t lb primal ub dual c eps =
        some (t', removedCount source c (keepsInactive eps lb primal ub dual) N) ∧
      WRep n m t' (L ++ polished source c (keepsInactive eps lb primal ub dual) N) := by
  obtain ⟨s, s1, s2⟩ := foldlM_range_inv (f := polishInactiveBody source c eps) N
    (s0 := ⟨t, dual.ents, lb.ents, ub.ents, primal.ents, 0⟩)
    (P := fun j s => WRep n m s.target (L ++ polished source c (keepsInactive eps lb primal ub dual) j) ∧
      (∀ i ≥ j, cursorTo i s.kd = cursorTo i dual.ents) ∧ (∀ i ≥ j, cursorTo i s.klb = cursorTo i lb.ents) ∧
      (∀ i ≥ j, cursorTo i s.kub = cursorTo i ub.ents) ∧ (∀ i ≥ j, cursorTo i s.kp = cursorTo i primal.ents) ∧
      s.removed = removedCount source c (keepsInactive eps lb primal ub dual) j)
    ⟨by simpa [polished] using ht, fun _ _ => rfl, fun _ _ => rfl, fun _ _ => rfl, fun _ _ => rfl, rfl⟩
    (by
      rintro j hj s ⟨h1, h2, h3, h4, h5, h6⟩
      unfold polishInactiveBody
      simp only []
      have vl : cursorVal j (cursorTo j s.klb) = lb.value j := by rw [h3 j le_rfl]; exact cursorVal_cursorTo hl.srt j
      have vu : cursorVal j (cursorTo j s.kub) = ub.value j := by rw [h4 j le_rfl]; exact cursorVal_cursorTo hu.srt j
      have vp : cursorVal j (cursorTo j s.kp) = primal.value j := by
        rw [h5 j le_rfl]; exact cursorVal_cursorTo hp.srt j
      have cur : ∀ {k l : List (Nat × K)}, (∀ i ≥ j, cursorTo i k = cursorTo i l) → ∀ i ≥ j + 1,
          cursorTo i (cursorTo j k) = cursorTo i l := by
        intro k l hk i hi
        rw [cursorTo_cursorTo (by omega), hk i (by omega)]
      have nxt : ∀ {k l : List (Nat × K)}, (∀ i ≥ j, cursorTo i k = cursorTo i l) → ∀ i ≥ j + 1,
          cursorTo i k = cursorTo i l := fun hk i hi => hk i (by omega)
      have hat : cursorAt j (cursorTo j s.kd) = (at? dual.ents j).isSome := by
        rw [h2 j le_rfl]; exact cursorAt_cursorTo hd.1.srt j
      by_cases ha : source.state c j = .inactive
      · rw [if_pos ha]
        refine ⟨_, rfl, ?_, nxt h2, nxt h3, nxt h4, nxt h5, ?_⟩
        · rw [polished_succ, if_neg (by simp [ha])]; simpa using h1
        · rw [removedCount_succ, if_neg (by simp [ha])]; exact h6
      · rw [if_neg ha, hat]
        by_cases hk : (at? dual.ents j).isSome = true
        · rw [if_pos hk]
          have hkk : keepsInactive eps lb primal ub dual j = true := by unfold keepsInactive; rw [hk]; rfl
          obtain ⟨t', a1, a2⟩ := polish_add hL h1 (by rw [← hN]; exact hj) ha hkk
          rw [a1]
          refine ⟨_, rfl, a2, cur h2, nxt h3, nxt h4, nxt h5, ?_⟩
          rw [removedCount_succ, if_neg (by simp [hkk])]; exact h6
        · rw [if_neg hk, vl, vu, vp]
          by_cases hb : (isEq (lb.value j) (primal.value j) eps || isEq (primal.value j) (ub.value j) eps) = true
          · have hkk : keepsInactive eps lb primal ub dual j = true := by
              unfold keepsInactive; rw [Bool.or_assoc, hb, Bool.or_true]
            rw [hb]
            obtain ⟨t', a1, a2⟩ := polish_add hL h1 (by rw [← hN]; exact hj) ha hkk
            rw [a1]
            refine ⟨_, rfl, a2, cur h2, cur h3, cur h4, cur h5, ?_⟩
            rw [removedCount_succ, if_neg (by simp [hkk])]; exact h6
          · have hkk : keepsInactive eps lb primal ub dual j = false := by
              unfold keepsInactive
              rw [Bool.or_assoc, Bool.eq_false_iff.mpr hk, Bool.eq_false_iff.mpr hb]; rfl
            rw [Bool.eq_false_iff.mpr hb]
            refine ⟨_, rfl, ?_, cur h2, cur h3, cur h4, cur h5, ?_⟩
            · rw [polished_succ, if_neg (by simp [hkk])]; simpa using h1
            · rw [removedCount_succ, if_pos ⟨ha, hkk⟩]; simp only [h6])
  refine ⟨s.target, ?_, s2.1⟩
  unfold polishInactiveRange
  rw [hd.2, s1]
  simp only [Option.map_some, s2.2.2.2.2.2]

/-- the effect of polishing on the states -/
structure Polished (n m : Nat) (source t : WSet) (keepV keepC : Nat → Bool) (rv rc : Nat) : Prop where
  rep : WRep n m t (polished source false keepV n ++ polished source true keepC m)
  vars : ∀ j < n, t.varState j = if keepV j then source.varState j else .inactive
  cons : ∀ i < m, t.consState i = if keepC i then source.consState i else .inactive
  removedVars : rv + t.actVars = source.actVars
  removedCons : rc + t.actCons = source.actCons
  ordered : t.Ordered

theorem WRep.ordered {n m : Nat} {w : WSet} {l : List WEntry} (h : WRep n m w l)
    (hl : l.Pairwise fun a b => (a.constraint = b.constraint ∧ a.index < b.index) ∨ (a.constraint = false ∧ b.constraint = true)) :
    w.Ordered := by
  intro k k' hkk hk'
  rw [h.size] at hk'
  have := List.pairwise_iff_getElem.mp hl k k' (by omega) hk' hkk
  have o1 := (h.ok _ (List.getElem_mem (l := l) (n := k) (by omega))).1
  rw [h.content k (by omega), h.content k' hk']
  rcases this with ⟨h1, h2⟩ | ⟨h1, h2⟩
  · rw [h1]; split <;> omega
  · rw [h1] at o1 ⊢
    rw [h2]
    simp only [Bool.false_eq_true, if_false, if_true] at o1 ⊢
    omega

theorem polished_pairwise (source : WSet) (keepV keepC : Nat → Bool) (n m : Nat) :
    (polished source false keepV n ++ polished source true keepC m).Pairwise fun a b =>
      (a.constraint = b.constraint ∧ a.index < b.index) ∨ (a.constraint = false ∧ b.constraint = true) := by
  have one : ∀ (c : Bool) (keep : Nat → Bool) (N : Nat), (polished source c keep N).Pairwise fun a b =>
      (a.constraint = b.constraint ∧ a.index < b.index) ∨ (a.constraint = false ∧ b.constraint = true) := by
    intro c keep N
    unfold polished
    rw [List.pairwise_map]
    exact (List.Pairwise.filter _ List.pairwise_lt_range).imp fun h => Or.inl ⟨rfl, h⟩
  rw [List.pairwise_append]
  refine ⟨one _ _ _, one _ _ _, fun a ha b hb => Or.inr ⟨(polished_mem.mp ha).1, (polished_mem.mp hb).1⟩⟩

theorem polished_spec {n m : Nat} {source t : WSet} {l : List WEntry} (hs : WRep n m source l) {keepV keepC : Nat → Bool}
    (ht : WRep n m t (polished source false keepV n ++ polished source true keepC m)) :
    Polished n m source t keepV keepC (removedCount source false keepV n) (removedCount source true keepC m) := by
  have hcnt : ∀ (c : Bool) (keep : Nat → Bool) (N : Nat), removedCount source c keep N + (polished source c keep N).length =
      (List.range N).countP fun i => decide (source.state c i ≠ .inactive) := by
    intro c keep N
    unfold removedCount polished
    rw [List.length_map, ← List.countP_eq_length_filter]
    induction List.range N with
    | nil => rfl
    | cons a L ih =>
      simp only [List.countP_cons]
      cases h1 : decide (source.state c a ≠ .inactive) <;> cases h2 : keep a <;> simp_all <;> omega
  have hav : source.actVars = (List.range n).countP fun i => decide (source.state false i ≠ .inactive) := by
    rw [hs.vars, List.countP_eq_length_filter, ← List.length_map (f := WEntry.index)]
    refine (countP_range_of_list ?_ ?_ ?_).symm
    · have := hs.nodup
      rw [List.Nodup, List.pairwise_map] at this ⊢
      refine List.Pairwise.imp_of_mem ?_ (List.Pairwise.filter _ this)
      intro a b ha hb hab heq
      have h1 := (List.mem_filter.mp ha).2
      have h2 := (List.mem_filter.mp hb).2
      simp only [Bool.not_eq_true'] at h1 h2
      exact hab (by rw [h1, h2, heq])
    · intro x hx
      obtain ⟨e, he, rfl⟩ := List.mem_map.mp hx
      obtain ⟨h1, h2⟩ := List.mem_filter.mp he
      have := (hs.ok e h1).1
      simp only [Bool.not_eq_true'] at h2
      simpa [h2] using this
    · intro j hj
      rw [decide_eq_true_eq]
      show source.varState j ≠ _ ↔ _
      rw [ne_eq, hs.var_inactive hj]
      simp only [not_forall, List.mem_map, List.mem_filter, Bool.not_eq_true', not_not]
      exact ⟨fun ⟨e, h1, h2, h3⟩ => ⟨e, ⟨h1, h2⟩, h3⟩, fun ⟨e, ⟨h1, h2⟩, h3⟩ => ⟨e, h1, h2, h3⟩⟩
  have hac : source.actCons = (List.range m).countP fun i => decide (source.state true i ≠ .inactive) := by
    rw [hs.cons, List.countP_eq_length_filter, ← List.length_map (f := WEntry.index)]
    refine (countP_range_of_list ?_ ?_ ?_).symm
    · have := hs.nodup
      rw [List.Nodup, List.pairwise_map] at this ⊢
      refine List.Pairwise.imp_of_mem ?_ (List.Pairwise.filter _ this)
      intro a b ha hb hab heq
      have h1 := (List.mem_filter.mp ha).2
      have h2 := (List.mem_filter.mp hb).2
      exact hab (by rw [h1, h2, heq])
    · intro x hx
      obtain ⟨e, he, rfl⟩ := List.mem_map.mp hx
      obtain ⟨h1, h2⟩ := List.mem_filter.mp he
      have := (hs.ok e h1).1
      simpa [h2] using this
    · intro j hj
      rw [decide_eq_true_eq]
      show source.consState j ≠ _ ↔ _
      rw [ne_eq, hs.cons_inactive hj]
      simp only [not_forall, List.mem_map, List.mem_filter, not_not]
      exact ⟨fun ⟨e, h1, h2, h3⟩ => ⟨e, ⟨h1, h2⟩, h3⟩, fun ⟨e, ⟨h1, h2⟩, h3⟩ => ⟨e, h1, h2, h3⟩⟩
  have cV : ∀ (p : WEntry → Bool), (∀ e, p e = !e.constraint) →
      (polished source false keepV n ++ polished source true keepC m).countP p = (polished source false keepV n).length := by
    intro p hp
    rw [List.countP_append, List.countP_eq_length.mpr, List.countP_eq_zero.mpr]
    · rfl
    · intro e he; rw [hp, (polished_mem.mp he).1]; simp
    · intro e he; rw [hp, (polished_mem.mp he).1]; simp
  have cC : ∀ (p : WEntry → Bool), (∀ e, p e = e.constraint) →
      (polished source false keepV n ++ polished source true keepC m).countP p = (polished source true keepC m).length := by
    intro p hp
    rw [List.countP_append, List.countP_eq_zero.mpr, List.countP_eq_length.mpr]
    · simp
    · intro e he; rw [hp, (polished_mem.mp he).1]
    · intro e he; rw [hp, (polished_mem.mp he).1]; simp
  refine ⟨ht, ?_, ?_, ?_, ?_, ht.ordered (polished_pairwise _ _ _ _ _)⟩
  · intro j hj
    by_cases hk : keepV j = true ∧ source.varState j ≠ .inactive
    · rw [if_pos hk.1]
      obtain ⟨k, hk1, e⟩ := List.getElem_of_mem (show (⟨false, j, source.varState j⟩ : WEntry) ∈
        polished source false keepV n ++ polished source true keepC m from
        List.mem_append_left _ (polished_mem.mpr ⟨rfl, hj, rfl, hk.2, hk.1⟩))
      have := (ht.vidx k hk1 (by rw [e])).2
      rw [e] at this
      exact this
    · have : t.varState j = .inactive := by
        rw [ht.var_inactive hj]
        rintro e he ⟨h1, h2⟩
        rcases List.mem_append.mp he with he | he
        · obtain ⟨_, _, h3, h4, h5⟩ := polished_mem.mp he
          rw [h2] at h3 h5
          exact hk ⟨h5, by rw [show source.varState j = source.state false j from rfl, ← h3]; exact h4⟩
        · rw [(polished_mem.mp he).1] at h1; cases h1
      rw [this]
      split_ifs with h
      · by_contra hne; exact hk ⟨h, fun h' => hne h'.symm⟩
      · rfl
  · intro j hj
    by_cases hk : keepC j = true ∧ source.consState j ≠ .inactive
    · rw [if_pos hk.1]
      obtain ⟨k, hk1, e⟩ := List.getElem_of_mem (show (⟨true, j, source.consState j⟩ : WEntry) ∈
        polished source false keepV n ++ polished source true keepC m from
        List.mem_append_right _ (polished_mem.mpr ⟨rfl, hj, rfl, hk.2, hk.1⟩))
      have := (ht.cidx k hk1 (by rw [e])).2
      rw [e] at this
      exact this
    · have : t.consState j = .inactive := by
        rw [ht.cons_inactive hj]
        rintro e he ⟨h1, h2⟩
        rcases List.mem_append.mp he with he | he
        · rw [(polished_mem.mp he).1] at h1; cases h1
        · obtain ⟨_, _, h3, h4, h5⟩ := polished_mem.mp he
          rw [h2] at h3 h5
          exact hk ⟨h5, by rw [show source.consState j = source.state true j from rfl, ← h3]; exact h4⟩
      rw [this]
      split_ifs with h
      · by_contra hne; exact hk ⟨h, fun h' => hne h'.symm⟩
      · rfl
  · rw [ht.vars, cV _ fun _ => rfl, hcnt, hav]
  · rw [ht.cons, cC _ fun _ => rfl, hcnt, hac]

/-- C32: polishing by multipliers succeeds on every working set and keeps exactly the active
entries with a stored multiplier, with their states; the reported numbers are those of the
removed variables and constraints. -/
theorem C32_zero_dual {n m : Nat} {source own : WSet} {l : List WEntry} (hs : WRep n m source l)
    (h1 : own.numVars = n) (h2 : own.numCons = m) (d : PolishData K) (hv : VOk n d.varsDual) (hc : VOk m d.consDual) :
    ∃ t rv rc, polishZero d source own = some (t, rv, rc) ∧
      Polished n m source t (fun j => (at? d.varsDual.ents j).isSome) (fun i => (at? d.consDual.ents i).isSome) rv rc := by
  obtain ⟨t1, a1, a2⟩ := polishZero_range (source := source) (c := false) (L := []) (by simp)
    (wrep_reset h1 h2) hv (by simp)
  obtain ⟨t2, b1, b2⟩ := polishZero_range (source := source) (c := true) (fun e he => ⟨(polished_mem.mp he).1, rfl⟩)
    (by simpa using a2) hc (by simp)
  obtain ⟨t3, c1, c2⟩ := wrep_copy b2 hs.nv hs.nc
  refine ⟨t3, _, _, ?_, polished_spec hs c2⟩
  unfold polishZero
  rw [a1]
  simp only [Option.bind_some]
  rw [b1]
  simp only [Option.bind_some]
  rw [c1]; rfl

/-- C32: polishing by activity keeps exactly the active entries with a stored multiplier or
with a value within the tolerance of one of their bounds. -/
theorem C32_inactive {n m : Nat} {source own : WSet} {l : List WEntry} (hs : WRep n m source l)
    (h1 : own.numVars = n) (h2 : own.numCons = m) (d : PolishData K) (eps : K) (hv : VOk n d.varsDual)
    (hc : VOk m d.consDual) (w1 : d.varLb.WF) (w2 : d.varUb.WF) (w3 : d.primal.WF) (w4 : d.consLb.WF)
    (w5 : d.consUb.WF) (w6 : d.consVal.WF) :
    ∃ t rv rc, polishInactive d eps source own = some (t, rv, rc) ∧
      Polished n m source t (keepsInactive eps d.varLb d.primal d.varUb d.varsDual)
        (keepsInactive eps d.consLb d.consVal d.consUb d.consDual) rv rc := by
  obtain ⟨t1, a1, a2⟩ := polishInactive_range (source := source) (c := false) (L := []) (eps := eps) (by simp)
    (wrep_reset h1 h2) hv w1 w2 w3 (by simp)
  obtain ⟨t2, b1, b2⟩ := polishInactive_range (source := source) (c := true) (eps := eps)
    (fun e he => ⟨(polished_mem.mp he).1, rfl⟩) (by simpa using a2) hc w4 w5 w6 (by simp)
  obtain ⟨t3, c1, c2⟩ := wrep_copy b2 hs.nv hs.nc
  refine ⟨t3, _, _, ?_, polished_spec hs c2⟩
  unfold polishInactive
  rw [a1]
  simp only [Option.bind_some]
  rw [b1]
  simp only [Option.bind_some]
  rw [c1]; rfl

/-- C32: in both cases multipliers supported before are supported afterwards. -/
theorem C32_supports {n m : Nat} {source t : WSet} {keepV keepC : Nat → Bool} {rv rc : Nat}
    (h : Polished n m source t keepV keepC rv rc) {vd cd : Vec K} (hv : VOk n vd) (hc : VOk m cd)
    (kv : ∀ j, (at? vd.ents j).isSome → keepV j = true) (kc : ∀ i, (at? cd.ents i).isSome → keepC i = true) :
    (supportsRange source.varState vd = true → supportsRange t.varState vd = true) ∧
    (supportsRange source.consState cd = true → supportsRange t.consState cd = true) := by
  constructor
  · intro hs
    unfold supportsRange at hs ⊢
    rw [List.all_eq_true] at hs ⊢
    intro e he
    have hlt : e.1 < n := by have := hv.1.lt_dim e he; rwa [hv.2] at this
    rw [h.vars _ hlt, if_pos (kv _ (at?_isSome_iff.mpr ⟨e, he, rfl⟩))]
    exact hs e he
  · intro hs
    unfold supportsRange at hs ⊢
    rw [List.all_eq_true] at hs ⊢
    intro e he
    have hlt : e.1 < m := by have := hc.1.lt_dim e he; rwa [hc.2] at this
    rw [h.cons _ hlt, if_pos (kc _ (at?_isSome_iff.mpr ⟨e, he, rfl⟩))]
    exact hs e he

/-- two active variables, only variable 0 carries a multiplier -/
example : ∃ (source t : WSet) (rv rc : Nat), WRep 2 0 source [⟨false, 0, .lower⟩, ⟨false, 1, .upper⟩] ∧
    polishZero (⟨⟨2, 0, []⟩, ⟨2, 0, []⟩, ⟨2, 0, []⟩, ⟨2, 1, [(0, -3)]⟩, ⟨0, 0, []⟩, ⟨0, 0, []⟩, ⟨0, 0, []⟩, ⟨0, 0, []⟩⟩ : PolishData ℚ)
      source (WSet.create 2 0 fun _ => 0) = some (t, rv, rc) ∧ t.varState 0 = .lower ∧ t.varState 1 = .inactive := by
  obtain ⟨w1, a1, a2⟩ := wrep_addVar (wrep_create 2 0 fun _ => 0) (i := 0) (st := .lower) (by omega) (by simp)
    (by simp) (by decide)
  obtain ⟨w2, b1, b2⟩ := wrep_addVar a2 (i := 1) (st := .upper) (by omega) (by simp) (by simp) (by decide)
  obtain ⟨t, rv, rc, h1, h2⟩ := C32_zero_dual b2 (own := WSet.create 2 0 fun _ => 0) rfl rfl
    (⟨⟨2, 0, []⟩, ⟨2, 0, []⟩, ⟨2, 0, []⟩, ⟨2, 1, [(0, -3)]⟩, ⟨0, 0, []⟩, ⟨0, 0, []⟩, ⟨0, 0, []⟩, ⟨0, 0, []⟩⟩ : PolishData ℚ)
    ⟨⟨by simp [Srt], by simp, by simp⟩, rfl⟩ ⟨⟨by simp [Srt], by simp, by simp⟩, rfl⟩
  have hs0 := (b2.vidx 0 (by simp) rfl).2
  refine ⟨w2, t, rv, rc, by simpa using b2, h1, ?_, ?_⟩
  · rw [h2.vars 0 (by omega)]; simpa [at?] using hs0
  · rw [h2.vars 1 (by omega)]; simp [at?]

end Sleqp
