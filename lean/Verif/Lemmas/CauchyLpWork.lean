import Verif.Lemmas.CauchyLpHist
import Verif.Spec.AugJac
import Verif.Props.DualEstimation

/-! Working sets of the LP-based Cauchy solver. -/

namespace Sleqp
open Finset

/-! ### lists of entries -/

/-- an entry for an active state -/
def entryOf (c : Bool) (st : Nat → ActiveState) (j : Nat) : Option WEntry := if st j = .inactive then none else some ⟨c, j, st j⟩

/-- all entries of the first `k` indices -/
def entries (c : Bool) (st : Nat → ActiveState) (k : Nat) : List WEntry := (List.range k).filterMap (entryOf c st)

theorem mem_entries {c : Bool} {st : Nat → ActiveState} {k : Nat} {e : WEntry} :
    e ∈ entries c st k ↔ e.constraint = c ∧ e.index < k ∧ e.state = st e.index ∧ e.state ≠ .inactive := by
  unfold entries
  rw [List.mem_filterMap]
  constructor
  · rintro ⟨j, hj, he⟩
    unfold entryOf at he
    split at he
    · cases he
    · rename_i h
      injection he with he
      rw [← he]
      exact ⟨rfl, List.mem_range.mp hj, rfl, h⟩
  · rintro ⟨h1, h2, h3, h4⟩
    refine ⟨e.index, List.mem_range.mpr h2, ?_⟩
    unfold entryOf
    rw [if_neg (by rw [← h3]; exact h4), ← h3, ← h1]

theorem entries_succ (c : Bool) (st : Nat → ActiveState) (k : Nat) :
    entries c st (k + 1) = if st k = .inactive then entries c st k else entries c st k ++ [⟨c, k, st k⟩] := by
  unfold entries
  rw [List.range_succ, List.filterMap_append]
  unfold entryOf
  split
  · rename_i h; simp [h]
  · rename_i h; simp [h]

theorem entries_length (c : Bool) (st : Nat → ActiveState) (k : Nat) :
    (entries c st k).length = (List.range k).countP fun j => decide (st j ≠ .inactive) := by
  induction k with
  | zero => rfl
  | succ k ih =>
    rw [entries_succ, List.range_succ, List.countP_append, ← ih]
    split
    · rename_i h; simp [h]
    · rename_i h; simp [h]

theorem entries_pairwise (c : Bool) (st : Nat → ActiveState) (k : Nat) : (entries c st k).Pairwise fun a b => a.index < b.index := by
  induction k with
  | zero => exact List.Pairwise.nil
  | succ k ih =>
    rw [entries_succ]
    split
    · exact ih
    · rw [List.pairwise_append]
      refine ⟨ih, List.pairwise_singleton _ _, fun a ha b hb => ?_⟩
      rw [List.mem_singleton.mp hb]
      exact (mem_entries.mp ha).2.1

theorem wrep_var_step {n m : Nat} {w : WSet} {st : Nat → ActiveState} {j : Nat} (h : WRep n m w (entries false st j)) (hj : j < n) :
    ∃ w', (if st j = .inactive then some w else w.addVar j (st j)) = some w' ∧ WRep n m w' (entries false st (j + 1)) := by
  rw [entries_succ]
  by_cases hst : st j = .inactive
  · rw [if_pos hst, if_pos hst]; exact ⟨w, rfl, h⟩
  · rw [if_neg hst, if_neg hst]
    exact wrep_addVar h hj (fun e he => (mem_entries.mp he).1) (fun e he hc => absurd (mem_entries.mp he).2.1 (by omega)) hst

theorem wrep_cons_step {n m : Nat} {w : WSet} {vs st : Nat → ActiveState} {i : Nat} (h : WRep n m w (entries false vs n ++ entries true st i))
    (hi : i < m) : ∃ w', (if st i = .inactive then some w else w.addCons i (st i)) = some w' ∧
      WRep n m w' (entries false vs n ++ entries true st (i + 1)) := by
  rw [entries_succ]
  by_cases hst : st i = .inactive
  · rw [if_pos hst, if_pos hst]; exact ⟨w, rfl, h⟩
  · rw [if_neg hst, if_neg hst, ← List.append_assoc]
    refine wrep_addCons h hi (fun e he hc => ?_) hst
    rcases List.mem_append.mp he with he | he
    · rw [(mem_entries.mp he).1] at hc; cases hc.1
    · exact absurd (mem_entries.mp he).2.1 (by omega)

theorem entries_ordered {n m : Nat} {w : WSet} {vs st : Nat → ActiveState} (h : WRep n m w (entries false vs n ++ entries true st m)) : w.Ordered := by
  have hp : (entries false vs n ++ entries true st m).Pairwise fun a b =>
      (if a.constraint then n + a.index else a.index) < (if b.constraint then n + b.index else b.index) := by
    rw [List.pairwise_append]
    refine ⟨(entries_pairwise false vs n).imp_of_mem ?_, (entries_pairwise true st m).imp_of_mem ?_, ?_⟩
    · intro a b ha hb hab
      rw [(mem_entries.mp ha).1, (mem_entries.mp hb).1]; exact hab
    · intro a b ha hb hab
      rw [(mem_entries.mp ha).1, (mem_entries.mp hb).1]
      show n + a.index < n + b.index; omega
    · intro a ha b hb
      rw [(mem_entries.mp ha).1, (mem_entries.mp hb).1]
      have := (mem_entries.mp ha).2.1
      show a.index < n + b.index; omega
  intro k k' hk hk'
  rw [h.size] at hk'
  rw [h.content k (by omega), h.content k' hk']
  exact List.pairwise_iff_getElem.mp hp k k' (by omega) hk' hk

theorem entries_states {n m : Nat} {w : WSet} {vs st : Nat → ActiveState} (h : WRep n m w (entries false vs n ++ entries true st m)) :
    (∀ j < n, w.varState j = vs j) ∧ ∀ i < m, w.consState i = st i := by
  constructor
  · intro j hj
    by_cases hst : vs j = .inactive
    · rw [(h.vout j hj (fun e he hc => ?_)).2, hst]
      rcases List.mem_append.mp he with he | he
      · obtain ⟨-, -, h3, h4⟩ := mem_entries.mp he
        rw [h3, hc.2] at h4; exact h4 hst
      · rw [(mem_entries.mp he).1] at hc; cases hc.1
    · have hm : (⟨false, j, vs j⟩ : WEntry) ∈ entries false vs n ++ entries true st m :=
        List.mem_append.mpr (.inl (mem_entries.mpr ⟨rfl, hj, rfl, hst⟩))
      obtain ⟨k, hk, hke⟩ := List.getElem_of_mem hm
      have := (h.vidx k hk (by rw [hke])).2
      rw [hke] at this; exact this
  · intro j hj
    by_cases hst : st j = .inactive
    · rw [(h.cout j hj (fun e he hc => ?_)).2, hst]
      rcases List.mem_append.mp he with he | he
      · rw [(mem_entries.mp he).1] at hc; cases hc.1
      · obtain ⟨-, -, h3, h4⟩ := mem_entries.mp he
        rw [h3, hc.2] at h4; exact h4 hst
    · have hm : (⟨true, j, st j⟩ : WEntry) ∈ entries false vs n ++ entries true st m :=
        List.mem_append.mpr (.inr (mem_entries.mpr ⟨rfl, hj, rfl, hst⟩))
      obtain ⟨k, hk, hke⟩ := List.getElem_of_mem hm
      have := (h.cidx k hk (by rw [hke])).2
      rw [hke] at this; exact this

variable {K : Type*} [Field K] [LinearOrder K]

/-- combinations of the gradients, by variables and constraints -/
theorem work_comb {n m : Nat} {w : WSet} {l : List WEntry} (h : WRep n m w l) (J : Nat → Nat → K) (c : Nat → K) {j : Nat} (hj : j < n) :
    ∑ k ∈ range l.length, c k * workMat l J k j =
      (w.varIdx j).elim 0 c + ∑ i ∈ range m, (w.consIdx i).elim 0 c * J i j := by
  obtain ⟨q1, q2, q3, -, -, -⟩ := C30_queries h
  rw [q1] at q2 q3
  have e1 : (w.varIdx j).elim 0 c = ∑ k ∈ range l.length, if w.varIdx j = some k then c k else 0 := by
    cases hk : w.varIdx j with
    | none => simp
    | some k =>
      have := ((q2 j hj k).mp hk).1
      simp only [Option.some.injEq, Option.elim]
      rw [sum_ite_eq, if_pos (mem_range.mpr this)]
  have e2 : ∀ i < m, (w.consIdx i).elim 0 c * J i j = ∑ k ∈ range l.length, if w.consIdx i = some k then c k * J i j else 0 := by
    intro i hi
    cases hk : w.consIdx i with
    | none => simp
    | some k =>
      have := ((q3 i hi k).mp hk).1
      simp only [Option.some.injEq, Option.elim]
      rw [sum_ite_eq, if_pos (mem_range.mpr this)]
  rw [e1, sum_congr rfl fun i hi => e2 i (mem_range.mp hi), sum_comm, ← sum_add_distrib]
  refine sum_congr rfl fun k hk => ?_
  rw [mem_range] at hk
  have hc := h.content k hk
  have hok := (h.ok _ (List.getElem_mem hk)).1
  unfold workMat
  rw [List.getElem?_eq_getElem hk]
  show c k * (l[k]).gradient J j = _
  unfold WEntry.gradient
  cases hb : (l[k]).constraint with
  | true =>
    rw [hb] at hc hok
    rw [if_pos rfl] at hc hok
    have hv : ¬ w.varIdx j = some k := fun hv => by
      have := ((q2 j hj k).mp hv).2
      omega
    rw [if_neg hv, if_pos rfl, zero_add, sum_eq_single (l[k]).index]
    · rw [if_pos (h.cidx k hk hb).1]
    · intro i hi hne
      refine if_neg fun hi' => hne ?_
      have := ((q3 i (mem_range.mp hi) k).mp hi').2
      omega
    · intro hi; exact absurd (mem_range.mpr hok) hi
  | false =>
    rw [hb] at hc hok
    rw [if_neg (by decide)] at hc hok
    rw [sum_eq_zero, add_zero, if_neg (by decide)]
    · by_cases hi : (l[k]).index = j
      · have := (h.vidx k hk hb).1
        rw [hi] at this
        rw [if_pos hi, if_pos this, mul_one]
      · rw [if_neg hi, mul_zero, if_neg]
        intro hv
        have := ((q2 j hj k).mp hv).2
        omega
    · intro i hi
      refine if_neg fun hi' => ?_
      have := ((q3 i (mem_range.mp hi) k).mp hi').2
      omega

/-- linear independence, by variables and constraints -/
theorem work_indep {n m : Nat} {w : WSet} {l : List WEntry} (h : WRep n m w l) (J : Nat → Nat → K)
    (hi : ∀ z y : Nat → K, (∀ j < n, w.varState j = .inactive → z j = 0) → (∀ i < m, w.consState i = .inactive → y i = 0) →
      (∀ j < n, z j + ∑ i ∈ range m, y i * J i j = 0) → (∀ j < n, z j = 0) ∧ ∀ i < m, y i = 0)
    (c : Nat → K) (hc : ∀ j < n, ∑ k ∈ range l.length, c k * workMat l J k j = 0) : ∀ k < l.length, c k = 0 := by
  obtain ⟨-, -, -, q4, q5, -⟩ := C30_queries h
  obtain ⟨h1, h2⟩ := hi (fun j => (w.varIdx j).elim 0 c) (fun i => (w.consIdx i).elim 0 c)
    (fun j hj hs => by rw [(q4 j hj).mpr hs]; rfl) (fun i hi hs => by rw [(q5 i hi).mpr hs]; rfl)
    (fun j hj => by rw [← work_comb h J c hj]; exact hc j hj)
  intro k hk
  have hok := (h.ok _ (List.getElem_mem hk)).1
  cases hb : (l[k]).constraint with
  | true =>
    rw [hb, if_pos rfl] at hok
    have := h2 _ hok
    rw [(h.cidx k hk hb).1] at this; exact this
  | false =>
    rw [hb, if_neg (by decide)] at hok
    have := h1 _ hok
    rw [(h.vidx k hk hb).1] at this; exact this

/-! ### the working set of the LP solver -/

variable [IsStrictOrderedRing K]

/-- state of a variable -/
def lpVarState (e : LpEnv K) (it : Iterate K) (r : K) (stats : Nat → BaseStat) (j : Nat) : ActiveState :=
  if isEq (e.bounds.varsLb.value j) (e.bounds.varsUb.value j) e.eps then .both
  else if stats j = .lower ∧ it.primal.value j - e.bounds.varsLb.value j < r then .lower
  else if stats j = .upper ∧ e.bounds.varsUb.value j - it.primal.value j < r then .upper
  else .inactive

theorem addVars_spec {e : LpEnv K} {s : CauchyLp K} {it : Iterate K} {w : WSet} {m : Nat} (hb : e.bounds.Sized e.numVars e.numCons) (hx : it.primal.WF)
    (hz : ∀ j < e.numVars, s.varStats j ≠ .zero) (hw : WRep e.numVars m w []) :
    ∃ w', s.addVars e it w = some w' ∧ WRep e.numVars m w' (entries false (lpVarState e it s.radius s.varStats) e.numVars) := by
  have hstep := foldlM_range_inv (f := addVarsBody e s.radius s.varStats)
    (P := fun j q => (∀ i ≥ j, cursorTo i q.1 = cursorTo i it.primal.ents) ∧ (∀ i ≥ j, cursorTo i q.2.1 = cursorTo i e.bounds.varsLb.ents) ∧
      (∀ i ≥ j, cursorTo i q.2.2.1 = cursorTo i e.bounds.varsUb.ents) ∧ WRep e.numVars m q.2.2.2 (entries false (lpVarState e it s.radius s.varStats) j))
    e.numVars (s0 := (it.primal.ents, e.bounds.varsLb.ents, e.bounds.varsUb.ents, w))
    ⟨fun _ _ => rfl, fun _ _ => rfl, fun _ _ => rfl, hw⟩
  specialize hstep (fun j hj q hq => ?_)
  rotate_left
  · obtain ⟨q, h1, h2⟩ := hstep
    refine ⟨q.2.2.2, ?_, h2.2.2.2⟩
    unfold CauchyLp.addVars
    rw [h1]; rfl
  · obtain ⟨a1, a2, a3, a4⟩ := hq
    obtain ⟨w', b1, b2⟩ := wrep_var_step a4 hj
    refine ⟨(cursorTo j q.1, cursorTo j q.2.1, cursorTo j q.2.2.1, w'), ?_, cur_step a1, cur_step a2, cur_step a3, b2⟩
    unfold addVarsBody
    dsimp only
    rw [cur_val hx.srt a1, cur_val hb.wvl.srt a2, cur_val hb.wvu.srt a3, if_pos (hz j hj)]
    unfold lpVarState at b1
    have key : (if isEq (e.bounds.varsLb.value j) (e.bounds.varsUb.value j) e.eps = true then q.2.2.2.addVar j .both
      else if s.varStats j = .lower ∧ it.primal.value j - e.bounds.varsLb.value j < s.radius then q.2.2.2.addVar j .lower
      else if s.varStats j = .upper ∧ e.bounds.varsUb.value j - it.primal.value j < s.radius then q.2.2.2.addVar j .upper
      else some q.2.2.2) = some w' := by
      rw [← b1]
      by_cases c1 : isEq (e.bounds.varsLb.value j) (e.bounds.varsUb.value j) e.eps = true
      · simp only [if_pos c1]; rfl
      · simp only [if_neg c1]
        by_cases c2 : s.varStats j = .lower ∧ it.primal.value j - e.bounds.varsLb.value j < s.radius
        · simp only [if_pos c2]; rfl
        · simp only [if_neg c2]
          by_cases c3 : s.varStats j = .upper ∧ e.bounds.varsUb.value j - it.primal.value j < s.radius
          · simp only [if_pos c3]; rfl
          · simp only [if_neg c3]; rfl
    rw [key]; rfl

/-- state of a constraint in the reduced problem -/
def redConsState (e : LpEnv K) (s : CauchyLp K) (i : Nat) : ActiveState :=
  if s.primal (e.numVars + i) = 0 ∧ s.primal (e.numVars + e.numCons + i) = 0 then
    if s.consStats i = .lower then .lower else if s.consStats i = .upper then .upper else .inactive
  else .inactive

theorem addReduced_spec {e : LpEnv K} {s : CauchyLp K} {w : WSet} {vs : Nat → ActiveState} (hw : WRep e.numVars e.numCons w (entries false vs e.numVars)) :
    ∃ w', (List.range e.numCons).foldlM (addReducedBody e s) w = some w' ∧
      WRep e.numVars e.numCons w' (entries false vs e.numVars ++ entries true (redConsState e s) e.numCons) := by
  refine foldlM_range_inv (f := addReducedBody e s)
    (P := fun j w => WRep e.numVars e.numCons w (entries false vs e.numVars ++ entries true (redConsState e s) j))
    e.numCons (by show WRep _ _ _ (_ ++ []); rw [List.append_nil]; exact hw) (fun j hj q hq => ?_)
  obtain ⟨w', b1, b2⟩ := wrep_cons_step hq hj
  refine ⟨w', ?_, b2⟩
  rw [← b1]
  unfold addReducedBody redConsState
  by_cases c : s.primal (e.numVars + j) = 0 ∧ s.primal (e.numVars + e.numCons + j) = 0
  · simp only [if_pos c]
    cases s.consStats j <;> rfl
  · simp only [if_neg c]
    cases s.consStats j <;> rfl

theorem addCons_spec {e : LpEnv K} {s : CauchyLp K} {w : WSet} {vs st : Nat → ActiveState} (hb : e.bounds.Sized e.numVars e.numCons)
    (hst : ∀ i < e.numCons, s.consState e i (e.bounds.consLb.value i) (e.bounds.consUb.value i) = some (st i))
    (hw : WRep e.numVars e.numCons w (entries false vs e.numVars)) :
    ∃ w', s.addCons e w = some w' ∧ WRep e.numVars e.numCons w' (entries false vs e.numVars ++ entries true st e.numCons) := by
  have hstep := foldlM_range_inv (f := addConsBody e s)
    (P := fun j q => (∀ i ≥ j, cursorTo i q.1 = cursorTo i e.bounds.consLb.ents) ∧
      (∀ i ≥ j, cursorTo i q.2.1 = cursorTo i e.bounds.consUb.ents) ∧ WRep e.numVars e.numCons q.2.2 (entries false vs e.numVars ++ entries true st j))
    e.numCons (s0 := (e.bounds.consLb.ents, e.bounds.consUb.ents, w))
    ⟨fun _ _ => rfl, fun _ _ => rfl, by show WRep _ _ _ (_ ++ []); rw [List.append_nil]; exact hw⟩
  specialize hstep (fun j hj q hq => ?_)
  rotate_left
  · obtain ⟨q, h1, h2⟩ := hstep
    refine ⟨q.2.2, ?_, h2.2.2⟩
    unfold CauchyLp.addCons
    rw [h1]; rfl
  · obtain ⟨a2, a3, a4⟩ := hq
    obtain ⟨w', b1, b2⟩ := wrep_cons_step a4 hj
    refine ⟨(cursorTo j q.1, cursorTo j q.2.1, w'), ?_, cur_step a2, cur_step a3, b2⟩
    unfold addConsBody
    dsimp only
    rw [cur_val hb.wcl.srt a2, cur_val hb.wcu.srt a3, hst j hj, Option.bind_some]
    have key : (if st j ≠ .inactive then q.2.2.addCons j (st j) else some q.2.2) = some w' := by
      rw [← b1]
      by_cases c : st j = .inactive
      · rw [if_pos c, if_neg (not_not.mpr c)]
      · rw [if_neg c, if_pos c]
    rw [key]; rfl

variable {e : LpEnv K} {J0 : Nat → Nat → K} {s : CauchyLp K} {it : Iterate K} {r : K} {grad : Option (Vec K)} {penalty : K} {lp : LpArrays K} {a : LpSol K}

theorem lpVarLb_gt (hr : r < e.inf) (l x : K) : -e.inf < lpVarLb e.inf r l x := by
  unfold lpVarLb
  split
  · linarith
  · exact lt_of_lt_of_le (by linarith) (le_max_right _ _)

theorem lpVarUb_lt (hr : r < e.inf) (u x : K) : lpVarUb e.inf r u x < e.inf := by
  unfold lpVarUb
  split
  · exact hr
  · exact lt_of_le_of_lt (min_le_right _ _) hr

/-- a variable at the lower bound of the linear program, which is not that of the trust region -/
theorem lpVarLb_eq {l x : K} (h : x - l < r) (hfar : l ≤ -(e.inf / 2) → r ≤ x - l) : lpVarLb e.inf r l x = l - x := by
  unfold lpVarLb
  rw [if_neg, max_eq_left (by linarith)]
  unfold isInfinite
  rw [decide_eq_true_eq]
  intro hc
  have := hfar (by linarith)
  linarith

theorem lpVarUb_eq {u x : K} (h : u - x < r) (hfar : e.inf / 2 ≤ u → r ≤ u - x) : lpVarUb e.inf r u x = u - x := by
  unfold lpVarUb
  rw [if_neg, min_eq_left (by linarith)]
  unfold isInfinite
  rw [decide_eq_true_eq]
  intro hc
  have := hfar (by linarith)
  linarith

theorem lpConsLb_eq {l c : K} (h : -e.inf < lpConsLb e.inf l c) : lpConsLb e.inf l c = l - c := by
  unfold lpConsLb at h ⊢
  split
  · rename_i hc; rw [if_pos hc] at h; exact absurd h (lt_irrefl _)
  · rfl

theorem lpConsUb_eq {u c : K} (h : lpConsUb e.inf u c < e.inf) : lpConsUb e.inf u c = u - c := by
  unfold lpConsUb at h ⊢
  split
  · rename_i hc; rw [if_pos hc] at h; exact absurd h (lt_irrefl _)
  · rfl

/-- the bounds of the variables in the linear program -/
structure LpVars (e : LpEnv K) (it : Iterate K) (r : K) (lp : LpArrays K) : Prop where
  nv : e.numVars ≤ lp.numVars
  lb : ∀ j < e.numVars, lp.varsLb j = lpVarLb e.inf r (e.bounds.varsLb.value j) (it.primal.value j)
  ub : ∀ j < e.numVars, lp.varsUb j = lpVarUb e.inf r (e.bounds.varsUb.value j) (it.primal.value j)

theorem LpData.vars (h : LpData e it r lp) : LpVars e it r lp := ⟨by rw [h.nv]; unfold LpEnv.numLp; omega, h.vlb, h.vub⟩
theorem RedData.vars (h : RedData e it r lp) : LpVars e it r lp := ⟨by rw [h.nv], h.vlb, h.vub⟩

theorem LpVars.nonzero (h : LpVars e it r lp) (ha : LpSolves e.inf lp a) (hr : r < e.inf) {j : Nat} (hj : j < e.numVars) : a.varStats j ≠ .zero := by
  intro hz
  have := (ha.varZero j (lt_of_lt_of_le hj h.nv) hz).1
  rw [h.lb j hj] at this
  exact absurd (lpVarLb_gt hr _ _) (not_lt.mpr this)

theorem LpVars.met (h : LpVars e it r lp) (ha : LpSolves e.inf lp a) (hfar : FarBounds e it r) (hreg : InRegion e it r a.primal) {j : Nat}
    (hj : j < e.numVars) (hst : lpVarState e it r a.varStats j ≠ .inactive) : EntryMet e it a.primal ⟨false, j, lpVarState e it r a.varStats j⟩ := by
  have hj' := lt_of_lt_of_le hj h.nv
  by_cases c1 : isEq (e.bounds.varsLb.value j) (e.bounds.varsUb.value j) e.eps = true
  · have : lpVarState e it r a.varStats j = .both := by unfold lpVarState; rw [if_pos c1]
    rw [this]
    exact ⟨c1, (hreg j hj).2.1, (hreg j hj).2.2⟩
  · by_cases c2 : a.varStats j = .lower ∧ it.primal.value j - e.bounds.varsLb.value j < r
    · have hs : lpVarState e it r a.varStats j = .lower := by unfold lpVarState; rw [if_neg c1, if_pos c2]
      rw [hs]
      have := (ha.varLower j hj' c2.1).2
      rw [h.lb j hj, lpVarLb_eq c2.2 (hfar j hj).1] at this
      show it.primal.value j + a.primal j = e.bounds.varsLb.value j
      rw [this]; ring
    · by_cases c3 : a.varStats j = .upper ∧ e.bounds.varsUb.value j - it.primal.value j < r
      · have hs : lpVarState e it r a.varStats j = .upper := by unfold lpVarState; rw [if_neg c1, if_neg c2, if_pos c3]
        rw [hs]
        have := (ha.varUpper j hj' c3.1).2
        rw [h.ub j hj, lpVarUb_eq c3.2 (hfar j hj).2] at this
        show it.primal.value j + a.primal j = e.bounds.varsUb.value j
        rw [this]; ring
      · exact absurd (by unfold lpVarState; rw [if_neg c1, if_neg c2, if_neg c3]) hst

/-- variables the LP solver reports at a bound, and which are strictly inside of the trust region, are active -/
theorem LpVars.active (h : LpVars e it r lp) (ha : LpSolves e.inf lp a) (hr : r < e.inf) {j : Nat} (hj : j < e.numVars) (hnb : a.varStats j ≠ .basic)
    (hin : |a.primal j| < r) : lpVarState e it r a.varStats j ≠ .inactive := by
  have hj' := lt_of_lt_of_le hj h.nv
  obtain ⟨i1, i2⟩ := abs_lt.mp hin
  unfold lpVarState
  split
  · decide
  · split
    · decide
    · rename_i c2
      split
      · decide
      · rename_i c3
        exfalso
        cases hs : a.varStats j with
        | basic => exact hnb hs
        | zero => exact h.nonzero ha hr hj hs
        | lower =>
          have := (ha.varLower j hj' hs).2
          rw [h.lb j hj] at this
          unfold lpVarLb at this
          split at this
          · linarith
          · refine c2 ⟨hs, ?_⟩
            rcases max_choice (e.bounds.varsLb.value j - it.primal.value j) (-r) with m | m
            · rw [m] at this; linarith
            · rw [m] at this; linarith
        | upper =>
          have := (ha.varUpper j hj' hs).2
          rw [h.ub j hj] at this
          unfold lpVarUb at this
          split at this
          · linarith
          · refine c3 ⟨hs, ?_⟩
            rcases min_choice (e.bounds.varsUb.value j - it.primal.value j) r with m | m
            · rw [m] at this; linarith
            · rw [m] at this; linarith

theorem lpVarState_nonbasic {stats : Nat → BaseStat} {j : Nat} (hfix : isEq (e.bounds.varsLb.value j) (e.bounds.varsUb.value j) e.eps = true → stats j ≠ .basic)
    (h : lpVarState e it r stats j ≠ .inactive) : stats j ≠ .basic := by
  unfold lpVarState at h
  split at h
  · rename_i c; exact hfix c
  · split at h
    · rename_i c; rw [c.1]; decide
    · split at h
      · rename_i c; rw [c.1]; decide
      · exact absurd rfl h

/-! #### constraints, default problem -/

/-- state of a constraint -/
def lpConsSt (e : LpEnv K) (a : LpSol K) (i : Nat) : ActiveState :=
  (lpConsState (a.consStats i) (a.varStats (e.numVars + i)) (a.varStats (e.numVars + e.numCons + i))
    (isEq (e.bounds.consLb.value i) (e.bounds.consUb.value i) e.eps)).getD .inactive

theorem lpConsSt_eq (hinf : 0 < e.inf) (hd : LpData e it r lp) (ha : LpSolves e.inf lp a) {i : Nat} (hi : i < e.numCons) :
    lpConsState (a.consStats i) (a.varStats (e.numVars + i)) (a.varStats (e.numVars + e.numCons + i))
      (isEq (e.bounds.consLb.value i) (e.bounds.consUb.value i) e.eps) = some (lpConsSt e a i) := by
  have hsome : a.varStats (e.numVars + i) = .lower ∨ a.varStats (e.numVars + e.numCons + i) = .lower := by
    rcases slack_stat hinf hd ha (j := e.numVars + i) (by omega) (by unfold LpEnv.numLp; omega) with c | c
    · rcases slack_stat hinf hd ha (j := e.numVars + e.numCons + i) (by omega) (by unfold LpEnv.numLp; omega) with c' | c'
      · exact absurd ⟨c, c'⟩ (one_basic hd ha hi).1
      · exact .inr c'.1
    · exact .inl c.1
  obtain ⟨st, h⟩ := lpConsState_some (c := a.consStats i) (b := isEq (e.bounds.consLb.value i) (e.bounds.consUb.value i) e.eps) hsome
  unfold lpConsSt
  rw [h]; rfl

theorem lpConsSt_met (hb : LpBounds e) (hd : LpData e it r lp) (ha : LpSolves e.inf lp a) {i : Nat} (hi : i < e.numCons)
    (hst : lpConsSt e a i ≠ .inactive) : EntryMet e it a.primal ⟨true, i, lpConsSt e a i⟩ := by
  obtain ⟨h1, h2, h3, h4, h5⟩ := lpConsState_active (lpConsSt_eq hb.inf hd ha hi) hst
  have hi' : i < lp.numCons := by rw [hd.nc]; exact hi
  have z1 : a.primal (e.numVars + i) = 0 := by
    rcases slack_stat hb.inf hd ha (j := e.numVars + i) (by omega) (by unfold LpEnv.numLp; omega) with c | c
    · rw [h1] at c; cases c
    · exact c.2
  have z2 : a.primal (e.numVars + e.numCons + i) = 0 := by
    rcases slack_stat hb.inf hd ha (j := e.numVars + e.numCons + i) (by omega) (by unfold LpEnv.numLp; omega) with c | c
    · rw [h2] at c; cases c
    · exact c.2
  have hrow := lp_row hd a.primal hi
  rw [z1, z2, add_zero, sub_zero] at hrow
  have hlow : a.consStats i = .lower → it.lin e.numVars a.primal i = e.bounds.consLb.value i := by
    intro hs
    obtain ⟨g1, g2⟩ := ha.consLower i hi' hs
    rw [hd.clb i hi] at g1 g2
    rw [hrow, lpConsLb_eq g1] at g2
    unfold Iterate.lin; rw [g2]; ring
  have hup : a.consStats i = .upper → it.lin e.numVars a.primal i = e.bounds.consUb.value i := by
    intro hs
    obtain ⟨g1, g2⟩ := ha.consUpper i hi' hs
    rw [hd.cub i hi] at g1 g2
    rw [hrow, lpConsUb_eq g1] at g2
    unfold Iterate.lin; rw [g2]; ring
  have hle := (hb.cons i hi).2.2
  have hcases : a.consStats i = .lower ∨ a.consStats i = .upper := by
    cases hs : a.consStats i with
    | lower => exact .inl rfl
    | upper => exact .inr rfl
    | basic => exact absurd hs h3
    | zero => exact absurd hs h4
  rw [h5]
  by_cases c : isEq (e.bounds.consLb.value i) (e.bounds.consUb.value i) e.eps = true
  · rw [if_pos c]
    refine ⟨c, ?_⟩
    show LpWithin _ (e.bounds.consLb.value i) (e.bounds.consUb.value i) (it.lin e.numVars a.primal i)
    rcases hcases with hs | hs
    · rw [hlow hs]; exact ⟨.inr le_rfl, .inr hle⟩
    · rw [hup hs]; exact ⟨.inr hle, .inr le_rfl⟩
  · rw [if_neg c]
    rcases hcases with hs | hs
    · rw [if_pos hs]; exact hlow hs
    · rw [if_neg (by rw [hs]; decide)]; exact hup hs

theorem lpConsSt_nonbasic (hinf : 0 < e.inf) (hd : LpData e it r lp) (ha : LpSolves e.inf lp a) {i : Nat} (hi : i < e.numCons)
    (hst : lpConsSt e a i ≠ .inactive) :
    a.consStats i ≠ .basic ∧ a.varStats (e.numVars + i) ≠ .basic ∧ a.varStats (e.numVars + e.numCons + i) ≠ .basic := by
  obtain ⟨h1, h2, h3, h4, h5⟩ := lpConsState_active (lpConsSt_eq hinf hd ha hi) hst
  exact ⟨h3, by rw [h1]; decide, by rw [h2]; decide⟩

theorem lpConsSt_active (hinf : 0 < e.inf) (hd : LpData e it r lp) (ha : LpSolves e.inf lp a) {i : Nat} (hi : i < e.numCons)
    (h0 : a.consStats i ≠ .basic) (hz : a.consStats i ≠ .zero)
    (h1 : a.varStats (e.numVars + i) ≠ .basic) (h2 : a.varStats (e.numVars + e.numCons + i) ≠ .basic) : lpConsSt e a i ≠ .inactive := by
  have g1 : a.varStats (e.numVars + i) = .lower := by
    rcases slack_stat hinf hd ha (j := e.numVars + i) (by omega) (by unfold LpEnv.numLp; omega) with c | c
    · exact absurd c h1
    · exact c.1
  have g2 : a.varStats (e.numVars + e.numCons + i) = .lower := by
    rcases slack_stat hinf hd ha (j := e.numVars + e.numCons + i) (by omega) (by unfold LpEnv.numLp; omega) with c | c
    · exact absurd c h2
    · exact c.1
  unfold lpConsSt lpConsState
  rw [g1, g2]
  cases hs : a.consStats i with
  | basic => exact absurd hs h0
  | zero => exact absurd hs hz
  | lower => cases isEq (e.bounds.consLb.value i) (e.bounds.consUb.value i) e.eps <;> decide
  | upper => cases isEq (e.bounds.consLb.value i) (e.bounds.consUb.value i) e.eps <;> decide

/-! #### constraints, reduced problem -/

/-- state of a constraint of the reduced problem -/
def redSt (a : LpSol K) (i : Nat) : ActiveState :=
  if a.consStats i = .lower then .lower else if a.consStats i = .upper then .upper else .inactive

theorem redSt_met (hd : RedData e it r lp) (ha : LpSolves e.inf lp a) {i : Nat} (hi : i < e.numCons)
    (hst : redSt a i ≠ .inactive) : EntryMet e it a.primal ⟨true, i, redSt a i⟩ := by
  have hi' : i < lp.numCons := by rw [hd.nc]; exact hi
  have hrow := red_row (x := a.primal) hd hi
  unfold redSt at hst ⊢
  by_cases c1 : a.consStats i = .lower
  · rw [if_pos c1]
    obtain ⟨g1, g2⟩ := ha.consLower i hi' c1
    rw [hd.clb i hi] at g1 g2
    rw [hrow, lpConsLb_eq g1] at g2
    show it.lin e.numVars a.primal i = e.bounds.consLb.value i
    unfold Iterate.lin; rw [g2]; ring
  · rw [if_neg c1] at hst ⊢
    by_cases c2 : a.consStats i = .upper
    · rw [if_pos c2]
      obtain ⟨g1, g2⟩ := ha.consUpper i hi' c2
      rw [hd.cub i hi] at g1 g2
      rw [hrow, lpConsUb_eq g1] at g2
      show it.lin e.numVars a.primal i = e.bounds.consUb.value i
      unfold Iterate.lin; rw [g2]; ring
    · rw [if_neg c2] at hst; exact absurd rfl hst

theorem redSt_nonbasic {i : Nat} (hst : redSt a i ≠ .inactive) : a.consStats i ≠ .basic := by
  intro h
  unfold redSt at hst
  rw [h] at hst
  exact hst rfl

/-! #### independence and size -/

theorem lp_indep (hd : LpData e it r lp) (ha : LpSolves e.inf lp a) {z y : Nat → K}
    (hz : ∀ j < e.numVars, a.varStats j = .basic → z j = 0)
    (hy : ∀ i < e.numCons, a.consStats i = .basic ∨ a.varStats (e.numVars + i) = .basic ∨ a.varStats (e.numVars + e.numCons + i) = .basic → y i = 0)
    (hzy : ∀ j < e.numVars, z j + ∑ i ∈ range e.numCons, y i * it.consJac.value i j = 0) :
    (∀ j < e.numVars, z j = 0) ∧ ∀ i < e.numCons, y i = 0 := by
  have hcase : ∀ j < e.numLp, j < e.numVars ∨ (∃ i < e.numCons, j = e.numVars + i) ∨ ∃ i < e.numCons, j = e.numVars + e.numCons + i := by
    intro j hj
    unfold LpEnv.numLp at hj
    by_cases c : j < e.numVars
    · exact .inl c
    · by_cases c' : j < e.numVars + e.numCons
      · exact .inr (.inl ⟨j - e.numVars, by omega, by omega⟩)
      · exact .inr (.inr ⟨j - e.numVars - e.numCons, by omega, by omega⟩)
  obtain ⟨Z, hZ1, hZ2, hZ3⟩ : ∃ Z : Nat → K, (∀ j < e.numVars, Z j = z j) ∧ (∀ i < e.numCons, Z (e.numVars + i) = -y i) ∧
      ∀ i < e.numCons, Z (e.numVars + e.numCons + i) = y i := by
    refine ⟨fun j => if j < e.numVars then z j else if j < e.numVars + e.numCons then -y (j - e.numVars) else y (j - e.numVars - e.numCons),
      fun j hj => if_pos hj, fun i hi => ?_, fun i hi => ?_⟩
    · dsimp only
      rw [if_neg (by omega), if_pos (by omega), show e.numVars + i - e.numVars = i by omega]
    · dsimp only
      rw [if_neg (by omega), if_neg (by omega), show e.numVars + e.numCons + i - e.numVars - e.numCons = i by omega]
  have := ha.indep Z y ?_ ?_ ?_
  · rw [hd.nv, hd.nc] at this
    exact ⟨fun j hj => by rw [← hZ1 j hj]; exact this.1 j (by unfold LpEnv.numLp; omega), this.2⟩
  · rw [hd.nv]
    intro j hj hs
    rcases hcase j hj with c | ⟨i, c, rfl⟩ | ⟨i, c, rfl⟩
    · rw [hZ1 j c]; exact hz j c hs
    · rw [hZ2 i c, hy i c (.inr (.inl hs)), neg_zero]
    · rw [hZ3 i c, hy i c (.inr (.inr hs))]
  · rw [hd.nc]
    exact fun i hi hs => hy i hi (.inl hs)
  · rw [hd.nv, hd.nc]
    intro j hj
    rcases hcase j hj with c | ⟨k, c, rfl⟩ | ⟨k, c, rfl⟩
    · rw [hZ1 j c, ← hzy j c]
      congr 1
      exact sum_congr rfl fun i hi => by rw [hd.jac i (mem_range.mp hi) j c]
    · rw [hZ2 k c, sum_congr rfl fun i hi => by rw [hd.pos i (mem_range.mp hi) k c], sum_eq_single k]
      · rw [if_pos rfl]; ring
      · intro i _ hne; rw [if_neg hne, mul_zero]
      · intro hk; exact absurd (mem_range.mpr c) hk
    · rw [hZ3 k c, sum_congr rfl fun i hi => by rw [hd.neg i (mem_range.mp hi) k c], sum_eq_single k]
      · rw [if_pos rfl]; ring
      · intro i _ hne; rw [if_neg hne, mul_zero]
      · intro hk; exact absurd (mem_range.mpr c) hk

theorem countP_range_add (p : Nat → Bool) (k l : Nat) :
    (List.range (k + l)).countP p = (List.range k).countP p + (List.range l).countP fun i => p (k + i) := by
  rw [List.range_add, List.countP_append, List.countP_map]
  rfl

theorem countP_le_of {p q : Nat → Bool} {k : Nat} (h : ∀ j < k, p j = true → q j = true) : (List.range k).countP p ≤ (List.range k).countP q := by
  induction k with
  | zero => simp
  | succ k ih =>
    rw [List.range_succ, List.countP_append, List.countP_append]
    have := ih fun j hj => h j (by omega)
    have h2 := h k (by omega)
    cases hp : p k <;> cases hq : q k <;> simp_all <;> omega

theorem lp_size (hd : LpData e it r lp) (ha : LpSolves e.inf lp a) {vs st : Nat → ActiveState} (hv : ∀ j < e.numVars, vs j ≠ .inactive → a.varStats j ≠ .basic)
    (hc : ∀ i < e.numCons, st i ≠ .inactive →
      a.consStats i ≠ .basic ∧ a.varStats (e.numVars + i) ≠ .basic ∧ a.varStats (e.numVars + e.numCons + i) ≠ .basic) :
    (entries false vs e.numVars ++ entries true st e.numCons).length ≤ e.numVars := by
  have hs := ha.size
  rw [hd.nv, hd.nc, LpEnv.numLp, show e.numVars + 2 * e.numCons = e.numVars + e.numCons + e.numCons by omega, countP_range_add, countP_range_add] at hs
  rw [List.length_append, entries_length, entries_length]
  have h1 : (List.range e.numVars).countP (fun j => decide (vs j ≠ .inactive)) ≤
      (List.range e.numVars).countP (fun j => decide (a.varStats j ≠ .basic)) :=
    countP_le_of fun j hj h => decide_eq_true (hv j hj (of_decide_eq_true h))
  have h2 : ∀ k ≤ e.numCons, (List.range k).countP (fun i => decide (st i ≠ .inactive)) + 2 * k ≤
      (List.range k).countP (fun i => decide (a.varStats (e.numVars + i) ≠ .basic)) +
      (List.range k).countP (fun i => decide (a.varStats (e.numVars + e.numCons + i) ≠ .basic)) +
      (List.range k).countP (fun i => decide (a.consStats i ≠ .basic)) := by
    intro k
    induction k with
    | zero => simp
    | succ k ih =>
      intro hk
      have := ih (by omega)
      obtain ⟨o1, o2, o3⟩ := one_basic hd ha (i := k) (by omega)
      have hck := hc k (by omega)
      simp only [List.range_succ, List.countP_append, List.countP_singleton]
      by_cases c4 : st k = .inactive
      · by_cases c1 : a.varStats (e.numVars + k) = .basic
        · have c2 : a.varStats (e.numVars + e.numCons + k) ≠ .basic := fun c => o1 ⟨c1, c⟩
          have c3 : a.consStats k ≠ .basic := fun c => o2 ⟨c, c1⟩
          simp only [c1, c2, c3, c4, ne_eq, not_true_eq_false, not_false_eq_true, decide_true, decide_false, if_true, if_false, reduceCtorEq]
          simp only [ne_eq] at this
          omega
        · by_cases c2 : a.varStats (e.numVars + e.numCons + k) = .basic
          · have c3 : a.consStats k ≠ .basic := fun c => o3 ⟨c, c2⟩
            simp only [c1, c2, c3, c4, ne_eq, not_true_eq_false, not_false_eq_true, decide_true, decide_false, if_true, if_false, reduceCtorEq]
            simp only [ne_eq] at this
            omega
          · simp only [c1, c2, c4, ne_eq, not_true_eq_false, not_false_eq_true, decide_true, decide_false, if_true, if_false, reduceCtorEq]
            simp only [ne_eq] at this
            omega
      · obtain ⟨g1, g2, g3⟩ := hck c4
        simp only [g1, g2, g3, c4, ne_eq, not_true_eq_false, not_false_eq_true, decide_true, decide_false, if_true, if_false, reduceCtorEq]
        simp only [ne_eq] at this
        omega
  have h3 := h2 _ le_rfl
  omega

theorem red_size (hd : RedData e it r lp) (ha : LpSolves e.inf lp a) {vs st : Nat → ActiveState} (hv : ∀ j < e.numVars, vs j ≠ .inactive → a.varStats j ≠ .basic)
    (hc : ∀ i < e.numCons, st i ≠ .inactive → a.consStats i ≠ .basic) :
    (entries false vs e.numVars ++ entries true st e.numCons).length ≤ e.numVars := by
  have hs := ha.size
  rw [hd.nv, hd.nc] at hs
  rw [List.length_append, entries_length, entries_length]
  have h1 : (List.range e.numVars).countP (fun j => decide (vs j ≠ .inactive)) ≤
      (List.range e.numVars).countP (fun j => decide (a.varStats j ≠ .basic)) :=
    countP_le_of fun j hj h => decide_eq_true (hv j hj (of_decide_eq_true h))
  have h2 : (List.range e.numCons).countP (fun j => decide (st j ≠ .inactive)) ≤
      (List.range e.numCons).countP (fun j => decide (a.consStats j ≠ .basic)) :=
    countP_le_of fun j hj h => decide_eq_true (hc j hj (of_decide_eq_true h))
  omega

end Sleqp
