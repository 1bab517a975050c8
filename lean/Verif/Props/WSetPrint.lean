import Verif.Model.WSetPrint
import Verif.Props.WorkingSet

/-! C134: printed forms of working sets. -/

namespace Sleqp

theorem stateName_inj {a b : ActiveState} (h : stateName a = stateName b) : a = b := by
  revert h
  cases a <;> cases b <;> decide

theorem pyStateName_inj {a b : ActiveState} (h : pyStateName a = pyStateName b) : a = b := by
  revert h
  cases a <;> cases b <;> decide

theorem WRep.mem_iff {n m : Nat} {w : WSet} {l : List WEntry} (h : WRep n m w l) (c : Bool) (i : Nat) (st : ActiveState) :
    (⟨c, i, st⟩ : WEntry) ∈ l ↔ st ≠ .inactive ∧ i < (if c then m else n) ∧ (if c then w.consState i else w.varState i) = st := by
  constructor
  · intro he
    obtain ⟨k, hk, e⟩ := List.getElem_of_mem he
    obtain ⟨h1, h2⟩ := h.ok _ he
    refine ⟨h2, h1, ?_⟩
    cases c with
    | true => have := (h.cidx k hk (by rw [e])).2; rw [e] at this; exact this
    | false => have := (h.vidx k hk (by rw [e])).2; rw [e] at this; exact this
  · rintro ⟨h1, h2, h3⟩
    cases c with
    | true =>
      have h2' : i < m := h2
      have h3' : w.consState i = st := h3
      have hn := (h.cons_inactive h2').not.mp (by rw [h3']; exact h1)
      push Not at hn
      obtain ⟨e, he, h4, h5⟩ := hn
      obtain ⟨k, hk, rfl⟩ := List.getElem_of_mem he
      have h6 := (h.cidx k hk h4).2
      rw [h5, h3'] at h6
      convert he
      · exact h4.symm
      · exact h5.symm
    | false =>
      have h2' : i < n := h2
      have h3' : w.varState i = st := h3
      have hn := (h.var_inactive h2').not.mp (by rw [h3']; exact h1)
      push Not at hn
      obtain ⟨e, he, h4, h5⟩ := hn
      obtain ⟨k, hk, rfl⟩ := List.getElem_of_mem he
      have h6 := (h.vidx k hk h4).2
      rw [h5, h3'] at h6
      convert he
      · exact h4.symm
      · exact h5.symm

theorem same_states_iff {n m : Nat} {w w' : WSet} {l l' : List WEntry} (h : WRep n m w l) (h' : WRep n m w' l') :
    ((∀ j < n, w.varState j = w'.varState j) ∧ ∀ i < m, w.consState i = w'.consState i) ↔ ∀ e, e ∈ l ↔ e ∈ l' := by
  constructor
  · rintro ⟨h1, h2⟩ ⟨c, i, st⟩
    rw [h.mem_iff, h'.mem_iff]
    refine and_congr_right fun _ => and_congr_right fun hi => ?_
    cases c
    · show w.varState i = st ↔ _
      rw [h1 i hi]; rfl
    · show w.consState i = st ↔ _
      rw [h2 i hi]; rfl
  · intro he
    have key : ∀ (c : Bool) (i : Nat), i < (if c then m else n) → (if c then w.consState i else w.varState i) = if c then w'.consState i else w'.varState i := by
      intro c i hi
      have e : ∀ st, st ≠ .inactive → ((if c then w.consState i else w.varState i) = st ↔ (if c then w'.consState i else w'.varState i) = st) := fun st hs => by
        have := he ⟨c, i, st⟩
        rw [h.mem_iff, h'.mem_iff] at this
        simpa [hs, hi] using this
      generalize (if c then w.consState i else w.varState i) = a at e ⊢
      generalize (if c then w'.consState i else w'.varState i) = b at e ⊢
      have e1 := e .lower (by decide)
      have e2 := e .upper (by decide)
      have e3 := e .both (by decide)
      revert e1 e2 e3
      cases a <;> cases b <;> decide
    exact ⟨fun j hj => key false j hj, fun i hi => key true i hi⟩

theorem map_range_eq_iff {α : Type*} {f g : Nat → α} (n : Nat) : (List.range n).map f = (List.range n).map g ↔ ∀ j < n, f j = g j := by
  rw [List.map_inj_left]
  simp

theorem pyJoin_inj {a b : List SetLine} (ha : SetLine.blank ∉ a) (hb : SetLine.blank ∉ b) (h : pyJoin a = pyJoin b) : a = b := by
  unfold pyJoin at h
  by_cases h1 : a = [] <;> by_cases h2 : b = []
  · rw [h1, h2]
  · rw [if_pos h1, if_neg h2] at h
    exact absurd (by rw [← h]; simp) hb
  · rw [if_neg h1, if_pos h2] at h
    exact absurd (by rw [h]; simp) ha
  · rwa [if_neg h1, if_neg h2] at h

theorem pyJoin_length {a b : List SetLine} (h : a.length = b.length) : (pyJoin a).length = (pyJoin b).length := by
  unfold pyJoin
  by_cases h1 : a = []
  · have h2 : b = [] := List.length_eq_zero_iff.mp (by rw [← h, h1]; rfl)
    rw [if_pos h1, if_pos h2]
  · have h2 : b ≠ [] := fun e => h1 (List.length_eq_zero_iff.mp (by rw [h, e]; rfl))
    rw [if_neg h1, if_neg h2, h]

/-- C134: after any calls which made working sets represent the entries `l` and `l'`, in problems of possibly different sizes, the printed forms of the
library agree exactly if the sizes and the entries with their states do: the text tells what is in the working set. -/
theorem C134_print {n m n' m' : Nat} {w w' : WSet} {l l' : List WEntry} (h : WRep n m w l) (h' : WRep n' m' w' l') :
    w.print = w'.print ↔ n = n' ∧ m = m' ∧ ∀ e, e ∈ l ↔ e ∈ l' := by
  unfold WSet.print
  rw [h.nv, h.nc, h'.nv, h'.nc, List.cons.injEq, SetLine.header.injEq, and_assoc]
  refine and_congr_right fun hn => and_congr_right fun hm => ?_
  subst hn hm
  rw [← same_states_iff h h']
  constructor
  · intro e
    obtain ⟨e1, e2⟩ := List.append_inj e (by simp)
    rw [map_range_eq_iff] at e1 e2
    exact ⟨fun j hj => stateName_inj (SetLine.var.inj (e1 j hj)).2, fun i hi => stateName_inj (SetLine.cons.inj (e2 i hi)).2⟩
  · rintro ⟨e1, e2⟩
    congr 1 <;> rw [map_range_eq_iff]
    · exact fun j hj => by rw [e1 j hj]
    · exact fun i hi => by rw [e2 i hi]

/-- C134 (part): the same for the texts in Python, which have an empty line where there are no variables or no constraints; the counts in Python are those of
the entries.  Missing: objects without a working set (`C134_empty_violated`). -/
theorem C134_str_partial {n m n' m' : Nat} {w w' : WSet} {l l' : List WEntry} (h : WRep n m w l) (h' : WRep n' m' w' l') :
    (pySetStr (some w) = pySetStr (some w') ↔ n = n' ∧ m = m' ∧ ∀ e, e ∈ l ↔ e ∈ l') ∧ pySetNumVars (some w) = .value n ∧
    pySetNumCons (some w) = .value m ∧ pySetSize (some w) = .value l.length ∧
    pySetActiveVars (some w) = .value (l.filter fun e => !e.constraint).length ∧
    pySetActiveCons (some w) = .value (l.filter fun e => e.constraint).length := by
  refine ⟨?_, congrArg PySetOut.value h.nv, congrArg PySetOut.value h.nc, congrArg PySetOut.value h.size,
    congrArg PySetOut.value (h.vars.trans List.countP_eq_length_filter), congrArg PySetOut.value (h.cons.trans List.countP_eq_length_filter)⟩
  unfold pySetStr
  rw [PySetOut.value.injEq, h.nv, h.nc, h'.nv, h'.nc, List.cons.injEq, SetLine.header.injEq, and_assoc]
  refine and_congr_right fun hn => and_congr_right fun hm => ?_
  subst hn hm
  rw [← same_states_iff h h']
  constructor
  · intro e
    obtain ⟨e1, e2⟩ := List.append_inj e (pyJoin_length (by simp))
    have e1 := pyJoin_inj (by simp) (by simp) e1
    have e2 := pyJoin_inj (by simp) (by simp) e2
    rw [map_range_eq_iff] at e1 e2
    exact ⟨fun j hj => pyStateName_inj (SetLine.var.inj (e1 j hj)).2, fun i hi => pyStateName_inj (SetLine.cons.inj (e2 i hi)).2⟩
  · rintro ⟨e1, e2⟩
    congr 2 <;> rw [map_range_eq_iff]
    · exact fun j hj => by rw [e1 j hj]
    · exact fun i hi => by rw [e2 i hi]

/-- **C134 violated**: the class of working sets in Python can be created by the user (other than that of iterates, iterate.pxi:8-10).  Such an object has no
working set of the library; most of its attributes raise an exception, but asking for the numbers of variables or constraints, or printing it, follows a null
pointer (bindings/python/src/extension/working_set.pxi:23-43, 87-99). -/
theorem C134_empty_violated : pySetSize none = .assertionError ∧ pySetActiveVars none = .assertionError ∧ pySetNumVars none = .nullPointer ∧
    pySetNumCons none = .nullPointer ∧ pySetStr none = .nullPointer := ⟨rfl, rfl, rfl, rfl, rfl⟩

/-- two working sets with the same entries, added in different order: the second constraint is active at its upper bound, the first at its lower -/
example : ∃ w w' : WSet, (((WSet.create 1 2 id).addCons 0 .lower).bind fun w => w.addCons 1 .upper) = some w ∧
    (((WSet.create 1 2 id).addCons 1 .upper).bind fun w => w.addCons 0 .lower) = some w' ∧ w.content 0 ≠ w'.content 0 ∧ w.print = w'.print ∧
    w.print = [.header 1 2, .var 0 "inactive", .cons 0 "lower", .cons 1 "upper"] := by
  have r := C30_refines 1 2 (fun _ => id) [.add 0 true 0 .lower, .add 0 true 1 .upper, .add 1 true 1 .upper, .add 1 true 0 .lower]
  refine ⟨_, _, rfl, rfl, by decide, ?_, by decide⟩
  obtain ⟨pool, h1, h2⟩ := r
  cases h1
  exact (C134_print (h2 0) (h2 1)).mpr ⟨rfl, rfl, fun e => by
    show e ∈ [⟨true, 0, .lower⟩, ⟨true, 1, .upper⟩] ↔ e ∈ [⟨true, 1, .upper⟩, ⟨true, 0, .lower⟩]
    simp only [List.mem_cons, List.not_mem_nil, or_false]
    exact or_comm⟩

end Sleqp
