import Mathlib.Tactic.TypeStar
import Verif.Lemmas.OwnStep
import Verif.Model.OwnLayout

/-!
C92: reference counted objects are freed exactly when nobody holds them any more.
-/

namespace Sleqp
variable {T : Type*}

/-- test for `Layout.Sound` -/
def soundB [DecidableEq T] (L : Layout T) (ty : T) : Bool :=
  (L.fields ty).all (fun x => if x.2 then decide (x.1 ∈ L.released ty) && !decide ((x.1, false) ∈ L.fields ty) else true) &&
    (L.released ty).all fun f => decide ((f, true) ∈ L.fields ty)

theorem sound_of_soundB [DecidableEq T] {L : Layout T} {ty : T} (h : soundB L ty = true) : L.Sound ty := by
  unfold soundB at h
  rw [Bool.and_eq_true, List.all_eq_true, List.all_eq_true] at h
  have key : ∀ f, L.Owns ty f → f ∈ L.released ty ∧ (f, false) ∉ L.fields ty := by
    intro f hf
    have h1 := h.1 (f, true) hf
    simp only [if_true, Bool.and_eq_true, decide_eq_true_eq, Bool.not_eq_true', decide_eq_false_iff_not] at h1
    exact h1
  refine ⟨fun f => ⟨fun hf => (key f hf).1, fun hf => ?_⟩, fun f hf => (key f hf).2⟩
  have h2 := h.2 f hf
  rw [decide_eq_true_eq] at h2
  exact h2

/-- C92, for arbitrary structures: as long as callers follow the rules, no program ever touches freed memory or releases anything twice,
everything callers get at is alive with a positive count, and once the callers have given up all their references all memory
has been freed. -/
theorem C92_safe (L : Layout T) (ops : List (OwnOp T)) (ho : Obeys L Heap.empty ops) :
    ∃ h, ownRun L Heap.empty ops = some h ∧ (∀ a, h.Reach L a → ∃ o, h.obj a = some o ∧ 0 < o.rc) ∧
      ((∀ a, h.hand a = 0) → ∀ a, h.obj a = none) := by
  obtain ⟨h, h1, h2⟩ := ownRun_ok OInv.empty ho
  exact ⟨h, h1, fun a ha => h2.reach ha, fun hh => h2.no_leak hh⟩

/-- C92: the objects which are alive are exactly those callers get at. -/
theorem C92_exact (L : Layout T) (ops : List (OwnOp T)) (ho : Obeys L Heap.empty ops) {h : Heap T} (hr : ownRun L Heap.empty ops = some h)
    (a : Nat) : h.obj a ≠ none ↔ h.Reach L a := by
  obtain ⟨h', h1, h2⟩ := ownRun_ok OInv.empty ho
  rw [hr] at h1
  cases h1
  constructor
  · intro hn
    obtain ⟨r, hrk⟩ := h2.acyc
    -- the ranks of live objects are bounded
    have hb : ∃ B, ∀ b, h.obj b ≠ none → r b ≤ B := by
      refine ⟨(Finset.range h.next).sup r, fun b hb => ?_⟩
      exact Finset.le_sup (f := r) (Finset.mem_range.mpr (h2.lt' hb))
    obtain ⟨B, hB⟩ := hb
    have key : ∀ n a, h.obj a ≠ none → B - r a = n → h.Reach L a := by
      intro n
      induction n using Nat.strongRecOn with
      | ind n ih =>
        intro a hn he
        cases ho' : h.obj a with
        | none => exact absurd ho' hn
        | some o =>
          by_cases hh : 0 < h.hand a
          · exact ⟨a, hh, .refl a⟩
          · have c1 := h2.count a o ho'
            have c2 : 0 < o.rc := Nat.pos_of_ne_zero fun e => ((h2.zero a o ho').mp e).elim
            obtain ⟨b, hb⟩ := holds_of_refs_pos h2 (a := a) (by omega)
            have c3 := hrk b a hb
            have hbn : h.obj b ≠ none := by
              obtain ⟨ob, _, _, h4, _⟩ := hb
              rw [h4]
              exact fun e => by cases e
            have c4 := hB b hbn
            obtain ⟨c, hc1, hc2⟩ := ih (B - r b) (by omega) b hbn rfl
            exact ⟨c, hc1, leads_trans hc2 (.step hb (.refl a))⟩
    exact key _ a hn rfl
  · intro hr
    obtain ⟨o, h3, _⟩ := h2.reach hr
    rw [h3]
    exact fun e => by cases e

/-- C92: the way the setters replace what a field holds, i.e., release the old reference, capture the new object and assign it, follows the
rules whenever the caller holds both objects, also if it is the one the field held before.
(gauss_newton.c:386-429, newton.c:158-191, cauchy/standard_cauchy.c:462-498, cauchy/box_constrained_cauchy.c:106-124,
cauchy/unconstrained_cauchy.c:19-35, aug_jac/box_constrained_aug_jac.c:12-24, trial_point.c:340-355, linesearch.c:134-150,
working_step.c:451-471) -/
theorem C92_replace (L : Layout T) (ops : List (OwnOp T)) (ho : Obeys L Heap.empty ops) {h : Heap T} (hr : ownRun L Heap.empty ops = some h)
    (b a : Nat) (f : String) (i : Nat) (o : Obj T) (hhb : 0 < h.hand b) (hob : h.obj b = some o) (hf : L.Owns o.ty f) (hi : i < o.size)
    (ha : 0 < h.hand a) (hl : ¬ h.Leads L a b) :
    Obeys L h [.clear b f i, .capture a, .store b f i a] ∧
      ∃ h' o', ownRun L h [.clear b f i, .capture a, .store b f i a] = some h' ∧ h'.obj b = some o' ∧ o'.field f i = some a := by
  obtain ⟨h0, h1, inv⟩ := ownRun_ok OInv.empty ho
  rw [hr] at h1
  cases h1
  have hab : a ≠ b := fun e => hl (e ▸ .refl a)
  have a1 : (OwnOp.clear b f i : OwnOp T).Allowed L h := ⟨⟨b, hhb, .refl b⟩, o, hob, hf⟩
  obtain ⟨h1, s1, i1⟩ := ownStep_ok inv a1
  -- what the first step changes
  have hless : h1.hand = h.hand ∧ (∀ c d, h1.Holds L c d → h.Holds L c d) ∧
      ∀ o1, h1.obj b = some o1 → o1.ty = o.ty ∧ o1.size = o.size ∧ o1.field f i = none := by
    simp only [ownStep, hob] at s1
    cases hv : o.field f i with
    | none =>
      simp only [hv, Option.some.injEq] at s1
      subst s1
      refine ⟨rfl, fun _ _ hh => hh, fun o1 e => ?_⟩
      rw [hob] at e
      cases e
      exact ⟨rfl, rfl, hv⟩
    | some c =>
      simp only [hv] at s1
      obtain ⟨j1, j2⟩ := inv.take hob (((inv.sound b o hob).1 f).mp hf) hv
      obtain ⟨h', r1, _, r3⟩ := releaseF_spec (L := L) (h.next + 1) ∅ _ _ c j1
        (Nat.lt_succ_of_le (alive_le ∅ (h.setObj b (some (o.setField f i none)))))
      rw [r1] at s1
      cases s1
      have hl0 := (j2 ∅ (fun e => e)).trans r3
      refine ⟨hl0.hand, fun _ _ hh => hl0.holds hh, fun o1 e => ?_⟩
      obtain ⟨o2, g1, g2, g3, g4⟩ := r3.sub b o1 e
      have g5 : Function.update h.obj b (some (o.setField f i none)) b = some o2 := g1
      rw [Function.update_self] at g5
      cases g5
      refine ⟨g2, g3, ?_⟩
      cases hv' : o1.field f i with
      | none => rfl
      | some x =>
        have := g4 f i x hv'
        rw [setField_field, if_pos ⟨rfl, rfl⟩] at this
        cases this
  obtain ⟨k1, k2, k3⟩ := hless
  have hb1 : h1.Reach L b := ⟨b, by rw [k1]; exact hhb, .refl b⟩
  have ha1 : h1.Reach L a := ⟨a, by rw [k1]; exact ha, .refl a⟩
  obtain ⟨o1, ob1, _⟩ := i1.reach hb1
  obtain ⟨e1, e2, e3⟩ := k3 o1 ob1
  have hl1 : ¬ h1.Leads L a b := by
    intro hh
    refine hl ?_
    clear ha1 hb1 hl hab ha hhb hob a1 s1 ob1 k3
    induction hh with
    | refl => exact .refl _
    | step s _ ih => exact .step (k2 _ _ s) ih
  obtain ⟨h2, s2, i2⟩ := ownStep_ok i1 (op := .capture a) ha1
  obtain ⟨oa, hoa, _⟩ := i1.reach ha1
  have q2 : h2 = (h1.setObj a (some (oa.setRc (oa.rc + 1)))).setHand a (h1.hand a + 1) := by
    simp only [ownStep, hoa, Option.some.injEq] at s2
    exact s2.symm
  have ob2 : h2.obj b = some o1 := by
    rw [q2]
    show Function.update h1.obj a _ b = _
    rw [Function.update_of_ne (Ne.symm hab)]
    exact ob1
  have hold2 : ∀ c d, h2.Holds L c d → h1.Holds L c d := by
    intro c d hh
    obtain ⟨oc, g, j, g1, g2, g3⟩ := hh
    rw [q2] at g1
    have g1' : Function.update h1.obj a (some (oa.setRc (oa.rc + 1))) c = some oc := g1
    by_cases e : c = a
    · subst e
      rw [Function.update_self] at g1'
      cases g1'
      exact ⟨oa, g, j, hoa, g2, g3⟩
    · rw [Function.update_of_ne e] at g1'
      exact ⟨oc, g, j, g1', g2, g3⟩
  have hl2 : ¬ h2.Leads L a b := by
    intro hh
    refine hl1 ?_
    clear ha1 hb1 hl hab ha hhb hob a1 s1 ob1 k3 hl1 s2 q2 ob2 hoa
    induction hh with
    | refl => exact .refl _
    | step s _ ih => exact .step (hold2 _ _ s) ih
  have hand2 : h2.hand a = h.hand a + 1 := by
    rw [q2]
    show Function.update h1.hand a (h1.hand a + 1) a = _
    rw [Function.update_self, k1]
  have hb2 : h2.Reach L b := by
    refine ⟨b, ?_, .refl b⟩
    rw [q2]
    show 0 < Function.update h1.hand a (h1.hand a + 1) b
    rw [Function.update_of_ne (Ne.symm hab), k1]
    exact hhb
  have a3 : (OwnOp.store b f i a : OwnOp T).Allowed L h2 :=
    ⟨hb2, o1, ob2, by rw [e2]; exact hi, Or.inl ⟨by rw [e1]; exact hf, by omega, e3, hl2⟩⟩
  refine ⟨⟨a1, fun h1' s1' => ?_⟩, ?_⟩
  · rw [s1] at s1'
    cases s1'
    refine ⟨ha1, fun h2' s2' => ?_⟩
    rw [s2] at s2'
    cases s2'
    exact ⟨a3, fun _ _ => trivial⟩
  · obtain ⟨h3, s3, _⟩ := ownStep_ok i2 a3
    refine ⟨h3, o1.setField f i (some a), ?_, ?_, ?_⟩
    · simp only [ownRun, s1, s2, s3, Option.bind_some]
    · simp only [ownStep, ob2, Option.some.injEq] at s3
      rw [← s3]
      split
      · exact Function.update_self ..
      · exact Function.update_self ..
    · rw [setField_field, if_pos ⟨rfl, rfl⟩]

/-- C92, the structures of the library, except for the data of one factorization (see `C92_ma97_violated`): the function which frees a
structure releases exactly the fields which own what they point to. -/
theorem C92_structures_partial (ty : OTy) (h : ty ≠ .ma97) : lib.Sound ty := by
  refine sound_of_soundB ?_
  cases ty <;> first | exact absurd rfl h | decide +kernel

/-- a program which uses an object with two fields, one of which it replaces -/
def meritProgram : List (OwnOp OTy) :=
  [.alloc .settings 0, .alloc .problem 1, .capture 0, .store 1 "settings" 0 0, .alloc .merit 1, .capture 1, .store 2 "problem" 0 1,
    .capture 0, .store 2 "settings" 0 0, .release 1, .release 0, .use 2, .alloc .vec 0, .store 2 "multipliers" 0 3]

/-- number of objects alive -/
def Heap.count (h : Heap OTy) : Nat := ((List.range h.next).filter fun a => (h.obj a).isSome).length

/-- the program above keeps everything alive which the last object needs, and releasing this object frees everything -/
example : ((ownRun lib Heap.empty meritProgram).map Heap.count = some 4) ∧
    ((ownRun lib Heap.empty (meritProgram ++ [.release 2])).map Heap.count = some 0) := by decide +kernel

/-- this program follows the rules: an object is created, captured by another one and released by its creator -/
example : Obeys lib Heap.empty [.alloc .settings 0, .alloc .polishing 1, .capture 0, .store 1 "settings" 0 0, .release 0, .use 0, .release 1] := by
  have s1 : lib.Sound .settings := C92_structures_partial _ (fun e => OTy.noConfusion e)
  have s2 : lib.Sound .polishing := C92_structures_partial _ (fun e => OTy.noConfusion e)
  have ow : lib.Owns .polishing "settings" := by
    show ("settings", true) ∈ libFields .polishing
    decide +kernel
  refine ⟨s1, fun h e => ?_⟩
  cases e
  refine ⟨s2, fun h e => ?_⟩
  cases e
  refine ⟨⟨0, Nat.one_pos, .refl 0⟩, fun h e => ?_⟩
  cases e
  refine ⟨⟨⟨1, Nat.one_pos, .refl 1⟩, _, rfl, Nat.one_pos, Or.inl ⟨ow, Nat.two_pos, rfl, fun hl => ?_⟩⟩, fun h e => ?_⟩
  · cases hl with
    | step hs _ =>
      obtain ⟨o, f, i, h1, h2, _⟩ := hs
      cases h1
      have h3 : (f, true) ∈ ([] : List (String × Bool)) := h2
      cases h3
  · cases e
    refine ⟨Nat.one_pos, fun h e => ?_⟩
    cases e
    refine ⟨⟨1, Nat.one_pos, .step ⟨_, "settings", 0, rfl, ow, rfl⟩ (.refl 0)⟩, fun h e => ?_⟩
    cases e
    exact ⟨Nat.one_pos, fun _ _ => trivial⟩

/-- breaking the rules shows: releasing an object which a field still owns and then using the field's holder is undefined -/
example : (ownRun lib Heap.empty (meritProgram ++ [.release 1, .release 2])).isNone := by decide +kernel

/-- a setter which is given the object only its own field holds uses freed memory -/
example : (ownRun lib Heap.empty [.alloc .augBox 1, .alloc .iterate 0, .store 0 "iterate" 0 1, .clear 0 "iterate" 0, .capture 1]).isNone := by
  decide +kernel

/-- C92 is violated: the data of the MA97 factorization is freed without its two handles of the library; whatever these point to is leaked,
although the program follows the rules otherwise. -/
theorem C92_ma97_violated : ¬ lib.Sound .ma97 ∧
    ∃ h, ownRun lib Heap.empty [.alloc .ma97 1, .alloc .mem 0, .store 0 "akeep" 0 1, .release 0] = some h ∧
      (∀ a, h.hand a = 0) ∧ ∃ o, h.obj 1 = some o := by
  refine ⟨fun hs => ?_, _, rfl, fun a => ?_, ?_⟩
  · have h1 : lib.Owns .ma97 "akeep" := by
      show ("akeep", true) ∈ libFields .ma97
      decide +kernel
    have h2 : "akeep" ∉ lib.released .ma97 := by
      show "akeep" ∉ libReleased .ma97
      decide +kernel
    exact h2 ((hs.1 _).mp h1)
  · match a with
    | 0 => rfl
    | 1 => rfl
    | a + 2 => rfl
  · exact ⟨_, rfl⟩

/-- C92 is violated: the CHOLMOD factorization overwrites its factor without freeing it when it is given another matrix
(fact/fact_cholmod.c:87-144); the first factor is leaked. -/
theorem C92_cholmod_violated : lib.Sound .cholmod ∧
    ∃ h, ownRun lib Heap.empty [.alloc .cholmod 1, .alloc .mem 0, .store 0 "factor" 0 1, .alloc .mem 0, .store 0 "factor" 0 2, .release 0] = some h ∧
      (∀ a, h.hand a = 0) ∧ ∃ o, h.obj 1 = some o := by
  refine ⟨C92_structures_partial _ (fun e => OTy.noConfusion e), _, rfl, fun a => ?_, ?_⟩
  · match a with
    | 0 => rfl
    | 1 => rfl
    | 2 => rfl
    | a + 3 => rfl
  · exact ⟨_, rfl⟩

end Sleqp
