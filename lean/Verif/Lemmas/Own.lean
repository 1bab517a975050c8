import Mathlib.Algebra.BigOperators.Group.Finset.Basic
import Mathlib.Algebra.BigOperators.Group.Finset.Piecewise
import Mathlib.Algebra.Order.BigOperators.Group.Finset
import Mathlib.Tactic.Linarith
import Verif.Spec.Own

/-!
Lemmas on reference counting.
-/

namespace Sleqp
variable {T : Type*} {L : Layout T}
open Finset

/-- how many owning fields of `o` point to `a` -/
def refsOf (L : Layout T) (o : Obj T) (a : Nat) : Nat :=
  ∑ f ∈ (L.released o.ty).toFinset, ∑ i ∈ range o.size, if o.field f i = some a then 1 else 0

/-- how many owning fields point to `a` -/
def refs (L : Layout T) (h : Heap T) (a : Nat) : Nat :=
  ∑ b ∈ range h.next, (h.obj b).elim 0 (refsOf L · a)

@[simp] theorem setRc_refsOf (o : Obj T) (r a : Nat) : refsOf L (o.setRc r) a = refsOf L o a := rfl

theorem refsOf_eq_zero {o : Obj T} {a : Nat} (h : ∀ f ∈ L.released o.ty, ∀ i < o.size, o.field f i ≠ some a) :
    refsOf L o a = 0 :=
  sum_eq_zero fun f hf => sum_eq_zero fun i hi => if_neg (h f (List.mem_toFinset.mp hf) i (mem_range.mp hi))

theorem refsOf_pos {o : Obj T} {a : Nat} {f : String} {i : Nat} (hf : f ∈ L.released o.ty) (hi : i < o.size)
    (hv : o.field f i = some a) : 0 < refsOf L o a := by
  unfold refsOf
  refine sum_pos' (fun _ _ => Nat.zero_le _) ⟨f, List.mem_toFinset.mpr hf, ?_⟩
  exact sum_pos' (fun _ _ => Nat.zero_le _) ⟨i, mem_range.mpr hi, by rw [if_pos hv]; decide⟩

theorem exists_of_refsOf_pos {o : Obj T} {a : Nat} (h : 0 < refsOf L o a) :
    ∃ f ∈ L.released o.ty, ∃ i < o.size, o.field f i = some a := by
  by_contra hn
  push Not at hn
  exact absurd (refsOf_eq_zero hn) h.ne'

theorem setField_refsOf (o : Obj T) {f : String} {i : Nat} (v : Option Nat) (hf : f ∈ L.released o.ty) (hi : i < o.size) (x : Nat) :
    refsOf L (o.setField f i v) x + (if o.field f i = some x then 1 else 0) =
      refsOf L o x + (if v = some x then 1 else 0) := by
  have hff : f ∈ (L.released o.ty).toFinset := List.mem_toFinset.mpr hf
  have hii : i ∈ range o.size := mem_range.mpr hi
  show (∑ g ∈ (L.released o.ty).toFinset, ∑ j ∈ range o.size, if (if g = f ∧ j = i then v else o.field g j) = some x then 1 else 0) + _ =
    (∑ g ∈ (L.released o.ty).toFinset, ∑ j ∈ range o.size, if o.field g j = some x then 1 else 0) + _
  rw [← add_sum_erase _ _ hff, ← add_sum_erase _ _ hff, ← add_sum_erase _ _ hii, ← add_sum_erase (range o.size) _ hii]
  have e1 : (∑ g ∈ (L.released o.ty).toFinset.erase f, ∑ j ∈ range o.size,
      if (if g = f ∧ j = i then v else o.field g j) = some x then 1 else 0) =
      ∑ g ∈ (L.released o.ty).toFinset.erase f, ∑ j ∈ range o.size, if o.field g j = some x then 1 else 0 := by
    refine sum_congr rfl fun g hg => sum_congr rfl fun j _ => ?_
    rw [if_neg (fun hh : g = f ∧ j = i => (mem_erase.mp hg).1 hh.1)]
  have e2 : (∑ j ∈ (range o.size).erase i, if (if f = f ∧ j = i then v else o.field f j) = some x then 1 else 0) =
      ∑ j ∈ (range o.size).erase i, if o.field f j = some x then 1 else 0 := by
    refine sum_congr rfl fun j hj => ?_
    rw [if_neg (fun hh : f = f ∧ j = i => (mem_erase.mp hj).1 hh.2)]
  rw [e1, e2, if_pos (⟨rfl, rfl⟩ : f = f ∧ i = i)]
  omega

theorem setField_refsOf_not (o : Obj T) {f : String} {i : Nat} (v : Option Nat) (hf : f ∉ L.released o.ty) (x : Nat) :
    refsOf L (o.setField f i v) x = refsOf L o x := by
  refine sum_congr rfl fun g hg => sum_congr rfl fun j _ => ?_
  have : g ≠ f := fun e => hf (e ▸ List.mem_toFinset.mp hg)
  show (if (if g = f ∧ j = i then v else o.field g j) = some x then 1 else 0) = _
  rw [if_neg (fun hh : g = f ∧ j = i => this hh.1)]

theorem setObj_refs {h : Heap T} {b : Nat} (hb : b < h.next) (o : Option (Obj T)) (x : Nat) :
    refs L (h.setObj b o) x + (h.obj b).elim 0 (refsOf L · x) = refs L h x + o.elim 0 (refsOf L · x) := by
  have hbb : b ∈ range h.next := mem_range.mpr hb
  show (∑ c ∈ range h.next, (Function.update h.obj b o c).elim 0 (refsOf L · x)) + _ = (∑ c ∈ range h.next, _) + _
  rw [← add_sum_erase _ _ hbb, ← add_sum_erase (range h.next) _ hbb]
  have e : (∑ c ∈ (range h.next).erase b, (Function.update h.obj b o c).elim 0 (refsOf L · x)) =
      ∑ c ∈ (range h.next).erase b, (h.obj c).elim 0 (refsOf L · x) := by
    refine sum_congr rfl fun c hc => ?_
    rw [Function.update_of_ne (mem_erase.mp hc).1]
  rw [e, Function.update_self]
  omega

/-- one more at `a` -/
def plus (p : Nat → Nat) (a : Nat) : Nat → Nat := fun x => p x + if x = a then 1 else 0

/-- the invariant: `Z` are the objects being freed, `p` counts references in transit -/
structure OInv (L : Layout T) (Z : Set Nat) (p : Nat → Nat) (h : Heap T) : Prop where
  fresh : ∀ a, h.next ≤ a → h.obj a = none
  sound : ∀ b o, h.obj b = some o → L.Sound o.ty
  idx : ∀ b o f i a, h.obj b = some o → o.field f i = some a → i < o.size
  count : ∀ a o, h.obj a = some o → o.rc = h.hand a + p a + refs L h a
  dead : ∀ a, h.obj a = none → h.hand a + p a + refs L h a = 0
  zero : ∀ a o, h.obj a = some o → (o.rc = 0 ↔ a ∈ Z)
  live : ∀ a ∈ Z, h.obj a ≠ none
  acyc : ∃ r : Nat → Nat, ∀ b a, h.Holds L b a → r a < r b

theorem OInv.lt {Z : Set Nat} {p : Nat → Nat} {h : Heap T} (hi : OInv L Z p h) {b : Nat} {o : Obj T} (hb : h.obj b = some o) :
    b < h.next := by
  by_contra hn
  rw [hi.fresh b (not_lt.mp hn)] at hb
  cases hb

theorem OInv.lt' {Z : Set Nat} {p : Nat → Nat} {h : Heap T} (hi : OInv L Z p h) {b : Nat} (hb : h.obj b ≠ none) :
    b < h.next := by
  by_contra hn
  exact hb (hi.fresh b (not_lt.mp hn))

theorem refs_pos {h : Heap T} {b a : Nat} {o : Obj T} {f : String} {i : Nat} (hlt : b < h.next) (hb : h.obj b = some o)
    (hf : f ∈ L.released o.ty) (hi : i < o.size) (hv : o.field f i = some a) : 0 < refs L h a := by
  refine sum_pos' (fun _ _ => Nat.zero_le _) ⟨b, mem_range.mpr hlt, ?_⟩
  rw [hb]
  exact refsOf_pos hf hi hv

theorem holds_of_refs_pos {Z : Set Nat} {p : Nat → Nat} {h : Heap T} (hi : OInv L Z p h) {a : Nat} (hr : 0 < refs L h a) :
    ∃ b, h.Holds L b a := by
  by_contra hn
  push Not at hn
  have : refs L h a = 0 := by
    refine sum_eq_zero fun b _ => ?_
    cases hb : h.obj b with
    | none => rfl
    | some o =>
      refine refsOf_eq_zero fun f hf i _ hv => hn b ⟨o, f, i, hb, ?_, hv⟩
      exact ((hi.sound b o hb).1 f).mpr hf
  omega

/-- what is held is alive and not being freed -/
theorem OInv.held {Z : Set Nat} {p : Nat → Nat} {h : Heap T} (hi : OInv L Z p h) {b a : Nat} (hh : h.Holds L b a) :
    ∃ o, h.obj a = some o ∧ 0 < o.rc := by
  obtain ⟨o, f, i, hb, ho, hv⟩ := hh
  have hp := refs_pos (L := L) (hi.lt hb) hb (((hi.sound b o hb).1 f).mp ho) (hi.idx b o f i a hb hv) hv
  cases ha : h.obj a with
  | none => have := hi.dead a ha; omega
  | some oa => exact ⟨oa, rfl, by have := hi.count a oa ha; omega⟩

/-- what a release changes: objects vanish or lose fields -/
structure Less (L : Layout T) (Z : Set Nat) (h h' : Heap T) : Prop where
  next : h'.next = h.next
  hand : h'.hand = h.hand
  same : ∀ z ∈ Z, h'.obj z = h.obj z
  none : ∀ b, h.obj b = none → h'.obj b = none
  sub : ∀ b o', h'.obj b = some o' → ∃ o, h.obj b = some o ∧ o'.ty = o.ty ∧ o'.size = o.size ∧
    ∀ f i a, o'.field f i = some a → o.field f i = some a

theorem Less.holds {Z : Set Nat} {h h' : Heap T} (l : Less L Z h h') {b a : Nat} (hh : h'.Holds L b a) : h.Holds L b a := by
  obtain ⟨o', f, i, hb, ho, hv⟩ := hh
  obtain ⟨o, h1, h2, _, h4⟩ := l.sub b o' hb
  exact ⟨o, f, i, h1, h2 ▸ ho, h4 f i a hv⟩

theorem Less.rfl {Z : Set Nat} {h : Heap T} : Less L Z h h :=
  ⟨Eq.refl _, Eq.refl _, fun _ _ => Eq.refl _, fun _ e => e, fun _ o' e => ⟨o', e, Eq.refl _, Eq.refl _, fun _ _ _ e => e⟩⟩

theorem Less.trans {Z : Set Nat} {h h' h'' : Heap T} (l : Less L Z h h') (l' : Less L Z h' h'') : Less L Z h h'' := by
  refine ⟨l'.next.trans l.next, l'.hand.trans l.hand, fun z hz => (l'.same z hz).trans (l.same z hz),
    fun b hb => l'.none b (l.none b hb), fun b o'' hb => ?_⟩
  obtain ⟨o', h1, h2, h3, h4⟩ := l'.sub b o'' hb
  obtain ⟨o, g1, g2, g3, g4⟩ := l.sub b o' h1
  exact ⟨o, g1, h2.trans g2, h3.trans g3, fun f i a e => g4 f i a (h4 f i a e)⟩

theorem Less.mono {Z Z' : Set Nat} {h h' : Heap T} (l : Less L Z h h') (hz : Z' ⊆ Z) : Less L Z' h h' :=
  ⟨l.next, l.hand, fun z hzz => l.same z (hz hzz), l.none, l.sub⟩

open Classical in
/-- the number of objects which are alive and not being freed -/
noncomputable def alive (Z : Set Nat) (h : Heap T) : Nat := ((range h.next).filter fun b => h.obj b ≠ none ∧ b ∉ Z).card

theorem alive_le (Z : Set Nat) (h : Heap T) : alive Z h ≤ h.next := by
  classical
  unfold alive
  exact (card_filter_le _ _).trans (by rw [card_range])

theorem alive_mono (Z : Set Nat) {h h' : Heap T} (hn : h'.next = h.next) (hs : ∀ b, h.obj b = none → h'.obj b = none) :
    alive Z h' ≤ alive Z h := by
  classical
  unfold alive
  rw [hn]
  refine card_le_card fun b hb => ?_
  rw [mem_filter] at hb ⊢
  exact ⟨hb.1, fun hn => hb.2.1 (hs b hn), hb.2.2⟩

theorem Less.alive_le {Z : Set Nat} {h h' : Heap T} (l : Less L Z h h') : alive Z h' ≤ alive Z h := alive_mono Z l.next l.none

theorem alive_lt {Z Z' : Set Nat} {h h' : Heap T} {a : Nat} (hn : h'.next = h.next) (hs : ∀ b, h.obj b = none → h'.obj b = none)
    (ha : h.obj a ≠ none) (hlt : a < h.next) (hz : a ∉ Z) (haz : a ∈ Z') (hzz : Z ⊆ Z') : alive Z' h' < alive Z h := by
  classical
  unfold alive
  rw [hn]
  refine card_lt_card ⟨fun b hb => ?_, fun hsub => ?_⟩
  · rw [mem_filter] at hb ⊢
    exact ⟨hb.1, fun hnn => hb.2.1 (hs b hnn), fun h' => hb.2.2 (hzz h')⟩
  · have := hsub (mem_filter.mpr ⟨mem_range.mpr hlt, ha, hz⟩)
    exact (mem_filter.mp this).2.2 haz

/-- what `rel` is expected to do -/
def RelSpec (L : Layout T) (rel : Heap T → Nat → Option (Heap T)) (bound : Nat) : Prop :=
  ∀ (Z : Set Nat) (p : Nat → Nat) (h : Heap T) (a : Nat), OInv L Z (plus p a) h → alive Z h < bound →
    ∃ h', rel h a = some h' ∧ OInv L Z p h' ∧ Less L Z h h'

theorem setField_field (o : Obj T) (f : String) (i : Nat) (v : Option Nat) (g : String) (j : Nat) :
    (o.setField f i v).field g j = if g = f ∧ j = i then v else o.field g j := rfl

/-- taking a reference out of a field -/
theorem OInv.take {Z : Set Nat} {p : Nat → Nat} {h : Heap T} (hi : OInv L Z p h) {a c : Nat} {o : Obj T} {f : String} {i : Nat}
    (ha : h.obj a = some o) (hf : f ∈ L.released o.ty) (hv : o.field f i = some c) :
    OInv L Z (plus p c) (h.setObj a (some (o.setField f i none))) ∧
      ∀ Z', a ∉ Z' → Less L Z' h (h.setObj a (some (o.setField f i none))) := by
  have hlt := hi.lt ha
  have hid := hi.idx a o f i c ha hv
  have hr : ∀ x, refs L (h.setObj a (some (o.setField f i none))) x + (if x = c then 1 else 0) = refs L h x := by
    intro x
    have h1 := setObj_refs (L := L) hlt (some (o.setField f i none)) x
    have h2 := setField_refsOf (L := L) o none hf hid x
    rw [ha] at h1
    simp only [Option.elim_some] at h1
    rw [hv] at h2
    simp only [Option.some.injEq, reduceCtorEq, if_false] at h2
    have h3 : (if c = x then 1 else 0) = if x = c then 1 else 0 := by
      by_cases e : x = c
      · rw [if_pos e, if_pos e.symm]
      · rw [if_neg e, if_neg (Ne.symm e)]
    omega
  have hless : ∀ Z', a ∉ Z' → Less L Z' h (h.setObj a (some (o.setField f i none))) := by
    intro Z' hz'
    refine ⟨rfl, rfl, fun z hz => Function.update_of_ne (fun e : z = a => hz' (e ▸ hz)) _ _, fun b hb => ?_, fun b o' hb => ?_⟩
    · show Function.update h.obj a _ b = none
      rw [Function.update_of_ne (fun e => by rw [e, ha] at hb; cases hb)]
      exact hb
    · by_cases e : b = a
      · subst e
        have : Function.update h.obj b (some (o.setField f i none)) b = some o' := hb
        rw [Function.update_self] at this
        cases this
        refine ⟨o, ha, rfl, rfl, fun g j x hx => ?_⟩
        rw [setField_field] at hx
        split at hx
        · cases hx
        · exact hx
      · have : Function.update h.obj a (some (o.setField f i none)) b = some o' := hb
        rw [Function.update_of_ne e] at this
        exact ⟨o', this, rfl, rfl, fun _ _ _ hx => hx⟩
  refine ⟨?_, hless⟩
  have hl0 := hless ∅ (fun e => e)
  have key : ∀ b o', (h.setObj a (some (o.setField f i none))).obj b = some o' → ∃ ob, h.obj b = some ob ∧ o'.rc = ob.rc ∧ o'.ty = ob.ty := by
    intro b o' hb
    by_cases e : b = a
    · subst e
      have : Function.update h.obj b (some (o.setField f i none)) b = some o' := hb
      rw [Function.update_self] at this
      cases this
      exact ⟨o, ha, rfl, rfl⟩
    · have : Function.update h.obj a (some (o.setField f i none)) b = some o' := hb
      rw [Function.update_of_ne e] at this
      exact ⟨o', this, rfl, rfl⟩
  have keyn : ∀ b, (h.setObj a (some (o.setField f i none))).obj b = none → h.obj b = none := by
    intro b hb
    by_cases e : b = a
    · subst e
      have : Function.update h.obj b (some (o.setField f i none)) b = none := hb
      rw [Function.update_self] at this
      cases this
    · have : Function.update h.obj a (some (o.setField f i none)) b = none := hb
      rwa [Function.update_of_ne e] at this
  constructor
  · exact fun b hb => hl0.none b (hi.fresh b hb)
  · intro b o' hb
    obtain ⟨ob, h1, _, h3⟩ := key b o' hb
    exact h3 ▸ hi.sound b ob h1
  · intro b o' g j x hb hx
    obtain ⟨ob, h1, _, h3, h4⟩ := hl0.sub b o' hb
    exact h3 ▸ hi.idx b ob g j x h1 (h4 g j x hx)
  · intro b o' hb
    obtain ⟨ob, h1, h2, _⟩ := key b o' hb
    have := hi.count b ob h1
    have := hr b
    show o'.rc = h.hand b + (p b + _) + _
    omega
  · intro b hb
    have := hi.dead b (keyn b hb)
    have := hr b
    show h.hand b + (p b + _) + _ = 0
    omega
  · intro b o' hb
    obtain ⟨ob, h1, h2, _⟩ := key b o' hb
    rw [h2]
    exact hi.zero b ob h1
  · exact fun b hb hn => hi.live b hb (keyn b hn)
  · obtain ⟨r, hrr⟩ := hi.acyc
    exact ⟨r, fun b x hh => hrr b x (hl0.holds hh)⟩

theorem freeSlots_spec {rel : Heap T → Nat → Option (Heap T)} {bound : Nat} (hrel : RelSpec L rel bound) (Z : Set Nat) (p : Nat → Nat)
    (a : Nat) (haZ : a ∉ Z) (l : List (String × Nat)) (h : Heap T) (hi : OInv L (insert a Z) p h) (hb : alive (insert a Z) h < bound) (o : Obj T)
    (ha : h.obj a = some o) (hl : ∀ x ∈ l, x.1 ∈ L.released o.ty) :
    ∃ h', freeSlots rel a l h = some h' ∧ OInv L (insert a Z) p h' ∧ Less L Z h h' ∧
      ∃ o', h'.obj a = some o' ∧ o'.ty = o.ty ∧ o'.size = o.size ∧ o'.rc = o.rc ∧
        ∀ f i, o'.field f i = if (f, i) ∈ l then none else o.field f i := by
  induction l generalizing h o with
  | nil => exact ⟨h, rfl, hi, Less.rfl, o, ha, rfl, rfl, rfl, fun f i => by rw [if_neg List.not_mem_nil]⟩
  | cons x rest ih =>
    obtain ⟨f, i⟩ := x
    unfold freeSlots
    rw [ha]
    cases hv : o.field f i with
    | none =>
      obtain ⟨h', h1, h2, h3, o', h4, h5, h6, h7, h8⟩ := ih h hi hb o ha fun y hy => hl y (List.mem_cons_of_mem _ hy)
      refine ⟨h', by simpa only [hv] using h1, h2, h3, o', h4, h5, h6, h7, fun g j => ?_⟩
      rw [h8]
      by_cases hm : (g, j) ∈ rest
      · rw [if_pos hm, if_pos (List.mem_cons_of_mem _ hm)]
      · rw [if_neg hm]
        by_cases e : (g, j) = (f, i)
        · cases e
          rw [if_pos List.mem_cons_self, hv]
        · rw [if_neg]
          intro hc
          rcases List.mem_cons.mp hc with hc | hc
          · exact e hc
          · exact hm hc
    | some c =>
      have hf := hl (f, i) List.mem_cons_self
      obtain ⟨t1, t2⟩ := hi.take ha hf hv
      have tl : alive (insert a Z) (h.setObj a (some (o.setField f i none))) < bound := by
        exact lt_of_le_of_lt (alive_mono (h := h) (insert a Z) rfl (t2 ∅ fun e => e).none) hb
      obtain ⟨h1, r1, r2, r3⟩ := hrel (insert a Z) p _ c t1 tl
      have ha1 : h1.obj a = some (o.setField f i none) := by
        rw [r3.same a (Set.mem_insert _ _)]
        exact Function.update_self ..
      obtain ⟨h', q1, q2, q3, o', q4, q5, q6, q7, q8⟩ := ih h1 r2 (lt_of_le_of_lt r3.alive_le tl) _ ha1
        fun y hy => hl y (List.mem_cons_of_mem _ hy)
      refine ⟨h', ?_, q2, ((t2 Z haZ).trans (r3.mono (Set.subset_insert _ _))).trans q3, o', q4, q5, q6, q7, fun g j => ?_⟩
      · simp only [hv, r1, Option.bind_some, q1]
      · rw [q8, setField_field]
        by_cases hm : (g, j) ∈ rest
        · rw [if_pos hm, if_pos (List.mem_cons_of_mem _ hm)]
        · rw [if_neg hm]
          by_cases e : g = f ∧ j = i
          · obtain ⟨rfl, rfl⟩ := e
            rw [if_pos ⟨rfl, rfl⟩, if_pos List.mem_cons_self]
          · rw [if_neg e, if_neg]
            intro hc
            rcases List.mem_cons.mp hc with hc | hc
            · exact e (Prod.mk.injEq .. ▸ hc)
            · exact hm hc

theorem mem_slots {o : Obj T} {f : String} {i : Nat} : (f, i) ∈ L.slots o ↔ f ∈ L.released o.ty ∧ i < o.size := by
  unfold Layout.slots
  rw [List.mem_flatMap]
  constructor
  · rintro ⟨g, hg, hx⟩
    obtain ⟨j, hj, e⟩ := List.mem_map.mp hx
    cases e
    exact ⟨hg, List.mem_range.mp hj⟩
  · rintro ⟨hf, hi⟩
    exact ⟨f, hf, List.mem_map.mpr ⟨i, List.mem_range.mpr hi, rfl⟩⟩

/-- changing a count -/
theorem OInv.setRc {Z Z' : Set Nat} {p p' : Nat → Nat} {h : Heap T} (hi : OInv L Z p h) {a : Nat} {o : Obj T} (ha : h.obj a = some o)
    {r : Nat} (hr : r = h.hand a + p' a + refs L h a) (hp : ∀ b, b ≠ a → p' b = p b) (hz : r = 0 ↔ a ∈ Z') (hzz : ∀ b, b ≠ a → (b ∈ Z' ↔ b ∈ Z)) :
    OInv L Z' p' (h.setObj a (some (o.setRc r))) ∧ Less L (Z \ {a}) h (h.setObj a (some (o.setRc r))) := by
  have hlt := hi.lt ha
  have hrefs : ∀ x, refs L (h.setObj a (some (o.setRc r))) x = refs L h x := by
    intro x
    have h1 := setObj_refs (L := L) hlt (some (o.setRc r)) x
    rw [ha] at h1
    simp only [Option.elim_some, setRc_refsOf] at h1
    omega
  have hs : (h.setObj a (some (o.setRc r))).obj a = some (o.setRc r) := Function.update_self ..
  have hne : ∀ b, b ≠ a → (h.setObj a (some (o.setRc r))).obj b = h.obj b := fun b hb => Function.update_of_ne hb _ _
  have hless : Less L (Z \ {a}) h (h.setObj a (some (o.setRc r))) := by
    refine ⟨rfl, rfl, fun z hz => hne z hz.2, fun b hb => ?_, fun b o' hb => ?_⟩
    · rw [hne b (fun e => by rw [e, ha] at hb; cases hb)]
      exact hb
    · by_cases e : b = a
      · subst e
        rw [hs] at hb
        cases hb
        exact ⟨o, ha, rfl, rfl, fun _ _ _ hx => hx⟩
      · rw [hne b e] at hb
        exact ⟨o', hb, rfl, rfl, fun _ _ _ hx => hx⟩
  refine ⟨?_, hless⟩
  constructor
  · exact fun b hb => hless.none b (hi.fresh b hb)
  · intro b o' hb
    obtain ⟨ob, h1, h2, _⟩ := hless.sub b o' hb
    exact h2 ▸ hi.sound b ob h1
  · intro b o' g j x hb hx
    obtain ⟨ob, h1, _, h3, h4⟩ := hless.sub b o' hb
    exact h3 ▸ hi.idx b ob g j x h1 (h4 g j x hx)
  · intro b o' hb
    rw [hrefs]
    by_cases e : b = a
    · subst e
      rw [hs] at hb
      cases hb
      exact hr
    · rw [hne b e] at hb
      rw [hp b e]
      exact hi.count b o' hb
  · intro b hb
    rw [hrefs]
    by_cases e : b = a
    · subst e
      rw [hs] at hb
      cases hb
    · rw [hne b e] at hb
      rw [hp b e]
      exact hi.dead b hb
  · intro b o' hb
    by_cases e : b = a
    · subst e
      rw [hs] at hb
      cases hb
      exact hz
    · rw [hne b e] at hb
      rw [hzz b e]
      exact hi.zero b o' hb
  · intro b hb
    by_cases e : b = a
    · subst e
      rw [hs]
      exact fun hc => by cases hc
    · rw [hne b e]
      exact hi.live b ((hzz b e).mp hb)
  · obtain ⟨q, hq⟩ := hi.acyc
    exact ⟨q, fun b x hh => hq b x (hless.holds hh)⟩

/-- an object without fields which own something, being freed, disappears -/
theorem OInv.erase {Z : Set Nat} {p : Nat → Nat} {h : Heap T} {a : Nat} (hi : OInv L (insert a Z) p h) (haZ : a ∉ Z) {o : Obj T}
    (ha : h.obj a = some o) (hf : ∀ f i, L.Owns o.ty f → o.field f i = none) :
    OInv L Z p (h.setObj a none) ∧ Less L Z h (h.setObj a none) := by
  have hlt := hi.lt ha
  have hsd := hi.sound a o ha
  have hrefs : ∀ x, refs L (h.setObj a none) x = refs L h x := by
    intro x
    have h1 := setObj_refs (L := L) hlt none x
    rw [ha] at h1
    have h2 : refsOf L o x = 0 := refsOf_eq_zero fun f hff i _ hv => by
      rw [hf f i ((hsd.1 f).mpr hff)] at hv
      cases hv
    simp only [Option.elim_some, Option.elim_none] at h1
    omega
  have hs : (h.setObj a none).obj a = none := Function.update_self ..
  have hne : ∀ b, b ≠ a → (h.setObj a none).obj b = h.obj b := fun b hb => Function.update_of_ne hb _ _
  have hsome : ∀ b o', (h.setObj a none).obj b = some o' → b ≠ a ∧ h.obj b = some o' := by
    intro b o' hb
    have e : b ≠ a := fun e => by
      subst e
      rw [hs] at hb
      cases hb
    exact ⟨e, hne b e ▸ hb⟩
  have hless : Less L Z h (h.setObj a none) := by
    refine ⟨rfl, rfl, fun z hz => hne z (fun e => haZ (e ▸ hz)), fun b hb => ?_, fun b o' hb => ?_⟩
    · by_cases e : b = a
      · rw [e, hs]
      · rw [hne b e, hb]
    · exact ⟨o', (hsome b o' hb).2, rfl, rfl, fun _ _ _ hx => hx⟩
  refine ⟨?_, hless⟩
  constructor
  · exact fun b hb => hless.none b (hi.fresh b hb)
  · exact fun b o' hb => hi.sound b o' (hsome b o' hb).2
  · exact fun b o' g j x hb hx => hi.idx b o' g j x (hsome b o' hb).2 hx
  · intro b o' hb
    rw [hrefs]
    exact hi.count b o' (hsome b o' hb).2
  · intro b hb
    rw [hrefs]
    by_cases e : b = a
    · subst e
      have h1 := hi.count b o ha
      have h2 := (hi.zero b o ha).mpr (Set.mem_insert _ _)
      show h.hand b + p b + refs L h b = 0
      omega
    · rw [hne b e] at hb
      exact hi.dead b hb
  · intro b o' hb
    obtain ⟨e, hb'⟩ := hsome b o' hb
    rw [hi.zero b o' hb', Set.mem_insert_iff]
    exact ⟨fun hh => hh.resolve_left e, Or.inr⟩
  · intro b hb
    rw [hne b (fun e => haZ (e ▸ hb))]
    exact hi.live b (Set.mem_insert_of_mem _ hb)
  · obtain ⟨q, hq⟩ := hi.acyc
    exact ⟨q, fun b x hh => hq b x (hless.holds hh)⟩

theorem releaseF_spec (fuel : Nat) : RelSpec L (releaseF L fuel) fuel := by
  induction fuel with
  | zero => exact fun _ _ _ _ _ hb => absurd hb (Nat.not_lt_zero _)
  | succ fuel ih =>
    intro Z p h a hi hb
    cases ha : h.obj a with
    | none =>
      have := hi.dead a ha
      unfold plus at this
      rw [if_pos rfl] at this
      omega
    | some o =>
      have hc := hi.count a o ha
      have hpa : plus p a a = p a + 1 := by unfold plus; rw [if_pos rfl]
      have hpb : ∀ b, b ≠ a → p b = plus p a b := fun b e => by unfold plus; rw [if_neg e]; rfl
      rw [hpa] at hc
      have haZ : a ∉ Z := fun hz => by have := (hi.zero a o ha).mpr hz; omega
      unfold releaseF
      rw [ha]
      match hrc : o.rc with
      | 0 => omega
      | 1 =>
        have hz' : ∀ b, b ≠ a → (b ∈ insert a Z ↔ b ∈ Z) := fun b e => by
          rw [Set.mem_insert_iff]
          exact ⟨fun hh => hh.resolve_left e, Or.inr⟩
        obtain ⟨i1, l1⟩ := hi.setRc (r := 0) (p' := p) (Z' := insert a Z) ha (by omega) hpb (by simp) hz'
        have hlt : alive (insert a Z) (h.setObj a (some (o.setRc 0))) < fuel := by
          have := alive_lt (Z := Z) (Z' := insert a Z) (h := h) (h' := h.setObj a (some (o.setRc 0))) (a := a) rfl l1.none
            (by rw [ha]; exact fun e => by cases e) (hi.lt ha) haZ (Set.mem_insert _ _) (Set.subset_insert _ _)
          omega
        have hs : (h.setObj a (some (o.setRc 0))).obj a = some (o.setRc 0) := Function.update_self ..
        obtain ⟨h', f1, f2, f3, o', f4, f5, f6, f7, f8⟩ := freeSlots_spec ih Z p a haZ (L.slots o) _ i1 hlt _ hs
          fun x hx => (mem_slots.mp hx).1
        have hsd := i1.sound a _ hs
        obtain ⟨e1, e2⟩ := f2.erase haZ f4 (fun f i ho => by
          rw [f5] at ho
          rw [f8]
          split
          · rfl
          · next hn =>
            cases hv : o.field f i with
            | none => exact hv
            | some c =>
              refine absurd (mem_slots.mpr ⟨(hsd.1 f).mp ho, hi.idx a o f i c ha hv⟩) hn)
        refine ⟨h'.setObj a none, ?_, e1, ?_⟩
        · simp only [hrc, f1, Option.map_some]
        · have hzd : Z ⊆ Z \ {a} := fun z hz => ⟨hz, fun e => haZ (e ▸ hz)⟩
          exact ((l1.mono hzd).trans f3).trans e2
      | r + 2 =>
        obtain ⟨i1, l1⟩ := hi.setRc (r := r + 1) (p' := p) (Z' := Z) ha (by omega) hpb
          ⟨fun e => by omega, fun e => absurd e haZ⟩ fun _ _ => Iff.rfl
        have hzd : Z ⊆ Z \ {a} := fun z hz => ⟨hz, fun e => haZ (e ▸ hz)⟩
        exact ⟨_, by simp only [hrc], i1, l1.mono hzd⟩

end Sleqp
