import Mathlib.Data.Finset.Max
import Verif.Lemmas.Own

/-!
The steps of programs with reference counted objects keep the invariant.
-/

namespace Sleqp
variable {T : Type*} {L : Layout T}
open Finset

theorem OInv.empty : OInv L ∅ (fun _ => 0) (Heap.empty : Heap T) := by
  refine ⟨fun _ _ => rfl, fun _ _ h => (by cases h), fun _ _ _ _ _ h => (by cases h), fun _ _ h => (by cases h), fun _ _ => rfl,
    fun _ _ h => (by cases h), fun _ h => h.elim, fun _ => 0, fun b a h => ?_⟩
  obtain ⟨o, f, i, h1, _⟩ := h
  cases h1

theorem OInv.setHand {Z : Set Nat} {p p' : Nat → Nat} {h : Heap T} (hi : OInv L Z p h) (a k : Nat)
    (ha : k + p' a = h.hand a + p a) (hb : ∀ b, b ≠ a → p' b = p b) : OInv L Z p' (h.setHand a k) := by
  have hh : ∀ x, (h.setHand a k).hand x + p' x = h.hand x + p x := by
    intro x
    show Function.update h.hand a k x + p' x = _
    by_cases e : x = a
    · subst e
      rw [Function.update_self]
      exact ha
    · rw [Function.update_of_ne e, hb x e]
  refine ⟨hi.fresh, hi.sound, hi.idx, fun x o hx => ?_, fun x hx => ?_, hi.zero, hi.live, hi.acyc⟩
  · have := hi.count x o hx
    rw [hh]
    exact this
  · have := hi.dead x hx
    rw [hh]
    exact this

theorem leads_setHand {h : Heap T} {a k b c : Nat} (hh : (h.setHand a k).Leads L b c) : h.Leads L b c := by
  induction hh with
  | refl => exact .refl _
  | step s _ ih => exact .step s ih

theorem leads_trans {h : Heap T} {a b c : Nat} (h1 : h.Leads L a b) (h2 : h.Leads L b c) : h.Leads L a c := by
  induction h1 with
  | refl => exact h2
  | step s _ ih => exact .step s (ih h2)

/-- putting a reference into an empty field -/
theorem OInv.put {Z : Set Nat} {p : Nat → Nat} {h : Heap T} {a b : Nat} (hi : OInv L Z (plus p a) h) {o : Obj T} {f : String} {i : Nat}
    (hb : h.obj b = some o) (hf : L.Owns o.ty f) (hid : i < o.size) (hv : o.field f i = none) (hl : ¬ h.Leads L a b) :
    OInv L Z p (h.setObj b (some (o.setField f i (some a)))) := by
  have hlt := hi.lt hb
  have hsd := hi.sound b o hb
  have hr : ∀ x, refs L (h.setObj b (some (o.setField f i (some a)))) x = refs L h x + (if x = a then 1 else 0) := by
    intro x
    have h1 := setObj_refs (L := L) hlt (some (o.setField f i (some a))) x
    have h2 := setField_refsOf (L := L) o (some a) ((hsd.1 f).mp hf) hid x
    rw [hb] at h1
    simp only [Option.elim_some] at h1
    rw [hv] at h2
    simp only [Option.some.injEq, reduceCtorEq, if_false] at h2
    have h3 : (if a = x then 1 else 0) = if x = a then 1 else 0 := by
      by_cases e : x = a
      · rw [if_pos e, if_pos e.symm]
      · rw [if_neg e, if_neg (Ne.symm e)]
    omega
  have hs : (h.setObj b (some (o.setField f i (some a)))).obj b = some (o.setField f i (some a)) := Function.update_self ..
  have hne : ∀ c, c ≠ b → (h.setObj b (some (o.setField f i (some a)))).obj c = h.obj c := fun c e => Function.update_of_ne e _ _
  have key : ∀ c o', (h.setObj b (some (o.setField f i (some a)))).obj c = some o' →
      ∃ oc, h.obj c = some oc ∧ o'.ty = oc.ty ∧ o'.size = oc.size ∧ o'.rc = oc.rc ∧
        ∀ g j x, o'.field g j = some x → oc.field g j = some x ∨ c = b ∧ x = a ∧ j = i := by
    intro c o' hc
    by_cases e : c = b
    · subst e
      rw [hs] at hc
      cases hc
      refine ⟨o, hb, rfl, rfl, rfl, fun g j x hx => ?_⟩
      rw [setField_field] at hx
      split at hx
      · next hh => cases hx; exact Or.inr ⟨rfl, rfl, hh.2⟩
      · exact Or.inl hx
    · rw [hne c e] at hc
      exact ⟨o', hc, rfl, rfl, rfl, fun _ _ _ hx => Or.inl hx⟩
  have keyn : ∀ c, (h.setObj b (some (o.setField f i (some a)))).obj c = none → h.obj c = none := by
    intro c hc
    by_cases e : c = b
    · subst e
      rw [hs] at hc
      cases hc
    · rwa [hne c e] at hc
  have hp : ∀ x, plus p a x = p x + if x = a then 1 else 0 := fun _ => rfl
  constructor
  · intro c hc
    rw [hne c]
    · exact hi.fresh c hc
    · intro e
      subst e
      exact absurd hlt (not_lt.mpr hc)
  · intro c o' hc
    obtain ⟨oc, h1, h2, _⟩ := key c o' hc
    exact h2 ▸ hi.sound c oc h1
  · intro c o' g j x hc hx
    obtain ⟨oc, h1, _, h3, _, h4⟩ := key c o' hc
    rw [h3]
    rcases h4 g j x hx with h5 | ⟨rfl, _, rfl⟩
    · exact hi.idx c oc g j x h1 h5
    · rw [hb] at h1
      cases h1
      exact hid
  · intro c o' hc
    obtain ⟨oc, h1, _, _, h3, _⟩ := key c o' hc
    have h4 := hi.count c oc h1
    rw [hp] at h4
    rw [hr, h3, h4]
    show h.hand c + _ + _ = h.hand c + _ + _
    omega
  · intro c hc
    have h4 := hi.dead c (keyn c hc)
    rw [hp] at h4
    rw [hr]
    show h.hand c + _ + _ = 0
    omega
  · intro c o' hc
    obtain ⟨oc, h1, _, _, h3, _⟩ := key c o' hc
    rw [h3]
    exact hi.zero c oc h1
  · exact fun c hc hn => hi.live c hc (keyn c hn)
  · obtain ⟨r, hrr⟩ := hi.acyc
    classical
    refine ⟨fun x => r x + if h.Leads L x b then r a + 1 else 0, fun c x hh => ?_⟩
    obtain ⟨o', g, j, h1, h2, h3⟩ := hh
    obtain ⟨oc, g1, g2, _, _, g4⟩ := key c o' h1
    rcases g4 g j x h3 with h5 | ⟨rfl, rfl, rfl⟩
    · have hold : h.Holds L c x := ⟨oc, g, j, g1, g2 ▸ h2, h5⟩
      have := hrr c x hold
      show r x + _ < r c + _
      by_cases hx : h.Leads L x b
      · rw [if_pos hx, if_pos (.step hold hx)]
        omega
      · rw [if_neg hx]
        omega
    · show r x + _ < r c + _
      rw [if_neg hl, if_pos (.refl c)]
      omega

/-- writing a field which owns nothing -/
theorem OInv.weak {Z : Set Nat} {p : Nat → Nat} {h : Heap T} {b : Nat} (hi : OInv L Z p h) {o : Obj T} {f : String} {i : Nat}
    (hb : h.obj b = some o) (hf : ¬ L.Owns o.ty f) (hid : i < o.size) (v : Nat) :
    OInv L Z p (h.setObj b (some (o.setField f i (some v)))) := by
  have hlt := hi.lt hb
  have hsd := hi.sound b o hb
  have hr : ∀ x, refs L (h.setObj b (some (o.setField f i (some v)))) x = refs L h x := by
    intro x
    have h1 := setObj_refs (L := L) hlt (some (o.setField f i (some v))) x
    have h2 := setField_refsOf_not (L := L) o (i := i) (some v) (fun hh => hf ((hsd.1 f).mpr hh)) x
    rw [hb] at h1
    simp only [Option.elim_some] at h1
    omega
  have hs : (h.setObj b (some (o.setField f i (some v)))).obj b = some (o.setField f i (some v)) := Function.update_self ..
  have hne : ∀ c, c ≠ b → (h.setObj b (some (o.setField f i (some v)))).obj c = h.obj c := fun c e => Function.update_of_ne e _ _
  have key : ∀ c o', (h.setObj b (some (o.setField f i (some v)))).obj c = some o' →
      ∃ oc, h.obj c = some oc ∧ o'.ty = oc.ty ∧ o'.size = oc.size ∧ o'.rc = oc.rc ∧
        ∀ g j x, o'.field g j = some x → oc.field g j = some x ∨ c = b ∧ g = f ∧ j = i := by
    intro c o' hc
    by_cases e : c = b
    · subst e
      rw [hs] at hc
      cases hc
      refine ⟨o, hb, rfl, rfl, rfl, fun g j x hx => ?_⟩
      rw [setField_field] at hx
      split at hx
      · next hh => exact Or.inr ⟨rfl, hh⟩
      · exact Or.inl hx
    · rw [hne c e] at hc
      exact ⟨o', hc, rfl, rfl, rfl, fun _ _ _ hx => Or.inl hx⟩
  have keyn : ∀ c, (h.setObj b (some (o.setField f i (some v)))).obj c = none → h.obj c = none := by
    intro c hc
    by_cases e : c = b
    · subst e
      rw [hs] at hc
      cases hc
    · rwa [hne c e] at hc
  constructor
  · intro c hc
    rw [hne c]
    · exact hi.fresh c hc
    · intro e
      subst e
      exact absurd hlt (not_lt.mpr hc)
  · intro c o' hc
    obtain ⟨oc, h1, h2, _⟩ := key c o' hc
    exact h2 ▸ hi.sound c oc h1
  · intro c o' g j x hc hx
    obtain ⟨oc, h1, _, h3, _, h4⟩ := key c o' hc
    rw [h3]
    rcases h4 g j x hx with h5 | ⟨rfl, _, rfl⟩
    · exact hi.idx c oc g j x h1 h5
    · rw [hb] at h1
      cases h1
      exact hid
  · intro c o' hc
    obtain ⟨oc, h1, _, _, h3, _⟩ := key c o' hc
    rw [hr, h3]
    exact hi.count c oc h1
  · intro c hc
    rw [hr]
    exact hi.dead c (keyn c hc)
  · intro c o' hc
    obtain ⟨oc, h1, _, _, h3, _⟩ := key c o' hc
    rw [h3]
    exact hi.zero c oc h1
  · exact fun c hc hn => hi.live c hc (keyn c hn)
  · obtain ⟨r, hrr⟩ := hi.acyc
    refine ⟨r, fun c x hh => hrr c x ?_⟩
    obtain ⟨o', g, j, h1, h2, h3⟩ := hh
    obtain ⟨oc, g1, g2, _, _, g4⟩ := key c o' h1
    rcases g4 g j x h3 with h5 | ⟨rfl, rfl, _⟩
    · exact ⟨oc, g, j, g1, g2 ▸ h2, h5⟩
    · rw [hb] at g1
      cases g1
      exact absurd (g2 ▸ h2) hf

theorem OInv.alloc {h : Heap T} (hi : OInv L ∅ (fun _ => 0) h) {ty : T} (ht : L.Sound ty) (size : Nat) :
    OInv L ∅ (fun _ => 0) (⟨h.next + 1, Function.update h.obj h.next (some ⟨ty, size, 1, fun _ _ => none⟩),
      Function.update h.hand h.next 1⟩ : Heap T) := by
  have hz : h.obj h.next = none := hi.fresh _ le_rfl
  have hd := hi.dead _ hz
  have hr : ∀ x, refs L (⟨h.next + 1, Function.update h.obj h.next (some ⟨ty, size, 1, fun _ _ => none⟩),
      Function.update h.hand h.next 1⟩ : Heap T) x = refs L h x := by
    intro x
    show (∑ b ∈ range (h.next + 1), (Function.update h.obj h.next (some ⟨ty, size, 1, fun _ _ => none⟩) b).elim 0 (refsOf L · x)) = _
    rw [sum_range_succ, Function.update_self]
    have e1 : refsOf L (⟨ty, size, 1, fun _ _ => none⟩ : Obj T) x = 0 := refsOf_eq_zero fun _ _ _ _ hc => by cases hc
    simp only [Option.elim_some, e1, Nat.add_zero]
    refine sum_congr rfl fun b hb => ?_
    rw [Function.update_of_ne (mem_range.mp hb).ne]
  have key : ∀ c (o' : Obj T), Function.update h.obj h.next (some ⟨ty, size, 1, fun _ _ => none⟩) c = some o' →
      c = h.next ∧ o' = ⟨ty, size, 1, fun _ _ => none⟩ ∨ c ≠ h.next ∧ h.obj c = some o' := by
    intro c o' hc
    by_cases e : c = h.next
    · subst e
      rw [Function.update_self] at hc
      cases hc
      exact Or.inl ⟨rfl, rfl⟩
    · rw [Function.update_of_ne e] at hc
      exact Or.inr ⟨e, hc⟩
  constructor
  · intro c hc
    show Function.update h.obj h.next _ c = none
    have hc' : h.next + 1 ≤ c := hc
    rw [Function.update_of_ne (by omega)]
    exact hi.fresh c (by omega)
  · intro c o' hc
    rcases key c o' hc with ⟨_, rfl⟩ | ⟨_, h1⟩
    · exact ht
    · exact hi.sound c o' h1
  · intro c o' g j x hc hx
    rcases key c o' hc with ⟨_, rfl⟩ | ⟨_, h1⟩
    · cases hx
    · exact hi.idx c o' g j x h1 hx
  · intro c o' hc
    rw [hr]
    show o'.rc = Function.update h.hand h.next 1 c + 0 + _
    rcases key c o' hc with ⟨rfl, rfl⟩ | ⟨e, h1⟩
    · rw [Function.update_self]
      show 1 = _
      omega
    · rw [Function.update_of_ne e]
      exact hi.count c o' h1
  · intro c hc
    rw [hr]
    show Function.update h.hand h.next 1 c + 0 + _ = 0
    by_cases e : c = h.next
    · subst e
      have : Function.update h.obj h.next (some ⟨ty, size, 1, fun _ _ => none⟩) h.next = none := hc
      rw [Function.update_self] at this
      cases this
    · rw [Function.update_of_ne e]
      have : Function.update h.obj h.next (some ⟨ty, size, 1, fun _ _ => none⟩) c = none := hc
      rw [Function.update_of_ne e] at this
      exact hi.dead c this
  · intro c o' hc
    rcases key c o' hc with ⟨_, rfl⟩ | ⟨_, h1⟩
    · exact ⟨fun hh => (by cases hh), fun hh => hh.elim⟩
    · exact hi.zero c o' h1
  · exact fun c hc => hc.elim
  · obtain ⟨r, hrr⟩ := hi.acyc
    refine ⟨r, fun c x hh => ?_⟩
    obtain ⟨o', g, j, h1, h2, h3⟩ := hh
    rcases key c o' h1 with ⟨_, rfl⟩ | ⟨_, h4⟩
    · cases h3
    · exact hrr c x ⟨o', g, j, h4, h2, h3⟩

/-- what callers get at is alive -/
theorem OInv.reach {p : Nat → Nat} {h : Heap T} (hi : OInv L ∅ p h) {a : Nat} (hr : h.Reach L a) : ∃ o, h.obj a = some o ∧ 0 < o.rc := by
  obtain ⟨b, hb, hl⟩ := hr
  have hbo : ∃ o, h.obj b = some o ∧ 0 < o.rc := by
    cases hob : h.obj b with
    | none => have := hi.dead b hob; omega
    | some o => exact ⟨o, rfl, by have := hi.count b o hob; omega⟩
  clear hb
  induction hl with
  | refl => exact hbo
  | step hs _ ih => exact ih (hi.held hs)

theorem ownStep_ok {h : Heap T} (hi : OInv L ∅ (fun _ => 0) h) {op : OwnOp T} (ha : op.Allowed L h) :
    ∃ h', ownStep L h op = some h' ∧ OInv L ∅ (fun _ => 0) h' := by
  cases op with
  | alloc ty size => exact ⟨_, rfl, hi.alloc ha size⟩
  | capture a =>
    obtain ⟨o, ho, hp⟩ := hi.reach ha
    have hc := hi.count a o ho
    obtain ⟨i1, _⟩ := hi.setRc (r := o.rc + 1) (p' := plus (fun _ => 0) a) (Z' := ∅) ho (by
      show _ = _ + (0 + _) + _
      rw [if_pos rfl]
      omega) (fun b e => by show 0 + _ = 0; rw [if_neg e]) ⟨fun e => by omega, fun e => e.elim⟩ fun _ _ => Iff.rfl
    have i2 := i1.setHand (p' := fun _ => 0) a (h.hand a + 1) (by
      show h.hand a + 1 + 0 = h.hand a + (0 + _)
      rw [if_pos rfl]) (fun b e => by show 0 = 0 + _; rw [if_neg e])
    exact ⟨_, by simp only [ownStep, ho], i2⟩
  | release a =>
    have hpos : 0 < h.hand a := ha
    have i1 := hi.setHand (p' := plus (fun _ => 0) a) a (h.hand a - 1) (by
      show h.hand a - 1 + (0 + _) = h.hand a + 0
      rw [if_pos rfl]
      omega) (fun b e => by show 0 + _ = 0; rw [if_neg e])
    obtain ⟨h', r1, r2, _⟩ := releaseF_spec (L := L) (h.next + 1) ∅ _ _ a i1 (Nat.lt_succ_of_le (alive_le ∅ (h.setHand a (h.hand a - 1))))
    exact ⟨h', r1, r2⟩
  | store b f i a =>
    obtain ⟨_, o, ho, hid, hc⟩ := ha
    simp only [ownStep, ho]
    rcases hc with ⟨h1, h2, h3, h4⟩ | ⟨_, h5⟩
    · have i1 := hi.setHand (p' := plus (fun _ => 0) a) a (h.hand a - 1) (by
        show h.hand a - 1 + (0 + _) = h.hand a + 0
        rw [if_pos rfl]
        omega) (fun b e => by show 0 + _ = 0; rw [if_neg e])
      have hl : ¬ (h.setHand a (h.hand a - 1)).Leads L a b := by
        exact fun hh => h4 (leads_setHand hh)
      have i2 := i1.put (o := o) ho h1 hid h3 hl
      refine ⟨_, rfl, ?_⟩
      show OInv L ∅ _ (if (f, true) ∈ L.fields o.ty then _ else _)
      rw [if_pos (show (f, true) ∈ L.fields o.ty from h1)]
      exact i2
    · refine ⟨_, rfl, ?_⟩
      show OInv L ∅ _ (if (f, true) ∈ L.fields o.ty then _ else _)
      rw [if_neg (show (f, true) ∉ L.fields o.ty from h5)]
      exact hi.weak ho h5 hid a
  | clear b f i =>
    obtain ⟨_, o, ho, hf⟩ := ha
    simp only [ownStep, ho]
    cases hv : o.field f i with
    | none => exact ⟨h, by simp only [hv], hi⟩
    | some c =>
      obtain ⟨i1, _⟩ := hi.take ho (((hi.sound b o ho).1 f).mp hf) hv
      obtain ⟨h', r1, r2, _⟩ := releaseF_spec (L := L) (h.next + 1) ∅ _ _ c i1
        (Nat.lt_succ_of_le (alive_le ∅ (h.setObj b (some (o.setField f i none)))))
      exact ⟨h', by simp only [hv]; exact r1, r2⟩
  | use a =>
    obtain ⟨o, ho, _⟩ := hi.reach ha
    exact ⟨h, by simp only [ownStep, ho, Option.map_some], hi⟩

theorem ownRun_ok {ops : List (OwnOp T)} {h : Heap T} (hi : OInv L ∅ (fun _ => 0) h) (ho : Obeys L h ops) :
    ∃ h', ownRun L h ops = some h' ∧ OInv L ∅ (fun _ => 0) h' := by
  induction ops generalizing h with
  | nil => exact ⟨h, rfl, hi⟩
  | cons op ops ih =>
    obtain ⟨h1, s1, i1⟩ := ownStep_ok hi ho.1
    obtain ⟨h', r1, r2⟩ := ih i1 (ho.2 h1 s1)
    exact ⟨h', by unfold ownRun; rw [s1]; exact r1, r2⟩

/-- without references of callers nothing is left -/
theorem OInv.no_leak {h : Heap T} (hi : OInv L ∅ (fun _ => 0) h) (hh : ∀ a, h.hand a = 0) (a : Nat) : h.obj a = none := by
  classical
  by_contra hn
  obtain ⟨r, hr⟩ := hi.acyc
  have hne : ((range h.next).filter fun b => h.obj b ≠ none).Nonempty := ⟨a, mem_filter.mpr ⟨mem_range.mpr (hi.lt' hn), hn⟩⟩
  obtain ⟨m, hm, hmax⟩ := exists_max_image _ r hne
  have hmn := (mem_filter.mp hm).2
  cases ho : h.obj m with
  | none => exact hmn ho
  | some o =>
    have h1 := hi.count m o ho
    have h2 : 0 < o.rc := Nat.pos_of_ne_zero fun e => ((hi.zero m o ho).mp e).elim
    rw [hh m] at h1
    obtain ⟨b, hb⟩ := holds_of_refs_pos hi (a := m) (by omega)
    have h3 := hr b m hb
    obtain ⟨ob, _, _, h4, _⟩ := hb
    have hbn : h.obj b ≠ none := by rw [h4]; exact fun e => by cases e
    have := hmax b (mem_filter.mpr ⟨mem_range.mpr (hi.lt' hbn), hbn⟩)
    omega

end Sleqp
