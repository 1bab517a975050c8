import Verif.Spec.MexOptions
import Verif.Props.Settings
import Mathlib.Algebra.Order.Floor.Ring
import Mathlib.Tactic.Linarith
import Mathlib.Tactic.Positivity

/-! C95: options given in MATLAB. -/

namespace Sleqp

/-- the value of an option, converted -/
def optVal {α : Type*} (opts : MexOpts) (conv : Ext ℚ → MexRes α) (name : List Char) : MexRes (Option α) :=
  (mexOptionEntry opts name).bind fun
    | none => .ok none
    | some x => (conv x).bind fun a => .ok (some a)

/-- one of the arrays of the settings -/
structure SetPart (n : Nat) (α : Type) where
  get : Settings → Fin n → α
  put : Settings → (Fin n → α) → Settings
  get_put : ∀ s f, get (put s f) = f
  put_put : ∀ s f g, put (put s f) g = put s g
  put_get : ∀ s, put s (get s) = s

theorem mexReadValues_iff {n : Nat} {α : Type} (P : SetPart n α) (opts : MexOpts) (conv : Fin n → Ext ℚ → MexRes α)
    (set : Settings → Fin n → Ext ℚ → MexRes Settings)
    (hset : ∀ s i x, set s i x = (conv i x).bind fun a => .ok (P.put s (arrSet (P.get s) i a))) :
    ∀ (L : List (List Char × Fin n)), (L.map Prod.snd).Nodup → ∀ (s s' : Settings),
    mexReadValues opts set L s = .ok s' ↔ ∃ f, s' = P.put s f ∧
      (∀ p ∈ L, optVal opts (conv p.2) p.1 = .ok (some (f p.2)) ∨ optVal opts (conv p.2) p.1 = .ok none ∧ f p.2 = P.get s p.2) ∧
      ∀ i ∉ L.map Prod.snd, f i = P.get s i := by
  intro L
  induction L with
  | nil =>
    intro _ s s'
    constructor
    · intro h
      cases h
      exact ⟨P.get s, (P.put_get s).symm, fun p hp => by simp at hp, fun _ _ => rfl⟩
    · rintro ⟨f, rfl, _, h⟩
      have : f = P.get s := funext fun i => h i (by simp)
      rw [this, P.put_get]; rfl
  | cons p L ih =>
    obtain ⟨nm, k⟩ := p
    intro hnd s s'
    rw [List.map_cons, List.nodup_cons] at hnd
    have hk : k ∉ L.map Prod.snd := hnd.1
    have hstep : mexReadValues opts set ((nm, k) :: L) s = (optVal opts (conv k) nm).bind fun
        | none => mexReadValues opts set L s
        | some a => mexReadValues opts set L (P.put s (arrSet (P.get s) k a)) := by
      show ((mexOptionEntry opts nm).bind fun
        | none => mexReadValues opts set L s
        | some x => (set s k x).bind fun s' => mexReadValues opts set L s') = _
      unfold optVal
      rcases mexOptionEntry opts nm with o | _ | _
      · rcases o with _ | x
        · rfl
        · show (set s k x).bind (fun s' => mexReadValues opts set L s') =
            ((conv k x).bind fun a => MexRes.ok (some a)).bind _
          rw [hset]
          rcases conv k x with a | _ | _ <;> rfl
      · rfl
      · rfl
    rw [hstep]
    rcases ho : optVal opts (conv k) nm with o | _ | _
    · rcases o with _ | a
      · show mexReadValues opts set L s = .ok s' ↔ _
        rw [ih hnd.2]
        constructor
        · rintro ⟨f, h1, h2, h3⟩
          refine ⟨f, h1, fun p hp => ?_, fun i hi => h3 i fun h => hi (by rw [List.map_cons]; exact List.mem_cons_of_mem _ h)⟩
          rcases List.mem_cons.mp hp with rfl | hp
          · exact Or.inr ⟨ho, h3 k hk⟩
          · exact h2 p hp
        · rintro ⟨f, h1, h2, h3⟩
          refine ⟨f, h1, fun p hp => h2 p (List.mem_cons_of_mem _ hp), fun i hi => ?_⟩
          by_cases hik : i = k
          · subst hik
            rcases h2 (nm, i) (by simp) with h | h
            · rw [ho] at h; cases h
            · exact h.2
          · exact h3 i (by rw [List.map_cons, List.mem_cons]; exact fun h => h.elim hik hi)
      · show mexReadValues opts set L (P.put s (arrSet (P.get s) k a)) = .ok s' ↔ _
        rw [ih hnd.2]
        simp only [P.put_put, P.get_put]
        have hne : ∀ p ∈ L, p.2 ≠ k := fun p hp h => hk (h ▸ List.mem_map_of_mem hp)
        constructor
        · rintro ⟨f, h1, h2, h3⟩
          have hfk : f k = a := by rw [h3 k hk]; simp [arrSet]
          refine ⟨f, h1, fun p hp => ?_, fun i hi => ?_⟩
          · rcases List.mem_cons.mp hp with rfl | hp
            · exact Or.inl (by rw [hfk]; exact ho)
            · rcases h2 p hp with h | h
              · exact Or.inl h
              · refine Or.inr ⟨h.1, h.2.trans ?_⟩
                unfold arrSet; rw [if_neg (hne p hp)]
          · rw [List.map_cons, List.mem_cons, not_or] at hi
            rw [h3 i hi.2]
            unfold arrSet; rw [if_neg hi.1]
        · rintro ⟨f, h1, h2, h3⟩
          have hfk : f k = a := by
            rcases h2 (nm, k) (by simp) with h | h
            · rw [show optVal opts (conv k) nm = _ from ho] at h; cases h; rfl
            · rw [show optVal opts (conv k) nm = _ from ho] at h; cases h.1
          refine ⟨f, h1, fun p hp => ?_, fun i hi => ?_⟩
          · rcases h2 p (List.mem_cons_of_mem _ hp) with h | h
            · exact Or.inl h
            · refine Or.inr ⟨h.1, h.2.trans ?_⟩
              unfold arrSet; rw [if_neg (hne p hp)]
          · unfold arrSet
            by_cases hik : i = k
            · rw [if_pos hik, hik, hfk]
            · rw [if_neg hik]
              exact h3 i (by rw [List.map_cons, List.mem_cons]; exact fun h => h.elim hik hi)
    · refine ⟨fun h => (by cases h), ?_⟩
      rintro ⟨f, _, h2, _⟩
      rcases h2 (nm, k) (by simp) with h | h
      · rw [show optVal opts (conv k) nm = _ from ho] at h; cases h
      · rw [show optVal opts (conv k) nm = _ from ho] at h; cases h.1
    · refine ⟨fun h => (by cases h), ?_⟩
      rintro ⟨f, _, h2, _⟩
      rcases h2 (nm, k) (by simp) with h | h
      · rw [show optVal opts (conv k) nm = _ from ho] at h; cases h
      · rw [show optVal opts (conv k) nm = _ from ho] at h; cases h.1

theorem entry_none (opts : MexOpts) (name : List Char) : mexOptionEntry opts name = .ok none ↔ opts name = none := by
  unfold mexOptionEntry
  rcases opts name with _ | a | a
  · simp
  · simp only [reduceCtorEq, iff_false]
    split
    · split
      · rcases a.pr 0 with _ | x <;> intro h <;> cases h
      · intro h; cases h
    · intro h; cases h
  · simp

theorem entry_some (opts : MexOpts) (name : List Char) (x : Ext ℚ) : mexOptionEntry opts name = .ok (some x) ↔ IsNumber (opts name) x := by
  unfold mexOptionEntry IsNumber
  rcases opts name with _ | a | a
  · simp
  · rcases a with ⟨r, c, data⟩ | s | n
    · show (if data.length = 1 then ((MexRes.ofOption data[0]?).bind fun x => MexRes.ok (some x)) else .err) = _ ↔ _
      simp only [Option.some.injEq, MxArray.leaf.injEq, MxLeaf.dense.injEq, reduceCtorEq, false_and, exists_false, or_false]
      match data with
      | [] => simp
      | [y] =>
        show MexRes.ok (some y) = MexRes.ok (some x) ↔ _
        constructor
        · intro h; cases h; exact ⟨r, c, rfl, rfl, rfl⟩
        · rintro ⟨_, _, _, _, h⟩; cases h; rfl
      | _ :: _ :: t => simp
    · show (if s.numRows * s.numCols = 1 then
        ((MexRes.ofOption (if 0 < s.nnz then some (s.val 0) else none)).bind fun x => MexRes.ok (some x)) else .err) = _ ↔ _
      simp only [Option.some.injEq, MxArray.leaf.injEq, reduceCtorEq, exists_false, false_or, MxLeaf.sparse.injEq]
      constructor
      · intro h
        by_cases h1 : s.numRows * s.numCols = 1
        · rw [if_pos h1] at h
          by_cases h2 : 0 < s.nnz
          · rw [if_pos h2] at h
            cases h
            exact ⟨s, rfl, h1, h2, rfl⟩
          · rw [if_neg h2] at h; cases h
        · rw [if_neg h1] at h; cases h
      · rintro ⟨_, rfl, h1, h2, rfl⟩
        rw [if_pos h1, if_pos h2]; rfl
    · simp [MxLeaf.isDouble]
  · simp

theorem optVal_taken {α : Type} (opts : MexOpts) (conv : Ext ℚ → MexRes α) (name : List Char) (rel : Ext ℚ → α → Prop)
    (hrel : ∀ x a, conv x = .ok a ↔ rel x a) (old new : α) :
    (optVal opts conv name = .ok (some new) ∨ optVal opts conv name = .ok none ∧ new = old) ↔ Taken opts name rel old new := by
  unfold Taken
  have h1 := entry_none opts name
  have h2 := entry_some opts name
  unfold optVal
  rcases he : mexOptionEntry opts name with o | _ | _
  · rcases o with _ | x
    · rw [he] at h1 h2
      have hn := h1.mp rfl
      simp only [hn, true_and]
      constructor
      · rintro (h | h)
        · cases h
        · exact Or.inl h.2
      · rintro (h | ⟨x, hx, _⟩)
        · exact Or.inr ⟨rfl, h⟩
        · rw [hn] at h2; have := (h2 x).mpr hx; cases this
    · rw [he] at h1 h2
      have hx := (h2 x).mp rfl
      have hnn : opts name ≠ none := fun h => by have := h1.mpr h; cases this
      simp only [hnn, false_and, false_or]
      show (((conv x).bind fun a => MexRes.ok (some a)) = _ ∨ ((conv x).bind fun a => MexRes.ok (some a)) = _ ∧ _) ↔ _
      constructor
      · rintro (h | h)
        · refine ⟨x, hx, (hrel x new).mp ?_⟩
          rcases hc : conv x with a | _ | _
          · rw [hc] at h; cases h; rfl
          · rw [hc] at h; cases h
          · rw [hc] at h; cases h
        · rcases hc : conv x with a | _ | _ <;> rw [hc] at h <;> cases h.1
      · rintro ⟨y, hy, hr⟩
        have : some x = some y := by
          have := (h2 y).mpr hy
          injection this
        cases this
        rw [(hrel x new).mpr hr]
        exact Or.inl rfl
  · rw [he] at h1 h2
    constructor
    · rintro (h | h)
      · cases h
      · cases h.1
    · rintro (h | ⟨x, hx, _⟩)
      · have := h1.mpr h.1; cases this
      · have := (h2 x).mpr hx; cases this
  · rw [he] at h1 h2
    constructor
    · rintro (h | h)
      · cases h
      · cases h.1
    · rintro (h | ⟨x, hx, _⟩)
      · have := h1.mpr h.1; cases this
      · have := (h2 x).mpr hx; cases this

/-- the real settings -/
def partReal : SetPart 15 (Ext ℚ) := ⟨Settings.reals, fun s f => { s with reals := f }, fun _ _ => rfl, fun _ _ _ => rfl, fun _ => rfl⟩
/-- the Boolean settings -/
def partBool : SetPart 8 Bool := ⟨Settings.bools, fun s f => { s with bools := f }, fun _ _ => rfl, fun _ _ _ => rfl, fun _ => rfl⟩
/-- the integer settings -/
def partInt : SetPart 3 Int := ⟨Settings.ints, fun s f => { s with ints := f }, fun _ _ => rfl, fun _ _ _ => rfl, fun _ => rfl⟩
/-- the enumeration settings -/
def partEnum : SetPart 13 Nat := ⟨Settings.enums, fun s f => { s with enums := f }, fun _ _ => rfl, fun _ _ _ => rfl, fun _ => rfl⟩

theorem cInt_iff (x : Ext ℚ) (z : Int) : cInt x = some z ↔ IsInt x z := by
  unfold cInt IsInt
  rcases x with q | _ | _ | _
  · simp only [Ext.fin.injEq]
    have key : ∀ w : Int, ((if 0 ≤ q then ⌊q⌋ else ⌈q⌉) = w ↔ |(w : ℚ)| ≤ |q| ∧ |q| < |(w : ℚ)| + 1 ∧ 0 ≤ q * w) := by
      intro w
      by_cases hq : 0 ≤ q
      · rw [if_pos hq, Int.floor_eq_iff, abs_of_nonneg hq]
        constructor
        · rintro ⟨h1, h2⟩
          have hw : 0 ≤ w := by
            by_contra hc
            have : w + 1 ≤ 0 := by omega
            have : ((w + 1 : Int) : ℚ) ≤ 0 := by exact_mod_cast this
            push_cast at this
            linarith
          have hw' : (0 : ℚ) ≤ w := by exact_mod_cast hw
          rw [abs_of_nonneg hw']
          exact ⟨h1, h2, mul_nonneg hq hw'⟩
        · rintro ⟨h1, h2, h3⟩
          by_cases hw : (0 : ℚ) ≤ w
          · rw [abs_of_nonneg hw] at h1 h2; exact ⟨h1, h2⟩
          · have hw := not_le.mp hw
            rw [abs_of_neg hw] at h1 h2
            have hq0 : q = 0 := by
              rcases hq.eq_or_lt with h | h
              · exact h.symm
              · have := mul_neg_of_pos_of_neg h hw; linarith
            rw [hq0] at h1
            linarith
      · have hq := not_le.mp hq
        rw [if_neg (not_le.mpr hq), Int.ceil_eq_iff, abs_of_neg hq]
        constructor
        · rintro ⟨h1, h2⟩
          have hw : w ≤ 0 := by
            by_contra hc
            have : 1 ≤ w := by omega
            have : ((1 : Int) : ℚ) ≤ w := by exact_mod_cast this
            push_cast at this
            linarith
          have hw' : (w : ℚ) ≤ 0 := by exact_mod_cast hw
          rw [abs_of_nonpos hw']
          exact ⟨by linarith, by linarith, mul_nonneg_of_nonpos_of_nonpos hq.le hw'⟩
        · rintro ⟨h1, h2, h3⟩
          by_cases hw : (w : ℚ) ≤ 0
          · rw [abs_of_nonpos hw] at h1 h2; exact ⟨by linarith, by linarith⟩
          · have hw := not_le.mp hw
            have := mul_neg_of_neg_of_pos hq hw
            linarith
    generalize (if 0 ≤ q then ⌊q⌋ else ⌈q⌉) = t at key ⊢
    constructor
    · intro h
      by_cases hb : -2 ^ 31 ≤ t ∧ t < 2 ^ 31
      · rw [if_pos hb] at h
        cases h
        obtain ⟨a1, a2, a3⟩ := (key z).mp rfl
        exact ⟨q, rfl, a1, a2, a3, hb.1, hb.2⟩
      · rw [if_neg hb] at h; cases h
    · rintro ⟨_, rfl, a1, a2, a3, a4, a5⟩
      rw [(key z).mpr ⟨a1, a2, a3⟩, if_pos ⟨a4, a5⟩]
  · simp
  · simp
  · simp

theorem mexSetReal_eq (s : Settings) (i : Fin 15) (x : Ext ℚ) :
    mexSetReal s i x = (MexRes.ok x).bind fun a => .ok (partReal.put s (arrSet (partReal.get s) i a)) := by
  unfold mexSetReal Settings.setReal
  rw [optIdx_val]; rfl

theorem mexSetBool_eq (s : Settings) (i : Fin 8) (x : Ext ℚ) :
    mexSetBool s i x = (MexRes.ok (decide (x ≠ .fin 0))).bind fun a => .ok (partBool.put s (arrSet (partBool.get s) i a)) := by
  unfold mexSetBool Settings.setBool
  rw [optIdx_val]; rfl

theorem mexSetInt_eq (s : Settings) (i : Fin 3) (x : Ext ℚ) :
    mexSetInt s i x = (MexRes.ofOption (cInt x)).bind fun a => .ok (partInt.put s (arrSet (partInt.get s) i a)) := by
  unfold mexSetInt
  congr 1
  funext z
  unfold Settings.setInt
  rw [optIdx_val]; rfl

/-- conversion and check of an enumeration value -/
def convEnum (i : Fin 13) (x : Ext ℚ) : MexRes Nat :=
  (MexRes.ofOption (cInt x)).bind fun z => if validMember i (cBits z) then .ok (cBits z) else .err

theorem mexSetEnum_eq (s : Settings) (i : Fin 13) (x : Ext ℚ) :
    mexSetEnum s i x = (convEnum i x).bind fun a => .ok (partEnum.put s (arrSet (partEnum.get s) i a)) := by
  unfold mexSetEnum convEnum
  rcases cInt x with _ | z
  · rfl
  · show mexOfSetter (s.setEnum i.val (cBits z)) = (if validMember i (cBits z) then MexRes.ok (cBits z) else .err).bind _
    unfold Settings.setEnum
    rw [optIdx_val]
    by_cases h : validMember i (cBits z) = true
    · simp only [h, if_true]; rfl
    · simp only [h]; rfl

theorem convEnum_iff (i : Fin 13) (hi : i ≠ 3 ∧ i ≠ 4) (x : Ext ℚ) (v : Nat) :
    convEnum i x = .ok v ↔ IsInt x v ∧ LegalEnum i v := by
  have hlt : ∀ v, LegalEnum i v → v < 2 ^ 31 := by
    intro v hv
    unfold LegalEnum at hv
    match i, hi with
    | 0, _ | 1, _ | 2, _ | 5, _ | 6, _ | 7, _ | 8, _ | 9, _ | 10, _ | 11, _ | 12, _ => simp at hv; omega
    | 3, h => exact absurd rfl h.1
    | 4, h => exact absurd rfl h.2
  unfold convEnum
  constructor
  · intro h
    rcases hx : cInt x with _ | z
    · rw [hx] at h; cases h
    · rw [hx] at h
      change (if validMember i (cBits z) then MexRes.ok (cBits z) else .err) = _ at h
      split at h
      · rename_i hv
        cases h
        have hl := (validMember_iff i _).mp hv
        have hint := (cInt_iff x z).mp hx
        have h31 := hlt _ hl
        have hz : ((cBits z : Nat) : Int) = z := by
          obtain ⟨q, _, _, _, _, b1, b2⟩ := hint
          unfold cBits at h31 ⊢
          omega
        exact ⟨by rw [hz]; exact hint, hl⟩
      · cases h
  · rintro ⟨h1, h2⟩
    rw [(cInt_iff x v).mpr h1]
    show (if validMember i (cBits v) then MexRes.ok (cBits v) else .err) = _
    have hv := hlt v h2
    have : cBits (v : Int) = v := by unfold cBits; omega
    rw [this, if_pos ((validMember_iff i v).mpr h2)]

/-- C95: options are accepted exactly if every one of the known options which is given is a single number of class double, the integer ones
representable, the enumeration ones denoting a legal value; then every given option determines its setting and no other setting changes (there are no
options for three of them). -/
theorem C95_options_partial (opts : MexOpts) (s s' : Settings) :
    mexReadOptions opts s = .ok s' ↔
      (∀ i : Fin 15, Taken opts (mexNameReal i) (fun x v => v = x) (s.reals i) (s'.reals i)) ∧
      (∀ i : Fin 8, i ≠ 7 → Taken opts (boolName i) (fun x v => v = true ↔ x ≠ .fin 0) (s.bools i) (s'.bools i)) ∧
      (∀ i : Fin 3, Taken opts (intName i) IsInt (s.ints i) (s'.ints i)) ∧
      (∀ i : Fin 13, i ≠ 3 ∧ i ≠ 4 → Taken opts (mexNameEnum i) (fun x (v : Nat) => IsInt x v ∧ LegalEnum i v) (s.enums i) (s'.enums i)) ∧
      s'.bools 7 = s.bools 7 ∧ s'.enums 3 = s.enums 3 ∧ s'.enums 4 = s.enums 4 := by
  have r1 := mexReadValues_iff partReal opts (fun _ x => .ok x) mexSetReal mexSetReal_eq mexRealTable (by decide +kernel)
  have r2 := mexReadValues_iff partBool opts (fun _ x => .ok (decide (x ≠ .fin 0))) mexSetBool mexSetBool_eq mexBoolTable (by decide +kernel)
  have r3 := mexReadValues_iff partInt opts (fun _ x => MexRes.ofOption (cInt x)) mexSetInt mexSetInt_eq mexIntTable (by decide +kernel)
  have r4 := mexReadValues_iff partEnum opts convEnum mexSetEnum mexSetEnum_eq mexEnumTable (by decide +kernel)
  have t1 := fun name old new => optVal_taken opts (fun x => MexRes.ok x) name (fun x v => v = x)
    (fun x a => ⟨fun h => (by cases h; rfl), fun h => (by rw [h])⟩) old new
  have t2 := fun name old new => optVal_taken opts (fun x : Ext ℚ => MexRes.ok (decide (x ≠ .fin 0))) name (fun x v => v = true ↔ x ≠ .fin 0)
    (fun x a => ⟨fun h => (by cases h; exact decide_eq_true_iff), fun h => by
      congr 1
      cases a
      · exact decide_eq_false fun hx => (by have := h.mpr hx; cases this)
      · exact decide_eq_true (h.mp rfl)⟩) old new
  have t3 := fun name old new => optVal_taken opts (fun x => MexRes.ofOption (cInt x)) name IsInt
    (fun x a => by
      rw [← cInt_iff]
      rcases cInt x with _ | z
      · exact ⟨fun h => (by cases h), fun h => (by cases h)⟩
      · exact ⟨fun h => (by cases h; rfl), fun h => (by cases h; rfl)⟩) old new
  have t4 := fun (i : Fin 13) (hi : i ≠ 3 ∧ i ≠ 4) name old new => optVal_taken opts (convEnum i) name (fun x (v : Nat) => IsInt x v ∧ LegalEnum i v)
    (fun x a => convEnum_iff i hi x a) old new
  have m1 : ∀ p ∈ mexRealTable, p.1 = mexNameReal p.2 := by decide +kernel
  have n1 : ∀ i : Fin 15, (mexNameReal i, i) ∈ mexRealTable := by decide +kernel
  have m2 : ∀ p ∈ mexBoolTable, p.1 = boolName p.2 ∧ p.2 ≠ 7 := by decide +kernel
  have n2 : ∀ i : Fin 8, i ≠ 7 → (boolName i, i) ∈ mexBoolTable := by decide +kernel
  have m3 : ∀ p ∈ mexIntTable, p.1 = intName p.2 := by decide +kernel
  have n3 : ∀ i : Fin 3, (intName i, i) ∈ mexIntTable := by decide +kernel
  have m4 : ∀ p ∈ mexEnumTable, p.1 = mexNameEnum p.2 ∧ p.2 ≠ 3 ∧ p.2 ≠ 4 := by decide +kernel
  have n4 : ∀ i : Fin 13, i ≠ 3 ∧ i ≠ 4 → (mexNameEnum i, i) ∈ mexEnumTable := by decide +kernel
  have k1 : ∀ i : Fin 15, i ∉ mexRealTable.map Prod.snd → False := by decide +kernel
  have k2 : ∀ i : Fin 8, i ∉ mexBoolTable.map Prod.snd ↔ i = 7 := by decide +kernel
  have k3 : ∀ i : Fin 3, i ∉ mexIntTable.map Prod.snd → False := by decide +kernel
  have k4 : ∀ i : Fin 13, i ∉ mexEnumTable.map Prod.snd ↔ i = 3 ∨ i = 4 := by decide +kernel
  constructor
  · intro h
    unfold mexReadOptions at h
    rcases e1 : mexReadValues opts mexSetReal mexRealTable s with s1 | _ | _
    · rw [e1] at h
      change (mexReadValues opts mexSetBool mexBoolTable s1).bind _ = _ at h
      rcases e2 : mexReadValues opts mexSetBool mexBoolTable s1 with s2 | _ | _
      · rw [e2] at h
        change (mexReadValues opts mexSetInt mexIntTable s2).bind _ = _ at h
        rcases e3 : mexReadValues opts mexSetInt mexIntTable s2 with s3 | _ | _
        · rw [e3] at h
          change mexReadValues opts mexSetEnum mexEnumTable s3 = _ at h
          obtain ⟨f1, rfl, a1, b1⟩ := (r1 _ _).mp e1
          obtain ⟨f2, rfl, a2, b2⟩ := (r2 _ _).mp e2
          obtain ⟨f3, rfl, a3, b3⟩ := (r3 _ _).mp e3
          obtain ⟨f4, rfl, a4, b4⟩ := (r4 _ _).mp h
          refine ⟨fun i => (t1 _ _ _).mp (a1 _ (n1 i)), fun i hi => (t2 _ _ _).mp (a2 _ (n2 i hi)), fun i => (t3 _ _ _).mp (a3 _ (n3 i)),
            fun i hi => (t4 i hi _ _ _).mp (a4 _ (n4 i hi)), b2 7 ((k2 7).mpr rfl), b4 3 ((k4 3).mpr (Or.inl rfl)),
            b4 4 ((k4 4).mpr (Or.inr rfl))⟩
        · rw [e3] at h; cases h
        · rw [e3] at h; cases h
      · rw [e2] at h; cases h
      · rw [e2] at h; cases h
    · rw [e1] at h; cases h
    · rw [e1] at h; cases h
  · rintro ⟨h1, h2, h3, h4, h5, h6, h7⟩
    unfold mexReadOptions
    rw [(r1 s (partReal.put s s'.reals)).mpr ⟨s'.reals, rfl, fun p hp => by
      have := (t1 p.1 (s.reals p.2) (s'.reals p.2)).mpr (by rw [m1 p hp]; exact h1 p.2)
      exact this, fun i hi => (k1 i hi).elim⟩]
    show (mexReadValues opts mexSetBool mexBoolTable (partReal.put s s'.reals)).bind _ = _
    rw [(r2 (partReal.put s s'.reals) (partBool.put (partReal.put s s'.reals) s'.bools)).mpr ⟨s'.bools, rfl, fun p hp => by
      have := (t2 p.1 (s.bools p.2) (s'.bools p.2)).mpr (by rw [(m2 p hp).1]; exact h2 p.2 (m2 p hp).2)
      exact this, fun i hi => by rw [(k2 i).mp hi]; exact h5⟩]
    show (mexReadValues opts mexSetInt mexIntTable (partBool.put (partReal.put s s'.reals) s'.bools)).bind _ = _
    rw [(r3 (partBool.put (partReal.put s s'.reals) s'.bools) (partInt.put (partBool.put (partReal.put s s'.reals) s'.bools) s'.ints)).mpr
      ⟨s'.ints, rfl, fun p hp => by
      have := (t3 p.1 (s.ints p.2) (s'.ints p.2)).mpr (by rw [m3 p hp]; exact h3 p.2)
      exact this, fun i hi => (k3 i hi).elim⟩]
    show mexReadValues opts mexSetEnum mexEnumTable (partInt.put (partBool.put (partReal.put s s'.reals) s'.bools) s'.ints) = _
    rw [(r4 (partInt.put (partBool.put (partReal.put s s'.reals) s'.bools) s'.ints) s').mpr
      ⟨s'.enums, rfl, fun p hp => by
      have := (t4 p.2 (m4 p hp).2 p.1 (s.enums p.2) (s'.enums p.2)).mpr (by rw [(m4 p hp).1]; exact h4 p.2 (m4 p hp).2)
      exact this, fun i hi => by
        rcases (k4 i).mp hi with rfl | rfl
        · exact h6
        · exact h7⟩]

/-- options with a single entry -/
def oneOption (name : List Char) (a : MxArray (Ext ℚ)) : MexOpts := fun n => if n = name then some a else none

/-- C95 is violated: there is no option by which solving a linear program again after a failure can be switched off, as in settings files and from
Python; an option of that name is accepted and has no effect. -/
theorem C95_resolves_violated (af ef : Nat) :
    mexReadOptions (oneOption "lp_resolves".toList (.leaf (.dense 1 1 [.fin 0]))) (settingsCreate af ef) = .ok (settingsCreate af ef) ∧
      (settingsCreate af ef).bools 7 = true ∧ boolName 7 = "lp_resolves".toList := by
  refine ⟨?_, rfl, rfl⟩
  rw [C95_options_partial]
  have hn : ∀ name, name ≠ "lp_resolves".toList → oneOption "lp_resolves".toList (.leaf (.dense 1 1 [.fin 0])) name = none :=
    fun name h => if_neg h
  have d1 : ∀ i, mexNameReal i ≠ "lp_resolves".toList := by decide +kernel
  have d2 : ∀ i, i ≠ 7 → boolName i ≠ "lp_resolves".toList := by decide +kernel
  have d3 : ∀ i, intName i ≠ "lp_resolves".toList := by decide +kernel
  have d4 : ∀ i, mexNameEnum i ≠ "lp_resolves".toList := by decide +kernel
  exact ⟨fun i => Or.inl ⟨hn _ (d1 i), rfl⟩, fun i hi => Or.inl ⟨hn _ (d2 i hi), rfl⟩, fun i => Or.inl ⟨hn _ (d3 i), rfl⟩,
    fun i _ => Or.inl ⟨hn _ (d4 i), rfl⟩, rfl, rfl, rfl⟩

/-- C95 is violated: a Boolean option given as a logical value of MATLAB (`true`) instead of a number is refused. -/
theorem C95_logical_violated (opts : MexOpts) (n : Nat) (i : Fin 8) (hi : i ≠ 7) (h : opts (boolName i) = some (.leaf (.other n)))
    (s s' : Settings) : mexReadOptions opts s ≠ .ok s' := by
  intro hc
  rcases ((C95_options_partial opts s s').mp hc).2.1 i hi with ⟨h1, _⟩ | ⟨x, hx, _⟩
  · rw [h] at h1; cases h1
  · rw [h] at hx
    rcases hx with ⟨_, _, hx⟩ | ⟨_, hx, _⟩
    · cases hx
    · cases hx

/-- C95 is violated: an integer option which is not a number is not refused, but converted, which is undefined; so is one too large for a 32 bit number. -/
theorem C95_range_violated (s : Settings) :
    mexReadOptions (oneOption "num_threads".toList (.leaf (.dense 1 1 [.nan]))) s = .undef ∧
      mexReadOptions (oneOption "num_threads".toList (.leaf (.dense 1 1 [.fin 2147483648]))) s = .undef := by
  constructor <;> rfl

/-- values of several options: a real one, a Boolean one, an integral one (with a fractional part) and one of an enumeration -/
def exOptions : MexOpts := fun n =>
  if n = "deriv_pert".toList then some (.leaf (.dense 1 1 [.fin (1 / 10)]))
  else if n = "perform_soc".toList then some (.leaf (.dense 1 1 [.fin 0]))
  else if n = "num_threads".toList then some (.leaf (.dense 1 1 [.fin (7 / 2)]))
  else if n = "hess_eval".toList then some (.leaf (.dense 1 1 [.fin 1]))
  else none

/-- the hypothesis of the theorem for concrete options, and the settings they give -/
example : (match mexReadOptions exOptions (settingsCreate 0 0) with
    | .ok s => decide (s.reals 3 = .fin (1 / 10) ∧ s.bools 2 = false ∧ s.ints 2 = 3 ∧ s.enums 1 = 1 ∧ s.bools 0 = true)
    | _ => false) = true := by decide +kernel

/-- an illegal value of an enumeration is refused -/
example : mexReadOptions (oneOption "hess_eval".toList (.leaf (.dense 1 1 [.fin 77]))) (settingsCreate 0 0) = .err := rfl

end Sleqp
