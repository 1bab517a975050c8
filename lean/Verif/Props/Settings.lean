import Mathlib.Data.List.TakeWhile
import Mathlib.Data.Fintype.Basic
import Mathlib.Tactic.FinCases
import Verif.Spec.Settings

/-!
C39 (settings) and C61 (settings files).
-/

namespace Sleqp

/-! ### lemmas -/

theorem optIdx_some {n : Nat} {key : Int} {k : Fin n} : optIdx n key = some k ↔ key = k.val := by
  unfold optIdx
  split
  · rename_i h
    simp only [Option.some.injEq, Fin.ext_iff]; omega
  · rename_i h
    simp only [reduceCtorEq, false_iff]
    intro e
    exact h ⟨by omega, by have := k.isLt; omega⟩

theorem optIdx_none {n : Nat} {key : Int} : optIdx n key = none ↔ ¬(0 ≤ key ∧ key < n) := by
  unfold optIdx; split <;> simp_all

theorem optIdx_val {n : Nat} (k : Fin n) : optIdx n (k.val : Int) = some k := optIdx_some.2 rfl

theorem enumMember_iff : ∀ (es : List (List Char × Nat)) (v : Nat), enumMember es v = true ↔ v ∈ es.map Prod.snd
  | [], v => by simp [enumMember]
  | e :: es, v => by
    unfold enumMember
    split
    · rename_i h; simp [h]
    · rename_i h
      rw [enumMember_iff es v]
      simp only [List.map_cons, List.mem_cons]
      constructor
      · exact Or.inr
      · rintro (h' | h')
        · exact absurd h'.symm h
        · exact h'

theorem flagsLoop_mem (v : Nat) : ∀ (es : List (List Char × Nat)) (a : Nat),
    flagsLoop v es a ∈ es.foldl (fun acc e => acc ++ acc.map (· ||| e.2)) [a] := by
  have gen : ∀ (es : List (List Char × Nat)) (a : Nat) (acc : List (Nat)), a ∈ acc →
      flagsLoop v es a ∈ es.foldl (fun acc e => acc ++ acc.map (· ||| e.2)) acc := by
    intro es
    induction es with
    | nil => intro a acc h; exact h
    | cons e es ih =>
      intro a acc h
      simp only [flagsLoop, List.foldl_cons]
      apply ih
      split
      · exact List.mem_append_right _ (List.mem_map.2 ⟨a, h, rfl⟩)
      · exact List.mem_append_left _ h
  intro es a
  exact gen es a [a] (List.mem_singleton.2 rfl)

theorem derivCheck_iff (v : Nat) : flagsMember derivCheckEnum.entries v = true ↔ v < 32 := by
  unfold flagsMember
  rw [decide_eq_true_iff, ← List.mem_range]
  constructor
  · intro h
    have := flagsLoop_mem v derivCheckEnum.entries 0
    rw [← h] at this
    revert this
    have hs : ∀ x ∈ derivCheckEnum.entries.foldl (fun acc e => acc ++ acc.map (· ||| e.2)) [0],
        x ∈ (List.range 32) := by decide +kernel
    exact hs v
  · intro h
    have hs : ∀ x ∈ (List.range 32), x = flagsLoop x derivCheckEnum.entries 0 := by decide +kernel
    exact hs v h

theorem cenumMember_iff (e : CEnum) (n : Nat) (v : Nat) (hf : e.flags = false)
    (hl : e.entries.map Prod.snd = (List.range n)) : cenumMember e v = true ↔ v < n := by
  unfold cenumMember
  rw [hf, if_neg (by decide), enumMember_iff, hl, List.mem_range]

theorem validMember_some (i : Fin 13) (e : CEnum) (v : Nat) (he : getEnum i = some e) :
    validMember i v = cenumMember e v := by
  unfold validMember; rw [he]

theorem validMember_iff (i : Fin 13) (v : Nat) : validMember i v = true ↔ LegalEnum i v := by
  match i with
  | 0 => rw [validMember_some 0 derivCheckEnum v rfl]; exact derivCheck_iff v
  | 1 => rw [validMember_some 1 hessEvalEnum v rfl]; exact cenumMember_iff hessEvalEnum 4 v rfl (by decide +kernel)
  | 2 => rw [validMember_some 2 dualEstimationEnum v rfl]; exact cenumMember_iff dualEstimationEnum 3 v rfl (by decide +kernel)
  | 3 => exact ⟨fun _ => trivial, fun _ => rfl⟩
  | 4 => exact ⟨fun _ => trivial, fun _ => rfl⟩
  | 5 => rw [validMember_some 5 bfgsSizingEnum v rfl]; exact cenumMember_iff bfgsSizingEnum 2 v rfl (by decide +kernel)
  | 6 => rw [validMember_some 6 trSolverEnum v rfl]; exact cenumMember_iff trSolverEnum 4 v rfl (by decide +kernel)
  | 7 => rw [validMember_some 7 polishingEnum v rfl]; exact cenumMember_iff polishingEnum 3 v rfl (by decide +kernel)
  | 8 => rw [validMember_some 8 stepRuleEnum v rfl]; exact cenumMember_iff stepRuleEnum 3 v rfl (by decide +kernel)
  | 9 => rw [validMember_some 9 linesearchEnum v rfl]; exact cenumMember_iff linesearchEnum 2 v rfl (by decide +kernel)
  | 10 => rw [validMember_some 10 parametricCauchyEnum v rfl]; exact cenumMember_iff parametricCauchyEnum 3 v rfl (by decide +kernel)
  | 11 => rw [validMember_some 11 initialTrEnum v rfl]; exact cenumMember_iff initialTrEnum 2 v rfl (by decide +kernel)
  | 12 => rw [validMember_some 12 augJacEnum v rfl]; exact cenumMember_iff augJacEnum 4 v rfl (by decide +kernel)

theorem findNamed_gen (f : Nat → Nat) (n : List Char) : ∀ (names : List String) (off : Nat),
    Settings.findNamed ((names.zipIdx off).map (fun p => (p.1.toList, f p.2))) n =
      (names.findIdx? (fun s => s.toList = n)).map (fun p => f (p + off))
  | [], _ => rfl
  | s :: names, off => by
    simp only [List.zipIdx_cons, List.map_cons, Settings.findNamed, List.findIdx?_cons]
    by_cases h : s.toList = n
    · simp [h]
    · rw [if_neg h, findNamed_gen f n names (off + 1)]
      simp only [h, decide_false, Bool.false_eq_true, if_false, Option.map_map]
      congr 1
      funext p
      show f (p + (off + 1)) = f (p + 1 + off)
      congr 1; omega

theorem findNamed_eq (i : Fin 13) (e : CEnum) (he : getEnum i = some e) (n : List Char) :
    Settings.findNamed e.entries n = namedValue i n := by
  have key : ∀ j : Fin 13, ∀ e', getEnum j = some e' → e'.entries = ((docNames j).zipIdx 0).map
      (fun p => (p.1.toList, if j = 0 then (if p.2 = 0 then 0 else 2 ^ (p.2 - 1)) else p.2)) := by
    intro j e' hj
    match j with
    | 0 | 1 | 2 | 5 | 6 | 7 | 8 | 9 | 10 | 11 | 12 => cases hj; decide +kernel
    | 3 | 4 => cases hj
  rw [key i e he, findNamed_gen (fun p => if i = 0 then (if p = 0 then 0 else 2 ^ (p - 1)) else p)]
  rfl

theorem namedValue_none (i : Fin 13) (he : getEnum i = none) (n : List Char) : namedValue i n = none := by
  match i with
  | 0 | 1 | 2 | 5 | 6 | 7 | 8 | 9 | 10 | 11 | 12 => cases he
  | 3 | 4 => rfl

theorem namedValue_legal (i : Fin 13) (n : List Char) (v : Nat) (h : namedValue i n = some v) : LegalEnum i v := by
  unfold namedValue at h
  rw [Option.map_eq_some_iff] at h
  obtain ⟨p, hp, rfl⟩ := h
  have hlt : p < (docNames i).length := by
    rw [List.findIdx?_eq_some_iff_getElem] at hp
    exact hp.1
  have key : ∀ j : Fin 13, ∀ q < (docNames j).length, LegalEnum j (if j = 0 then (if q = 0 then 0 else 2 ^ (q - 1)) else q) := by
    decide +kernel
  exact key i p hlt

/-- the state after an update by name -/
theorem setEnumStr_eq (s : Settings) (i : Fin 13) (n : List Char) :
    s.setEnumStr i.val n = match namedValue i n with
      | some v => ({ s with enums := arrSet s.enums i v }, true)
      | none => (s, false) := by
  unfold Settings.setEnumStr
  rw [optIdx_val]
  show (match getEnum i with | none => (s, false) | some e => _) = _
  cases he : getEnum i with
  | none => rw [namedValue_none i he]
  | some e => simp only [findNamed_eq i e he]; cases namedValue i n <;> rfl

theorem upd_reals (s : Settings) (u : Upd) (i : Fin 15) : (s.upd u).1.reals i = realAfter i (s.reals i) u := by
  cases u with
  | real k v =>
    simp only [Settings.upd, Settings.setReal, realAfter]
    split
    · rename_i h
      rw [if_neg]
      intro e
      rw [e, optIdx_val] at h; cases h
    · rename_i j h
      rw [optIdx_some] at h
      show arrSet s.reals j v i = _
      unfold arrSet
      by_cases hij : i = j
      · rw [if_pos hij, if_pos (by rw [h, hij])]
      · rw [if_neg hij, if_neg (by intro e; apply hij; apply Fin.ext; omega)]
  | enum k v => simp only [Settings.upd, Settings.setEnum, realAfter]; split <;> [rfl; (split <;> rfl)]
  | enumStr k n => simp only [Settings.upd, Settings.setEnumStr, realAfter]; split <;> [rfl; (split <;> [rfl; (split <;> rfl)])]
  | int k v => simp only [Settings.upd, Settings.setInt, realAfter]; split <;> rfl
  | bool k v => simp only [Settings.upd, Settings.setBool, realAfter]; split <;> rfl

theorem upd_ints (s : Settings) (u : Upd) (i : Fin 3) : (s.upd u).1.ints i = intAfter i (s.ints i) u := by
  cases u with
  | int k v =>
    simp only [Settings.upd, Settings.setInt, intAfter]
    split
    · rename_i h
      rw [if_neg]
      intro e
      rw [e, optIdx_val] at h; cases h
    · rename_i j h
      rw [optIdx_some] at h
      show arrSet s.ints j v i = _
      unfold arrSet
      by_cases hij : i = j
      · rw [if_pos hij, if_pos (by rw [h, hij])]
      · rw [if_neg hij, if_neg (by intro e; apply hij; apply Fin.ext; omega)]
  | enum k v => simp only [Settings.upd, Settings.setEnum, intAfter]; split <;> [rfl; (split <;> rfl)]
  | enumStr k n => simp only [Settings.upd, Settings.setEnumStr, intAfter]; split <;> [rfl; (split <;> [rfl; (split <;> rfl)])]
  | real k v => simp only [Settings.upd, Settings.setReal, intAfter]; split <;> rfl
  | bool k v => simp only [Settings.upd, Settings.setBool, intAfter]; split <;> rfl

theorem upd_bools (s : Settings) (u : Upd) (i : Fin 8) : (s.upd u).1.bools i = boolAfter i (s.bools i) u := by
  cases u with
  | bool k v =>
    simp only [Settings.upd, Settings.setBool, boolAfter]
    split
    · rename_i h
      rw [if_neg]
      intro e
      rw [e, optIdx_val] at h; cases h
    · rename_i j h
      rw [optIdx_some] at h
      show arrSet s.bools j v i = _
      unfold arrSet
      by_cases hij : i = j
      · rw [if_pos hij, if_pos (by rw [h, hij])]
      · rw [if_neg hij, if_neg (by intro e; apply hij; apply Fin.ext; omega)]
  | enum k v => simp only [Settings.upd, Settings.setEnum, boolAfter]; split <;> [rfl; (split <;> rfl)]
  | enumStr k n => simp only [Settings.upd, Settings.setEnumStr, boolAfter]; split <;> [rfl; (split <;> [rfl; (split <;> rfl)])]
  | real k v => simp only [Settings.upd, Settings.setReal, boolAfter]; split <;> rfl
  | int k v => simp only [Settings.upd, Settings.setInt, boolAfter]; split <;> rfl

theorem upd_enums (s : Settings) (u : Upd) (i : Fin 13) : (s.upd u).1.enums i = enumAfter i (s.enums i) u := by
  cases u with
  | enum k v =>
    simp only [Settings.upd, Settings.setEnum, enumAfter]
    split
    · rename_i h
      rw [if_neg]
      rintro ⟨e, -⟩
      rw [e, optIdx_val] at h; cases h
    · rename_i j h
      rw [optIdx_some] at h
      by_cases hv : validMember j v = true
      · rw [if_pos hv]
        show arrSet s.enums j v i = _
        unfold arrSet
        by_cases hij : i = j
        · rw [if_pos hij, if_pos ⟨by rw [h, hij], by rw [hij]; exact (validMember_iff j v).1 hv⟩]
        · rw [if_neg hij, if_neg (by rintro ⟨e, -⟩; apply hij; apply Fin.ext; omega)]
      · rw [if_neg hv, if_neg]
        rintro ⟨e, hl⟩
        have : i = j := Fin.ext (by omega)
        exact hv ((validMember_iff j v).2 (this ▸ hl))
  | enumStr k n =>
    simp only [Settings.upd, enumAfter]
    cases hk : optIdx 13 k with
    | none =>
      rw [if_neg (by intro e; rw [e, optIdx_val] at hk; cases hk)]
      simp only [Settings.setEnumStr, hk]
    | some j =>
      rw [optIdx_some] at hk
      rw [hk, setEnumStr_eq]
      by_cases hij : i = j
      · subst hij
        rw [if_pos rfl]
        cases hn : namedValue i n with
        | none => rfl
        | some v => show arrSet s.enums i v i = v; unfold arrSet; rw [if_pos rfl]
      · rw [if_neg (by intro e; apply hij; apply Fin.ext; omega)]
        cases hn : namedValue j n with
        | none => rfl
        | some v => show arrSet s.enums j v i = _; unfold arrSet; rw [if_neg hij]
  | int k v => simp only [Settings.upd, Settings.setInt, enumAfter]; split <;> rfl
  | real k v => simp only [Settings.upd, Settings.setReal, enumAfter]; split <;> rfl
  | bool k v => simp only [Settings.upd, Settings.setBool, enumAfter]; split <;> rfl

theorem updAll_proj {V : Type} (proj : Settings → V) (after : V → Upd → V) (h : ∀ s u, proj (s.upd u).1 = after (proj s) u) :
    ∀ (us : List Upd) (s : Settings), proj (s.updAll us) = us.foldl after (proj s)
  | [], _ => rfl
  | u :: us, s => by
    show proj ((s.upd u).1.updAll us) = us.foldl after (after (proj s) u)
    rw [updAll_proj proj after h us, h]

/-! ### C39 -/

/-- the code reads Boolean values as they are meant -/
theorem parseBool_meant (value : List Char) : parseBool value = meantBool value := by
  unfold parseBool meantBool
  simp only [List.find?_cons, List.find?_nil]
  by_cases h1 : value = "1".toList
  · subst h1; decide +kernel
  by_cases h2 : value = "true".toList
  · subst h2; decide +kernel
  by_cases h3 : value = "0".toList
  · subst h3; decide +kernel
  by_cases h4 : value = "false".toList
  · subst h4; decide +kernel
  rw [if_neg (by tauto), if_neg (by tauto), decide_eq_false (fun h => h1 h.symm), decide_eq_false (fun h => h2 h.symm),
    decide_eq_false (fun h => h3 h.symm), decide_eq_false (fun h => h4 h.symm)]
  rfl

/-- C39: after any sequence of updates reading a setting returns the value of the last accepted update of this very setting
(folding `…After` over the sequence), or the default if there is none. -/
theorem C39_read (af ef : Nat) (us : List Upd) :
    (∀ i : Fin 15, ((settingsCreate af ef).updAll us).realValue i.val =
      some (us.foldl (realAfter i) ((settingsCreate af ef).reals i))) ∧
    (∀ i : Fin 3, ((settingsCreate af ef).updAll us).intValue i.val =
      some (us.foldl (intAfter i) ((settingsCreate af ef).ints i))) ∧
    (∀ i : Fin 8, ((settingsCreate af ef).updAll us).boolValue i.val =
      some (us.foldl (boolAfter i) ((settingsCreate af ef).bools i))) ∧
    (∀ i : Fin 13, ((settingsCreate af ef).updAll us).enumValue i.val =
      some (us.foldl (enumAfter i) ((settingsCreate af ef).enums i))) := by
  refine ⟨fun i => ?_, fun i => ?_, fun i => ?_, fun i => ?_⟩
  · unfold Settings.realValue
    rw [optIdx_val, Option.map_some, updAll_proj (fun s => s.reals i) (realAfter i) (fun s u => upd_reals s u i)]
  · unfold Settings.intValue
    rw [optIdx_val, Option.map_some, updAll_proj (fun s => s.ints i) (intAfter i) (fun s u => upd_ints s u i)]
  · unfold Settings.boolValue
    rw [optIdx_val, Option.map_some, updAll_proj (fun s => s.bools i) (boolAfter i) (fun s u => upd_bools s u i)]
  · unfold Settings.enumValue
    rw [optIdx_val, Option.map_some, updAll_proj (fun s => s.enums i) (enumAfter i) (fun s u => upd_enums s u i)]

example : ((settingsCreate 61 13).updAll [.enum 1 2, .enum 1 7, .enumStr 0 "SecondObj".toList, .bool 3 false, .enum 13 0]).enumValue 1 =
    some 2 := by
  rw [show (1 : Int) = ((1 : Fin 13).val : Int) from rfl, (C39_read 61 13 _).2.2.2 1]
  decide +kernel

/-- C39: a new settings object holds the documented defaults: for every documented name there is a setting of this name and it has
the documented value; the floating point flags are those given by the platform. -/
theorem C39_defaults (af ef : Nat) :
    (∀ e ∈ docInts, ∃ i : Fin 3, intName i = e.1.toList ∧ (settingsCreate af ef).intValue i.val = some e.2) ∧
    (∀ e ∈ docBools, ∃ i : Fin 8, boolName i = e.1.toList ∧ (settingsCreate af ef).boolValue i.val = some e.2) ∧
    (∀ e ∈ docReals, ∃ i : Fin 15, realName i = e.1.toList ∧ (settingsCreate af ef).realValue i.val = some (.fin e.2)) ∧
    (∀ e ∈ docEnums, ∃ i : Fin 13, enumName i = e.1.toList ∧ i ≠ 3 ∧ i ≠ 4 ∧
      (settingsCreate af ef).enumValue i.val = namedValue i e.2.toList) ∧
    (settingsCreate af ef).enumValue 3 = some af ∧ (settingsCreate af ef).enumValue 4 = some ef := by
  refine ⟨?_, ?_, ?_, ?_, rfl, rfl⟩
  · have : ∀ e ∈ docInts, ∃ i : Fin 3, intName i = e.1.toList ∧ (settingsCreate 0 0).intValue i.val = some e.2 := by decide +kernel
    exact this
  · have : ∀ e ∈ docBools, ∃ i : Fin 8, boolName i = e.1.toList ∧ (settingsCreate 0 0).boolValue i.val = some e.2 := by decide +kernel
    exact this
  · have : ∀ e ∈ docReals, ∃ i : Fin 15, realName i = e.1.toList ∧ (settingsCreate 0 0).realValue i.val = some (.fin e.2) := by
      decide +kernel
    exact this
  · have : ∀ e ∈ docEnums, ∃ i : Fin 13, enumName i = e.1.toList ∧ i ≠ 3 ∧ i ≠ 4 ∧
        (settingsCreate 0 0).enumValue i.val = namedValue i e.2.toList := by decide +kernel
    intro e he
    obtain ⟨i, h1, h2, h3, h4⟩ := this e he
    refine ⟨i, h1, h2, h3, ?_⟩
    rw [← h4]
    fin_cases i <;> first | rfl | exact absurd rfl h2 | exact absurd rfl h3

/-- C39: an update is accepted exactly when its key exists and, for an enumeration, its value is legal or its name is known. -/
theorem C39_accept_iff (s : Settings) (u : Upd) : (s.upd u).2 = true ↔ Acceptable u := by
  cases u with
  | real k v =>
    simp only [Settings.upd, Settings.setReal, Acceptable]
    split
    · rename_i h; rw [optIdx_none] at h; simpa using h
    · rename_i j h
      rw [optIdx_some] at h
      have := j.isLt
      exact ⟨fun _ => ⟨by omega, by omega⟩, fun _ => rfl⟩
  | int k v =>
    simp only [Settings.upd, Settings.setInt, Acceptable]
    split
    · rename_i h; rw [optIdx_none] at h; simpa using h
    · rename_i j h
      rw [optIdx_some] at h
      have := j.isLt
      exact ⟨fun _ => ⟨by omega, by omega⟩, fun _ => rfl⟩
  | bool k v =>
    simp only [Settings.upd, Settings.setBool, Acceptable]
    split
    · rename_i h; rw [optIdx_none] at h; simpa using h
    · rename_i j h
      rw [optIdx_some] at h
      have := j.isLt
      exact ⟨fun _ => ⟨by omega, by omega⟩, fun _ => rfl⟩
  | enum k v =>
    simp only [Settings.upd, Settings.setEnum, Acceptable]
    split
    · rename_i h
      simp only [Bool.false_eq_true, false_iff]
      rintro ⟨i, e, -⟩
      rw [e, optIdx_val] at h; cases h
    · rename_i j h
      rw [optIdx_some] at h
      by_cases hv : validMember j v = true
      · rw [if_pos hv]
        exact ⟨fun _ => ⟨j, h, (validMember_iff j v).1 hv⟩, fun _ => rfl⟩
      · rw [if_neg hv]
        simp only [Bool.false_eq_true, false_iff]
        rintro ⟨i, e, hl⟩
        have : i = j := Fin.ext (by omega)
        exact hv ((validMember_iff j v).2 (this ▸ hl))
  | enumStr k n =>
    simp only [Settings.upd, Acceptable]
    cases hk : optIdx 13 k with
    | none =>
      simp only [Settings.setEnumStr, hk, Bool.false_eq_true, false_iff]
      rintro ⟨i, e, -⟩
      rw [e, optIdx_val] at hk; cases hk
    | some j =>
      rw [optIdx_some] at hk
      rw [hk, setEnumStr_eq]
      cases hn : namedValue j n with
      | none =>
        simp only [Bool.false_eq_true, false_iff]
        rintro ⟨i, e, hl⟩
        have : i = j := Fin.ext (by omega)
        rw [this, hn] at hl; cases hl
      | some v => exact ⟨fun _ => ⟨j, rfl, by rw [hn]; rfl⟩, fun _ => rfl⟩

/-- C39: a refused update changes nothing. -/
theorem C39_refused (s : Settings) (u : Upd) (h : (s.upd u).2 = false) : (s.upd u).1 = s := by
  have hna : ¬Acceptable u := by rw [← C39_accept_iff s u, h]; decide
  have e1 : (s.upd u).1.reals = s.reals := by
    funext i; rw [upd_reals]
    cases u <;> try rfl
    rename_i k v
    exact if_neg (fun e => hna (by simp only [Acceptable]; have := i.isLt; omega))
  have e2 : (s.upd u).1.ints = s.ints := by
    funext i; rw [upd_ints]
    cases u <;> try rfl
    rename_i k v
    exact if_neg (fun e => hna (by simp only [Acceptable]; have := i.isLt; omega))
  have e3 : (s.upd u).1.bools = s.bools := by
    funext i; rw [upd_bools]
    cases u <;> try rfl
    rename_i k v
    exact if_neg (fun e => hna (by simp only [Acceptable]; have := i.isLt; omega))
  have e4 : (s.upd u).1.enums = s.enums := by
    funext i; rw [upd_enums]
    cases u <;> try rfl
    · rename_i k v
      exact if_neg (fun e => hna ⟨i, e.1, e.2⟩)
    · rename_i k n
      simp only [enumAfter]
      split
      · rename_i e
        cases hn : namedValue i n with
        | none => rfl
        | some v => exact absurd ⟨i, e, by rw [hn]; rfl⟩ hna
      · rfl
  cases hs : (s.upd u).1
  cases s
  rw [hs] at e1 e2 e3 e4
  simp only at e1 e2 e3 e4
  rw [e1, e2, e3, e4]

example : ((settingsCreate 61 13).upd (.enum 1 4)).2 = false ∧ ((settingsCreate 61 13).upd (.enum 0 31)).2 = true ∧
    ((settingsCreate 61 13).upd (.enum 0 32)).2 = false ∧ ((settingsCreate 61 13).upd (.real 15 .nan)).2 = false := by decide +kernel

/-- C39: after any sequence of updates every enumeration setting holds a legal value. -/
theorem C39_legal (af ef : Nat) (us : List Upd) (i : Fin 13) :
    ∃ v, ((settingsCreate af ef).updAll us).enumValue i.val = some v ∧ LegalEnum i v := by
  refine ⟨_, (C39_read af ef us).2.2.2 i, ?_⟩
  have h0 : LegalEnum i ((settingsCreate af ef).enums i) := by
    match i with
    | 0 => exact (by decide : 0 < 32)
    | 1 => exact (by decide : 0 < 4)
    | 2 => exact (by decide : 1 < 3)
    | 3 | 4 => trivial
    | 5 => exact (by decide : 1 < 2)
    | 6 => exact (by decide : 3 < 4)
    | 7 => exact (by decide : 1 < 3)
    | 8 => exact (by decide : 0 < 3)
    | 9 => exact (by decide : 1 < 2)
    | 10 => exact (by decide : 0 < 3)
    | 11 => exact (by decide : 0 < 2)
    | 12 => exact (by decide : 0 < 4)
  generalize (settingsCreate af ef).enums i = v0 at h0
  induction us generalizing v0 with
  | nil => exact h0
  | cons u us ih =>
    apply ih
    cases u with
    | enum k v =>
      simp only [enumAfter]
      split
      · rename_i h; exact h.2
      · exact h0
    | enumStr k n =>
      simp only [enumAfter]
      split
      · cases hn : namedValue i n with
        | none => exact h0
        | some v => exact namedValue_legal i n v hn
      · exact h0
    | real k v => exact h0
    | int k v => exact h0
    | bool k v => exact h0

/-- C39: reading with a key that does not exist reports an error. -/
theorem C39_read_invalid (s : Settings) (key : Int) :
    (s.realValue key = none ↔ ¬(0 ≤ key ∧ key < 15)) ∧ (s.intValue key = none ↔ ¬(0 ≤ key ∧ key < 3)) ∧
      (s.boolValue key = none ↔ ¬(0 ≤ key ∧ key < 8)) ∧ (s.enumValue key = none ↔ ¬(0 ≤ key ∧ key < 13)) := by
  refine ⟨?_, ?_, ?_, ?_⟩
  · unfold Settings.realValue; rw [Option.map_eq_none_iff, optIdx_none]; rfl
  · unfold Settings.intValue; rw [Option.map_eq_none_iff, optIdx_none]; rfl
  · unfold Settings.boolValue; rw [Option.map_eq_none_iff, optIdx_none]; rfl
  · unfold Settings.enumValue; rw [Option.map_eq_none_iff, optIdx_none]; rfl

/-! ### C61 -/

theorem dropWhile_all {α : Type} (p : α → Bool) : ∀ l : List α, (∀ c ∈ l, p c = true) → l.dropWhile p = []
  | [], _ => rfl
  | a :: l, h => by
    rw [List.dropWhile_cons_of_pos (h a (List.mem_cons_self ..))]
    exact dropWhile_all p l (fun c hc => h c (List.mem_cons_of_mem _ hc))

theorem dropWhile_stop {α : Type} (p : α → Bool) (l m : List α) (h : ∀ c ∈ l, p c = true) (hm : ∀ c, m.head? = some c → p c = false) :
    (l ++ m).dropWhile p = m := by
  rw [List.dropWhile_append_of_pos h]
  cases m with
  | nil => rfl
  | cons a m => exact List.dropWhile_cons_of_neg (by rw [hm a rfl]; decide)

theorem takeWhile_stop {α : Type} (p : α → Bool) (l m : List α) (h : ∀ c ∈ l, p c = true) (hm : ∀ c, m.head? = some c → p c = false) :
    (l ++ m).takeWhile p = l := by
  rw [List.takeWhile_append_of_pos h]
  cases m with
  | nil => simp
  | cons a m => rw [List.takeWhile_cons_of_neg (by rw [hm a rfl]; decide), List.append_nil]

theorem trim_stop (l tl : List Char) (hl : ∀ c, l.getLast? = some c → isSpace c = false) (hne : l.dropWhile isSpace ≠ [])
    (htl : ∀ c ∈ tl, isSpace c = true) : trim (l ++ tl) = l := by
  unfold trim
  have hne' : (l ++ tl).dropWhile isSpace ≠ [] := by
    rw [List.dropWhile_append]
    split
    · rename_i h
      simp only [List.isEmpty_iff] at h
      exact absurd h hne
    · simp [hne]
  rw [if_neg hne', List.reverse_append, dropWhile_stop _ _ _ (by simpa using htl) (by simpa using hl), List.reverse_reverse]

/-- a line of the form "key value" is read as such -/
theorem extract_pair (debug : Bool) {line key value : List Char} (h : PairLine line key value) :
    extractKeyValue debug line = .pair key value := by
  obtain ⟨⟨ws, tl, rfl, hws, hwsp, htl⟩, hk, hv, hkw, hvw, hc⟩ := h
  have hhead : ∀ (l m : List Char) c, l ≠ [] → (l ++ m).head? = some c → c ∈ l := by
    intro l m c hl hh
    cases l with
    | nil => exact absurd rfl hl
    | cons a l => simp only [List.cons_append, List.head?_cons, Option.some.injEq] at hh; rw [← hh]; exact List.mem_cons_self ..
  have ht : trim (key ++ ws ++ value ++ tl) = key ++ ws ++ value := by
    apply trim_stop _ _ _ _ htl
    · intro c hl
      apply hvw
      rw [List.getLast?_append_of_ne_nil _ hv] at hl
      exact List.mem_of_getLast? hl
    · cases key with
      | nil => exact absurd rfl hk
      | cons a key =>
        rw [List.cons_append, List.cons_append, List.dropWhile_cons_of_neg (by rw [hkw a (List.mem_cons_self ..)]; decide)]
        exact List.cons_ne_nil _ _
  unfold extractKeyValue
  simp only [ht]
  have hb : key ++ ws ++ value ≠ [] := by simp [hk]
  have hh : (key ++ ws ++ value).head? ≠ some '#' := by
    cases key with
    | nil => exact absurd rfl hk
    | cons a key => exact hc
  have hrest : (key ++ ws ++ value).dropWhile (fun c => !isSpace c) = ws ++ value := by
    rw [List.append_assoc]
    apply dropWhile_stop
    · intro c hc'; rw [hkw c hc']; rfl
    · intro c hc'; rw [hwsp c (hhead ws value c hws hc')]; rfl
  have hkey : (key ++ ws ++ value).takeWhile (fun c => !isSpace c) = key := by
    rw [List.append_assoc]
    apply takeWhile_stop
    · intro c hc'; rw [hkw c hc']; rfl
    · intro c hc'; rw [hwsp c (hhead ws value c hws hc')]; rfl
  have hval : ((ws ++ value).dropWhile isSpace).takeWhile (fun c => !isSpace c) = value := by
    rw [dropWhile_stop _ _ _ hwsp (fun c hc' => hvw c (List.mem_of_mem_head? hc'))]
    have := takeWhile_stop (fun c => !isSpace c) value [] (fun c hc' => by rw [hvw c hc']; rfl) (by simp)
    rwa [List.append_nil] at this
  rw [if_neg hb, if_neg hh, hrest, hkey, hval, if_neg]
  simp [hws]

/-- comments and empty lines have no effect -/
theorem read_blank (p : Parsers) (debug : Bool) (s : Settings) (l : List Char) (ls : List (List Char)) (h : BlankLine l) :
    readLines p debug s (l :: ls) = readLines p debug s ls := by
  cases h with
  | empty _ h =>
    have ht : trim l = l := by unfold trim; rw [if_pos (dropWhile_all _ _ h)]
    cases l with
    | nil => rfl
    | cons a l =>
      have ha : isSpace a = true := h a (List.mem_cons_self ..)
      have hex : extractKeyValue debug (a :: l) = .pair [] [] := by
        unfold extractKeyValue
        simp only [ht]
        have hd : (a :: l).dropWhile (fun c => !isSpace c) = a :: l := List.dropWhile_cons_of_neg (by rw [ha]; decide)
        have htk : (a :: l).takeWhile (fun c => !isSpace c) = [] := List.takeWhile_cons_of_neg (by rw [ha]; decide)
        rw [if_neg (List.cons_ne_nil _ _), if_neg, hd, htk, if_neg, dropWhile_all _ _ h]
        · rfl
        · simp
        · simp only [List.head?_cons, Option.some.injEq]
          rintro rfl
          exact absurd ha (by decide)
      have hset : setKeyValue p s [] [] = (s, false) := by
        have h1 : (List.finRange 3).find? (fun i => intName i = []) = none := by decide +kernel
        have h2 : (List.finRange 15).find? (fun i => realName i = []) = none := by decide +kernel
        have h3 : (List.finRange 8).findSome? (fun i => if boolName i = [] then (parseBool []).map (fun v => (i, v)) else none) = none := by
          decide +kernel
        have h4 : (List.finRange 13).find? (fun i => enumName i = []) = none := by decide +kernel
        unfold setKeyValue setKeyEnum
        rw [h1, h2, h3, h4]
      show (match extractKeyValue debug (a :: l) with | .assertion => _ | .skip => _ | .pair key value => _) = _
      rw [hex]
      simp only [hset, Bool.false_eq_true, if_false]
  | comment l =>
    have hex : extractKeyValue debug ('#' :: l) = .skip := by
      have ht : (trim ('#' :: l)).head? = some '#' := by
        unfold trim
        rw [List.dropWhile_cons_of_neg (by decide), if_neg (List.cons_ne_nil _ _), List.reverse_cons, List.dropWhile_append]
        split
        · rfl
        · simp
      unfold extractKeyValue
      simp only
      rw [if_pos ht]
      exact ite_self _
    show (match extractKeyValue debug ('#' :: l) with | .assertion => _ | .skip => _ | .pair key value => _) = _
    rw [hex]

theorem findSome_of_find {α β : Type} (q : α → Bool) (g : α → Option β) : ∀ l : List α, ∀ a, l.find? q = some a →
    (g a).isSome → l.findSome? (fun b => if q b then g b else none) = g a
  | [], _, h, _ => by cases h
  | b :: l, a, h, hg => by
    rw [List.findSome?_cons]
    by_cases hb : q b = true
    · rw [List.find?_cons_of_pos hb] at h
      cases h
      rw [if_pos hb]
      cases hga : g b with
      | none => rw [hga] at hg; cases hg
      | some v => rfl
    · rw [List.find?_cons_of_neg hb] at h
      rw [if_neg hb]
      exact findSome_of_find q g l a h hg

theorem findSome_none {α β : Type} (q : α → Bool) (g : α → Option β) (l : List α) (h : l.find? q = none) :
    l.findSome? (fun b => if q b then g b else none) = none := by
  rw [List.findSome?_eq_none_iff]
  intro b hb
  rw [List.find?_eq_none] at h
  exact if_neg (h b hb)

/-- a pair that asks for an update performs this update -/
theorem setKeyValue_asked (p : Parsers) (s : Settings) (key value : List Char) (u : Upd) (h : askedUpd p key value = some u) :
    setKeyValue p s key value = ((s.upd u).1, false) := by
  unfold askedUpd at h
  unfold setKeyValue
  cases h1 : (List.finRange 3).find? (fun i => intName i = key) with
  | some i =>
    rw [h1] at h
    simp only [Option.ite_none_right_eq_some] at h
    obtain ⟨hp, hu⟩ := h
    cases hu
    simp only [if_pos hp]
    rfl
  | none =>
    rw [h1] at h
    cases h2 : (List.finRange 15).find? (fun i => realName i = key) with
    | some i =>
      rw [h2] at h
      simp only [Option.ite_none_right_eq_some] at h
      obtain ⟨hp, hu⟩ := h
      cases hu
      simp only [if_pos hp]
      rfl
    | none =>
      rw [h2] at h
      cases h3 : (List.finRange 8).find? (fun i => boolName i = key) with
      | some i =>
        rw [h3] at h
        simp only [Option.map_eq_some_iff] at h
        obtain ⟨v, hv, rfl⟩ := h
        rw [← parseBool_meant] at hv
        have := findSome_of_find (fun i => decide (boolName i = key)) (fun i => (parseBool value).map (fun v => (i, v)))
          (List.finRange 8) i h3 (by rw [hv]; rfl)
        simp only [decide_eq_true_eq] at this
        simp only [this]
        rw [hv]
        rfl
      | none =>
        rw [h3] at h
        have := findSome_none (fun i => decide (boolName i = key)) (fun i => (parseBool value).map (fun v => (i, v)))
          (List.finRange 8) h3
        simp only [decide_eq_true_eq] at this
        simp only [this]
        unfold setKeyEnum
        cases h4 : (List.finRange 13).find? (fun i => enumName i = key) with
        | none => rw [h4] at h; cases h
        | some i =>
          rw [h4] at h
          simp only [Option.ite_none_right_eq_some] at h
          obtain ⟨hp, hu⟩ := h
          cases hu
          cases hn : namedValue i value with
          | none => rw [hn] at hp; cases hp
          | some v =>
            cases he : getEnum i with
            | none => rw [namedValue_none i he] at hn; cases hn
            | some e =>
              simp only [he, findNamed_eq i e he, hn, Settings.upd, setEnumStr_eq, Settings.setEnum, optIdx_val]
              rw [if_pos ((validMember_iff i v).2 (namedValue_legal i value v hn))]

/-- C61 (part): reading a well-formed file succeeds and has exactly the effect of performing the updates its lines ask for, in
their order, with the functions of the interface. Missing: files with other lines, see the `_violated` theorems. -/
theorem C61_file_partial (p : Parsers) (debug : Bool) (ls : List (List Char)) (us : List Upd) (h : WellFormed p ls us) (s : Settings) :
    readLines p debug s ls = (s.updAll us, .okay) := by
  induction h generalizing s with
  | nil => rfl
  | blank l ls us hb _ ih => rw [read_blank p debug s l ls hb, ih]
  | pair l key value ls u us hl hu _ ih =>
    show (match extractKeyValue debug l with | .assertion => _ | .skip => _ | .pair key value => _) = _
    rw [extract_pair debug hl]
    simp only [setKeyValue_asked p s key value u hu, Bool.false_eq_true, if_false]
    rw [ih]
    rfl

theorem readLines_append (p : Parsers) (debug : Bool) (ls : List (List Char)) (us : List Upd) (h : WellFormed p ls us) (s : Settings)
    (ls' : List (List Char)) : readLines p debug s (ls ++ ls') = readLines p debug (s.updAll us) ls' := by
  induction h generalizing s with
  | nil => rfl
  | blank l ls us hb _ ih => rw [List.cons_append, read_blank p debug s l _ hb, ih]
  | pair l key value ls u us hl hu _ ih =>
    rw [List.cons_append]
    show (match extractKeyValue debug l with | .assertion => _ | .skip => _ | .pair key value => _) = _
    rw [extract_pair debug hl]
    simp only [setKeyValue_asked p s key value u hu, Bool.false_eq_true, if_false]
    rw [ih]
    rfl

/-- C61 (part): if a line gives an integer, real or enumeration setting a value that cannot be read, reading the file stops there
and reports an error; the updates of the lines before it remain. Missing: unreadable values of Boolean settings and unknown keys. -/
theorem C61_error_partial (p : Parsers) (debug : Bool) (ls ls' : List (List Char)) (us : List Upd) (h : WellFormed p ls us)
    (s : Settings) (line key value : List Char) (hl : PairLine line key value) (hu : askedUpd p key value = none)
    (hk : (∃ i, intName i = key) ∨ (∃ i, realName i = key) ∨ ((∀ i, boolName i ≠ key) ∧ ∃ i, enumName i = key)) :
    readLines p debug s (ls ++ line :: ls') = (s.updAll us, .error) := by
  rw [readLines_append p debug ls us h]
  show (match extractKeyValue debug line with | .assertion => _ | .skip => _ | .pair key value => _) = _
  rw [extract_pair debug hl]
  have key' : ∀ s : Settings, setKeyValue p s key value = (s, true) := by
    intro s
    unfold askedUpd at hu
    unfold setKeyValue
    cases h1 : (List.finRange 3).find? (fun i => intName i = key) with
    | some i =>
      rw [h1] at hu
      simp only [ite_eq_right_iff, reduceCtorEq, imp_false] at hu
      simp only [if_neg hu]
    | none =>
      rw [h1] at hu
      cases h2 : (List.finRange 15).find? (fun i => realName i = key) with
      | some i =>
        rw [h2] at hu
        simp only [ite_eq_right_iff, reduceCtorEq, imp_false] at hu
        simp only [if_neg hu]
      | none =>
        rw [h2] at hu
        rcases hk with ⟨i, hi⟩ | ⟨i, hi⟩ | ⟨hnb, i, hi⟩
        · rw [List.find?_eq_none] at h1
          exact absurd (decide_eq_true hi) (h1 i (List.mem_finRange i))
        · rw [List.find?_eq_none] at h2
          exact absurd (decide_eq_true hi) (h2 i (List.mem_finRange i))
        · have h3 : (List.finRange 8).find? (fun i => boolName i = key) = none := by
            rw [List.find?_eq_none]
            intro j _ hj
            exact hnb j (of_decide_eq_true hj)
          rw [h3] at hu
          have := findSome_none (fun i => decide (boolName i = key)) (fun i => (parseBool value).map (fun v => (i, v)))
            (List.finRange 8) h3
          simp only [decide_eq_true_eq] at this
          simp only [this]
          unfold setKeyEnum
          cases h4 : (List.finRange 13).find? (fun i => enumName i = key) with
          | none =>
            rw [List.find?_eq_none] at h4
            exact absurd (decide_eq_true hi) (h4 i (List.mem_finRange i))
          | some j =>
            rw [h4] at hu
            simp only [ite_eq_right_iff, reduceCtorEq, imp_false, Option.not_isSome_iff_eq_none] at hu
            cases he : getEnum j with
            | none => simp only [he]
            | some e => simp only [he, findNamed_eq j e he, hu]
  simp only [key', if_true]

/-- parsers for the examples: no number is ever read, except that the empty text reads as zero (as in C) -/
def noParsers : Parsers := ⟨fun l => (0, l.isEmpty), fun l => (.fin 0, l.isEmpty)⟩

theorem exPair (k v : String) (hk : k.toList ≠ [] ∧ (∀ c ∈ k.toList, isSpace c = false) ∧ k.toList.head? ≠ some '#')
    (hv : v.toList ≠ [] ∧ ∀ c ∈ v.toList, isSpace c = false) : PairLine (k.toList ++ [' '] ++ v.toList ++ ['\n']) k.toList v.toList :=
  ⟨⟨[' '], ['\n'], rfl, by decide, by decide, by decide⟩, hk.1, hv.1, hk.2.1, hv.2, hk.2.2⟩

example : WellFormed noParsers
    [['\n'], "# x".toList, "hess_eval".toList ++ [' '] ++ "SR1".toList ++ ['\n'], "perform_soc".toList ++ [' '] ++ "0".toList ++ ['\n']]
    [.enumStr 1 "SR1".toList, .bool 2 false] := by
  refine .blank _ _ _ (.empty _ (by decide)) (.blank _ _ _ (.comment _) (.pair _ _ _ _ _ _
    (exPair "hess_eval" "SR1" (by decide +kernel) (by decide +kernel)) ?_ (.pair _ _ _ _ _ _
    (exPair "perform_soc" "0" (by decide +kernel) (by decide +kernel)) ?_ .nil)))
  · have h1 : (List.finRange 3).find? (fun i => intName i = "hess_eval".toList) = none := by decide +kernel
    have h2 : (List.finRange 15).find? (fun i => realName i = "hess_eval".toList) = none := by decide +kernel
    have h3 : (List.finRange 8).find? (fun i => boolName i = "hess_eval".toList) = none := by decide +kernel
    have h4 : (List.finRange 13).find? (fun i => enumName i = "hess_eval".toList) = some 1 := by decide +kernel
    have h5 : (namedValue 1 "SR1".toList).isSome = true := by decide +kernel
    unfold askedUpd; rw [h1, h2, h3, h4]; simp only [h5]; rfl
  · have h1 : (List.finRange 3).find? (fun i => intName i = "perform_soc".toList) = none := by decide +kernel
    have h2 : (List.finRange 15).find? (fun i => realName i = "perform_soc".toList) = none := by decide +kernel
    have h3 : (List.finRange 8).find? (fun i => boolName i = "perform_soc".toList) = some 2 := by decide +kernel
    have h4 : meantBool "0".toList = some false := by decide +kernel
    unfold askedUpd; rw [h1, h2, h3]; simp only [h4]; rfl

/-- the settings and the outcome after reading a file of one line, as far as the examples below look at them -/
def readOne (debug : Bool) (line : String) : ReadRet × Option Bool × Option Int :=
  let r := readLines noParsers debug (settingsCreate 61 13) [line.toList]
  (r.2, r.1.boolValue 2, r.1.intValue 1)

/-- C61 fails: a Boolean setting with an unreadable value ("perform_soc off") and an unknown key ("perform_sock 0") are accepted
without an error and without any effect. -/
theorem C61_silent_violated : readOne true "perform_soc off" = (.okay, some true, some 100) ∧
    readOne true "perform_sock 0" = (.okay, some true, some 100) ∧ readOne true "perform_soc 0" = (.okay, some false, some 100) := by
  decide +kernel

/-- C61 fails: a line with leading white space (" perform_soc 0") is ignored without an error, as `trim` only moves its local
pointer. -/
theorem C61_indented_violated : readOne true " perform_soc 0" = (.okay, some true, some 100) := by decide +kernel

/-- C61 fails: a line with a key only ("max_newton_iterations") is not reported as a syntax error: the test `!begin` is never true.
With assertions the program is aborted, without them the setting becomes zero. -/
theorem C61_key_only_violated : (readOne true "max_newton_iterations").1 = .assertion ∧
    readOne false "max_newton_iterations" = (.okay, some true, some 0) := by decide +kernel

/-- C61 fails: no line of a file can change the setting whose name contains blanks ("augmented Jacobian method"): a key never
contains white space. -/
theorem C61_unreachable_violated (debug : Bool) (line key value : List Char) (h : extractKeyValue debug line = .pair key value) :
    enumName 12 ≠ key := by
  unfold extractKeyValue at h
  simp only at h
  split at h
  · cases h
  · split at h
    · cases h
    · split at h
      · cases h
      · cases h
        intro e
        have hm : ' ' ∈ enumName 12 := by decide +kernel
        rw [e] at hm
        have := List.mem_takeWhile_imp hm
        exact absurd this (by decide)

end Sleqp
