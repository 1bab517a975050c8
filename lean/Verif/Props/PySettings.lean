import Verif.Spec.PySettings
import Verif.Props.Settings

/-!
C116: settings in Python.
-/

namespace Sleqp

/-- the kind and the number of a setting -/
def PyAttr.slot : PyAttr → Nat × Nat
  | .bool k => (0, k.val)
  | .int k => (1, k.val)
  | .enum k _ => (2, k.val)
  | .real k => (3, k.val)

/-- whether the enumeration of an attribute has only values the library accepts -/
def PyAttr.wellTyped : PyAttr → Bool
  | .enum k e => (pyMembers e).all (fun p => validMember k p.2) && (List.range 32).all (fun v => !pyEnumHas e v || validMember k v)
      && (pyMembers e).all (fun p => pyEnumHas e p.2)
  | _ => true

theorem optPropMap_wellTyped : ∀ p ∈ optPropMap, p.2.wellTyped = true := by decide +kernel

theorem optPropMap_slots : ∀ p ∈ optPropMap, ∀ q ∈ optPropMap, p.1 ≠ q.1 → p.2.slot ≠ q.2.slot := by decide +kernel

theorem optPropMap_names : (optPropMap.map Prod.fst).Nodup := by decide +kernel

theorem lookup_mem {β : Type} (n : String) (b : β) : ∀ l : List (String × β), l.lookup n = some b → (n, b) ∈ l
  | [], h => by cases h
  | (m, c) :: l, h => by
    rw [List.lookup_cons] at h
    by_cases e : n = m
    · subst e; simp at h; subst h; exact List.mem_cons_self ..
    · have : (n == m) = false := by simpa using e
      rw [this] at h
      exact List.mem_cons_of_mem _ (lookup_mem n b l h)

theorem mem_lookup {β : Type} (n : String) (b : β) : ∀ l : List (String × β), (l.map Prod.fst).Nodup → (n, b) ∈ l → l.lookup n = some b
  | [], _, h => by cases h
  | (m, c) :: l, hd, h => by
    rw [List.map_cons, List.nodup_cons] at hd
    rw [List.lookup_cons]
    rcases List.mem_cons.mp h with e | e
    · cases e; simp
    · have hne : n ≠ m := fun x => hd.1 (x ▸ List.mem_map.mpr ⟨(n, b), e, rfl⟩)
      have : (n == m) = false := by simpa using hne
      rw [this]
      exact mem_lookup n b l hd.2 e

theorem lookup_none {β : Type} (n : String) (l : List (String × β)) (h : ∀ b, (n, b) ∉ l) : l.lookup n = none := by
  cases e : l.lookup n with
  | none => rfl
  | some b => exact absurd (lookup_mem n b l e) (h b)

theorem pyEnumHas_lt {e : PyEnumType} {v : Nat} (h : pyEnumHas e v = true) : v < 32 := by
  unfold pyEnumHas at h
  split at h
  · simpa using h
  · have : ∀ p ∈ pyMembers e, p.2 < 32 := by cases e <;> decide
    obtain ⟨p, hp, hv⟩ := List.any_eq_true.mp h
    have := this p hp
    have : p.2 = v := by simpa using hv
    omega

theorem valid_of_has {k : Fin 13} {e : PyEnumType} (h : (PyAttr.enum k e).wellTyped = true) {v : Nat} (hv : pyEnumHas e v = true) :
    validMember k v = true := by
  unfold PyAttr.wellTyped at h
  simp only [Bool.and_eq_true, List.all_eq_true, List.mem_range] at h
  have := h.1.2 v (pyEnumHas_lt hv)
  simpa [hv] using this

theorem has_of_mem {k : Fin 13} {e : PyEnumType} (h : (PyAttr.enum k e).wellTyped = true) {p : String × Nat} (hp : p ∈ pyMembers e) :
    pyEnumHas e p.2 = true := by
  unfold PyAttr.wellTyped at h
  simp only [Bool.and_eq_true, List.all_eq_true] at h
  exact h.2 p hp

theorem members_nodup (e : PyEnumType) : ((pyMembers e).map Prod.fst).Nodup := by cases e <;> decide

theorem arrSet_self {n : Nat} {V : Type} (a : Fin n → V) (k : Fin n) (v : V) : arrSet a k v k = v := by simp [arrSet]

theorem attr_set_get {ofReal : Ext ℚ → Option Int} {s : Settings} {a : PyAttr} (hw : a.wellTyped = true) {v v' : PyArg} (h : Suits a v v') :
    (a.set ofReal s v).2 = true ∧ a.get (a.set ofReal s v).1 = some v' := by
  cases h with
  | bool k b => simp [PyAttr.set, PyAttr.get, Settings.setBool, Settings.boolValue, optIdx_val, arrSet_self, PyArg.truth]
  | int k n h =>
    simp only [PyAttr.set, PyArg.asInt, if_pos h]
    simp [PyAttr.get, Settings.setInt, Settings.intValue, optIdx_val, arrSet_self]
  | real k x => simp [PyAttr.set, PyAttr.get, Settings.setReal, Settings.realValue, optIdx_val, arrSet_self, PyArg.asReal]
  | whole k n => simp [PyAttr.set, PyAttr.get, Settings.setReal, Settings.realValue, optIdx_val, arrSet_self, PyArg.asReal]
  | member k e v h =>
    simp [PyAttr.set, PyAttr.get, Settings.setEnum, Settings.enumValue, optIdx_val, arrSet_self, pyFromPy, valid_of_has hw h, h]
  | name k e t v h =>
    have h1 := mem_lookup t v _ (members_nodup e) h
    have h2 := has_of_mem hw h
    simp [PyAttr.set, PyAttr.get, Settings.setEnum, Settings.enumValue, optIdx_val, arrSet_self, pyFromPy, h1, valid_of_has hw h2, h2]

theorem attr_unfit {ofReal : Ext ℚ → Option Int} {s : Settings} {a : PyAttr} {v : PyArg} (h : Unfit a v) : a.set ofReal s v = (s, false) := by
  cases h with
  | intLarge k n h =>
    have : ¬(-2 ^ 31 ≤ n ∧ n < 2 ^ 31) := by omega
    simp only [PyAttr.set, PyArg.asInt, if_neg this]
  | enumStr k e t h => simp only [PyAttr.set, pyFromPy, lookup_none t _ h]
  | _ => rfl

theorem attr_frame {ofReal : Ext ℚ → Option Int} {s : Settings} {a b : PyAttr} {v : PyArg} (h : a.slot ≠ b.slot) :
    b.get (a.set ofReal s v).1 = b.get s := by
  cases a with
  | bool k =>
    cases b with
    | bool k' =>
      have : k' ≠ k := fun e => h (by rw [e])
      simp [PyAttr.set, PyAttr.get, Settings.setBool, Settings.boolValue, optIdx_val, arrSet, this]
    | _ => simp [PyAttr.set, PyAttr.get, Settings.setBool, Settings.intValue, Settings.realValue, Settings.enumValue, optIdx_val]
  | int k =>
    simp only [PyAttr.set]
    cases v.asInt ofReal with
    | none => rfl
    | some n =>
      cases b with
      | int k' =>
        have : k' ≠ k := fun e => h (by rw [e])
        simp [PyAttr.get, Settings.setInt, Settings.intValue, optIdx_val, arrSet, this]
      | _ => simp [PyAttr.get, Settings.setInt, Settings.boolValue, Settings.realValue, Settings.enumValue, optIdx_val]
  | real k =>
    simp only [PyAttr.set]
    cases v.asReal with
    | none => rfl
    | some n =>
      cases b with
      | real k' =>
        have : k' ≠ k := fun e => h (by rw [e])
        simp [PyAttr.get, Settings.setReal, Settings.realValue, optIdx_val, arrSet, this]
      | _ => simp [PyAttr.get, Settings.setReal, Settings.boolValue, Settings.intValue, Settings.enumValue, optIdx_val]
  | enum k e =>
    simp only [PyAttr.set]
    cases pyFromPy e v with
    | none => rfl
    | some n =>
      simp only [Settings.setEnum, optIdx_val]
      split
      · cases b with
        | enum k' e' =>
          have : k' ≠ k := fun e => h (by rw [e]; rfl)
          simp [PyAttr.get, Settings.enumValue, optIdx_val, arrSet, this]
        | _ => simp [PyAttr.get, Settings.boolValue, Settings.intValue, Settings.realValue, optIdx_val]
      · rfl

theorem attr_refused {ofReal : Ext ℚ → Option Int} {s : Settings} {a : PyAttr} {v : PyArg} (h : (a.set ofReal s v).2 = false) :
    (a.set ofReal s v).1 = s := by
  cases a with
  | bool k => simp [PyAttr.set, Settings.setBool, optIdx_val] at h
  | int k =>
    simp only [PyAttr.set] at h ⊢
    cases e : v.asInt ofReal with
    | none => rfl
    | some n => simp [e, Settings.setInt, optIdx_val] at h
  | real k =>
    simp only [PyAttr.set] at h ⊢
    cases e : v.asReal with
    | none => rfl
    | some n => simp [e, Settings.setReal, optIdx_val] at h
  | enum k e =>
    simp only [PyAttr.set] at h ⊢
    cases e' : pyFromPy e v with
    | none => rfl
    | some n =>
      simp only [e', Settings.setEnum, optIdx_val] at h ⊢
      split at h
      · cases h
      · rename_i hv; rw [if_neg hv]

/-- every attribute stands for the setting of the library documented for it, and there are no others -/
theorem C116_names : (∀ p ∈ pyNames, (optPropMap.lookup p.1).map (fun a => a.libraryName) = some p.2.toList) ∧
    ∀ p ∈ optPropMap, p.1 ∈ pyNames.map Prod.fst := by decide +kernel

/-- whether a name of a value in Python stands for the value of the library with the other name -/
def sameValue (p : String × String × String) : Bool :=
  match optPropMap.lookup p.1 with
  | some (.enum k e) =>
    match (pyMembers e).lookup p.2.1, (getEnum k).bind fun c => Settings.findNamed c.entries p.2.2.toList with
    | some v, some w => decide (v = w) && validMember k v
    | _, _ => false
  | _ => false

/-- the names of the values in Python stand for the values of the library documented for them -/
theorem C116_values (ofReal : Ext ℚ → Option Int) (s : Settings) : ∀ p ∈ pyValueNames, ∃ k e, optPropMap.lookup p.1 = some (.enum k e) ∧
    pySetAttr ofReal s p.1 (.str p.2.1) = s.setEnumStr (k.val : Int) p.2.2.toList ∧ (s.setEnumStr (k.val : Int) p.2.2.toList).2 = true := by
  have key : ∀ p ∈ pyValueNames, sameValue p = true := by decide +kernel
  intro p hp
  have h := key p hp
  unfold sameValue at h
  split at h
  · rename_i k e hl
    split at h
    · rename_i v w hv hw
      simp only [Bool.and_eq_true, decide_eq_true_eq] at h
      obtain ⟨rfl, hm⟩ := h
      obtain ⟨c, hc, hf⟩ := Option.bind_eq_some_iff.mp hw
      refine ⟨k, e, hl, ?_, ?_⟩
      · simp only [pySetAttr, hl, PyAttr.set, pyFromPy, hv, Settings.setEnum, optIdx_val, hm, if_true, Settings.setEnumStr, hc, hf]
      · simp only [Settings.setEnumStr, optIdx_val, hc, hf]
    · cases h
  · cases h

theorem create_get (allFlags errFlags : Nat) (a : PyAttr) (h : a.slot ≠ (2, 3) ∧ a.slot ≠ (2, 4)) :
    a.get (settingsCreate allFlags errFlags) = a.get (settingsCreate 0 0) := by
  cases a with
  | enum k e =>
    have : (settingsCreate allFlags errFlags).enums k = (settingsCreate 0 0).enums k := by
      fin_cases k <;> first | rfl | exact absurd rfl h.1 | exact absurd rfl h.2
    simp only [PyAttr.get, Settings.enumValue, optIdx_val, Option.map_some, this]
  | _ => rfl

theorem mapM_congr_mem {α β : Type} (f g : α → Option β) : ∀ l : List α, (∀ p ∈ l, f p = g p) → l.mapM f = l.mapM g
  | [], _ => rfl
  | p :: l, h => by
    rw [List.mapM_cons, List.mapM_cons, h p (List.mem_cons_self ..), mapM_congr_mem f g l fun q hq => h q (List.mem_cons_of_mem _ hq)]

/-- A new object has the documented defaults. -/
theorem C116_defaults (allFlags errFlags : Nat) : pyProps (settingsCreate allFlags errFlags) = some pyDefaults := by
  have h0 : pyProps (settingsCreate 0 0) = some pyDefaults := by decide +kernel
  have hs : ∀ p ∈ optPropMap, p.2.slot ≠ (2, 3) ∧ p.2.slot ≠ (2, 4) := by decide +kernel
  rw [← h0]
  unfold pyProps
  refine mapM_congr_mem _ _ _ fun p hp => ?_
  have hl := mem_lookup p.1 p.2 _ optPropMap_names hp
  simp only [pyGetAttr, hl, Option.bind_some, create_get allFlags errFlags p.2 (hs p hp)]

theorem pySetAttr_eq {ofReal : Ext ℚ → Option Int} {s : Settings} {name : String} {a : PyAttr} (h : optPropMap.lookup name = some a) (v : PyArg) :
    pySetAttr ofReal s name v = a.set ofReal s v := by simp only [pySetAttr, h]

theorem pyGetAttr_eq {s : Settings} {name : String} {a : PyAttr} (h : optPropMap.lookup name = some a) : pyGetAttr s name = a.get s := by
  simp only [pyGetAttr, h, Option.bind_some]

/-- An assignment of a suitable value succeeds, and the value is read afterwards; assignments of others, and to unknown names, raise an
exception; a failed assignment changes nothing at all, and any assignment leaves the other attributes alone. -/
theorem C116_assign (ofReal : Ext ℚ → Option Int) (s : Settings) (name : String) (v : PyArg) :
    (∀ a v', optPropMap.lookup name = some a → Suits a v v' →
      (pySetAttr ofReal s name v).2 = true ∧ pyGetAttr (pySetAttr ofReal s name v).1 name = some v') ∧
    (∀ a, optPropMap.lookup name = some a → Unfit a v → (pySetAttr ofReal s name v).2 = false) ∧
    (optPropMap.lookup name = none → (pySetAttr ofReal s name v).2 = false ∧ pyGetAttr s name = none) ∧
    ((pySetAttr ofReal s name v).2 = false → (pySetAttr ofReal s name v).1 = s) ∧
    ∀ other, other ≠ name → pyGetAttr (pySetAttr ofReal s name v).1 other = pyGetAttr s other := by
  refine ⟨fun a v' ha hs => ?_, fun a ha hu => ?_, fun h => ?_, fun h => ?_, fun other ho => ?_⟩
  · rw [pySetAttr_eq ha, pyGetAttr_eq ha]
    exact attr_set_get (optPropMap_wellTyped _ (lookup_mem _ _ _ ha)) hs
  · rw [pySetAttr_eq ha, attr_unfit hu]
  · simp only [pySetAttr, pyGetAttr, h, Option.bind_none, and_self]
  · cases e : optPropMap.lookup name with
    | none => simp only [pySetAttr, e]
    | some a =>
      rw [pySetAttr_eq e] at h ⊢
      exact attr_refused h
  · cases e : optPropMap.lookup name with
    | none => simp only [pySetAttr, e]
    | some a =>
      cases e' : optPropMap.lookup other with
      | none => simp only [pyGetAttr, e', Option.bind_none]
      | some b =>
        rw [pySetAttr_eq e, pyGetAttr_eq e', pyGetAttr_eq e']
        exact attr_frame (optPropMap_slots _ (lookup_mem _ _ _ e) _ (lookup_mem _ _ _ e') (fun h => ho h.symm))

/-- the settings after a sequence of assignments, whether they raise exceptions or not -/
def pyRun (ofReal : Ext ℚ → Option Int) (s : Settings) (ops : List (String × PyArg)) : Settings :=
  ops.foldl (fun s p => (pySetAttr ofReal s p.1 p.2).1) s

/-- After any sequence of assignments, an attribute holds the last value given to it (which suited it), or its default. -/
theorem C116_history (ofReal : Ext ℚ → Option Int) (s : Settings) (name : String) (a : PyAttr) (d : PyArg)
    (ha : optPropMap.lookup name = some a) (hd : pyGetAttr s name = some d) (ops : List (String × PyArg)) (w : PyArg)
    (h : LastGiven name a d ops w) : pyGetAttr (pyRun ofReal s ops) name = some w := by
  induction h with
  | start => exact hd
  | given ops v v' hs =>
    unfold pyRun
    rw [List.foldl_append]
    exact ((C116_assign ofReal _ name v).1 a v' ha hs).2
  | skip ops p w hl hp ih =>
    unfold pyRun at ih ⊢
    rw [List.foldl_append]
    show pyGetAttr (pySetAttr ofReal _ p.1 p.2).1 name = some w
    by_cases e : p.1 = name
    · rcases hp with hp | hp
      · exact absurd e hp
      · have h1 := (C116_assign ofReal (List.foldl (fun s p => (pySetAttr ofReal s p.1 p.2).1) s ops) p.1 p.2).2.1 a (e ▸ ha) hp
        rw [(C116_assign ofReal _ p.1 p.2).2.2.2.1 h1]
        exact ih
    · rw [(C116_assign ofReal _ p.1 p.2).2.2.2.2 name (fun x => e x.symm)]
      exact ih

/-- the constructor: with suitable values, and every attribute at most once (as for keyword arguments), it succeeds, and they are read back -/
theorem pySettings_spec (ofReal : Ext ℚ → Option Int) : ∀ (l : List (String × PyArg × PyArg)) (s : Settings), (l.map Prod.fst).Nodup →
    (∀ p ∈ l, ∃ a, optPropMap.lookup p.1 = some a ∧ Suits a p.2.1 p.2.2) →
    ∃ s', (l.map fun p => (p.1, p.2.1)).foldlM
        (fun (s : Settings) p => if (pySetAttr ofReal s p.1 p.2).2 then some (pySetAttr ofReal s p.1 p.2).1 else none) s = some s' ∧
      (∀ p ∈ l, pyGetAttr s' p.1 = some p.2.2) ∧ ∀ n, n ∉ l.map Prod.fst → pyGetAttr s' n = pyGetAttr s n
  | [], s, _, _ => ⟨s, rfl, (by intro p hp; cases hp), fun _ _ => rfl⟩
  | p :: l, s, hd, hs => by
    rw [List.map_cons, List.nodup_cons] at hd
    obtain ⟨a, ha, hp⟩ := hs p (List.mem_cons_self ..)
    have h1 := (C116_assign ofReal s p.1 p.2.1).1 a _ ha hp
    obtain ⟨s', e, h2, h3⟩ := pySettings_spec ofReal l (pySetAttr ofReal s p.1 p.2.1).1 hd.2 fun q hq => hs q (List.mem_cons_of_mem _ hq)
    refine ⟨s', ?_, fun q hq => ?_, fun n hn => ?_⟩
    · rw [List.map_cons, List.foldlM_cons, if_pos h1.1]
      exact e
    · rcases List.mem_cons.mp hq with rfl | hq
      · rw [h3 _ hd.1, h1.2]
      · exact h2 q hq
    · rw [List.map_cons, List.mem_cons] at hn
      rw [h3 n (fun h => hn (Or.inr h)), (C116_assign ofReal s p.1 p.2.1).2.2.2.2 n (fun h => hn (Or.inl h))]

/-- Settings created from suitable values, each attribute being given at most once, hold these values, and the defaults for all other
attributes. -/
theorem C116_create (allFlags errFlags : Nat) (ofReal : Ext ℚ → Option Int) (l : List (String × PyArg × PyArg)) (hd : (l.map Prod.fst).Nodup)
    (hs : ∀ p ∈ l, ∃ a, optPropMap.lookup p.1 = some a ∧ Suits a p.2.1 p.2.2) :
    ∃ s, pySettings allFlags errFlags ofReal (l.map fun p => (p.1, p.2.1)) = some s ∧ (∀ p ∈ l, pyGetAttr s p.1 = some p.2.2) ∧
      ∀ n, n ∉ l.map Prod.fst → pyGetAttr s n = pyGetAttr (settingsCreate allFlags errFlags) n :=
  pySettings_spec ofReal l _ hd hs

/-- what is read suits the attribute, and is read back unchanged -/
theorem get_suits {s : Settings} (hi : ∀ k, -2 ^ 31 ≤ s.ints k ∧ s.ints k < 2 ^ 31) {a : PyAttr} {v : PyArg} (h : a.get s = some v) : Suits a v v := by
  cases a with
  | bool k =>
    simp only [PyAttr.get, Settings.boolValue, optIdx_val, Option.map_some, Option.some.injEq] at h
    subst h; exact .bool k _
  | int k =>
    simp only [PyAttr.get, Settings.intValue, optIdx_val, Option.map_some, Option.some.injEq] at h
    subst h; exact .int k _ (hi k)
  | real k =>
    simp only [PyAttr.get, Settings.realValue, optIdx_val, Option.map_some, Option.some.injEq] at h
    subst h; exact .real k _
  | enum k e =>
    simp only [PyAttr.get, Settings.enumValue, optIdx_val, Option.map_some, Option.bind_some] at h
    split at h
    · rename_i hv
      simp only [Option.some.injEq] at h
      subst h; exact .member k e _ hv
    · cases h

/-- Settings written out by `props` (and `repr`) and created again have the same attributes; the 32-bit integers of the library are a
hypothesis here. (Part: the attributes must be readable, see `C116_mixed_violated`.) -/
theorem C116_copy_partial (allFlags errFlags : Nat) (ofReal : Ext ℚ → Option Int) (s : Settings)
    (hi : ∀ k, -2 ^ 31 ≤ s.ints k ∧ s.ints k < 2 ^ 31) (values : List (String × PyArg)) (h : pyProps s = some values) :
    ∃ s', pySettings allFlags errFlags ofReal values = some s' ∧ ∀ n, pyGetAttr s' n = pyGetAttr s n := by
  have hv : values.map Prod.fst = optPropMap.map Prod.fst ∧ ∀ p ∈ values, pyGetAttr s p.1 = some p.2 := by
    unfold pyProps at h
    have : ∀ (l : List (String × PyAttr)) (r : List (String × PyArg)),
        l.mapM (fun p => (pyGetAttr s p.1).map fun v => (p.1, v)) = some r → r.map Prod.fst = l.map Prod.fst ∧
          ∀ p ∈ r, pyGetAttr s p.1 = some p.2 := by
      intro l
      induction l with
      | nil =>
        intro r hr
        rw [List.mapM_nil] at hr
        cases hr
        exact ⟨rfl, by intro p hp; cases hp⟩
      | cons q l ih =>
        intro r hr
        rw [List.mapM_cons] at hr
        simp only [Option.bind_eq_bind, Option.bind_eq_some_iff, Option.map_eq_some_iff, Option.pure_def, Option.some.injEq] at hr
        obtain ⟨_, ⟨v, hv, rfl⟩, r', hr', rfl⟩ := hr
        obtain ⟨i1, i2⟩ := ih r' hr'
        refine ⟨by rw [List.map_cons, List.map_cons, i1], fun p hp => ?_⟩
        rcases List.mem_cons.mp hp with rfl | hp
        · exact hv
        · exact i2 p hp
    exact this _ _ h
  have hn : (values.map Prod.fst).Nodup := hv.1 ▸ optPropMap_names
  obtain ⟨s', e, h1, h2⟩ := C116_create allFlags errFlags ofReal (values.map fun p => (p.1, p.2, p.2))
    (by rw [List.map_map]; exact hn)
    (by
      intro p hp
      obtain ⟨q, hq, rfl⟩ := List.mem_map.mp hp
      have hg := hv.2 q hq
      cases ea : optPropMap.lookup q.1 with
      | none => simp only [pyGetAttr, ea, Option.bind_none] at hg; cases hg
      | some a =>
        rw [pyGetAttr_eq ea] at hg
        exact ⟨a, rfl, get_suits hi hg⟩)
  refine ⟨s', ?_, fun n => ?_⟩
  · rw [List.map_map] at e
    have : values.map ((fun p : String × PyArg × PyArg => (p.1, p.2.1)) ∘ fun p : String × PyArg => (p.1, p.2, p.2)) = values := by
      show values.map (fun p => (p.1, p.2)) = values
      simp
    rw [this] at e
    exact e
  · by_cases hm : n ∈ values.map Prod.fst
    · obtain ⟨q, hq, rfl⟩ := List.mem_map.mp hm
      rw [hv.2 q hq]
      exact h1 (q.1, q.2, q.2) (List.mem_map.mpr ⟨q, hq, rfl⟩)
    · have : optPropMap.lookup n = none := lookup_none n _ fun b hb => hm (hv.1 ▸ List.mem_map.mpr ⟨(n, b), hb, rfl⟩)
      simp only [pyGetAttr, this, Option.bind_none]

/-! ### examples -/

/-- no conversion of numbers with a fractional part -/
def noReal : Ext ℚ → Option Int := fun _ => none

/-- a few assignments, some of which are refused -/
example : (pyGetAttr (pyRun noReal (settingsCreate 0 0) [("stat_tol", .int 1), ("tr_solver", .str "CG"), ("tr_solver", .str "cg"),
    ("deriv_check", .member .derivCheck 3), ("colour", .int 1), ("stat_tol", .str "a")]) "tr_solver",
    pyGetAttr (pyRun noReal (settingsCreate 0 0) [("stat_tol", .int 1), ("stat_tol", .str "a")]) "stat_tol") =
      (some (.member .trSolver 1), some (.real (.fin 1))) := by decide +kernel

example : LastGiven "tr_solver" (.enum 6 .trSolver) (.member .trSolver 3)
    ([] ++ [("stat_tol", .int 1)] ++ [("tr_solver", .str "CG")] ++ [("tr_solver", .str "cg")]) (.member .trSolver 1) :=
  .skip _ _ _ (.given _ _ _ (.name 6 .trSolver "CG" 1 (by decide))) (Or.inr (.enumStr 6 .trSolver "cg" (by
    intro v h
    have : ∀ p ∈ pyMembers .trSolver, p.1 ≠ "cg" := by decide
    exact this _ h rfl)))

/-- the defaults satisfy the hypotheses of `C116_copy_partial` -/
example : (∀ k, -2 ^ 31 ≤ (settingsCreate 0 0).ints k ∧ (settingsCreate 0 0).ints k < 2 ^ 31) ∧ pyProps (settingsCreate 0 0) = some pyDefaults :=
  ⟨by decide +kernel, C116_defaults 0 0⟩

/-! ### violations -/

/-- After a settings file has chosen the mixed estimation of the multipliers, `dual_estimation_type` can no longer be read in Python (and thus
neither can `props`, `str` or `repr`): the enumeration of the binding lacks this value. For the same reason it cannot be chosen by name. -/
theorem C116_mixed_violated :
    (readLines noParsers true (settingsCreate 0 0) ["dual_estimation_type Mixed".toList]).2 = .okay ∧
    pyGetAttr (readLines noParsers true (settingsCreate 0 0) ["dual_estimation_type Mixed".toList]).1 "dual_estimation_type" = none ∧
    pyProps (readLines noParsers true (settingsCreate 0 0) ["dual_estimation_type Mixed".toList]).1 = none ∧
    (pySetAttr noReal (settingsCreate 0 0) "dual_estimation_type" (.str "Mixed")).2 = false := by decide +kernel

/-- Members of other enumerations are accepted without any error, and stand for whatever has the same number: assigning `TRSolver.CG` to
`hessian_eval` selects SR1; assigning `HessianEval.SimpleBFGS` to `dual_estimation_type` makes that attribute unreadable. -/
theorem C116_foreign_violated :
    (pySetAttr noReal (settingsCreate 0 0) "hessian_eval" (.member .trSolver 1)).2 = true ∧
    pyGetAttr (pySetAttr noReal (settingsCreate 0 0) "hessian_eval" (.member .trSolver 1)).1 "hessian_eval" = some (.member .hessianEval 1) ∧
    (pySetAttr noReal (settingsCreate 0 0) "dual_estimation_type" (.member .hessianEval 2)).2 = true ∧
    pyGetAttr (pySetAttr noReal (settingsCreate 0 0) "dual_estimation_type" (.member .hessianEval 2)).1 "dual_estimation_type" = none := by
  decide +kernel

/-- Anything is accepted for a switch, by its truth value in Python: the texts "False", "0" and "off" switch on,
and `None` switches off. -/
theorem C116_truth_violated :
    (["False", "0", "off"].all fun t => decide (pyGetAttr (pySetAttr noReal (settingsCreate 0 0) "enable_preprocessor" (.str t)).1
      "enable_preprocessor" = some (.bool true))) = true ∧
    pyGetAttr (pySetAttr noReal (settingsCreate 0 0) "perform_soc" .none).1 "perform_soc" = some (.bool false) := by
  decide +kernel

/-- Four settings of the library are not available in Python: the lower bound on the objective, the warm start of linear programs, and the
flags for floating point errors and warnings; no attribute stands for them, and their names raise an exception. -/
theorem C116_missing_violated :
    (∀ p ∈ optPropMap, p.2.libraryName ∉ ["obj_lower".toList, "always_warm_start_lp".toList, "float_warning_flags".toList,
      "float_error_flags".toList]) ∧
    (∀ n ∈ ["obj_lower", "always_warm_start_lp", "float_warning_flags", "float_error_flags"], pyGetAttr (settingsCreate 0 0) n = none ∧
      (pySetAttr noReal (settingsCreate 0 0) n (.int 0)).2 = false) := by decide +kernel

end Sleqp
