import Verif.Spec.PyErrors
import Verif.Props.Callback

/-! Lemmas on the errors seen by Python programs. -/

namespace Sleqp

/-- The registered callbacks are those with handles. -/
structure PyState.Inv (s : PyState) : Prop where
  cap : ∀ ev, (s.hs ev).cbs.length ≤ (s.hs ev).capacity
  mem : ∀ ev h, h ∈ (s.hs ev).cbs ↔ (h, ev) ∈ s.handles
  nodupC : ∀ ev, (s.hs ev).cbs.Nodup
  lt : ∀ p ∈ s.handles, p.1 < s.next
  inj : ∀ p ∈ s.handles, ∀ q ∈ s.handles, p.1 = q.1 → p = q
  nodup : s.handles.Nodup

theorem inv_init (err : ErrState) : (PyState.init err).Inv where
  cap _ := Nat.le_refl _
  mem _ _ := by simp [PyState.init, Handler.create]
  nodupC _ := List.nodup_nil
  lt := by intro p hp; cases hp
  inj := by intro p hp; cases hp
  nodup := List.nodup_nil

/-- What an operation on callbacks keeps. -/
structure OpKeeps (s s' : PyState) : Prop where
  inv : s'.Inv
  funcExc : s'.funcExc = s.funcExc
  calls : s'.calls = s.calls
  cbExc : (∀ p ∈ s.handles, s.cbExc p.1 = none) → ∀ p ∈ s'.handles, s'.cbExc p.1 = none

theorem OpKeeps.trans {s s' s'' : PyState} (h : OpKeeps s s') (h' : OpKeeps s' s'') : OpKeeps s s'' :=
  ⟨h'.inv, h'.funcExc.trans h.funcExc, h'.calls.trans h.calls, fun hc => h'.cbExc (h.cbExc hc)⟩

theorem solverAdd_cases (hs : Nat → Handler Nat) (ev h : Nat) (hc : ∀ e, (hs e).cbs.length ≤ (hs e).capacity) :
    (∃ e, solverAddCallback hs ev h = .error e) ∨
    ∃ H, solverAddCallback hs ev h = .ok (setHandler hs ev H) ∧ H.cbs = (hs ev).cbs ++ [h] ∧ H.cbs.length ≤ H.capacity := by
  unfold solverAddCallback
  by_cases hev : (ev : Int) < 0 ∨ 3 ≤ (ev : Int)
  · left; rw [if_pos hev]; exact ⟨_, rfl⟩
  · right
    rw [if_neg hev, Int.toNat_natCast]
    obtain ⟨H, h1, h2, h3⟩ := Handler.add_spec (hs ev) h (hc ev)
    exact ⟨H, by rw [h1]; rfl, h2, h3⟩

theorem solverRemove_cases (hs : Nat → Handler Nat) (ev h : Nat) (hc : ∀ e, (hs e).cbs.length ≤ (hs e).capacity) :
    (∃ e, solverRemoveCallback hs ev h = .error e) ∨
    ∃ H, solverRemoveCallback hs ev h = .ok (setHandler hs ev H) ∧ (H.cbs : Multiset Nat) = ((hs ev).cbs : Multiset Nat).erase h ∧
      H.cbs.length ≤ H.capacity := by
  unfold solverRemoveCallback
  by_cases hev : (ev : Int) < 0 ∨ 3 ≤ (ev : Int)
  · left; rw [if_pos hev]; exact ⟨_, rfl⟩
  · rw [if_neg hev, Int.toNat_natCast]
    obtain ⟨h1, h2⟩ := Handler.remove_spec (hs ev) h (hc ev)
    by_cases hm : h ∈ (hs ev).cbs
    · obtain ⟨H, h3, h4, h5⟩ := h2 hm
      right; exact ⟨H, by rw [h3]; rfl, h4, h5⟩
    · left; rw [h1 hm]; exact ⟨_, rfl⟩

theorem op_keeps {s : PyState} (hs : s.Inv) (o : HandleOp) : OpKeeps s (s.op o) := by
  cases o with
  | add ev =>
    have hfresh : ∀ e, (s.next, e) ∉ s.handles := fun e he => Nat.lt_irrefl _ (hs.lt _ he)
    rcases solverAdd_cases s.hs ev s.next hs.cap with ⟨e, he⟩ | ⟨H, hH, hc, hcap⟩
    · simp only [PyState.op, he]
      exact ⟨⟨hs.cap, hs.mem, hs.nodupC, fun p hp => Nat.lt_succ_of_lt (hs.lt p hp), hs.inj, hs.nodup⟩, rfl, rfl, fun h => h⟩
    · simp only [PyState.op, hH]
      refine ⟨⟨?_, ?_, ?_, ?_, ?_, ?_⟩, rfl, rfl, ?_⟩
      · intro e
        show (setHandler s.hs ev H e).cbs.length ≤ (setHandler s.hs ev H e).capacity
        unfold setHandler
        split
        · exact hcap
        · exact hs.cap e
      · intro e k
        show k ∈ (setHandler s.hs ev H e).cbs ↔ (k, e) ∈ s.handles ++ [(s.next, ev)]
        unfold setHandler
        split
        · rename_i h; subst h
          rw [hc]; simp [hs.mem]
        · rename_i h
          rw [hs.mem]; simp [h]
      · intro e
        show (setHandler s.hs ev H e).cbs.Nodup
        unfold setHandler
        split
        · rw [hc]
          refine List.nodup_append.mpr ⟨hs.nodupC ev, List.nodup_singleton _, ?_⟩
          intro a ha b hb hab
          rw [List.mem_singleton] at hb
          rw [hab, hb] at ha
          exact hfresh _ ((hs.mem _ _).mp ha)
        · exact hs.nodupC e
      · intro p hp
        rcases List.mem_append.mp hp with hp | hp
        · exact Nat.lt_succ_of_lt (hs.lt p hp)
        · rw [List.mem_singleton] at hp; subst hp; exact Nat.lt_succ_self _
      · intro p hp q hq hpq
        rcases List.mem_append.mp hp with hp | hp <;> rcases List.mem_append.mp hq with hq | hq
        · exact hs.inj p hp q hq hpq
        · rw [List.mem_singleton] at hq; subst hq
          have := hs.lt p hp; rw [hpq] at this; exact absurd this (Nat.lt_irrefl _)
        · rw [List.mem_singleton] at hp; subst hp
          have := hs.lt q hq; rw [← hpq] at this; exact absurd this (Nat.lt_irrefl _)
        · rw [List.mem_singleton] at hp hq; rw [hp, hq]
      · refine List.nodup_append.mpr ⟨hs.nodup, List.nodup_singleton _, ?_⟩
        intro a ha b hb hab
        rw [List.mem_singleton] at hb
        rw [hab, hb] at ha
        exact hfresh _ ha
      · intro h p hp
        show (if p.1 = s.next then none else s.cbExc p.1) = none
        rcases List.mem_append.mp hp with hp | hp
        · rw [h p hp]; split <;> rfl
        · rw [List.mem_singleton] at hp; subst hp; exact if_pos rfl
  | remove h =>
    rcases hf : s.handles.find? (fun p => p.1 = h) with _ | p
    · simp only [PyState.op, hf]
      exact ⟨hs, rfl, rfl, fun h => h⟩
    · simp only [PyState.op, hf]
      have hp : p ∈ s.handles := List.mem_of_find?_eq_some hf
      have hph : p.1 = h := by simpa using List.find?_some hf
      subst hph
      rcases solverRemove_cases s.hs p.2 p.1 hs.cap with ⟨e, he⟩ | ⟨H, hH, hc, hcap⟩
      · simp only [he]; exact ⟨hs, rfl, rfl, fun h => h⟩
      · simp only [hH]
        have hmem : ∀ k, k ∈ H.cbs ↔ k ≠ p.1 ∧ k ∈ (s.hs p.2).cbs := by
          intro k
          rw [← Multiset.mem_coe, hc, Multiset.coe_erase, Multiset.mem_coe, (hs.nodupC p.2).mem_erase_iff]
        have hsub : ∀ q, q ∈ s.handles.erase p ↔ q ≠ p ∧ q ∈ s.handles := fun q => hs.nodup.mem_erase_iff
        refine ⟨⟨?_, ?_, ?_, ?_, ?_, ?_⟩, rfl, rfl, ?_⟩
        · intro e
          show (setHandler s.hs p.2 H e).cbs.length ≤ (setHandler s.hs p.2 H e).capacity
          unfold setHandler
          split
          · exact hcap
          · exact hs.cap e
        · intro e k
          show k ∈ (setHandler s.hs p.2 H e).cbs ↔ (k, e) ∈ s.handles.erase p
          rw [hsub]
          unfold setHandler
          split
          · rename_i h; subst h
            rw [hmem, hs.mem]
            constructor
            · rintro ⟨h1, h2⟩; exact ⟨fun h => h1 (congrArg Prod.fst h), h2⟩
            · rintro ⟨h1, h2⟩; exact ⟨fun h => h1 (hs.inj _ h2 _ hp h), h2⟩
          · rename_i h
            rw [hs.mem]
            constructor
            · intro h2; exact ⟨fun h3 => h (congrArg Prod.snd h3), h2⟩
            · rintro ⟨_, h2⟩; exact h2
        · intro e
          show (setHandler s.hs p.2 H e).cbs.Nodup
          unfold setHandler
          split
          · rw [← Multiset.coe_nodup, hc, Multiset.coe_erase, Multiset.coe_nodup]
            exact (hs.nodupC _).erase _
          · exact hs.nodupC e
        · intro q hq; exact hs.lt q ((hsub q).mp hq).2
        · intro q hq q' hq'; exact hs.inj q ((hsub q).mp hq).2 q' ((hsub q').mp hq').2
        · exact hs.nodup.erase _
        · intro h q hq; exact h q ((hsub q).mp hq).2

theorem ops_keep (ops : List HandleOp) {s : PyState} (hs : s.Inv) : OpKeeps s (ops.foldl PyState.op s) := by
  induction ops generalizing s with
  | nil => exact ⟨hs, rfl, rfl, fun h => h⟩
  | cons o t ih => exact (op_keeps hs o).trans (ih (op_keeps hs o).inv)

/-- A handle that is not removed stays. -/
theorem op_stays {s : PyState} {p : Nat × Nat} (hp : p ∈ s.handles) {o : HandleOp} (ho : o ≠ .remove p.1) :
    p ∈ (s.op o).handles := by
  cases o with
  | add ev =>
    simp only [PyState.op]
    split
    · exact hp
    · exact List.mem_append_left _ hp
  | remove h =>
    have hne : h ≠ p.1 := fun h' => ho (by rw [h'])
    rcases hf : s.handles.find? (fun p => p.1 = h) with _ | q
    · simp only [PyState.op, hf]
      exact hp
    · have hq : q.1 = h := by simpa using List.find?_some hf
      simp only [PyState.op, hf]
      split
      · exact hp
      · exact (List.mem_erase_of_ne (fun h' => hne (by rw [h', hq]))).mpr hp

theorem ops_stay (ops : List HandleOp) {s : PyState} {p : Nat × Nat} (hp : p ∈ s.handles) (ho : HandleOp.remove p.1 ∉ ops) :
    p ∈ (ops.foldl PyState.op s).handles := by
  induction ops generalizing s with
  | nil => exact hp
  | cons o t ih =>
    refine ih (op_stays hp ?_) (fun h => ho (List.mem_cons_of_mem _ h))
    intro h; exact ho (by rw [h]; exact List.mem_cons_self)

/-! ### evaluations -/

theorem evalLayers_raises (e : UserExc) (outer : List FuncLayer) (bad : Option String) (err : ErrState) :
    evalLayers (some e) (outer ++ [⟨false, bad⟩]) err = (false, ⟨.funcEvalError, none⟩) := by
  induction outer with
  | nil => simp [evalLayers, funcCall]
  | cons l t ih =>
    rw [List.cons_append]
    unfold evalLayers
    rw [ih]
    unfold funcCall
    split <;> simp

theorem evalLayers_bad (m : String) (outer : List FuncLayer) (h : ∀ l ∈ outer, l.internal = true) (err : ErrState) :
    evalLayers none (outer ++ [⟨false, some m⟩]) err = (false, ⟨.failedAssertion, some m⟩) := by
  induction outer with
  | nil => simp [evalLayers, funcCall]
  | cons l t ih =>
    rw [List.cons_append]
    unfold evalLayers
    rw [ih (fun l hl => h l (List.mem_cons_of_mem _ hl))]
    simp [funcCall, h l List.mem_cons_self]

theorem evalLayers_good (outer : List FuncLayer) (h : ∀ l ∈ outer, l.bad = none) (err : ErrState) :
    evalLayers none (outer ++ [⟨false, none⟩]) err = (true, err) := by
  induction outer with
  | nil => simp [evalLayers, funcCall]
  | cons l t ih =>
    rw [List.cons_append]
    unfold evalLayers
    rw [ih (fun l hl => h l (List.mem_cons_of_mem _ hl))]
    simp [funcCall, h l List.mem_cons_self]

/-! ### runs -/

/-- The state during a solve: nothing has failed. -/
structure PyState.Clean (s : PyState) : Prop where
  inv : s.Inv
  funcExc : s.funcExc = none
  cbExc : ∀ p ∈ s.handles, s.cbExc p.1 = none
  calls : ∀ c ∈ s.calls, c.2 = none

/-- How a solve fails: by the library, by a function, by a callback (`stays`: it has not unregistered itself). -/
inductive PyState.Failed (stays : Prop) (s : PyState) : Prop
  | lib (h : s.Clean)
  | func (e : UserExc) (l : List (CallSrc × Option UserExc)) (inv : s.Inv) (hc : s.calls = l ++ [(.func, some e)]) (hl : ∀ c ∈ l, c.2 = none)
      (hf : s.funcExc = some e) (he : s.err = ⟨.funcEvalError, none⟩)
  | callback (h : Nat) (e : UserExc) (l : List (CallSrc × Option UserExc)) (inv : s.Inv) (hc : s.calls = l ++ [(.callback h, some e)])
      (hl : ∀ c ∈ l, c.2 = none) (hx : ∀ p ∈ s.handles, s.cbExc p.1 = if p.1 = h then some e else none)
      (he : s.err.type = .callbackError) (hs : stays → ∃ ev, (h, ev) ∈ s.handles)

theorem PyState.Failed.inv {stays : Prop} {s : PyState} (h : s.Failed stays) : s.Inv := by
  cases h with
  | lib h => exact h.inv
  | func _ _ inv => exact inv
  | callback _ _ _ inv => exact inv

theorem PyState.Failed.mono {P Q : Prop} {s : PyState} (h : s.Failed P) (hq : Q → P) : s.Failed Q := by
  cases h with
  | lib h => exact .lib h
  | func e l inv hc hl hf he => exact .func e l inv hc hl hf he
  | callback h e l inv hc hl hx he hs => exact .callback h e l inv hc hl hx he fun q => hs (hq q)

/-- A result of a step or a run. -/
def Result (stays : Prop) (r : Bool × PyState) : Prop := (r.1 = true → r.2.Clean) ∧ (r.1 = false → r.2.Failed stays)

theorem PyState.Inv.withErr {s : PyState} (h : s.Inv) (e : ErrState) : PyState.Inv { s with err := e } :=
  ⟨h.cap, h.mem, h.nodupC, h.lt, h.inj, h.nodup⟩

theorem PyState.Clean.withErr {s : PyState} (h : s.Clean) (e : ErrState) : PyState.Clean { s with err := e } :=
  ⟨h.inv.withErr e, h.funcExc, h.cbExc, h.calls⟩

theorem dispatch_result (beh : Nat → CbRun) (ev : Nat) (fuel pos : Nat) {s : PyState} (hs : s.Clean) :
    Result (∀ h, (beh h).raises ≠ none → HandleOp.remove h ∉ (beh h).ops) (s.dispatch beh ev fuel pos) := by
  induction fuel generalizing s pos with
  | zero => exact ⟨fun _ => hs, fun h => by cases h⟩
  | succ fuel ih =>
    unfold PyState.dispatch
    unfold Handler.get
    rcases hg : (s.hs ev).cbs[pos]? with _ | h
    · exact ⟨fun h => (by cases h), fun _ => .lib (hs.withErr _)⟩
    · have hm : (h, ev) ∈ s.handles := (hs.inv.mem ev h).mp (List.mem_of_getElem? hg)
      have hk := ops_keep (beh h).ops hs.inv
      dsimp only
      rcases hr : (beh h).raises with _ | e
      · have hcb : s.callback h (beh h) =
            (true, { (beh h).ops.foldl PyState.op s with calls := s.calls ++ [(.callback h, none)] }) := by
          simp only [PyState.callback, hr]
        rw [hcb]
        rw [if_pos rfl]
        refine ih (pos + 1) ⟨⟨hk.inv.cap, hk.inv.mem, hk.inv.nodupC, hk.inv.lt, hk.inv.inj, hk.inv.nodup⟩,
          hk.funcExc.trans hs.funcExc, hk.cbExc hs.cbExc, ?_⟩
        intro c hc
        rcases List.mem_append.mp hc with hc | hc
        · exact hs.calls c hc
        · rw [List.mem_singleton] at hc; rw [hc]
      · have hcb : s.callback h (beh h) =
            (false, { (beh h).ops.foldl PyState.op s with
                        calls := s.calls ++ [(.callback h, some e)],
                        cbExc := fun k => if k = h then some e else ((beh h).ops.foldl PyState.op s).cbExc k }) := by
          simp only [PyState.callback, hr]
        rw [hcb]
        rw [if_neg (by simp)]
        refine ⟨fun h => (by cases h), fun _ => .callback h e s.calls
          ⟨hk.inv.cap, hk.inv.mem, hk.inv.nodupC, hk.inv.lt, hk.inv.inj, hk.inv.nodup⟩ rfl hs.calls ?_ rfl ?_⟩
        · intro p hp
          show (if p.1 = h then some e else ((beh h).ops.foldl PyState.op s).cbExc p.1) = _
          rw [hk.cbExc hs.cbExc p hp]
        · intro hst
          exact ⟨ev, ops_stay (p := (h, ev)) _ hm (hst h (by rw [hr]; simp))⟩

theorem step_result {s : PyState} (hs : s.Clean) (st : LibStep) : Result (StaysRegistered [st]) (s.step st) := by
  cases st with
  | eval outer bad raises =>
    cases raises with
    | none =>
      have hc : PyState.Clean { s with err := (evalLayers none (outer ++ [⟨false, bad⟩]) s.err).2, calls := s.calls ++ [(.func, none)] } := by
        refine ⟨⟨hs.inv.cap, hs.inv.mem, hs.inv.nodupC, hs.inv.lt, hs.inv.inj, hs.inv.nodup⟩, hs.funcExc, hs.cbExc, ?_⟩
        intro c hc
        rcases List.mem_append.mp hc with hc | hc
        · exact hs.calls c hc
        · rw [List.mem_singleton] at hc; rw [hc]
      exact ⟨fun _ => hc, fun _ => .lib hc⟩
    | some e =>
      have h := evalLayers_raises e outer bad s.err
      refine ⟨fun h' => ?_, fun _ => .func e s.calls ⟨hs.inv.cap, hs.inv.mem, hs.inv.nodupC, hs.inv.lt, hs.inv.inj, hs.inv.nodup⟩ rfl hs.calls
        rfl (by simp only [PyState.step, h])⟩
      simp only [PyState.step, h] at h'
      cases h'
  | event ev beh =>
    have h := dispatch_result beh ev (s.hs ev).size 0 hs
    exact ⟨h.1, fun h' => (h.2 h').mono fun hst h => hst ev beh (List.mem_singleton.mpr rfl) h⟩
  | fail t m => exact ⟨fun h => (by cases h), fun _ => .lib (hs.withErr _)⟩

theorem run_result (steps : List LibStep) {s : PyState} (hs : s.Clean) : Result (StaysRegistered steps) (PyState.run steps s) := by
  induction steps generalizing s with
  | nil => exact ⟨fun _ => hs, fun h => by cases h⟩
  | cons st t ih =>
    have h := step_result hs st
    unfold PyState.run
    dsimp only
    rcases hr : s.step st with ⟨b, s'⟩
    rw [hr] at h
    cases b with
    | true =>
      rw [if_pos rfl]
      have h' := ih (h.1 rfl)
      exact ⟨h'.1, fun hb => (h'.2 hb).mono fun hst ev beh hm => hst ev beh (List.mem_cons_of_mem _ hm)⟩
    | false =>
      rw [if_neg (by simp)]
      refine ⟨fun hb => (by cases hb), fun _ => (h.2 rfl).mono fun hst ev beh hm => hst ev beh ?_⟩
      rw [List.mem_singleton] at hm
      rw [hm]; exact List.mem_cons_self

theorem reset_clean {s : PyState} (hs : s.Inv) : s.reset.Clean := by
  refine ⟨⟨hs.cap, hs.mem, hs.nodupC, hs.lt, hs.inj, hs.nodup⟩, rfl, ?_, by intro c hc; cases hc⟩
  intro p hp
  show (if s.handles.any (fun q => q.1 = p.1) then none else s.cbExc p.1) = none
  rw [if_pos]
  exact List.any_eq_true.mpr ⟨p, hp, by simp⟩

theorem solve_snd (s : PyState) (steps : List LibStep) : (s.solve steps).2 = (PyState.run steps s.reset).2 := by
  unfold PyState.solve
  dsimp only
  split <;> rfl

theorem solve_cases {s : PyState} (hs : s.Inv) (steps : List LibStep) :
    ((s.solve steps).1 = none ∧ (s.solve steps).2.Clean) ∨
    ((s.solve steps).1 = some (s.solve steps).2.raised ∧ (s.solve steps).2.Failed (StaysRegistered steps)) := by
  have h := run_result steps (reset_clean hs)
  unfold PyState.solve
  dsimp only
  rcases hr : PyState.run steps s.reset with ⟨b, s'⟩
  rw [hr] at h
  cases b with
  | true => left; rw [if_pos rfl]; exact ⟨rfl, h.1 rfl⟩
  | false => right; rw [if_neg (by simp)]; exact ⟨rfl, h.2 rfl⟩

theorem act_inv {s : PyState} (hs : s.Inv) (a : PyAct) : (s.act a).Inv := by
  cases a with
  | op o => exact (op_keeps hs o).inv
  | solve steps =>
    rcases solve_cases hs steps with ⟨_, h⟩ | ⟨_, h⟩
    · exact h.inv
    · exact h.inv

theorem history_inv {s : PyState} (h : s.History) : s.Inv := by
  obtain ⟨err, acts, rfl⟩ := h
  have key : ∀ (acts : List PyAct) (s : PyState), s.Inv → (List.foldl PyState.act s acts).Inv := by
    intro acts
    induction acts with
    | nil => exact fun s hs => hs
    | cons a t ih => exact fun s hs => ih _ (act_inv hs a)
  exact key acts _ (inv_init err)

theorem firstCbExc_none {s : PyState} (h : ∀ p ∈ s.handles, s.cbExc p.1 = none) : s.firstCbExc = none :=
  List.findSome?_eq_none_iff.mpr h

theorem firstCbExc_cases {s : PyState} {h : Nat} {e : UserExc} (hx : ∀ p ∈ s.handles, s.cbExc p.1 = if p.1 = h then some e else none) :
    (∃ ev, (h, ev) ∈ s.handles) ∧ s.firstCbExc = some e ∨ (¬ ∃ ev, (h, ev) ∈ s.handles) ∧ s.firstCbExc = none := by
  by_cases hm : ∃ ev, (h, ev) ∈ s.handles
  · left
    refine ⟨hm, ?_⟩
    obtain ⟨ev, hm⟩ := hm
    rcases hf : s.firstCbExc with _ | e'
    · have := List.findSome?_eq_none_iff.mp hf _ hm
      rw [hx _ hm, if_pos rfl] at this; cases this
    · obtain ⟨p, hp, hpe⟩ := List.exists_of_findSome?_eq_some hf
      rw [hx p hp] at hpe
      split at hpe
      · rw [hpe]
      · cases hpe
  · right
    refine ⟨hm, List.findSome?_eq_none_iff.mpr ?_⟩
    intro p hp
    rw [hx p hp, if_neg]
    intro hph; exact hm ⟨p.2, by rw [← hph]; exact hp⟩

theorem raised_func {s : PyState} (he : s.err.type = .funcEvalError) :
    s.raised = .caused .exception (some "Error during solution process") (withCause .evaluationError s.err.msg s.funcExc) := by
  unfold PyState.raised; simp only [he]

theorem raised_callback {s : PyState} (he : s.err.type = .callbackError) :
    s.raised = .caused .exception (some "Error during solution process") (withCause .callbackError (some "") s.firstCbExc) := by
  unfold PyState.raised; simp only [he]

theorem raised_other {s : PyState} (he : s.err.type ≠ .funcEvalError) (he' : s.err.type ≠ .callbackError) :
    s.raised = .caused .exception (some "Error during solution process") (.plain s.err.type.kind s.err.msg) := by
  unfold PyState.raised
  split
  · contradiction
  · contradiction
  · rfl

theorem withCause_root {k : PyKind} {m : Option String} {o : Option UserExc} {e : UserExc} (h : (withCause k m o).root = some e) : o = some e := by
  cases o with
  | none => cases h
  | some e' =>
    simp only [withCause] at h
    by_cases ht : e'.truthy = true
    · rw [if_pos ht] at h; exact h
    · rw [if_neg ht] at h; cases h

theorem pyRun_cons (st : LibStep) (t : List LibStep) (s : PyState) :
    PyState.run (st :: t) s = if (s.step st).1 then PyState.run t (s.step st).2 else s.step st := rfl

theorem pyRun_append {pre : List LibStep} {s : PyState} (h : (PyState.run pre s).1 = true) (post : List LibStep) :
    PyState.run (pre ++ post) s = PyState.run post (PyState.run pre s).2 := by
  induction pre generalizing s with
  | nil => rfl
  | cons st t ih =>
    rw [pyRun_cons] at h
    rw [List.cons_append, pyRun_cons, pyRun_cons]
    by_cases hc : (s.step st).1 = true
    · rw [if_pos hc] at h
      rw [if_pos hc, if_pos hc]; exact ih h
    · rw [if_neg hc] at h; exact absurd h hc

end Sleqp
