import Verif.Spec.Gil
import Verif.Props.Callback

/-!
C128: the global interpreter lock in the Python bindings.
-/

namespace Sleqp

/-! ### lemmas -/

/-- whatever is found has the right variant, and solves run without the lock only while its release is switched on -/
structure GInv (s : GState) : Prop where
  variant : ∀ k id, s.registered k id = true → s.nogil k id = s.release
  held : ∀ t, s.solving t = some false → s.release = true
  ok : ∀ b ∈ s.ok, b = true

theorem GInv.init : GInv .init := ⟨fun _ _ _ => rfl, fun t h => by simp [GState.init] at h, fun b h => by simp [GState.init] at h⟩

/-- switching exchanges everything that is found, and nothing else -/
theorem setRelease_spec (s : GState) (hs : ∀ k id, s.registered k id = true → s.nogil k id = s.release) (v : Bool) :
    (s.perform (.setRelease v)).release = v ∧ (s.perform (.setRelease v)).registered = s.registered ∧
    (s.perform (.setRelease v)).solving = s.solving ∧ (s.perform (.setRelease v)).ok = s.ok ∧
    (∀ k id, (s.perform (.setRelease v)).nogil k id = if s.registered k id = true then v else s.nogil k id) := by
  have e : s.perform (.setRelease v) = s.steps (if v = s.release then []
      else [.flag v, .update .log, .update .func, .update .dyn, .update .lsq, .update .callback]) := rfl
  rw [e]
  by_cases hv : v = s.release
  · rw [if_pos hv]
    refine ⟨hv.symm, rfl, rfl, rfl, fun k id => ?_⟩
    by_cases hr : s.registered k id = true
    · rw [if_pos hr, hv]; exact hs k id hr
    · rw [if_neg hr]; rfl
  · rw [if_neg hv]
    refine ⟨rfl, rfl, rfl, rfl, fun k id => ?_⟩
    simp only [GState.steps, GState.step]
    by_cases hr : s.registered k id = true
    · cases k <;> simp [hr]
    · cases k <;> simp [hr]

theorem GInv.perform {s : GState} (h : GInv s) {op : GOp} (hf : op.Fine s) : GInv (s.perform op) := by
  cases op with
  | setRelease v =>
    obtain ⟨h1, h2, h3, h4, h5⟩ := setRelease_spec s h.variant v
    refine ⟨fun k id hr => ?_, fun t ht => ?_, by rw [h4]; exact h.ok⟩
    · rw [h2] at hr
      rw [h5, if_pos hr, h1]
    · rw [h3] at ht
      rw [h1]
      cases v with
      | true => rfl
      | false => exact absurd ht (hf rfl t)
  | create k id =>
    refine ⟨fun k' id' hr => ?_, h.held, h.ok⟩
    simp only [GState.perform, GOp.parts, GState.steps, GState.step] at hr ⊢
    by_cases hk : k' = k ∧ id' = id
    · rw [if_pos hk]
    · rw [if_neg hk] at hr ⊢
      exact h.variant k' id' hr
  | destroy k id =>
    refine ⟨fun k' id' hr => ?_, h.held, h.ok⟩
    simp only [GState.perform, GOp.parts, GState.steps, GState.step] at hr ⊢
    by_cases hk : k' = k ∧ id' = id
    · rw [if_pos hk] at hr; cases hr
    · rw [if_neg hk] at hr
      exact h.variant k' id' hr
  | start t =>
    refine ⟨h.variant, fun t' ht => ?_, h.ok⟩
    simp only [GState.perform, GOp.parts, GState.steps, GState.step] at ht ⊢
    by_cases hk : t' = t
    · rw [if_pos hk] at ht
      simpa using ht
    · rw [if_neg hk] at ht
      exact h.held t' ht
  | finish t =>
    refine ⟨h.variant, fun t' ht => ?_, h.ok⟩
    simp only [GState.perform, GOp.parts, GState.steps, GState.step] at ht ⊢
    by_cases hk : t' = t
    · rw [if_pos hk] at ht; cases ht
    · rw [if_neg hk] at ht
      exact h.held t' ht
  | callback t k id =>
    refine ⟨h.variant, h.held, fun b hb => ?_⟩
    simp only [GState.perform, GOp.parts, GState.steps, GState.step] at hb
    rcases List.mem_append.1 hb with hb | hb
    · exact h.ok b hb
    · rw [List.mem_singleton.1 hb, h.variant k id hf]
      cases hs : s.solving t with
      | none => simp
      | some held =>
        cases held with
        | true => simp
        | false => rw [h.held t hs]; rfl

theorem GInv.performAll : ∀ {ops : List GOp} {s : GState}, GInv s → FineAll s ops → GInv (s.performAll ops)
  | [], _, h, _ => h
  | op :: ops, s, h, hf => GInv.performAll (ops := ops) (s := s.perform op) (h.perform hf.1) hf.2

theorem performAll_append : ∀ (ops ops' : List GOp) (s : GState), s.performAll (ops ++ ops') = (s.performAll ops).performAll ops'
  | [], _, _ => rfl
  | _ :: ops, ops', _ => performAll_append ops ops' _

/-! ### C128 -/

/-- C128: in any history of operations, each of them performed without interruption, of any number of threads, in which the release of the lock is
not revoked while a solve runs without it, all Python code called by the library runs with the lock. -/
theorem C128_held_partial {ops : List GOp} (h : FineAll .init ops) : ∀ b ∈ (GState.init.performAll ops).ok, b = true :=
  (GInv.init.performAll h).ok

/-- C128: switching reaches everything alive: after any such history, functions, callbacks and log handler acquire the lock exactly if its release is
switched on. -/
theorem C128_switch_partial {ops : List GOp} (h : FineAll .init ops) (v : Bool) {k : GKind} {id : ℕ}
    (hr : (GState.init.performAll ops).registered k id = true) :
    ((GState.init.performAll ops).perform (.setRelease v)).nogil k id = v := by
  rw [(setRelease_spec _ (GInv.init.performAll h).variant v).2.2.2.2, if_pos hr]

/-- The code violates C128 if a callback, or another thread, switches the release off during a solve without the lock: whatever happened before,
each further call by this solve runs Python code without the lock. -/
theorem C128_revoked_violated {ops : List GOp} (h : FineAll .init ops) {t : ℕ} (ht : (GState.init.performAll ops).solving t = some false)
    {k : GKind} {id : ℕ} (hr : (GState.init.performAll ops).registered k id = true) :
    (GState.init.performAll (ops ++ [.setRelease false, .callback t k id])).ok = (GState.init.performAll ops).ok ++ [false] := by
  rw [performAll_append]
  obtain ⟨-, h2, h3, h4, h5⟩ := setRelease_spec _ (GInv.init.performAll h).variant false
  show (((GState.init.performAll ops).perform (.setRelease false)).perform (.callback t k id)).ok = _
  generalize hs' : (GState.init.performAll ops).perform (.setRelease false) = s' at *
  simp only [GState.perform, GOp.parts, GState.steps, GState.step]
  rw [h4, h5, if_pos hr, h3, ht]
  rfl

/-- sample history: two problems, a callback, solves with and without the lock -/
def exGil : List GOp :=
  [.create .func 1, .start 0, .callback 0 .func 1, .setRelease true, .create .lsq 2, .callback 0 .func 1, .finish 0, .create .callback 3, .start 0, .start 1,
   .callback 1 .lsq 2, .callback 0 .callback 3, .callback 0 .log 0]

theorem exGil_fine : FineAll .init exGil := by
  simp [FineAll, exGil, GOp.Fine, GState.perform, GOp.parts, GState.steps, GState.step, GState.init]

example : (GState.init.performAll exGil).ok = [true, true, true, true, true] := by decide +kernel

example : ∀ b ∈ (GState.init.performAll exGil).ok, b = true := C128_held_partial exGil_fine

example : (GState.init.performAll (exGil ++ [.setRelease false, .callback 0 .func 1])).ok = (GState.init.performAll exGil).ok ++ [false] :=
  C128_revoked_violated exGil_fine (by decide +kernel) (by decide +kernel)

/-- The code violates C128 if a problem is created while another thread switches: functions are found by `set_release_gil` only at the end of the
creation, so that a function created before and registered after the switch keeps the variant without the lock, and is called without it. -/
theorem C128_creation_violated :
    (GState.init.steps [.make .func 1, .flag true, .update .log, .update .func, .update .dyn, .update .lsq, .update .callback, .register .func 1,
      .enter 0, .call 0 .func 1]).ok = [false] ∧
    (GState.init.performAll [.create .func 1, .setRelease true, .start 0, .callback 0 .func 1]).ok = [true] := by
  constructor <;> decide +kernel

/-- The code violates C128 if a solve begins while another thread is switching: the flag is set first, the functions are exchanged one after the
other afterwards. -/
theorem C128_switching_violated :
    (GState.init.steps [.make .func 1, .register .func 1, .flag true, .update .log, .enter 0, .call 0 .func 1, .update .func, .update .dyn,
      .update .lsq, .update .callback]).ok = [false] := by
  decide +kernel

/-! ### callbacks -/

/-- C128: switching keeps the callbacks of each event: no call fails, and afterwards exactly the same callbacks are registered, with the functions for
the new mode. -/
theorem C128_callbacks_partial (v : Bool) : ∀ {handles done : List GHandle} {h : Handler GHandle},
    (h.cbs : Multiset GHandle) = ((done ++ handles : List GHandle) : Multiset GHandle) → h.cbs.length ≤ h.capacity →
    ∃ h', updateHandles v handles h = .ok h' ∧ (h'.cbs : Multiset GHandle) = ((done ++ switched v handles : List GHandle) : Multiset GHandle) ∧
      h'.cbs.length ≤ h'.capacity
  | [], done, h, hc, hl => ⟨h, rfl, hc, hl⟩
  | c :: rest, done, h, hc, hl => by
    have hm : c ∈ h.cbs := by
      have : c ∈ (h.cbs : Multiset GHandle) := by rw [hc]; simp
      simpa using this
    obtain ⟨h1, e1, f1, g1⟩ := (h.remove_spec c hl).2 hm
    obtain ⟨h2, e2, f2, g2⟩ := h1.add_spec (v, c.2) g1
    have hc2 : (h2.cbs : Multiset GHandle) = (((done ++ [(v, c.2)]) ++ rest : List GHandle) : Multiset GHandle) := by
      have herase : (h.cbs : Multiset GHandle).erase c = ((done ++ rest : List GHandle) : Multiset GHandle) := by
        rw [hc, show ((done ++ c :: rest : List GHandle) : Multiset GHandle) = c ::ₘ ((done ++ rest : List GHandle) : Multiset GHandle) from
          Multiset.coe_eq_coe.mpr List.perm_middle, Multiset.erase_cons_head]
      rw [f2]
      have hp : h1.cbs.Perm (done ++ rest) := Multiset.coe_eq_coe.1 (f1.trans herase)
      refine Multiset.coe_eq_coe.2 ((hp.append_right _).trans ?_)
      rw [List.append_assoc, List.append_assoc]
      exact List.Perm.append_left done (List.perm_append_comm (l₁ := rest) (l₂ := [(v, c.2)]))
    obtain ⟨h', e3, f3, g3⟩ := C128_callbacks_partial v (handles := rest) (done := done ++ [(v, c.2)]) hc2 g2
    refine ⟨h', ?_, ?_, g3⟩
    · unfold updateHandles
      rw [e1]
      simp only []
      rw [e2]
      exact e3
    · rw [f3]
      simp [switched]

/-- sample handler: callbacks with handles `0, …, n - 1`, without the lock -/
def exHandles (n : ℕ) : List GHandle := (List.range n).map fun i => (false, i)

/-- their functions are exchanged -/
example : ∃ h', updateHandles true (exHandles 3) ⟨4, exHandles 3⟩ = .ok h' ∧
    (h'.cbs : Multiset GHandle) = ((switched true (exHandles 3) : List GHandle) : Multiset GHandle) ∧ h'.cbs.length ≤ h'.capacity :=
  C128_callbacks_partial true (done := []) rfl (by decide)

/-- The code violates C128 for the order of callbacks: with three callbacks for an event, switching changes the order in which they are called; with
two of them it does not. -/
theorem C128_order_violated :
    (updateHandles true (exHandles 3) ⟨4, exHandles 3⟩).map Handler.cbs = .ok [(true, 1), (true, 0), (true, 2)] ∧
    (updateHandles true (exHandles 2) ⟨2, exHandles 2⟩).map Handler.cbs = .ok (switched true (exHandles 2)) := by
  constructor <;> rfl

/-- The code violates C128 for callbacks that switch: if the first of three callbacks calls `set_release_gil`, it is called twice for the event, and the
second one is not called at all. -/
theorem C128_dispatch_violated :
    (Handler.dispatch (switchingExec true 0 (exHandles 3)) ⟨4, exHandles 3⟩).2 = [(false, 0), (true, 0), (true, 2)] := by
  rfl

end Sleqp
