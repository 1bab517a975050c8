import Verif.Spec.Threads
import Verif.Model.Timer
import Mathlib.Algebra.Order.Field.Rat
import Mathlib.Tactic.Linarith

/-!
C127: solvers in several threads.
-/

namespace Sleqp
variable {ι ο : Type} [DecidableEq ι] [DecidableEq ο]

/-! ### lemmas -/

theorem fset_same {α β : Type} [DecidableEq α] (f : α → β) (a : α) (b : β) : fset f a b a = b := if_pos rfl
theorem fset_other {α β : Type} [DecidableEq α] (f : α → β) {a x : α} (h : x ≠ a) (b : β) : fset f a b x = f x := if_neg h

/-- the call a thread is in -/
def TStage.pending : TStage ο → List (TCall ο)
  | .idle => []
  | .inc o _ => [.capture o]
  | .dec o _ => [.release o]
  | .locked t => [.log t]
  | .converted t => [.log t]
  | .copied t => [.log t]

/-- what holds at a stage, with `seen` for what the calls before show -/
def StageOk (s : TState ι ο) (i : ι) (seen : List Seen) : TStage ο → Prop
  | .idle => (s.thread i).seen = seen
  | .inc o x => (s.thread i).seen = seen ∧ x = s.rc o
  | .dec o x => (s.thread i).seen = seen ∧ x = s.rc o
  | .locked _ => (s.thread i).seen = seen ∧ s.mutex = some i
  | .converted t => (s.thread i).seen = seen ∧ s.mutex = some i ∧ s.buf = t
  | .copied t => (s.thread i).seen = seen ++ [.time t] ∧ s.mutex = some i

/-- the thread `i` is where it would be on its own -/
def TInv (own : ο → ι) (v0 : TView ο) (p : ι → List (TCall ο)) (s : TState ι ο) (i : ι) : Prop :=
  ∃ done, p i = done ++ ((s.thread i).stage.pending ++ (s.thread i).rest) ∧ (s.thread i).err = (v0.calls done).err ∧
    (∀ o, own o = i → s.rc o = (v0.calls done).rc o ∧ s.freed o = (v0.calls done).freed o) ∧
    StageOk s i (v0.calls done).seen (s.thread i).stage

/-- a state in which the thread `k` has moved, as the other threads see it -/
structure Frame (own : ο → ι) (s s' : TState ι ο) (k : ι) : Prop where
  thread : ∀ i, i ≠ k → s'.thread i = s.thread i
  obj : ∀ o, own o ≠ k → s'.rc o = s.rc o ∧ s'.freed o = s.freed o
  mutex : ∀ i, i ≠ k → s.mutex = some i → s'.mutex = some i
  buf : ∀ i, i ≠ k → s.mutex = some i → s'.buf = s.buf

theorem TInv.frame {own : ο → ι} {v0 : TView ο} {p : ι → List (TCall ο)} (ho : Owned own p) {s s' : TState ι ο} {i k : ι} (hne : i ≠ k)
    (hf : Frame own s s' k) (h : TInv own v0 p s i) : TInv own v0 p s' i := by
  obtain ⟨done, h1, h2, h3, h4⟩ := h
  have hobj : ∀ o, own o = i → s'.rc o = s.rc o ∧ s'.freed o = s.freed o := fun o e => hf.obj o (by rw [e]; exact hne)
  refine ⟨done, ?_, ?_, fun o e => ?_, ?_⟩
  · rw [hf.thread i hne]; exact h1
  · rw [hf.thread i hne]; exact h2
  · rw [(hobj o e).1, (hobj o e).2]; exact h3 o e
  · rw [hf.thread i hne]
    cases hst : (s.thread i).stage with
    | idle =>
      rw [hst] at h4
      unfold StageOk at h4 ⊢
      rw [hf.thread i hne]; exact h4
    | inc o x =>
      rw [hst] at h4 h1
      have e : own o = i := ho i (.capture o) (by rw [h1]; simp [TStage.pending]) o rfl
      exact ⟨by rw [hf.thread i hne]; exact h4.1, h4.2.trans (hobj o e).1.symm⟩
    | dec o x =>
      rw [hst] at h4 h1
      have e : own o = i := ho i (.release o) (by rw [h1]; simp [TStage.pending]) o rfl
      exact ⟨by rw [hf.thread i hne]; exact h4.1, h4.2.trans (hobj o e).1.symm⟩
    | locked t =>
      rw [hst] at h4
      unfold StageOk at h4 ⊢
      rw [hf.thread i hne]; exact ⟨h4.1, hf.mutex i hne h4.2⟩
    | converted t =>
      rw [hst] at h4
      unfold StageOk at h4 ⊢
      rw [hf.thread i hne]; exact ⟨h4.1, hf.mutex i hne h4.2.1, (hf.buf i hne h4.2.1).trans h4.2.2⟩
    | copied t =>
      rw [hst] at h4
      unfold StageOk at h4 ⊢
      rw [hf.thread i hne]; exact ⟨h4.1, hf.mutex i hne h4.2⟩

theorem calls_snoc (v : TView ο) (cs : List (TCall ο)) (c : TCall ο) : v.calls (cs ++ [c]) = (v.calls cs).call c := by
  simp [TView.calls]

/-- a step keeps the invariant of the thread, and frames those of the others -/
theorem step_own {own : ο → ι} {v0 : TView ο} {p : ι → List (TCall ο)} (ho : Owned own p) {s : TState ι ο} {k : ι} (h : TInv own v0 p s k) :
    TInv own v0 p (s.step k) k ∧ Frame own s (s.step k) k := by
  obtain ⟨done, h1, h2, h3, h4⟩ := h
  unfold TState.step
  cases hst : (s.thread k).stage with
  | inc o x =>
    rw [hst] at h1 h4
    obtain ⟨h4, rfl⟩ := h4
    have e : own o = k := ho k (.capture o) (by rw [h1]; simp [TStage.pending]) o rfl
    refine ⟨⟨done ++ [.capture o], ?_, ?_, fun o' e' => ?_, ?_⟩, ⟨fun i hi => fset_other _ hi _, fun o' ho' => ⟨?_, rfl⟩,
      fun i hi hm => hm, fun i hi hm => rfl⟩⟩
    · simp only [fset_same]; rw [h1]; simp [TStage.pending]
    · simp only [fset_same, calls_snoc, TView.call]; exact h2
    · simp only [calls_snoc, TView.call, fset]
      refine ⟨?_, (h3 o' e').2⟩
      by_cases hoo : o' = o
      · simp [hoo, (h3 o e).1]
      · simp [hoo, (h3 o' e').1]
    · simp only [fset_same, StageOk, calls_snoc, TView.call]; exact h4
    · exact fset_other _ (by rintro rfl; exact ho' e) _
  | dec o x =>
    rw [hst] at h1 h4
    obtain ⟨h4, rfl⟩ := h4
    have e : own o = k := ho k (.release o) (by rw [h1]; simp [TStage.pending]) o rfl
    refine ⟨⟨done ++ [.release o], ?_, ?_, fun o' e' => ?_, ?_⟩, ⟨fun i hi => fset_other _ hi _, fun o' ho' => ⟨?_, ?_⟩,
      fun i hi hm => hm, fun i hi hm => rfl⟩⟩
    · simp only [fset_same]; rw [h1]; simp [TStage.pending]
    · simp only [fset_same, calls_snoc, TView.call]; exact h2
    · simp only [calls_snoc, TView.call, fset]
      by_cases hoo : o' = o
      · subst hoo
        rw [if_pos rfl, if_pos rfl, if_pos rfl, (h3 o' e).1, (h3 o' e).2]
        refine ⟨rfl, ?_⟩
        have : ((v0.calls done).rc o' - 1 == 0) = ((v0.calls done).rc o' == 1) := by
          rw [Bool.eq_iff_iff, beq_iff_eq, beq_iff_eq]; omega
        simp [this]
      · simp [hoo, (h3 o' e').1, (h3 o' e').2]
    · simp only [fset_same, StageOk, calls_snoc, TView.call]; exact h4
    · exact fset_other _ (by rintro rfl; exact ho' e) _
    · exact fset_other _ (by rintro rfl; exact ho' e) _
  | locked t =>
    rw [hst] at h1 h4
    refine ⟨⟨done, ?_, ?_, h3, ?_⟩, ⟨fun i hi => fset_other _ hi _, fun o' ho' => ⟨rfl, rfl⟩, fun i hi hm => hm, fun i hi hm => ?_⟩⟩
    · simp only [fset_same]; exact h1
    · simp only [fset_same]; exact h2
    · simp only [fset_same, StageOk]; exact ⟨h4.1, h4.2, trivial⟩
    · rw [h4.2] at hm
      exact absurd (Option.some.inj hm).symm hi
  | converted t =>
    rw [hst] at h1 h4
    refine ⟨⟨done, ?_, ?_, h3, ?_⟩, ⟨fun i hi => fset_other _ hi _, fun o' ho' => ⟨rfl, rfl⟩, fun i hi hm => hm, fun i hi hm => rfl⟩⟩
    · simp only [fset_same]; exact h1
    · simp only [fset_same]; exact h2
    · simp only [fset_same, StageOk]
      rw [h4.1, h4.2.2]
      exact ⟨rfl, h4.2.1⟩
  | copied t =>
    rw [hst] at h1 h4
    refine ⟨⟨done ++ [.log t], ?_, ?_, fun o' e' => ?_, ?_⟩, ⟨fun i hi => fset_other _ hi _, fun o' ho' => ⟨rfl, rfl⟩, fun i hi hm => ?_,
      fun i hi hm => rfl⟩⟩
    · simp only [fset_same]; rw [h1]; simp [TStage.pending]
    · simp only [fset_same, calls_snoc, TView.call]; exact h2
    · simp only [calls_snoc, TView.call]; exact h3 o' e'
    · simp only [fset_same, StageOk, calls_snoc, TView.call]; exact h4.1
    · rw [h4.2] at hm
      exact absurd (Option.some.inj hm).symm hi
  | idle =>
    rw [hst] at h1 h4
    simp only []
    have hid : TInv own v0 p s k ∧ Frame own s s k :=
      ⟨⟨done, by rw [hst]; exact h1, h2, h3, by rw [hst]; exact h4⟩, ⟨fun _ _ => rfl, fun _ _ => ⟨rfl, rfl⟩, fun _ _ hm => hm, fun _ _ _ => rfl⟩⟩
    cases hr : (s.thread k).rest with
    | nil => exact hid
    | cons c cs =>
      rw [hr] at h1
      have hfr : ∀ t, Frame own s { s with thread := fset s.thread k t } k := fun t =>
        ⟨fun i hi => fset_other _ hi _, fun _ _ => ⟨rfl, rfl⟩, fun _ _ hm => hm, fun _ _ _ => rfl⟩
      cases c with
      | setError e =>
        refine ⟨⟨done ++ [.setError e], ?_, ?_, fun o' e' => ?_, ?_⟩, hfr _⟩
        · simp only [fset_same, hst]; rw [h1]; simp [TStage.pending]
        · simp only [fset_same, calls_snoc, TView.call]
        · simp only [calls_snoc, TView.call]; exact h3 o' e'
        · simp only [fset_same, hst, StageOk, calls_snoc, TView.call]; exact h4
      | readError =>
        refine ⟨⟨done ++ [.readError], ?_, ?_, fun o' e' => ?_, ?_⟩, hfr _⟩
        · simp only [fset_same, hst]; rw [h1]; simp [TStage.pending]
        · simp only [fset_same, calls_snoc, TView.call]; exact h2
        · simp only [calls_snoc, TView.call]; exact h3 o' e'
        · simp only [fset_same, hst, StageOk, calls_snoc, TView.call]
          rw [h2, show (s.thread k).seen = _ from h4]
      | capture o =>
        refine ⟨⟨done, ?_, ?_, h3, ?_⟩, hfr _⟩
        · simp only [fset_same]; rw [h1]; simp [TStage.pending]
        · simp only [fset_same]; exact h2
        · simp only [fset_same, StageOk]; exact ⟨h4, trivial⟩
      | release o =>
        refine ⟨⟨done, ?_, ?_, h3, ?_⟩, hfr _⟩
        · simp only [fset_same]; rw [h1]; simp [TStage.pending]
        · simp only [fset_same]; exact h2
        · simp only [fset_same, StageOk]; exact ⟨h4, trivial⟩
      | use o =>
        have e : own o = k := ho k (.use o) (by rw [h1]; simp [TStage.pending]) o rfl
        refine ⟨⟨done ++ [.use o], ?_, ?_, fun o' e' => ?_, ?_⟩, hfr _⟩
        · simp only [fset_same, hst]; rw [h1]; simp [TStage.pending]
        · simp only [fset_same, calls_snoc, TView.call]; exact h2
        · simp only [calls_snoc, TView.call]; exact h3 o' e'
        · simp only [fset_same, hst, StageOk, calls_snoc, TView.call]
          rw [(h3 o e).2, show (s.thread k).seen = _ from h4]
      | log t =>
        simp only []
        cases hm : s.mutex with
        | some j => exact hid
        | none =>
          refine ⟨⟨done, ?_, ?_, h3, ?_⟩, ⟨fun i hi => fset_other _ hi _, fun _ _ => ⟨rfl, rfl⟩, fun i hi hm' => ?_, fun _ _ _ => rfl⟩⟩
          · simp only [fset_same]; rw [h1]; simp [TStage.pending]
          · simp only [fset_same]; exact h2
          · simp only [fset_same, StageOk]; exact ⟨h4, trivial⟩
          · rw [hm] at hm'; cases hm'

theorem threads_inv {own : ο → ι} {v0 : TView ο} {p : ι → List (TCall ο)} (ho : Owned own p) : ∀ (sch : List ι) {s : TState ι ο},
    (∀ i, TInv own v0 p s i) → ∀ i, TInv own v0 p (s.run sch) i
  | [], _, h => h
  | k :: rest, s, h => by
    obtain ⟨h1, h2⟩ := step_own ho (h k)
    exact threads_inv ho rest fun i => by
      by_cases hi : i = k
      · rw [hi]; exact h1
      · exact (h i).frame ho hi h2

theorem start_inv (own : ο → ι) (rc : ο → Int) (p : ι → List (TCall ο)) (i : ι) :
    TInv own ⟨none, [], rc, fun _ => false⟩ p (TState.start rc p) i :=
  ⟨[], rfl, rfl, fun _ _ => ⟨rfl, rfl⟩, rfl⟩

/-! ### C127 -/

/-- C127: threads that share no objects do not disturb each other. Under every schedule, at any time at which the thread `i` is between
calls, it has performed some of its calls, and its error, what it has seen (errors, existence of objects it used, times of its messages), and the
counts of its objects are the same as if it had been alone. -/
theorem C127_separate_partial {own : ο → ι} {p : ι → List (TCall ο)} (ho : Owned own p) (rc : ο → Int) (sch : List ι) (i : ι)
    (hi : (((TState.start rc p).run sch).thread i).stage = .idle) :
    ∃ done, p i = done ++ (((TState.start rc p).run sch).thread i).rest ∧
      let v := (⟨none, [], rc, fun _ => false⟩ : TView ο).calls done;
      (((TState.start rc p).run sch).thread i).err = v.err ∧ (((TState.start rc p).run sch).thread i).seen = v.seen ∧
      ∀ o, own o = i → ((TState.start rc p).run sch).rc o = v.rc o ∧ ((TState.start rc p).run sch).freed o = v.freed o := by
  obtain ⟨done, h1, h2, h3, h4⟩ := threads_inv ho sch (start_inv own rc p) i
  rw [hi] at h1 h4
  exact ⟨done, h1, h2, h4, h3⟩

/-- C127, for objects used by one thread only: such objects are freed when the count of the thread says so, whatever other threads do, and
the errors of a thread are those it set last. -/
theorem C127_finished_partial {own : ο → ι} {p : ι → List (TCall ο)} (ho : Owned own p) (rc : ο → Int) (sch : List ι) (i : ι)
    (hi : (((TState.start rc p).run sch).thread i).stage = .idle) (hr : (((TState.start rc p).run sch).thread i).rest = []) :
    (((TState.start rc p).run sch).thread i).seen = ((⟨none, [], rc, fun _ => false⟩ : TView ο).calls (p i)).seen := by
  obtain ⟨done, h1, -, h2, -⟩ := C127_separate_partial ho rc sch i hi
  rw [hr, List.append_nil] at h1
  rw [h1]
  exact h2

/-- C127: also with shared objects, two threads are never in the critical section of the log at once, and the time shown with a message is that
of the message. -/
theorem C127_log_partial (rc : ο → Int) (p : ι → List (TCall ο)) (sch : List ι) (i : ι) (t : ℕ)
    (hi : (((TState.start rc p).run sch).thread i).stage = .copied t) :
    (((TState.start rc p).run sch).thread i).seen.getLast? = some (.time t) ∧
    ∀ j, (((TState.start rc p).run sch).thread j).stage = .copied t → j = i := by
  -- the part of the invariant that does not need owners
  let Crit : TState ι ο → ι → Prop := fun s i => match (s.thread i).stage with
    | .locked _ => s.mutex = some i
    | .converted t => s.mutex = some i ∧ s.buf = t
    | .copied t => s.mutex = some i ∧ (s.thread i).seen.getLast? = some (.time t)
    | _ => True
  have hstep : ∀ (s : TState ι ο) (k : ι), (∀ i, Crit s i) → ∀ i, Crit (s.step k) i := by
    intro s k hs i
    have hk := hs k
    have hi := hs i
    by_cases hik : i = k
    · subst hik
      simp only [Crit] at hk ⊢
      unfold TState.step
      cases hst : (s.thread i).stage with
      | inc o x => simp [fset_same]
      | dec o x => simp [fset_same]
      | locked t => rw [hst] at hk; simp only [fset_same]; exact ⟨hk, trivial⟩
      | converted t => rw [hst] at hk; simp only [fset_same]; exact ⟨hk.1, by simp [hk.2]⟩
      | copied t => simp [fset_same]
      | idle =>
        simp only []
        cases hr : (s.thread i).rest with
        | nil => simp [hst]
        | cons c cs =>
          cases c with
          | log t => cases hm : s.mutex with
            | none => simp [fset_same]
            | some j => simp [hst]
          | setError e => simp [fset_same, hst]
          | readError => simp [fset_same, hst]
          | capture o => simp [fset_same]
          | release o => simp [fset_same]
          | use o => simp [fset_same, hst]
    · have hth : (s.step k).thread i = s.thread i := by
        unfold TState.step
        cases hst : (s.thread k).stage with
        | idle =>
          simp only []
          cases hr : (s.thread k).rest with
          | nil => rfl
          | cons c cs =>
            cases c with
            | log t => cases hm : s.mutex with
              | none => exact fset_other _ hik _
              | some j => rfl
            | setError e => exact fset_other _ hik _
            | readError => exact fset_other _ hik _
            | capture o => exact fset_other _ hik _
            | release o => exact fset_other _ hik _
            | use o => exact fset_other _ hik _
        | inc o x => exact fset_other _ hik _
        | dec o x => exact fset_other _ hik _
        | locked t => exact fset_other _ hik _
        | converted t => exact fset_other _ hik _
        | copied t => exact fset_other _ hik _
      have hmb : s.mutex = some i → (s.step k).mutex = some i ∧ (s.step k).buf = s.buf := by
        intro hm
        simp only [Crit] at hk
        unfold TState.step
        cases hst : (s.thread k).stage with
        | idle =>
          simp only []
          cases hr : (s.thread k).rest with
          | nil => exact ⟨hm, rfl⟩
          | cons c cs =>
            cases c with
            | log t => simp only [hm]; exact ⟨trivial, trivial⟩
            | setError e => exact ⟨hm, rfl⟩
            | readError => exact ⟨hm, rfl⟩
            | capture o => exact ⟨hm, rfl⟩
            | release o => exact ⟨hm, rfl⟩
            | use o => exact ⟨hm, rfl⟩
        | inc o x => exact ⟨hm, rfl⟩
        | dec o x => exact ⟨hm, rfl⟩
        | locked t =>
          rw [hst] at hk
          simp only [] at hk
          rw [hm] at hk
          exact absurd (Option.some.inj hk) hik
        | converted t => exact ⟨hm, rfl⟩
        | copied t =>
          rw [hst] at hk
          simp only [] at hk
          rw [hm] at hk
          exact absurd (Option.some.inj hk.1) hik
      simp only [Crit] at hi ⊢
      rw [hth]
      cases hst : (s.thread i).stage with
      | idle => trivial
      | inc o x => trivial
      | dec o x => trivial
      | locked t => rw [hst] at hi; exact (hmb hi).1
      | converted t => rw [hst] at hi; exact ⟨(hmb hi.1).1, (hmb hi.1).2.trans hi.2⟩
      | copied t => rw [hst] at hi; exact ⟨(hmb hi.1).1, hi.2⟩
  have hrun : ∀ (sch : List ι) (s : TState ι ο), (∀ i, Crit s i) → ∀ i, Crit (s.run sch) i := by
    intro sch
    induction sch with
    | nil => exact fun s h => h
    | cons k rest ih => exact fun s h => ih _ (hstep s k h)
  have hall := hrun sch (TState.start rc p) fun i => trivial
  have h := hall i
  simp only [Crit] at h
  rw [hi] at h
  refine ⟨h.2, fun j hj => ?_⟩
  have h' := hall j
  simp only [Crit] at h'
  rw [hj] at h'
  exact Option.some.inj (h'.1.symm.trans h.1)

/-! ### samples and violations -/

/-- sample: two threads with an object each, errors and messages -/
def exThreads : Bool → List (TCall Bool) := fun i =>
  if i then [.capture true, .log 7, .setError 3, .release true, .use true, .readError] else [.log 5, .capture false, .readError, .release false, .release false, .use false]

theorem exThreads_owned : Owned id exThreads := by
  intro i c hc o ho
  cases i <;> simp [exThreads] at hc <;> rcases hc with rfl | rfl | rfl | rfl | rfl | rfl <;> simp [TCall.touches] at ho <;> simp [ho]

/-- sample schedule -/
def exSchedule : List Bool :=
  [true, false, true, false, false, true, false, false, false, false, true, true, true, true, true, true, true, true, true, true,
   false, false, false, false, false, false, true, true]

example : ((((TState.start (fun _ => 1) exThreads).run exSchedule).thread true).rest, (((TState.start (fun _ => 1) exThreads).run exSchedule).thread true).stage,
    (((TState.start (fun _ => 1) exThreads).run exSchedule).thread true).seen, (((TState.start (fun _ => 1) exThreads).run exSchedule).thread false).seen) =
    ([], .idle, [.time 7, .exists? true, .error (some 3)], [.time 5, .error none, .exists? false]) := by decide +kernel

example : (((TState.start (fun _ => 1) exThreads).run exSchedule).thread true).seen =
    ((⟨none, [], fun _ => 1, fun _ => false⟩ : TView Bool).calls (exThreads true)).seen :=
  C127_finished_partial exThreads_owned _ _ _ (by decide +kernel) (by decide +kernel)

/-- two threads create a solver each with the same settings, which the thread `true` holds as well: they capture the settings, use them, and release
them; the thread `true` releases its own reference, too -/
def exSharing : Bool → List (TCall Unit) := fun i => if i then [.capture (), .use (), .release (), .release ()] else [.capture (), .use (), .use (), .release ()]

/-- The code violates C127 for shared objects: reference counts are neither atomic nor protected. If two threads capture the same settings at the
same time, one of the references is lost, and the settings are freed while the other thread still uses them; with one thread after the other
they exist as long as they are used. -/
theorem C127_sharing_violated :
    (((TState.start (fun _ => 1) exSharing).run [true, false, true, false, false, true, true, true, true, true, false]).thread false).seen =
      [.exists? true, .exists? false] ∧
    (((TState.start (fun _ => 1) exSharing).run [true, true, true, true, true, true, true]).freed ()) = true ∧
    (((TState.start (fun _ => 1) exSharing).run [false, false, true, true, true, true, true, true, true, false, false]).thread false).seen =
      [.exists? true, .exists? true] := by
  refine ⟨?_, ?_, ?_⟩ <;> decide +kernel

/-- the clock counts the work of all threads -/
theorem clock_split (i : ι) (w : Work ι) : w.clock = w.own i + ((w.filter fun x => ¬ x.1 = i).map Prod.snd).sum := by
  induction w with
  | nil => rfl
  | cons x w ih =>
    unfold Work.clock Work.own at *
    by_cases h : x.1 = i
    · simp only [List.map_cons, List.sum_cons, List.filter_cons, h, decide_true, if_true, not_true, decide_false, Bool.false_eq_true, if_false]
      omega
    · simp only [List.map_cons, List.sum_cons, List.filter_cons, h, decide_false, Bool.false_eq_true, if_false, not_false_eq_true, decide_true, if_true]
      omega

/-- The code violates C127 for time limits: its timers read the processor time of the whole process. Whatever limit `l` a solve in the thread `i` is given,
work of another thread uses it up: if that thread works for `l` seconds meanwhile, the limit is exhausted though the solve has done nothing. -/
theorem C127_clock_violated {i j : ι} (hij : j ≠ i) (l : ℕ) : ∃ w : Work ι, w.own i = 0 ∧
    ((Timer.reset : Timer ℚ).startAt 0).map (fun t => t.exhausted (w.clock : ℚ) (some (l : ℚ))) = some true := by
  refine ⟨[(j, l)], by simp [Work.own, hij], ?_⟩
  simp [Work.clock, Timer.startAt, Timer.reset, Timer.exhausted, Timer.ttl, Timer.currently]

end Sleqp
