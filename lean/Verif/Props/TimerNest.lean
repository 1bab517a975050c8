import Verif.Spec.TimerNest
import Mathlib.Tactic.Linarith

/-!
C126: using a solver again.
-/

namespace Sleqp

/-! ### lemmas -/

theorem inside_trans {i j k : TimerId} (h : i.Inside j) (h' : j.Inside k) : i.Inside k := by
  unfold TimerId.Inside at *
  omega

theorem inside_irrefl (i : TimerId) : ¬ i.Inside i := by
  unfold TimerId.Inside
  omega

theorem put_same (s : Running) (id : TimerId) (b : Bool) : s.put id b id = b := if_pos rfl

theorem put_other (s : Running) {id j : TimerId} (h : j ≠ id) (b : Bool) : s.put id b j = s j := if_neg h

theorem put_back {s : Running} {id : TimerId} (h : s id = false) : (s.put id true).put id false = s := by
  funext j
  by_cases hj : j = id
  · rw [hj, put_same, h]
  · rw [put_other _ hj, put_other _ hj]

/-- return codes do not depend on timers -/
theorem run_ret : ∀ {a : Act} {s s' : Running} {o : Option EarlyRet}, a.run s = some (o, s') → o = a.ret
  | .skip, s, s', o, h => by simp [Act.run] at h; simp [Act.ret, h.1]
  | .stop r, s, s', o, h => by simp [Act.run] at h; simp [Act.ret, h.1]
  | .seq a b, s, s', o, h => by
    unfold Act.run at h
    cases ha : a.run s with
    | none => rw [ha] at h; cases h
    | some x =>
      obtain ⟨o1, s1⟩ := x
      have h1 := run_ret ha
      rw [ha] at h
      cases o1 with
      | none =>
        have h2 := run_ret h
        simp only [Act.ret, ← h1, h2]
      | some r =>
        cases h
        simp only [Act.ret, ← h1]
  | .timed id a, s, s', o, h => by
    unfold Act.run at h
    split_ifs at h with hs
    cases ha : a.run (s.put id true) with
    | none => rw [ha] at h; cases h
    | some x =>
      obtain ⟨o1, s1⟩ := x
      have h1 := run_ret ha
      rw [ha] at h
      cases o1 with
      | none =>
        simp only [] at h
        split_ifs at h
        cases h
        exact h1
      | some r =>
        simp only [] at h
        split_ifs at h <;> cases h <;> exact h1
  | .reset id, s, s', o, h => by simp [Act.run] at h; simp [Act.ret, h.1]
  | .shown id, s, s', o, h => by
    unfold Act.run at h
    split_ifs at h
    cases h
    rfl
  | .catchTime a, s, s', o, h => by
    unfold Act.run at h
    cases ha : a.run s with
    | none => rw [ha] at h; cases h
    | some x =>
      obtain ⟨o1, s1⟩ := x
      have h1 := run_ret ha
      rw [ha] at h
      unfold Act.ret
      rw [← h1]
      rcases o1 with _ | _ | _ <;> cases h <;> rfl

/-- a timer that runs goes on running, unless it is reset -/
theorem run_keep {id : TimerId} : ∀ {a : Act} {s s' : Running} {o : Option EarlyRet}, a.run s = some (o, s') → s id = true → a.resets id = false →
    s' id = true
  | .skip, s, s', o, h, hs, hr => by cases h; exact hs
  | .stop r, s, s', o, h, hs, hr => by cases h; exact hs
  | .seq a b, s, s', o, h, hs, hr => by
    unfold Act.run at h
    obtain ⟨hra, hrb⟩ := Bool.or_eq_false_iff.1 hr
    cases ha : a.run s with
    | none => rw [ha] at h; cases h
    | some x =>
      obtain ⟨o1, s1⟩ := x
      have h1 := run_keep ha hs hra
      rw [ha] at h
      cases o1 with
      | none => exact run_keep h h1 hrb
      | some r => cases h; exact h1
  | .timed j a, s, s', o, h, hs, hr => by
    unfold Act.run at h
    split_ifs at h with hj
    have hne : id ≠ j := fun e => hj (e ▸ hs)
    cases ha : a.run (s.put j true) with
    | none => rw [ha] at h; cases h
    | some x =>
      obtain ⟨o1, s1⟩ := x
      have h1 := run_keep ha ((put_other _ hne _).trans hs) hr
      rw [ha] at h
      cases o1 with
      | none =>
        simp only [] at h
        split_ifs at h
        cases h
        exact (put_other _ hne _).trans h1
      | some r =>
        simp only [] at h
        split_ifs at h <;> cases h
        · exact (put_other _ hne _).trans h1
        · exact h1
  | .reset j, s, s', o, h, hs, hr => by
    cases h
    have hne : id ≠ j := fun e => by simp [Act.resets, e] at hr
    exact (put_other _ hne _).trans hs
  | .shown j, s, s', o, h, hs, hr => by
    unfold Act.run at h
    split_ifs at h
    cases h
    exact hs
  | .catchTime a, s, s', o, h, hs, hr => by
    unfold Act.run at h
    cases ha : a.run s with
    | none => rw [ha] at h; cases h
    | some x =>
      obtain ⟨o1, s1⟩ := x
      have h1 := run_keep ha hs hr
      rw [ha] at h
      rcases o1 with _ | _ | _ <;> cases h <;> exact h1

/-- a run that starts a running timer fails an assertion -/
theorem run_starts {id : TimerId} : ∀ {a : Act} {s : Running}, s id = true → a.resets id = false → a.starts id = true → a.run s = none
  | .skip, s, hs, hr, h => by cases h
  | .stop r, s, hs, hr, h => by cases h
  | .seq a b, s, hs, hr, h => by
    obtain ⟨hra, hrb⟩ := Bool.or_eq_false_iff.1 hr
    unfold Act.run
    cases ha : a.run s with
    | none => rfl
    | some x =>
      obtain ⟨o1, s1⟩ := x
      rcases Bool.or_eq_true_iff.1 h with h | h
      · rw [run_starts hs hra h] at ha
        cases ha
      · obtain ⟨h1, h2⟩ := Bool.and_eq_true_iff.1 h
        have h3 := run_ret ha
        have h4 : o1 = none := by rw [h3]; exact Option.isNone_iff_eq_none.1 h1
        subst h4
        exact run_starts (run_keep ha hs hra) hrb h2
  | .timed j a, s, hs, hr, h => by
    unfold Act.run
    by_cases hj : s j = true
    · rw [if_pos hj]
    · rw [if_neg hj]
      have hne : id ≠ j := fun e => hj (e ▸ hs)
      rcases Bool.or_eq_true_iff.1 h with h | h
      · exact absurd (beq_iff_eq.1 h).symm hne
      · rw [run_starts (a := a) ((put_other _ hne _).trans hs) hr h]
  | .reset j, s, hs, hr, h => by cases h
  | .shown j, s, hs, hr, h => by cases h
  | .catchTime a, s, hs, hr, h => by
    unfold Act.run
    rw [run_starts (a := a) hs hr h]

theorem within_resets {id : TimerId} : ∀ {a : Act} {i : TimerId}, a.Within i → a.resets id = false
  | .skip, i, h => rfl
  | .stop _, i, h => rfl
  | .seq a b, i, h => by simp [Act.resets, within_resets h.1, within_resets h.2]
  | .timed j a, i, h => by simp [Act.resets, within_resets h.2]
  | .reset _, i, h => h.elim
  | .shown _, i, h => rfl
  | .catchTime _, i, h => h.elim

/-- a run without early return past a running timer leaves all timers as they were -/
theorem run_tidy : ∀ {a : Act} {i : TimerId} {s : Running}, a.Within i → a.Tidy → (∀ id, i.Inside id → s id = false) →
    a.run s = some (a.ret, s)
  | .skip, i, s, hw, ht, hs => rfl
  | .stop r, i, s, hw, ht, hs => rfl
  | .seq a b, i, s, hw, ht, hs => by
    have ha := run_tidy hw.1 ht.1 hs
    unfold Act.run Act.ret
    rw [ha]
    cases hr : a.ret with
    | none => exact run_tidy hw.2 (ht.2 hr) hs
    | some r => rfl
  | .timed j a, i, s, hw, ht, hs => by
    have hj := hs j hw.1
    have ha := run_tidy hw.2 ht.1 (s := s.put j true) fun id hid => by
      have hne : id ≠ j := by rintro rfl; exact inside_irrefl _ hid
      rw [put_other _ hne]
      exact hs id (inside_trans hw.1 hid)
    unfold Act.run Act.ret
    rw [if_neg (by simp [hj]), ha]
    cases hr : a.ret with
    | none => simp only [put_same, if_true, put_back hj]
    | some r => simp only [ht.2 r hr, put_same, if_true, put_back hj]
  | .reset _, i, s, hw, ht, hs => hw.elim
  | .shown _, i, s, hw, ht, hs => hw.elim
  | .catchTime _, i, s, hw, ht, hs => hw.elim

/-- the same apart from timers of trial points -/
def SameBut (s s' : Running) : Prop := ∀ id, (∀ ph, id ≠ .trial ph) → s' id = s id

/-- nothing inside of trial points is running -/
def QuietInside (s : Running) : Prop := ∀ id, (TimerId.trial false).Inside id → s id = false

theorem SameBut.refl (s : Running) : SameBut s s := fun _ _ => rfl
theorem SameBut.trans {s s' s'' : Running} (h : SameBut s s') (h' : SameBut s' s'') : SameBut s s'' := fun id hid => (h' id hid).trans (h id hid)

theorem SameBut.put (s : Running) (ph : Bool) (b : Bool) : SameBut s (s.put (.trial ph) b) := fun _ hid => put_other _ (hid ph) _

theorem inside_not_trial {id : TimerId} (h : (TimerId.trial false).Inside id) (ph : Bool) : id ≠ .trial ph := by
  rintro rfl
  exact inside_irrefl (.trial ph) h

theorem QuietInside.same {s s' : Running} (h : QuietInside s) (hs : SameBut s s') : QuietInside s' := fun id hid =>
  (hs id (inside_not_trial hid)).trans (h id hid)

theorem QuietInside.put {s : Running} (h : QuietInside s) {j : TimerId} (hj : ¬ (TimerId.trial false).Inside j) (b : Bool) :
    QuietInside (s.put j b) := fun id hid => by
  have hne : id ≠ j := by rintro rfl; exact hj hid
  rw [put_other _ hne]
  exact h id hid

/-- what a part of a solve must satisfy -/
def PartOk (a : Act) : Prop := a.Within (.trial false) ∧ a.Tidy

theorem PartOk.run {a : Act} (h : PartOk a) {s : Running} (hs : QuietInside s) : a.run s = some (a.ret, s) := run_tidy h.1 h.2 hs

theorem trial_timed {a : Act} (h : PartOk a) {s : Running} (hs : QuietInside s) {ph : Bool} (ht : s (.trial ph) = false) :
    ∃ s', (Act.timed (.trial ph) a).run s = some (a.ret, s') ∧ SameBut s s' ∧ (a.ret = none → s' = s) := by
  have h1 := h.run (hs.put (inside_irrefl (.trial ph)) true)
  unfold Act.run
  rw [if_neg (by simp [ht]), h1]
  cases hr : a.ret with
  | none => exact ⟨_, by simp only [put_same, if_true], by rw [put_back ht]; exact .refl s, fun _ => put_back ht⟩
  | some r =>
    refine ⟨s.put (.trial ph) true, by cases r <;> rfl, .put s ph true, fun h => by cases h⟩

theorem TrialRun.run {t : TrialRun} (h : t.All PartOk) {s : Running} (hs : QuietInside s) {ph : Bool} (ht : s (.trial ph) = false) :
    ∃ s', (t.act ph).run s = some ((t.act ph).ret, s') ∧ SameBut s s' := by
  obtain ⟨h1, h2, h3⟩ := h
  obtain ⟨s1, e1, e2, e3⟩ := trial_timed h1 hs ht
  unfold TrialRun.act
  unfold Act.run
  rw [e1]
  cases hr : t.compute.ret with
  | some r => exact ⟨s1, by simp [Act.ret, hr], e2⟩
  | none =>
    rw [e3 hr]
    simp only []
    unfold Act.run
    rw [h2.run hs]
    cases hr2 : t.evaluate.ret with
    | some r => exact ⟨s, by simp [Act.ret, hr, hr2], .refl s⟩
    | none =>
      cases hc : t.correct with
      | none => exact ⟨s, by simp [Act.ret, hr, hr2, Act.run], .refl s⟩
      | some a =>
        obtain ⟨s2, f1, f2, -⟩ := trial_timed (h3 a hc) hs ht
        simp only []
        rw [f1]
        exact ⟨s2, by simp [Act.ret, hr, hr2], f2⟩

/-- what is inside the timer of an iteration -/
def IterRun.inner (phase : Bool) (i : IterRun) : Act :=
  .seq i.start (match i.trial with
    | none => i.rest
    | some (a, t) => .seq (.reset (.trial phase)) (.seq a (.seq (t.act phase) i.rest)))

theorem IterRun.inner_run {i : IterRun} (h : i.All PartOk) {s : Running} (hs : QuietInside s) (ph : Bool) :
    ∃ s', (i.inner ph).run s = some ((i.inner ph).ret, s') ∧ SameBut s s' := by
  obtain ⟨h1, h2, h3⟩ := h
  unfold IterRun.inner Act.run
  rw [h1.run hs]
  cases hr : i.start.ret with
  | some r => exact ⟨s, by simp [Act.ret, hr], .refl s⟩
  | none =>
    cases ht : i.trial with
    | none =>
      simp only []
      rw [h2.run hs]
      exact ⟨s, by simp [Act.ret, hr], .refl s⟩
    | some x =>
      obtain ⟨a, t⟩ := x
      obtain ⟨h4, h5⟩ := h3 a t ht
      have hq : QuietInside (s.put (.trial ph) false) := hs.same (.put s ph false)
      simp only [Act.run]
      rw [h4.run hq]
      cases hra : a.ret with
      | some r => exact ⟨_, by simp [Act.ret, hr, hra], .put s ph false⟩
      | none =>
        obtain ⟨s1, e1, e2⟩ := t.run h5 hq (ph := ph) (put_same _ _ _)
        simp only []
        rw [e1]
        have e3 : SameBut s s1 := (SameBut.put s ph false).trans e2
        cases hrt : (t.act ph).ret with
        | some r => exact ⟨s1, by simp [Act.ret, hr, hra, hrt], e3⟩
        | none =>
          simp only []
          rw [h2.run (hs.same e3)]
          exact ⟨s1, by simp [Act.ret, hr, hra, hrt], e3⟩

theorem IterRun.run {i : IterRun} (h : i.All PartOk) {s : Running} (hs : QuietInside s) (ph : Bool) (hp : s (.problem ph) = false) :
    ∃ s', (i.act ph).run s = some ((i.act ph).ret, s') ∧ SameBut s s' := by
  obtain ⟨s1, e1, e2⟩ := i.inner_run h (hs.put (j := .problem ph) (b := true) (by simp [TimerId.Inside, TimerId.rank])) ph
  have hact : i.act ph = .timed (.problem ph) (i.inner ph) := rfl
  have h1 : s1 (.problem ph) = true := (e2 (.problem ph) (fun _ => by simp)).trans (put_same _ _ _)
  have hsame : SameBut s (s1.put (.problem ph) false) := fun id hid => by
    by_cases hj : id = .problem ph
    · rw [hj, put_same, hp]
    · rw [put_other _ hj, e2 id hid, put_other _ hj]
  rw [hact]
  unfold Act.run
  rw [if_neg (by simp [hp]), e1]
  refine ⟨s1.put (.problem ph) false, ?_, hsame⟩
  show _ = some ((i.inner ph).ret, _)
  cases hr : (i.inner ph).ret with
  | none => simp only [h1, if_true]
  | some r => simp only [h1, if_true, stopsFor]

theorem iters_run (ph : Bool) : ∀ {is : List IterRun} {s : Running}, (∀ i ∈ is, i.All PartOk) → QuietInside s → s (.problem ph) = false →
    ∃ s', (Act.seqAll (is.map (IterRun.act ph))).run s = some ((Act.seqAll (is.map (IterRun.act ph))).ret, s') ∧ SameBut s s'
  | [], s, h, hs, hp => ⟨s, rfl, .refl s⟩
  | i :: rest, s, h, hs, hp => by
    obtain ⟨s1, e1, e2⟩ := i.run (h i List.mem_cons_self) hs ph hp
    simp only [List.map_cons, Act.seqAll, Act.run, Act.ret]
    rw [e1]
    cases hr : (i.act ph).ret with
    | some r => exact ⟨s1, rfl, e2⟩
    | none =>
      obtain ⟨s2, f1, f2⟩ := iters_run ph (fun i' hi' => h i' (List.mem_cons_of_mem _ hi')) (hs.same e2)
        ((e2 (.problem ph) (fun _ => by simp)).trans hp)
      exact ⟨s2, f1, e2.trans f2⟩

theorem PassRun.run {p : PassRun} (h : p.All PartOk) {s : Running} (hs : QuietInside s) (hp : s (.problem p.phase) = false) :
    ∃ s', p.act.run s = some (p.act.ret, s') ∧ SameBut s s' := by
  obtain ⟨h1, h2, h3⟩ := h
  unfold PassRun.act
  simp only [Act.run, Act.ret]
  rw [h1.run hs]
  cases hr : p.before.ret with
  | some r => exact ⟨s, rfl, .refl s⟩
  | none =>
    obtain ⟨s1, e1, e2⟩ := iters_run p.phase h3 hs hp
    simp only []
    rw [e1]
    cases hri : (Act.seqAll (p.iters.map (IterRun.act p.phase))).ret with
    | none =>
      simp only []
      rw [h2.run (hs.same e2)]
      exact ⟨s1, rfl, e2⟩
    | some r =>
      cases r with
      | time =>
        simp only []
        rw [h2.run (hs.same e2)]
        exact ⟨s1, rfl, e2⟩
      | error => exact ⟨s1, rfl, e2⟩

theorem passes_run : ∀ {ps : List PassRun} {s : Running}, (∀ p ∈ ps, p.All PartOk) → QuietInside s → (∀ ph, s (.problem ph) = false) →
    ∃ s', (Act.seqAll (ps.map PassRun.act)).run s = some ((Act.seqAll (ps.map PassRun.act)).ret, s') ∧ SameBut s s'
  | [], s, h, hs, hp => ⟨s, rfl, .refl s⟩
  | p :: rest, s, h, hs, hp => by
    obtain ⟨s1, e1, e2⟩ := p.run (h p List.mem_cons_self) hs (hp _)
    simp only [List.map_cons, Act.seqAll, Act.run, Act.ret]
    rw [e1]
    cases hr : p.act.ret with
    | some r => exact ⟨s1, rfl, e2⟩
    | none =>
      obtain ⟨s2, f1, f2⟩ := passes_run (fun i' hi' => h i' (List.mem_cons_of_mem _ hi')) (hs.same e2)
        (fun ph => (e2 (.problem ph) (fun _ => by simp)).trans (hp ph))
      exact ⟨s2, f1, e2.trans f2⟩

theorem display_run : ∀ {ids : List TimerId} {s : Running}, (∀ id ∈ ids, s id = false) →
    (Act.seqAll (ids.map .shown)).run s = some (none, s)
  | [], s, h => rfl
  | id :: rest, s, h => by
    have := h id List.mem_cons_self
    simp only [List.map_cons, Act.seqAll, Act.run, this]
    exact display_run fun j hj => h j (List.mem_cons_of_mem _ hj)

theorem display_ret : ∀ {ids : List TimerId}, (Act.seqAll (ids.map .shown)).ret = none
  | [] => rfl
  | id :: rest => by
    simp only [List.map_cons, Act.seqAll, Act.ret]
    exact display_ret

theorem SolveRun.all_and {P Q : Act → Prop} {c : SolveRun} (h : c.All P) (h' : c.All Q) : c.All fun a => P a ∧ Q a :=
  ⟨⟨h.1, h'.1⟩, fun p hp => ⟨⟨(h.2 p hp).1, (h'.2 p hp).1⟩, ⟨(h.2 p hp).2.1, (h'.2 p hp).2.1⟩, fun i hi =>
    ⟨⟨((h.2 p hp).2.2 i hi).1, ((h'.2 p hp).2.2 i hi).1⟩, ⟨((h.2 p hp).2.2 i hi).2.1, ((h'.2 p hp).2.2 i hi).2.1⟩, fun a t e =>
      ⟨⟨(((h.2 p hp).2.2 i hi).2.2 a t e).1, (((h'.2 p hp).2.2 i hi).2.2 a t e).1⟩,
        ⟨(((h.2 p hp).2.2 i hi).2.2 a t e).2.1, (((h'.2 p hp).2.2 i hi).2.2 a t e).2.1⟩,
        ⟨(((h.2 p hp).2.2 i hi).2.2 a t e).2.2.1, (((h'.2 p hp).2.2 i hi).2.2 a t e).2.2.1⟩,
        fun b hb => ⟨(((h.2 p hp).2.2 i hi).2.2 a t e).2.2.2 b hb, (((h'.2 p hp).2.2 i hi).2.2 a t e).2.2.2 b hb⟩⟩⟩⟩⟩

theorem onlyTrials_quiet {s : Running} (h : OnlyTrials s) : QuietInside s := fun id hid => by
  by_contra hne
  obtain ⟨ph, e⟩ := h id (by simpa using hne)
  exact inside_not_trial hid ph e

theorem onlyTrials_false {s : Running} (h : OnlyTrials s) {id : TimerId} (hid : ∀ ph, id ≠ .trial ph) : s id = false := by
  by_contra hne
  obtain ⟨ph, e⟩ := h id (by simpa using hne)
  exact hid ph e

theorem seqAll_resets {id : TimerId} : ∀ {as : List Act}, (∀ a ∈ as, a.resets id = false) → (Act.seqAll as).resets id = false
  | [], _ => rfl
  | a :: rest, h => by
    simp only [Act.seqAll, Act.resets, h a List.mem_cons_self, Bool.false_or]
    exact seqAll_resets fun b hb => h b (List.mem_cons_of_mem _ hb)

theorem SolveRun.resets {c : SolveRun} (h : c.Fits) {id : TimerId} (hid : ∀ ph, id ≠ .trial ph) : c.act.resets id = false := by
  obtain ⟨⟨hf, hp⟩, -⟩ := h
  have hd : (Act.seqAll (c.display.map .shown)).resets id = false := seqAll_resets fun a ha => by
    obtain ⟨j, -, rfl⟩ := List.mem_map.1 ha
    rfl
  have hps : (Act.seqAll (c.passes.map PassRun.act)).resets id = false := seqAll_resets fun a ha => by
    obtain ⟨p, hpm, rfl⟩ := List.mem_map.1 ha
    obtain ⟨h1, h2, h3⟩ := hp p hpm
    have his : (Act.seqAll (p.iters.map (IterRun.act p.phase))).resets id = false := seqAll_resets fun a ha => by
      obtain ⟨i, him, rfl⟩ := List.mem_map.1 ha
      obtain ⟨g1, g2, g3⟩ := h3 i him
      unfold IterRun.act
      cases ht : i.trial with
      | none => simp [Act.resets, within_resets g1, within_resets g2]
      | some x =>
        obtain ⟨a, t⟩ := x
        obtain ⟨k1, k2, k3, k4⟩ := g3 a t ht
        have hne : (TimerId.trial p.phase == id) = false := by
          rw [beq_eq_false_iff_ne]
          exact fun e => hid p.phase e.symm
        have hta : (t.act p.phase).resets id = false := by
          unfold TrialRun.act
          cases hc : t.correct with
          | none => simp [Act.resets, within_resets k2, within_resets k3]
          | some b => simp [Act.resets, within_resets k2, within_resets k3, within_resets (k4 b hc)]
        simp [Act.resets, within_resets g1, within_resets g2, within_resets k1, hta, hne]
    unfold PassRun.act
    simp [Act.resets, within_resets h1, within_resets h2, his]
  unfold SolveRun.act
  simp [Act.resets, hd, hps, within_resets hf]

/-! ### C126 -/

/-- C126: any number of solves that return `SLEQP_OKAY`, whether they end with an optimal point, for lack of iterations, or for lack of time
found by an LP or a Gauss-Newton step, pass all assertions on timers; only timers of trial points, which are reset before they are used again,
may be left running. -/
theorem C126_history_partial : ∀ {cs : List SolveRun} {s : Running}, (∀ c ∈ cs, c.Fits ∧ c.All Act.Tidy ∧ c.act.ret = none) → OnlyTrials s →
    ∃ s', solveRuns cs s = some (cs.map fun _ => none, s') ∧ OnlyTrials s'
  | [], s, _, hs => ⟨s, rfl, hs⟩
  | c :: rest, s, h, hs => by
    obtain ⟨hfit, htidy, hret⟩ := h c List.mem_cons_self
    obtain ⟨hf, hp⟩ : c.All PartOk := SolveRun.all_and hfit.1 htidy
    have hq := onlyTrials_quiet hs
    have hsolver : s .solver = false := onlyTrials_false hs fun _ => by simp
    obtain ⟨s1, e1, e2⟩ := passes_run hp (hq.put (j := .solver) (b := true) (by simp [TimerId.Inside, TimerId.rank]))
      (fun ph => (put_other s (by simp) true).trans (onlyTrials_false hs fun _ => by simp))
    have hq1 : QuietInside s1 := (hq.put (j := .solver) (b := true) (by simp [TimerId.Inside, TimerId.rank])).same e2
    have hs1 : s1 .solver = true := (e2 .solver fun _ => by simp).trans (put_same _ _ _)
    have hret' := hret
    unfold SolveRun.act at hret'
    simp only [Act.ret, display_ret] at hret'
    have hr1 : (Act.seqAll (c.passes.map PassRun.act)).ret = none := by
      cases hr : (Act.seqAll (c.passes.map PassRun.act)).ret with
      | none => rfl
      | some r => simp [hr] at hret'
    have hr2 : c.finish.ret = none := by
      cases hr : c.finish.ret with
      | none => rfl
      | some r => simp [hr, hr1] at hret'
    have hsame : SameBut s (s1.put .solver false) := fun id hid => by
      by_cases hj : id = .solver
      · rw [hj, put_same, hsolver]
      · rw [put_other _ hj, e2 id hid, put_other _ hj]
    have hrun : c.act.run s = some (none, s1.put .solver false) := by
      unfold SolveRun.act
      simp only [Act.run, hsolver, Bool.false_eq_true, if_false]
      rw [e1, hr1]
      simp only []
      rw [hf.run hq1, hr2]
      simp only [hs1, if_true]
      exact display_run fun id hid => (hq.same hsame) id (hfit.2 id hid)
    have hot : OnlyTrials (s1.put .solver false) := fun id hid => by
      by_contra hne
      have := hsame id fun ph e => hne ⟨ph, e⟩
      rw [hid] at this
      exact hne (hs id this.symm)
    obtain ⟨s2, f1, f2⟩ := C126_history_partial (fun c' hc' => h c' (List.mem_cons_of_mem _ hc')) hot
    refine ⟨s2, ?_, f2⟩
    unfold solveRuns
    rw [hrun]
    simp only []
    rw [f1]
    rfl

/-- timers stopped for all return codes are stopped after every run -/
theorem guarded_stopped {id : TimerId} (hg : ∀ r, stopsFor id r = true) : ∀ {a : Act} {s s' : Running} {o : Option EarlyRet},
    a.run s = some (o, s') → s id = false → s' id = false
  | .skip, s, s', o, h, hs => by cases h; exact hs
  | .stop r, s, s', o, h, hs => by cases h; exact hs
  | .seq a b, s, s', o, h, hs => by
    unfold Act.run at h
    cases ha : a.run s with
    | none => rw [ha] at h; cases h
    | some x =>
      obtain ⟨o1, s1⟩ := x
      have h1 := guarded_stopped hg ha hs
      rw [ha] at h
      cases o1 with
      | none => exact guarded_stopped hg h h1
      | some r => cases h; exact h1
  | .timed j a, s, s', o, h, hs => by
    unfold Act.run at h
    split_ifs at h with hj
    by_cases hne : id = j
    · subst hne
      cases ha : a.run (s.put id true) with
      | none => rw [ha] at h; cases h
      | some x =>
        obtain ⟨o1, s1⟩ := x
        rw [ha] at h
        cases o1 with
        | none =>
          simp only [] at h
          split_ifs at h
          cases h
          exact put_same _ _ _
        | some r =>
          simp only [hg r, if_true] at h
          split_ifs at h
          cases h
          exact put_same _ _ _
    · cases ha : a.run (s.put j true) with
      | none => rw [ha] at h; cases h
      | some x =>
        obtain ⟨o1, s1⟩ := x
        have h1 := guarded_stopped hg ha ((put_other _ hne _).trans hs)
        rw [ha] at h
        cases o1 with
        | none =>
          simp only [] at h
          split_ifs at h
          cases h
          exact (put_other _ hne _).trans h1
        | some r =>
          simp only [] at h
          split_ifs at h <;> cases h
          · exact (put_other _ hne _).trans h1
          · exact h1
  | .reset j, s, s', o, h, hs => by
    cases h
    by_cases hne : id = j
    · rw [hne]; exact put_same _ _ _
    · exact (put_other _ hne _).trans hs
  | .shown j, s, s', o, h, hs => by
    unfold Act.run at h
    split_ifs at h
    cases h
    exact hs
  | .catchTime a, s, s', o, h, hs => by
    unfold Act.run at h
    cases ha : a.run s with
    | none => rw [ha] at h; cases h
    | some x =>
      obtain ⟨o1, s1⟩ := x
      have h1 := guarded_stopped hg ha hs
      rw [ha] at h
      rcases o1 with _ | _ | _ <;> cases h <;> exact h1

/-- C126: the timers of problem solver, EQP solver and LPs are stopped after every run, however it ends. -/
theorem C126_guarded_partial {id : TimerId} (hid : ∃ ph, id = .problem ph ∨ id = .eqp ph ∨ ∃ red, id = .lp ph red) {a : Act} {s s' : Running}
    {o : Option EarlyRet} (h : a.run s = some (o, s')) (hs : s id = false) : s' id = false := by
  refine guarded_stopped (fun r => ?_) h hs
  rcases hid with ⟨ph, rfl | rfl | ⟨red, rfl⟩⟩ <;> cases r <;> rfl

/-- sample: an LP runs out of time within a trial point -/
example : ((Act.timed (.trial false) (.timed (.lp false true) (.stop .time))).run fun _ => false).map
    (fun x => (x.1, x.2 (.lp false true), x.2 (.trial false))) = some (some .time, false, true) := by decide +kernel

/-- C126, what goes wrong: a return code leaves running every timer it passes which is not stopped for it. -/
theorem passes_left {id : TimerId} {r : EarlyRet} (hg : stopsFor id r = false) : ∀ {a : Act} {s s' : Running},
    a.run s = some (some r, s') → a.passes id = true → a.resets id = false → s' id = true
  | .skip, s, s', h, hp, hr => by cases h
  | .stop _, s, s', h, hp, hr => by cases hp
  | .seq a b, s, s', h, hp, hr => by
    obtain ⟨hra, hrb⟩ := Bool.or_eq_false_iff.1 hr
    unfold Act.run at h
    cases ha : a.run s with
    | none => rw [ha] at h; cases h
    | some x =>
      obtain ⟨o1, s1⟩ := x
      have h1 := run_ret ha
      rw [ha] at h
      unfold Act.passes at hp
      cases o1 with
      | none =>
        rw [← h1] at hp
        exact passes_left hg h hp hrb
      | some r' =>
        cases h
        rw [← h1] at hp
        exact passes_left hg ha hp hra
  | .timed j a, s, s', h, hp, hr => by
    unfold Act.run at h
    split_ifs at h with hj
    cases ha : a.run (s.put j true) with
    | none => rw [ha] at h; cases h
    | some x =>
      obtain ⟨o1, s1⟩ := x
      rw [ha] at h
      cases o1 with
      | none =>
        simp only [] at h
        split_ifs at h
        cases h
      | some r' =>
        simp only [] at h
        by_cases hne : id = j
        · subst hne
          have hk := run_keep ha (put_same _ _ _) hr
          split_ifs at h with hst
          · cases h
            rw [hg] at hst
            cases hst
          · cases h
            exact hk
        · have hp' : a.passes id = true := by
            rcases Bool.or_eq_true_iff.1 hp with hp | hp
            · exact absurd (beq_iff_eq.1 (Bool.and_eq_true_iff.1 hp).1).symm hne
            · exact hp
          split_ifs at h <;> cases h
          · exact (put_other _ hne _).trans (passes_left hg ha hp' hr)
          · exact passes_left hg ha hp' hr
  | .reset _, s, s', h, hp, hr => by cases hp
  | .shown _, s, s', h, hp, hr => by cases hp
  | .catchTime a, s, s', h, hp, hr => by
    unfold Act.run at h
    cases ha : a.run s with
    | none => rw [ha] at h; cases h
    | some x =>
      obtain ⟨o1, s1⟩ := x
      rw [ha] at h
      rcases o1 with _ | _ | _ <;> cases h
      exact passes_left hg ha (Bool.and_eq_true_iff.1 hp).1 hr

/-- The code violates C126 after errors: whenever a solve returns an error, e.g. because the user's function failed, the timer of the solver is
left running, and every further solve with this solver fails an assertion. -/
theorem C126_error_violated {c c' : SolveRun} (hf : c.Fits) {s s' : Running} {r : EarlyRet} (h : c.act.run s = some (some r, s')) :
    c'.act.run s' = none := by
  have hret := (run_ret h).symm
  have hp : c.act.passes .solver = true := by
    unfold SolveRun.act at hret ⊢
    simp only [Act.ret, display_ret] at hret
    unfold Act.passes
    have h1 : (Act.timed .solver (.seq (Act.seqAll (c.passes.map PassRun.act)) c.finish)).ret.isSome = true := by
      simp only [Act.ret]
      cases hx : (Act.seqAll (c.passes.map PassRun.act)).ret with
      | some r => rfl
      | none =>
        cases hy : c.finish.ret with
        | some r => rfl
        | none => simp [hx, hy] at hret
    rw [if_pos h1]
    unfold Act.passes
    have h2 : (Act.seq (Act.seqAll (c.passes.map PassRun.act)) c.finish).ret.isSome = true := h1
    exact Bool.or_eq_true_iff.2 (Or.inl (by simpa using h2))
  have hrun := passes_left (by cases r <;> rfl) h hp (c.resets hf fun _ => by simp)
  unfold SolveRun.act
  simp only [Act.run, hrun, if_true]

/-- The code violates C126 also for new solvers: whenever the user's function (or another part `id` of its timers) is left by an error, its timer
is left running, and every later run that calls it, be it of another solver using the same function, fails an assertion. -/
theorem C126_function_violated {c : SolveRun} (hf : c.Fits) {k : Fin 6} {s s' : Running} (h : c.act.run s = some (some .error, s'))
    (hp : c.act.passes (.func 0 k) = true) {b : Act} (hb : b.resets (.func 0 k) = false) (hs : b.starts (.func 0 k) = true) :
    b.run s' = none :=
  run_starts (passes_left rfl h hp (c.resets hf fun _ => by simp)) hb hs

/-! ### samples -/

/-- sample: a step of the trust region solver with one product with the Hessian, in an iteration of the problem solver, which returns as given -/
def exIterRun (loop hess : Act) : IterRun :=
  ⟨.timed (.func 0 1) .skip, some (.timed (.augCreate false) (.timed (.factorize false) .skip),
    ⟨.seq (.timed (.lp false false) .skip) (.timed (.eqp false) (.timed (.newton false) (.timed (.tr false)
      (.timed (.krylov false) (.seq (.timed (.func 1 5) (.timed (.func 0 5) hess)) loop))))),
     .timed (.func 0 0) .skip, none⟩), .skip⟩

/-- sample: a solve with one such iteration -/
def exSolveRun (loop hess : Act) : SolveRun := ⟨[⟨false, .skip, [exIterRun loop hess], .skip⟩], .skip, [.func 0 5, .eqp false, .lp false false]⟩

instance (i j : TimerId) : Decidable (i.Inside j) := by unfold TimerId.Inside; infer_instance

theorem exSolveRun_fits {loop hess : Act} (h1 : loop.Within (.krylov false)) (h2 : hess.Within (.func 0 5)) : (exSolveRun loop hess).Fits := by
  refine ⟨⟨trivial, fun p hp => ?_⟩, ?_⟩
  · rw [List.mem_singleton.1 hp]
    refine ⟨trivial, trivial, fun i hi => ?_⟩
    rw [List.mem_singleton.1 hi]
    refine ⟨⟨by decide, trivial⟩, trivial, fun a t e => ?_⟩
    cases e
    refine ⟨⟨by decide, by decide, trivial⟩, ⟨⟨by decide, trivial⟩, by decide, by decide, by decide, by decide, ⟨by decide, by decide, h2⟩, h1⟩,
      ⟨by decide, trivial⟩, fun b hb => by cases hb⟩
  · show ∀ id ∈ [TimerId.func 0 5, .eqp false, .lp false false], (TimerId.trial false).Inside id
    decide

example : ∃ s', solveRuns [exSolveRun .skip .skip, exSolveRun .skip .skip] idleTimers = some ([none, none], s') ∧ OnlyTrials s' :=
  C126_history_partial (fun c hc => by
    have : c = exSolveRun .skip .skip := by simpa using hc
    subst this
    refine ⟨exSolveRun_fits trivial trivial, ⟨trivial, fun p hp => ?_⟩, by decide⟩
    rw [List.mem_singleton.1 hp]
    refine ⟨trivial, trivial, fun i hi => ?_⟩
    rw [List.mem_singleton.1 hi]
    refine ⟨⟨trivial, fun r h => by cases h⟩, trivial, fun a t e => ?_⟩
    cases e
    simp [exIterRun, Act.Tidy, Act.ret, TrialRun.All]) (fun id h => by cases h)

/-- sample: a solve ended by an error of the user's Hessian -/
example : ((exSolveRun .skip (.stop .error)).act.run idleTimers).map (fun x => (x.1, x.2 .solver, x.2 (.func 0 5), x.2 (.eqp false), x.2 (.func 0 1)))
    = some (some .error, true, true, false, false) := by decide +kernel

/-- The code violates C126 after time-outs of Newton steps: the solve returns `SLEQP_OKAY`, but the timers of Newton and trust region solver are
left running, and every later run with a trust region step fails an assertion. -/
theorem C126_timeout_violated : ∃ s', (exSolveRun (.stop .time) .skip).Fits ∧ (exSolveRun (.stop .time) .skip).act.run idleTimers = some (none, s') ∧
    s' (.newton false) = true ∧ ∀ b : Act, b.resets (.tr false) = false → b.starts (.tr false) = true → b.run s' = none := by
  cases h : (exSolveRun (.stop .time) .skip).act.run idleTimers with
  | none => exact absurd h (by decide +kernel)
  | some x =>
    obtain ⟨o, s'⟩ := x
    have h1 : ((exSolveRun (.stop .time) .skip).act.run idleTimers).map (fun x => (x.1, x.2 (.newton false), x.2 (.tr false))) =
        some (none, true, true) := by decide +kernel
    rw [h] at h1
    simp only [Option.map_some, Option.some.injEq, Prod.mk.injEq] at h1
    obtain ⟨rfl, h2, h3⟩ := h1
    exact ⟨s', exSolveRun_fits trivial trivial, rfl, h2, fun b hb hs => run_starts h3 hb hs⟩

end Sleqp
