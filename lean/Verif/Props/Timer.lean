import Verif.Spec.Timer
import Mathlib.Algebra.Order.BigOperators.Group.List
import Mathlib.Tactic.Linarith
import Mathlib.Tactic.FieldSimp
import Mathlib.Tactic.Ring
import Mathlib.Tactic.NormNum
import Mathlib.Algebra.Order.Ring.Rat
import Mathlib.Data.Rat.Cast.Order

/-! C50: time accounting; C60: displayed times. -/

namespace Sleqp
variable {K : Type*} [Field K] [LinearOrder K]

/-- the start of the current run -/
def Timer.open (t : Timer K) : Option K := if t.running then some t.start else none

/-- C50: after every history of calls which violates no assertion, the total time is the sum of all completed intervals and
added values, the number of runs is the number of stops, and the timer is running since the last unmatched start. -/
theorem C50_history {t t' : Timer K} {ops : List (TimerOp K)} (h : TimerOp.run t ops = some t') :
    t'.total = t.total + (TimerOp.spent t.open ops).sum ∧
    t'.totalSq = t.totalSq + ((TimerOp.spent t.open ops).map fun x => x * x).sum ∧
    t'.numRuns = t.numRuns + TimerOp.stops ops ∧
    t'.open = TimerOp.pending t.open ops := by
  induction ops generalizing t with
  | nil =>
    cases h
    simp [TimerOp.spent, TimerOp.stops, TimerOp.pending]
  | cons op ops ih =>
    cases op with
    | start now =>
      unfold TimerOp.run Timer.startAt at h
      split at h
      · cases h
      · have := ih h
        exact this
    | stop now =>
      unfold TimerOp.run Timer.stopAt at h
      split at h
      · next hr =>
        simp only [] at h
        split at h
        · have ho : t.open = some t.start := by unfold Timer.open; rw [if_pos hr]
          obtain ⟨h1, h2, h3, h4⟩ := ih h
          have ho' : Timer.open { t with
              numRuns := t.numRuns + 1, last := now - t.start, total := t.total + (now - t.start), totalSq := t.totalSq + (now - t.start) * (now - t.start), running := false } = none := rfl
          rw [ho'] at h1 h2 h4
          rw [ho]
          refine ⟨?_, ?_, ?_, h4⟩
          · rw [h1]; show _ = t.total + ((now - t.start) :: _).sum
            rw [List.sum_cons, add_assoc]
          · rw [h2]; show _ = t.totalSq + (List.map _ ((now - t.start) :: _)).sum
            rw [List.map_cons, List.sum_cons, add_assoc]
          · rw [h3]; show _ = t.numRuns + (TimerOp.stops ops + 1)
            simp only []; omega
        · cases h
      · cases h
    | add v =>
      have h' : TimerOp.run (t.add v) ops = some t' := h
      obtain ⟨h1, h2, h3, h4⟩ := ih h'
      have ho : (t.add v).open = t.open := rfl
      rw [ho] at h1 h2 h4
      refine ⟨?_, ?_, h3, h4⟩
      · rw [h1]; show t.total + v + _ = t.total + (v :: _).sum
        rw [List.sum_cons, add_assoc]
      · rw [h2]; show t.totalSq + v * v + _ = t.totalSq + (List.map _ (v :: _)).sum
        rw [List.map_cons, List.sum_cons, add_assoc]

/-- C50: a history runs through exactly if starts and stops alternate and no interval is negative (the clock is monotone). -/
def TimerOp.Legal : Option K → List (TimerOp K) → Prop
  | _, [] => True
  | none, .start now :: ops => Legal (some now) ops
  | some _, .start _ :: _ => False
  | some s, .stop now :: ops => s ≤ now ∧ Legal none ops
  | none, .stop _ :: _ => False
  | p, .add _ :: ops => Legal p ops

/-- C50: all alternating histories with a monotone clock are accepted. -/
theorem C50_accepted [IsStrictOrderedRing K] {t : Timer K} {ops : List (TimerOp K)} :
    (TimerOp.run t ops).isSome ↔ TimerOp.Legal t.open ops := by
  induction ops generalizing t with
  | nil => simp [TimerOp.run, TimerOp.Legal]
  | cons op ops ih =>
    cases op with
    | start now =>
      unfold TimerOp.run Timer.startAt Timer.open
      cases hr : t.running
      · simp only [Bool.false_eq_true, if_false, Option.bind_some]
        rw [ih]; rfl
      · simp [TimerOp.Legal]
    | stop now =>
      unfold TimerOp.run Timer.stopAt Timer.open
      cases hr : t.running
      · simp [TimerOp.Legal]
      · simp only [if_true]
        by_cases h0 : 0 ≤ now - t.start
        · rw [if_pos h0]
          simp only [Option.bind_some]
          rw [ih]
          show _ ↔ t.start ≤ now ∧ TimerOp.Legal none ops
          rw [and_iff_right (sub_nonneg.mp h0)]; rfl
        · rw [if_neg h0]
          show _ ↔ t.start ≤ now ∧ TimerOp.Legal none ops
          rw [sub_nonneg] at h0
          simp [h0]
    | add v =>
      show (TimerOp.run (t.add v) ops).isSome ↔ _
      rw [ih]
      show TimerOp.Legal t.open ops ↔ _
      cases t.open <;> rfl

/-- C50: the reported total of a running timer additionally counts the time since the last start. -/
theorem C50_ttl {t : Timer K} {now : K} : t.ttl now = t.total + (t.open.elim 0 fun s => now - s) := by
  unfold Timer.ttl Timer.currently Timer.open
  cases t.running <;> simp

/-- C50: the remaining time is unlimited iff no limit is set, never negative, at most the limit less the elapsed time if that is positive, and does not increase as time passes. -/
theorem C50_remaining [IsStrictOrderedRing K] (e e' : K) (limit : Option K) (h : e ≤ e') :
    (Timer.remaining e limit = none ↔ limit = none) ∧
    ∀ l, limit = some l → ∃ r r', Timer.remaining e limit = some r ∧ Timer.remaining e' limit = some r' ∧ 0 ≤ r ∧ r' ≤ r ∧
      (e ≤ l → r = l - e) ∧ (l ≤ e → r = 0) := by
  refine ⟨by simp [Timer.remaining], ?_⟩
  rintro l rfl
  refine ⟨_, _, rfl, rfl, le_max_right _ _, max_le_max (by linarith) le_rfl, fun h1 => max_eq_left (by linarith), fun h1 => max_eq_right (by linarith)⟩

/-- C50: the limit counts as exhausted exactly when there is one and the total time has reached it. -/
theorem C50_exhausted [IsStrictOrderedRing K] (t : Timer K) (now : K) (limit : Option K) :
    t.exhausted now limit = true ↔ ∃ l, limit = some l ∧ l ≤ t.ttl now := by
  cases limit with
  | none => simp [Timer.exhausted]
  | some l =>
    simp [Timer.exhausted]

theorem sum_sq_le [IsStrictOrderedRing K] (l : List K) : l.sum * l.sum ≤ l.length * (l.map fun x => x * x).sum := by
  induction l with
  | nil => simp
  | cons a t ih =>
    simp only [List.sum_cons, List.map_cons, List.length_cons, Nat.cast_add, Nat.cast_one]
    rcases Nat.eq_zero_or_pos t.length with h0 | hpos
    · rw [List.length_eq_zero_iff] at h0
      subst h0; simp
    · have hn : (0 : K) < t.length := by exact_mod_cast hpos
      have h2 : 0 ≤ ((t.length : K) * a - t.sum) * (t.length * a - t.sum) := mul_self_nonneg _
      have h3 : 0 ≤ (t.length : K) * ((t.length + 1) * (a * a + (t.map fun x => x * x).sum) - (a + t.sum) * (a + t.sum)) := by
        nlinarith
      nlinarith [nonneg_of_mul_nonneg_right h3 hn]

/-- a history without added values -/
def TimerOp.NoAdd : List (TimerOp K) → Prop
  | [] => True
  | .add _ :: _ => False
  | _ :: ops => NoAdd ops

theorem spent_length {p : Option K} {ops : List (TimerOp K)} (h : TimerOp.Legal p ops) (hn : TimerOp.NoAdd ops) :
    (TimerOp.spent p ops).length = TimerOp.stops ops := by
  induction ops generalizing p with
  | nil => cases p <;> rfl
  | cons op ops ih =>
    cases op with
    | start now =>
      cases p with
      | none => exact ih (p := some now) h hn
      | some s => exact h.elim
    | stop now =>
      cases p with
      | none => exact h.elim
      | some s =>
        show (_ :: _).length = TimerOp.stops ops + 1
        rw [List.length_cons, ih h.2 hn]
    | add v => exact hn.elim

/-- C50: the reported average is total by number of runs, and the argument of the square root in the reported standard
deviation is never negative, for timers which are only started and stopped. -/
theorem C50_deviation_partial [IsStrictOrderedRing K] {t : Timer K} {ops : List (TimerOp K)}
    (h : TimerOp.run Timer.reset ops = some t) (hn : TimerOp.NoAdd ops) (hr : t.running = false) :
    ∃ a v, t.avg = some a ∧ t.variance = some v ∧ a * t.numRuns = t.total ∧ 0 ≤ v := by
  obtain ⟨h1, h2, h3, -⟩ := C50_history h
  have hl : TimerOp.Legal (Timer.open (Timer.reset : Timer K)) ops := C50_accepted.mp (by rw [h]; rfl)
  have hlen := spent_length hl hn
  have hs := sum_sq_le (TimerOp.spent (Timer.open (Timer.reset : Timer K)) ops)
  rw [hlen] at hs
  rw [show (Timer.reset : Timer K).total = 0 from rfl, zero_add] at h1
  rw [show (Timer.reset : Timer K).totalSq = 0 from rfl, zero_add] at h2
  rw [show (Timer.reset : Timer K).numRuns = 0 from rfl, Nat.zero_add] at h3
  rw [← h1, ← h2, ← h3] at hs
  by_cases h0 : t.numRuns = 0
  · refine ⟨0, 0, ?_, ?_, ?_, le_rfl⟩
    · unfold Timer.avg; simp [hr, h0]
    · unfold Timer.variance; simp [h0]
    · rw [h0] at hs ⊢
      have : t.total * t.total = 0 := le_antisymm (by simpa using hs) (mul_self_nonneg _)
      have := mul_self_eq_zero.mp this
      simp [this]
  · have hpos : (0 : K) < t.numRuns := by exact_mod_cast Nat.pos_of_ne_zero h0
    refine ⟨t.total / t.numRuns, t.totalSq / t.numRuns - t.total / t.numRuns * (t.total / t.numRuns), ?_, ?_, ?_, ?_⟩
    · unfold Timer.avg; simp [hr, h0]
    · unfold Timer.variance Timer.avg; simp [hr, h0]
    · exact div_mul_cancel₀ _ hpos.ne'
    · rw [sub_nonneg, div_mul_div_comm, div_le_div_iff₀ (mul_pos hpos hpos) hpos]
      nlinarith

/-- C50: after a timer was credited with an extra value (as done for the Newton timer), the reported standard deviation can
be the square root of a negative number: one run of one second and one added second. -/
theorem C50_deviation_violated :
    (TimerOp.run (Timer.reset : Timer ℚ) [.start 0, .stop 1, .add 1]).bind Timer.variance = some (-2) := by decide +kernel

/-- C50: the time limit of the trust-region subproblem solvers is compared with the elapsed time of a running timer, which
includes the duration of the previous run: a second run started at time 5 is one second old at time 6, but counts as four seconds
after a first run of three seconds, so that a limit of four seconds is considered reached. -/
theorem C50_elapsed_violated :
    (TimerOp.run (Timer.reset : Timer ℚ) [.start 0, .stop 3, .start 5]).map (fun t => t.elapsed 6) = some 4 ∧ (6 - 5 : ℚ) < 4 := by decide +kernel

/-- C50: the elapsed time of a running timer is its current run plus the duration of the previous one; it is the
current run only if there was no previous run (or it took no time). -/
theorem C50_elapsed_partial {t : Timer K} {now : K} {s : K} (h : t.open = some s) : t.elapsed now = now - s ↔ t.last = 0 := by
  unfold Timer.open at h
  split at h
  · next hr =>
    cases h
    unfold Timer.elapsed Timer.currently
    rw [if_pos hr]
    exact add_eq_right
  · cases h

/-- C50: the seconds reported for the last call of solve are those of all calls: two solves of 3 and 2 seconds. -/
theorem C50_solver_elapsed_violated :
    (TimerOp.run (Timer.reset : Timer ℚ) [.start 0, .stop 3, .start 10, .stop 12]).map (fun t => t.ttl 20) = some 5 ∧ (12 - 10 : ℚ) ≠ 5 := by
  decide +kernel

/-- C50: the time spent in Hessian products and solves during a Newton step is measured as the difference of the elapsed times of
their (stopped) timers before and after, which ignores all but the last run: two runs of one second each count as 0 seconds. -/
theorem C50_difference_violated :
    ((TimerOp.run (Timer.reset : Timer ℚ) [.start 0, .stop 1]).bind fun t =>
      (TimerOp.run t [.start 2, .stop 3, .start 4, .stop 5]).map fun t' => (t'.elapsed 6 - t.elapsed 1, t'.total - t.total)) = some (0, 2) := by
  decide +kernel

/-- non-vacuity: a history of two runs and a pending one -/
example : ∃ t, TimerOp.run (Timer.reset : Timer ℚ) [.start 0, .stop 3, .start 5, .stop 6, .start 7] = some t ∧ t.total = 4 ∧ t.ttl 9 = 6 := by
  refine ⟨⟨7, 2, true, 4, 10, 1⟩, ?_, rfl, ?_⟩ <;> decide +kernel

/-! ### C60: displayed times -/

/-- C60: the displayed value times its unit is the measured time. -/
theorem C60_value [IsStrictOrderedRing K] (time : K) (u : TimeUnit) (v : K) (l : Option Nat) (h : roundTime time = (v, u, l)) :
    v * u.seconds = time := by
  unfold roundTime at h
  split at h
  · next h0 => cases h; rw [h0, zero_mul]
  · split at h
    · unfold roundUpFrom at h
      simp only [mul_one] at h
      rw [if_pos (by assumption)] at h
      unfold roundUpFrom at h
      split at h
      · unfold roundUpFrom at h
        split at h
        · unfold roundUpFrom at h
          split at h
          · unfold roundUpFrom at h; cases h; simp [TimeUnit.seconds]; field_simp; norm_num
          · cases h; simp [TimeUnit.seconds]; field_simp; norm_num
        · cases h; simp [TimeUnit.seconds]
      · cases h; simp [TimeUnit.seconds]
    · next h1 =>
      unfold roundDownFrom at h
      simp only [mul_one] at h
      rw [if_neg h1] at h
      unfold roundDownFrom at h
      rw [if_neg h1] at h
      unfold roundDownFrom at h
      split at h
      · cases h; simp [TimeUnit.seconds]
      · unfold roundDownFrom at h
        cases h; simp [TimeUnit.seconds]; field_simp; norm_num

/-- C60: times of at least a microsecond are displayed with a value of at least 1, less than 60 (seconds, minutes), 24
(hours) or 1000 (milli- and microseconds). -/
theorem C60_range [IsStrictOrderedRing K] (time : K) (ht : 1 / 1000000 ≤ time) (u : TimeUnit) (v : K) (l : Option Nat)
    (h : roundTime time = (v, u, l)) :
    1 ≤ v ∧ l = some u.len ∧
    (match u with | .day => True | .hour => v < 24 | .minute => v < 60 | .second => v < 60 | .milli => v < 1000 | .micro => v < 1000) := by
  have hpos : 0 < time := lt_of_lt_of_le (by norm_num) ht
  unfold roundTime at h
  rw [if_neg hpos.ne'] at h
  split at h
  · next h1 =>
    unfold roundUpFrom at h
    simp only [mul_one] at h
    rw [if_pos h1] at h
    unfold roundUpFrom at h
    split at h
    · next h2 =>
      unfold roundUpFrom at h
      split at h
      · next h3 =>
        unfold roundUpFrom at h
        split at h
        · next h4 => unfold roundUpFrom at h; cases h; exact ⟨h4, rfl, trivial⟩
        · next h4 => cases h; exact ⟨h3, rfl, by simp only []; linarith⟩
      · next h3 => cases h; exact ⟨h2, rfl, by simp only []; linarith⟩
    · next h2 => cases h; exact ⟨h1, rfl, by simp only []; linarith⟩
  · next h1 =>
    unfold roundDownFrom at h
    simp only [mul_one] at h
    rw [if_neg h1] at h
    unfold roundDownFrom at h
    rw [if_neg h1] at h
    unfold roundDownFrom at h
    split at h
    · next h2 => cases h; exact ⟨h2, rfl, by simp only []; linarith⟩
    · next h2 =>
      unfold roundDownFrom at h
      cases h; refine ⟨?_, rfl, ?_⟩
      · have : (1 : K) = 1 / 1000000 * 1000 * 1000 := by norm_num
        simp only []; linarith
      · simp only []; linarith

/-- C60: for a time of exactly zero (runs shorter than a clock tick) the length of the suffix is never written: the
display uses an uninitialised width. -/
theorem C60_zero_violated : (roundTime (0 : ℚ)).2.2 = none := by decide +kernel

/-- non-vacuity: 90 minutes -/
example : roundTime (5400 : ℚ) = (3 / 2, .hour, some 1) := by decide +kernel

end Sleqp
