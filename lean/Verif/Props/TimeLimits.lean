import Verif.Spec.TimeLimits
import Mathlib.Algebra.Field.Rat
import Mathlib.Algebra.Order.Ring.Rat
import Mathlib.Tactic.Linarith

/-!
C122: a time limit is handed on to all parts; C123: after a time-out the solver can be used further.
-/

namespace Sleqp
variable {K : Type*} [Field K] [LinearOrder K]

theorem startAt_stopped {t : Timer K} (h : t.running = false) (now : K) :
    t.startAt now = some { t with running := true, start := now } := by
  simp [Timer.startAt, h]

theorem stopAt_ok {t t' : Timer K} {now : K} (h : t.stopAt now = some t') : t'.running = false ∧ t'.last = now - t.start := by
  unfold Timer.stopAt at h
  by_cases hr : t.running
  · rw [if_pos hr] at h
    by_cases h0 : 0 ≤ now - t.start
    · simp only [h0, if_true, Option.some.injEq] at h
      subst h
      exact ⟨rfl, rfl⟩
    · simp [h0] at h
  · rw [if_neg hr] at h
    cases h

theorem stopAt_running [IsStrictOrderedRing K] {t : Timer K} {now : K} (hr : t.running = true) (h : t.start ≤ now) :
    ∃ t', t.stopAt now = some t' ∧ t'.running = false := by
  have h0 : 0 ≤ now - t.start := sub_nonneg.2 h
  refine ⟨{ t with numRuns := t.numRuns + 1, last := now - t.start, total := t.total + (now - t.start), totalSq := t.totalSq + (now - t.start) * (now - t.start), running := false }, ?_, rfl⟩
  simp only [Timer.stopAt, hr, if_true, h0]

theorem startAt_ok {t t' : Timer K} {now : K} (h : t.startAt now = some t') :
    t' = { t with running := true, start := now } := by
  unfold Timer.startAt at h
  by_cases hr : t.running
  · simp [hr] at h
  · simp only [hr, Bool.false_eq_true, if_false, Option.some.injEq] at h
    exact h.symm

/-! ### one LP solve -/

/-- what an LP solve leaves behind -/
theorem lpSolve_spec {p p' : LpTime K} {r : LpRun K} {out : Bool} (h : p.solve r = some (p', out)) :
    p'.timer.running = false ∧ p'.timer.elapsed r.stop = r.stop - r.start ∧ p'.limit = p.limit ∧ out = r.timedOut ∧
      p'.lib = (match p.limit with | some l => some l | none => p.lib) := by
  unfold LpTime.solve at h
  cases h1 : p.timer.startAt r.start with
  | none => simp [h1] at h
  | some t =>
    cases h2 : t.stopAt r.stop with
    | none => simp [h1, h2] at h
    | some t' =>
      simp only [h1, h2, Option.some.injEq, Prod.mk.injEq] at h
      obtain ⟨rfl, rfl⟩ := h
      obtain ⟨a, b⟩ := stopAt_ok h2
      have c := startAt_ok h1
      refine ⟨a, ?_, rfl, rfl, rfl⟩
      simp only [Timer.elapsed, Timer.currently, a, Bool.false_eq_true, if_false, add_zero, b, c]

theorem lpSolve_ready [IsStrictOrderedRing K] {p : LpTime K} {r : LpRun K} (hp : p.timer.running = false) (hr : r.start ≤ r.stop) :
    ∃ p', p.solve r = some (p', r.timedOut) := by
  obtain ⟨t', h, -⟩ := stopAt_running (t := { p.timer with running := true, start := r.start }) (now := r.stop) rfl hr
  refine ⟨{ p with timer := t', lib := match p.limit with | some l => some l | none => p.lib }, ?_⟩
  simp only [LpTime.solve, startAt_stopped hp]
  simp only at h
  simp only [h]
  rfl

/-! ### the LP solves of a Cauchy step -/

/-- The limits given in a Cauchy step, in terms of a deadline. -/
theorem solves_deadline [IsStrictOrderedRing K] :
    ∀ {lps : List (LpRun K × Option (LpRun K))} {c c' : CauchyTime K} {out : Bool} {log log' : List (Grant K)} {t l D : K},
      c.limit = some l → 0 ≤ l → (l = 0 ∨ t + l ≤ D) → LpsOrdered t lps → c.solves log lps = some (c', out, log') →
      ∀ g ∈ log', g ∈ log ∨ ((g.part = .lp ∨ g.part = .reduced) ∧
        ∃ i, g.limit = some i ∧ 0 ≤ i ∧ (i = 0 ∨ g.start + i ≤ D + idleTime t lps)) := by
  intro lps
  induction lps with
  | nil =>
    intro c c' out log log' t l D _ _ _ _ h g hg
    simp only [CauchyTime.solves, Option.some.injEq, Prod.mk.injEq] at h
    obtain ⟨-, -, rfl⟩ := h
    exact Or.inl hg
  | cons x rest ih =>
    obtain ⟨r, r2⟩ := x
    have idleTime_nonneg : ∀ {lps : List (LpRun K × Option (LpRun K))} {t : K}, LpsOrdered t lps → 0 ≤ idleTime t lps := by
      intro lps
      induction lps with
      | nil => intro t _; exact le_refl _
      | cons y rest ih2 =>
        obtain ⟨a, b⟩ := y
        intro t ho
        cases b with
        | none =>
          obtain ⟨h1, h2, h3⟩ := ho
          have := ih2 h3
          simp only [idleTime]
          linarith
        | some q =>
          obtain ⟨h1, h2, h3, h4, h5⟩ := ho
          have := ih2 h5
          simp only [idleTime]
          linarith
    intro c c' out log log' t l D hl hl0 hD ho h g hg
    simp only [CauchyTime.solves] at h
    cases hs : c.solve r r2 log with
    | none => simp [hs] at h
    | some v =>
      obtain ⟨c1, o1, log1⟩ := v
      -- the first solve
      have key : (∀ g ∈ log1, g ∈ log ∨ ((g.part = .lp ∨ g.part = .reduced) ∧
          ∃ i, g.limit = some i ∧ 0 ≤ i ∧ (i = 0 ∨ g.start + i ≤ D + idleTime t ((r, r2) :: rest)))) ∧
          (o1 = false → c1.limit = some (max (l - (r.stop - r.start)) 0)) := by
        unfold CauchyTime.solve at hs
        cases hd : ({ c.std with limit := c.limit } : LpTime K).solve r with
        | none => simp [hd] at hs
        | some w =>
          obtain ⟨d, o⟩ := w
          obtain ⟨-, he, -, ho', hlib⟩ := lpSolve_spec hd
          have hlib' : d.lib = some l := by rw [hlib]; simp only [hl]
          have first : ∀ g : Grant K, g = ⟨.lp, r.start, d.lib⟩ → ((g.part = .lp ∨ g.part = .reduced) ∧
              ∃ i, g.limit = some i ∧ 0 ≤ i ∧ (i = 0 ∨ g.start + i ≤ D + idleTime t ((r, r2) :: rest))) := by
            rintro g rfl
            refine ⟨Or.inl rfl, l, hlib', hl0, ?_⟩
            rcases hD with hD | hD
            · exact Or.inl hD
            · right
              cases r2 with
              | none =>
                obtain ⟨h1, h2, h3⟩ := ho
                have := idleTime_nonneg h3
                simp only [idleTime]
                linarith
              | some q =>
                obtain ⟨h1, h2, h3, h4, h5⟩ := ho
                have := idleTime_nonneg h5
                simp only [idleTime]
                linarith
          cases o with
          | true =>
            simp only [hd, Option.some.injEq, Prod.mk.injEq] at hs
            obtain ⟨rfl, rfl, rfl⟩ := hs
            refine ⟨fun g hg => ?_, fun hf => by cases hf⟩
            rcases List.mem_append.1 hg with hg | hg
            · exact Or.inl hg
            · exact Or.inr (first g (List.mem_singleton.1 hg))
          | false =>
            have hlim : Timer.remaining (d.timer.elapsed r.stop) c.limit = some (max (l - (r.stop - r.start)) 0) := by
              rw [he, hl]; rfl
            cases r2 with
            | none =>
              simp only [hd, Option.some.injEq, Prod.mk.injEq] at hs
              obtain ⟨rfl, rfl, rfl⟩ := hs
              refine ⟨fun g hg => ?_, fun _ => hlim⟩
              rcases List.mem_append.1 hg with hg | hg
              · exact Or.inl hg
              · exact Or.inr (first g (List.mem_singleton.1 hg))
            | some q =>
              simp only [hd] at hs
              cases hd2 : ({ c.red with limit := Timer.remaining (d.timer.elapsed r.stop) c.limit } : LpTime K).solve q with
              | none => simp [hd2] at hs
              | some w2 =>
                obtain ⟨d2, o2⟩ := w2
                obtain ⟨-, -, -, -, hlib2⟩ := lpSolve_spec hd2
                have hlib2' : d2.lib = some (max (l - (r.stop - r.start)) 0) := by rw [hlib2]; simp only [hlim]
                simp only [hd2, Option.some.injEq, Prod.mk.injEq] at hs
                obtain ⟨rfl, rfl, rfl⟩ := hs
                refine ⟨fun g hg => ?_, fun _ => hlim⟩
                rcases List.mem_append.1 hg with hg | hg
                · rcases List.mem_append.1 hg with hg | hg
                  · exact Or.inl hg
                  · exact Or.inr (first g (List.mem_singleton.1 hg))
                · rw [List.mem_singleton.1 hg]
                  refine Or.inr ⟨Or.inr rfl, _, hlib2', le_max_right _ _, ?_⟩
                  rcases max_cases (l - (r.stop - r.start)) (0 : K) with ⟨hm, hm2⟩ | ⟨hm, -⟩
                  · obtain ⟨h1, h2, h3, h4, h5⟩ := ho
                    have := idleTime_nonneg h5
                    rcases hD with hD | hD
                    · left; rw [hm]; linarith
                    · right
                      rw [hm]
                      simp only [idleTime]
                      linarith
                  · exact Or.inl hm
      cases o1 with
      | true =>
        simp only [hs, Option.some.injEq, Prod.mk.injEq] at h
        obtain ⟨-, -, rfl⟩ := h
        exact key.1 g hg
      | false =>
        simp only [hs] at h
        have hl1 := key.2 rfl
        -- the remaining solves begin at the end of this one, with a deadline moved by the time not spent in it
        let e : K := match r2 with | none => r.stop | some q => q.stop
        have hord : LpsOrdered e rest := by
          cases r2 with
          | none => exact ho.2.2
          | some q => exact ho.2.2.2.2
        have hidle : idleTime t ((r, r2) :: rest) = (e - t - (r.stop - r.start)) + idleTime e rest := by
          cases r2 with
          | none => simp only [idleTime, e]; linarith
          | some q => simp only [idleTime, e]; linarith
        have hpos : 0 ≤ e - t - (r.stop - r.start) := by
          cases r2 with
          | none => obtain ⟨h1, h2, h3⟩ := ho; simp only [e]; linarith
          | some q => obtain ⟨h1, h2, h3, h4, h5⟩ := ho; simp only [e]; linarith
        have := ih (c := c1) (t := e) (l := max (l - (r.stop - r.start)) 0) hl1 (le_max_right _ _)
          (D := D + (e - t - (r.stop - r.start))) ?_ hord h g hg
        · rcases this with hg1 | ⟨hp, i, hi, hi0, hi1⟩
          · exact key.1 g hg1
          · refine Or.inr ⟨hp, i, hi, hi0, ?_⟩
            rw [hidle]
            rcases hi1 with hi1 | hi1
            · exact Or.inl hi1
            · right; linarith
        · rcases max_cases (l - (r.stop - r.start)) (0 : K) with ⟨hm, hm2⟩ | ⟨hm, -⟩
          · rw [hm]
            rcases hD with hD | hD
            · left
              have : r.start ≤ r.stop := by
                cases r2 with
                | none => exact ho.2.1
                | some q => exact ho.2.1
              linarith
            · right; linarith
          · exact Or.inl hm

/-! ### one step, and one trial point -/

/-- The limits given in a step of a trial point whose timer was started at `s0`. -/
theorem step_deadline [IsStrictOrderedRing K] {s s' : TpTime K} {r : StepRun K} {out : Bool} {log log' : List (Grant K)} {l s0 : K}
    (hl : s.limit = some l) (ht : ∀ now, s.timer.ttl now = now - s0) (ho : r.Ordered) (h : s.step r log = some (s', out, log')) :
    s'.limit = s.limit ∧ s'.timer = s.timer ∧ ∀ g ∈ log', g ∈ log ∨ ∃ i, g.limit = some i ∧ 0 ≤ i ∧ (i = 0 ∨
      ((g.part ≠ .eqp ∧ g.start + i ≤ s0 + l + idleTime r.read r.lps) ∨
        (g.part = .eqp ∧ ∃ read skip er, r.eqp = some (read, skip, er) ∧ g.start = er.startInner ∧
          g.start + i = s0 + l + (er.startInner - read)))) := by
  have cauchy : ∀ {s1 : TpTime K} {o : Bool} {log1 : List (Grant K)}, s.cauchyStep r log = some (s1, o, log1) →
      s1.limit = s.limit ∧ s1.timer = s.timer ∧ ∀ g ∈ log1, g ∈ log ∨ ∃ i, g.limit = some i ∧ 0 ≤ i ∧ (i = 0 ∨
        ((g.part ≠ .eqp ∧ g.start + i ≤ s0 + l + idleTime r.read r.lps))) := by
    intro s1 o log1 hc
    unfold TpTime.cauchyStep at hc
    cases hs : ({ s.cauchy with limit := Timer.remaining (s.timer.ttl r.read) s.limit } : CauchyTime K).solves log r.lps with
    | none => simp [hs] at hc
    | some v =>
      obtain ⟨c, o', log2⟩ := v
      simp only [hs, Option.some.injEq, Prod.mk.injEq] at hc
      obtain ⟨rfl, rfl, rfl⟩ := hc
      refine ⟨rfl, rfl, fun g hg => ?_⟩
      have hlim : Timer.remaining (s.timer.ttl r.read) s.limit = some (max (l - (r.read - s0)) 0) := by
        rw [hl, ht]; rfl
      have := solves_deadline (D := s0 + l) (t := r.read) (l := max (l - (r.read - s0)) 0) hlim (le_max_right _ _) ?_ ho.1 hs g hg
      · rcases this with hg | ⟨hp, i, hi, hi0, hi1⟩
        · exact Or.inl hg
        · refine Or.inr ⟨i, hi, hi0, ?_⟩
          rcases hi1 with hi1 | hi1
          · exact Or.inl hi1
          · refine Or.inr ⟨?_, hi1⟩
            rcases hp with hp | hp <;> rw [hp] <;> decide
      · rcases max_cases (l - (r.read - s0)) (0 : K) with ⟨hm, -⟩ | ⟨hm, -⟩
        · right; rw [hm]; linarith
        · exact Or.inl hm
  unfold TpTime.step at h
  cases he : r.eqp with
  | none =>
    simp only [he] at h
    obtain ⟨a, b, c⟩ := cauchy h
    refine ⟨a, b, fun g hg => ?_⟩
    rcases c g hg with hg | ⟨i, hi, hi0, hi1⟩
    · exact Or.inl hg
    · refine Or.inr ⟨i, hi, hi0, ?_⟩
      rcases hi1 with hi1 | hi1
      · exact Or.inl hi1
      · exact Or.inr (Or.inl hi1)
  | some v =>
    obtain ⟨read, skip, er⟩ := v
    simp only [he] at h
    cases hc : s.cauchyStep r log with
    | none => simp [hc] at h
    | some w =>
      obtain ⟨s1, o, log1⟩ := w
      obtain ⟨a, b, c⟩ := cauchy hc
      have lift : ∀ g ∈ log1, g ∈ log ∨ ∃ i, g.limit = some i ∧ 0 ≤ i ∧ (i = 0 ∨
          ((g.part ≠ .eqp ∧ g.start + i ≤ s0 + l + idleTime r.read r.lps) ∨
            (g.part = .eqp ∧ ∃ read' skip' er', some (read, skip, er) = some (read', skip', er') ∧ g.start = er'.startInner ∧
              g.start + i = s0 + l + (er'.startInner - read')))) := by
        intro g hg
        rcases c g hg with hg | ⟨i, hi, hi0, hi1⟩
        · exact Or.inl hg
        · refine Or.inr ⟨i, hi, hi0, ?_⟩
          rcases hi1 with hi1 | hi1
          · exact Or.inl hi1
          · exact Or.inr (Or.inl hi1)
      cases o with
      | true =>
        simp only [hc, Option.some.injEq, Prod.mk.injEq] at h
        obtain ⟨rfl, rfl, rfl⟩ := h
        exact ⟨a, b, lift⟩
      | false =>
        simp only [hc] at h
        cases hr : ({ s1.eqp with limit := Timer.remaining (s.timer.ttl read) s.limit } : EqpTime K).run skip er with
        | none => simp [hr] at h
        | some x =>
          obtain ⟨e, o2⟩ := x
          simp only [hr, Option.some.injEq, Prod.mk.injEq] at h
          obtain ⟨rfl, rfl, rfl⟩ := h
          refine ⟨a, b, fun g hg => ?_⟩
          rcases List.mem_append.1 hg with hg | hg
          · exact lift g hg
          · rw [List.mem_singleton.1 hg]
            refine Or.inr ⟨max (l - (read - s0)) 0, ?_, le_max_right _ _, ?_⟩
            · show Timer.remaining (s.timer.ttl read) s.limit = _
              rw [hl, ht]; rfl
            · rcases max_cases (l - (read - s0)) (0 : K) with ⟨hm, -⟩ | ⟨hm, -⟩
              · refine Or.inr (Or.inr ⟨rfl, read, skip, er, rfl, rfl, ?_⟩)
                show er.startInner + _ = _
                rw [hm]; linarith
              · exact Or.inl hm

/-- **C122** (limits; partial). When a trial point is computed with a time limit, each LP solve and each solution of an equality
constrained problem is given a limit. For the LP solves of a Cauchy step this ends no later than the limit of the trial point, except
that it may be late by the time which passed without solving LPs (and in solves of reduced problems) since the remaining time was
read; for the equality constrained problem it is late by exactly the time which passed since the reading before the Cauchy step
(or the limit given is zero). Missing: limits never end later than that of the trial point, which does not hold, see
`C122_newton_violated` and `C122_idle_violated`. -/
theorem C122_deadline_partial [IsStrictOrderedRing K] {s s' : TpTime K} {r : TpRun K} {out : Bool} {log : List (Grant K)} {l : K}
    (hl : r.limit = some l) (ho : r.Ordered) (h : s.run r = some (s', out, log)) :
    ∀ g ∈ log, ∃ st ∈ r.steps, ∃ i, g.limit = some i ∧ 0 ≤ i ∧ (i = 0 ∨
      ((g.part ≠ .eqp ∧ g.start + i ≤ r.start + l + idleTime st.read st.lps) ∨
        (g.part = .eqp ∧ ∃ read skip er, st.eqp = some (read, skip, er) ∧ g.start = er.startInner ∧
          g.start + i = r.start + l + (er.startInner - read)))) := by
  have steps : ∀ {sts : List (StepRun K)} {s1 s2 : TpTime K} {o : Bool} {log1 log2 : List (Grant K)},
      s1.limit = some l → (∀ now, s1.timer.ttl now = now - r.start) → (∀ st ∈ sts, st.Ordered) →
      s1.steps log1 sts = some (s2, o, log2) → ∀ g ∈ log2, g ∈ log1 ∨ ∃ st ∈ sts, ∃ i, g.limit = some i ∧ 0 ≤ i ∧ (i = 0 ∨
      ((g.part ≠ .eqp ∧ g.start + i ≤ r.start + l + idleTime st.read st.lps) ∨
        (g.part = .eqp ∧ ∃ read skip er, st.eqp = some (read, skip, er) ∧ g.start = er.startInner ∧
          g.start + i = r.start + l + (er.startInner - read)))) := by
    intro sts
    induction sts with
    | nil =>
      intro s1 s2 o log1 log2 _ _ _ h g hg
      simp only [TpTime.steps, Option.some.injEq, Prod.mk.injEq] at h
      obtain ⟨-, -, rfl⟩ := h
      exact Or.inl hg
    | cons st rest ih =>
      intro s1 s2 o log1 log2 h1 h2 h3 h g hg
      simp only [TpTime.steps] at h
      cases hs : s1.step st log1 with
      | none => simp [hs] at h
      | some v =>
        obtain ⟨s3, o3, log3⟩ := v
        obtain ⟨a, b, c⟩ := step_deadline h1 h2 (h3 st (List.mem_cons_self ..)) hs
        have here : ∀ g ∈ log3, g ∈ log1 ∨ ∃ st' ∈ st :: rest, ∃ i, g.limit = some i ∧ 0 ≤ i ∧ (i = 0 ∨
            ((g.part ≠ .eqp ∧ g.start + i ≤ r.start + l + idleTime st'.read st'.lps) ∨
              (g.part = .eqp ∧ ∃ read skip er, st'.eqp = some (read, skip, er) ∧ g.start = er.startInner ∧
                g.start + i = r.start + l + (er.startInner - read)))) := by
          intro g hg
          rcases c g hg with hg | hg
          · exact Or.inl hg
          · exact Or.inr ⟨st, List.mem_cons_self .., hg⟩
        cases o3 with
        | true =>
          simp only [hs, Option.some.injEq, Prod.mk.injEq] at h
          obtain ⟨-, -, rfl⟩ := h
          exact here g hg
        | false =>
          simp only [hs] at h
          have := ih (s1 := s3) (a.trans h1) (fun now => by rw [b]; exact h2 now)
            (fun st' hst' => h3 st' (List.mem_cons_of_mem _ hst')) h g hg
          rcases this with hg | ⟨st', hst', hg⟩
          · exact here g hg
          · exact Or.inr ⟨st', List.mem_cons_of_mem _ hst', hg⟩
  intro g hg
  unfold TpTime.run at h
  simp only [startAt_stopped (t := (Timer.reset : Timer K)) rfl] at h
  generalize hs1 : ({ s with timer := { (Timer.reset : Timer K) with running := true, start := r.start }, limit := r.limit } :
    TpTime K) = s1 at h
  have h1 : s1.limit = some l := by rw [← hs1]; exact hl
  have h2 : ∀ now, s1.timer.ttl now = now - r.start := by
    intro now
    rw [← hs1]
    simp [Timer.ttl, Timer.currently, Timer.reset]
  cases hs : s1.steps [] r.steps with
  | none => simp [hs] at h
  | some v =>
    obtain ⟨s3, o3, log3⟩ := v
    have : g ∈ log3 := by
      cases o3 with
      | true =>
        simp only [hs, Option.some.injEq, Prod.mk.injEq] at h
        rw [h.2.2]; exact hg
      | false =>
        simp only [hs] at h
        cases hst : s3.timer.stopAt r.stop with
        | none => simp [hst] at h
        | some t' =>
          simp only [hst, Option.some.injEq, Prod.mk.injEq] at h
          rw [h.2.2]; exact hg
    rcases steps h1 h2 ho.2 hs g this with hg | hg
    · cases hg
    · exact hg

/-! ### no limit -/

/-- no limit is stored in the LP libraries -/
def CauchyTime.Unlimited (c : CauchyTime K) : Prop := c.std.lib = none ∧ c.red.lib = none

theorem solve_unlimited {c c' : CauchyTime K} {r : LpRun K} {r2 : Option (LpRun K)} {out : Bool} {log log' : List (Grant K)}
    (hc : c.Unlimited) (hl : c.limit = none) (h : c.solve r r2 log = some (c', out, log')) :
    c'.Unlimited ∧ c'.limit = none ∧ ((∀ g ∈ log, g.limit = none) → ∀ g ∈ log', g.limit = none) := by
  unfold CauchyTime.solve at h
  cases hd : ({ c.std with limit := c.limit } : LpTime K).solve r with
  | none => simp [hd] at h
  | some w =>
    obtain ⟨d, o⟩ := w
    obtain ⟨-, -, -, -, hlib⟩ := lpSolve_spec hd
    have hlib' : d.lib = none := by rw [hlib]; simp only [hl]; exact hc.1
    have one : (∀ g ∈ log, g.limit = none) → ∀ g ∈ log ++ [(⟨.lp, r.start, d.lib⟩ : Grant K)], g.limit = none := by
      intro hlog g hg
      rcases List.mem_append.1 hg with hg | hg
      · exact hlog g hg
      · rw [List.mem_singleton.1 hg]; exact hlib'
    cases o with
    | true =>
      simp only [hd, Option.some.injEq, Prod.mk.injEq] at h
      obtain ⟨rfl, rfl, rfl⟩ := h
      exact ⟨⟨hlib', hc.2⟩, hl, one⟩
    | false =>
      have hrem : Timer.remaining (d.timer.elapsed r.stop) c.limit = none := by rw [hl]; rfl
      cases r2 with
      | none =>
        simp only [hd, Option.some.injEq, Prod.mk.injEq] at h
        obtain ⟨rfl, rfl, rfl⟩ := h
        exact ⟨⟨hlib', hc.2⟩, hrem, one⟩
      | some q =>
        simp only [hd] at h
        cases hd2 : ({ c.red with limit := Timer.remaining (d.timer.elapsed r.stop) c.limit } : LpTime K).solve q with
        | none => simp [hd2] at h
        | some w2 =>
          obtain ⟨d2, o2⟩ := w2
          obtain ⟨-, -, -, -, hlib2⟩ := lpSolve_spec hd2
          have hlib2' : d2.lib = none := by rw [hlib2]; simp only [hrem]; exact hc.2
          simp only [hd2, Option.some.injEq, Prod.mk.injEq] at h
          obtain ⟨rfl, rfl, rfl⟩ := h
          refine ⟨⟨hlib', hlib2'⟩, hrem, fun hlog g hg => ?_⟩
          rcases List.mem_append.1 hg with hg | hg
          · exact one hlog g hg
          · rw [List.mem_singleton.1 hg]; exact hlib2'

theorem solves_unlimited : ∀ {lps : List (LpRun K × Option (LpRun K))} {c c' : CauchyTime K} {out : Bool} {log log' : List (Grant K)},
    c.Unlimited → c.limit = none → c.solves log lps = some (c', out, log') →
      c'.Unlimited ∧ ((∀ g ∈ log, g.limit = none) → ∀ g ∈ log', g.limit = none) := by
  intro lps
  induction lps with
  | nil =>
    intro c c' out log log' hc _ h
    simp only [CauchyTime.solves, Option.some.injEq, Prod.mk.injEq] at h
    obtain ⟨rfl, -, rfl⟩ := h
    exact ⟨hc, fun h => h⟩
  | cons x rest ih =>
    obtain ⟨r, r2⟩ := x
    intro c c' out log log' hc hl h
    simp only [CauchyTime.solves] at h
    cases hs : c.solve r r2 log with
    | none => simp [hs] at h
    | some v =>
      obtain ⟨c1, o1, log1⟩ := v
      obtain ⟨a, b, d⟩ := solve_unlimited hc hl hs
      cases o1 with
      | true =>
        simp only [hs, Option.some.injEq, Prod.mk.injEq] at h
        obtain ⟨rfl, -, rfl⟩ := h
        exact ⟨a, d⟩
      | false =>
        simp only [hs] at h
        obtain ⟨e, f⟩ := ih a b h
        exact ⟨e, fun hlog => f (d hlog)⟩

theorem step_unlimited {s s' : TpTime K} {r : StepRun K} {out : Bool} {log log' : List (Grant K)}
    (hc : s.cauchy.Unlimited) (hl : s.limit = none) (h : s.step r log = some (s', out, log')) :
    s'.cauchy.Unlimited ∧ s'.limit = none ∧ ((∀ g ∈ log, g.limit = none) → ∀ g ∈ log', g.limit = none) := by
  have cauchy : ∀ {s1 : TpTime K} {o : Bool} {log1 : List (Grant K)}, s.cauchyStep r log = some (s1, o, log1) →
      s1.cauchy.Unlimited ∧ s1.limit = none ∧ ((∀ g ∈ log, g.limit = none) → ∀ g ∈ log1, g.limit = none) := by
    intro s1 o log1 h
    unfold TpTime.cauchyStep at h
    cases hs : ({ s.cauchy with limit := Timer.remaining (s.timer.ttl r.read) s.limit } : CauchyTime K).solves log r.lps with
    | none => simp [hs] at h
    | some v =>
      obtain ⟨c, o', log2⟩ := v
      simp only [hs, Option.some.injEq, Prod.mk.injEq] at h
      obtain ⟨rfl, rfl, rfl⟩ := h
      have := solves_unlimited (c := { s.cauchy with limit := Timer.remaining (s.timer.ttl r.read) s.limit }) hc
        (by show Timer.remaining _ s.limit = none; rw [hl]; rfl) hs
      exact ⟨this.1, hl, this.2⟩
  unfold TpTime.step at h
  cases he : r.eqp with
  | none =>
    simp only [he] at h
    exact cauchy h
  | some v =>
    obtain ⟨read, skip, er⟩ := v
    simp only [he] at h
    cases hc1 : s.cauchyStep r log with
    | none => simp [hc1] at h
    | some w =>
      obtain ⟨s1, o, log1⟩ := w
      obtain ⟨a, b, c⟩ := cauchy hc1
      cases o with
      | true =>
        simp only [hc1, Option.some.injEq, Prod.mk.injEq] at h
        obtain ⟨rfl, rfl, rfl⟩ := h
        exact ⟨a, b, c⟩
      | false =>
        simp only [hc1] at h
        cases hr : ({ s1.eqp with limit := Timer.remaining (s.timer.ttl read) s.limit } : EqpTime K).run skip er with
        | none => simp [hr] at h
        | some x =>
          obtain ⟨e, o2⟩ := x
          simp only [hr, Option.some.injEq, Prod.mk.injEq] at h
          obtain ⟨rfl, rfl, rfl⟩ := h
          refine ⟨a, b, fun hlog g hg => ?_⟩
          rcases List.mem_append.1 hg with hg | hg
          · exact c hlog g hg
          · rw [List.mem_singleton.1 hg]
            show Timer.remaining _ s.limit = none
            rw [hl]; rfl

theorem steps_unlimited : ∀ {sts : List (StepRun K)} {s s' : TpTime K} {out : Bool} {log log' : List (Grant K)},
    s.cauchy.Unlimited → s.limit = none → s.steps log sts = some (s', out, log') →
      s'.cauchy.Unlimited ∧ ((∀ g ∈ log, g.limit = none) → ∀ g ∈ log', g.limit = none) := by
  intro sts
  induction sts with
  | nil =>
    intro s s' out log log' hc _ h
    simp only [TpTime.steps, Option.some.injEq, Prod.mk.injEq] at h
    obtain ⟨rfl, -, rfl⟩ := h
    exact ⟨hc, fun h => h⟩
  | cons st rest ih =>
    intro s s' out log log' hc hl h
    simp only [TpTime.steps] at h
    cases hs : s.step st log with
    | none => simp [hs] at h
    | some v =>
      obtain ⟨s1, o1, log1⟩ := v
      obtain ⟨a, b, d⟩ := step_unlimited hc hl hs
      cases o1 with
      | true =>
        simp only [hs, Option.some.injEq, Prod.mk.injEq] at h
        obtain ⟨rfl, -, rfl⟩ := h
        exact ⟨a, d⟩
      | false =>
        simp only [hs] at h
        obtain ⟨e, f⟩ := ih a b h
        exact ⟨e, fun hlog => f (d hlog)⟩

theorem run_unlimited {s s' : TpTime K} {r : TpRun K} {out : Bool} {log : List (Grant K)} (hc : s.cauchy.Unlimited)
    (hl : r.limit = none) (h : s.run r = some (s', out, log)) : s'.cauchy.Unlimited ∧ ∀ g ∈ log, g.limit = none := by
  unfold TpTime.run at h
  simp only [startAt_stopped (t := (Timer.reset : Timer K)) rfl] at h
  generalize hs1 : ({ s with timer := { (Timer.reset : Timer K) with running := true, start := r.start }, limit := r.limit } :
    TpTime K) = s1 at h
  have h1 : s1.limit = none := by rw [← hs1]; exact hl
  have h2 : s1.cauchy.Unlimited := by rw [← hs1]; exact hc
  cases hs : s1.steps [] r.steps with
  | none => simp [hs] at h
  | some v =>
    obtain ⟨s3, o3, log3⟩ := v
    obtain ⟨a, b⟩ := steps_unlimited h2 h1 hs
    have b' := b (by simp)
    cases o3 with
    | true =>
      simp only [hs, Option.some.injEq, Prod.mk.injEq] at h
      obtain ⟨rfl, -, rfl⟩ := h
      exact ⟨a, b'⟩
    | false =>
      simp only [hs] at h
      cases hst : s3.timer.stopAt r.stop with
      | none => simp [hst] at h
      | some t' =>
        simp only [hst, Option.some.injEq, Prod.mk.injEq] at h
        obtain ⟨rfl, -, rfl⟩ := h
        exact ⟨a, b'⟩

/-- **C122** (no limit; partial). As long as trial points are computed without a time limit from the beginning, no part is given
a limit. Missing: the same after a solve with a limit, which does not hold, see `C122_stale_violated`. -/
theorem C122_unlimited_partial (kind : EqpKind) (runs : List (TpRun K)) (hl : ∀ r ∈ runs, r.limit = none) {s' : TpTime K}
    {logs : List (List (Grant K))} (h : (TpTime.fresh kind : TpTime K).history runs = some (s', logs)) :
    ∀ log ∈ logs, ∀ g ∈ log, g.limit = none := by
  have gen : ∀ {runs : List (TpRun K)} {s s' : TpTime K} {logs : List (List (Grant K))}, s.cauchy.Unlimited →
      (∀ r ∈ runs, r.limit = none) → s.history runs = some (s', logs) → ∀ log ∈ logs, ∀ g ∈ log, g.limit = none := by
    intro runs
    induction runs with
    | nil =>
      intro s s' logs _ _ h log hlog
      simp only [TpTime.history, Option.some.injEq, Prod.mk.injEq] at h
      rw [← h.2] at hlog
      cases hlog
    | cons r rest ih =>
      intro s s' logs hc hl h log hlog
      simp only [TpTime.history] at h
      cases hr : s.run r with
      | none => simp [hr] at h
      | some v =>
        obtain ⟨s1, o1, log1⟩ := v
        obtain ⟨a, b⟩ := run_unlimited hc (hl r (List.mem_cons_self ..)) hr
        cases hh : s1.history rest with
        | none => simp [hr, hh] at h
        | some w =>
          obtain ⟨s2, logs2⟩ := w
          simp only [hr, hh, Option.some.injEq, Prod.mk.injEq] at h
          obtain ⟨-, rfl⟩ := h
          rcases List.mem_cons.1 hlog with hlog | hlog
          · rw [hlog]; exact b
          · exact ih a (fun r' hr' => hl r' (List.mem_cons_of_mem _ hr')) hh log hlog
  exact gen ⟨rfl, rfl⟩ hl h

/-! ### the loops -/

/-- **C122** (loops; partial). A loop which is given a limit stops because of it only if the limit, less the duration of the
previous loop of the same solver, has passed since it began. Missing: the duration of the previous loop should play no role,
see `C122_loop_violated`; it plays none in the first loop (its timer is then reset, with `last = 0`). -/
theorem C122_loop_partial [IsStrictOrderedRing K] {i i' : Timer K} {limit : Option K} {r : EqpRun K} {out : Bool}
    (h : loopRun i limit r = some (i', out)) :
    out = true ↔ ∃ l, limit = some l ∧ ∃ t ∈ r.checks, l ≤ (t - r.startInner) + i.last := by
  unfold loopRun at h
  cases h1 : i.startAt r.startInner with
  | none => simp [h1] at h
  | some t =>
    have ht := startAt_ok h1
    cases h2 : t.stopAt r.stopInner with
    | none => simp [h1, h2] at h
    | some t' =>
      simp only [h1, h2, Option.some.injEq, Prod.mk.injEq] at h
      obtain ⟨-, rfl⟩ := h
      cases limit with
      | none => simp [loopTimesOut]
      | some l =>
        simp only [loopTimesOut, List.any_eq_true, decide_eq_true_eq, Option.some.injEq, exists_eq_left']
        have he : ∀ x, t.elapsed x = (x - r.startInner) + i.last := by
          intro x
          rw [ht]
          simp only [Timer.elapsed, Timer.currently, if_true]
          rw [add_comm]
        simp only [he]

/-! ### samples -/

/-- Readings of a Newton step: it begins at `a`, with checks at `cs`, and ends at `b`. -/
def exEqpRun (a : ℚ) (cs : List ℚ) (b : ℚ) : EqpRun ℚ := ⟨a, a, a, a, cs, b, b, b, b, 0⟩

/-- With a limit of 10 seconds, an LP takes 6 seconds and the Newton step 3. -/
def exTpRun : TpRun ℚ :=
  ⟨some 10, 0, [⟨0, [(⟨0, 6, false⟩, none)], some (0, false, exEqpRun 6 [6, 8] 9)⟩], 9⟩

example : (TpTime.fresh .newton : TpTime ℚ).run exTpRun ≠ none ∧ exTpRun.limit = some 10 := by decide +kernel

example : exTpRun.Ordered := by
  refine ⟨by decide +kernel, fun st hst => ?_⟩
  simp only [exTpRun, List.mem_singleton] at hst
  subst hst
  refine ⟨⟨by decide +kernel, by decide +kernel, trivial⟩, fun read skip er h => ?_⟩
  simp only [Option.some.injEq, Prod.mk.injEq] at h
  obtain ⟨-, -, rfl⟩ := h
  unfold EqpRun.Ordered
  decide +kernel

/-- **C122 is violated** (Newton steps): after an LP solve took 6 of 10 seconds, the Newton step following it is given 10
seconds once more, and so may last until second 16. -/
theorem C122_newton_violated :
    ((TpTime.fresh .newton : TpTime ℚ).run exTpRun).map (fun v => v.2.2) =
      some [⟨.lp, 0, some 10⟩, ⟨.eqp, 6, some 10⟩] := by decide +kernel

/-- **C122 is violated** (Cauchy steps): between the two LP solves of a Cauchy step, 8 of the 10 seconds pass without LP being solved
(e.g. in evaluations of Hessian products); nevertheless the second one is given the time which was left after the first. -/
theorem C122_idle_violated :
    ((TpTime.fresh .newton : TpTime ℚ).run ⟨some 10, 0, [⟨0, [(⟨0, 1, false⟩, none), (⟨9, 10, false⟩, none)], none⟩], 10⟩).map
      (fun v => v.2.2) = some [⟨.lp, 0, some 10⟩, ⟨.lp, 9, some 9⟩] := by decide +kernel

/-- **C122 is violated** (limits remain): after a solve with a limit which ran out of time (the limit left was 0), a further solve
without any limit still hands its linear programs to a library whose limit is 0. -/
theorem C122_stale_violated :
    ((TpTime.fresh .newton : TpTime ℚ).history
      [⟨some 0, 0, [⟨0, [(⟨0, 1, true⟩, none)], none⟩], 1⟩, ⟨none, 2, [⟨2, [(⟨2, 3, true⟩, none)], none⟩], 3⟩]).map (fun v => v.2) =
      some [[⟨.lp, 0, some 0⟩], [⟨.lp, 2, some 0⟩]] := by decide +kernel

/-- **C122 is violated** (loops): a Newton step with a limit of 5 seconds is stopped after a single second, since the one before took
4 seconds. -/
theorem C122_loop_violated :
    ∃ i, loopRun (Timer.reset : Timer ℚ) (some 5) (exEqpRun 0 [1, 2, 3] 4) = some (i, false) ∧
      (loopRun i (some 5) (exEqpRun 4 [5] 5)).map (fun v => v.2) = some true := by
  refine ⟨⟨0, 1, false, 4, 16, 4⟩, ?_, ?_⟩ <;> decide +kernel

example : (TpTime.fresh .gaussNewton : TpTime ℚ).history [{ exTpRun with limit := none }] ≠ none := by decide +kernel

/-! ### further use -/

theorem loopRun_ready [IsStrictOrderedRing K] {i : Timer K} {r : EqpRun K} (hi : i.running = false) (ho : r.Ordered) (limit : Option K) :
    ∃ i' out, loopRun i limit r = some (i', out) ∧ i'.running = false := by
  obtain ⟨t', h, hr⟩ := stopAt_running (t := { i with running := true, start := r.startInner }) (now := r.stopInner) rfl ho.2.2.2
  refine ⟨t', loopTimesOut { i with running := true, start := r.startInner } limit r.checks, ?_, hr⟩
  simp only [loopRun, startAt_stopped hi, h]

/-- The timers of the equality constrained problem are ready, up to those left running by a Newton step. -/
theorem eqpRun_ready [IsStrictOrderedRing K] {e : EqpTime K} {skip : Bool} {r : EqpRun K} (ho : r.Ordered)
    (h : e.eqp.running = false ∧ e.newton.running = false ∧ e.tr.running = false ∧ e.inner.running = false) :
    ∃ e' out, e.run skip r = some (e', out) ∧ e'.kind = e.kind ∧ e'.eqp.running = false ∧ e'.inner.running = false ∧
      ((out = false ∨ e.kind = .gaussNewton) → e'.newton.running = false ∧ e'.tr.running = false) := by
  obtain ⟨h1, h2, h3, h4⟩ := h
  obtain ⟨q', hq, hq'⟩ := stopAt_running (t := { e.eqp with running := true, start := r.startEqp }) (now := r.stopEqp) rfl ho.1
  simp only at hq
  have fin : ∀ {e1 : EqpTime K} {out : Bool},
      e.inside skip r = some (e1, out) →
      e.run skip r = some ({ e1 with eqp := q' }, out) := by
    intro e1 out hin
    simp only [EqpTime.run, startAt_stopped h1, hin, hq]
  cases skip with
  | true =>
    refine ⟨{ e with eqp := q' }, false, fin (by simp [EqpTime.inside]), rfl, hq', h4, fun _ => ⟨h2, h3⟩⟩
  | false =>
    obtain ⟨i', out, hl, hi'⟩ := loopRun_ready h4 ho e.limit
    cases hk : e.kind with
    | gaussNewton =>
      refine ⟨{ e with inner := i', eqp := q' }, out, ?_, hk, hq', hi', fun _ => ⟨h2, h3⟩⟩
      exact fin (e1 := { e with inner := i' }) (by simp [EqpTime.inside, hk, hl])
    | newton =>
      cases out with
      | true =>
        refine ⟨{ e with newton := { e.newton with running := true, start := r.startNewton }, tr := { e.tr with running := true, start := r.startTr }, inner := i', eqp := q' }, true, ?_, hk, hq', hi', ?_⟩
        · refine fin (e1 := { e with newton := { e.newton with running := true, start := r.startNewton }, tr := { e.tr with running := true, start := r.startTr }, inner := i' }) ?_
          simp only [EqpTime.inside, hk, EqpTime.newtonRun, startAt_stopped h2, startAt_stopped h3, hl, Bool.false_eq_true, if_false]
        · rintro (h | h) <;> cases h
      | false =>
        obtain ⟨t', ht, ht'⟩ := stopAt_running (t := { e.tr with running := true, start := r.startTr }) (now := r.stopTr) rfl ho.2.2.1
        obtain ⟨n', hn, hn'⟩ := stopAt_running (t := { e.newton with running := true, start := r.startNewton }) (now := r.stopNewton) rfl ho.2.1
        simp only at ht hn
        refine ⟨{ e with newton := n'.add (-r.other), tr := t', inner := i', eqp := q' }, false, ?_, hk, hq', hi', fun _ => ⟨hn', ht'⟩⟩
        refine fin (e1 := { e with newton := n'.add (-r.other), tr := t', inner := i' }) ?_
        simp only [EqpTime.inside, hk, EqpTime.newtonRun, startAt_stopped h2, startAt_stopped h3, hl, ht, hn, Bool.false_eq_true, if_false]

theorem cauchySolve_ready [IsStrictOrderedRing K] {c : CauchyTime K} {r : LpRun K} {r2 : Option (LpRun K)} (log : List (Grant K))
    (hc : c.std.timer.running = false ∧ c.red.timer.running = false) (hr : r.start ≤ r.stop)
    (hr2 : ∀ q, r2 = some q → q.start ≤ q.stop) :
    ∃ c' out log', c.solve r r2 log = some (c', out, log') ∧ c'.std.timer.running = false ∧ c'.red.timer.running = false := by
  obtain ⟨d, hd⟩ := lpSolve_ready (p := ({ c.std with limit := c.limit } : LpTime K)) hc.1 hr
  have hd1 := (lpSolve_spec hd).1
  cases ho : r.timedOut with
  | true =>
    rw [ho] at hd
    refine ⟨{ c with std := d }, true, log ++ [⟨.lp, r.start, d.lib⟩], ?_, hd1, hc.2⟩
    simp only [CauchyTime.solve, hd]
  | false =>
    rw [ho] at hd
    cases r2 with
    | none =>
      refine ⟨{ c with std := d, limit := Timer.remaining (d.timer.elapsed r.stop) c.limit }, false,
        log ++ [⟨.lp, r.start, d.lib⟩], ?_, hd1, hc.2⟩
      simp only [CauchyTime.solve, hd]
    | some q =>
      obtain ⟨d2, hd2⟩ := lpSolve_ready
        (p := ({ c.red with limit := Timer.remaining (d.timer.elapsed r.stop) c.limit } : LpTime K)) hc.2 (hr2 q rfl)
      refine ⟨{ c with std := d, red := d2, limit := Timer.remaining (d.timer.elapsed r.stop) c.limit }, q.timedOut,
        log ++ [⟨.lp, r.start, d.lib⟩] ++ [⟨.reduced, q.start, d2.lib⟩], ?_, hd1, (lpSolve_spec hd2).1⟩
      simp only [CauchyTime.solve, hd, hd2]

theorem solves_ready [IsStrictOrderedRing K] : ∀ {lps : List (LpRun K × Option (LpRun K))} {c : CauchyTime K} {t : K}
    (log : List (Grant K)), (c.std.timer.running = false ∧ c.red.timer.running = false) → LpsOrdered t lps →
    ∃ c' out log', c.solves log lps = some (c', out, log') ∧ c'.std.timer.running = false ∧ c'.red.timer.running = false := by
  intro lps
  induction lps with
  | nil => intro c t log hc _; exact ⟨c, false, log, rfl, hc⟩
  | cons x rest ih =>
    obtain ⟨r, r2⟩ := x
    intro c t log hc ho
    have h1 : r.start ≤ r.stop := by
      cases r2 with
      | none => exact ho.2.1
      | some q => exact ho.2.1
    have h2 : ∀ q, r2 = some q → q.start ≤ q.stop := by
      rintro q rfl; exact ho.2.2.2.1
    obtain ⟨c1, o1, log1, hs, hc1⟩ := cauchySolve_ready log hc h1 h2
    cases o1 with
    | true => exact ⟨c1, true, log1, by simp only [CauchyTime.solves, hs], hc1⟩
    | false =>
      have : ∃ t', LpsOrdered t' rest := by
        cases r2 with
        | none => exact ⟨_, ho.2.2⟩
        | some q => exact ⟨_, ho.2.2.2.2⟩
      obtain ⟨t', ht'⟩ := this
      obtain ⟨c2, o2, log2, hs2, hc2⟩ := ih log1 hc1 ht'
      exact ⟨c2, o2, log2, by simp only [CauchyTime.solves, hs, hs2], hc2⟩

/-- A Newton step ran out of time: the last part which was given a limit is an equality constrained problem. -/
def NewtonTimeout (kind : EqpKind) (out : Bool) (log : List (Grant K)) : Prop :=
  kind = .newton ∧ out = true ∧ ∃ g, log.getLast? = some g ∧ g.part = .eqp

theorem step_ready [IsStrictOrderedRing K] {s : TpTime K} {r : StepRun K} (log : List (Grant K)) (hs : s.Ready) (ho : r.Ordered) :
    ∃ s' out log', s.step r log = some (s', out, log') ∧ s'.timer = s.timer ∧ s'.eqp.kind = s.eqp.kind ∧
      (NewtonTimeout s.eqp.kind out log' ∨ s'.Ready) := by
  obtain ⟨h1, h2, h3, h4, h5, h6⟩ := hs
  obtain ⟨c1, o1, log1, hc, hc1, hc2⟩ := solves_ready
    (c := { s.cauchy with limit := Timer.remaining (s.timer.ttl r.read) s.limit }) log ⟨h1, h2⟩ ho.1
  have hcs : s.cauchyStep r log = some ({ s with cauchy := c1 }, o1, log1) := by simp only [TpTime.cauchyStep, hc]
  cases he : r.eqp with
  | none =>
    exact ⟨{ s with cauchy := c1 }, o1, log1, by simp only [TpTime.step, he, hcs], rfl, rfl, Or.inr ⟨hc1, hc2, h3, h4, h5, h6⟩⟩
  | some v =>
    obtain ⟨read, skip, er⟩ := v
    cases o1 with
    | true =>
      exact ⟨{ s with cauchy := c1 }, true, log1, by simp only [TpTime.step, he, hcs], rfl, rfl,
        Or.inr ⟨hc1, hc2, h3, h4, h5, h6⟩⟩
    | false =>
      obtain ⟨e, o2, hr, hk, hq, hi, hn⟩ := eqpRun_ready
        (e := ({ s.eqp with limit := Timer.remaining (s.timer.ttl read) s.limit } : EqpTime K)) (skip := skip)
        (ho.2 read skip er he) ⟨h3, h4, h5, h6⟩
      refine ⟨{ s with cauchy := c1, eqp := e }, o2, log1 ++ [⟨.eqp, er.startInner, Timer.remaining (s.timer.ttl read) s.limit⟩],
        by simp only [TpTime.step, he, hcs, hr], rfl, hk, ?_⟩
      by_cases hb : o2 = false ∨ s.eqp.kind = .gaussNewton
      · exact Or.inr ⟨hc1, hc2, hq, (hn hb).1, (hn hb).2, hi⟩
      · refine Or.inl ⟨?_, ?_, _, List.getLast?_concat, rfl⟩
        · cases hkk : s.eqp.kind with
          | newton => rfl
          | gaussNewton => exact absurd (Or.inr hkk) hb
        · cases o2 with
          | true => rfl
          | false => exact absurd (Or.inl rfl) hb

theorem steps_ready [IsStrictOrderedRing K] : ∀ {sts : List (StepRun K)} {s : TpTime K} (log : List (Grant K)), s.Ready →
    (∀ st ∈ sts, st.Ordered) → ∃ s' out log', s.steps log sts = some (s', out, log') ∧ s'.timer = s.timer ∧
      s'.eqp.kind = s.eqp.kind ∧ (NewtonTimeout s.eqp.kind out log' ∨ s'.Ready) := by
  intro sts
  induction sts with
  | nil => intro s log hs _; exact ⟨s, false, log, rfl, rfl, rfl, Or.inr hs⟩
  | cons st rest ih =>
    intro s log hs ho
    obtain ⟨s1, o1, log1, h1, ht1, hk1, hr1⟩ := step_ready log hs (ho st (List.mem_cons_self ..))
    cases o1 with
    | true => exact ⟨s1, true, log1, by simp only [TpTime.steps, h1], ht1, hk1, hr1⟩
    | false =>
      have hr1' : s1.Ready := by
        rcases hr1 with ⟨-, h, -⟩ | h
        · cases h
        · exact h
      obtain ⟨s2, o2, log2, h2, ht2, hk2, hr2⟩ := ih log1 hr1' (fun st' hst' => ho st' (List.mem_cons_of_mem _ hst'))
      refine ⟨s2, o2, log2, by simp only [TpTime.steps, h1, h2], ht2.trans ht1, hk2.trans hk1, ?_⟩
      rw [← hk1]; exact hr2

/-- **C123** (one trial point; partial). When all timers are ready, the computation of a trial point passes all assertions of the
timers, whatever limit it is given and whether or not it runs out of time; afterwards all timers are ready again, unless a
Newton step ran out of time. Missing: the exception, see `C123_newton_violated`. -/
theorem C123_trial_partial [IsStrictOrderedRing K] {s : TpTime K} {r : TpRun K} (hs : s.Ready) (ho : r.Ordered) :
    ∃ s' out log, s.run r = some (s', out, log) ∧ s'.eqp.kind = s.eqp.kind ∧
      (NewtonTimeout s.eqp.kind out log ∨ s'.Ready) := by
  obtain ⟨s1, o1, log1, h1, ht, hk, hr⟩ := steps_ready
    (s := { s with timer := { (Timer.reset : Timer K) with running := true, start := r.start }, limit := r.limit }) [] hs ho.2
  cases o1 with
  | true =>
    refine ⟨s1, true, log1, ?_, hk, hr⟩
    simp only [TpTime.run, startAt_stopped (t := (Timer.reset : Timer K)) rfl, h1]
  | false =>
    obtain ⟨t', ht', -⟩ := stopAt_running (t := s1.timer) (now := r.stop) (by rw [ht]) (by rw [ht]; exact ho.1)
    refine ⟨{ s1 with timer := t' }, false, log1, ?_, hk, hr⟩
    simp only [TpTime.run, startAt_stopped (t := (Timer.reset : Timer K)) rfl, h1, ht']

/-- **C123** (histories; partial). With Gauss-Newton steps, any number of trial points can be computed one after the other, with
any limits, and however many of them run out of time. -/
theorem C123_history_partial [IsStrictOrderedRing K] (runs : List (TpRun K)) (ho : ∀ r ∈ runs, r.Ordered) :
    ∃ s' logs, (TpTime.fresh .gaussNewton : TpTime K).history runs = some (s', logs) ∧ s'.Ready := by
  have gen : ∀ {runs : List (TpRun K)} {s : TpTime K}, s.Ready → s.eqp.kind = .gaussNewton → (∀ r ∈ runs, r.Ordered) →
      ∃ s' logs, s.history runs = some (s', logs) ∧ s'.Ready := by
    intro runs
    induction runs with
    | nil => intro s hs _ _; exact ⟨s, [], rfl, hs⟩
    | cons r rest ih =>
      intro s hs hk ho
      obtain ⟨s1, o1, log1, h1, hk1, hr1⟩ := C123_trial_partial hs (ho r (List.mem_cons_self ..))
      have hr1' : s1.Ready := by
        rcases hr1 with ⟨h, -, -⟩ | h
        · rw [hk] at h; cases h
        · exact h
      obtain ⟨s2, logs, h2, hr2⟩ := ih hr1' (hk1.trans hk) (fun r' hr' => ho r' (List.mem_cons_of_mem _ hr'))
      exact ⟨s2, log1 :: logs, by simp only [TpTime.history, h1, h2], hr2⟩
  exact gen ⟨rfl, rfl, rfl, rfl, rfl, rfl⟩ rfl ho

/-- Once its timer is left running, no Newton step passes the assertion again. -/
theorem newton_stuck {e : EqpTime K} (hk : e.kind = .newton) (hn : e.newton.running = true) (r : EqpRun K) :
    e.run false r = none := by
  have : e.inside false r = none := by
    simp [EqpTime.inside, hk, EqpTime.newtonRun, Timer.startAt, hn]
  simp only [EqpTime.run, this]
  cases e.eqp.startAt r.startEqp <;> rfl

/-- With a limit of 2 seconds, the LP takes one, and the Newton step is stopped at second 4. -/
def exTimeout : TpRun ℚ :=
  ⟨some 2, 0, [⟨0, [(⟨0, 1, false⟩, none)], some (0, false, exEqpRun 1 [2, 4] 4)⟩], 4⟩

/-- **C123 is violated**: after a Newton step ran out of time, the timers around it were not stopped; in the next solve of the
same solver, which is given all the time it could need, its Newton step fails with an assertion (and without assertions, restarts
timers which are running). -/
theorem C123_newton_violated :
    ((TpTime.fresh .newton : TpTime ℚ).run exTimeout).map (fun v => v.2.1) = some true ∧
      (TpTime.fresh .newton : TpTime ℚ).history [exTimeout, ⟨some 100, 5, [⟨5, [(⟨5, 6, false⟩, none)], none⟩], 6⟩] ≠ none ∧
      (TpTime.fresh .newton : TpTime ℚ).history
        [exTimeout, ⟨some 100, 5, [⟨5, [(⟨5, 6, false⟩, none)], some (5, false, exEqpRun 6 [7] 8)⟩], 8⟩] = none ∧
      (TpTime.fresh .gaussNewton : TpTime ℚ).history
        [exTimeout, ⟨some 100, 5, [⟨5, [(⟨5, 6, false⟩, none)], some (5, false, exEqpRun 6 [7] 8)⟩], 8⟩] ≠ none := by
  refine ⟨?_, ?_, ?_, ?_⟩ <;> decide +kernel

end Sleqp
