import Verif.Spec.SolveTime
import Mathlib.Tactic.Linarith
import Mathlib.Algebra.Order.Field.Rat

/-!
C125: the time limit of a solve.
-/

namespace Sleqp
variable {K : Type*} [Field K] [LinearOrder K] [IsStrictOrderedRing K]

/-! ### lemmas -/

theorem gaps_nonneg {stop : K} : ∀ {iters : List (IterTime K)} {t : K}, ItersOrdered t stop iters → 0 ≤ gaps t iters
  | [], _, _ => le_rfl
  | r :: rest, t, h => by
    obtain ⟨h1, h2, h3, h4⟩ := h
    have := gaps_nonneg h4
    unfold gaps
    linarith

theorem iters_stop {stop : K} : ∀ {iters : List (IterTime K)} {t : K}, ItersOrdered t stop iters → t ≤ lastStop t iters
  | [], _, _ => le_rfl
  | r :: rest, t, h => by
    obtain ⟨h1, h2, h3, h4⟩ := h
    have := iters_stop h4
    unfold lastStop
    linarith

theorem passes_stop {last stop : K} : ∀ {ps : List (PassTime K)} {t : K}, PassesOrdered t last stop ps → t ≤ stop
  | [], _, h => h.1.trans h.2
  | p :: rest, t, h => by
    obtain ⟨h1, h2, h3, h4⟩ := h
    have := passes_stop h4
    have := iters_stop h3
    linarith

theorem exhausted_iff (t : Timer K) (now l : K) : t.exhausted now (some l) = true ↔ l ≤ t.ttl now := by
  unfold Timer.exhausted
  rw [decide_eq_true_iff]
  constructor
  · intro h
    have := (le_max_left (l - t.ttl now) 0).trans h
    linarith
  · intro h
    exact max_le (by linarith) le_rfl

theorem ttl_stopped {t : Timer K} (h : t.running = false) (now : K) : t.ttl now = t.total := by
  simp [Timer.ttl, Timer.currently, h]

/-- the loop of the problem solver with a limit -/
theorem psLoop_spec (l : K) : ∀ (iters : List (IterTime K)) (t : Timer K) (base stop : K), t.running = false → ItersOrdered base stop iters →
    ∃ e log, psLoop t (some l) iters = some (e, log) ∧
      (∀ g ∈ log, g.iter.start < base + (l - t.total) + gaps base iters ∧ ∃ v, g.limit = some v ∧ 0 ≤ v ∧
        (v = 0 ∨ (base + (l - t.total) ≤ g.iter.read + v ∧ g.iter.read + v ≤ base + (l - t.total) + gaps base iters))) ∧
      (e = .time → (∃ r ∈ iters, r.timedOut = true) ∨ base + (l - t.total) ≤ lastStop base iters)
  | [], t, base, stop, ht, ho => by
    refine ⟨_, [], rfl, fun g hg => by simp at hg, fun he => ?_⟩
    by_cases hx : t.exhausted 0 (some l) = true
    · rw [exhausted_iff, ttl_stopped ht] at hx
      right
      unfold lastStop
      linarith
    · rw [if_neg hx] at he
      cases he
  | r :: rest, t, base, stop, ht, ho => by
    obtain ⟨o1, o2, o3, o4⟩ := ho
    have hg0 := gaps_nonneg o4
    have hls := iters_stop o4
    unfold psLoop
    by_cases hx : t.exhausted r.start (some l) = true
    · rw [if_pos hx]
      rw [exhausted_iff, ttl_stopped ht] at hx
      refine ⟨_, [], rfl, fun g hg => by simp at hg, fun _ => Or.inr ?_⟩
      unfold lastStop
      linarith
    · rw [if_neg hx]
      rw [exhausted_iff, ttl_stopped ht, not_le] at hx
      have h1 : t.startAt r.start = some { t with running := true, start := r.start } := by simp [Timer.startAt, ht]
      have h2 : ({ t with running := true, start := r.start } : Timer K).stopAt r.stop = some { t with
          start := r.start, numRuns := t.numRuns + 1, last := r.stop - r.start, total := t.total + (r.stop - r.start),
          totalSq := t.totalSq + (r.stop - r.start) * (r.stop - r.start), running := false } := by
        have : (0 : K) ≤ r.stop - r.start := by linarith
        simp [Timer.stopAt, this]
      rw [h1]
      simp only []
      rw [h2]
      simp only []
      have hr : Timer.remaining (({ t with running := true, start := r.start } : Timer K).ttl r.read) (some l) =
          some (max (l - (t.total + (r.read - r.start))) 0) := by
        simp [Timer.remaining, Timer.ttl, Timer.currently]
      rw [hr]
      have hhead : r.start < base + (l - t.total) + gaps base (r :: rest) ∧ ∃ v, some (max (l - (t.total + (r.read - r.start))) 0) = some v ∧ 0 ≤ v ∧
          (v = 0 ∨ (base + (l - t.total) ≤ r.read + v ∧ r.read + v ≤ base + (l - t.total) + gaps base (r :: rest))) := by
        unfold gaps
        refine ⟨by linarith, _, rfl, le_max_right _ _, ?_⟩
        rcases le_total (l - (t.total + (r.read - r.start))) 0 with hc | hc
        · exact Or.inl (max_eq_right hc)
        · rw [max_eq_left hc]
          exact Or.inr ⟨by linarith, by linarith⟩
      split_ifs with c1 c2
      · refine ⟨_, _, rfl, fun g hg => ?_, fun _ => ?_⟩
        · rw [List.mem_singleton] at hg
          subst hg
          exact hhead
        · rcases Bool.or_eq_true_iff.1 c1 with c | c
          · exact Or.inl ⟨r, List.mem_cons_self, c⟩
          · rw [exhausted_iff, ttl_stopped rfl] at c
            right
            unfold lastStop
            simp only at c
            linarith
      · refine ⟨_, _, rfl, fun g hg => ?_, fun he => by cases he⟩
        rw [List.mem_singleton] at hg
        subst hg
        exact hhead
      · obtain ⟨e, log, e1, e2, e3⟩ := psLoop_spec l rest { t with
          start := r.start, numRuns := t.numRuns + 1, last := r.stop - r.start, total := t.total + (r.stop - r.start),
          totalSq := t.totalSq + (r.stop - r.start) * (r.stop - r.start), running := false } r.stop stop rfl o4
        simp only at e2 e3
        rw [e1]
        refine ⟨e, _, rfl, fun g hg => ?_, fun he => ?_⟩
        · rcases List.mem_cons.1 hg with rfl | hg
          · exact hhead
          · obtain ⟨a1, v, a2, a3, a4⟩ := e2 g hg
            unfold gaps
            refine ⟨by linarith, v, a2, a3, a4.imp id fun a => ⟨by linarith [a.1], by linarith [a.2]⟩⟩
        · rcases e3 he with ⟨r', hr', h⟩ | h
          · exact Or.inl ⟨r', List.mem_cons_of_mem _ hr', h⟩
          · right
            unfold lastStop
            linarith

/-- the loop of the problem solver without limit -/
theorem psLoop_none : ∀ (iters : List (IterTime K)) (t : Timer K) (base stop : K), t.running = false → ItersOrdered base stop iters →
    ∃ e log, psLoop t none iters = some (e, log) ∧ (∀ g ∈ log, g.limit = none) ∧ (e = .time → ∃ r ∈ iters, r.timedOut = true)
  | [], t, base, stop, ht, ho => ⟨_, [], rfl, fun g hg => by simp at hg, fun he => by simp [Timer.exhausted] at he⟩
  | r :: rest, t, base, stop, ht, ho => by
    obtain ⟨o1, o2, o3, o4⟩ := ho
    unfold psLoop
    have h1 : t.startAt r.start = some { t with running := true, start := r.start } := by simp [Timer.startAt, ht]
    have h2 : ({ t with running := true, start := r.start } : Timer K).stopAt r.stop = some { t with
        start := r.start, numRuns := t.numRuns + 1, last := r.stop - r.start, total := t.total + (r.stop - r.start),
        totalSq := t.totalSq + (r.stop - r.start) * (r.stop - r.start), running := false } := by
      have : (0 : K) ≤ r.stop - r.start := by linarith
      simp [Timer.stopAt, this]
    rw [if_neg (by simp [Timer.exhausted]), h1]
    simp only []
    rw [h2]
    simp only [Timer.remaining, Option.map_none, Timer.exhausted, Bool.or_false]
    split_ifs with c1 c2
    · exact ⟨_, _, rfl, fun g hg => by rw [List.mem_singleton] at hg; rw [hg], fun _ => ⟨r, List.mem_cons_self, c1⟩⟩
    · exact ⟨_, _, rfl, fun g hg => by rw [List.mem_singleton] at hg; rw [hg], fun he => by cases he⟩
    · obtain ⟨e, log, e1, e2, e3⟩ := psLoop_none rest { t with
        start := r.start, numRuns := t.numRuns + 1, last := r.stop - r.start, total := t.total + (r.stop - r.start),
        totalSq := t.totalSq + (r.stop - r.start) * (r.stop - r.start), running := false } r.stop stop rfl o4
      rw [e1]
      refine ⟨e, _, rfl, fun g hg => ?_, fun he => ?_⟩
      · rcases List.mem_cons.1 hg with rfl | hg
        · rfl
        · exact e2 g hg
      · obtain ⟨r', hr', h⟩ := e3 he
        exact ⟨r', List.mem_cons_of_mem _ hr', h⟩

/-- without time left, no iteration is begun -/
theorem psLoop_zero (iters : List (IterTime K)) : psLoop (.reset : Timer K) (some 0) iters = some (.time, []) := by
  cases iters <;> simp [psLoop, Timer.exhausted, Timer.ttl, Timer.currently, Timer.reset]

/-- the longest time in a pass not spent in iterations -/
def idleOf (ps : List (PassTime K)) : K := (ps.map fun p => gaps p.read p.iters).foldr max 0

theorem passLoop_spec (L start T last stop : K) : ∀ (ps : List (PassTime K)) (t : Timer K) (now : K), t.running = true → t.start = start → t.total = T →
    start ≤ now → PassesOrdered now last stop ps →
    ∃ e log, passLoop t (some L) last ps = some (e, log) ∧
      (∀ g ∈ log, g.iter.start < start + (L - T) + idleOf ps ∧ ∃ v, g.limit = some v ∧ 0 ≤ v ∧
        (v = 0 ∨ (start + (L - T) ≤ g.iter.read + v ∧ g.iter.read + v ≤ start + (L - T) + idleOf ps))) ∧
      (e = .time → (∃ p ∈ ps, ∃ r ∈ p.iters, r.timedOut = true) ∨ start + (L - T) ≤ stop)
  | [], t, now, hr, hs, hT, hn, ho => by
    refine ⟨_, [], rfl, fun g hg => by simp at hg, fun he => ?_⟩
    by_cases hx : t.exhausted last (some L) = true
    · rw [exhausted_iff] at hx
      simp only [Timer.ttl, Timer.currently, hr, if_true, hs, hT] at hx
      right
      linarith [ho.2]
    · rw [if_neg hx] at he
      cases he
  | p :: rest, t, now, hr, hs, hT, hn, ho => by
    obtain ⟨o1, o2, o3, o4⟩ := ho
    have hls := iters_stop o3
    have hps := passes_stop o4
    have hidle : gaps p.read p.iters ≤ idleOf (p :: rest) := by
      unfold idleOf; simp
    have hidle2 : idleOf rest ≤ idleOf (p :: rest) := by
      unfold idleOf; simp
    have httl : ∀ x, t.ttl x = T + (x - start) := fun x => by simp [Timer.ttl, Timer.currently, hr, hs, hT]
    unfold passLoop
    by_cases hx : t.exhausted p.check (some L) = true
    · rw [if_pos hx]
      rw [exhausted_iff, httl] at hx
      exact ⟨_, [], rfl, fun g hg => by simp at hg, fun _ => Or.inr (by linarith)⟩
    · rw [if_neg hx]
      have hrem : Timer.remaining (t.ttl p.read) (some L) = some (max (L - (T + (p.read - start))) 0) := by
        rw [httl]; rfl
      rw [hrem]
      rcases le_total (L - (T + (p.read - start))) 0 with hc | hc
      · rw [max_eq_right hc, psLoop_zero]
        exact ⟨_, [], rfl, fun g hg => by simp at hg, fun _ => Or.inr (by linarith)⟩
      · rw [max_eq_left hc]
        obtain ⟨e, log, e1, e2, e3⟩ := psLoop_spec (L - (T + (p.read - start))) p.iters .reset p.read _ rfl o3
        simp only [Timer.reset, sub_zero] at e2 e3
        have hlog : ∀ g ∈ log, g.iter.start < start + (L - T) + idleOf (p :: rest) ∧ ∃ v, g.limit = some v ∧ 0 ≤ v ∧
            (v = 0 ∨ (start + (L - T) ≤ g.iter.read + v ∧ g.iter.read + v ≤ start + (L - T) + idleOf (p :: rest))) := fun g hg => by
          obtain ⟨a1, v, a2, a3, a4⟩ := e2 g hg
          exact ⟨by linarith, v, a2, a3, a4.imp id fun a => ⟨by linarith [a.1], by linarith [a.2]⟩⟩
        rw [e1]
        cases e with
        | time =>
          refine ⟨_, _, rfl, hlog, fun he => ?_⟩
          rcases e3 rfl with ⟨r, hr', h⟩ | h
          · exact Or.inl ⟨p, List.mem_cons_self, r, hr', h⟩
          · exact Or.inr (by linarith)
        | other =>
          simp only []
          split_ifs with hm
          · obtain ⟨e', log', f1, f2, f3⟩ := passLoop_spec L start T last stop rest t (lastStop p.read p.iters) hr hs hT (by linarith) o4
            rw [f1]
            refine ⟨e', _, rfl, fun g hg => ?_, fun he => ?_⟩
            · rcases List.mem_append.1 hg with hg | hg
              · exact hlog g hg
              · obtain ⟨a1, v, a2, a3, a4⟩ := f2 g hg
                exact ⟨by linarith, v, a2, a3, a4.imp id fun a => ⟨by linarith [a.1], by linarith [a.2]⟩⟩
            · rcases f3 he with ⟨p', hp', h⟩ | h
              · exact Or.inl ⟨p', List.mem_cons_of_mem _ hp', h⟩
              · exact Or.inr h
          · exact ⟨_, _, rfl, hlog, fun he => by cases he⟩

theorem passLoop_none (last stop : K) : ∀ (ps : List (PassTime K)) (t : Timer K) (now : K), PassesOrdered now last stop ps →
    ∃ e log, passLoop t none last ps = some (e, log) ∧ (∀ g ∈ log, g.limit = none) ∧
      (e = .time → ∃ p ∈ ps, ∃ r ∈ p.iters, r.timedOut = true)
  | [], t, now, ho => ⟨_, [], rfl, fun g hg => by simp at hg, fun he => by simp [Timer.exhausted] at he⟩
  | p :: rest, t, now, ho => by
    obtain ⟨o1, o2, o3, o4⟩ := ho
    unfold passLoop
    rw [if_neg (by simp [Timer.exhausted])]
    obtain ⟨e, log, e1, e2, e3⟩ := psLoop_none p.iters .reset p.read _ rfl o3
    simp only [Timer.remaining, Option.map_none]
    rw [e1]
    cases e with
    | time =>
      obtain ⟨r, hr, h⟩ := e3 rfl
      exact ⟨_, _, rfl, e2, fun _ => ⟨p, List.mem_cons_self, r, hr, h⟩⟩
    | other =>
      simp only []
      split_ifs with hm
      · obtain ⟨e', log', f1, f2, f3⟩ := passLoop_none last stop rest t _ o4
        rw [f1]
        refine ⟨e', _, rfl, fun g hg => ?_, fun he => ?_⟩
        · rcases List.mem_append.1 hg with hg | hg
          · exact e2 g hg
          · exact f2 g hg
        · obtain ⟨p', hp', h⟩ := f3 he
          exact ⟨p', List.mem_cons_of_mem _ hp', h⟩
      · exact ⟨_, _, rfl, e2, fun he => by cases he⟩

theorem solveCall_eq {t : Timer K} (ht : t.running = false) {c : SolveCall K} (ho : c.Ordered) {e : LoopEnd} {log : List (Granted K)}
    (h : passLoop { t with running := true, start := c.start } c.limit c.last c.passes = some (e, log)) :
    ∃ t', solveCall t c = some (t', e, log) ∧ t'.running = false ∧ t'.total = t.total + (c.stop - c.start) := by
  have h1 : t.startAt c.start = some { t with running := true, start := c.start } := by simp [Timer.startAt, ht]
  have h0 : (0 : K) ≤ c.stop - c.start := by linarith [passes_stop ho]
  unfold solveCall
  rw [h1]
  simp only []
  rw [h]
  simp only [Timer.stopAt, if_true, if_pos h0]
  exact ⟨_, rfl, rfl, rfl⟩

/-! ### C125 -/

/-- C125: with the limit `L`, a solver whose earlier solves took `t.total` begins no iteration later than `L - t.total` seconds after the
start of the solve, apart from time between the iterations, and gives trial points limits that end at this time, up to the time between
iterations, or limits zero. -/
theorem C125_limit_partial {t : Timer K} (ht : t.running = false) {c : SolveCall K} (ho : c.Ordered) {L : K} (hl : c.limit = some L) :
    ∃ t' e log, solveCall t c = some (t', e, log) ∧
      ∀ g ∈ log, g.iter.start < c.start + (L - t.total) + c.idle ∧ ∃ v, g.limit = some v ∧ 0 ≤ v ∧
        (v = 0 ∨ (c.start + (L - t.total) ≤ g.iter.read + v ∧ g.iter.read + v ≤ c.start + (L - t.total) + c.idle)) := by
  obtain ⟨e, log, h1, h2, -⟩ := passLoop_spec L c.start t.total c.last c.stop c.passes { t with running := true, start := c.start } c.start
    rfl rfl rfl le_rfl ho
  rw [← hl] at h1
  obtain ⟨t', e1, -, -⟩ := solveCall_eq ht ho h1
  exact ⟨t', e, log, e1, h2⟩

/-- C125: a solve ends for lack of time only if an iteration did, or if a limit was given and has been reached by the time taken by this solve
and by the earlier ones. -/
theorem C125_stopped_partial {t t' : Timer K} (ht : t.running = false) {c : SolveCall K} (ho : c.Ordered) {log : List (Granted K)}
    (h : solveCall t c = some (t', .time, log)) :
    c.iterTimedOut ∨ ∃ L, c.limit = some L ∧ L ≤ t.total + (c.stop - c.start) := by
  cases hl : c.limit with
  | none =>
    obtain ⟨e, log', h1, -, h3⟩ := passLoop_none c.last c.stop c.passes { t with running := true, start := c.start } c.start ho
    rw [← hl] at h1
    obtain ⟨t2, e1, -, -⟩ := solveCall_eq ht ho h1
    rw [h] at e1
    cases e1
    exact Or.inl (h3 rfl)
  | some L =>
    obtain ⟨e, log', h1, -, h3⟩ := passLoop_spec L c.start t.total c.last c.stop c.passes { t with running := true, start := c.start } c.start
      rfl rfl rfl le_rfl ho
    rw [← hl] at h1
    obtain ⟨t2, e1, -, -⟩ := solveCall_eq ht ho h1
    rw [h] at e1
    cases e1
    rcases h3 rfl with hx | hx
    · exact Or.inl hx
    · exact Or.inr ⟨L, rfl, by linarith⟩

/-- C125: a solve without limit gives none to its trial points. -/
theorem C125_unlimited_partial {t : Timer K} (ht : t.running = false) {c : SolveCall K} (ho : c.Ordered) (hl : c.limit = none) :
    ∃ t' e log, solveCall t c = some (t', e, log) ∧ ∀ g ∈ log, g.limit = none := by
  obtain ⟨e, log, h1, h2, -⟩ := passLoop_none c.last c.stop c.passes { t with running := true, start := c.start } c.start ho
  rw [← hl] at h1
  obtain ⟨t', e1, -, -⟩ := solveCall_eq ht ho h1
  exact ⟨t', e, log, e1, h2⟩

/-- C125: however many solves there were, all pass the assertions of the timer, and it holds the sum of the times they took. -/
theorem C125_history_partial : ∀ {cs : List (SolveCall K)} {t : Timer K}, t.running = false → (∀ c ∈ cs, c.Ordered) →
    ∃ t', solveCalls t cs = some t' ∧ t'.running = false ∧ t'.total = t.total + (cs.map fun c => c.stop - c.start).sum
  | [], t, ht, _ => ⟨t, rfl, ht, by simp⟩
  | c :: rest, t, ht, ho => by
    have hc := ho c List.mem_cons_self
    have : ∃ t1 e log, solveCall t c = some (t1, e, log) ∧ t1.running = false ∧ t1.total = t.total + (c.stop - c.start) := by
      cases hl : c.limit with
      | none =>
        obtain ⟨e, log, h1, -⟩ := passLoop_none c.last c.stop c.passes { t with running := true, start := c.start } c.start hc
        rw [← hl] at h1
        obtain ⟨t1, e1⟩ := solveCall_eq ht hc h1
        exact ⟨t1, e, log, e1⟩
      | some L =>
        obtain ⟨e, log, h1, -⟩ := passLoop_spec L c.start t.total c.last c.stop c.passes { t with running := true, start := c.start } c.start
          rfl rfl rfl le_rfl hc
        rw [← hl] at h1
        obtain ⟨t1, e1⟩ := solveCall_eq ht hc h1
        exact ⟨t1, e, log, e1⟩
    obtain ⟨t1, e, log, h1, h2, h3⟩ := this
    obtain ⟨t', g1, g2, g3⟩ := C125_history_partial h2 fun c' hc' => ho c' (List.mem_cons_of_mem _ hc')
    refine ⟨t', ?_, g2, ?_⟩
    · unfold solveCalls
      rw [h1]
      exact g1
    · rw [g3, h3, List.map_cons, List.sum_cons, add_assoc]

/-! ### samples and violations -/

/-- sample: a solve of 12 seconds without limit, with two iterations -/
def exFirst : SolveCall ℚ := ⟨none, 0, [⟨0, 0, [⟨1, 2, 5, false, false⟩, ⟨5, 6, 11, false, true⟩], false⟩], 12, 12⟩
/-- sample: a solve with a limit of 10 seconds beginning after 20 seconds, which takes five seconds with a new solver -/
def exSecond : SolveCall ℚ := ⟨some 10, 20, [⟨20, 20, [⟨21, 21, 24, false, true⟩], false⟩], 25, 25⟩
/-- sample: a solve with a limit of 10 seconds whose derivative check takes 100 seconds -/
def exChecked : SolveCall ℚ := ⟨some 10, 0, [⟨0, 0, [⟨100, 101, 108, false, false⟩, ⟨108, 108, 109, false, true⟩], false⟩], 110, 110⟩

theorem exFirst_ordered : exFirst.Ordered := by simp [SolveCall.Ordered, exFirst, PassesOrdered, ItersOrdered, lastStop]; norm_num
theorem exSecond_ordered : exSecond.Ordered := by simp [SolveCall.Ordered, exSecond, PassesOrdered, ItersOrdered, lastStop]; norm_num
theorem exChecked_ordered : exChecked.Ordered := by simp [SolveCall.Ordered, exChecked, PassesOrdered, ItersOrdered, lastStop]; norm_num

example : (solveCall .reset exSecond).map Prod.snd = some (.other, [⟨⟨21, 21, 24, false, true⟩, some 10⟩]) := by decide +kernel

example : ∃ t' e log, solveCall .reset exSecond = some (t', e, log) ∧ ∀ g ∈ log, g.iter.start < 20 + (10 - 0) + exSecond.idle :=
  let ⟨t', e, log, h, hg⟩ := C125_limit_partial (t := .reset) rfl exSecond_ordered rfl
  ⟨t', e, log, h, fun g hm => (hg g hm).1⟩

example : (solveCalls .reset [exFirst, exSecond]).map (fun t => (t.running, t.total)) = some (false, 17) := by decide +kernel

/-- The code violates C125 when a solver is used again: its timer is not reset, so that the time of earlier solves counts. After a solve of 12
seconds, a solve with a limit of 10 seconds ends at once for lack of time, without any iteration, although it would have taken 5 seconds. -/
theorem C125_again_violated : exFirst.Ordered ∧ exSecond.Ordered ∧
    ((solveCalls .reset [exFirst]).bind fun t => solveCall t exSecond).map Prod.snd = some (.time, []) ∧
    (solveCall .reset exSecond).map (fun x => x.2.1) = some .other :=
  ⟨exFirst_ordered, exSecond_ordered, by decide +kernel, by decide +kernel⟩

/-- The code violates C125 for time spent outside of iterations, e.g. in the derivative check: the problem solver counts only the time within
iterations. With a limit of 10 seconds and a derivative check of 100 seconds, two iterations are begun after 100 and 108 seconds, the first
one with a limit of 9 seconds for its trial point, and the solve is not reported as stopped for lack of time. -/
theorem C125_check_violated : exChecked.Ordered ∧
    (solveCall .reset exChecked).map Prod.snd =
      some (.other, [⟨⟨100, 101, 108, false, false⟩, some 9⟩, ⟨⟨108, 108, 109, false, true⟩, some 2⟩]) :=
  ⟨exChecked_ordered, by decide +kernel⟩

end Sleqp
