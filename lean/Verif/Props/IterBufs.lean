import Verif.Spec.IterBufs
import Mathlib.Algebra.Field.Rat
import Mathlib.Data.Rat.Defs

/-!
C120 (point, multipliers and working set of the returned iterate) and C121 (lines of the log).
-/

namespace Sleqp
variable {X D W K : Type*}

/-- the relation between the points visited and the iterates -/
structure VisitInv (b0 : Bufs X D W) (h : List (Visit X D W)) (b : Bufs X D W) : Prop where
  cur : ∃ v t, h = v :: t ∧ b.cur.x = v.x ∧
    (v.est = some (b.cur.dual, b.cur.ws) ∨
      v.est = none ∧ (t = [] ∧ b.cur.dual = b0.cur.dual ∧ b.cur.ws = b0.cur.ws ∨ (∃ u, t = [u] ∧ b.cur.dual = b0.trial.dual ∧ b.cur.ws = b0.trial.ws) ∨
        ∃ u w r, t = u :: w :: r ∧ w.est = some (b.cur.dual, b.cur.ws))) ∧
    (t = [] ∧ b.trial.dual = b0.trial.dual ∧ b.trial.ws = b0.trial.ws ∨ ∃ u r, t = u :: r ∧ u.est = some (b.trial.dual, b.trial.ws))

theorem visitInv_step {b0 b : Bufs X D W} {h : List (Visit X D W)} (hi : VisitInv b0 h b) (e : IterIn X D W) : VisitInv b0 (visit h e) (b.iterate e) := by
  obtain ⟨v, t, rfl, h2, h3, h4⟩ := hi.cur
  unfold visit Bufs.iterate
  cases e.out with
  | stop => exact ⟨v, t, rfl, h2, h3, h4⟩
  | infeasible => exact ⟨_, t, rfl, h2, Or.inl rfl, h4⟩
  | rejected => exact ⟨_, t, rfl, h2, Or.inl rfl, h4⟩
  | accepted =>
    refine ⟨_, _, rfl, rfl, Or.inr ⟨rfl, ?_⟩, Or.inr ⟨_, _, rfl, rfl⟩⟩
    rcases h4 with ⟨rfl, a, b⟩ | ⟨u, r, rfl, a⟩
    · exact Or.inr (Or.inl ⟨_, rfl, a, b⟩)
    · exact Or.inr (Or.inr ⟨_, u, r, rfl, a⟩)

theorem visitInv_run (b0 : Bufs X D W) (es : List (IterIn X D W)) : VisitInv b0 (es.foldl visit [⟨b0.cur.x, none⟩]) (es.foldl Bufs.iterate b0) := by
  have key : ∀ (es : List (IterIn X D W)) {b h}, VisitInv b0 h b → VisitInv b0 (es.foldl visit h) (es.foldl Bufs.iterate b) := by
    intro es
    induction es with
    | nil => exact fun h => h
    | cons e es ih => exact fun h => ih (visitInv_step h e)
  exact key es ⟨_, _, rfl, rfl, Or.inr ⟨rfl, Or.inl ⟨rfl, rfl, rfl⟩⟩, Or.inl ⟨rfl, rfl, rfl⟩⟩

/-! ### C120 -/

/-- C120: after any sequence of iterations, the current iterate is at the newest point, and if multipliers and working set were computed there (i.e. the last step was rejected
or the run ended locally infeasible) these are its multipliers and its working set. (Missing: after an accepted step they belong to an earlier point, see
`C120_multipliers_violated` and `C120_lag_partial`.) -/
theorem C120_belongs_partial (b0 : Bufs X D W) (es : List (IterIn X D W)) :
    ∃ v t, es.foldl visit [⟨b0.cur.x, none⟩] = v :: t ∧ (es.foldl Bufs.iterate b0).cur.x = v.x ∧
      ∀ d w, v.est = some (d, w) → (es.foldl Bufs.iterate b0).cur.dual = d ∧ (es.foldl Bufs.iterate b0).cur.ws = w := by
  obtain ⟨v, t, h1, h2, h3, -⟩ := (visitInv_run b0 es).cur
  refine ⟨v, t, h1, h2, fun d w hv => ?_⟩
  rcases h3 with h3 | ⟨h3, -⟩
  · rw [hv, Option.some.injEq, Prod.mk.injEq] at h3
    exact ⟨h3.1.symm, h3.2.symm⟩
  · rw [hv] at h3
    exact absurd h3 (by simp)

/-- C120: the multipliers and the working set of a point at which none were computed yet, with which it is tested for optimality and returned when the run ends there, are those
of the point before the previous one; for the first two points those the iterates had at the beginning. -/
theorem C120_lag_partial (b0 : Bufs X D W) (es : List (IterIn X D W)) {v : Visit X D W} {t : List (Visit X D W)}
    (h : es.foldl visit [⟨b0.cur.x, none⟩] = v :: t) (hv : v.est = none) :
    (∀ u w r, t = u :: w :: r → w.est = some ((es.foldl Bufs.iterate b0).cur.dual, (es.foldl Bufs.iterate b0).cur.ws)) ∧
    (∀ u, t = [u] → (es.foldl Bufs.iterate b0).cur.dual = b0.trial.dual ∧ (es.foldl Bufs.iterate b0).cur.ws = b0.trial.ws) ∧
    (t = [] → (es.foldl Bufs.iterate b0).cur.dual = b0.cur.dual ∧ (es.foldl Bufs.iterate b0).cur.ws = b0.cur.ws) := by
  obtain ⟨v', t', h1, -, h3, -⟩ := (visitInv_run b0 es).cur
  rw [h, List.cons.injEq] at h1
  obtain ⟨rfl, rfl⟩ := h1
  rcases h3 with h3 | ⟨-, ⟨rfl, a⟩ | ⟨u, rfl, a⟩ | ⟨u, w, r, rfl, a⟩⟩
  · rw [hv] at h3
    exact absurd h3 (by simp)
  · exact ⟨fun _ _ _ h => absurd h (by simp), fun _ h => absurd h (by simp), fun _ => a⟩
  · exact ⟨fun _ _ _ h => absurd h (by simp), fun _ _ => a, fun h => absurd h (by simp)⟩
  · refine ⟨fun u' w' r' h => ?_, fun _ h => absurd h (by simp), fun h => absurd h (by simp)⟩
    simp only [List.cons.injEq] at h
    rw [← h.2.1]
    exact a

/-! ### C121: lines of the log -/

/-- C121: a line of the log shows the distance of the multipliers computed in this iteration from those of the previous point, the working set computed in this iteration, or
`--` exactly if it is the one of the previous point, and the distance of the trial point, which is the length of an accepted step without correction. (Missing:
corrected steps and lines after rejected steps, see `C121_soc_violated` and `C121_unchanged_violated`.) -/
theorem C121_line_partial [DecidableEq W] (pd : X → X → K) (dd : D → D → K) (b0 : Bufs X D W) (es : List (IterIn X D W)) (e : IterIn X D W) {v u : Visit X D W}
    {r : List (Visit X D W)} (h : es.foldl visit [⟨b0.cur.x, none⟩] = v :: u :: r) {l : LogLine K W}
    (hl : (es.foldl Bufs.iterate b0).line pd dd e = some l) :
    (∃ d w, u.est = some (d, w) ∧ l.dual = dd e.dual d ∧ l.ws = if e.ws = w then none else some e.ws) ∧ l.primal = pd v.x e.trial ∧
      (e.out = .accepted → e.soc = none → ∃ v' t, (es ++ [e]).foldl visit [⟨b0.cur.x, none⟩] = v' :: t ∧ l.primal = pd v.x v'.x) := by
  obtain ⟨v', t', h1, h2, -, h4⟩ := (visitInv_run b0 es).cur
  rw [h, List.cons.injEq] at h1
  obtain ⟨rfl, rfl⟩ := h1
  rcases h4 with ⟨h4, -⟩ | ⟨u', r', h4, h5⟩
  · exact absurd h4 (by simp)
  · rw [List.cons.injEq] at h4
    obtain ⟨rfl, rfl⟩ := h4
    have hl' : l = ⟨pd (es.foldl Bufs.iterate b0).cur.x e.trial, dd e.dual (es.foldl Bufs.iterate b0).trial.dual,
        if e.ws = (es.foldl Bufs.iterate b0).trial.ws then none else some e.ws⟩ := by
      unfold Bufs.line at hl
      cases ho : e.out with
      | stop => rw [ho] at hl; exact absurd hl (by simp)
      | infeasible => rw [ho] at hl; exact absurd hl (by simp)
      | rejected => rw [ho] at hl; exact (Option.some.inj hl).symm
      | accepted => rw [ho] at hl; exact (Option.some.inj hl).symm
    subst hl'
    refine ⟨⟨_, _, h5, rfl, rfl⟩, by rw [h2], fun ho hs => ?_⟩
    rw [List.foldl_append, h]
    refine ⟨⟨e.soc.getD e.trial, none⟩, ⟨v.x, some (e.dual, e.ws)⟩ :: u :: r, by simp only [List.foldl_cons, List.foldl_nil, visit, ho], ?_⟩
    simp [hs, h2]

/-! ### samples: objective `-x·y + 4·y` for `x ≤ 3` and `y ≥ -1`; at `(3, y)` the gradient is `(-y, 1)`, so that the bound on `x` is active with the multiplier `y` as long as
`y > 0`. Points are given by `y`, the multiplier and the working set are those of the bound `x ≤ 3`. -/

/-- multiplier of the bound at `(3, y)`, and whether it is active -/
def exBufEst (y : ℚ) (trial : ℚ) (soc : Option ℚ) (out : IterEnd) : IterIn ℚ ℚ Bool := ⟨if 0 < y then y else 0, 0 < y, trial, soc, out⟩
/-- new iterates at `(3, 2)` -/
def exBufs : Bufs ℚ ℚ Bool := ⟨⟨2, 0, false⟩, ⟨2, 0, false⟩⟩
/-- two steps of lengths 1 and 2, both accepted, with a limit of two iterations -/
def exBufRun : List (IterIn ℚ ℚ Bool) := [exBufEst 2 1 none .accepted, exBufEst 1 (-1) none .accepted]

/-- The code violates C120: an accepted step exchanges the two iterates, so that the point returned at the end of a run comes with the multipliers and the working set of the
point before the previous one. Minimising `-x·y + 4·y` for `x ≤ 3` and `y ≥ -1` from `(3, 2)` with a limit of two iterations, the solver returns the point `(3, -1)`
with the multiplier 2 and the bound `x ≤ 3` in the working set; computed at `(3, -1)` the multiplier is zero and the bound not in the working set. -/
theorem C120_multipliers_violated : (exBufRun.foldl Bufs.iterate exBufs).cur = ⟨-1, 2, true⟩ ∧
    (∀ trial soc out, (exBufEst (-1) trial soc out).dual = 0 ∧ (exBufEst (-1) trial soc out).ws = false) := by
  have h : ¬ (0 : ℚ) < -1 := by decide +kernel
  refine ⟨by decide +kernel, fun _ _ _ => ⟨?_, ?_⟩⟩ <;> simp [exBufEst, h]

/-- Likewise the test for optimality of a new point uses other multipliers than those of this point. With the bound `y ≥ 1` instead, the first step from `(3, 2)` leads to the solution
`(3, 1)`, where the multiplier of `x ≤ 3` is 1, but it is tested with the multiplier zero the iterate was created with. -/
theorem C120_optimality_violated : ([exBufEst 2 1 none .accepted].foldl Bufs.iterate exBufs).cur = ⟨1, 0, false⟩ ∧ (exBufEst 1 1 none .stop).dual = 1 := by
  decide +kernel

example : (exBufRun.foldl visit [⟨exBufs.cur.x, none⟩]).map (fun v => (v.x, v.est)) = [(-1, none), (1, some (1, true)), (2, some (2, true))] := by
  decide +kernel

/-- The code violates C121: if the second-order correction of a rejected step is accepted, the line of the log shows the length of the rejected step: from 2 the trial point 0 is
rejected and the correction 3/2 accepted, and the length 2 is shown instead of 1/2. -/
theorem C121_soc_violated : (exBufs.line (fun a b : ℚ => |a - b|) (fun a b => |a - b|) (exBufEst 2 0 (some (3 / 2)) .accepted)).map (·.primal) = some 2 ∧
    (exBufs.iterate (exBufEst 2 0 (some (3 / 2)) .accepted)).cur.x = 3 / 2 ∧ |(2 : ℚ) - 3 / 2| = 1 / 2 := by
  decide +kernel

/-- a step from 2 to 1 is accepted; at 1 the bound is not in the first working set, and the step is rejected -/
def exBufBack : List (IterIn ℚ ℚ Bool) := [exBufEst 2 1 none .accepted, ⟨0, false, 0, none, .rejected⟩]

/-- The code violates C121: `--` is shown when the working set is the same as at the previous point, even if the line before, for the same point, showed another one. In the sample the
line before shows the working set without the bound, this one, computed with a smaller trust region, `--` for the working set with it. -/
theorem C121_unchanged_violated :
    ((exBufBack.take 1).foldl Bufs.iterate exBufs).line (fun a b : ℚ => |a - b|) (fun a b => |a - b|) ⟨0, false, 0, none, .rejected⟩ = some ⟨1, 2, some false⟩ ∧
    (exBufBack.foldl Bufs.iterate exBufs).line (fun a b : ℚ => |a - b|) (fun a b => |a - b|) ⟨1, true, 1 / 2, none, .rejected⟩ = some ⟨1 / 2, 1, none⟩ := by
  decide +kernel

/-- a line that meets the hypotheses of `C121_line_partial` -/
example : ∃ v u r, (exBufRun.take 1).foldl visit [⟨exBufs.cur.x, none⟩] = v :: u :: r ∧
    ((exBufRun.take 1).foldl Bufs.iterate exBufs).line (fun a b : ℚ => |a - b|) (fun a b => |a - b|) (exBufEst 1 (-1) none .accepted) = some ⟨2, 1, none⟩ :=
  ⟨_, _, _, rfl, by decide +kernel⟩

end Sleqp
