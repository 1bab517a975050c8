import Verif.Model.Events
import Verif.Props.Scale
import Verif.Props.Polish

/-! C56: iterates passed to callbacks. -/

namespace Sleqp
variable {K : Type*} [Field K] [LinearOrder K]

/-- C56: without scaling and preprocessing the accepted-iterate callbacks get the accepted iterate. -/
theorem C56_accepted_partial (lsq : Bool) (iterate trial : Iterate K) :
    ∃ v, acceptedEvent some none lsq iterate trial = some v ∧ restoreIterate some none lsq trial = some v.passed :=
  ⟨⟨trial, iterate⟩, rfl, rfl⟩

/-- C56: with scaling the callbacks get the accepted iterate in scaled coordinates, not the one in the
user's coordinates, and the solver's solution during the callback is still the previous iterate: for every iterate `orig` of the user's problem
whose scaled version has just been accepted, the callback gets that scaled version. For the sample scaling (variable times
`2^-3`) and the point 1 this is 1/8. -/
theorem C56_accepted_violated :
    (∀ {s : Scaling} {n m : Nat} {p : Bounds ℚ} {orig prev it it' : Iterate ℚ}, s.For n m → orig.Fits n m p → prev.Fits n m p →
      s.scaleIterate false orig = some it → s.scaleIterate false prev = some it' →
      ∃ v, acceptedEvent some (some s) false it' it = some v ∧ v.passed = it ∧ v.solution = prev ∧
        restoreIterate some (some s) false it = some orig) ∧
    ∃ it, exScaling.scaleIterate false exIt = some it ∧ it.primal.value 0 = 1 / 8 ∧ exIt.primal.value 0 = 1 := by
  constructor
  · intro s n m p orig prev it it' hs ho hp h1 h2
    have e1 := C33_unscale_scale hs ho false
    have e2 := C33_unscale_scale hs hp false
    rw [h1] at e1
    rw [h2] at e2
    have e2' : restoreIterate some (some s) false it' = some prev := e2
    exact ⟨⟨it, prev⟩, by unfold acceptedEvent; rw [e2']; rfl, rfl, rfl, e1⟩
  · obtain ⟨it', p', h1, h2, h3, h4⟩ := C33_scaled exScaling_for exFits (t := exP) ⟨rfl, rfl, rfl, rfl⟩ false
    refine ⟨it', h1, ?_, ?_⟩
    · rw [h4.primal]; decide +kernel
    · decide +kernel

/-- C56: the finished callbacks get the iterate (point, values, multipliers) which is the solution of the solver. -/
theorem C56_finished_partial {pre : Iterate K → Option (Iterate K)} {scaling : Option Scaling} {lsq : Bool}
    {polish : Iterate K → WSet → Option WSet} {it : Iterate K} {ws : WSet} {a b : Iterate K × WSet}
    (h : finishedEvent pre scaling lsq polish it ws = some (a, b)) :
    a.1 = b.1 ∧ restoreIterate pre scaling lsq it = some a.1 ∧ polish it ws = some b.2 := by
  unfold finishedEvent at h
  cases h1 : restoreIterate pre scaling lsq it with
  | none => rw [h1] at h; cases h
  | some o =>
    rw [h1] at h
    cases h2 : polish it ws with
    | none => rw [h2] at h; cases h
    | some w => rw [h2] at h; cases h; exact ⟨rfl, rfl, rfl⟩

/-- C56: the iterate passed to the finished callbacks was restored before polishing, so that its working set differs from that
of the solution: zero-multiplier polishing removes variable 1 only afterwards. -/
theorem C56_finished_violated : ∃ (source : WSet) (it : Iterate ℚ) (a b : Iterate ℚ × WSet),
    finishedEvent some none false (fun it ws => (polishZero
      ⟨⟨2, 0, []⟩, ⟨2, 0, []⟩, it.primal, it.varsDual, ⟨0, 0, []⟩, ⟨0, 0, []⟩, it.consVal, it.consDual⟩ ws (WSet.create 2 0 fun _ => 0)).map Prod.fst)
      it source = some (a, b) ∧ a.2.varState 1 = .upper ∧ b.2.varState 1 = .inactive := by
  obtain ⟨w1, a1, a2⟩ := wrep_addVar (wrep_create 2 0 fun _ => 0) (i := 0) (st := .lower) (by omega) (by simp)
    (by simp) (by decide)
  obtain ⟨w2, b1, b2⟩ := wrep_addVar a2 (i := 1) (st := .upper) (by omega) (by simp) (by simp) (by decide)
  obtain ⟨t, rv, rc, h1, h2⟩ := C32_zero_dual b2 (own := WSet.create 2 0 fun _ => 0) rfl rfl
    (⟨⟨2, 0, []⟩, ⟨2, 0, []⟩, ⟨2, 0, []⟩, ⟨2, 1, [(0, -3)]⟩, ⟨0, 0, []⟩, ⟨0, 0, []⟩, ⟨0, 0, []⟩, ⟨0, 0, []⟩⟩ : PolishData ℚ)
    ⟨⟨by simp [Srt], by simp, by simp⟩, rfl⟩ ⟨⟨by simp [Srt], by simp, by simp⟩, rfl⟩
  obtain ⟨it, hit⟩ : ∃ it : Iterate ℚ, it = ⟨⟨2, 0, []⟩, 0, ⟨2, 0, []⟩, ⟨0, 0, []⟩, Mat.create 0 2 0 (fun _ => 0) fun _ => 0, ⟨0, 0, []⟩, ⟨2, 1, [(0, -3)]⟩⟩ := ⟨_, rfl⟩
  refine ⟨w2, it, (it, w2), (it, t), ?_, ?_, ?_⟩
  · unfold finishedEvent restoreIterate
    simp only [Option.bind_some]
    rw [hit, h1]; rfl
  · have := (b2.vidx 1 (by simp) rfl).2
    simpa using this
  · rw [h2.vars 1 (by omega)]; simp [at?]

/-- non-vacuity: the general part of `C56_accepted_violated` applies to the sample -/
example : ∃ it v, exScaling.scaleIterate false exIt = some it ∧ acceptedEvent some (some exScaling) false it it = some v ∧ v.passed.primal.value 0 = 1 / 8 := by
  obtain ⟨h, it, h1, h2, -⟩ := C56_accepted_violated
  obtain ⟨v, v1, v2, -⟩ := h exScaling_for exFits exFits h1 h1
  exact ⟨it, v, h1, v1, by rw [v2]; exact h2⟩

end Sleqp
