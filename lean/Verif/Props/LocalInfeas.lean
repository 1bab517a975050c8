import Verif.Lemmas.LocalInfeas
import Verif.Props.CauchyLp

/-! C86: the question for local infeasibility. -/

namespace Sleqp
variable {K : Type*} [Field K] [LinearOrder K]

/-- When the Cauchy solver answers the question whether the problem is locally infeasible, the answer is yes exactly if, in the basis of
the linear program, no variable sits at a bound of the trust region and some constraint is satisfied with the help of a slack only. -/
theorem C86_answer {e : LpEnv K} {s s' : CauchyLp K} {it : Iterate K} {b : Bool} (hit : s.iterate = some it) (hx : Srt it.primal.ents)
    (hl : Srt e.bounds.varsLb.ents) (hu : Srt e.bounds.varsUb.ents) (h : s.locallyInfeasible e = some (s', b)) :
    b = true ↔
      (∀ i < e.numVars, ¬ RegionActive e.eps s'.radius e.bounds.varsLb.value e.bounds.varsUb.value it.primal.value s'.varStats i) ∧
      ∃ i < e.numCons, SlackUsed e.numVars e.numCons s'.varStats s'.consStats i := by
  unfold CauchyLp.locallyInfeasible at h
  rw [hit] at h
  dsimp only [Option.bind_some] at h
  split at h
  · cases h
  split at h
  · obtain ⟨active, h1, h⟩ := Option.bind_eq_some_iff.mp h
    obtain ⟨feas, h2, h⟩ := Option.map_eq_some_iff.mp h
    obtain ⟨rfl, rfl⟩ := Prod.mk.inj h
    rw [List.range_eq_range'] at h1
    have e1 := radiusLoop_spec hx hl hu e.numVars 0 active (by rw [cursorTo_zero, cursorTo_zero, cursorTo_zero]; exact h1)
    have e2 := feasibleBody_spec _ _ _ h2
    simp only [Nat.zero_le, true_and, Nat.zero_add, List.mem_range] at e1 e2
    have e1' : active = false ↔ ∀ i < e.numVars,
        ¬ RegionActive e.eps (s.fetchStats e).radius e.bounds.varsLb.value e.bounds.varsUb.value it.primal.value (s.fetchStats e).varStats i := by
      rw [← Bool.not_eq_true, e1]
      push Not
      rfl
    have e2' : feas = false ↔ ∃ i < e.numCons, SlackUsed e.numVars e.numCons (s.fetchStats e).varStats (s.fetchStats e).consStats i := by
      rw [← Bool.not_eq_true, e2]
      push Not
      rfl
    rw [← e1', ← e2']
    cases feas <;> cases active <;> simp
  · cases h

/-- the variable at a lower bound, the constraint active, its first slack basic; the trust radius is `r` and the bounds of the variable
are at a distance of 10 -/
def exLocal (r : ℚ) : CauchyLp ℚ :=
  { exLpState with
    iterate := some exLpIterate, radius := r, useReduced := false, dirtyStats := false
    varStats := fun j => if j = 1 then .basic else .lower, consStats := fun _ => .lower }

/-- The hypotheses are met: if the trust region reaches beyond the bounds, the answer is yes, otherwise no. -/
example : ∃ s1 s2, (exLocal 20).locallyInfeasible exLpEnv = some (s1, true) ∧ (exLocal 1).locallyInfeasible exLpEnv = some (s2, false) ∧
    Srt exLpIterate.primal.ents ∧ Srt exLpEnv.bounds.varsLb.ents ∧ Srt exLpEnv.bounds.varsUb.ents := by
  have h : ∀ r b, ((exLocal r).locallyInfeasible exLpEnv).map Prod.snd = some b → ∃ s1, (exLocal r).locallyInfeasible exLpEnv = some (s1, b) := by
    intro r b h
    obtain ⟨⟨s1, b'⟩, h1, rfl⟩ := Option.map_eq_some_iff.mp h
    exact ⟨s1, h1⟩
  obtain ⟨s1, h1⟩ := h 20 true (by decide +kernel)
  obtain ⟨s2, h2⟩ := h 1 false (by decide +kernel)
  exact ⟨s1, s2, h1, h2, ((C02_isValid_iff exLpIterate.primal).mp (by decide +kernel)).srt,
    ((C02_isValid_iff exLpEnv.bounds.varsLb).mp (by decide +kernel)).srt, ((C02_isValid_iff exLpEnv.bounds.varsUb).mp (by decide +kernel)).srt⟩

end Sleqp
