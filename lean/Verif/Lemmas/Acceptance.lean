import Verif.Spec.Acceptance
import Verif.Props.Merit
import Verif.Props.TrialPoint

/-! Facts on decisions about trial steps. -/

namespace Sleqp
open Finset
variable {K : Type*} [Field K] [LinearOrder K] [IsStrictOrderedRing K]
variable {e : LpEnv K} {c : TrialCalls K} {s : TrialSettings K} {t : TrialSolver K} {out : Vec K} {d : TrialDecision K} {p : StepState K} {it : Iterate K} {eps : K}

theorem meritFunc_penalty (hb : LpBounds e) (hc : it.consVal.WF ∧ it.consVal.dim = e.numCons) (penalty : K) :
    meritFunc e.numCons e.bounds it penalty = some (e.penaltyFn penalty it.objVal it.consVal.value) :=
  C16_merit_value ⟨hc.1, hb.sized.wcl, hb.sized.wcu, hc.2, hb.sized.dcl, hb.sized.dcu, fun i hi => (hb.cons i hi).2.2⟩ penalty

theorem decideOn_spec (hb : LpBounds e) {penalty m η : K} {v : K × Vec K} {o : TrialPt K} (hv : v.2.WF ∧ v.2.dim = e.numCons)
    (h : decideOn e eps η penalty m it v o = some d) :
    d.trial = o ∧ d.iterateMerit = m ∧ d.trialMerit = e.penaltyFn penalty v.1 v.2.value ∧
      directApply eps η d.iterateMerit d.trialMerit o.merit = some (d.accepted, d.ratio) := by
  unfold decideOn at h
  obtain ⟨mt, h1, h⟩ := Option.bind_eq_some_iff.mp h
  obtain ⟨r, h2, h⟩ := Option.map_eq_some_iff.mp h
  rw [meritFunc_penalty hb (it := { it with primal := o.point, objVal := v.1, consVal := v.2 }) hv] at h1
  injection h1 with h1
  subst h h1
  exact ⟨rfl, rfl, rfl, h2⟩

theorem decideExact_spec (hb : LpBounds e) (hc : it.consVal.WF ∧ it.consVal.dim = e.numCons) {func : Vec K → K × Vec K}
    (hf : ∀ x, (func x).2.WF ∧ (func x).2.dim = e.numCons) (h : decideExact e c s eps p it func t out = some d) :
    d.iterateMerit = e.penaltyFn p.penalty it.objVal it.consVal.value ∧ d.trialMerit = d.penaltyAt e p.penalty func ∧
      directApply eps s.acceptedReduction d.iterateMerit d.trialMerit d.trial.merit = some (d.accepted, d.ratio) ∧
      ∃ t1, t.prepare e p it = some t1 ∧ t1.compute e c s out = some d.trial := by
  unfold decideExact at h
  obtain ⟨m, h1, h⟩ := Option.bind_eq_some_iff.mp h
  obtain ⟨t1, h2, h⟩ := Option.bind_eq_some_iff.mp h
  obtain ⟨o, h3, h⟩ := Option.bind_eq_some_iff.mp h
  obtain ⟨a1, a2, a3, a4⟩ := decideOn_spec hb (hf _) h
  rw [meritFunc_penalty hb hc] at h1
  injection h1 with h1
  subst a1
  exact ⟨a2.trans h1.symm, a3, a4, t1, h2, h3⟩

theorem decideDyn_spec (hb : LpBounds e) (hc : it.consVal.WF ∧ it.consVal.dim = e.numCons) {calls : Nat → TrialCalls K} {eval : Nat → K → DynValues K} {fuel : Nat}
    {err b b' : K} {func : K → Vec K → K × Vec K} (hf : ∀ b x, (func b x).2.WF ∧ (func b x).2.dim = e.numCons)
    (h : decideDyn e c calls eval s fuel eps p it err b func t out = some (d, b')) :
    d.iterateMerit = e.penaltyFn p.penalty it.objVal it.consVal.value ∧ d.trialMerit = d.penaltyAt e p.penalty (func b') ∧
      directApply eps s.acceptedReduction d.iterateMerit d.trialMerit d.trial.merit = some (d.accepted, d.ratio) := by
  unfold decideDyn at h
  obtain ⟨m, h1, h⟩ := Option.bind_eq_some_iff.mp h
  obtain ⟨t1, h2, h⟩ := Option.bind_eq_some_iff.mp h
  obtain ⟨o1, h3, h⟩ := Option.bind_eq_some_iff.mp h
  obtain ⟨o, h4, h⟩ := Option.bind_eq_some_iff.mp h
  obtain ⟨b2, h5, h⟩ := Option.bind_eq_some_iff.mp h
  obtain ⟨d', h6, h⟩ := Option.map_eq_some_iff.mp h
  injection h with e1 e2
  subst e1 e2
  obtain ⟨a1, a2, a3, a4⟩ := decideOn_spec hb (hf _ _) h6
  rw [meritFunc_penalty hb hc] at h1
  injection h1 with h1
  refine ⟨a2.trans h1.symm, ?_, ?_⟩
  · rw [a3]; unfold TrialDecision.penaltyAt; rw [a1]
  · rw [a1]; exact a4

theorem penaltyFn_lipschitz {penalty : K} (hp : 0 ≤ penalty) (f f' : K) (c c' : Nat → K) :
    e.penaltyFn penalty f c ≤ e.penaltyFn penalty f' c' + (|f - f'| + ∑ i ∈ range e.numCons, penalty * |c i - c' i|) := by
  unfold LpEnv.penaltyFn
  have h1 := le_abs_self (f - f')
  have h2 : ∑ i ∈ range e.numCons, viol (c i) (e.bounds.consLb.value i) (e.bounds.consUb.value i) ≤
      ∑ i ∈ range e.numCons, viol (c' i) (e.bounds.consLb.value i) (e.bounds.consUb.value i) + ∑ i ∈ range e.numCons, |c i - c' i| := by
    rw [← sum_add_distrib]
    refine sum_le_sum fun i _ => ?_
    have := (abs_le.mp (viol_lipschitz (c i) (c' i) (e.bounds.consLb.value i) (e.bounds.consUb.value i))).2
    linarith
  have h3 := mul_le_mul_of_nonneg_left h2 hp
  rw [← mul_sum]
  linarith

end Sleqp
