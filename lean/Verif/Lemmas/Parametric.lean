import Verif.Spec.Parametric
import Verif.Lemmas.Presolve
import Mathlib.Tactic.Linarith
import Mathlib.Tactic.LinearCombination

/-! Lemmas about the model of the search for the trust radius of the linear programs. -/

namespace Sleqp
variable {K : Type*} [Field K] [LinearOrder K] [IsStrictOrderedRing K]
variable {n m : Nat}
open Matrix

omit [IsStrictOrderedRing K] in
theorem quad_zero_eq (q : LocalModel n m K) : q.quad 0 = q.lin 0 := by
  simp [LocalModel.quad]

omit [LinearOrder K] [IsStrictOrderedRing K] in
theorem lin_zero_eq [LinearOrder K] (q : LocalModel n m K) : q.lin 0 = q.f + q.penalty * q.viol 0 := by
  simp [LocalModel.lin]

theorem par_violation {q : LocalModel n m K} {e : MeritEnv K} (he : EnvFor q e) :
    totalViolation e.numCons e.cons e.consLb e.consUb = some (q.viol 0) := by
  rw [total_dense he he.okC]
  simp only [LocalModel.viol, mulVec_zero, Pi.zero_apply, add_zero, he.c]

theorem par_sufficient {q : LocalModel n m K} {e : ParEnv K} (he : EnvFor q e.merits) {D : Dir K} {d : Fin n → K} (h : DirFor q D d)
    [Decidable (SuffDecrease q e.eta d)] :
    e.sufficient (q.viol 0) D = some (decide (SuffDecrease q e.eta d), q.quad d) := by
  obtain ⟨c, c1, c2, c3⟩ := addScaled_dense (r0 := e.merits.work) (1 : K) 1 he.okC h.okC
  have hc : (∑ i, viol (dense m c i) (q.lb i) (q.ub i)) = q.viol d := by
    simp only [LocalModel.viol, c3, h.jac, he.c, one_smul, Pi.add_apply]
  unfold ParEnv.sufficient
  rw [he.eps, c1, Option.bind_some, total_dense he c2, Option.bind_some, dot_dense h.okP h.okH, Option.bind_some, h.primal, h.hess,
    h.grad, hc, he.f, he.pen]
  congr 2
  rw [decide_eq_decide]
  unfold SuffDecrease
  rw [quad_zero_eq, lin_zero_eq]
  unfold LocalModel.quad LocalModel.lin
  constructor
  · intro h
    linarith
  · intro h
    show _ ≤ _
    linarith

/-- resetting a direction whose step has been replaced -/
theorem par_reset {q : LocalModel n m K} {sol : K → Fin n → K} {e : ParEnv K} (he : ParFor q sol e) {D : Dir K} (hD : DirStore n m D)
    {p : Vec K} (hp : VOk n p) :
    ∃ D', ({ D with primal := p } : Dir K).reset e.merits.numCons e.grad e.jac e.hp e.merits.zeroEps = some D' ∧
      DirFor q D' (dense n p) := by
  rw [he.merits.num, he.merits.eps]
  exact C62_reset q { D with primal := p } e.grad e.jac e.hp hp hD.okC hD.okH he.okG he.grad he.okJ.1 he.okJ.2 he.jac he.hess

omit [IsStrictOrderedRing K] in
theorem DirFor.store {q : LocalModel n m K} {D : Dir K} {d : Fin n → K} (h : DirFor q D d) : DirStore n m D := ⟨h.okP, h.okC, h.okH⟩

/-- step and Hessian product belong to `d`, gradient and Jacobian product to `d0` -/
structure MixedDir (q : LocalModel n m K) (d0 d : Fin n → K) (D : Dir K) : Prop where
  store : DirStore n m D
  primal : dense n D.primal = d
  hess : dense n D.hess = q.H *ᵥ d
  grad : D.objGrad = q.g ⬝ᵥ d0
  jac : dense m D.consJac = q.J *ᵥ d0

omit [IsStrictOrderedRing K] in
theorem mixedDir_self {q : LocalModel n m K} {D : Dir K} {d : Fin n → K} : MixedDir q d d D ↔ DirFor q D d :=
  ⟨fun h => ⟨h.store.okP, h.store.okC, h.store.okH, h.primal, h.grad, h.jac, h.hess⟩,
    fun h => ⟨h.store, h.primal, h.hess, h.grad, h.jac⟩⟩

theorem mixedDir_copy {q : LocalModel n m K} {D T : Dir K} {d0 d : Fin n → K} (h : MixedDir q d0 d D) (hT : DirStore n m T) :
    ∃ D', D.copy T = some D' ∧ MixedDir q d0 d D' := by
  obtain ⟨p, p1, p2, p3⟩ := copy_spec h.store.okP hT.okP.2
  obtain ⟨c, c1, c2, c3⟩ := copy_spec h.store.okC hT.okC.2
  obtain ⟨s, s1, s2, s3⟩ := copy_spec h.store.okH hT.okH.2
  refine ⟨⟨p, D.objGrad, c, s⟩, ?_, ⟨⟨p2, c2, s2⟩, ?_, ?_, h.grad, ?_⟩⟩
  · unfold Dir.copy
    rw [p1, Option.bind_some, c1, Option.bind_some, s1]
    rfl
  · rw [← h.primal]; exact dense_of_ents p3
  · rw [← h.hess]; exact dense_of_ents s3
  · rw [← h.jac]; exact dense_of_ents c3

theorem mixedDir_linear {q : LocalModel n m K} {e : MeritEnv K} (he : EnvFor q e) {D : Dir K} {d0 : Fin n → K}
    (okC : VOk m D.consJac) (grad : D.objGrad = q.g ⬝ᵥ d0) (jac : dense m D.consJac = q.J *ᵥ d0) : e.linear D = some (q.lin d0) := by
  obtain ⟨c, c1, c2, c3⟩ := addScaled_dense (r0 := e.work) (1 : K) 1 okC he.okC
  unfold MeritEnv.linear
  rw [he.eps, c1, Option.bind_some, total_dense he c2, Option.bind_some]
  simp only [LocalModel.lin, LocalModel.viol, he.f, he.pen, grad, c3, jac, he.c, one_smul, Pi.add_apply, add_comm]

/-- the merit value which `search_forward` computes -/
def mixedMerit (q : LocalModel n m K) (d0 d : Fin n → K) : K := q.lin d0 + 1 / 2 * (d ⬝ᵥ q.H *ᵥ d)

theorem par_forwardMerit {q : LocalModel n m K} {sol : K → Fin n → K} {e : ParEnv K} (he : ParFor q sol e) {D : Dir K}
    {d0 d : Fin n → K} (h : MixedDir q d0 d D) {p : Vec K} (hp : VOk n p) :
    ∃ D', e.forwardMerit { D with primal := p } = some (D', mixedMerit q d0 (dense n p)) ∧ MixedDir q d0 (dense n p) D' := by
  obtain ⟨w, w1, w2, w3⟩ := he.hess p D.hess hp h.store.okH
  refine ⟨{ D with primal := p, hess := w }, ?_, ⟨⟨hp, h.store.okC, w2⟩, rfl, w3, h.grad, h.jac⟩⟩
  unfold ParEnv.forwardMerit
  rw [mixedDir_linear he.merits (D := { D with primal := p }) h.store.okC h.grad h.jac, Option.bind_some]
  show (e.hp p D.hess).bind _ = _
  rw [w1, Option.bind_some]
  show (p.dot w).bind _ = _
  rw [dot_dense hp w2, Option.bind_some, w3]
  rfl

/-- the state of `search_forward` after `j` successes -/
structure FwdInv (q : LocalModel n m K) (sol : K → Fin n → K) (e : ParEnv K) (r0 : K) (j : Nat) (s : ParState K) : Prop where
  radius : s.radius = r0 * e.increase ^ (j + 1)
  solved : s.solved = r0 * e.increase ^ j
  dir : MixedDir q (sol r0) (sol (r0 * e.increase ^ j)) s.dir
  last : MixedDir q (sol r0) (sol (r0 * e.increase ^ j)) s.last
  merit : s.merit = mixedMerit q (sol r0) (sol (r0 * e.increase ^ j))
  le : s.merit ≤ q.quad (sol r0)
  solves : s.solves = j

/-- the result of `search_forward` -/
structure FwdOut (q : LocalModel n m K) (sol : K → Fin n → K) (e : ParEnv K) (r0 : K) (k : Nat) (s : ParState K) : Prop where
  solved : s.solved = r0 * e.increase ^ k
  radius : s.radius = r0 * e.increase ^ k ∨ s.radius = r0 * e.increase ^ (k + 1)
  dir : MixedDir q (sol r0) (sol (r0 * e.increase ^ k)) s.dir
  merit : s.merit = mixedMerit q (sol r0) (sol (r0 * e.increase ^ k))
  le : s.merit ≤ q.quad (sol r0)
  solves : s.solves ≤ k + 2

theorem par_forward {q : LocalModel n m K} {sol : K → Fin n → K} {e : ParEnv K} (he : ParFor q sol e) (heps : 0 ≤ e.eps)
    (hi : e.increase ≠ 0) {r0 : K} : ∀ (c j : Nat) (s : ParState K), FwdInv q sol e r0 j s →
      ∃ out k, e.forward c s = some out ∧ FwdOut q sol e r0 k out ∧ j ≤ k ∧ k ≤ j + c ∧ (k = j + c → out.solves = k) ∧
        (k < j + c → mixedMerit q (sol r0) (sol (r0 * e.increase ^ (k + 1))) < out.merit → isLt
          (mixedMerit q (sol r0) (sol (r0 * e.increase ^ (k + 1)))) out.merit e.eps = false) := by
  intro c
  induction c with
  | zero =>
    intro j s h
    exact ⟨s, j, rfl, ⟨h.solved, Or.inr h.radius, h.dir, h.merit, h.le, by rw [h.solves]; omega⟩, le_rfl, le_rfl, fun _ => h.solves,
      fun hk => absurd hk (lt_irrefl _)⟩
  | succ c ih =>
    intro j s h
    obtain ⟨p, p1, p2, p3⟩ := he.step s.radius s.dir.primal h.dir.store.okP.1 h.dir.store.okP.2
    obtain ⟨D, D1, D2⟩ := par_forwardMerit he h.dir p2
    unfold ParEnv.forward
    rw [p1, Option.bind_some, D1, Option.bind_some]
    rw [p3, h.radius] at D2
    simp only [p3, h.radius]
    by_cases hlt : isLt (mixedMerit q (sol r0) (sol (r0 * e.increase ^ (j + 1)))) s.merit e.eps = true
    · rw [if_pos hlt]
      obtain ⟨L, L1, L2⟩ := mixedDir_copy D2 h.last.store
      rw [L1, Option.bind_some]
      obtain ⟨out, k, o1, o2, o3, o4, o5, o6⟩ := ih (j + 1) ⟨D, L, r0 * e.increase ^ (j + 1) * e.increase,
        mixedMerit q (sol r0) (sol (r0 * e.increase ^ (j + 1))), r0 * e.increase ^ (j + 1), s.solves + 1⟩
        ⟨by show _ = _; rw [pow_succ e.increase (j + 1)]; ring, rfl, D2, L2, rfl, le_trans (isLt_lt heps hlt).le h.le,
          by show s.solves + 1 = _; rw [h.solves]⟩
      exact ⟨out, k, o1, o2, by omega, by omega, fun hk => o5 (by omega), fun hk => o6 (by omega)⟩
    · rw [if_neg hlt]
      obtain ⟨L, L1, L2⟩ := mixedDir_copy h.last D2.store
      rw [L1, Option.bind_some]
      have hr : r0 * e.increase ^ (j + 1) / e.increase = r0 * e.increase ^ j := by
        rw [pow_succ, ← mul_assoc, mul_div_assoc, div_self hi, mul_one]
      rw [hr]
      exact ⟨_, j, rfl, ⟨rfl, Or.inl rfl, L2, h.merit, h.le, by show s.solves + 2 ≤ _; rw [h.solves]⟩, le_rfl, by omega,
        fun hk => absurd hk (by omega), fun _ _ => by simpa using hlt⟩

/-- the loop of `search_backtracking`: either it stops at the first sufficient step, or there is none -/
theorem par_backward {q : LocalModel n m K} {sol : K → Fin n → K} {e : ParEnv K} (he : ParFor q sol e) :
    ∀ (c : Nat) (s : ParState K), DirStore n m s.dir →
      (∃ k out, k < c ∧ e.backward (q.viol 0) c s = some (true, out) ∧ SuffDecrease q e.eta (sol (s.radius * e.decrease ^ k)) ∧
        (∀ j < k, ¬ SuffDecrease q e.eta (sol (s.radius * e.decrease ^ j))) ∧ DirFor q out.dir (sol (s.radius * e.decrease ^ k)) ∧
        out.radius = s.radius * e.decrease ^ k ∧ out.solved = s.radius * e.decrease ^ k ∧
        out.merit = q.quad (sol (s.radius * e.decrease ^ k)) ∧ out.solves = s.solves + k + 1) ∨
      ((∀ j < c, ¬ SuffDecrease q e.eta (sol (s.radius * e.decrease ^ j))) ∧ ∃ out, e.backward (q.viol 0) c s = some (false, out) ∧
        out.radius = s.radius * e.decrease ^ c ∧ out.solves = s.solves + c ∧ (c = 0 → out = s) ∧
        ∀ c', c = c' + 1 → DirFor q out.dir (sol (s.radius * e.decrease ^ c')) ∧ out.solved = s.radius * e.decrease ^ c') := by
  intro c
  induction c with
  | zero =>
    intro s _
    exact Or.inr ⟨fun j hj => absurd hj (by omega), s, rfl, by simp, rfl, fun _ => rfl, fun c' hc => absurd hc (by omega)⟩
  | succ c ih =>
    intro s hs
    obtain ⟨p, p1, p2, p3⟩ := he.step s.radius s.dir.primal hs.okP.1 hs.okP.2
    obtain ⟨D, D1, D2⟩ := par_reset he hs p2
    rw [p3] at D2
    classical
    have key : e.backward (q.viol 0) (c + 1) s =
        if decide (SuffDecrease q e.eta (sol s.radius)) = true then
          some (true, ⟨D, s.last, s.radius, q.quad (sol s.radius), s.radius, s.solves + 1⟩)
        else e.backward (q.viol 0) c ⟨D, s.last, s.radius * e.decrease, q.quad (sol s.radius), s.radius, s.solves + 1⟩ := by
      rw [ParEnv.backward, p1, Option.bind_some, D1, Option.bind_some, par_sufficient he.merits D2, Option.bind_some]
    rw [key]
    by_cases hd : SuffDecrease q e.eta (sol s.radius)
    · rw [if_pos (decide_eq_true hd)]
      refine Or.inl ⟨0, _, by omega, rfl, ?_, fun j hj => absurd hj (by omega), ?_, ?_, ?_, ?_, rfl⟩ <;> simp [hd, D2]
    · rw [if_neg (by simpa using hd)]
      have shift : ∀ j, s.radius * e.decrease * e.decrease ^ j = s.radius * e.decrease ^ (j + 1) := fun j => by rw [pow_succ]; ring
      rcases ih ⟨D, s.last, s.radius * e.decrease, q.quad (sol s.radius), s.radius, s.solves + 1⟩ D2.store with
        ⟨k, out, k1, k2, k3, k4, k5, k6, k7, k8, k9⟩ | ⟨k1, out, k2, k3, k4, k5, k6⟩
      · simp only [shift] at k3 k4 k5 k6 k7 k8
        refine Or.inl ⟨k + 1, out, by omega, k2, k3, fun j hj => ?_, k5, k6, k7, k8, by rw [k9]; simp only; omega⟩
        cases j with
        | zero => simpa using hd
        | succ j => exact k4 j (by omega)
      · simp only [shift] at k1 k3 k6
        refine Or.inr ⟨fun j hj => ?_, out, k2, k3, by rw [k4]; simp only; omega, fun h => absurd h (by omega), fun c' hc => ?_⟩
        · cases j with
          | zero => simpa using hd
          | succ j => exact k1 j (by omega)
        · obtain rfl : c = c' := by omega
          cases c with
          | zero => rw [k5 rfl]; simpa using D2
          | succ c => exact k6 c rfl

end Sleqp
