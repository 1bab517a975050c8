import Verif.Spec.Choice
import Verif.Props.Problem
import Verif.Props.Vec

/-! C97: the algorithms used suit the problem and the settings; combinations that do not are refused when the solver is created. -/

namespace Sleqp

variable {K : Type*} [Field K] [LinearOrder K] [IsStrictOrderedRing K]

/-- C97. A problem solver which is created has algorithms that suit its problem and the factorization, and that were asked for. -/
theorem C97_suit {b : FactKind} {s : MethodSettings} {p : ProblemKind} {a : Algorithms} (h : chooseAll b s p = some a) : a.Suit b p ∧ a.Asked s p := by
  obtain ⟨u, n, t, f⟩ := p
  obtain ⟨y, e, d⟩ := s
  obtain ⟨psd, qr⟩ := b
  unfold chooseAll at h
  obtain ⟨y', h1, h⟩ := Option.bind_eq_some_iff.mp h
  obtain ⟨q, h2, rfl⟩ := Option.map_eq_some_iff.mp h
  refine ⟨⟨?_, ?_, ?_⟩, rfl, ?_, ?_, ?_, ?_, ?_, ?_⟩
  · unfold chooseCauchy CauchyAlg.Suits
    by_cases hu : u = true <;> by_cases hn : n = 0 <;> simp [hu, hn]
  · unfold chooseSystem at h1
    by_cases hu : u = true
    · simp only [hu, if_true, Option.some.injEq] at h1; subst h1; exact hu
    · by_cases hn : n = 0
      · simp only [hu, hn, if_true] at h1; cases h1; exact hn
      · simp only [hu, hn, if_false] at h1
        cases y <;> cases psd <;> cases qr <;> first | (cases h1; exact rfl) | (cases h1; exact trivial) | cases h1
  · unfold chooseEqp at h2
    by_cases he : e = .lsqr
    · by_cases ht : t = .lsq
      · rw [if_pos he, if_neg (by simpa using ht)] at h2; cases h2; exact ht
      · rw [if_pos he, if_pos ht] at h2; cases h2
    · rw [if_neg he] at h2; cases h2
      unfold chooseTr
      dsimp only
      split_ifs <;> exact trivial
  all_goals
    first
    | intro hy hn hu
      dsimp only at hy hn hu
      subst hy hu
      unfold chooseSystem at h1
      simp only [hn, if_false] at h1
      cases psd <;> cases qr <;> first | (cases h1; rfl) | cases h1
    | intro he
      dsimp only at he
      subst he
      unfold chooseEqp at h2
      dsimp only at h2
      first
      | (rw [if_neg (by decide)] at h2; cases h2; rfl)
      | (rw [if_pos rfl] at h2; split at h2 <;> first | (cases h2; rfl) | cases h2)

/-- C97. A problem solver is refused in these cases only: there are constraints, and the standard system is asked for when the factorization requires positive
definite matrices, or the direct one when there is no QR factorization; or LSQR is asked for and the function is not a least-squares one. -/
theorem C97_refused_iff {b : FactKind} {s : MethodSettings} {p : ProblemKind} :
    chooseAll b s p = none ↔
      (p.unconstrained = false ∧ p.numCons ≠ 0 ∧ (s.system = .standard ∧ b.psd = true ∨ s.system = .direct ∧ b.qr = false)) ∨ (s.tr = .lsqr ∧ p.func ≠ .lsq) := by
  have h1 : chooseSystem b s p = none ↔
      p.unconstrained = false ∧ p.numCons ≠ 0 ∧ (s.system = .standard ∧ b.psd = true ∨ s.system = .direct ∧ b.qr = false) := by
    obtain ⟨u, n, t, f⟩ := p
    obtain ⟨y, e, d⟩ := s
    obtain ⟨psd, qr⟩ := b
    unfold chooseSystem
    by_cases hn : n = 0 <;> cases u <;> cases y <;> cases psd <;> cases qr <;> simp [hn]
  have h2 : chooseEqp s p = none ↔ s.tr = .lsqr ∧ p.func ≠ .lsq := by
    unfold chooseEqp
    by_cases h : s.tr = .lsqr
    · rw [if_pos h]; by_cases h' : p.func = .lsq <;> simp [h, h']
    · rw [if_neg h]; simp [h]
  rw [← h1, ← h2]
  unfold chooseAll
  cases chooseSystem b s p <;> cases chooseEqp s p <;> simp

/-- C97. With default settings no problem is refused. -/
theorem C97_default (b : FactKind) (p : ProblemKind) : chooseAll b .default p ≠ none := by
  rw [Ne, C97_refused_iff]
  unfold MethodSettings.default
  simp

/-- C97. The algorithms that ignore bounds are used if and only if all bounds, of variables and constraints, are infinite; linear programs are used if and only if there
is a finite bound and there are constraints. -/
theorem C97_ignored {inf : K} (hinf : 0 < inf) {p : Prob K} (h1 : p.varLb.WF) (h2 : p.varUb.WF) (h3 : p.consLb.WF) (h4 : p.consUb.WF) {t : FuncKind} {f : FuncFlags}
    {b : FactKind} {s : MethodSettings} {a : Algorithms} (h : chooseAll b s (p.kind inf t f) = some a) :
    (a.cauchy = .unconstrained ↔
      (∀ i < p.varLb.dim, isFinite inf (p.varLb.value i) = false) ∧ (∀ i < p.varUb.dim, isFinite inf (p.varUb.value i) = false) ∧
      (∀ i < p.consLb.dim, isFinite inf (p.consLb.value i) = false) ∧ ∀ i < p.consUb.dim, isFinite inf (p.consUb.value i) = false) ∧
    (a.cauchy = .unconstrained ↔ a.system = .unconstrained) ∧ (a.cauchy = .box ↔ a.system = .box) ∧
    (a.cauchy = .lp ↔ a.cauchy ≠ .unconstrained ∧ p.numGen + p.numLin ≠ 0) := by
  rw [← C42_unconstrained hinf h1 h2 h3 h4]
  unfold chooseAll at h
  obtain ⟨y', k1, h⟩ := Option.bind_eq_some_iff.mp h
  obtain ⟨q, k2, rfl⟩ := Option.map_eq_some_iff.mp h
  have key : ∀ P : ProblemKind, chooseSystem b s P = some y' →
      (chooseCauchy P = .unconstrained ↔ P.unconstrained = true) ∧ (chooseCauchy P = .unconstrained ↔ y' = .unconstrained) ∧
      (chooseCauchy P = .box ↔ y' = .box) ∧ (chooseCauchy P = .lp ↔ chooseCauchy P ≠ .unconstrained ∧ P.numCons ≠ 0) := by
    rintro ⟨u, n, t, f⟩ k
    obtain ⟨y, e, d⟩ := s
    obtain ⟨psd, qr⟩ := b
    unfold chooseSystem at k
    unfold chooseCauchy
    by_cases hn : n = 0 <;> cases u <;> cases y <;> cases psd <;> cases qr <;> simp [hn] at k ⊢ <;> subst k <;> simp
  exact key _ k1

/-- C97. The problem of the restoration phase, whose solver is created when the phase is entered for the first time, is never refused, whatever the settings; it needs
no linear programs, and its bounds are ignored if and only if those of the original problem are. -/
theorem C97_restoration {inf : K} (hinf : 0 < inf) {p : Prob K} (h1 : p.varLb.WF) (h2 : p.varUb.WF) (h3 : p.consLb.WF) (h4 : p.consUb.WF)
    (t : FuncKind) (f : FuncFlags) (b : FactKind) (s : MethodSettings) :
    ∃ P a, restKind inf p.varLb p.varUb p.consLb p.consUb = some P ∧ chooseAll b s P = some a ∧ (P.unconstrained = (p.kind inf t f).unconstrained) ∧
      a.cauchy ≠ .lp := by
  obtain ⟨l, l1, l2, l3, l4, l5⟩ := C03_concat p.varLb p.consLb (Vec.create (p.varLb.dim + p.consLb.dim) 0) h1 h3
  obtain ⟨u, u1, u2, u3, u4, u5⟩ := C03_concat p.varUb p.consUb (Vec.create (p.varUb.dim + p.consUb.dim) 0) h2 h4
  have hk : ∀ (c v : Vec K) {w : Vec K}, v.WF → c.WF → w.WF → w.dim = v.dim + c.dim → (∀ i < v.dim, w.value i = v.value i) → (∀ i, w.value (v.dim + i) = c.value i) →
      vecHasFinite inf w = (vecHasFinite inf v || vecHasFinite inf c) := by
    intro c v w hv hc hw e1 e2 e3
    rw [Bool.eq_iff_iff, ← not_iff_not, Bool.not_eq_true, Bool.not_eq_true, Bool.or_eq_false_iff, vecHasFinite_iff hinf hw, vecHasFinite_iff hinf hv, vecHasFinite_iff hinf hc]
    constructor
    · intro h
      refine ⟨fun i hi => ?_, fun i hi => ?_⟩
      · rw [← e2 i hi]; exact h i (by omega)
      · rw [← e3 i]; exact h _ (by omega)
    · rintro ⟨h, h'⟩ i hi
      by_cases hlt : i < v.dim
      · rw [e2 i hlt]; exact h i hlt
      · have := e3 (i - v.dim)
        rw [Nat.add_sub_cancel' (by omega)] at this
        rw [this]; exact h' _ (by omega)
  obtain ⟨P, hP⟩ : ∃ P : ProblemKind, P = ⟨!(vecHasFinite inf l || vecHasFinite inf u), 0, .lsq, (createdFlags .lsq).add FuncFlags.INTERNAL⟩ := ⟨_, rfl⟩
  obtain ⟨a, ha⟩ := Option.ne_none_iff_exists'.mp (show chooseAll b s P ≠ none by
    rw [Ne, C97_refused_iff, hP]
    simp)
  refine ⟨P, a, by unfold restKind restBound; rw [l1, u1, hP]; rfl, ha, ?_, ?_⟩
  · rw [hP]
    show (!(vecHasFinite inf l || vecHasFinite inf u)) = _
    rw [hk _ _ h1 h3 l2 l3 l4 l5, hk _ _ h2 h4 u2 u3 u4 u5]
    unfold Prob.kind Prob.isUnconstrained
    dsimp only
    cases vecHasFinite inf p.varLb <;> cases vecHasFinite inf p.varUb <;> cases vecHasFinite inf p.consLb <;> cases vecHasFinite inf p.consUb <;> rfl
  · have hs := (C97_suit ha).1.cauchy
    unfold chooseAll at ha
    obtain ⟨y', k1, ha⟩ := Option.bind_eq_some_iff.mp ha
    obtain ⟨q, k2, rfl⟩ := Option.map_eq_some_iff.mp ha
    rw [hP]
    unfold chooseCauchy
    dsimp only
    split_ifs <;> simp_all

/-- A least-squares problem whose Hessians are approximated by a quasi-Newton method is refused if LSQR is asked for ("LSQR solver is only available for LSQ
problems"): the function put in front of the user's one for the approximation is not a least-squares one. All other settings, and the problem, do not
matter. (Without the approximation it is never refused for this reason.) -/
theorem C97_lsqr_violated (S : SolverSetup K) (hk : S.kind = .lsq) (b : FactKind) (s : MethodSettings) (hs : s.tr = .lsqr) (u : Bool) (m : Nat) (f : FuncFlags) :
    (S.quasiNewton = true → chooseAll b s ⟨u, m, S.solverKind, f⟩ = none) ∧
    (S.quasiNewton = false → chooseEqp s ⟨u, m, S.solverKind, f⟩ = some .gaussNewton) := by
  obtain ⟨n, m', k, sc, qn, fx⟩ := S
  dsimp only at hk
  subst hk
  constructor
  · intro h
    dsimp only at h
    subst h
    rw [C97_refused_iff]
    refine Or.inr ⟨hs, ?_⟩
    unfold SolverSetup.solverKind SolverSetup.wrappedKind
    rcases fx with - | (- | -) <;> simp
  · intro h
    dsimp only at h
    subst h
    unfold chooseEqp
    rw [if_pos hs, if_neg]
    unfold SolverSetup.solverKind SolverSetup.wrappedKind SolverSetup.scaledKind
    rcases fx with - | (- | -) <;> cases sc <;> simp

/-- a problem with constraints, a factorization for positive definite matrices, default settings -/
example : chooseAll ⟨true, false⟩ .default ⟨false, 3, .regular, .none⟩ = some ⟨.lp, .reduced, .lsq, .trlib⟩ := by decide

example : chooseAll ⟨true, false⟩ ⟨.standard, .auto, .lsq⟩ ⟨false, 3, .regular, .none⟩ = none := by decide

/-- one variable with `0 ≤ x`, one constraint without bounds -/
example : restKind (100 : ℚ) ⟨1, 0, []⟩ ⟨1, 1, [(0, 100)]⟩ ⟨1, 1, [(0, -100)]⟩ ⟨1, 1, [(0, 100)]⟩ = some ⟨false, 0, .lsq, ⟨true, true, true, true⟩⟩ := by decide +kernel

end Sleqp
