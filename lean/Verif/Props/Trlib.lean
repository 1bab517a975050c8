import Verif.Lemmas.Trlib
import Verif.Props.Lsqr

/-!
C91: trlib is served as documented by the library, so that the step returned solves the
trust-region subproblem if trlib does.
-/

namespace Sleqp
variable {K : Type*} [Field K] [LinearOrder K] [IsStrictOrderedRing K] {n : Nat}
open Matrix

/-- what the solver returns, given how the documented run of the library ends -/
def TrlibResult.Is (r : TrlibResult K) (q : TrProblem n K) : TrlibEnd (TrlibSt n K) K → Prop
  | .ended ret dual x =>
    if ret = .failed then r = .failed else ∃ y, r = .step y dual ∧ (y.WF ∧ y.dim = n) ∧ dense n y = q.P *ᵥ x.s
  | .timeout => r = .timeout
  | .endless => r = .endless
  | .invalid => False

/-- **C91** for every library which asks for actions in order, the solver returns what the documented run of the library
gives, projected onto the null space; errors are passed on.  Missing: libraries which ask for the objective, see
`C91_violated`. -/
theorem C91_served_partial {L : Type*} {lib : TrlibLib L K} {q : TrProblem n K} {e : TrEnv K} {grad newton : Vec K} (he : TrlibFor q e grad)
    (hl : lib.Orderly q e.sqrt) (ho : lib.NoObjective q e.sqrt) {m : TrlibMem K} (hm : m.Ready n) (fuel : Nat) :
    ∃ r, trlibSolve lib e n grad newton m fuel = some r ∧
      r.Is q (lib.run q e.sqrt e.timeUp fuel 0 lib.start (TrlibSt.zero n K)) := by
  obtain ⟨r, h1, h2⟩ := trlibStart_spec he hl ho fuel hm
  unfold trlibSolve
  rw [h1, Option.bind_some]
  generalize lib.run q e.sqrt e.timeUp fuel 0 lib.start (TrlibSt.zero n K) = z at h2
  cases r with
  | ended ret dual m' =>
    cases z with
    | ended ret' dual' x =>
      obtain ⟨e1, e2, e3⟩ := h2
      subst e1; subst e2
      obtain ⟨y, y1, y2, y3⟩ := he.proj m'.s newton.clear e3.s
      simp only [y1, Option.map_some]
      refine ⟨_, rfl, ?_⟩
      unfold TrlibResult.Is
      simp only []
      split
      · rfl
      · exact ⟨y, rfl, y2, by rw [y3, e3.ds]⟩
    | timeout => exact h2.elim
    | invalid => exact h2.elim
    | endless => exact h2.elim
  | timeout =>
    cases z with
    | timeout => exact ⟨_, rfl, rfl⟩
    | ended _ _ _ => exact h2.elim
    | invalid => exact h2.elim
    | endless => exact h2.elim
  | invalid => cases z <;> exact h2.elim
  | endless =>
    cases z with
    | endless => exact ⟨_, rfl, rfl⟩
    | ended _ _ _ => exact h2.elim
    | timeout => exact h2.elim
    | invalid => exact h2.elim

/-- **C91** every step returned lies in the null space; and it solves the subproblem if the library has reported convergence
and solves subproblems when it is served as documented.  Missing: as in `C91_served_partial`. -/
theorem C91_solution_partial {L : Type*} {lib : TrlibLib L K} {q : TrProblem n K} (hq : q.Valid) {e : TrEnv K} {grad newton : Vec K}
    (he : TrlibFor q e grad) (hl : lib.Orderly q e.sqrt) (ho : lib.NoObjective q e.sqrt) {m : TrlibMem K} (hm : m.Ready n) {fuel : Nat}
    {y : Vec K} {dual : K} (h : trlibSolve lib e n grad newton m fuel = some (.step y dual)) :
    q.P *ᵥ dense n y = dense n y ∧
    ∃ ret x, lib.run q e.sqrt e.timeUp fuel 0 lib.start (TrlibSt.zero n K) = .ended ret dual x ∧
      ∀ radius, lib.Solves q e.sqrt radius → ret = .converged → q.IsSolution radius (dense n y) := by
  obtain ⟨r, h1, h2⟩ := C91_served_partial (newton := newton) he hl ho hm fuel
  rw [h] at h1
  cases h1
  generalize hz : lib.run q e.sqrt e.timeUp fuel 0 lib.start (TrlibSt.zero n K) = z at h2
  cases z with
  | ended ret dual' x =>
    unfold TrlibResult.Is at h2
    simp only [] at h2
    split at h2
    · cases h2
    · obtain ⟨y', a1, a2, a3⟩ := h2
      cases a1
      refine ⟨by rw [a3, proj_proj hq], ret, x, rfl, fun radius hs hr => ?_⟩
      subst hr
      have := hs e.timeUp fuel dual x hz
      rw [a3, this.1]
      exact this
  | timeout => cases h2
  | invalid => exact h2.elim
  | endless => cases h2

/-- **C91** a solver is ready after its creation -/
theorem C91_created (n : Nat) (maxIter : Int) (row : Nat → Nat) (val : Nat → K) : (trlibCreate n maxIter row val).Ready n := by
  refine ⟨fun v hv => ?_, rfl, ⟨rfl, fun _ _ => le_rfl, rfl, le_rfl, fun j _ => ?_, fun j _ e he => ?_⟩⟩
  · simp only [trlibCreate, List.mem_cons, List.not_mem_nil, or_false, or_self] at hv
    rw [hv]; rfl
  · simp [Mat.col, trlibCreate, Mat.create, Srt]
  · simp [Mat.col, trlibCreate, Mat.create] at he

/-- **C91** and it is ready again whenever the library has come to an end -/
theorem C91_reusable_partial {L : Type*} {lib : TrlibLib L K} {q : TrProblem n K} {e : TrEnv K} {grad : Vec K} (he : TrlibFor q e grad)
    (hl : lib.Orderly q e.sqrt) (ho : lib.NoObjective q e.sqrt) {m : TrlibMem K} (hm : m.Ready n) {fuel : Nat} {ret : TrlibRet} {dual : K}
    {m' : TrlibMem K} (h : trlibLoop lib e n grad fuel 0 lib.start
      { m with Q := m.Q.clear, p := m.p.clear, Hp := m.Hp.clear, gg := 0, vg := 0, pHp := 0 } = some (.ended ret dual m')) : m'.Ready n := by
  obtain ⟨r, h1, h2⟩ := trlibStart_spec he hl ho fuel hm
  rw [h] at h1
  cases h1
  generalize lib.run q e.sqrt e.timeUp fuel 0 lib.start (TrlibSt.zero n K) = z at h2
  cases z with
  | ended ret' dual' x => exact h2.2.2.ready
  | timeout => exact h2.elim
  | invalid => exact h2.elim
  | endless => exact h2.elim

/-! ### Witnesses -/

/-- minimize `x + x²/2` -/
def exTrlib : TrProblem 1 ℚ := ⟨fun _ => 1, 1, 1⟩

/-- the gradient (1) -/
def exTrlibGrad : Vec ℚ := ⟨1, 1, [(0, 1)]⟩

/-- products computed densely, no time limit; all roots needed are those of one -/
def exTrlibEnv : TrEnv ℚ :=
  ⟨fun d r => r.setFromRaw 0 (List.ofFn (exTrlib.B *ᵥ dense 1 d)), fun d r => r.setFromRaw 0 (List.ofFn (exTrlib.P *ᵥ dense 1 d)), id, 0, 0, -1,
    fun _ => false, Vec.create 1 0⟩

theorem exTrlibFor : TrlibFor exTrlib exTrlibEnv exTrlibGrad :=
  ⟨⟨(C02_isValid_iff _).mp (by decide +kernel), rfl⟩, by funext i; fin_cases i; decide +kernel, fun _ r _ => setFromRaw_ofFn _ r,
    fun _ r _ => setFromRaw_ofFn _ r, rfl⟩

/-- a library which initializes, makes one step of conjugate gradients, asks for the objective or a combination of columns, and reports
the number given to it last as the multiplier -/
def exTrlibLib (obj : Bool) : TrlibLib Nat ℚ :=
  ⟨0, fun l gg _ _ =>
    (match l with
    | 0 => ⟨.goOn, .init, 0, .other, 0, 0, 0, fun _ => 0, 0⟩
    | 1 => ⟨.goOn, .updateStatio, 0, .cg, 1, 0, 0, fun _ => 0, 0⟩
    | 2 => ⟨.goOn, .updateGrad, 0, .cg, 1, 1, 0, fun _ => 0, 0⟩
    | 3 => ⟨.goOn, if obj then .objval else .retransf, 0, .other, 0, 0, 0, fun _ => -1, 0⟩
    | _ => ⟨.converged, .trivial, 0, .other, 0, 0, 0, fun _ => 0, gg⟩, l + 1)⟩

/-- the states of the example -/
def ExTrlibInv (l : Nat) (x : TrlibSt 1 ℚ) : Prop :=
  x.cols = 1 ∧ 1 ≤ l ∧ l ≤ 4 ∧ (l = 1 → x.s = 0 ∧ x.p = fun _ => -1) ∧ (l ≤ 2 → x.v = fun _ => 1) ∧ (2 ≤ l → x.s = fun _ => -1) ∧
    (l = 3 → x.Q 0 = fun _ => 1)

theorem exTrlib_serving (obj : Bool) {l : Nat} {x : TrlibSt 1 ℚ} (h : (exTrlibLib obj).Serving exTrlib id l x) : ExTrlibInv l x := by
  have hPg : exTrlib.P *ᵥ exTrlib.g = fun _ => 1 := by
    show (1 : Matrix (Fin 1) (Fin 1) ℚ) *ᵥ _ = _; rw [Matrix.one_mulVec]; rfl
  have hdot : (exTrlib.P *ᵥ exTrlib.g) ⬝ᵥ exTrlib.g = 1 := by rw [hPg]; decide +kernel
  induction h with
  | first x hg =>
    show ExTrlibInv 1 _
    refine ⟨?_, le_rfl, by decide, fun _ => ⟨rfl, ?_⟩, fun _ => ?_, fun h => absurd h (by decide), fun h => absurd h (by decide)⟩
    · show (if 0 < id ((exTrlib.P *ᵥ exTrlib.g) ⬝ᵥ exTrlib.g) then 1 else 0) = 1
      rw [hdot]; rfl
    · show -(exTrlib.P *ᵥ exTrlib.g) = _
      rw [hPg]; rfl
    · exact hPg
  | @next l x hs hg ih =>
    obtain ⟨i1, i2, i3, i4, i5, i6, i7⟩ := ih
    have hl : l = 1 ∨ l = 2 ∨ l = 3 ∨ l = 4 := by omega
    rcases hl with rfl | rfl | rfl | rfl
    · show ExTrlibInv 2 _
      refine ⟨i1, by decide, by decide, fun h => absurd h (by decide), fun _ => i5 (by decide), fun _ => ?_, fun h => absurd h (by decide)⟩
      show x.s + (1 : ℚ) • x.p = _
      rw [(i4 rfl).1, (i4 rfl).2, zero_add, one_smul]
    · show ExTrlibInv 3 _
      refine ⟨rfl, by decide, by decide, fun h => absurd h (by decide), fun h => absurd h (by decide), fun _ => i6 (by decide), fun _ => ?_⟩
      show Function.update x.Q 0 ((1 : ℚ) • x.v) 0 = _
      rw [Function.update_self, one_smul, i5 (by decide)]
    · cases obj
      · show ExTrlibInv 4 _
        refine ⟨i1, by decide, by decide, fun h => absurd h (by decide), fun h => absurd h (by decide), fun _ => ?_, fun h => absurd h (by decide)⟩
        show (fun i => ∑ j ∈ Finset.range (0 + 1), (-1 : ℚ) * x.Q j i) = _
        funext i
        rw [Finset.sum_range_one, i7 rfl, mul_one]
      · show ExTrlibInv 4 _
        exact ⟨i1, by decide, by decide, fun h => absurd h (by decide), fun h => absurd h (by decide), fun _ => i6 (by decide),
          fun h => absurd h (by decide)⟩
    · cases hg

theorem exTrlib_orderly (obj : Bool) : (exTrlibLib obj).Orderly exTrlib id := by
  refine ⟨rfl, fun l x hs => ?_⟩
  obtain ⟨i1, i2, i3, _⟩ := exTrlib_serving obj hs
  have hl : l = 1 ∨ l = 2 ∨ l = 3 ∨ l = 4 := by omega
  rcases hl with rfl | rfl | rfl | rfl
  · trivial
  · exact fun _ => Or.inr i1.symm
  · cases obj
    · show 0 < x.cols
      omega
    · trivial
  · trivial

theorem exTrlib_noObjective : (exTrlibLib false).NoObjective exTrlib id := by
  intro l x hs
  obtain ⟨i1, i2, i3, _⟩ := exTrlib_serving false hs
  have hl : l = 1 ∨ l = 2 ∨ l = 3 ∨ l = 4 := by omega
  rcases hl with rfl | rfl | rfl | rfl <;> intro h <;> cases h

/-- a run which comes to an end does so from a state which comes up -/
theorem TrlibLib.run_ended {L : Type*} {lib : TrlibLib L K} {q : TrProblem n K} {sqrt : K → K} {timeUp : Nat → Bool} :
    ∀ (fuel it : Nat) {l : L} {x : TrlibSt n K} {ret : TrlibRet} {dual : K} {y : TrlibSt n K}, lib.Serving q sqrt l x →
      lib.run q sqrt timeUp fuel it l x = .ended ret dual y → ∃ l' x', lib.Serving q sqrt l' x' ∧
        y = q.serve sqrt (lib.step l' x'.gg x'.vg x'.pHp).1 x' ∧ (lib.step l' x'.gg x'.vg x'.pHp).1.ret = ret
  | 0, _, _, _, _, _, _, _, h => by cases h
  | fuel + 1, it, l, x, ret, dual, y, hs, h => by
    unfold TrlibLib.run at h
    simp only [] at h
    split at h
    · cases h; exact ⟨l, x, hs, rfl, rfl⟩
    · rename_i hr
      split at h
      · cases h
      · exact run_ended fuel (it + 1) (.next hs (not_not.mp hr)) h

theorem exTrlib_solves : (exTrlibLib false).Solves exTrlib id 2 := by
  intro timeUp fuel dual y h
  have hy : y.s = fun _ => -1 := by
    cases fuel with
    | zero => cases h
    | succ fuel =>
      unfold TrlibLib.run at h
      simp only [] at h
      split at h
      · rename_i hr; exact absurd rfl hr
      · split at h
        · cases h
        · obtain ⟨l, x, hs, rfl, hr⟩ := TrlibLib.run_ended fuel 1 (.first (TrlibSt.zero 1 ℚ) rfl) h
          obtain ⟨i1, i2, i3, _, _, i6, _⟩ := exTrlib_serving false hs
          have hl : l = 1 ∨ l = 2 ∨ l = 3 ∨ l = 4 := by omega
          rcases hl with rfl | rfl | rfl | rfl
          · cases hr
          · cases hr
          · cases hr
          · exact i6 (by decide)
  rw [hy]
  have hv : ∀ d : Fin 1 → ℚ, exTrlib.val d = d 0 + 1 / 2 * (d 0 * d 0) := by
    intro d
    unfold TrProblem.val
    show (fun _ => (1 : ℚ)) ⬝ᵥ d + 1 / 2 * (d ⬝ᵥ (1 : Matrix (Fin 1) (Fin 1) ℚ) *ᵥ d) = _
    rw [Matrix.one_mulVec]
    simp [dotProduct]
  refine ⟨by show (1 : Matrix (Fin 1) (Fin 1) ℚ) *ᵥ _ = _; rw [Matrix.one_mulVec], by decide +kernel, fun d _ _ => ?_⟩
  rw [hv, hv]
  nlinarith [sq_nonneg (d 0 + 1)]

/-- the step and multiplier of a result -/
def TrlibResult.read : TrlibResult ℚ → Option (ℚ × ℚ)
  | .step y d => some (y.value 0, d)
  | _ => none

/-- the multiplier of an end -/
def TrlibEnd.read {α : Type*} : TrlibEnd α ℚ → Option ℚ
  | .ended .converged d _ => some d
  | _ => none

/-- **C91** When trlib asks for the objective at the current step, the gradient of the problem is replaced by the current
gradient of the iteration (`data->g`, tr/trlib_solver.c:603-617): the library gets a wrong value, here 1/2 instead of -1/2
for the step -1 and the objective `x + x²/2`.  (The library reports the number it was given as its multiplier.) -/
theorem C91_violated : TrlibFor exTrlib exTrlibEnv exTrlibGrad ∧ (exTrlibLib true).Orderly exTrlib exTrlibEnv.sqrt ∧
    ∃ y d d' x, trlibSolve (exTrlibLib true) exTrlibEnv 1 exTrlibGrad (Vec.create 1 0) (trlibCreate 1 (-1) (fun _ => 0) fun _ => 0) 5 =
        some (.step y d) ∧
      (exTrlibLib true).run exTrlib exTrlibEnv.sqrt exTrlibEnv.timeUp 5 0 (exTrlibLib true).start (TrlibSt.zero 1 ℚ) = .ended .converged d' x ∧
      d = 1 / 2 ∧ d' = -1 / 2 ∧ exTrlib.val (dense 1 y) = -1 / 2 := by
  refine ⟨exTrlibFor, exTrlib_orderly true, ?_⟩
  have h1 : (trlibSolve (exTrlibLib true) exTrlibEnv 1 exTrlibGrad (Vec.create 1 0) (trlibCreate 1 (-1) (fun _ => 0) fun _ => 0) 5).bind
      TrlibResult.read = some (-1, 1 / 2) := by decide +kernel
  have h2 : ((exTrlibLib true).run exTrlib exTrlibEnv.sqrt exTrlibEnv.timeUp 5 0 (exTrlibLib true).start (TrlibSt.zero 1 ℚ)).read =
      some (-1 / 2) := by decide +kernel
  obtain ⟨r, r1, r2⟩ := Option.bind_eq_some_iff.mp h1
  cases r with
  | step y d =>
    have := Option.some.inj r2
    generalize (exTrlibLib true).run exTrlib exTrlibEnv.sqrt exTrlibEnv.timeUp 5 0 (exTrlibLib true).start (TrlibSt.zero 1 ℚ) = z at h2
    cases z with
    | ended ret d' x =>
      cases ret with
      | converged =>
        refine ⟨y, d, d', x, r1, rfl, (Prod.mk.inj this).2, Option.some.inj h2, ?_⟩
        have hd : dense 1 y = fun _ => -1 := by
          funext i
          have : i = 0 := Subsingleton.elim _ _
          subst this
          exact (Prod.mk.inj ‹_›).1
        rw [hd]
        decide +kernel
      | goOn => cases h2
      | failed => cases h2
      | stopped => cases h2
    | timeout => cases h2
    | invalid => cases h2
    | endless => cases h2
  | timeout => cases r2
  | failed => cases r2
  | endless => cases r2

/-- the hypotheses of `C91_served_partial` and `C91_solution_partial`, and a run of the solver -/
example : exTrlib.Valid ∧ TrlibFor exTrlib exTrlibEnv exTrlibGrad ∧ (exTrlibLib false).Orderly exTrlib exTrlibEnv.sqrt ∧
    (exTrlibLib false).NoObjective exTrlib exTrlibEnv.sqrt ∧ (exTrlibLib false).Solves exTrlib exTrlibEnv.sqrt 2 ∧
    (trlibSolve (exTrlibLib false) exTrlibEnv 1 exTrlibGrad (Vec.create 1 0) (trlibCreate 1 (-1) (fun _ => 0) fun _ => 0) 5).bind
      TrlibResult.read = some (-1, 0) :=
  ⟨⟨Matrix.transpose_one, Matrix.transpose_one, one_mul _⟩, exTrlibFor, exTrlib_orderly false, exTrlib_noObjective, exTrlib_solves, by decide +kernel⟩

end Sleqp
