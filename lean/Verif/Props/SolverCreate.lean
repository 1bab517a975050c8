import Verif.Lemmas.SolverCreate

/-! C84: the layers between the user's problem and the problem that is solved. -/

namespace Sleqp
namespace SolverSetup
variable {K : Type*} [Field K] [LinearOrder K] [IsStrictOrderedRing K]

/-- C84: a starting point whose fixed variables have the fixed values is recovered exactly by
converting it for the solver and restoring it, for every combination of scaling,
quasi-Newton method and preprocessing. -/
theorem C84_primal {S : SolverSetup K} (hS : S.Valid) (f : (Nat → K) → K) {x : Vec K} (hx : VOk S.numVars x)
    (hf : ∀ e ∈ S.fixedVars, x.value e.1 = e.2 * S.factor e.1) :
    ∃ y x' v, S.convertPrimal x = some y ∧ VOk S.solverVars y ∧ S.restore f y = some (x', v) ∧ VOk S.numVars x' ∧
      ∀ j, x'.value j = x.value j := by
  obtain ⟨sp, a1, a2, a3⟩ := copy_spec hx (t := Vec.create S.numVars 0) rfl
  have hfac : ∀ j, S.factor (K := K) j ≠ 0 := by
    intro j
    unfold factor
    cases S.scaling with
    | none => exact one_ne_zero
    | some s => exact (zpow_pos (by norm_num) _).ne'
  have hsc : ∃ sp', S.scaleStep sp = some sp' ∧ VOk S.numVars sp' ∧ ∀ j, sp'.value j * S.factor j = x.value j := by
    have e : ∀ j, sp.value j = x.value j := fun j => by unfold Vec.value; rw [a3]
    have h1 := hS.scaling
    unfold factor scaleStep
    cases hs : S.scaling with
    | none => exact ⟨sp, rfl, a2, fun j => by simp [e]⟩
    | some s =>
      obtain ⟨w, w1, w2, w3⟩ := scalePoint_spec (h1 s hs) a2
      refine ⟨w, w1, w2, fun j => ?_⟩
      rw [w3]
      simp only [mul_assoc]
      rw [← zpow_add₀ two_ne_zero, neg_add_cancel, zpow_zero, mul_one, e]
  obtain ⟨sp', b1, b2, b3⟩ := hsc
  have hconv : ∃ y, S.convertPrimal x = some y ∧ VOk S.solverVars y ∧
      ∃ z, S.restoreScaled y = some z ∧ ∀ j, z.value j = sp'.value j := by
    unfold convertPrimal restoreScaled
    rw [a1]
    simp only [Option.bind_some]
    rw [b1]
    simp only [Option.bind_some]
    cases hfx : S.fixed with
    | none =>
      have hn : S.solverVars = S.numVars := by unfold solverVars; rw [hfx]
      rw [hn]
      obtain ⟨y, y1, y2, y3⟩ := copy_spec b2 (t := Vec.create S.numVars 0) rfl
      obtain ⟨z, z1, z2, z3⟩ := copy_spec y2 (t := Vec.create S.numVars 0) rfl
      exact ⟨y, y1, y2, z, z1, fun j => by unfold Vec.value; rw [z3, y3]⟩
    | some fx =>
      have hn : S.solverVars = S.numVars - fx.length := by unfold solverVars; rw [hfx]
      have hv : S.fixedVars = fx := by unfold fixedVars; rw [hfx]; rfl
      have h2 := hS.sorted
      have h3 := hS.range
      rw [hv] at h2 h3 hf
      have hl := length_le_of_srt h2 h3
      rw [hn]
      have hval : ∀ e ∈ fx, sp'.value e.1 = e.2 := by
        intro e he
        have h4 := (b3 e.1).trans (hf e he)
        exact mul_right_cancel₀ (hfac _) h4
      obtain ⟨r, r', k1, k2, k3, k4, k5⟩ := C07_merge_remove sp' (Vec.create (S.numVars - fx.length) 0)
        (Vec.create S.numVars 0) fx b2.1 h2 (by rw [b2.2]; exact h3) hval (by rw [b2.2]; simp only [Vec.create]; omega)
        (by rw [b2.2]; rfl)
      have hrd : VOk (S.numVars - fx.length) r := by
        obtain ⟨q, q1, q2, q3, _⟩ := C07_remove sp' (Vec.create (S.numVars - fx.length) 0) (fx.map Prod.fst) b2.1
          (by rw [List.pairwise_map]; exact h2)
          (by
            intro j hj
            obtain ⟨e, he, rfl⟩ := List.mem_map.mp hj
            rw [b2.2]; exact h3 e he)
          (by rw [b2.2, List.length_map]; simp only [Vec.create]; omega)
        rw [q1] at k1
        cases k1
        exact ⟨q2, q3⟩
      exact ⟨r, k1, hrd, r', k2, k5⟩
  obtain ⟨y, y1, y2, z, z1, z2⟩ := hconv
  obtain ⟨x', z', c1, c2, _, c4, c5⟩ := restore_spec hS f y2
  rw [z1] at c1
  cases c1
  exact ⟨y, x', _, y1, y2, c5, c2, fun j => by rw [c4, z2, b3]⟩

/-- The part of C84 about the returned objective which holds: whatever point the solver ends
with, the point returned to the user has the fixed values and the unscaled values of the
remaining variables, and the returned objective value is that of the user's objective
there, and it is the objective the solver worked with up to a power of two depending on
the scaling only. Excluded are quasi-Newton methods on least-squares functions with a
weight on the objective. -/
theorem C84_solution_partial {S : SolverSetup K} (hS : S.Valid) (f : (Nat → K) → K) {y : Vec K} (hy : VOk S.solverVars y)
    (hk : S.kind = .lsq → S.quasiNewton = true → ∀ s, S.scaling = some s → s.objW = 0) :
    ∃ x v, S.restore f y = some (x, v) ∧ VOk S.numVars x ∧ v = f x.value ∧
      (∀ e ∈ S.fixedVars, x.value e.1 = e.2 * S.factor e.1) ∧
      (∀ i, x.value (oldIdx (S.fixedVars.map Prod.fst) i) =
        y.value i * S.factor (oldIdx (S.fixedVars.map Prod.fst) i)) ∧
      S.solverObj f y = some (v * 2 ^ (-S.objExp (S.kind = .lsq))) := by
  obtain ⟨x, z, c1, c2, c3, c4, c5⟩ := restore_spec hS f hy
  obtain ⟨z', d1, d2, d3, d4⟩ := restoreScaled_spec hS hy
  rw [c1] at d1
  cases d1
  have he : S.objExp (S.solverKind = .lsq) - S.objExp (S.kind = .lsq) = 0 := by
    unfold objExp
    cases hs : S.scaling with
    | none => simp
    | some s =>
      have hsk : S.scaledKind = S.kind := by
        unfold scaledKind; rw [hs]; cases S.kind <;> rfl
      have hsv : S.solverKind = S.wrappedKind := by
        unfold solverKind
        cases S.fixed with
        | none => rfl
        | some l => cases l with
          | nil => rfl
          | cons _ _ => cases S.wrappedKind <;> rfl
      rw [hsv]
      unfold wrappedKind
      rw [hsk]
      cases hq : S.quasiNewton with
      | false => simp
      | true =>
        by_cases hl : S.kind = .lsq
        · simp [hl, hk hl hq s hs]
        · simp [hl]
  refine ⟨x, f x.value, ?_, c2, rfl, fun e he => ?_, fun i => ?_, ?_⟩
  · rw [c5, he, zpow_zero, mul_one]
  · rw [c4, d3 e he]
  · rw [c4, d4]
  · unfold solverObj
    rw [c1, Option.bind_some, scaledObj_spec hS f c3]
    congr 3
    exact funext fun j => (c4 j).symm

/-- C84 is violated for least-squares functions: with a scaling and a quasi-Newton method, the
returned objective value is `2^(-w)` times the user's objective at the returned point, where
`w` is the objective weight of the scaling, for every problem and every point. -/
theorem C84_objective_violated {S : SolverSetup K} (hS : S.Valid) (f : (Nat → K) → K) {y : Vec K} (hy : VOk S.solverVars y)
    {s : Scaling} (hs : S.scaling = some s) (hk : S.kind = .lsq) (hq : S.quasiNewton = true) :
    ∃ x v, S.restore f y = some (x, v) ∧ v = f x.value * 2 ^ (-s.objW) ∧ (s.objW ≠ 0 → f x.value ≠ 0 → v ≠ f x.value) := by
  obtain ⟨x, z, c1, c2, c3, c4, c5⟩ := restore_spec hS f hy
  have hsv : S.solverKind = .regular := by
    unfold solverKind wrappedKind
    rw [hq]
    cases S.fixed with
    | none => rfl
    | some l => cases l <;> rfl
  have he : S.objExp (S.solverKind = .lsq) - S.objExp (S.kind = .lsq) = -s.objW := by
    unfold objExp
    rw [hs, hsv, hk]
    simp; ring
  refine ⟨x, _, c5, by rw [he], fun hw hf hv => ?_⟩
  rw [he] at hv
  have h1 : (2 : K) ^ (-s.objW) = 1 := mul_left_cancel₀ hf (by rw [hv, mul_one])
  rw [zpow_eq_one_iff_right₀ (by norm_num) (by norm_num)] at h1
  omega

/-- C84: the type of the user's function is known to the components of the solver unless a
quasi-Newton method is used on a least-squares or dynamic function. -/
theorem C84_kind (S : SolverSetup K) : S.solverKind = S.kind ↔ S.quasiNewton = false ∨ S.kind = .regular := by
  have hsk : S.scaledKind = S.kind := by
    unfold scaledKind
    cases S.scaling with
    | none => rfl
    | some s => cases S.kind <;> rfl
  have hsv : S.solverKind = S.wrappedKind := by
    unfold solverKind
    cases S.fixed with
    | none => rfl
    | some l => cases l with
      | nil => rfl
      | cons _ _ => cases S.wrappedKind <;> rfl
  rw [hsv]
  unfold wrappedKind
  rw [hsk]
  cases S.quasiNewton <;> cases S.kind <;> simp

/-- The part of C84 about quasi-Newton methods which holds: without fixed variables the
differences computed from two iterates are those of the points and of the gradients of
the Lagrangean, whatever constraints preprocessing removed. -/
theorem C84_quasi_newton_partial {S : SolverSetup K} (hS : S.fixedVars = []) (m : Nat) (x0 g0 x1 g1 mult : Vec K)
    (j0 j1 : Mat K) (hx0 : VOk S.solverVars x0) (hx1 : VOk S.solverVars x1) (hg0 : VOk S.solverVars g0)
    (hg1 : VOk S.solverVars g1) (hj0 : j0.WF) (hj1 : j1.WF) (d0 : j0.numRows = m ∧ j0.numCols = S.solverVars)
    (d1 : j1.numRows = m ∧ j1.numCols = S.solverVars) (hm : VOk m mult) :
    ∃ s y, S.pushDiffs 0 x0 g0 j0 x1 g1 j1 mult = some (s, y) ∧ VOk S.solverVars s ∧ VOk S.solverVars y ∧
      (∀ k < S.solverVars, s.value k = x1.value k - x0.value k) ∧
      ∀ k < S.solverVars, y.value k = (g1.value k + ∑ i ∈ Finset.range m, j1.value i k * mult.value i) -
        (g0.value k + ∑ i ∈ Finset.range m, j0.value i k * mult.value i) := by
  have hn : S.solverVars = S.numVars := by
    unfold solverVars fixedVars at *
    cases hf : S.fixed with
    | none => rfl
    | some l => rw [hf] at hS; simp only [Option.getD_some] at hS; rw [hS]; rfl
  unfold pushDiffs
  rw [← hn]
  exact C26_pair_partial S.solverVars m x0 g0 x1 g1 mult j0 j1 hx0 hx1 hg0 hg1 hj0 hj1 d0 d1 hm

/-- C84 is violated for quasi-Newton methods on preprocessed problems: as soon as preprocessing
fixed a variable, the first accepted step violates an assert on the dimensions, for
every pair of iterates of the problem that is solved. -/
theorem C84_quasi_newton_violated {S : SolverSetup K} (hS : S.Valid) (hf : S.fixedVars ≠ []) (eps : K)
    (x0 g0 x1 g1 mult : Vec K) (j0 j1 : Mat K) (d0 : j0.numCols = S.solverVars) :
    S.pushDiffs eps x0 g0 j0 x1 g1 j1 mult = none := by
  have hn : j0.numCols ≠ S.numVars := by
    have h1 := length_le_of_srt hS.sorted hS.range
    rw [d0]
    unfold solverVars fixedVars at *
    cases hfx : S.fixed with
    | none => rw [hfx] at hf; exact absurd rfl hf
    | some l =>
      rw [hfx] at hf h1
      simp only [Option.getD_some] at hf h1 ⊢
      have := List.length_pos_iff.mpr hf
      omega
  unfold pushDiffs lagrangeDiffs Mat.multVecTrans
  rw [if_neg fun h => hn h.2]
  rfl

section Dynamic
variable {P V W : Type*}

/-- The part of C84 about dynamic functions which holds: without a quasi-Newton method, the
first evaluation of a dynamic function succeeds and delivers the values of the user,
for every user function which succeeds with an error in `[0, 1]`. -/
theorem C84_dynamic_partial {S : SolverSetup K} (hk : S.kind = .dynamic) (hq : S.quasiNewton = false)
    (U : Nat → DynUser K P W → DynEval K V) (cv : V) (user : DynUser K P W) (wObj : Ext K) (wCons : W) (x : P)
    (hU : ∀ c u, (U c u).ok = true ∧ ∃ e, (U c u).error = .fin e ∧ 0 ≤ e ∧ e ≤ 1) :
    ∃ s s', (Dyn.create cv user : Dyn K P V W).run U S.numCons (S.dynStart wObj wCons x) = some s ∧
      s.user.point = x ∧ s.user.objWeight = wObj ∧ s.user.bound = .fin 1 ∧ (S.numCons ≠ 0 → s.user.consWeights = wCons) ∧
      s.eval U S.numCons = some (true, s') ∧ s'.objVal = (U 0 s.user).objVal ∧ s'.consVal = (U 0 s.user).consVal := by
  have hsk : S.solverKind = .dynamic := by rw [(C84_kind S).mpr (Or.inl hq), hk]
  unfold dynStart
  rw [hsk]
  have core : ∀ u : DynUser K P W, ∀ fl : BitVec 32, (S.numCons ≠ 0 → hasFlag fl HAS_CONS_WEIGHTS = true) →
      hasFlag fl HAS_OBJ_WEIGHT = true → hasFlag fl HAS_ERROR_BOUND = true → hasFlag fl HAS_VALUES = false →
      ∃ s', ({ flags := fl, objVal := 0, consVal := cv, errorBound := .fin 1, error := extNone, user := u
               calls := 0 } : Dyn K P V W).eval U S.numCons = some (true, s') ∧
        s'.objVal = (U 0 u).objVal ∧ s'.consVal = (U 0 u).consVal := by
    intro u fl h1 h2 h3 h4
    obtain ⟨k1, e, k2, k3, k4⟩ := hU 0 u
    unfold Dyn.eval
    rw [if_neg (by rintro ⟨ha, hb⟩; rw [h1 ha] at hb; cases hb), if_neg (by rw [h2]; simp), if_neg (by rw [h3]; simp),
      if_neg (by rw [h4]; simp)]
    simp only [k1, k2, Bool.not_true, Bool.false_eq_true, if_false]
    rw [if_neg (by unfold extNone; intro h; cases h; linarith), if_neg (by simp [Ext.lt, k3]),
      if_neg (by simp [Ext.gt, Ext.lt, k4])]
    exact ⟨_, rfl, rfl, rfl⟩
  by_cases hn : S.numCons = 0
  · obtain ⟨s', h1, h2, h3⟩ := core { user with objWeight := wObj, bound := .fin 1, point := x } 5#32
      (by simp [hn]) (by decide) (by decide) (by decide)
    refine ⟨_, s', ?_, ?_, ?_, ?_, ?_, h1, h2, h3⟩
    · simp [Dyn.run, DynOp.apply, hn, Dyn.setObjWeight, Dyn.setErrorBound, Dyn.setValue, Dyn.create, Took.upd,
        HAS_OBJ_WEIGHT, HAS_ERROR_BOUND, HAS_VALUES]
    all_goals simp [hn]
  · obtain ⟨s', h1, h2, h3⟩ := core { user with objWeight := wObj, bound := .fin 1, consWeights := wCons, point := x } 7#32
      (by intro; decide) (by decide) (by decide) (by decide)
    refine ⟨_, s', ?_, ?_, ?_, ?_, ?_, h1, h2, h3⟩
    · simp [Dyn.run, DynOp.apply, hn, Dyn.setObjWeight, Dyn.setErrorBound, Dyn.setConsWeights, Dyn.setValue, Dyn.create,
        Took.upd, HAS_OBJ_WEIGHT, HAS_CONS_WEIGHTS, HAS_ERROR_BOUND, HAS_VALUES]
    all_goals simp

/-- C84 is violated for quasi-Newton methods on dynamic functions: neither objective weight nor
error bound are ever set, so the first evaluation violates an assert in a debug build,
and in a release build it fails for every user function reporting a positive error. -/
theorem C84_dynamic_violated {S : SolverSetup K} (hk : S.kind = .dynamic) (hq : S.quasiNewton = true)
    (U : Nat → DynUser K P W → DynEval K V) (cv : V) (user : DynUser K P W) (wObj : Ext K) (wCons : W) (x : P) :
    ∃ s, (Dyn.create cv user : Dyn K P V W).run U S.numCons (S.dynStart wObj wCons x) = some s ∧
      s.eval U S.numCons = none ∧
      ((U 0 s.user).ok = true → (∃ e, (U 0 s.user).error = .fin e ∧ 0 < e) → (s.evalRelease U).1 = false) := by
  have hsk : S.solverKind ≠ .dynamic := by
    intro h
    have := (C84_kind S).mp (h.trans hk.symm)
    rw [hq, hk] at this
    simp at this
  unfold dynStart
  rw [if_neg hsk]
  refine ⟨(Dyn.create cv user).setValue x .ok, rfl, ?_, ?_⟩
  · unfold Dyn.eval
    split_ifs
    all_goals first | rfl | (exfalso; revert ‹¬ hasFlag _ HAS_OBJ_WEIGHT = false›; simp [Dyn.setValue, Dyn.create]; decide)
  · rintro h1 ⟨e, h2, h3⟩
    unfold Dyn.evalRelease
    have hfl : hasFlag ((Dyn.create cv user : Dyn K P V W).setValue x .ok).flags HAS_VALUES = false := by
      simp [Dyn.setValue, Dyn.create]; decide
    rw [if_neg (by rw [hfl]; simp)]
    have hc : ((Dyn.create cv user : Dyn K P V W).setValue x .ok).calls = 0 := rfl
    have hb : ((Dyn.create cv user : Dyn K P V W).setValue x .ok).errorBound = .fin 0 := rfl
    simp only [hc, hb, h1, h2, Bool.not_true, Bool.false_eq_true, if_false]
    rw [if_neg (by unfold extNone; intro h; cases h; linarith), if_neg (by simp [Ext.lt, h3.le]),
      if_pos (by simp [Ext.gt, Ext.lt, h3])]

end Dynamic

/-- two variables, the first fixed at 3 in the scaled problem (6 in the user's), objective weight 2 -/
def exSetup (k : FuncKind) (q : Bool) : SolverSetup ℚ :=
  { numVars := 2, numCons := 1, kind := k, scaling := some ⟨2, [1, 0], [0]⟩, quasiNewton := q, fixed := some [(0, 3)] }

theorem exSetup_valid (k : FuncKind) (q : Bool) : (exSetup k q).Valid :=
  ⟨by rintro s h; cases h; exact ⟨rfl, rfl⟩, by simp [exSetup, fixedVars, Srt], by simp [exSetup, fixedVars]⟩

/-- the round trip of the point `(6, 5)` -/
example : ∃ y x' v, (exSetup .regular true).convertPrimal ⟨2, 2, [(0, 6), (1, 5)]⟩ = some y ∧
    (exSetup .regular true).restore (fun x => x 0 + x 1) y = some (x', v) ∧ x'.value 0 = 6 ∧ x'.value 1 = 5 := by
  obtain ⟨y, x', v, h1, _, h2, _, h3⟩ := C84_primal (exSetup_valid .regular true) (fun x => x 0 + x 1)
    (x := ⟨2, 2, [(0, 6), (1, 5)]⟩) ⟨⟨by simp [Srt], by simp, by simp⟩, rfl⟩
    (by intro e he; simp [exSetup, fixedVars] at he; subst he; decide +kernel)
  exact ⟨y, x', v, h1, h2, by rw [h3]; decide +kernel, by rw [h3]; decide +kernel⟩

/-- without a quasi-Newton method, the objective value returned is right -/
example : ((exSetup .lsq false).restore (fun x => x 0 * x 0 / 2) ⟨1, 1, [(0, 5)]⟩).map (fun p => (p.1.value 0, p.1.value 1, p.2)) =
    some (6, 5, 18) := by decide +kernel

/-- with one it is wrong by the factor 4 -/
example : ((exSetup .lsq true).restore (fun x => x 0 * x 0 / 2) ⟨1, 1, [(0, 5)]⟩).map (fun p => (p.1.value 0, p.1.value 1, p.2)) =
    some (6, 5, 9 / 2) := by decide +kernel

end SolverSetup
end Sleqp
