import Verif.Spec.SolverCreate
import Verif.Props.FixedVar
import Verif.Props.QuasiNewton

/-! Lemmas for C84. -/

namespace Sleqp
namespace SolverSetup
variable {K : Type*} [Field K] [LinearOrder K] [IsStrictOrderedRing K]

theorem length_le_of_srt {fx : List (Nat × K)} {n : Nat} (hs : Srt fx) (hr : ∀ e ∈ fx, e.1 < n) : fx.length ≤ n := by
  have h1 : (fx.map Prod.fst).Nodup := by
    have h2 : (fx.map Prod.fst).Pairwise (· < ·) := by rw [List.pairwise_map]; exact hs
    exact h2.imp fun h => Nat.ne_of_lt h
  have h3 : (fx.map Prod.fst) ⊆ List.range n := by
    intro j hj
    obtain ⟨e, he, rfl⟩ := List.mem_map.mp hj
    exact List.mem_range.mpr (hr e he)
  have h4 := (List.subperm_of_subset h1 h3).length_le
  simpa using h4

theorem oldIdx_nil (i : Nat) : oldIdx [] i = i := by
  simp [oldIdx]

theorem restoreScaled_spec {S : SolverSetup K} (hS : S.Valid) {y : Vec K} (hy : VOk S.solverVars y) :
    ∃ z, S.restoreScaled y = some z ∧ VOk S.numVars z ∧ (∀ e ∈ S.fixedVars, z.value e.1 = e.2) ∧
      ∀ i, z.value (oldIdx (S.fixedVars.map Prod.fst) i) = y.value i := by
  obtain ⟨_, h2, h3⟩ := hS
  unfold restoreScaled fixedVars at *
  unfold solverVars at hy
  cases hf : S.fixed with
  | none =>
    rw [hf] at hy
    obtain ⟨r, r1, r2, r3⟩ := copy_spec hy (t := Vec.create S.numVars 0) rfl
    refine ⟨r, r1, r2, by simp, fun i => ?_⟩
    simp only [Option.getD_none, List.map_nil, oldIdx_nil]
    unfold Vec.value; rw [r3]
  | some fx =>
    rw [hf] at hy h2 h3
    simp only [Option.getD_some] at h2 h3 hy ⊢
    have hl := length_le_of_srt h2 h3
    obtain ⟨x, k1, k2, k3, k4, k5⟩ := C07_merge y (Vec.create S.numVars 0) fx hy.1 h2 h3
      (by rw [hy.2]; simp only [Vec.create]; omega)
    refine ⟨x, k1, ⟨k2, k3⟩, fun e he => ?_, fun i => valAt_congr (k5 i)⟩
    unfold Vec.value valAt
    rw [k4 e he]; rfl

theorem funcPoint_spec {S : SolverSetup K} {s : Scaling} (hs : s.For S.numVars S.numCons) {z : Vec K}
    (hz : VOk S.numVars z) :
    ∃ x, s.funcPoint (Vec.create S.numVars 0) z = some x ∧ x.value = fun j => z.value j * 2 ^ s.beta j := by
  obtain ⟨x, h1, _, h3⟩ := C33_point hs (cache := Vec.create S.numVars 0) rfl hz
  exact ⟨x, h1, funext h3⟩

theorem unscalePoint_spec {n m : Nat} {s : Scaling} (hs : s.For n m) {z : Vec K} (hz : VOk n z) :
    ∃ x, s.unscalePoint z = some x ∧ VOk n x ∧ x.value = fun j => z.value j * 2 ^ s.beta j := by
  refine ⟨z.scaledBy fun j => s.beta j + 0, ?_, scaledBy_ok hz _, funext fun j => ?_⟩
  · unfold Scaling.unscalePoint
    rw [unscaleVars_eq hs hz]
  · rw [scaledBy_value, add_zero]

theorem scalePoint_spec {n m : Nat} {s : Scaling} (hs : s.For n m) {z : Vec K} (hz : VOk n z) :
    ∃ x, s.scalePoint z = some x ∧ VOk n x ∧ x.value = fun j => z.value j * 2 ^ (-s.beta j) := by
  refine ⟨_, by unfold Scaling.scalePoint; rw [scaleVars_eq hs hz], scaledBy_ok hz _, funext fun j => ?_⟩
  rw [scaledBy_value]
  congr 2
  ring

theorem scaledObj_spec {S : SolverSetup K} (hS : S.Valid) (f : (Nat → K) → K) {z : Vec K} (hz : VOk S.numVars z) :
    S.scaledObj f z = some (f (fun j => z.value j * S.factor j) * 2 ^ (-S.objExp (S.kind = .lsq))) := by
  have h1 := hS.scaling
  unfold scaledObj factor objExp
  cases hs : S.scaling with
  | none => simp
  | some s =>
    obtain ⟨x, x1, x2⟩ := funcPoint_spec (h1 s hs) hz
    simp only [x1, x2, Option.map_some]
    unfold Scaling.scaleLsqObjVal Scaling.scaleObjVal ldexp
    by_cases hk : S.kind = .lsq
    · simp only [hk, if_true, decide_true]
      congr 3; ring
    · simp only [hk, if_false, decide_false]
      congr 3; simp

theorem restore_spec {S : SolverSetup K} (hS : S.Valid) (f : (Nat → K) → K) {y : Vec K} (hy : VOk S.solverVars y) :
    ∃ x z, S.restoreScaled y = some z ∧ VOk S.numVars x ∧ VOk S.numVars z ∧ (∀ j, x.value j = z.value j * S.factor j) ∧
      S.restore f y = some (x, f x.value * 2 ^ (S.objExp (S.solverKind = .lsq) - S.objExp (S.kind = .lsq))) := by
  obtain ⟨z, z1, z2, _⟩ := restoreScaled_spec hS hy
  have hv := scaledObj_spec hS f z2
  have h1 := hS.scaling
  unfold restore
  rw [z1]
  simp only [Option.bind_some]
  rw [hv]
  simp only [Option.bind_some]
  unfold factor objExp
  cases hs : S.scaling with
  | none => exact ⟨z, z, rfl, z2, z2, by simp, by simp⟩
  | some s =>
    obtain ⟨x, x1, x2, x3⟩ := unscalePoint_spec (h1 s hs) z2
    refine ⟨x, z, rfl, x2, z2, fun j => by rw [x3], ?_⟩
    simp only [x1, x3, Option.map_some, Option.some.injEq, Prod.mk.injEq, true_and]
    unfold Scaling.unscaleLsqObjVal Scaling.unscaleObjVal ldexp
    generalize (if decide (S.kind = FuncKind.lsq) = true then 2 * s.objW else s.objW) = k
    by_cases hk : S.solverKind = .lsq
    · simp only [hk, if_true, decide_true]
      rw [mul_assoc, ← zpow_add₀ two_ne_zero]; congr 2; ring
    · simp only [hk, if_false, decide_false, Bool.false_eq_true]
      rw [mul_assoc, ← zpow_add₀ two_ne_zero]; congr 2; ring

end SolverSetup
end Sleqp
