import Verif.Spec.DynLayer
import Verif.Props.Dyn
import Verif.Props.FixedVar
import Verif.Props.Scale

/-! C35, C33: layers around dynamic functions. -/

namespace Sleqp

variable {K P V W P' V' W' : Type*} [Field K] [LinearOrder K]
variable {L : DynLayer K P V W P' V' W'} {U : Nat → DynUser K P W → DynEval K V} {numCons : Nat}

/-- the data of the outer function agree with those of the inner one -/
structure Agree (L : DynLayer K P V W P' V' W') (numCons : Nat) (s : DynStack K P V W P' V' W') : Prop where
  flags : ∀ i, i < 4 → (i = 1 → numCons ≠ 0) → s.outer.flags.getLsbD i = s.inner.flags.getLsbD i
  bound : s.outer.errorBound = s.inner.errorBound
  vals : hasFlag s.inner.flags HAS_VALUES = true →
    s.outer.objVal = L.obj s.inner.objVal ∧ s.outer.consVal = L.cons s.inner.consVal ∧ s.outer.error = s.inner.error

theorem agree_create (c' : V') (u' : DynUser K P' W') (c : V) (u : DynUser K P W) : Agree L numCons (DynStack.create c' u' c u) := by
  refine ⟨fun i _ _ => rfl, rfl, fun h => ?_⟩
  simp [DynStack.create, Dyn.create, hasFlag] at h

theorem Agree.has {s : DynStack K P V W P' V' W'} (h : Agree L numCons s) :
    hasFlag s.outer.flags HAS_OBJ_WEIGHT = hasFlag s.inner.flags HAS_OBJ_WEIGHT ∧
    (numCons ≠ 0 → hasFlag s.outer.flags HAS_CONS_WEIGHTS = hasFlag s.inner.flags HAS_CONS_WEIGHTS) ∧
    hasFlag s.outer.flags HAS_ERROR_BOUND = hasFlag s.inner.flags HAS_ERROR_BOUND ∧
    hasFlag s.outer.flags HAS_VALUES = hasFlag s.inner.flags HAS_VALUES := by
  obtain ⟨a1, a2, a3, a4⟩ := flag_bits s.outer.flags
  obtain ⟨b1, b2, b3, b4⟩ := flag_bits s.inner.flags
  rw [a1, a2, a3, a4, b1, b2, b3, b4]
  exact ⟨h.flags 0 (by omega) (by omega), fun hn => h.flags 1 (by omega) (fun _ => hn), h.flags 2 (by omega) (by omega),
    h.flags 3 (by omega) (by omega)⟩

theorem or_and_bits {f g m k : BitVec 32} {i : Nat} (h : f.getLsbD i = g.getLsbD i) :
    ((f ||| m) &&& k).getLsbD i = ((g ||| m) &&& k).getLsbD i := by
  rw [BitVec.getLsbD_and, BitVec.getLsbD_and, BitVec.getLsbD_or, BitVec.getLsbD_or, h]

/-- the evaluation of the outer function is that of the inner one -/
theorem agree_eval {s : DynStack K P V W P' V' W'} (h : Agree L numCons s) (hi : DynInv U s.inner) :
    (s.eval L U numCons = none ↔ s.inner.eval U numCons = none) ∧
    ∀ b s', s.eval L U numCons = some (b, s') → s.inner.eval U numCons = some (b, s'.inner) ∧ Agree L numCons s' ∧
      (b = true → hasFlag s'.inner.flags HAS_VALUES = true) := by
  obtain ⟨f1, f2, f3, f4⟩ := h.has
  unfold DynStack.eval
  by_cases hc : numCons ≠ 0 ∧ hasFlag s.outer.flags HAS_CONS_WEIGHTS = false
  · rw [if_pos hc]
    have hc' : numCons ≠ 0 ∧ hasFlag s.inner.flags HAS_CONS_WEIGHTS = false := ⟨hc.1, by rw [← f2 hc.1]; exact hc.2⟩
    exact ⟨iff_of_true rfl (by unfold Dyn.eval; rw [if_pos hc']), fun b s' he => by cases he⟩
  rw [if_neg hc]
  have hc' : ¬ (numCons ≠ 0 ∧ hasFlag s.inner.flags HAS_CONS_WEIGHTS = false) := fun x => hc ⟨x.1, by rw [f2 x.1]; exact x.2⟩
  by_cases ho : hasFlag s.outer.flags HAS_OBJ_WEIGHT = false
  · rw [if_pos ho]
    exact ⟨iff_of_true rfl (by unfold Dyn.eval; rw [if_neg hc', if_pos (by rw [← f1]; exact ho)]), fun b s' he => by cases he⟩
  rw [if_neg ho]
  by_cases hb : hasFlag s.outer.flags HAS_ERROR_BOUND = false
  · rw [if_pos hb]
    exact ⟨iff_of_true rfl (by unfold Dyn.eval; rw [if_neg hc', if_neg (by rw [← f1]; exact ho), if_pos (by rw [← f3]; exact hb)]),
      fun b s' he => by cases he⟩
  rw [if_neg hb]
  by_cases hv : hasFlag s.outer.flags HAS_VALUES = true
  · have hv' : hasFlag s.inner.flags HAS_VALUES = true := by rw [← f4]; exact hv
    obtain ⟨v1, v2, v3⟩ := h.vals hv'
    have he : s.inner.error ≠ extNone := (hi hv').1
    rw [if_pos hv, if_neg (by rw [v3]; exact he)]
    have hd : s.inner.eval U numCons = some (true, s.inner) := by
      unfold Dyn.eval
      rw [if_neg hc', if_neg (by rw [← f1]; exact ho), if_neg (by rw [← f3]; exact hb), if_pos hv', if_neg he]
    rw [hd]
    refine ⟨iff_of_false (by simp) (by simp), fun b s' he' => ?_⟩
    injection he' with he'
    injection he' with e1 e2
    subst e1; subst e2
    exact ⟨rfl, h, fun _ => hv'⟩
  · rw [if_neg hv]
    have hvo : hasFlag s.outer.flags HAS_VALUES = false := by simpa using hv
    refine ⟨by rw [Option.map_eq_none_iff], fun b s' he => ?_⟩
    obtain ⟨⟨b1, d1⟩, hd, hr⟩ := Option.map_eq_some_iff.mp he
    simp only at hr
    rcases eval_cases hd with ⟨hv0, _, _⟩ | ⟨hv0, hu, hbd, hcl, hob, hcv, her, hx⟩
    · rw [← f4, hvo] at hv0; cases hv0
    rcases hx with ⟨rfl, hf⟩ | ⟨rfl, hf, hok, h1, h2, h3⟩
    · rw [if_pos (by rfl)] at hr
      injection hr with e1 e2
      subst e1; subst e2
      refine ⟨hd, ⟨fun i hi4 hi1 => ?_, ?_, fun hv1 => ?_⟩, fun hx => by cases hx⟩
      · show s.outer.flags.getLsbD i = d1.flags.getLsbD i
        rw [hf]; exact h.flags i hi4 hi1
      · show s.outer.errorBound = d1.errorBound
        rw [hbd]; exact h.bound
      · exfalso
        have hv1 : hasFlag d1.flags HAS_VALUES = true := hv1
        rw [hf, hv0] at hv1; cases hv1
    · have e4 : Ext.gt d1.error s.outer.errorBound = false := by rw [h.bound, ← hbd]; exact h3
      rw [if_neg (by decide), if_neg h1, if_neg (by rw [h2]; decide), if_neg (by rw [e4]; decide)] at hr
      injection hr with e1 e2
      subst e1; subst e2
      refine ⟨hd, ⟨fun i hi4 hi1 => ?_, ?_, fun hv1 => ⟨rfl, rfl, rfl⟩⟩, fun _ => ?_⟩
      · show (s.outer.flags ||| HAS_VALUES).getLsbD i = d1.flags.getLsbD i
        rw [hf, BitVec.getLsbD_or, BitVec.getLsbD_or, h.flags i hi4 hi1]
      · show s.outer.errorBound = d1.errorBound
        rw [hbd]; exact h.bound
      · show hasFlag d1.flags HAS_VALUES = true
        rw [hf]; exact hasValues_set _

/-- one call -/
theorem agree_step {s : DynStack K P V W P' V' W'} (op : DynOp K P' W') (h : Agree L numCons s) (hi : DynInv U s.inner) :
    (s.apply L U numCons op).map DynStack.inner = s.inner.run U numCons (L.calls numCons op) ∧
      ∀ s', s.apply L U numCons op = some s' → Agree L numCons s' := by
  cases op with
  | setValue x t =>
    refine ⟨rfl, fun s' he => ?_⟩
    injection he with he; subst he
    refine ⟨fun i h4 h1 => ?_, h.bound, fun hv => ?_⟩
    · show (s.outer.flags &&& _).getLsbD i = (s.inner.flags &&& _).getLsbD i
      rw [BitVec.getLsbD_and, BitVec.getLsbD_and, h.flags i h4 h1]
    · exact absurd hv (by show ¬ hasFlag (s.inner.flags &&& ~~~HAS_VALUES) HAS_VALUES = true; rw [hasValues_setValue]; simp)
  | setErrorBound b t =>
    refine ⟨rfl, fun s' he => ?_⟩
    injection he with he; subst he
    refine ⟨fun i h4 h1 => or_and_bits (h.flags i h4 h1), rfl, fun hv => ?_⟩
    exact absurd hv (by
      show ¬ hasFlag ((s.inner.flags ||| HAS_ERROR_BOUND) &&& ~~~HAS_VALUES) HAS_VALUES = true; rw [hasValues_setValue]; simp)
  | setObjWeight w t =>
    refine ⟨rfl, fun s' he => ?_⟩
    injection he with he; subst he
    refine ⟨fun i h4 h1 => or_and_bits (h.flags i h4 h1), h.bound, fun hv => ?_⟩
    have hv' : hasFlag s.inner.flags HAS_VALUES = true := by
      rw [← hasValues_setWeight s.inner.flags HAS_OBJ_WEIGHT (by decide)]; exact hv
    exact h.vals hv'
  | setConsWeights w t =>
    by_cases hn : numCons = 0
    · have hcall : L.calls numCons (.setConsWeights w t) = [] := by show (if numCons = 0 then _ else _) = _; rw [if_pos hn]
      have hap : s.apply L U numCons (.setConsWeights w t) = some ⟨s.outer.setConsWeights numCons w t, s.inner⟩ := by
        show some (DynStack.mk _ (if numCons ≠ 0 then _ else _)) = _
        rw [if_neg (by simpa using hn)]
      rw [hcall, hap]
      refine ⟨rfl, fun s' he => ?_⟩
      injection he with he; subst he
      refine ⟨fun i h4 h1 => ?_, h.bound, fun hv => h.vals hv⟩
      have hi1 : i ≠ 1 := fun e => h1 e hn
      show ((s.outer.flags ||| HAS_CONS_WEIGHTS) &&& ~~~(1#32 <<< HAS_VALUES)).getLsbD i = s.inner.flags.getLsbD i
      rw [BitVec.getLsbD_and, BitVec.getLsbD_or, h.flags i h4 h1]
      have : HAS_CONS_WEIGHTS.getLsbD i = false ∧ (~~~(1#32 <<< HAS_VALUES)).getLsbD i = true := by
        have : i = 0 ∨ i = 2 ∨ i = 3 := by omega
        rcases this with rfl | rfl | rfl <;> exact ⟨by decide, by decide⟩
      rw [this.1, this.2]; simp
    · have hcall : L.calls numCons (.setConsWeights w t) = [.setConsWeights (L.consWeights w) t] := by
        show (if numCons = 0 then _ else _) = _; rw [if_neg hn]
      have hap : s.apply L U numCons (.setConsWeights w t) =
          some ⟨s.outer.setConsWeights numCons w t, s.inner.setConsWeights numCons (L.consWeights w) t⟩ := by
        show some (DynStack.mk _ (if numCons ≠ 0 then _ else _)) = _
        rw [if_pos hn]
      rw [hcall, hap]
      refine ⟨rfl, fun s' he => ?_⟩
      injection he with he; subst he
      refine ⟨fun i h4 h1 => or_and_bits (h.flags i h4 h1), h.bound, fun hv => ?_⟩
      have hv' : hasFlag s.inner.flags HAS_VALUES = true := by
        rw [← hasValues_setWeight s.inner.flags HAS_CONS_WEIGHTS (by decide)]; exact hv
      exact h.vals hv'
  | eval =>
    obtain ⟨e1, e2⟩ := agree_eval (U := U) h hi
    have hrun : s.inner.run U numCons (L.calls numCons .eval) = (s.inner.eval U numCons).map Prod.snd := by
      show ([DynOp.eval].foldlM (fun s op => op.apply U numCons s) s.inner : Option _) = _
      rw [List.foldlM_cons]
      show ((s.inner.eval U numCons).map Prod.snd).bind (fun s => some s) = _
      cases s.inner.eval U numCons <;> rfl
    rw [hrun]
    show ((s.eval L U numCons).map Prod.snd).map DynStack.inner = _ ∧ ∀ s', (s.eval L U numCons).map Prod.snd = some s' → _
    rcases he : s.eval L U numCons with _ | ⟨b, s'⟩
    · rw [e1.mp he]
      exact ⟨rfl, fun s' h' => by cases h'⟩
    · obtain ⟨h1, h2, _⟩ := e2 b s' he
      rw [h1]
      refine ⟨rfl, fun s'' h' => ?_⟩
      injection h' with h'; subst h'
      exact h2

theorem run_append (d : Dyn K P V W) (l l' : List (DynOp K P W)) :
    d.run U numCons (l ++ l') = (d.run U numCons l).bind fun d' => d'.run U numCons l' := by
  unfold Dyn.run
  rw [List.foldlM_append]; rfl

theorem agree_run {s : DynStack K P V W P' V' W'} (ops : List (DynOp K P' W')) (h : Agree L numCons s) (hi : DynInv U s.inner) :
    (s.run L U numCons ops).map DynStack.inner = s.inner.run U numCons (ops.flatMap (L.calls numCons)) ∧
      ∀ s', s.run L U numCons ops = some s' → Agree L numCons s' ∧ DynInv U s'.inner := by
  induction ops generalizing s with
  | nil =>
    refine ⟨rfl, fun s' he => ?_⟩
    injection he with he; subst he
    exact ⟨h, hi⟩
  | cons op ops ih =>
    have hs : s.run L U numCons (op :: ops) = (s.apply L U numCons op).bind fun s' => s'.run L U numCons ops := by
      unfold DynStack.run; rw [List.foldlM_cons]; rfl
    obtain ⟨a1, a2⟩ := agree_step (U := U) op h hi
    rw [hs, List.flatMap_cons, run_append, ← a1]
    rcases ha : s.apply L U numCons op with _ | s1
    · exact ⟨rfl, fun s' he => by cases he⟩
    · have hi1 : DynInv U s1.inner := by
        rw [ha] at a1
        exact dynInv_run hi a1.symm
      exact ih (a2 s1 ha) hi1

/-- C35, C33: for every history of calls on a dynamic function inside a layer, with any failures of the user's callbacks: the user's function gets exactly the
calls it would get without the layer, with converted points and weights (also the same number of evaluations). An evaluation succeeds exactly if it would
succeed without the layer, and then objective value, constraint values and error are the converted ones. -/
theorem C35_dynamic (L : DynLayer K P V W P' V' W') (U : Nat → DynUser K P W → DynEval K V) (numCons : Nat) (c' : V') (u' : DynUser K P' W')
    (c : V) (u : DynUser K P W) (ops : List (DynOp K P' W')) :
    ((DynStack.create c' u' c u).run L U numCons ops).map DynStack.inner =
        (Dyn.create c u).run U numCons (ops.flatMap (L.calls numCons)) ∧
      ∀ s, (DynStack.create c' u' c u).run L U numCons ops = some s →
        (s.eval L U numCons = none ↔ s.inner.eval U numCons = none) ∧
        ∀ b s', s.eval L U numCons = some (b, s') → s.inner.eval U numCons = some (b, s'.inner) ∧
          (b = true → s'.outer.objVal = L.obj s'.inner.objVal ∧ s'.outer.consVal = L.cons s'.inner.consVal ∧
            s'.outer.error = s'.inner.error ∧ s'.outer.errorBound = s'.inner.errorBound) := by
  obtain ⟨h1, h2⟩ := agree_run (L := L) (U := U) (numCons := numCons) (s := DynStack.create c' u' c u) ops (agree_create c' u' c u) (dynInv_create c u)
  refine ⟨h1, fun s hs => ?_⟩
  obtain ⟨ha, hi⟩ := h2 s hs
  obtain ⟨e1, e2⟩ := agree_eval (U := U) ha hi
  refine ⟨e1, fun b s' he => ?_⟩
  obtain ⟨x1, x2, x3⟩ := e2 b s' he
  exact ⟨x1, fun hb => ⟨(x2.vals (x3 hb)).1, (x2.vals (x3 hb)).2.1, (x2.vals (x3 hb)).2.2, x2.bound⟩⟩

/-- C35: with fixed variables, the points the user's dynamic function gets have the fixed values at the fixed variables and the given ones elsewhere. -/
theorem C35_dynamic_point [IsStrictOrderedRing K] {n : Nat} {fx : List (Nat × K)} (hs : Srt fx) (hr : ∀ e ∈ fx, e.1 < n) {p : Vec K} (hp : p.WF)
    (hd : p.dim + fx.length = n) (t : Took) (numCons : Nat) :
    ∃ x, (fixedDynLayer n fx).calls numCons (.setValue p t) = [.setValue x t] ∧ VOk n x ∧ (∀ e ∈ fx, x.value e.1 = e.2) ∧
      ∀ i, x.value (oldIdx (fx.map Prod.fst) i) = p.value i := by
  obtain ⟨x, hx, h2⟩ := C35_point hs hr hp hd
  refine ⟨x, ?_, h2⟩
  show [DynOp.setValue ((fixedPoint n fx p).getD p) t] = _
  rw [hx]; rfl

/-- C33: with scaling, the points the user's dynamic function gets are the unscaled ones, the values the solver gets are the scaled ones, and the weights are such
that the weighted sum of errors is the same inside and outside (`C33_dynamic`), so that the error bound need not be changed. -/
theorem C33_dynamic_layer [IsStrictOrderedRing K] {s : Scaling} {n m : Nat} (hs : s.For n m) {cache : Vec K} (hc : cache.dim = n) {p v : Vec K}
    (hp : VOk n p) (hv : VOk m v) (t : Took) (numCons : Nat) (f w : K) (wc : Nat → K) :
    (∃ x, (scaledDynLayer s cache).calls numCons (.setValue p t) = [.setValue x t] ∧ VOk n x ∧ ∀ j, x.value j = p.value j * 2 ^ s.beta j) ∧
    (scaledDynLayer s cache).obj f = f * 2 ^ (-s.objW) ∧
    (∀ i, ((scaledDynLayer s cache).cons v).value i = v.value i * 2 ^ (-s.alpha i)) ∧
    (∀ errObj : K, ∀ err : Nat → K, ∃ w', (scaledDynLayer s cache).objWeight (.fin w) = .fin w' ∧
      w' * |errObj| + ∑ i ∈ Finset.range m, (scaledDynLayer s cache).consWeights wc i * |err i| =
        w * |errObj * 2 ^ (-s.objW)| + ∑ i ∈ Finset.range m, wc i * |err i * 2 ^ (-s.alpha i)|) := by
  refine ⟨?_, ?_, fun i => ?_, fun errObj err => ?_⟩
  · obtain ⟨d, d1, d2, d3⟩ := copy_spec hp hc
    have hx : s.funcPoint cache p = some (d.scaledBy fun i => (s.varW[i]?).getD 0 + 0) := by
      show (p.copy cache).bind s.unscalePoint = _
      rw [d1]
      exact applyUnscaling_eq d2 hs.vars 0
    refine ⟨_, ?_, scaledBy_ok d2 (fun i => (s.varW[i]?).getD 0 + 0), fun j => ?_⟩
    · show [DynOp.setValue ((s.funcPoint cache p).getD p) t] = _
      rw [hx]; rfl
    · rw [scaledBy_value, add_zero, ← show d.value j = p.value j from by unfold Vec.value; rw [d3]]; rfl
  · show f * 2 ^ ((-1) * s.objW) = _
    rw [neg_one_mul]
  · have : s.scaleConsVal v = some (v.scaledBy fun i => -1 * (s.consW[i]?).getD 0 + 0) := applyScaling_eq hv hs.cons 0
    show ((s.scaleConsVal v).getD v).value i = _
    rw [this]
    rw [Option.getD_some, scaledBy_value, neg_one_mul, add_zero]; rfl
  · refine ⟨_, rfl, ?_⟩
    have := (C33_dynamic (K := K) hs w wc errObj err).2
    rw [show s.scaleObjVal errObj = errObj * 2 ^ (-s.objW) from by unfold Scaling.scaleObjVal ldexp; rw [neg_one_mul]] at this
    exact this

/-- A concrete history: after bound and weights are set, and a point, the evaluation succeeds, with one call of the user's function. -/
example : let U : Nat → DynUser ℚ (Vec ℚ) (Nat → ℚ) → DynEval ℚ (Vec ℚ) := fun _ u => ⟨true, u.point.value 0 + u.point.value 1, ⟨0, 0, []⟩, .fin 0⟩
    let u0 : DynUser ℚ (Vec ℚ) (Nat → ℚ) := ⟨⟨2, 0, []⟩, .fin 0, .fin 0, fun _ => 0⟩
    let s := (DynStack.create ⟨0, 0, []⟩ u0 ⟨0, 0, []⟩ u0).run (fixedDynLayer 2 [(0, (3 : ℚ))]) U 0
      [.setErrorBound (.fin 1) .ok, .setObjWeight (.fin 1) .ok, .setValue ⟨1, 1, [(0, 4)]⟩ .ok, .eval, .eval]
    (match s with | some s => decide (s.outer.objVal = 7 ∧ s.inner.calls = 1) | none => false) = true := by
  decide +kernel

end Sleqp
