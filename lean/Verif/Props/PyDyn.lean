import Verif.Spec.PyDyn
import Verif.Props.Python

/-! C129: dynamic functions written in Python. -/

namespace Sleqp
variable {K : Type*} [Field K] [LinearOrder K] [IsStrictOrderedRing K]

theorem mexBind_ok {α β : Type*} {r : MexRes α} {f : α → MexRes β} {b : β} (h : r.bind f = .ok b) : ∃ a, r = .ok a ∧ f a = .ok b := by
  cases r with
  | ok a => exact ⟨a, rfl, h⟩
  | err => exact nomatch h
  | undef => exact nomatch h

omit [IsStrictOrderedRing K] [LinearOrder K] [Field K] in
theorem pyDyn_call [Field K] [LinearOrder K] {F : PyDynFunc K} {s s' : PyDyn K} {t : PyTold K} (h : s.call F t = .ok s') :
    F.raises s.told t = false ∧ s' = { s with told := s.told ++ [t] } := by
  unfold PyDyn.call at h
  by_cases hr : F.raises s.told t = true
  · rw [if_pos hr] at h
    exact nomatch h
  · rw [if_neg hr] at h
    exact ⟨by simpa using hr, by cases h; rfl⟩

omit [IsStrictOrderedRing K] in
/-- the weights never arrive -/
theorem pyDyn_weights (F : PyDynFunc K) (s : PyDyn K) (ws : List K) (h : s.numCons ≠ 0) : s.setConsWeights F ws = .err := by
  unfold PyDyn.setConsWeights pyPointer
  rw [if_neg h, if_neg h]
  rfl

omit [IsStrictOrderedRing K] in
theorem pyDyn_step {F : PyDynFunc K} {s s' : PyDyn K} {op : PyDynOp K} (h : s.step F op = .ok s') :
    s'.numCons = s.numCons ∧ s'.told = s.told ++ op.meaning s.numCons ∧ s'.bound = boundAfter s.bound (op.meaning s.numCons) ∧
      ∀ ws, op = .consWeights ws → s.numCons = 0 := by
  cases op with
  | errorBound b =>
    obtain ⟨-, rfl⟩ := pyDyn_call h
    exact ⟨rfl, rfl, rfl, nofun⟩
  | objWeight w =>
    obtain ⟨-, rfl⟩ := pyDyn_call h
    exact ⟨rfl, rfl, rfl, nofun⟩
  | consWeights ws =>
    by_cases h0 : s.numCons = 0
    · have e : s' = s := by
        have h' : s.setConsWeights F ws = .ok s' := h
        unfold PyDyn.setConsWeights at h'
        rw [if_pos h0] at h'
        cases h'
        rfl
      subst e
      simp [PyDynOp.meaning, h0, boundAfter]
    · have h' : s.setConsWeights F ws = .ok s' := h
      rw [pyDyn_weights F s ws h0] at h'
      exact nomatch h'
  | eval =>
    obtain ⟨s1, h1, h2⟩ := mexBind_ok (show s.eval F = .ok s' from h)
    obtain ⟨-, rfl⟩ := pyDyn_call h1
    obtain ⟨r, -, h3⟩ := mexBind_ok h2
    by_cases hc : pyDynErrorOk s.bound r.2.1 = true
    · rw [if_pos hc] at h3
      cases h3
      exact ⟨rfl, rfl, rfl, nofun⟩
    · rw [if_neg hc] at h3
      exact nomatch h3

omit [Field K] [LinearOrder K] [IsStrictOrderedRing K] in
theorem boundAfter_append [Field K] [LinearOrder K] (b : K) (l l' : List (PyTold K)) : boundAfter b (l ++ l') = boundAfter (boundAfter b l) l' := by
  induction l generalizing b with
  | nil => rfl
  | cons t l ih => cases t <;> exact ih _

/-- C129: in every history without error the Python function has received exactly the calls meant for it, in their order, with the values given;
the bound its errors are compared with is the last one it has been told. Missing: the weights of constraints, which cannot be among the calls of
such a history, see `C129_weights_violated`. -/
theorem C129_told_partial (F : PyDynFunc K) (ops : List (PyDynOp K)) (s s' : PyDyn K) (h : s.run F ops = .ok s') :
    s'.told = s.told ++ ops.flatMap (·.meaning s.numCons) ∧ s'.bound = boundAfter s.bound (ops.flatMap (·.meaning s.numCons)) := by
  induction ops generalizing s with
  | nil =>
    cases h
    simp [boundAfter]
  | cons op ops ih =>
    obtain ⟨s1, h1, h2⟩ := mexBind_ok (show (s.step F op).bind _ = _ from h)
    obtain ⟨e1, e2, e3, -⟩ := pyDyn_step h1
    obtain ⟨a, b⟩ := ih s1 h2
    rw [e1] at a b
    rw [a, b, e2, e3, List.flatMap_cons, boundAfter_append, List.append_assoc]
    exact ⟨rfl, rfl⟩

omit [IsStrictOrderedRing K] in
theorem pyDynError_iff [IsStrictOrderedRing K] (bound e : K) : pyDynErrorOk bound (.fin e) = true ↔ 0 ≤ e ∧ e ≤ bound := by
  unfold pyDynErrorOk
  simp only [Bool.and_eq_true, Bool.not_eq_true', decide_eq_false_iff_not, Ext.lt, Ext.gt]
  constructor
  · rintro ⟨⟨-, h1⟩, h2⟩
    simp at h1 h2
    exact ⟨h1, h2⟩
  · rintro ⟨h1, h2⟩
    refine ⟨⟨fun h => ?_, by simpa using h1⟩, by simpa using h2⟩
    have h' : e = -1 := by simpa using h
    rw [h'] at h1
    exact absurd h1 (by simp)

/-- C129, a proper result: the library works with exactly the objective value, the error and the constraint values returned, whatever it had stored
before. -/
theorem C129_eval (F : PyDynFunc K) (s : PyDyn K) (hv : s.consVal.dim = s.numCons) (hr : F.raises s.told .eval = false) {f : Ext K} {e : K}
    {rest : List (PyItem K)} (h : F.result s.told = .items (.num f :: .num (.fin e) :: rest)) (h0 : 0 ≤ e) (hb : e ≤ s.bound)
    (hc : 0 < s.numCons → ∃ c tail, rest = .arr c :: tail ∧ c.length = s.numCons) :
    ∃ s', s.eval F = .ok s' ∧ s'.objVal = f ∧ s'.error = .fin e ∧ s'.told = s.told ++ [.eval] ∧ s'.numCons = s.numCons ∧
      s'.bound = s.bound ∧ s'.consVal.dim = s.numCons ∧
      ∀ c tail, rest = .arr c :: tail → 0 < s.numCons → PyHolds 0 c s'.consVal := by
  have hok := (pyDynError_iff s.bound e).2 ⟨h0, hb⟩
  have key : ∀ w, pyDynResult s.numCons s.consVal (F.result s.told) = .ok (f, .fin e, w) →
      s.eval F = .ok { s with told := s.told ++ [.eval], objVal := f, error := .fin e, consVal := w } := by
    intro w hw
    unfold PyDyn.eval PyDyn.call
    rw [hr, if_neg (by simp)]
    show (pyDynResult _ _ _).bind _ = _
    rw [hw]
    show (if pyDynErrorOk s.bound (.fin e) = true then _ else _) = _
    rw [if_pos hok]
  by_cases hn : 0 < s.numCons
  · obtain ⟨c, tail, hrest, hlen⟩ := hc hn
    obtain ⟨w, w1, w2, -⟩ := C99_vector (0 : K) c s.consVal (hlen.trans hv.symm)
    refine ⟨_, key w ?_, rfl, rfl, rfl, rfl, rfl, w2.2.1.trans hlen, ?_⟩
    · rw [h, hrest]
      show (if 0 < s.numCons then (pyToVec 0 (some c) s.consVal).bind _ else _) = _
      rw [if_pos hn, w1]
      rfl
    · intro c' tail' h' _
      rw [hrest] at h'
      obtain ⟨rfl, -⟩ : c = c' ∧ tail = tail' := by simpa using h'
      exact w2
  · refine ⟨_, key s.consVal ?_, rfl, rfl, rfl, rfl, rfl, hv, fun _ _ _ h' => absurd h' hn⟩
    rw [h]
    show (if 0 < s.numCons then _ else _) = _
    rw [if_neg hn]

/-- C129, histories: for a function which raises no exceptions and whose results are proper, every history with bounds that are not negative
and without weights of constraints runs to its end, after which `C129_told_partial` applies. Missing: weights of constraints, see
`C129_weights_violated`. -/
theorem C129_runs_partial (F : PyDynFunc K) (numCons : Nat) (b : K) (hF : F.Proper numCons b) (ops : List (PyDynOp K))
    (hops : numCons = 0 ∨ ∀ ws, .consWeights ws ∉ ops) (hpos : ∀ c, .errorBound c ∈ ops → 0 ≤ c) (s : PyDyn K) (hn : s.numCons = numCons)
    (hv : s.consVal.dim = numCons) (hb : s.bound = boundAfter b s.told) (hb0 : 0 ≤ s.bound) : ∃ s', s.run F ops = .ok s' := by
  induction ops generalizing s with
  | nil => exact ⟨s, rfl⟩
  | cons op ops ih =>
    have hops' : numCons = 0 ∨ ∀ ws, .consWeights ws ∉ ops := hops.imp id fun h ws hm => h ws (by simp [hm])
    have step : ∃ s1, s.step F op = .ok s1 ∧ s1.consVal.dim = numCons := by
      have ok : ∀ t : PyTold K, ∀ s : PyDyn K, s.call F t = .ok { s with told := s.told ++ [t] } := fun t s => by
        unfold PyDyn.call
        rw [hF.1, if_neg (by simp)]
      cases op with
      | errorBound c => exact ⟨_, ok _ _, hv⟩
      | objWeight w => exact ⟨_, ok _ _, hv⟩
      | consWeights ws =>
        rcases hops with h0 | h0
        · refine ⟨s, ?_, hv⟩
          show s.setConsWeights F ws = _
          unfold PyDyn.setConsWeights
          rw [if_pos (hn.trans h0)]
        · exact absurd (by simp) (h0 ws)
      | eval =>
        obtain ⟨f, e, rest, h1, h2, h3, h4⟩ := hF.2 s.told (by rw [← hb]; exact hb0)
        obtain ⟨s1, e1, -, -, -, -, -, e2, -⟩ := C129_eval F s (by rw [hv, hn]) (hF.1 _ _) h1 h2 (by rw [hb]; exact h3) (by rw [hn]; exact h4)
        exact ⟨s1, e1, e2.trans hn⟩
    obtain ⟨s1, h1, h2⟩ := step
    obtain ⟨e1, e2, e3, -⟩ := pyDyn_step h1
    obtain ⟨s2, h3⟩ := ih hops' (fun c hm => hpos c (by simp [hm])) s1 (e1.trans hn) h2 (by rw [e3, e2, boundAfter_append, hb]) (by
      rw [e3]
      cases op with
      | errorBound c => exact hpos c (by simp)
      | objWeight w => exact hb0
      | consWeights ws =>
        unfold PyDynOp.meaning
        split_ifs <;> exact hb0
      | eval => exact hb0)
    refine ⟨s2, ?_⟩
    show (s.step F op).bind _ = _
    rw [h1]
    exact h3

omit [IsStrictOrderedRing K] in
/-- C129, improper results: what is not a tuple of at least two numbers, or lacks the constraint values, is an error, and so is an error
reported outside of its bounds. -/
theorem C129_refused (F : PyDynFunc K) (s s' : PyDyn K) (h : s.eval F = .ok s') :
    ∃ l f e, F.result s.told = .items l ∧ l[0]?.map PyItem.toDouble = some (.ok f) ∧ l[1]?.map PyItem.toDouble = some (.ok e) ∧
      s'.objVal = f ∧ s'.error = e ∧ (∀ x, e = .fin x → 0 ≤ x ∧ x ≤ s.bound) ∧ (0 < s.numCons → 3 ≤ l.length) := by
  obtain ⟨s1, h1, h2⟩ := mexBind_ok (show s.eval F = .ok s' from h)
  obtain ⟨-, rfl⟩ := pyDyn_call h1
  obtain ⟨⟨f, e, w⟩, h3, h4⟩ := mexBind_ok h2
  have hok : pyDynErrorOk s.bound e = true := by
    by_contra hc
    rw [if_neg (by simpa using hc)] at h4
    exact nomatch h4
  rw [if_pos hok] at h4
  cases h4
  have item : ∀ {β : Type _} {l : List (PyItem K)} {i : Nat} {g : PyItem K → MexRes β} {x : β}, (pyItem l i).bind g = .ok x →
      l[i]?.map g = some (.ok x) := by
    intro β l i g x hx
    unfold pyItem at hx
    cases hl : l[i]? with
    | none => rw [hl] at hx; exact nomatch hx
    | some y => rw [hl] at hx; exact congrArg some hx
  cases hres : F.result s.told with
  | none => rw [hres] at h3; exact nomatch h3
  | other => rw [hres] at h3; exact nomatch h3
  | items l =>
    rw [hres] at h3
    obtain ⟨f', a1, h5⟩ := mexBind_ok h3
    obtain ⟨e', a2, h6⟩ := mexBind_ok h5
    have ef : f' = f ∧ e' = e ∧ (0 < s.numCons → 3 ≤ l.length) := by
      by_cases hn : 0 < s.numCons
      · rw [if_pos hn] at h6
        obtain ⟨a, a3, h7⟩ := mexBind_ok h6
        obtain ⟨w', -, h8⟩ := mexBind_ok h7
        cases h8
        refine ⟨rfl, rfl, fun _ => ?_⟩
        have := item a3
        by_contra hlt
        rw [List.getElem?_eq_none (by omega)] at this
        exact nomatch this
      · rw [if_neg hn] at h6
        cases h6
        exact ⟨rfl, rfl, fun h => absurd h hn⟩
    obtain ⟨rfl, rfl, h9⟩ := ef
    refine ⟨l, f', e', rfl, item a1, item a2, rfl, rfl, ?_, h9⟩
    rintro x rfl
    unfold pyDynErrorOk at hok
    simp only [Bool.and_eq_true, Bool.not_eq_true', Ext.lt, Ext.gt] at hok
    obtain ⟨⟨-, b1⟩, b2⟩ := hok
    simp at b1 b2
    exact ⟨b1, b2⟩

/-! ### samples and violations -/

/-- a function which returns the last error bound it was told (or zero) as its error, and no constraint values -/
def exPyDyn : PyDynFunc ℚ := ⟨fun _ _ => false, fun l => .items [.num (.fin 5), .num (.fin (max 0 (boundAfter 0 l)))]⟩

-- hypotheses of `C129_told_partial`
example : ∃ s', (PyDyn.create 0).run exPyDyn [.objWeight 1, .errorBound 2, .consWeights [], .eval] = .ok s' ∧
    s'.told = [.objWeight 1, .errorBound 2, .eval] := ⟨_, rfl, rfl⟩

/-- a function with two constraints -/
def exPyDyn2 : PyDynFunc ℚ := ⟨fun _ _ => false, fun _ => .items [.num (.fin 5), .num (.fin 0), .arr [3, 4]]⟩

-- hypotheses of `C129_eval` and `C129_refused`
example : ∃ s', (PyDyn.create 2).eval exPyDyn2 = .ok s' ∧ s'.objVal = .fin 5 ∧ PyHolds 0 [3, 4] s'.consVal := by
  obtain ⟨s', a, b, -, -, -, -, -, c⟩ := C129_eval exPyDyn2 (PyDyn.create 2) rfl rfl rfl le_rfl le_rfl fun _ => ⟨[3, 4], [], rfl, rfl⟩
  exact ⟨s', a, b, c _ _ rfl (by decide)⟩

/-- a function with two constraints, whose errors are those of the last bound -/
def exPyDyn3 : PyDynFunc ℚ := ⟨fun _ _ => false, fun l => .items [.num (.fin 5), .num (.fin (boundAfter 0 l)), .arr [3, 4]]⟩

-- hypotheses of `C129_runs_partial`
example : ∃ s', (PyDyn.create 2).run exPyDyn3 [.eval, .objWeight 1, .errorBound (1 / 2), .eval] = .ok s' :=
  C129_runs_partial exPyDyn3 2 0 ⟨fun _ _ => rfl, fun l h => ⟨.fin 5, _, [.arr [3, 4]], rfl, h, le_rfl, fun _ => ⟨[3, 4], [], rfl, rfl⟩⟩⟩ _
    (.inr (by simp)) (by simp) (PyDyn.create 2) rfl rfl rfl le_rfl

omit [IsStrictOrderedRing K] in
/-- C129 is violated: no problem with a dynamic function in Python and at least one (nonlinear) constraint can be solved. The weights of the
constraints are given to `_readonly`, which is made for NumPy arrays, as an array of Cython without the method `view`: whatever the
function does, an `AttributeError` ends the solve when the weights are set for the first time, before anything has been evaluated. The
function's own method for the weights is never called. (A read-only array could not be assigned to the variable meant for it either.) -/
theorem C129_weights_violated (F : PyDynFunc K) (hF : ∀ l t, F.raises l t = false) (numCons : Nat) (hn : 0 < numCons) (penalty : K)
    (ops : List (PyDynOp K)) :
    (PyDyn.create numCons).run F (pyDynStart numCons penalty ++ ops) = .err ∧
      ∃ s, (PyDyn.create numCons).run F [.objWeight 1, .errorBound 1] = .ok s ∧ s.told = [.objWeight 1, .errorBound 1] ∧
        ∀ ws, s.setConsWeights F ws = .err := by
  have hne : numCons ≠ 0 := by omega
  have ok : ∀ t : PyTold K, ∀ s : PyDyn K, s.call F t = .ok { s with told := s.told ++ [t] } := fun t s => by
    unfold PyDyn.call
    rw [hF, if_neg (by simp)]
  have e : pyDynStart numCons penalty ++ ops = .objWeight 1 :: .errorBound 1 :: .consWeights (List.replicate numCons penalty) :: ops := by
    simp [pyDynStart, hne]
  obtain ⟨s0, hs0⟩ : ∃ s0 : PyDyn K, s0 = ⟨numCons, [.objWeight 1, .errorBound 1], .fin 0, Vec.create numCons 0, 1, .fin 0⟩ := ⟨_, rfl⟩
  have two : ∀ l, (PyDyn.create numCons).run F (.objWeight 1 :: .errorBound 1 :: l) = s0.run F l := by
    intro l
    show ((PyDyn.create numCons).call F (.objWeight 1)).bind _ = _
    rw [ok]
    show (PyDyn.call F _ (.errorBound 1)).bind _ = _
    rw [ok, hs0]
    rfl
  have hs : s0.numCons ≠ 0 := by rw [hs0]; exact hne
  refine ⟨?_, s0, two [], by rw [hs0], fun ws => pyDyn_weights F s0 ws hs⟩
  rw [e, two]
  show (s0.setConsWeights F _).bind _ = _
  rw [pyDyn_weights F s0 _ hs]
  rfl

/-- C129 is violated: other than those of ordinary functions, the constraint values of dynamic ones are not checked. `None` and arrays that
are too short are understood as zeros, too many values are written past the dimension of the vector. -/
theorem C129_values_violated :
    (∀ (f : Ext ℚ) (e : ℚ), pyDynResult 2 ⟨2, 2, [(0, 7), (1, 8)]⟩ (.items [.num f, .num (.fin e), .none]) = .ok (f, .fin e, ⟨2, 2, []⟩)) ∧
      (∀ (f : Ext ℚ) (e : ℚ), pyDynResult 2 ⟨2, 2, []⟩ (.items [.num f, .num (.fin e), .arr [3]]) = .ok (f, .fin e, ⟨2, 2, [(0, 3)]⟩)) ∧
      ∀ (f : Ext ℚ) (e : ℚ), pyDynResult 2 ⟨2, 2, []⟩ (.items [.num f, .num (.fin e), .arr [3, 4, 5]]) = .undef :=
  ⟨fun _ _ => rfl, fun _ _ => rfl, fun _ _ => rfl⟩

end Sleqp
