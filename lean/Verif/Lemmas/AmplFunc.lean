import Verif.Spec.Ampl

/-! C85: the state of the function given to AMPL. -/

namespace Sleqp
namespace AmplFunc
variable {K : Type*} [Field K] [LinearOrder K] {A : Asl K}

/-- state after the point `x` was set -/
structure At (A : Asl K) (x : Nat → K) (s : AmplFunc K) : Prop where
  point : s.x = x
  cons : s.evalCons = true → s.seenCons = x ∧ s.consVal = A.cons x
  obj : s.evalObj = true → s.seenObj = x
  cached : s.cached = true → s.evalCons = true ∧ s.evalObj = true

theorem at_set {t : Bool} {x : Nat → K} {s0 : AmplFunc K} (h : (s0.set A t x).2 = false) :
    At A x (s0.set A t x).1 ∧ (t = true → (s0.set A t x).1.cached = true ∧ (s0.set A t x).1.objVal = A.obj x) ∧
      (t = false → (s0.set A t x).1.cached = false ∧ (s0.set A t x).1.evalObj = false) := by
  unfold set at h ⊢
  dsimp only at h ⊢
  cases t with
  | false => exact ⟨⟨rfl, fun h => absurd h Bool.false_ne_true, fun h => absurd h Bool.false_ne_true, fun h => absurd h Bool.false_ne_true⟩,
    fun h => absurd h Bool.false_ne_true, fun _ => ⟨rfl, rfl⟩⟩
  | true =>
    rw [if_pos rfl] at h ⊢
    split at h
    · cases h
    · rename_i h1
      rw [if_neg h1]
      split at h
      · cases h
      · rename_i h2
        rw [if_neg h2]
        exact ⟨⟨rfl, fun _ => ⟨rfl, rfl⟩, fun _ => rfl, fun _ => ⟨rfl, rfl⟩⟩, fun _ => ⟨rfl, rfl⟩, fun h => absurd h.symm Bool.false_ne_true⟩

theorem at_ensure {x : Nat → K} {s s' : AmplFunc K} (h : At A x s) (he : s.ensureEval A = some s') :
    At A x s' ∧ s'.evalObj = true ∧ s'.evalCons = true ∧ s'.cached = true ∧
      s'.objVal = if s.evalObj then s.objVal else A.obj x := by
  unfold ensureEval at he
  obtain ⟨s1, h1, he⟩ := Option.bind_eq_some_iff.mp he
  obtain ⟨s2, h2, rfl⟩ := Option.map_eq_some_iff.mp he
  have a1 : s1.x = x ∧ s1.evalObj = true ∧ s1.seenObj = x ∧ s1.evalCons = s.evalCons ∧ s1.seenCons = s.seenCons ∧ s1.consVal = s.consVal ∧
      s1.objVal = if s.evalObj then s.objVal else A.obj x := by
    by_cases ho : s.evalObj = true
    · rw [if_pos ho] at h1
      obtain rfl := Option.some.inj h1
      rw [if_pos ho]
      exact ⟨h.point, ho, h.obj ho, rfl, rfl, rfl, rfl⟩
    · rw [if_neg ho] at h1
      split at h1
      · cases h1
      · obtain rfl := Option.some.inj h1
        rw [if_neg ho, ← h.point]
        exact ⟨rfl, rfl, rfl, rfl, rfl, rfl, rfl⟩
  obtain ⟨b1, b2, b3, b4, b5, b6, b7⟩ := a1
  have a2 : s2.x = x ∧ s2.evalObj = true ∧ s2.seenObj = x ∧ s2.evalCons = true ∧ s2.seenCons = x ∧ s2.consVal = A.cons x ∧ s2.objVal = s1.objVal := by
    by_cases hc : s1.evalCons = true
    · rw [if_pos hc] at h2
      obtain rfl := Option.some.inj h2
      obtain ⟨c1, c2⟩ := h.cons (b4 ▸ hc)
      exact ⟨b1, b2, b3, hc, b5.trans c1, b6.trans c2, rfl⟩
    · rw [if_neg hc] at h2
      split at h2
      · cases h2
      · obtain rfl := Option.some.inj h2
        exact ⟨b1, b2, b3, rfl, b1, by show A.cons s1.x = _; rw [b1], rfl⟩
  obtain ⟨c1, c2, c3, c4, c5, c6, c7⟩ := a2
  exact ⟨⟨c1, fun _ => ⟨c5, c6⟩, fun _ => c3, fun _ => ⟨c4, c2⟩⟩, c2, c4, rfl, c7.trans b7⟩

theorem at_apply {x : Nat → K} {s s' : AmplFunc K} {op : Op K} (hop : ¬ op.isSet) (h : At A x s) (ha : op.apply A s = some s') :
    At A x s' := by
  cases op with
  | set t y => exact (hop trivial).elim
  | obj =>
    obtain rfl := Option.some.inj ha
    unfold getObj
    split
    · exact h
    · rename_i hc
      exact ⟨h.point, h.cons, fun _ => h.point, fun hc' => absurd hc' hc⟩
  | cons =>
    obtain rfl := Option.some.inj ha
    unfold getCons
    split
    · exact h
    · rename_i hc
      exact ⟨h.point, fun _ => ⟨h.point, by show A.cons s.x = _; rw [h.point]⟩, h.obj, fun hc' => absurd hc' hc⟩
  | grad =>
    obtain rfl := Option.some.inj ha
    exact ⟨h.point, h.cons, fun _ => h.point, h.cached⟩
  | hess d m =>
    obtain ⟨⟨s1, y⟩, h1, rfl⟩ := Option.map_eq_some_iff.mp ha
    obtain ⟨s2, h2, h3⟩ := Option.map_eq_some_iff.mp h1
    obtain ⟨rfl, -⟩ := Prod.mk.inj h3
    exact (at_ensure h h2).1

theorem at_run {x : Nat → K} {ops : List (Op K)} : ∀ {s s' : AmplFunc K}, (∀ op ∈ ops, ¬ op.isSet) → At A x s → s.run A ops = some s' → At A x s' := by
  induction ops with
  | nil =>
    intro s s' _ h hr
    obtain rfl := Option.some.inj hr
    exact h
  | cons op ops ih =>
    intro s s' hops h hr
    unfold run at hr
    rw [List.foldlM_cons] at hr
    obtain ⟨s1, h1, h2⟩ := Option.bind_eq_some_iff.mp hr
    exact ih (fun o ho => hops o (List.mem_cons_of_mem _ ho)) (at_apply (hops op List.mem_cons_self) h h1) h2

/-- once the values are stored, they remain so -/
theorem stored_run {x : Nat → K} {ops : List (Op K)} : ∀ {s s' : AmplFunc K}, (∀ op ∈ ops, ¬ op.isSet) → At A x s → s.cached = true →
    s.objVal = A.obj x → s.run A ops = some s' → s'.cached = true ∧ s'.objVal = A.obj x := by
  induction ops with
  | nil =>
    intro s s' _ _ h1 h2 hr
    obtain rfl := Option.some.inj hr
    exact ⟨h1, h2⟩
  | cons op ops ih =>
    intro s s' hops h h1 h2 hr
    unfold run at hr
    rw [List.foldlM_cons] at hr
    obtain ⟨s1, h3, h4⟩ := Option.bind_eq_some_iff.mp hr
    have hop := hops op List.mem_cons_self
    have key : s1.cached = true ∧ s1.objVal = A.obj x := by
      cases op with
      | set t y => exact (hop trivial).elim
      | obj =>
        obtain rfl := Option.some.inj h3
        unfold getObj
        rw [if_pos h1]
        exact ⟨h1, h2⟩
      | cons =>
        obtain rfl := Option.some.inj h3
        unfold getCons
        rw [if_pos h1]
        exact ⟨h1, h2⟩
      | grad =>
        obtain rfl := Option.some.inj h3
        exact ⟨h1, h2⟩
      | hess d m =>
        obtain ⟨⟨s1', y⟩, h5, rfl⟩ := Option.map_eq_some_iff.mp h3
        obtain ⟨s2, h6, h7⟩ := Option.map_eq_some_iff.mp h5
        obtain ⟨rfl, -⟩ := Prod.mk.inj h7
        obtain ⟨-, -, -, a4, a5⟩ := at_ensure h h6
        refine ⟨a4, a5.trans ?_⟩
        split
        · exact h2
        · rfl
    exact ih (fun o ho => hops o (List.mem_cons_of_mem _ ho)) (at_apply hop h h3) key.1 key.2 h4

/-- as long as the objective is not asked for before a product with the Hessian is, a stored value is right -/
theorem unstored_run {x : Nat → K} {ops : List (Op K)} : ∀ {s s' : AmplFunc K}, (∀ op ∈ ops, ¬ op.isSet) → At A x s → s.cached = false →
    s.evalObj = false → ¬ ObjBeforeHess ops → s.run A ops = some s' → s'.cached = true → s'.objVal = A.obj x := by
  induction ops with
  | nil =>
    intro s s' _ _ h1 _ _ hr hc
    obtain rfl := Option.some.inj hr
    rw [h1] at hc; cases hc
  | cons op ops ih =>
    intro s s' hops h h1 h2 hno hr hc
    unfold run at hr
    rw [List.foldlM_cons] at hr
    obtain ⟨s1, h3, h4⟩ := Option.bind_eq_some_iff.mp hr
    have hop := hops op List.mem_cons_self
    have hops' : ∀ o ∈ ops, ¬ o.isSet := fun o ho => hops o (List.mem_cons_of_mem _ ho)
    have hno' : ¬ ObjBeforeHess ops := by
      rintro ⟨a, b, c, d, m, rfl⟩
      exact hno ⟨op :: a, b, c, d, m, rfl⟩
    cases op with
    | set t y => exact (hop trivial).elim
    | obj =>
      -- no product with the Hessian follows: nothing is stored
      have hnh : ∀ o ∈ ops, ∀ d m, o ≠ .hess d m := by
        rintro o ho d m rfl
        obtain ⟨b, c, rfl⟩ := List.append_of_mem ho
        exact hno ⟨[], b, c, d, m, rfl⟩
      have hun : ∀ (l : List (Op K)) (t t' : AmplFunc K), (∀ o ∈ l, ¬ o.isSet) → (∀ o ∈ l, ∀ d m, o ≠ .hess d m) → t.cached = false →
          t.run A l = some t' → t'.cached = false := by
        intro l
        induction l with
        | nil =>
          intro t t' _ _ ht hr
          obtain rfl := Option.some.inj hr
          exact ht
        | cons o l ihl =>
          intro t t' hl hl' ht hr
          unfold run at hr
          rw [List.foldlM_cons] at hr
          obtain ⟨t1, h5, h6⟩ := Option.bind_eq_some_iff.mp hr
          refine ihl t1 t' (fun o ho => hl o (List.mem_cons_of_mem _ ho)) (fun o ho => hl' o (List.mem_cons_of_mem _ ho)) ?_ h6
          cases o with
          | set _ _ => exact (hl _ List.mem_cons_self trivial).elim
          | obj =>
            obtain rfl := Option.some.inj h5
            unfold getObj
            rw [if_neg (by rw [ht]; exact Bool.false_ne_true)]
            exact ht
          | cons =>
            obtain rfl := Option.some.inj h5
            unfold getCons
            rw [if_neg (by rw [ht]; exact Bool.false_ne_true)]
            exact ht
          | grad =>
            obtain rfl := Option.some.inj h5
            exact ht
          | hess d m => exact absurd rfl (hl' _ List.mem_cons_self d m)
      have : s1.cached = false := by
        obtain rfl := Option.some.inj h3
        unfold getObj
        rw [if_neg (by rw [h1]; exact Bool.false_ne_true)]
        exact h1
      rw [hun ops s1 s' hops' hnh this h4] at hc
      cases hc
    | cons =>
      refine ih hops' (at_apply hop h h3) ?_ ?_ hno' h4 hc <;>
      · obtain rfl := Option.some.inj h3
        unfold getCons
        rw [if_neg (by rw [h1]; exact Bool.false_ne_true)]
        assumption
    | grad =>
      refine ih hops' (at_apply hop h h3) ?_ ?_ hno' h4 hc <;>
      · obtain rfl := Option.some.inj h3
        assumption
    | hess d m =>
      obtain ⟨⟨s1', y⟩, h5, rfl⟩ := Option.map_eq_some_iff.mp h3
      obtain ⟨s2, h6, h7⟩ := Option.map_eq_some_iff.mp h5
      obtain ⟨rfl, -⟩ := Prod.mk.inj h7
      obtain ⟨a1, -, -, a4, a5⟩ := at_ensure h h6
      rw [if_neg (by rw [h2]; exact Bool.false_ne_true)] at a5
      exact (stored_run hops' a1 a4 a5 h4).2

end AmplFunc
end Sleqp
