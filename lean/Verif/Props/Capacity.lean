import Verif.Spec.Capacity

/-! C96: callbacks get enough space for their results. -/

namespace Sleqp

theorem le_resv (c : Nat) (o : Option Nat) : c ≤ resv c o := by
  cases o with
  | none => exact le_refl _
  | some a => exact Nat.le_max_left _ _

theorem some_le_resv (c a : Nat) (o : Option Nat) (h : o = some a) : a ≤ resv c o := by
  subst h; exact Nat.le_max_right _ _

theorem needed_le {o : Option Nat} {n : Nat} (h : ∀ a, o = some a → a ≤ n) : Needed o n ≤ n := by
  cases o with
  | none => exact le_refl _
  | some a => exact h a rfl

namespace CapFunc

theorem noFixed_vars (f : CapFunc) (h : f.NoFixed) : f.vars = f.base.2.1 ∧ f.cons = f.base.2.2.1 := by
  induction f with
  | user => exact ⟨rfl, rfl⟩
  | scaled f ih => exact ih h
  | quasi f ih => exact ih h
  | fixedVar => exact h.elim

theorem noFixed_targets (f : CapFunc) (h : f.NoFixed) (c : Nat) : f.gradTarget c = c ∧ f.jacTarget c = c := by
  induction f with
  | user => exact ⟨rfl, rfl⟩
  | scaled f ih => exact ih h
  | quasi f ih => exact ih h
  | fixedVar => exact h.elim

theorem cons_base (f : CapFunc) : f.cons = f.base.2.2.1 := by
  induction f with
  | user => rfl
  | scaled f ih => exact ih
  | quasi f ih => exact ih
  | fixedVar _ _ _ f ih => exact ih

theorem lsqNonzeros_noFixed (f : CapFunc) (d : Decl) (h : f.NoFixed) :
    (f.lsqNonzeros d).1.NoFixed ∧ (f.lsqNonzeros d).1.base = f.base ∧ (f.lsqNonzeros d).1.kind = f.kind ∧ (f.lsqNonzeros d).1.vars = f.vars ∧
      ((f.lsqNonzeros d).2 = d ∨ (f.lsqNonzeros d).2 = .nothing) ∧ (f.kind = .lsq → (f.lsqNonzeros d).2 = d) := by
  induction f with
  | user k n m r b => exact ⟨trivial, rfl, rfl, rfl, Or.inl rfl, fun _ => rfl⟩
  | scaled f ih => exact ih h
  | quasi f ih => exact ⟨h, rfl, rfl, rfl, Or.inr rfl, fun hk => by cases hk⟩
  | fixedVar => exact h.elim

theorem nonzeros_noFixed (f : CapFunc) (d : Decl) (h : f.NoFixed) :
    (f.nonzeros d).1.NoFixed ∧ (f.nonzeros d).1.base = f.base ∧ (f.nonzeros d).1.kind = f.kind ∧ (f.nonzeros d).1.vars = f.vars ∧
      ((f.nonzeros d).2 = d ∨ (f.nonzeros d).2 = .nothing) ∧ (¬ f.hasQuasi → (f.nonzeros d).2 = d) := by
  induction f with
  | user k n m r b => cases k <;> exact ⟨trivial, rfl, rfl, rfl, Or.inl rfl, fun _ => rfl⟩
  | scaled f ih =>
    by_cases hk : f.kind = .lsq
    · have hl := lsqNonzeros_noFixed f d h
      have he : (scaled f).nonzeros d = (scaled (f.lsqNonzeros d).1, (f.lsqNonzeros d).2) := by
        show (if f.kind = .lsq then _ else _) = _
        rw [if_pos hk]; rfl
      rw [he]
      exact ⟨hl.1, hl.2.1, hl.2.2.1, hl.2.2.2.1, hl.2.2.2.2.1, fun _ => hl.2.2.2.2.2 hk⟩
    · have he : (scaled f).nonzeros d = (scaled (f.nonzeros d).1, (f.nonzeros d).2) := by
        show (if f.kind = .lsq then _ else _) = _
        rw [if_neg hk]
      rw [he]
      exact ih h
  | quasi f ih => exact ⟨h, rfl, rfl, rfl, Or.inr rfl, fun hk => (hk trivial).elim⟩
  | fixedVar => exact h.elim

/-- the gradient and the Jacobian, for functions without fixed variables -/
theorem noFixed_grad_jac (f : CapFunc) (d : Decl) (h : f.NoFixed) (hd : d.Legal f.base.2.1 f.base.2.2.1) (c1 c2 : Nat)
    (h1 : (f.nonzeros d).2.grad.getD f.vars ≤ c1) (h2 : (f.nonzeros d).2.jac.getD (f.vars * f.cons) ≤ c2) :
    Needed d.grad f.base.2.1 ≤ (f.nonzeros d).1.gradTarget c1 ∧ Needed d.jac (f.base.2.1 * f.base.2.2.1) ≤ (f.nonzeros d).1.jacTarget c2 := by
  obtain ⟨a1, a2, a3, a4, a5, _⟩ := nonzeros_noFixed f d h
  obtain ⟨v1, v2⟩ := noFixed_vars f h
  rw [(noFixed_targets _ a1 c1).1, (noFixed_targets _ a1 c2).2]
  rw [v1] at h1
  rw [v1, v2] at h2
  rcases a5 with e | e
  · rw [e] at h1 h2
    exact ⟨h1, h2⟩
  · rw [e] at h1 h2
    exact ⟨le_trans (needed_le hd.1) h1, le_trans (needed_le hd.2.2) h2⟩

theorem nonzeros_fixed (k g j : Nat) (f : CapFunc) (d : Decl) (hk : f.kind ≠ .lsq) :
    (fixedVar k g j f).nonzeros d = (fixedVar k (max g ((f.nonzeros d).2.grad.getD f.vars)) (max j ((f.nonzeros d).2.jac.getD (f.vars * f.cons)))
      (f.nonzeros d).1, ⟨(f.nonzeros d).2.grad.map (min (f.vars - k)), (f.nonzeros d).2.val, (f.nonzeros d).2.jac,
        (f.nonzeros d).2.hess.map (min (f.vars - k)), (f.nonzeros d).2.res⟩) := by
  show (if f.kind = .lsq then _ else _) = _
  rw [if_neg hk]

theorem nonzeros_fixed_lsq (k g j : Nat) (f : CapFunc) (d : Decl) (hk : f.kind = .lsq) :
    (fixedVar k g j f).nonzeros d = (fixedVar k g (resv j (f.lsqNonzeros d).2.jac) (f.lsqNonzeros d).1,
      ⟨(f.lsqNonzeros d).2.grad.map (min (f.vars - k)), (f.lsqNonzeros d).2.val, (f.lsqNonzeros d).2.jac,
        (f.lsqNonzeros d).2.hess, (f.lsqNonzeros d).2.res⟩) := by
  show (if f.kind = .lsq then _ else _) = _
  rw [if_pos hk]; rfl

/-- the gradient -/
theorem grad_ok (f : CapFunc) (d : Decl) (h : f.Layered) (hd : d.Legal f.base.2.1 f.base.2.2.1) (c : Nat)
    (hc : (f.nonzeros d).2.grad.getD f.vars ≤ c) : Needed d.grad f.base.2.1 ≤ (f.nonzeros d).1.gradTarget c := by
  match f, h with
  | .user k n m r b, h => exact (noFixed_grad_jac _ d h hd c _ hc (le_refl _)).1
  | .scaled f, h => exact (noFixed_grad_jac (.scaled f) d h hd c _ hc (le_refl _)).1
  | .quasi f, h => exact (noFixed_grad_jac (.quasi f) d h hd c _ hc (le_refl _)).1
  | .fixedVar k g j f, h =>
    by_cases hk : f.kind = .lsq
    · rw [nonzeros_fixed_lsq _ _ _ _ _ hk]
      obtain ⟨a1, a2, a3, a4, a5, _⟩ := lsqNonzeros_noFixed f d h
      show _ ≤ (f.lsqNonzeros d).1.gradTarget (if (f.lsqNonzeros d).1.kind = .lsq then (f.lsqNonzeros d).1.vars else g)
      rw [(noFixed_targets _ a1 _).1, a3, if_pos hk, a4, (noFixed_vars f h).1]
      exact needed_le hd.1
    · rw [nonzeros_fixed _ _ _ _ _ hk]
      obtain ⟨a1, a2, a3, a4, a5, _⟩ := nonzeros_noFixed f d h
      show _ ≤ (f.nonzeros d).1.gradTarget (if (f.nonzeros d).1.kind = .lsq then (f.nonzeros d).1.vars else _)
      rw [a3, if_neg hk]
      exact (noFixed_grad_jac f d h hd _ _ (Nat.le_max_right _ _) (le_refl _)).1

/-- the Jacobian -/
theorem jac_ok (f : CapFunc) (d : Decl) (h : f.Layered) (hd : d.Legal f.base.2.1 f.base.2.2.1) (c : Nat)
    (hl : f.kind = .lsq → ¬ f.NoFixed → d.jac ≠ none)
    (hc : (f.nonzeros d).2.jac.getD (f.vars * f.cons) ≤ c) : Needed d.jac (f.base.2.1 * f.base.2.2.1) ≤ (f.nonzeros d).1.jacTarget c := by
  match f, h with
  | .user k n m r b, h => exact (noFixed_grad_jac _ d h hd _ c (le_refl _) hc).2
  | .scaled f, h => exact (noFixed_grad_jac (.scaled f) d h hd _ c (le_refl _) hc).2
  | .quasi f, h => exact (noFixed_grad_jac (.quasi f) d h hd _ c (le_refl _) hc).2
  | .fixedVar k g j f, h =>
    by_cases hk : f.kind = .lsq
    · rw [nonzeros_fixed_lsq _ _ _ _ _ hk]
      obtain ⟨a1, a2, a3, a4, a5, a6⟩ := lsqNonzeros_noFixed f d h
      show _ ≤ (f.lsqNonzeros d).1.jacTarget (resv j (f.lsqNonzeros d).2.jac)
      rw [(noFixed_targets _ a1 _).2, a6 hk]
      rcases hj : d.jac with _ | a
      · exact (hl hk (fun hn => hn) hj).elim
      · exact some_le_resv _ _ _ rfl
    · rw [nonzeros_fixed _ _ _ _ _ hk]
      show _ ≤ (f.nonzeros d).1.jacTarget (max j _)
      exact (noFixed_grad_jac f d h hd _ _ (le_refl _) (Nat.le_max_right _ _)).2

theorem lsqNonzeros_val (f : CapFunc) (d : Decl) (hk : f.kind = .lsq) (hb : f.base.1 ≠ .dynamic) (c : Nat) :
    (f.lsqNonzeros d).1.valTarget c = c ∧ ((f.lsqNonzeros d).2.val = d.val) := by
  induction f with
  | user k n m r b => exact ⟨if_neg hb, rfl⟩
  | scaled f ih => exact ih hk hb
  | quasi f ih => cases hk
  | fixedVar k g j f ih => exact ih hk hb

theorem valTarget_id (f : CapFunc) (hb : f.base.1 ≠ .dynamic) (c : Nat) : f.valTarget c = c := by
  induction f with
  | user k n m r b => exact if_neg hb
  | scaled f ih => exact ih hb
  | quasi f ih => exact ih hb
  | fixedVar k g j f ih => exact ih hb

theorem kind_base (f : CapFunc) (h : ¬ f.hasQuasi) : f.kind = f.base.1 := by
  induction f with
  | user => rfl
  | scaled f ih => exact ih h
  | quasi f ih => exact (h trivial).elim
  | fixedVar _ _ _ f ih => exact ih h

theorem nonzeros_base (f : CapFunc) (d : Decl) : (f.nonzeros d).1.base = f.base ∧ (f.lsqNonzeros d).1.base = f.base := by
  induction f with
  | user k n m r b => cases k <;> exact ⟨rfl, rfl⟩
  | scaled f ih =>
    refine ⟨?_, ih.2⟩
    show (if f.kind = .lsq then _ else _ : CapFunc × Decl).1.base = _
    split
    · exact ih.2
    · exact ih.1
  | quasi f ih => exact ⟨rfl, rfl⟩
  | fixedVar k g j f ih =>
    refine ⟨?_, ih.2⟩
    show (if f.kind = .lsq then _ else _ : CapFunc × Decl).1.base = _
    split
    · exact ih.2
    · exact ih.1

theorem nonzeros_val (f : CapFunc) (d : Decl) :
    ((f.nonzeros d).2.val = d.val ∨ (f.nonzeros d).2.val = none) ∧ ((f.lsqNonzeros d).2.val = d.val ∨ (f.lsqNonzeros d).2.val = none) ∧
    (¬ f.hasQuasi → f.base.1 = .dynamic → ∀ a, d.val = some a → ∀ c, a ≤ (f.nonzeros d).1.valTarget c) := by
  induction f with
  | user k n m r b =>
    refine ⟨by cases k <;> exact Or.inl rfl, Or.inl rfl, ?_⟩
    intro _ hk a ha c
    cases hk
    show a ≤ if FuncKind.dynamic = FuncKind.dynamic then resv b d.val else c
    rw [if_pos rfl]
    exact some_le_resv _ _ _ ha
  | scaled f ih =>
    refine ⟨?_, ih.2.1, ?_⟩
    · show (if f.kind = .lsq then _ else _ : CapFunc × Decl).2.val = _ ∨ (if f.kind = .lsq then _ else _ : CapFunc × Decl).2.val = _
      split
      · exact ih.2.1
      · exact ih.1
    · intro hq hb a ha c
      have hk : f.kind ≠ .lsq := by rw [kind_base f hq, show f.base.1 = _ from hb]; decide
      show a ≤ (if f.kind = .lsq then _ else _ : CapFunc × Decl).1.valTarget c
      rw [if_neg hk]
      exact ih.2.2 hq hb a ha c
  | quasi f ih => exact ⟨Or.inr rfl, Or.inr rfl, fun h => (h trivial).elim⟩
  | fixedVar k g j f ih =>
    refine ⟨?_, ih.2.1, ?_⟩
    · show (if f.kind = .lsq then _ else _ : CapFunc × Decl).2.val = _ ∨ (if f.kind = .lsq then _ else _ : CapFunc × Decl).2.val = _
      split
      · exact ih.2.1
      · exact ih.1
    · intro hq hb a ha c
      have hk : f.kind ≠ .lsq := by rw [kind_base f hq, show f.base.1 = _ from hb]; decide
      rw [nonzeros_fixed _ _ _ _ _ hk]
      exact ih.2.2 hq hb a ha c

end CapFunc

/-- C96: whatever the layers around the user's function and whatever was reserved before, when the gradient is evaluated at a point the solver has set
the function to, the callback gets a vector with space for as many nonzeros as it declares at this point, or for all of them if it
declares nothing. -/
theorem C96_gradient (d : Decl) (P : CapProblem) (it : CapIterate) (h : P.func.Layered) (hd : d.Legal P.func.base.2.1 P.func.base.2.2.1) :
    let (P', it') := it.reserve d P
    Needed d.grad P.func.base.2.1 ≤ P'.gradTarget it'.grad := by
  show _ ≤ (P.func.nonzeros d).1.gradTarget (max it.grad ((P.func.nonzeros d).2.grad.getD P.func.vars))
  exact P.func.grad_ok d h hd _ (Nat.le_max_right _ _)

/-- C96 (in part): the same for the Jacobian, in problems without linear constraints, or if a number of nonzeros is declared and the Hessian is not
approximated; variables may be fixed in least-squares problems if a number of nonzeros is declared. Missing: the other cases, see
`C96_linear_violated` and `C96_fixed_violated`. -/
theorem C96_jacobian_partial (d : Decl) (P : CapProblem) (it : CapIterate) (h : P.func.Layered)
    (hd : d.Legal P.func.base.2.1 P.func.base.2.2.1)
    (hl : P.func.kind = .lsq → ¬ P.func.NoFixed → d.jac ≠ none) (hlin : P.lin = 0 ∨ (P.func.nonzeros d).2.jac ≠ none) :
    let (P', it') := it.reserve d P
    Needed d.jac (P.func.base.2.1 * P.func.base.2.2.1) ≤ P'.jacTarget it'.jac := by
  show _ ≤ (P.func.nonzeros d).1.jacTarget (if P.lin = 0 then _ else resv P.genJac (P.func.nonzeros d).2.jac)
  rcases hlin with hlin | hlin
  · rw [if_pos hlin]
    refine P.func.jac_ok d h hd _ hl (le_trans ?_ (Nat.le_max_right _ _))
    show _ ≤ (((P.func.nonzeros d).2.jac.map (· + P.linNnz)).getD (P.func.vars * (P.func.cons + P.lin)))
    rw [hlin]
    cases (P.func.nonzeros d).2.jac with
    | none => exact le_refl _
    | some a => exact Nat.le_add_right _ _
  · by_cases h0 : P.lin = 0
    · rw [if_pos h0]
      refine P.func.jac_ok d h hd _ hl (le_trans ?_ (Nat.le_max_right _ _))
      show _ ≤ (((P.func.nonzeros d).2.jac.map (· + P.linNnz)).getD (P.func.vars * (P.func.cons + P.lin)))
      cases hj : (P.func.nonzeros d).2.jac with
      | none => exact (hlin hj).elim
      | some a => exact Nat.le_add_right _ _
    · rw [if_neg h0]
      refine P.func.jac_ok d h hd _ hl ?_
      cases hj : (P.func.nonzeros d).2.jac with
      | none => exact (hlin hj).elim
      | some a => exact some_le_resv _ _ _ rfl

/-- the condition on declared nonzeros of the Jacobian in `C96_jacobian_partial`, if no variables are fixed and the Hessian is not approximated -/
example (d : Decl) (f : CapFunc) (h : f.NoFixed) (hq : ¬ f.hasQuasi) (hj : d.jac ≠ none) : (f.nonzeros d).2.jac ≠ none := by
  rw [(f.nonzeros_noFixed d h).2.2.2.2.2 hq]; exact hj

/-- C96 (in part): the same for the constraint values, in problems without linear constraints; for dynamic functions if a number of nonzeros is declared and
the Hessian is not approximated. Missing: the other cases, see `C96_linear_violated` and `C96_dynamic_violated`. -/
theorem C96_values_partial (d : Decl) (P : CapProblem) (it : CapIterate) (hd : d.Legal P.func.base.2.1 P.func.base.2.2.1) (hlin : P.lin = 0)
    (hdyn : P.func.base.1 = .dynamic → d.val ≠ none ∧ ¬ P.func.hasQuasi) :
    let (P', it') := it.reserve d P
    Needed d.val P.func.base.2.2.1 ≤ P'.valTarget it'.val := by
  show _ ≤ (P.func.nonzeros d).1.valTarget (if P.lin = 0 then
    max it.val (((P.func.nonzeros d).2.val.map (· + P.lin)).getD (P.func.cons + P.lin)) else P.genVal)
  rw [if_pos hlin, hlin]
  by_cases hb : P.func.base.1 = .dynamic
  · obtain ⟨h1, h2⟩ := hdyn hb
    rcases hv : d.val with _ | a
    · exact (h1 hv).elim
    · exact (P.func.nonzeros_val d).2.2 h2 hb a hv _
  · rw [CapFunc.valTarget_id _ (by rw [(P.func.nonzeros_base d).1]; exact hb)]
    refine le_trans ?_ (Nat.le_max_right _ _)
    rcases (P.func.nonzeros_val d).1 with e | e
    · rw [e]
      cases hv : d.val with
      | none => show P.func.base.2.2.1 ≤ _; rw [← P.func.cons_base]; exact le_refl _
      | some a => exact le_refl _
    · rw [e]
      show _ ≤ P.func.cons + 0
      rw [P.func.cons_base]
      exact needed_le hd.2.1

/-- C96: the iterate itself has space for the values and the Jacobian of all constraints, general and linear ones. -/
theorem C96_iterate (d : Decl) (P : CapProblem) (it : CapIterate) :
    let (_, it') := it.reserve d P
    let e := (P.func.nonzeros d).2
    (∀ a, e.val = some a → a + P.lin ≤ it'.val) ∧ (∀ a, e.jac = some a → a + P.linNnz ≤ it'.jac) ∧
      (e.val = none → P.cons ≤ it'.val) ∧ (e.jac = none → P.func.vars * P.cons ≤ it'.jac) := by
  refine ⟨fun a ha => ?_, fun a ha => ?_, fun ha => ?_, fun ha => ?_⟩
  · show _ ≤ max it.val (((P.func.nonzeros d).2.val.map (· + P.lin)).getD _)
    rw [ha]; exact Nat.le_max_right _ _
  · show _ ≤ max it.jac (((P.func.nonzeros d).2.jac.map (· + P.linNnz)).getD _)
    rw [ha]; exact Nat.le_max_right _ _
  · show _ ≤ max it.val (((P.func.nonzeros d).2.val.map (· + P.lin)).getD _)
    rw [ha]; exact Nat.le_max_right _ _
  · show _ ≤ max it.jac (((P.func.nonzeros d).2.jac.map (· + P.linNnz)).getD _)
    rw [ha]; exact Nat.le_max_right _ _

/-- A regular function with two variables and one constraint which declares its nonzeros, scaled, with one variable fixed: the callbacks get
the space. -/
example : let P := CapProblem.create (.fixedVar 1 2 0 (.scaled (.user .regular 2 1 0 0))) 0 0
    let (P', it') := CapIterate.create.reserve ⟨some 2, some 1, some 2, none, none⟩ P
    P.func.Layered ∧ P'.gradTarget it'.grad = 2 ∧ P'.valTarget it'.val = 1 ∧ P'.jacTarget it'.jac = 2 := ⟨trivial, rfl, rfl, rfl⟩

/-- C96 is violated: if a problem has linear constraints besides the general ones, the values of the latter are evaluated into a vector for which
space is never reserved, whatever is declared; so is their Jacobian, if the number of its nonzeros is not declared or the Hessian is
approximated. A callback storing its results (as those of the tests do) writes outside. -/
theorem C96_linear_violated (d : Decl) (n m lin linNnz : Nat) (hlin : lin ≠ 0) :
    (let (P', it') := CapIterate.create.reserve d (CapProblem.create (.user .regular n m 0 0) lin linNnz);
      P'.valTarget it'.val = 0 ∧ (d.jac = none → P'.jacTarget it'.jac = 0)) ∧
    (let (P', it') := CapIterate.create.reserve d (CapProblem.create (.quasi (.user .regular n m 0 0)) lin linNnz);
      P'.valTarget it'.val = 0 ∧ P'.jacTarget it'.jac = 0) := by
  refine ⟨⟨?_, fun hj => ?_⟩, ?_, ?_⟩
  · show (if lin = 0 then _ else 0) = 0
    rw [if_neg hlin]
  · show (if lin = 0 then _ else resv 0 d.jac) = 0
    rw [if_neg hlin, hj]; rfl
  · show (if lin = 0 then _ else 0) = 0
    rw [if_neg hlin]
  · show (if lin = 0 then _ else resv 0 none) = 0
    rw [if_neg hlin]; rfl

/-- C96 is violated for dynamic functions: the vector for the constraint values has no space if the number of their nonzeros is not declared, and even if
it is declared when the Hessian is approximated. -/
theorem C96_dynamic_violated (d : Decl) (n m : Nat) :
    (d.val = none → let (P', it') := CapIterate.create.reserve d (CapProblem.create (.user .dynamic n m 0 0) 0 0);
      P'.valTarget it'.val = 0) ∧
    (let (P', it') := CapIterate.create.reserve d (CapProblem.create (.quasi (.user .dynamic n m 0 0)) 0 0);
      P'.valTarget it'.val = 0) := by
  refine ⟨fun hv => ?_, rfl⟩
  show resv 0 d.val = 0
  rw [hv]; rfl

/-- C96 is violated for least-squares functions: the vector for the residuals has no space if the number of their nonzeros is not declared, and even if it is
declared when the problem is scaled. -/
theorem C96_residuals_violated (d : Decl) (n m r : Nat) :
    (d.res = none →
      let (P', _) := CapIterate.create.reserve d (CapProblem.create (.user .lsq n m r 0) 0 0);
      P'.func.resTarget = 0) ∧
    (let (P', _) := CapIterate.create.reserve d (CapProblem.create (.scaled (.user .lsq n m r 0)) 0 0);
      P'.func.resTarget = 0) := by
  refine ⟨fun hv => ?_, rfl⟩
  show resv 0 d.res = 0
  rw [hv]; rfl

/-- C96 is violated when the preprocessor fixes variables of a least-squares problem: the matrix for the Jacobian has no space if the number of its nonzeros is
not declared (for other functions it has). -/
theorem C96_fixed_violated (d : Decl) (n m r k : Nat) (hj : d.jac = none) :
    let (P', it') := CapIterate.create.reserve d (CapProblem.create (.fixedVar k n 0 (.user .lsq n m r 0)) 0 0);
    P'.jacTarget it'.jac = 0 := by
  show resv 0 d.jac = 0
  rw [hj]; rfl

/-- C96 is violated in the restoration phase: if the numbers of nonzeros are not declared, the vector for the constraint values and the matrix for their Jacobian
only have space for the nonzeros there were when the phase was entered. -/
theorem C96_restoration_violated (d : Decl) (n m valNnz jacNnz : Nat) (hv : d.val = none) (hj : d.jac = none) :
    let R := (CapRestoration.init (CapProblem.create (.user .regular n m 0 0) 0 0) valNnz jacNnz).nonzeros d
    R.valTarget = valNnz ∧ R.jacTarget = jacNnz := by
  constructor
  · show resv valNnz (d.val.map _) = valNnz
    rw [hv]; rfl
  · show resv jacNnz (d.jac.map _) = jacNnz
    rw [hj]; rfl

/-- In the restoration phase declared numbers of nonzeros are reserved. -/
theorem C96_restoration_partial (d : Decl) (n m valNnz jacNnz a b : Nat) (hv : d.val = some a) (hj : d.jac = some b) :
    let R := (CapRestoration.init (CapProblem.create (.user .regular n m 0 0) 0 0) valNnz jacNnz).nonzeros d
    a ≤ R.valTarget ∧ b ≤ R.jacTarget := by
  constructor
  · show a ≤ resv valNnz (d.val.map _)
    rw [hv]; exact Nat.le_max_right _ _
  · show b ≤ resv jacNnz (d.jac.map _)
    rw [hj]; exact Nat.le_max_right _ _

/-- C96 is violated when the solver returns from the restoration phase: the gradient is evaluated at the new point without reserving the space declared there;
it has the space reserved at the point where the restoration phase was entered. -/
theorem C96_phase_violated (n : Nat) : ∃ d d' : Decl, d.Legal n 0 ∧ d'.Legal n 0 ∧
    let (P', it') := CapIterate.create.reserve d (CapProblem.create (.user .regular n 0 0 0) 0 0)
    fillOptimizationGrad (P'.nonzeros d').1 it' = 0 ∧ d'.grad = some n :=
  ⟨⟨some 0, none, none, none, none⟩, ⟨some n, none, none, none, none⟩, ⟨by simp, by simp, by simp⟩, ⟨by simp, by simp, by simp⟩, rfl, rfl⟩

/-- C96 is violated for dynamic functions: the vector is not emptied before a further evaluation, so that a callback which stores its values again writes to a
full vector; for other functions it is emptied. -/
theorem C96_stale_violated :
    let callback : Vec Int → Option (Vec Int) := fun v => v.push 0 7
    dynEvalCons callback ⟨1, 1, []⟩ = some ⟨1, 1, [(0, 7)]⟩ ∧ dynEvalCons callback ⟨1, 1, [(0, 7)]⟩ = none ∧
      funcEvalCons callback ⟨1, 1, [(0, 7)]⟩ = some ⟨1, 1, [(0, 7)]⟩ := by
  refine ⟨?_, ?_, ?_⟩ <;> rfl

end Sleqp
