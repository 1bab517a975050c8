import Verif.Lemmas.LpBackend

/-! The stored bases of the LP back ends. -/

namespace Sleqp
variable {K : Type*} [Field K] [LinearOrder K]

theorem setAt_keep {α : Type*} {f : Nat → α} {k k' : Nat} (x : α) (h : k' ≠ k) : setAt f k' x k = f k := setAt_ne _ _ (Ne.symm h)

theorem highs_step_keeps {inf : K} {s s' : HighsLpi K} {o : LpiOp K HighsStat} {k : Nat} (hs : s.step inf o = some s') (hk : o.Keeps k) :
    s'.bases k = s.bases k ∧ s.numBases ≤ s'.numBases := by
  cases o with
  | bounds => obtain rfl := Option.some.inj hs; exact ⟨rfl, le_refl _⟩
  | coeffs a =>
    unfold HighsLpi.step at hs
    dsimp only at hs
    split at hs
    · obtain rfl := Option.some.inj hs; exact ⟨rfl, le_refl _⟩
    · exact absurd hs (by simp)
  | objective => obtain rfl := Option.some.inj hs; exact ⟨rfl, le_refl _⟩
  | setBasis k' => obtain rfl := Option.some.inj hs; exact ⟨setAt_keep _ hk, le_max_left _ _⟩
  | saveBasis k' =>
    obtain ⟨b, -, hs⟩ := Option.bind_eq_some_iff.mp hs
    obtain rfl := Option.some.inj hs
    exact ⟨setAt_keep _ hk, le_max_left _ _⟩
  | restoreBasis k' =>
    unfold HighsLpi.step at hs
    dsimp only at hs
    split at hs
    · obtain ⟨b, -, hs⟩ := Option.bind_eq_some_iff.mp hs
      obtain rfl := Option.some.inj hs
      exact ⟨rfl, le_refl _⟩
    · exact absurd hs (by simp)
  | solve =>
    obtain ⟨t, ht, hs⟩ := Option.bind_eq_some_iff.mp hs
    obtain rfl := Option.some.inj hs
    unfold HighsLpi.prepare at ht
    split at ht
    · exact absurd ht (by simp)
    · obtain rfl := Option.some.inj ht; exact ⟨rfl, le_refl _⟩

theorem highs_run_keeps {inf : K} {s s' : HighsLpi K} {h : List (LpiOp K HighsStat)} {k : Nat} (hs : s.run inf h = some s')
    (hk : ∀ o ∈ h, o.Keeps k) : s'.bases k = s.bases k ∧ s.numBases ≤ s'.numBases :=
  foldlM_hist _ (fun h s' => (∀ o ∈ h, o.Keeps k) → s'.bases k = s.bases k ∧ s.numBases ≤ s'.numBases) s (fun _ => ⟨rfl, le_refl _⟩)
    (fun _ _ o _ ih hs hk => by
      obtain ⟨a, b⟩ := ih fun o ho => hk o (List.mem_append_left _ ho)
      obtain ⟨c, d⟩ := highs_step_keeps hs (hk o (by simp))
      exact ⟨c.trans a, b.trans d⟩) h s' hs hk

theorem soplex_step_keeps {s s' : SoplexLpi K} {o : LpiOp K SpxStat} {k : Nat} (hs : s.step o = some s') (hk : o.Keeps k) :
    s'.bases k = s.bases k ∧ s.numBases ≤ s'.numBases := by
  cases o with
  | bounds =>
    unfold SoplexLpi.step at hs
    dsimp only at hs
    split at hs
    · obtain rfl := Option.some.inj hs; exact ⟨rfl, le_refl _⟩
    · exact absurd hs (by simp)
  | coeffs a =>
    unfold SoplexLpi.step at hs
    dsimp only at hs
    split at hs
    · obtain rfl := Option.some.inj hs; exact ⟨rfl, le_refl _⟩
    · exact absurd hs (by simp)
  | objective => obtain rfl := Option.some.inj hs; exact ⟨rfl, le_refl _⟩
  | setBasis k' => obtain rfl := Option.some.inj hs; exact ⟨setAt_keep _ hk, le_max_left _ _⟩
  | saveBasis k' =>
    obtain ⟨b, -, hs⟩ := Option.bind_eq_some_iff.mp hs
    obtain rfl := Option.some.inj hs
    exact ⟨setAt_keep _ hk, le_max_left _ _⟩
  | restoreBasis k' =>
    unfold SoplexLpi.step at hs
    dsimp only at hs
    split at hs
    · obtain rfl := Option.some.inj hs
      exact ⟨rfl, le_refl _⟩
    · exact absurd hs (by simp)
  | solve => obtain rfl := Option.some.inj hs; exact ⟨rfl, le_refl _⟩

theorem soplex_run_keeps {s s' : SoplexLpi K} {h : List (LpiOp K SpxStat)} {k : Nat} (hs : s.run h = some s')
    (hk : ∀ o ∈ h, o.Keeps k) : s'.bases k = s.bases k ∧ s.numBases ≤ s'.numBases :=
  foldlM_hist _ (fun h s' => (∀ o ∈ h, o.Keeps k) → s'.bases k = s.bases k ∧ s.numBases ≤ s'.numBases) s (fun _ => ⟨rfl, le_refl _⟩)
    (fun _ _ o _ ih hs hk => by
      obtain ⟨a, b⟩ := ih fun o ho => hk o (List.mem_append_left _ ho)
      obtain ⟨c, d⟩ := soplex_step_keeps hs (hk o (by simp))
      exact ⟨c.trans a, b.trans d⟩) h s' hs hk

theorem gurobi_step_keeps {s s' : GurobiLpi K} {o : LpiOp K Int} {k : Nat} (hs : s.step o = some s') (hk : o.Keeps k) :
    s'.bases k = s.bases k ∧ s.numBases ≤ s'.numBases ∧ s'.numCols = s.numCols := by
  cases o with
  | bounds => obtain rfl := Option.some.inj hs; exact ⟨rfl, le_refl _, rfl⟩
  | coeffs a =>
    unfold GurobiLpi.step at hs
    dsimp only at hs
    split at hs
    · obtain rfl := Option.some.inj hs; exact ⟨rfl, le_refl _, rfl⟩
    · exact absurd hs (by simp)
  | objective => obtain rfl := Option.some.inj hs; exact ⟨rfl, le_refl _, rfl⟩
  | setBasis k' => obtain rfl := Option.some.inj hs; exact ⟨setAt_keep _ hk, le_max_left _ _, rfl⟩
  | saveBasis k' =>
    obtain ⟨b, -, hs⟩ := Option.bind_eq_some_iff.mp hs
    obtain rfl := Option.some.inj hs
    exact ⟨setAt_keep _ hk, le_max_left _ _, rfl⟩
  | restoreBasis k' =>
    unfold GurobiLpi.step at hs
    dsimp only at hs
    split at hs
    · obtain ⟨b, -, hs⟩ := Option.bind_eq_some_iff.mp hs
      obtain rfl := Option.some.inj hs
      exact ⟨rfl, le_refl _, rfl⟩
    · exact absurd hs (by simp)
  | solve => obtain rfl := Option.some.inj hs; exact ⟨rfl, le_refl _, rfl⟩

theorem gurobi_run_keeps {s s' : GurobiLpi K} {h : List (LpiOp K Int)} {k : Nat} (hs : s.run h = some s')
    (hk : ∀ o ∈ h, o.Keeps k) : s'.bases k = s.bases k ∧ s.numBases ≤ s'.numBases ∧ s'.numCols = s.numCols :=
  foldlM_hist _ (fun h s' => (∀ o ∈ h, o.Keeps k) → s'.bases k = s.bases k ∧ s.numBases ≤ s'.numBases ∧ s'.numCols = s.numCols) s
    (fun _ => ⟨rfl, le_refl _, rfl⟩)
    (fun _ _ o _ ih hs hk => by
      obtain ⟨a, b, e⟩ := ih fun o ho => hk o (List.mem_append_left _ ho)
      obtain ⟨c, d, f⟩ := gurobi_step_keeps hs (hk o (by simp))
      exact ⟨c.trans a, b.trans d, f.trans e⟩) h s' hs hk

/-- split a run -/
theorem foldlM_split {σ ο : Type*} {step : σ → ο → Option σ} {s s' : σ} {h h' : List ο} {o : ο}
    (hr : (h ++ o :: h').foldlM step s = some s') :
    ∃ t t', h.foldlM step s = some t ∧ step t o = some t' ∧ h'.foldlM step t' = some s' := by
  rw [List.foldlM_append] at hr
  obtain ⟨t, ht, hr⟩ := Option.bind_eq_some_iff.mp hr
  rw [List.foldlM_cons] at hr
  obtain ⟨t', ht', hr⟩ := Option.bind_eq_some_iff.mp hr
  exact ⟨t, t', ht, ht', hr⟩

theorem highs_stat_inv (b : BaseStat) : HighsLpi.statFor (HighsLpi.statFrom b) = some b := by cases b <;> rfl
theorem soplex_stat_inv (b : BaseStat) : SoplexLpi.statFor (SoplexLpi.statFrom b) = some b := by cases b <;> rfl
theorem gurobi_stat_inv {b : BaseStat} (h : b ≠ .zero) : GurobiLpi.statFor (GurobiLpi.statFrom b) = some b := by
  cases b <;> first | rfl | exact absurd rfl h

end Sleqp
