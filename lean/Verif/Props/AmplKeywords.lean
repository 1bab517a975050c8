import Verif.Lemmas.AmplKeywords

/-! C87: options given to the AMPL solver. -/

namespace Sleqp
open AmplOptions
variable {K : Type*} [Field K] [LinearOrder K] {accepts : Nat → K → Bool} {lo hi : K}

/-- When every keyword is given at most once, all options are processed, in any order; each option given has the value given, all others keep their
values. (A limit of -1 stands for no limit. Limits and levels are those given if only one of their two names is used.)
Missing: keywords given twice, see `C87_twice_violated`. -/
theorem C87_once_partial {settings : Nat → K} {level : K} {os : List (AmplKey × K)} (hn : (os.map Prod.fst).Nodup) :
    ∃ t, (create settings level).run accepts lo hi os = some t ∧
      (∀ pos v, (AmplKey.setting pos, v) ∈ os → accepts pos v = true → t.settings pos = v) ∧
      (∀ pos, AmplKey.setting pos ∉ os.map Prod.fst → t.settings pos = settings pos) ∧
      (∀ v, (AmplKey.timeLimit, v) ∈ os → t.timeLimit = v) ∧ (AmplKey.timeLimit ∉ os.map Prod.fst → t.timeLimit = -1) ∧
      (∀ v, (AmplKey.maxIter, v) ∈ os → AmplKey.maxIt ∉ os.map Prod.fst → t.iterLimit = v) ∧
      (∀ v, (AmplKey.maxIt, v) ∈ os → AmplKey.maxIter ∉ os.map Prod.fst → t.iterLimit = v) ∧
      (AmplKey.maxIter ∉ os.map Prod.fst → AmplKey.maxIt ∉ os.map Prod.fst → t.iterLimit = -1) ∧
      ((AmplKey.haltOnError, 1) ∈ os → t.haltOnError = true) ∧ (AmplKey.haltOnError ∉ os.map Prod.fst → t.haltOnError = false) := by
  obtain ⟨t, h1, h2, h3, h4, h5, -⟩ := run_other (accepts := accepts) (lo := lo) (hi := hi) (s := create settings level) hn (fun _ _ => rfl)
  refine ⟨t, h1, ?_⟩
  -- split the list at an option
  have key : ∀ k v, (k, v) ∈ os → ∃ s1 s2 a b, os = a ++ (k, v) :: b ∧ k ∉ a.map Prod.fst ∧ k ∉ b.map Prod.fst ∧
      (create settings level).run accepts lo hi a = some s1 ∧ s1.apply accepts lo hi k v = some s2 ∧ s2.run accepts lo hi b = some t ∧
      (b.map Prod.fst).Nodup ∧ (∀ j ∈ b.map Prod.fst, s2.info j = true) ∧ s1.info k = true := by
    intro k v hk
    obtain ⟨a, b, rfl⟩ := List.append_of_mem hk
    have h1' := h1
    unfold run at h1'
    rw [List.foldlM_append] at h1'
    obtain ⟨s1, g1, g2⟩ := Option.bind_eq_some_iff.mp h1'
    rw [List.foldlM_cons] at g2
    obtain ⟨s2, g3, g4⟩ := Option.bind_eq_some_iff.mp g2
    rw [List.map_append, List.map_cons, List.nodup_append] at hn
    obtain ⟨n1, n2, n3⟩ := hn
    rw [List.nodup_cons] at n2
    -- pointers of keywords which were not used yet are valid
    have hinfo : ∀ (l : List (AmplKey × K)) (s s' : AmplOptions K) j, j ∉ l.map Prod.fst → (l.map Prod.fst).Nodup →
        (∀ k ∈ l.map Prod.fst, s.info k = true) → s.run accepts lo hi l = some s' → s'.info j = s.info j := by
      intro l
      induction l with
      | nil =>
        intro s s' j _ _ _ hr
        obtain rfl := Option.some.inj hr
        rfl
      | cons o l ih =>
        obtain ⟨k', v'⟩ := o
        intro s s' j hj hl hs hr
        rw [List.map_cons, List.mem_cons, not_or] at hj
        rw [List.map_cons, List.nodup_cons] at hl
        obtain ⟨u, e1, e2, -⟩ := apply_some (accepts := accepts) (lo := lo) (hi := hi) s v' (hs k' (by simp))
        unfold run at hr
        rw [List.foldlM_cons] at hr
        obtain ⟨u', e3, e4⟩ := Option.bind_eq_some_iff.mp hr
        dsimp only at e3
        rw [e1] at e3
        obtain rfl := Option.some.inj e3
        rw [ih u s' j hj.2 hl.2 (fun i hi'' => by
          rw [e2 i (by rintro rfl; exact hl.1 hi'')]
          exact hs i (by rw [List.map_cons]; exact List.mem_cons_of_mem _ hi'')) e4, e2 j hj.1]
    have ka : k ∉ a.map Prod.fst := fun h => n3 k h k List.mem_cons_self rfl
    have i1 : s1.info k = true := hinfo a _ s1 k ka n1 (fun _ _ => rfl) g1
    refine ⟨s1, s2, a, b, rfl, ka, n2.1, g1, g3, g4, n2.2, fun j hj => ?_, i1⟩
    obtain ⟨u, e1, e2, -⟩ := apply_some (accepts := accepts) (lo := lo) (hi := hi) s1 v i1
    rw [show s2 = u from Option.some.inj (g3.symm.trans e1), e2 j (by rintro rfl; exact n2.1 hj)]
    exact hinfo a _ s1 j (fun h => n3 j h j (List.mem_cons_of_mem _ hj) rfl) n1 (fun _ _ => rfl) g1
  refine ⟨?_, h2, ?_, fun h => h3 h, ?_, ?_, fun h h' => h5 h h', ?_, fun h => h4 h⟩
  · intro pos v hk ha
    obtain ⟨s1, s2, a, b, rfl, -, kb, -, g3, g4, nb, ib, i1⟩ := key _ _ hk
    obtain ⟨u, e1, -, e3, -⟩ := apply_some (accepts := accepts) (lo := lo) (hi := hi) s1 v i1
    obtain rfl : s2 = u := Option.some.inj (g3.symm.trans e1)
    obtain ⟨t', f1, f2, -⟩ := run_other (accepts := accepts) (lo := lo) (hi := hi) nb ib
    obtain rfl : t = t' := Option.some.inj (g4.symm.trans f1)
    rw [f2 pos kb, e3, if_pos ⟨rfl, ha⟩]
  · intro v hk
    obtain ⟨s1, s2, a, b, rfl, ka, kb, g1, g3, g4, nb, ib, i1⟩ := key _ _ hk
    obtain ⟨u, e1, -, -, e4, -⟩ := apply_some (accepts := accepts) (lo := lo) (hi := hi) s1 v i1
    obtain rfl : s2 = u := Option.some.inj (g3.symm.trans e1)
    obtain ⟨t', f1, -, f3, -⟩ := run_other (accepts := accepts) (lo := lo) (hi := hi) nb ib
    obtain rfl : t = t' := Option.some.inj (g4.symm.trans f1)
    rw [f3 kb, e4]
    by_cases hv : v = -1
    · rw [if_neg (fun c => c.2 hv), hv]
      have na : (a.map Prod.fst).Nodup := by
        rw [List.map_append, List.nodup_append] at hn
        exact hn.1
      obtain ⟨s1', q1, -, q3, -⟩ := run_other (accepts := accepts) (lo := lo) (hi := hi) (s := create settings level) na (fun _ _ => rfl)
      obtain rfl : s1 = s1' := Option.some.inj (g1.symm.trans q1)
      exact q3 ka
    · rw [if_pos ⟨rfl, hv⟩]
  · intro v hk hno
    obtain ⟨s1, s2, a, b, rfl, ka, kb, g1, g3, g4, nb, ib, i1⟩ := key _ _ hk
    obtain ⟨u, e1, -, -, -, e5, -⟩ := apply_some (accepts := accepts) (lo := lo) (hi := hi) s1 v i1
    obtain rfl : s2 = u := Option.some.inj (g3.symm.trans e1)
    obtain ⟨t', f1, -, -, -, f5, -⟩ := run_other (accepts := accepts) (lo := lo) (hi := hi) nb ib
    obtain rfl : t = t' := Option.some.inj (g4.symm.trans f1)
    rw [List.map_append, List.map_cons, List.mem_append, not_or, List.mem_cons, not_or] at hno
    rw [f5 kb hno.2.2, e5]
    by_cases hv : v = -1
    · rw [if_neg (fun c => c.2 hv), hv]
      have na : (a.map Prod.fst).Nodup := by
        rw [List.map_append, List.nodup_append] at hn
        exact hn.1
      obtain ⟨s1', q1, -, -, -, q5, -⟩ := run_other (accepts := accepts) (lo := lo) (hi := hi) (s := create settings level) na (fun _ _ => rfl)
      obtain rfl : s1 = s1' := Option.some.inj (g1.symm.trans q1)
      exact q5 ka hno.1
    · rw [if_pos ⟨Or.inl rfl, hv⟩]
  · intro v hk hno
    obtain ⟨s1, s2, a, b, rfl, ka, kb, g1, g3, g4, nb, ib, i1⟩ := key _ _ hk
    obtain ⟨u, e1, -, -, -, e5, -⟩ := apply_some (accepts := accepts) (lo := lo) (hi := hi) s1 v i1
    obtain rfl : s2 = u := Option.some.inj (g3.symm.trans e1)
    obtain ⟨t', f1, -, -, -, f5, -⟩ := run_other (accepts := accepts) (lo := lo) (hi := hi) nb ib
    obtain rfl : t = t' := Option.some.inj (g4.symm.trans f1)
    rw [List.map_append, List.map_cons, List.mem_append, not_or, List.mem_cons, not_or] at hno
    rw [f5 hno.2.2 kb, e5]
    by_cases hv : v = -1
    · rw [if_neg (fun c => c.2 hv), hv]
      have na : (a.map Prod.fst).Nodup := by
        rw [List.map_append, List.nodup_append] at hn
        exact hn.1
      obtain ⟨s1', q1, -, -, -, q5, -⟩ := run_other (accepts := accepts) (lo := lo) (hi := hi) (s := create settings level) na (fun _ _ => rfl)
      obtain rfl : s1 = s1' := Option.some.inj (g1.symm.trans q1)
      exact q5 hno.1 ka
    · rw [if_pos ⟨Or.inr rfl, hv⟩]
  · intro hk
    obtain ⟨s1, s2, a, b, rfl, -, kb, -, g3, g4, nb, ib, i1⟩ := key _ _ hk
    obtain ⟨u, e1, -, -, -, -, -, e7⟩ := apply_some (accepts := accepts) (lo := lo) (hi := hi) s1 1 i1
    obtain rfl : s2 = u := Option.some.inj (g3.symm.trans e1)
    obtain ⟨t', f1, -, -, f4, -⟩ := run_other (accepts := accepts) (lo := lo) (hi := hi) nb ib
    obtain rfl : t = t' := Option.some.inj (g4.symm.trans f1)
    rw [f4 kb, e7, if_pos ⟨rfl, rfl⟩]

/-- The functions processing keywords replace the pointer to their data by the address of a local variable. If a setting is given twice, for
instance in the environment and on the command line, the second use reads this variable, which no longer exists: for every setting and all values. -/
theorem C87_twice_violated (settings : Nat → K) (level : K) (pos : Nat) (v w : K) :
    (create settings level).run accepts lo hi [(.setting pos, v), (.setting pos, w)] = none := by
  unfold run
  rw [List.foldlM_cons]
  by_cases ha : accepts pos v = true
  · simp [apply, create, dangle, ha]
  · simp [apply, create, dangle, ha]

/-- ... and so do the limits. -/
theorem C87_limit_twice_violated (settings : Nat → K) (level v w : K) (hv : v ≠ -1) (hw : w ≠ -1) :
    (create settings level).run accepts lo hi [(.maxIter, v), (.maxIter, w)] = none ∧
      (create settings level).run accepts lo hi [(.timeLimit, v), (.timeLimit, w)] = none := by
  unfold run
  constructor <;> simp [apply, create, dangle, hv, hw]

/-- the hypotheses of `C87_once_partial` are met: four different keywords -/
example : (([(.maxIt, 50), (.setting 3, 1), (.printLevel, 2), (.timeLimit, 10)] : List (AmplKey × ℚ)).map Prod.fst).Nodup ∧
    ((create (fun _ => (0 : ℚ)) 1).run (fun _ _ => true) 0 4 [(.maxIt, 50), (.setting 3, 1), (.printLevel, 2), (.timeLimit, 10)]).map
      (fun t => (t.iterLimit, t.settings 3, t.settings 2, t.logLevel, t.timeLimit)) = some (50, 1, 0, 2, 10) := by
  constructor <;> decide +kernel

end Sleqp
