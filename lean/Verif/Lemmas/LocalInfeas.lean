import Verif.Spec.LocalInfeas
import Verif.Lemmas.Cursor

/-! C86: loops of the question for local infeasibility. -/

namespace Sleqp
variable {K : Type*} [Field K] [LinearOrder K]

theorem radiusLoop_spec {e : LpEnv K} {s : CauchyLp K} {X L U : List (Nat × K)} (hX : Srt X) (hL : Srt L) (hU : Srt U) (n : Nat) :
    ∀ a b, (s.radiusLoop e (List.range' a n) (cursorTo a X) (cursorTo a L) (cursorTo a U)) = some b →
      (b = true ↔ ∃ i, a ≤ i ∧ i < a + n ∧ RegionActive e.eps s.radius (valAt L) (valAt U) (valAt X) s.varStats i) := by
  induction n with
  | zero =>
    intro a b h
    simp only [List.range'_zero, CauchyLp.radiusLoop, Option.some.injEq] at h
    subst h
    simp only [Bool.false_eq_true, false_iff]
    rintro ⟨i, h1, h2, -⟩
    omega
  | succ n ih =>
    intro a b h
    rw [List.range'_succ] at h
    unfold CauchyLp.radiusLoop at h
    dsimp only at h
    rw [cursorTo_cursorTo (le_refl a), cursorTo_cursorTo (le_refl a), cursorTo_cursorTo (le_refl a), cursorVal_cursorTo hX,
      cursorVal_cursorTo hL, cursorVal_cursorTo hU] at h
    have hrest : ∀ (_ : s.radiusLoop e (List.range' (a + 1) n) (cursorTo a X) (cursorTo a L) (cursorTo a U) = some b)
        (_ : ¬ RegionActive e.eps s.radius (valAt L) (valAt U) (valAt X) s.varStats a),
        (b = true ↔ ∃ i, a ≤ i ∧ i < a + (n + 1) ∧ RegionActive e.eps s.radius (valAt L) (valAt U) (valAt X) s.varStats i) := by
      intro h1 h2
      have hc : s.radiusLoop e (List.range' (a + 1) n) (cursorTo (a + 1) X) (cursorTo (a + 1) L) (cursorTo (a + 1) U) = some b := by
        rcases n with _ | n
        · exact h1
        · rw [List.range'_succ] at h1 ⊢
          unfold CauchyLp.radiusLoop at h1 ⊢
          dsimp only at h1 ⊢
          simp only [cursorTo_cursorTo (Nat.le_succ a), cursorTo_cursorTo (le_refl (a + 1))] at h1 ⊢
          exact h1
      rw [ih _ _ hc]
      constructor
      · rintro ⟨i, h3, h4, h5⟩
        exact ⟨i, by omega, by omega, h5⟩
      · rintro ⟨i, h3, h4, h5⟩
        refine ⟨i, ?_, by omega, h5⟩
        rcases Nat.eq_or_lt_of_le h3 with rfl | h6
        · exact absurd h5 h2
        · exact h6
    split at h
    · split at h
      · rename_i h2
        exact hrest h fun h3 => by rw [h3.1] at h2; cases h2
      · rename_i h2
        have h2' : isEq (valAt L a) (valAt U a) e.eps = false := by simpa using h2
        split at h
        · rename_i h3
          obtain rfl := Option.some.inj h
          exact ⟨fun _ => ⟨a, le_refl a, by omega, h2', Or.inl h3⟩, fun _ => rfl⟩
        · rename_i h3
          split at h
          · rename_i h4
            obtain rfl := Option.some.inj h
            exact ⟨fun _ => ⟨a, le_refl a, by omega, h2', Or.inr h4⟩, fun _ => rfl⟩
          · rename_i h4
            refine hrest h fun h5 => ?_
            rcases h5.2 with h6 | h6
            · exact h3 h6
            · exact h4 h6
    · cases h

theorem feasibleBody_spec {e : LpEnv K} {s : CauchyLp K} (l : List Nat) :
    ∀ a b, l.foldlM (feasibleBody e s) a = some b →
      (b = true ↔ a = true ∧ ∀ i ∈ l, ¬ SlackUsed e.numVars e.numCons s.varStats s.consStats i) := by
  induction l with
  | nil =>
    intro a b h
    obtain rfl := Option.some.inj h
    simp
  | cons i l ih =>
    intro a b h
    rw [List.foldlM_cons] at h
    obtain ⟨c, hc, h⟩ := Option.bind_eq_some_iff.mp h
    rw [ih _ _ h]
    have hi : c = true ↔ a = true ∧ ¬ SlackUsed e.numVars e.numCons s.varStats s.consStats i := by
      unfold feasibleBody at hc
      unfold SlackUsed
      split at hc
      · rename_i h1
        obtain rfl := Option.some.inj hc
        simp [h1]
      · rename_i h1
        split at hc
        · obtain rfl := Option.some.inj hc
          simp only [Bool.and_eq_true, decide_eq_true_eq, not_and, not_or, not_not]
          exact ⟨fun h => ⟨h.1, fun _ => h.2⟩, fun h => ⟨h.1, h.2 h1⟩⟩
        · cases hc
    rw [hi]
    simp only [List.mem_cons, forall_eq_or_imp]
    tauto

end Sleqp
