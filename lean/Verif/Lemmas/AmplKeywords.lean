import Verif.Model.AmplKeywords
import Mathlib.Algebra.Order.Field.Rat
import Mathlib.Data.List.Nodup

/-! C87: processing of single options. -/

namespace Sleqp
namespace AmplOptions
variable {K : Type*} [Field K] [LinearOrder K] {accepts : Nat → K → Bool} {lo hi : K}

/-- one option whose pointer is valid -/
theorem apply_some (s : AmplOptions K) {k : AmplKey} (v : K) (h : s.info k = true) :
    ∃ t, s.apply accepts lo hi k v = some t ∧ (∀ j, j ≠ k → t.info j = s.info j) ∧
      (∀ pos, t.settings pos = if k = .setting pos ∧ accepts pos v = true then v else s.settings pos) ∧
      (t.timeLimit = if k = .timeLimit ∧ v ≠ -1 then v else s.timeLimit) ∧
      (t.iterLimit = if (k = .maxIter ∨ k = .maxIt) ∧ v ≠ -1 then v else s.iterLimit) ∧
      (t.logLevel = if (k = .printLevel ∨ k = .outLev) ∧ v ≠ -1 then v else s.logLevel) ∧
      (t.haltOnError = if k = .haltOnError ∧ v = 1 then true else if k = .haltOnError ∧ v = 0 then false else s.haltOnError) := by
  have hd : ∀ j, j ≠ k → (s.dangle k).info j = s.info j := fun j hj => if_neg hj
  cases k with
  | setting pos =>
    by_cases ha : accepts pos v = true
    · refine ⟨{ s.dangle (.setting pos) with settings := fun p => if p = pos then v else s.settings p }, ?_, hd, ?_, rfl, rfl, rfl, rfl⟩
      · simp [apply, h, ha]
      · intro p
        by_cases hp : p = pos
        · subst hp; simp [ha]
        · have : ¬ (AmplKey.setting pos = .setting p ∧ accepts p v = true) := by
            rintro ⟨h1, -⟩
            injection h1 with h1
            exact hp h1.symm
          rw [if_neg this]
          exact if_neg hp
    · refine ⟨{ s.dangle (.setting pos) with bad := s.bad + 1 }, ?_, hd, ?_, rfl, rfl, rfl, rfl⟩
      · simp [apply, h, ha]
      · intro p
        have : ¬ (AmplKey.setting pos = .setting p ∧ accepts p v = true) := by
          rintro ⟨h1, h2⟩
          injection h1 with h1
          subst h1
          exact ha h2
        rw [if_neg this]
        rfl
  | maxIter =>
    by_cases hv : v = -1
    · exact ⟨s.dangle .maxIter, by simp [apply, hv], hd, by simp [dangle], by simp [dangle], by simp [hv, dangle], by simp [dangle], by simp [dangle]⟩
    · exact ⟨{ s.dangle .maxIter with iterLimit := v, bad := if v < 0 then s.bad + 1 else s.bad }, by simp [apply, hv, h], hd,
        by simp [dangle], by simp [dangle], by simp [hv], by simp [dangle], by simp [dangle]⟩
  | maxIt =>
    by_cases hv : v = -1
    · exact ⟨s.dangle .maxIt, by simp [apply, hv], hd, by simp [dangle], by simp [dangle], by simp [hv, dangle], by simp [dangle], by simp [dangle]⟩
    · exact ⟨{ s.dangle .maxIt with iterLimit := v, bad := if v < 0 then s.bad + 1 else s.bad }, by simp [apply, hv, h], hd,
        by simp [dangle], by simp [dangle], by simp [hv], by simp [dangle], by simp [dangle]⟩
  | timeLimit =>
    by_cases hv : v = -1
    · exact ⟨s.dangle .timeLimit, by simp [apply, hv], hd, by simp [dangle], by simp [hv, dangle], by simp [dangle], by simp [dangle], by simp [dangle]⟩
    · exact ⟨{ s.dangle .timeLimit with timeLimit := v, bad := if v < 0 then s.bad + 1 else s.bad }, by simp [apply, hv, h], hd,
        by simp [dangle], by simp [hv], by simp [dangle], by simp [dangle], by simp [dangle]⟩
  | printLevel =>
    by_cases hv : v = -1
    · exact ⟨s.dangle .printLevel, by simp [apply, hv], hd, by simp [dangle], by simp [dangle], by simp [dangle], by simp [hv, dangle], by simp [dangle]⟩
    · exact ⟨{ s.dangle .printLevel with logLevel := v, bad := if v < lo ∨ hi < v then s.bad + 1 else s.bad }, by simp [apply, hv], hd,
        by simp [dangle], by simp [dangle], by simp [dangle], by simp [hv], by simp [dangle]⟩
  | outLev =>
    by_cases hv : v = -1
    · exact ⟨s.dangle .outLev, by simp [apply, hv], hd, by simp [dangle], by simp [dangle], by simp [dangle], by simp [hv, dangle], by simp [dangle]⟩
    · exact ⟨{ s.dangle .outLev with logLevel := v, bad := if v < lo ∨ hi < v then s.bad + 1 else s.bad }, by simp [apply, hv], hd,
        by simp [dangle], by simp [dangle], by simp [dangle], by simp [hv], by simp [dangle]⟩
  | haltOnError =>
    by_cases h1 : v = 1
    · exact ⟨{ s.dangle .haltOnError with haltOnError := true }, by simp [apply, h1, h], hd,
        by simp [dangle], by simp [dangle], by simp [dangle], by simp [dangle], by simp [h1]⟩
    · by_cases h0 : v = 0
      · exact ⟨{ s.dangle .haltOnError with haltOnError := false }, by subst h0; simp [apply, h], hd,
          by simp [dangle], by simp [dangle], by simp [dangle], by simp [dangle], by subst h0; simp⟩
      · exact ⟨{ s.dangle .haltOnError with bad := s.bad + 1 }, by simp [apply, h1, h0], hd,
          by simp [dangle], by simp [dangle], by simp [dangle], by simp [dangle], by simp [h1, h0, dangle]⟩

/-- what remains unchanged when an option is not given -/
theorem run_other {os : List (AmplKey × K)} : ∀ {s : AmplOptions K}, (os.map Prod.fst).Nodup → (∀ k ∈ os.map Prod.fst, s.info k = true) →
    ∃ t, s.run accepts lo hi os = some t ∧
      (∀ pos, AmplKey.setting pos ∉ os.map Prod.fst → t.settings pos = s.settings pos) ∧
      (AmplKey.timeLimit ∉ os.map Prod.fst → t.timeLimit = s.timeLimit) ∧
      (AmplKey.haltOnError ∉ os.map Prod.fst → t.haltOnError = s.haltOnError) ∧
      (AmplKey.maxIter ∉ os.map Prod.fst → AmplKey.maxIt ∉ os.map Prod.fst → t.iterLimit = s.iterLimit) ∧
      (AmplKey.printLevel ∉ os.map Prod.fst → AmplKey.outLev ∉ os.map Prod.fst → t.logLevel = s.logLevel) := by
  induction os with
  | nil => exact fun _ _ => ⟨_, rfl, fun _ _ => rfl, fun _ => rfl, fun _ => rfl, fun _ _ => rfl, fun _ _ => rfl⟩
  | cons o os ih =>
    obtain ⟨k, v⟩ := o
    intro s hn hi'
    rw [List.map_cons, List.nodup_cons] at hn
    obtain ⟨t, h1, h2, h3, h4, h5, h6, h7⟩ := apply_some (accepts := accepts) (lo := lo) (hi := hi) s v (hi' k (by simp))
    obtain ⟨u, g1, g2, g3, g4, g5, g6⟩ := ih (s := t) hn.2 (fun j hj => by
      rw [h2 j (by rintro rfl; exact hn.1 hj)]
      exact hi' j (by rw [List.map_cons]; exact List.mem_cons_of_mem _ hj))
    refine ⟨u, ?_, ?_, ?_, ?_, ?_, ?_⟩
    · unfold run
      rw [List.foldlM_cons]
      show (s.apply accepts lo hi k v).bind _ = _
      rw [h1]
      exact g1
    · intro pos hp
      rw [List.map_cons, List.mem_cons, not_or] at hp
      rw [g2 pos hp.2, h3, if_neg (fun c => hp.1 c.1.symm)]
    · intro hp
      rw [List.map_cons, List.mem_cons, not_or] at hp
      rw [g3 hp.2, h4, if_neg (fun c => hp.1 c.1.symm)]
    · intro hp
      rw [List.map_cons, List.mem_cons, not_or] at hp
      rw [g4 hp.2, h7, if_neg (fun c => hp.1 c.1.symm), if_neg (fun c => hp.1 c.1.symm)]
    · intro hp hq
      rw [List.map_cons, List.mem_cons, not_or] at hp hq
      rw [g5 hp.2 hq.2, h5, if_neg (fun c => c.1.elim (fun c => hp.1 c.symm) fun c => hq.1 c.symm)]
    · intro hp hq
      rw [List.map_cons, List.mem_cons, not_or] at hp hq
      rw [g6 hp.2 hq.2, h6, if_neg (fun c => c.1.elim (fun c => hp.1 c.symm) fun c => hq.1 c.symm)]

end AmplOptions
end Sleqp
