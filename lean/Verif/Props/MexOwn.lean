import Verif.Model.MexOwn
import Verif.Props.Own

/-! C109: calls from MATLAB release what they allocate. -/

namespace Sleqp

/-- all setups -/
def MexSetup.all : List MexSetup :=
  [MexKind.regular, .lsq, .dyn].flatMap fun k => [false, true].flatMap fun a => [false, true].flatMap fun b =>
    [false, true].flatMap fun d => [false, true].map fun e => ⟨k, a, b, d, e⟩

theorem MexSetup.mem_all (c : MexSetup) : c ∈ MexSetup.all := by
  obtain ⟨k, a, b, d, e⟩ := c
  cases k <;> cases a <;> cases b <;> cases d <;> cases e <;> decide

/-- number of objects alive -/
def mexAlive (h : Heap MexTy) : Nat := ((List.range h.next).filter fun a => (h.obj a).isSome).length

/-- count of an object -/
def mexCount (h : Heap MexTy) (a : Nat) : Option Nat := (h.obj a).map (·.rc)

theorem ownRun_append {T : Type*} (L : Layout T) (a b : List (OwnOp T)) (h : Heap T) :
    ownRun L h (a ++ b) = (ownRun L h a).bind fun h' => ownRun L h' b := by
  induction a generalizing h with
  | nil => rfl
  | cons o a ih =>
    show (ownStep L h o).bind _ = ((ownStep L h o).bind _).bind _
    cases ownStep L h o with
    | none => rfl
    | some h' => exact ih h'

/-- test of the memory after a program -/
def mexCheck (ops : List (OwnOp MexTy)) (P : Heap MexTy → Bool) : Bool :=
  match ownRun mexLib Heap.empty ops with
  | some h => P h
  | none => false

theorem mexCheck_spec {ops : List (OwnOp MexTy)} {P : Heap MexTy → Bool} (h : mexCheck ops P = true) :
    ∃ h, ownRun mexLib Heap.empty ops = some h ∧ P h = true := by
  unfold mexCheck at h
  cases h1 : ownRun mexLib Heap.empty ops with
  | none => rw [h1] at h; cases h
  | some h' => rw [h1] at h; exact ⟨h', rfl, h⟩

/-- C109 (in part): no call from MATLAB, completed or failed at any point, touches freed memory or releases anything twice, and the
structures of regular and least-squares functions release exactly what they own: by `C92_safe` their data are freed with
the last reference.  Missing: see the violations. -/
theorem C109_safe_partial (c : MexSetup) :
    (∃ h, ownRun mexLib Heap.empty (mexSolveProg c).1 = some h) ∧
    (∀ k, ∃ h, ownRun mexLib Heap.empty (mexFailedProg c k) = some h) ∧
    ∀ ty, ty ≠ .dynData → mexLib.Sound ty := by
  have h0 : ∃ h, ownRun mexLib Heap.empty (mexSolveProg c).1 = some h := by
    have : ∀ c ∈ MexSetup.all, (ownRun mexLib Heap.empty (mexSolveProg c).1).isSome := by decide +kernel
    exact Option.isSome_iff_exists.mp (this c c.mem_all)
  refine ⟨h0, fun k => ?_, fun ty h => sound_of_soundB ?_⟩
  · obtain ⟨h, hh⟩ := h0
    rw [← List.take_append_drop k (mexSolveProg c).1, ownRun_append] at hh
    cases h1 : ownRun mexLib Heap.empty (mexFailedProg c k) with
    | some h' => exact ⟨h', rfl⟩
    | none =>
      unfold mexFailedProg at h1
      rw [h1] at hh
      cases hh
  · cases ty <;> first | exact absurd rfl h | decide +kernel

/-- C109 is violated: every completed call from MATLAB leaves the function, its data and the settings allocated, because
`mex_problem_create` does not release its own reference to the function. -/
theorem C109_leak_violated (c : MexSetup) :
    ∃ h, ownRun mexLib Heap.empty (mexSolveProg c).1 = some h ∧ mexCount h (mexSolveProg c).2.2.1 = some 1 ∧
      0 < (mexCount h (mexSolveProg c).2.1).getD 0 ∧ mexCount h (mexSolveProg c).2.2.2 = none ∧ 4 ≤ mexAlive h := by
  have : ∀ c ∈ MexSetup.all, mexCheck (mexSolveProg c).1 fun h => decide (mexCount h (mexSolveProg c).2.2.1 = some 1 ∧
      0 < (mexCount h (mexSolveProg c).2.1).getD 0 ∧ mexCount h (mexSolveProg c).2.2.2 = none ∧ 4 ≤ mexAlive h) := by
    decide +kernel
  obtain ⟨h, h1, h2⟩ := mexCheck_spec (this c c.mem_all)
  exact ⟨h, h1, of_decide_eq_true h2⟩

/-- C109, what would be needed: with a release of that reference at the end a call leaves nothing behind, for regular and
least-squares functions. -/
theorem C109_released_partial (c : MexSetup) (hk : c.kind ≠ .dyn) :
    ∃ h, ownRun mexLib Heap.empty ((mexSolveProg c).1 ++ [.release (mexSolveProg c).2.2.1]) = some h ∧ mexAlive h = 0 := by
  have : ∀ c ∈ MexSetup.all, c.kind ≠ .dyn → mexCheck ((mexSolveProg c).1 ++ [.release (mexSolveProg c).2.2.1])
      fun h => decide (mexAlive h = 0) := by
    decide +kernel
  obtain ⟨h, h1, h2⟩ := mexCheck_spec (this c c.mem_all hk)
  exact ⟨h, h1, of_decide_eq_true h2⟩

/-- C109 is violated: releasing a dynamic function destroys arrays twice: `dyn_func_free` destroys the structure with the
error information, with it its fields, and then these fields again.  (The missing release above hides this.) -/
theorem C109_dynamic_violated (c : MexSetup) (hk : c.kind = .dyn) :
    ¬ mexLib.Sound .dynData ∧
    ownRun mexLib Heap.empty ((mexSolveProg c).1 ++ [.release (mexSolveProg c).2.2.1]) = none := by
  constructor
  · intro hs
    have h1 : "error_bound" ∈ mexLib.released .dynData := by decide +kernel
    have h2 : ¬ mexLib.Owns .dynData "error_bound" := by
      show ¬ ("error_bound", true) ∈ mexLib.fields .dynData
      decide +kernel
    exact h2 ((hs.1 _).mpr h1)
  · have : ∀ c ∈ MexSetup.all, c.kind = .dyn →
        (ownRun mexLib Heap.empty ((mexSolveProg c).1 ++ [.release (mexSolveProg c).2.2.1])).isNone := by decide +kernel
    exact Option.isNone_iff_eq_none.mp (this c c.mem_all hk)

/-- C109 is violated: a call which fails before its end (for instance because a callback raises an error) leaves everything
allocated so far.  For every setup there is such a point at which the settings, the function with its data, the problem, the starting point
and the solver stay. -/
theorem C109_failure_violated (c : MexSetup) :
    ∃ k h, k < (mexSolveProg c).1.length ∧ ownRun mexLib Heap.empty (mexFailedProg c k) = some h ∧
      (mexCount h (mexSolveProg c).2.2.2).isSome ∧ mexAlive h ≥ 7 := by
  have : ∀ c ∈ MexSetup.all, mexCheck (mexFailedProg c ((mexSolveProg c).1.length - 5))
      fun h => decide ((mexCount h (mexSolveProg c).2.2.2).isSome ∧ mexAlive h ≥ 7) := by
    decide +kernel
  have hl : ∀ c ∈ MexSetup.all, (mexSolveProg c).1.length - 5 < (mexSolveProg c).1.length := by decide +kernel
  obtain ⟨h, h1, h2⟩ := mexCheck_spec (this c c.mem_all)
  exact ⟨_, h, hl c c.mem_all, h1, of_decide_eq_true h2⟩

/-- What stays after one call for a regular problem with constraints and Hessian products: the settings, the data with its
three arrays and the function. -/
example : (ownRun mexLib Heap.empty (mexSolveProg ⟨.regular, true, true, true, false⟩).1).map mexAlive = some 6 := by
  decide +kernel

end Sleqp
