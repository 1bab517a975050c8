import Verif.Model.PyViews
import Mathlib.Data.Rat.Defs
import Mathlib.Algebra.Field.Rat

/-!
C118: objects of the Python interface which refer to an iterate.
-/

namespace Sleqp
variable {K : Type*}
namespace PyRefs

/-- reference counts are the numbers of objects which exist, memory is that of the matrix, and it is there as long as there are references -/
structure Inv (s : PyRefs K) : Prop where
  iter : s.iterRefs = s.iterates + (if s.solver then 1 else 0)
  mat : s.matRefs = s.views.length + (if s.iterRefs = 0 then 0 else 1)
  set : s.setRefs = s.sets + (if s.iterRefs = 0 then 0 else 1)
  live : s.matRefs ≠ 0 → (∃ b, s.mem s.cur = some b ∧ s.nnz ≤ b.cap) ∧ ∃ p, s.ptr = some p
  dead : s.matRefs = 0 → s.mem s.cur = none ∧ s.ptr = none
  only : ∀ b, b ≠ s.cur → s.mem b = none
  fresh : s.cur < s.next

theorem inv_ofMat {m : Mat K} (hm : m.nnz ≤ m.cap) : (ofMat m).Inv where
  iter := rfl
  mat := rfl
  set := rfl
  live _ := ⟨⟨_, rfl, hm⟩, _, rfl⟩
  dead h := by cases h
  only b hb := if_neg hb
  fresh := Nat.one_pos

/-- the parts of the matrix which only the library changes -/
def Same (s t : PyRefs K) : Prop :=
  t.cur = s.cur ∧ t.nnz = s.nnz ∧ t.numRows = s.numRows ∧ t.numCols = s.numCols ∧ (t.mem = s.mem ∧ t.ptr = s.ptr ∨ t.mem t.cur = none)

/-- the part of the invariant about memory -/
structure MemInv (s : PyRefs K) : Prop where
  live : s.matRefs ≠ 0 → (∃ b, s.mem s.cur = some b ∧ s.nnz ≤ b.cap) ∧ ∃ p, s.ptr = some p
  dead : s.matRefs = 0 → s.mem s.cur = none ∧ s.ptr = none
  only : ∀ b, b ≠ s.cur → s.mem b = none
  fresh : s.cur < s.next

theorem Inv.memInv {s : PyRefs K} (h : s.Inv) : s.MemInv := ⟨h.live, h.dead, h.only, h.fresh⟩

theorem Inv.of {s : PyRefs K} (h : s.MemInv) (h1 : s.iterRefs = s.iterates + (if s.solver then 1 else 0))
    (h2 : s.matRefs = s.views.length + (if s.iterRefs = 0 then 0 else 1)) (h3 : s.setRefs = s.sets + (if s.iterRefs = 0 then 0 else 1)) : s.Inv :=
  ⟨h1, h2, h3, h.live, h.dead, h.only, h.fresh⟩

theorem same_refl (s : PyRefs K) : s.Same s := ⟨rfl, rfl, rfl, rfl, .inl ⟨rfl, rfl⟩⟩

theorem releaseMat_spec {s : PyRefs K} (h : s.MemInv) (hr : s.matRefs ≠ 0) :
    ∃ t, s.releaseMat = some t ∧ t.MemInv ∧ s.Same t ∧ t.matRefs = s.matRefs - 1 ∧ t.iterRefs = s.iterRefs ∧ t.setRefs = s.setRefs ∧
      t.solver = s.solver ∧ t.iterates = s.iterates ∧ t.views = s.views ∧ t.sets = s.sets := by
  unfold releaseMat
  rw [if_neg hr]
  by_cases h1 : s.matRefs = 1
  · rw [if_pos h1]
    refine ⟨_, rfl, ⟨fun h => absurd rfl h, fun _ => ⟨by simp [setAt], rfl⟩, fun b hb => ?_, h.fresh⟩,
      ⟨rfl, rfl, rfl, rfl, .inr (by simp [setAt])⟩, by simp [h1], rfl, rfl, rfl, rfl, rfl, rfl⟩
    simp only [setAt, if_neg hb]
    exact h.only b hb
  · rw [if_neg h1]
    exact ⟨_, rfl, ⟨fun _ => h.live hr, fun h' => absurd h' (by dsimp only; omega), h.only, h.fresh⟩, ⟨rfl, rfl, rfl, rfl, .inl ⟨rfl, rfl⟩⟩,
      rfl, rfl, rfl, rfl, rfl, rfl, rfl⟩

theorem releaseIter_spec {s : PyRefs K} (h : s.MemInv) (h1 : s.iterRefs = s.iterates + (if s.solver then 1 else 0) + 1)
    (h2 : s.matRefs = s.views.length + 1) (h3 : s.setRefs = s.sets + 1) : ∃ t, s.releaseIter = some t ∧ t.Inv ∧ s.Same t := by
  unfold releaseIter
  rw [if_neg (by omega)]
  by_cases hi : s.iterRefs = 1
  · rw [if_pos hi]
    unfold releaseSet
    rw [if_neg (by dsimp only; omega)]
    obtain ⟨t, a1, a2, a3, a4, a5, a6, a7, a8, a9, a10⟩ :=
      releaseMat_spec (s := { s with iterRefs := 0, setRefs := s.setRefs - 1 }) ⟨h.live, h.dead, h.only, h.fresh⟩ (by dsimp only; omega)
    refine ⟨t, a1, Inv.of a2 ?_ ?_ ?_, a3⟩
    · rw [a5, a8, a7]; dsimp only; omega
    · rw [a4, a9, a5]; dsimp only; rw [if_pos rfl]; omega
    · rw [a6, a10, a5]; dsimp only; rw [if_pos rfl]; omega
  · rw [if_neg hi]
    refine ⟨_, rfl, Inv.of ⟨h.live, h.dead, h.only, h.fresh⟩ ?_ ?_ ?_, ⟨rfl, rfl, rfl, rfl, .inl ⟨rfl, rfl⟩⟩⟩
    · dsimp only; omega
    · dsimp only; rw [if_neg (by omega)]; exact h2
    · dsimp only; rw [if_neg (by omega)]; exact h3

/-- an operation which is not an assignment by the library -/
def Op.quiet : Op K → Bool
  | .update _ => false
  | _ => true

theorem step_spec {s : PyRefs K} (h : s.Inv) {op : Op K} (hc : s.can op) : ∃ t, s.step op = some t ∧ t.Inv ∧ (op.quiet = true → s.Same t) := by
  have hi := h.iter
  have hm := h.mat
  have hs := h.set
  cases op with
  | getIterate =>
    have hc : s.solver = true := hc
    rw [if_pos hc] at hi
    rw [if_neg (by omega)] at hm hs
    refine ⟨_, if_neg (by omega), Inv.of ⟨h.live, h.dead, h.only, h.fresh⟩ ?_ ?_ ?_, fun _ => ⟨rfl, rfl, rfl, rfl, .inl ⟨rfl, rfl⟩⟩⟩
    · dsimp only; rw [if_pos hc]; omega
    · dsimp only; rw [if_neg (by omega)]; exact hm
    · dsimp only; rw [if_neg (by omega)]; exact hs
  | dropIterate =>
    have hc : 0 < s.iterates := hc
    rw [if_neg (by omega)] at hm hs
    obtain ⟨t, a1, a2, a3⟩ := releaseIter_spec (s := { s with iterates := s.iterates - 1 }) ⟨h.live, h.dead, h.only, h.fresh⟩
      (by dsimp only; omega) hm hs
    exact ⟨t, a1, a2, fun _ => a3⟩
  | getJac =>
    have hc : 0 < s.iterates := hc
    rw [if_neg (by omega)] at hm hs
    simp only [step]
    rw [if_neg (by omega)]
    by_cases hn : s.nnz = 0
    · rw [if_pos hn]
      exact ⟨s, rfl, h, fun _ => same_refl s⟩
    · rw [if_neg hn]
      refine ⟨_, rfl, Inv.of ⟨fun _ => h.live (by omega), fun h' => ?_, h.only, h.fresh⟩ h.iter ?_ ?_, fun _ => ⟨rfl, rfl, rfl, rfl, .inl ⟨rfl, rfl⟩⟩⟩
      · dsimp only at h'; omega
      · dsimp only; rw [if_neg (by omega), List.length_append, List.length_singleton]; omega
      · dsimp only; rw [if_neg (by omega)]; exact hs
  | dropJac k =>
    have hc : k < s.views.length := hc
    obtain ⟨t, a1, a2, a3, a4, a5, a6, a7, a8, a9, a10⟩ :=
      releaseMat_spec (s := { s with views := s.views.eraseIdx k }) ⟨h.live, h.dead, h.only, h.fresh⟩ (by dsimp only; omega)
    refine ⟨t, a1, Inv.of a2 ?_ ?_ ?_, fun _ => a3⟩
    · rw [a5, a8, a7]; exact hi
    · rw [a4, a9, a5]; dsimp only; rw [List.length_eraseIdx, if_pos hc]; omega
    · rw [a6, a10, a5]; exact hs
  | getSet =>
    have hc : 0 < s.iterates := hc
    rw [if_neg (by omega)] at hm hs
    refine ⟨_, if_neg (by omega), Inv.of ⟨h.live, h.dead, h.only, h.fresh⟩ hi ?_ ?_, fun _ => ⟨rfl, rfl, rfl, rfl, .inl ⟨rfl, rfl⟩⟩⟩
    · dsimp only; rw [if_neg (by omega)]; exact hm
    · dsimp only; rw [if_neg (by omega)]; omega
  | dropSet =>
    have hc : 0 < s.sets := hc
    refine ⟨{ s with sets := s.sets - 1, setRefs := s.setRefs - 1 }, if_neg (by dsimp only; omega), Inv.of ⟨h.live, h.dead, h.only, h.fresh⟩ hi hm ?_,
      fun _ => ⟨rfl, rfl, rfl, rfl, .inl ⟨rfl, rfl⟩⟩⟩
    dsimp only; omega
  | update m =>
    obtain ⟨hc, c1, c2, c3⟩ : s.solver = true ∧ m.numRows = s.numRows ∧ m.numCols = s.numCols ∧ m.nnz ≤ m.cap := hc
    rw [if_pos hc] at hi
    rw [if_neg (by omega)] at hm
    obtain ⟨⟨b, e1, e2⟩, p, e3⟩ := h.live (by omega)
    have hfresh := h.fresh
    simp only [step, PyRefs.update, e1, e3, Option.bind_some]
    by_cases hn : m.nnz ≤ b.cap
    · rw [if_pos hn]
      refine ⟨_, rfl, Inv.of ⟨fun _ => ⟨⟨_, if_pos rfl, hn⟩, _, rfl⟩, fun h' => ?_, fun c hcn => ?_, hfresh⟩ h.iter h.mat h.set, fun h' => by cases h'⟩
      · dsimp only at h'; omega
      · simp only [setAt, if_neg hcn]; exact h.only c hcn
    · rw [if_neg hn]
      refine ⟨_, rfl, Inv.of ⟨fun _ => ⟨⟨_, if_pos rfl, le_refl _⟩, _, rfl⟩, fun h' => ?_, fun c hcn => ?_, Nat.lt_succ_self _⟩ h.iter h.mat h.set,
        fun h' => by cases h'⟩
      · dsimp only at h'; omega
      · dsimp only at hcn
        simp only [setAt, if_neg hcn]
        split
        · rfl
        · rename_i h'; exact h.only c h'
  | dropSolver =>
    have hc : s.solver = true := hc
    rw [if_pos hc] at hi
    rw [if_neg (by omega)] at hm hs
    obtain ⟨t, a1, a2, a3⟩ := releaseIter_spec (s := { s with solver := false }) ⟨h.live, h.dead, h.only, h.fresh⟩
      (by dsimp only; rw [if_neg (by decide)]; omega) hm hs
    exact ⟨t, a1, a2, fun _ => a3⟩

theorem run_inv : ∀ (ops : List (Op K)) {s : PyRefs K}, s.Inv → s.Possible ops → ∃ t, s.run ops = some t ∧ t.Inv
  | [], s, h, _ => ⟨s, rfl, h⟩
  | op :: ops, s, h, hp => by
    obtain ⟨t, h1, h2, -⟩ := step_spec h hp.1
    obtain ⟨u, h3, h4⟩ := run_inv ops h2 (hp.2 t h1)
    refine ⟨u, ?_, h4⟩
    unfold run at h3 ⊢
    rw [List.foldlM_cons, h1]
    exact h3

/-- Whatever is done with iterates, Jacobians and working sets, in any order, no memory is used after it has been released: the iterate is there as long as the solver or a
wrapper of it, the Jacobian as long as one of these or a matrix handed out, the working set as long as one of these or a wrapper of it; and not longer,
no other memory being left. -/
theorem C118_lifetime {m : Mat K} (hm : m.nnz ≤ m.cap) (ops : List (Op K)) (hp : (ofMat m).Possible ops) :
    ∃ s, (ofMat m).run ops = some s ∧ (s.iterRefs ≠ 0 ↔ s.solver = true ∨ 0 < s.iterates) ∧
      (s.jac.isSome = true ↔ s.solver = true ∨ 0 < s.iterates ∨ s.views ≠ []) ∧
      (s.setRefs ≠ 0 ↔ s.solver = true ∨ 0 < s.iterates ∨ 0 < s.sets) ∧ ∀ b, (s.mem b).isSome = true → b = s.cur ∧ s.jac.isSome = true := by
  obtain ⟨s, h1, h⟩ := run_inv ops (inv_ofMat hm) hp
  have hi : s.iterRefs ≠ 0 ↔ s.solver = true ∨ 0 < s.iterates := by
    rw [h.iter]
    cases s.solver <;> simp <;> omega
  have hj : s.jac.isSome = true ↔ s.matRefs ≠ 0 := by
    constructor
    · intro hj h0
      unfold jac at hj
      rw [(h.dead h0).1] at hj
      cases hj
    · intro h0
      obtain ⟨⟨b, e1, -⟩, p, e2⟩ := h.live h0
      unfold jac
      rw [e1, e2]
      rfl
  refine ⟨s, h1, hi, ?_, ?_, fun b hb => ?_⟩
  · rw [hj, h.mat, ← or_assoc, ← hi, ← List.length_pos_iff]
    split <;> omega
  · rw [h.set, ← or_assoc, ← hi]
    split <;> omega
  · by_cases hbc : b = s.cur
    · refine ⟨hbc, hj.mpr fun h0 => ?_⟩
      rw [hbc, (h.dead h0).1] at hb
      cases hb
    · rw [h.only b hbc] at hb
      cases hb

theorem run_same : ∀ (ops : List (Op K)) {s t : PyRefs K}, s.Inv → s.Possible ops → (∀ op ∈ ops, op.quiet = true) → s.run ops = some t → s.Same t
  | [], s, t, _, _, _, h => by
    cases h; exact same_refl s
  | op :: ops, s, t, hi, hp, hq, h => by
    obtain ⟨u, h1, h2, h3⟩ := step_spec hi hp.1
    have hu := h3 (hq op (List.mem_cons_self ..))
    unfold run at h
    rw [List.foldlM_cons, h1] at h
    have ht := run_same ops h2 (hp.2 u h1) (fun o ho => hq o (List.mem_cons_of_mem _ ho)) h
    obtain ⟨a1, a2, a3, a4, a5⟩ := hu
    obtain ⟨b1, b2, b3, b4, b5⟩ := ht
    refine ⟨b1.trans a1, b2.trans a2, b3.trans a3, b4.trans a4, ?_⟩
    rcases b5 with ⟨c1, c2⟩ | c
    · rcases a5 with ⟨d1, d2⟩ | d
      · exact .inl ⟨c1.trans d1, c2.trans d2⟩
      · exact .inr (by rw [c1, b1]; exact d)
    · exact .inr c

/-- The matrix handed out for the Jacobian of an iterate has the values of the Jacobian, and keeps them, also when the solver and the iterate
have been deleted. (Part: as long as the library does not assign another Jacobian to this iterate, see `C118_changed_violated` and `C118_dangling_violated`, and if
the Jacobian is not empty, see `C118_empty_violated`.) -/
theorem C118_view_partial [Field K] {m : Mat K} (hm : m.nnz ≤ m.cap) (before : List (Op K)) (hb : (ofMat m).Possible before) {s s1 s2 : PyRefs K}
    (h0 : (ofMat m).run before = some s) (hi : 0 < s.iterates) (hn : s.nnz ≠ 0) (h1 : s.step .getJac = some s1) (ops : List (Op K))
    (hp : s1.Possible ops) (hq : ∀ op ∈ ops, op.quiet = true) (h2 : s1.run ops = some s2) :
    ∃ v J, s1.views = s.views ++ [v] ∧ s.jac = some J ∧
      (v ∈ s2.views → ∃ M, s2.read v = some M ∧ M.numRows = J.numRows ∧ M.numCols = J.numCols ∧ M.nnz = J.nnz ∧ ∀ i j, M.value i j = J.value i j) := by
  obtain ⟨s', e1, e2⟩ := run_inv before (inv_ofMat hm) hb
  rw [h0] at e1
  obtain rfl := Option.some.inj e1
  obtain ⟨u, a1, a2, a3⟩ := step_spec (op := .getJac) e2 hi
  rw [h1] at a1
  obtain rfl := Option.some.inj a1
  have hiter : s.iterRefs ≠ 0 := by have := e2.iter; omega
  have hmat : s.matRefs ≠ 0 := by have := e2.mat; rw [if_neg hiter] at this; omega
  obtain ⟨⟨b, m1, m2⟩, p, m3⟩ := e2.live hmat
  simp only [step] at h1
  rw [if_neg (by omega), if_neg hn] at h1
  have hv : s1.views = s.views ++ [⟨s.cur, s.nnz⟩] := by cases h1; rfl
  refine ⟨⟨s.cur, s.nnz⟩, ⟨s.numRows, s.numCols, s.nnz, b.cap, p, b.row, b.val⟩, hv, by unfold jac; rw [m1, m3]; rfl, fun hmem => ?_⟩
  obtain ⟨u2, f1, f2⟩ := run_inv ops a2 hp
  rw [h2] at f1
  obtain rfl := Option.some.inj f1
  have hlen := List.length_pos_of_mem hmem
  have hlive := f2.live (by have := f2.mat; omega)
  obtain ⟨g1, g2, g3, g4, g5⟩ := run_same ops a2 hp hq h2
  obtain ⟨k1, k2, k3, k4, k5⟩ := a3 rfl
  obtain ⟨⟨b', n1, -⟩, p', n2⟩ := hlive
  rcases g5 with ⟨g5, g6⟩ | g5
  · rcases k5 with ⟨k5, k6⟩ | k5
    · refine ⟨⟨s2.numRows, s2.numCols, s.nnz, s.nnz, p, b.row, b.val⟩, ?_, g3.trans k3, g4.trans k4, rfl, fun i j => rfl⟩
      unfold read
      rw [g5, k5, g6, k6, m3]
      show (s.mem s.cur).bind _ = _
      rw [m1]
      rfl
    · rw [k1] at k5
      rw [g5, g1, k1, k5] at n1
      cases n1
  · rw [g5] at n1
    cases n1

end PyRefs

/-- The states of variables (or constraints) are those of the working set. (Part: for indices in range, see `C118_index_violated`.) -/
theorem C118_state_partial (states : Nat → ActiveState) (n i : Nat) (h : i < n) : pyState states n i = some (states i) := by
  unfold pyState
  rw [if_pos ⟨by omega, by omega⟩]
  rfl

/-! ### examples and violations -/

/-- a Jacobian with one row and two columns, values 3 and 4, and room for two entries -/
def exViewMat : Mat ℚ := ⟨1, 2, 2, 2, fun j => j, fun _ => 0, fun k => 3 + k⟩

/-- another one with value 7 in the second column -/
def exViewOther : Mat ℚ := ⟨1, 2, 2, 2, fun j => j, fun _ => 0, fun k => 7 - k⟩

/-- a Jacobian with two rows, and room for one entry -/
def exViewSmall : Mat ℚ := ⟨2, 1, 1, 1, fun j => j, fun _ => 0, fun _ => 3⟩

/-- the same with two entries -/
def exViewLarge : Mat ℚ := ⟨2, 1, 2, 2, fun j => 2 * j, fun k => k, fun _ => 5⟩

/-- a Jacobian kept after everything else has been deleted, as in `C118_lifetime` and `C118_view_partial` -/
example : (PyRefs.ofMat exViewMat).Possible [.getIterate, .getJac, .dropSolver, .dropIterate, .dropJac 0] ∧
    (((PyRefs.ofMat exViewMat).run [.getIterate, .getJac, .dropSolver, .dropIterate]).bind fun s => (s.read ⟨0, 2⟩).map fun M => (M.value 0 0, M.value 0 1)) =
      some (3, 4) ∧
    (((PyRefs.ofMat exViewMat).run [.getIterate, .getJac, .dropSolver, .dropIterate, .dropJac 0]).map fun s => (s.jac.isSome, s.setRefs)) = some (false, 0) := by
  refine ⟨⟨rfl, fun s h => ?_⟩, by decide +kernel, by decide +kernel⟩
  cases h
  refine ⟨Nat.one_pos, fun s h => ?_⟩
  cases h
  refine ⟨rfl, fun s h => ?_⟩
  cases h
  refine ⟨Nat.one_pos, fun s h => ?_⟩
  cases h
  exact ⟨Nat.one_pos, fun s h => trivial⟩

/-- A Jacobian kept from a callback (or from `solver.solution`) changes when the solver goes on: its values are those of a later Jacobian. Here the entry 3 becomes 7. -/
theorem C118_changed_violated :
    (PyRefs.ofMat exViewMat).Possible [.getIterate, .getJac, .update exViewOther] ∧
    (((PyRefs.ofMat exViewMat).run [.getIterate, .getJac]).bind fun s => (s.read ⟨0, 2⟩).map fun M => M.value 0 0) = some 3 ∧
    (((PyRefs.ofMat exViewMat).run [.getIterate, .getJac, .update exViewOther]).bind fun s => (s.read ⟨0, 2⟩).map fun M => M.value 0 0) = some 7 := by
  refine ⟨⟨rfl, fun s h => ?_⟩, by decide +kernel, by decide +kernel⟩
  cases h
  refine ⟨Nat.one_pos, fun s h => ?_⟩
  cases h
  exact ⟨⟨rfl, rfl, rfl, Nat.le_refl _⟩, fun s h => trivial⟩

/-- When a later Jacobian needs more room, its memory is moved, and a Jacobian kept in Python refers to memory which has been released. -/
theorem C118_dangling_violated :
    (PyRefs.ofMat exViewSmall).Possible [.getIterate, .getJac, .update exViewLarge] ∧
    ∃ s, (PyRefs.ofMat exViewSmall).run [.getIterate, .getJac, .update exViewLarge] = some s ∧ s.views = [⟨0, 1⟩] ∧ s.read ⟨0, 1⟩ = none := by
  refine ⟨⟨rfl, fun s h => ?_⟩, ?_⟩
  · cases h
    refine ⟨Nat.one_pos, fun s h => ?_⟩
    cases h
    exact ⟨⟨rfl, rfl, rfl, Nat.le_refl _⟩, fun s h => trivial⟩
  · exact ⟨_, rfl, rfl, rfl⟩

/-- The Jacobian of an iterate cannot be obtained at all, but an exception is raised, if it has no entries, as for all problems without constraints. -/
theorem C118_empty_violated (m : Mat K) (hm : m.nnz = 0) (s : PyRefs K) (h : (PyRefs.ofMat m).run [.getIterate] = some s) :
    s.jacRaises = true ∧ s.jac.isSome = true := by
  cases h
  exact ⟨decide_eq_true hm, rfl⟩

/-- Asking for the state of a variable or constraint which does not exist, such as the last one by the index -1, reads memory outside of the array of states. -/
theorem C118_index_violated (states : Nat → ActiveState) (n : Nat) : pyState states n (-1) = none ∧ pyState states n n = none := by
  unfold pyState
  exact ⟨if_neg (by omega), if_neg (by omega)⟩

end Sleqp
