import Verif.Lemmas.FactLoops
import Mathlib.Algebra.Order.Ring.Rat
import Mathlib.Tactic.FieldSimp
import Mathlib.Tactic.NormNum

/-!
C88: the back ends of the factorizations hand the right system to their libraries, stay within
their arrays, and return what solves the system, for all sequences of matrices and right-hand
sides.  C89: the loops which enlarge the work arrays of MA27 and MA57 end.
-/

namespace Sleqp
open Finset
variable {K : Type*} [Field K] [LinearOrder K] {H : Type*}

/-! ### C88 -/

/-- **C88** a reliable back end gives a factorization as expected by the augmented Jacobian (C66) -/
theorem C88_fact {σ : Type*} {B : Backend σ K} {lower : Bool} (h : B.Reliable lower) : (B.fact lower).Correct := by
  intro M b z hM hsq hb hd hs
  unfold Backend.fact at hs
  simp only at hs
  split at hs
  · cases hs
  · rename_i hlow
    have hfit : M.Fits lower := ⟨hM, hsq, fun hl => by subst hl; simpa using hlow⟩
    split at hs
    · rename_i s he
      split at hs
      · rename_i s' he'
        split at hs
        · cases hs
          have := ((h s (some M) (.set .init hfit he)).2 M rfl b hb hd).2 s' he'
          intro i hi
          rw [← hsq]
          exact this.2 i hi
        · cases hs
      · cases hs
    · cases hs

/-- **C88** LAPACK -/
theorem C88_lapack [IsStrictOrderedRing K] {L : LapackLib K} (hL : L.Correct) (junk : Nat → K) :
    (Lapack.backend L junk).Reliable true :=
  reliable_of (Lapack.Inv L) ⟨rfl, rfl, rfl, fun _ hm => by cases hm⟩ (fun _ _ _ h hM => Lapack.inv_set h hM)
    fun _ _ _ h hb hd => Lapack.inv_solve hL h hb hd

/-- **C88** MA27 -/
theorem C88_ma27 [IsStrictOrderedRing K] {L : Ma27Lib H K} (hL : L.Correct) (fuel : Nat) (ijunk : Nat → Nat) (junk : Nat → K) :
    (Ma27.backend L fuel ijunk junk).Reliable true :=
  reliable_of (Ma27.Inv L) ⟨⟨rfl, rfl, rfl⟩, le_rfl, rfl, fun _ hm => by cases hm⟩ (fun _ _ _ h hM => Ma27.inv_set h hM)
    fun _ _ _ h hb hd => Ma27.inv_solve hL h hb hd

/-- **C88** MUMPS -/
theorem C88_mumps [IsStrictOrderedRing K] {L : FactLib (CoordSys K) H K}
    (hL : L.Correct CoordSys.dim CoordSys.entry fun st => 0 ≤ st) (ijunk : Nat → Nat) (junk : Nat → K) :
    (Mumps.backend L ijunk junk).Reliable true :=
  reliable_of (Mumps.Inv L) ⟨rfl, rfl, rfl, le_rfl, fun _ hm => by cases hm⟩ (fun _ _ _ h hM => Mumps.inv_set h hM)
    fun _ _ _ h hb hd => Mumps.inv_solve hL h hb hd

/-- **C88** UMFPACK, as long as no solve fails.  Missing: solves after one which failed, see
`C88_umfpack_violated`. -/
theorem C88_umfpack_partial {L : FactLib (CscSys K) H K} (hL : L.Correct CscSys.numRows CscSys.entry fun st => st = 0)
    (hok : ∀ k x, (L.solve k x).1 = 0) (junk : Nat → K) : (Umfpack.backend L junk).Reliable false :=
  reliable_of (Umfpack.Inv L) ⟨rfl, rfl, fun _ hm => by cases hm⟩ (fun _ _ _ h hM => Umfpack.inv_set h hM)
    fun _ _ _ h hb hd => Umfpack.inv_solve hL hok h hb hd

/-- **C88** MA57, if the library forecasts some space, is set to refine at least once, and never
reports a singular matrix.  Missing: singular matrices, see `C88_ma57_violated`, and small
forecasts, see `C89_ma57_violated`. -/
theorem C88_ma57_partial [IsStrictOrderedRing K] {L : Ma57Lib H K} (hL : L.Correct) (hre : 1 ≤ L.refine)
    (hfc : ∀ n p, 5 ≤ (L.analyse n p).2.1 ∧ 5 ≤ (L.analyse n p).2.2) (hrank : ∀ sys la lia, (L.factor sys la lia).1 ≠ 4)
    (fuel : Nat) (ijunk : Nat → Nat) (junk : Nat → K) : (Ma57.backend L fuel ijunk junk).Reliable true :=
  reliable_of (Ma57.Inv L) ⟨⟨rfl, rfl, rfl⟩, rfl, fun _ hm => by cases hm⟩ (fun _ _ _ h hM => Ma57.inv_set hre hfc h hM)
    fun _ _ _ h hb hd => Ma57.inv_solve hL hrank h hb hd

/-- **C88** MA86 and MA97, if all failures of the library were failed allocations.  Missing: all
other failures, see `C88_ma86_violated`. -/
theorem C88_ma86_partial [IsStrictOrderedRing K] {L : Ma86Lib H K} (hL : L.Correct)
    (ho : ∀ sys, 0 ≤ (L.order sys).stat → 0 ≤ (L.order sys).flag)
    (ha : ∀ sys, 0 ≤ (L.analyse sys).stat → 0 ≤ (L.analyse sys).flag)
    (hf : ∀ sys, 0 ≤ (L.factor sys).1.stat → 0 ≤ (L.factor sys).1.flag)
    (hs : ∀ k x, 0 ≤ (L.solve k x).1.stat → 0 ≤ (L.solve k x).1.flag) (junk : Nat → K) :
    (Ma86.backend L junk).Reliable true :=
  reliable_of (Ma86.Inv L) ⟨rfl, rfl, fun _ hm => by cases hm⟩ (fun _ _ _ h hM => Ma86.inv_set h hM)
    fun _ _ _ h hb hd => Ma86.inv_solve hL ho ha hf hs h hb hd

/-- **C88** CHOLMOD, if all matrices are positive definite and no solve fails.  Missing: other
matrices, see `C88_cholmod_violated`. -/
theorem C88_cholmod_partial {L : CholLib H K} (hL : L.Correct) (hpd : ∀ sys, 0 ≤ (L.factor sys).1 → (L.factor sys).1 = 0)
    (hok : ∀ k x, L.solve k x ≠ none) (spare : CholSparse K) : (Cholmod.backend L spare).Reliable true :=
  reliable_of (Cholmod.Inv L) ⟨fun _ _ hs => (by cases hs), fun _ _ _ hs => (by cases hs), fun _ hm => by cases hm⟩
    (fun _ _ _ h hM => Cholmod.inv_set h hM) fun _ _ _ h hb hd => Cholmod.inv_solve hL hpd hok h hb hd

/-! ### Witnesses: libraries for systems of size one and two -/

namespace FactWitness

/-- the matrix (0) -/
def zero1 : Mat ℚ := ⟨1, 1, 1, 1, fun j => j, fun _ => 0, fun _ => 0⟩

/-- the matrix (4) -/
def four1 : Mat ℚ := ⟨1, 1, 1, 1, fun j => j, fun _ => 0, fun _ => 4⟩

/-- the identity of size 2 -/
def id2 : Mat ℚ := ⟨2, 2, 2, 2, fun j => j, fun k => k, fun _ => 1⟩

/-- the right-hand side (1) -/
def one1 : Vec ℚ := ⟨1, 1, [(0, 1)]⟩

theorem one1_wf : one1.WF := (C02_isValid_iff _).mp (by decide +kernel)

theorem zero1_fits (lower : Bool) : zero1.Fits lower :=
  ⟨(C09_isValid_iff zero1 rfl (by decide)).mp (by decide +kernel), rfl, fun _ => by decide +kernel⟩

theorem four1_fits : four1.Fits true :=
  ⟨(C09_isValid_iff four1 rfl (by decide)).mp (by decide +kernel), rfl, fun _ => by decide +kernel⟩

theorem id2_fits : id2.Fits false :=
  ⟨(C09_isValid_iff id2 rfl (by decide)).mp (by decide +kernel), rfl, fun h => absurd h Bool.false_ne_true⟩

/-- no solution of the system with the matrix (0) -/
theorem zero1_unsolved (lower : Bool) (x : Nat → ℚ) : ¬ SolvesSys 1 (symEntry lower zero1) one1.value x := by
  intro h
  have := h 0 (by decide)
  rw [sum_range_one, show symEntry lower zero1 0 0 = 0 by cases lower <;> decide +kernel, show one1.value 0 = 1 by decide +kernel, zero_mul] at this
  exact absurd this (by decide)

/-- a call was a success -/
def isOkay {σ : Type*} : Call σ → Bool
  | .okay _ => true
  | _ => false

/-- how a back end fails: it returns something for the matrix (0) -/
theorem not_reliable {σ : Type*} {B : Backend σ ℚ} {lower : Bool}
    (h : isOkay ((B.setMatrix B.init zero1).andThen fun s => B.solve s one1) = true) : ¬ B.Reliable lower := by
  intro hr
  cases hs : B.setMatrix B.init zero1 with
  | okay s =>
    rw [hs] at h
    replace h : isOkay (B.solve s one1) = true := h
    cases hs' : B.solve s one1 with
    | okay s' => exact zero1_unsolved lower _ (((hr s _ (.set .init (zero1_fits lower) hs)).2 zero1 rfl one1 one1_wf rfl).2 s' hs').2
    | _ => rw [hs'] at h; exact absurd h Bool.false_ne_true
  | _ => rw [hs] at h; exact absurd h Bool.false_ne_true

theorem solves1 {E : Nat → Nat → ℚ} {n : Nat} (b : Nat → ℚ) (hn : n = 1) (h : E 0 0 ≠ 0) : SolvesSys n E b fun _ => b 0 / E 0 0 := by
  subst hn
  intro i hi
  have : i = 0 := by omega
  subst this
  rw [sum_range_one]
  field_simp

/-- MA86 or MA97 for systems of size 1: a singular matrix is reported by the flag -3 -/
def ma86 : Ma86Lib (CscSys ℚ) ℚ :=
  ⟨fun s => ⟨if s.numRows = 1 then 0 else -1, 0⟩, fun _ => ⟨0, 0⟩,
    fun s => (⟨if s.lowerEntry 0 0 = 0 then -3 else 0, 0⟩, s), fun s b => (⟨0, 0⟩, fun _ => b 0 / s.lowerEntry 0 0)⟩

theorem ma86_correct : ma86.Correct := by
  intro s b _ h1 _ h2 _
  have hn : s.numRows = 1 := by
    by_contra hn
    have : (0 : Int) ≤ if s.numRows = 1 then 0 else -1 := h1
    rw [if_neg hn] at this
    omega
  refine solves1 b hn fun he => ?_
  have : (0 : Int) ≤ if s.lowerEntry 0 0 = 0 then -3 else 0 := h2
  rw [if_pos he] at this
  omega

/-- MA57 for systems of size 1: a singular matrix is reported by the status 4, too small arrays
by -3 -/
def ma57 (forecast : Nat) : Ma57Lib (CoordSys ℚ) ℚ :=
  ⟨10, fun _ _ => (0, forecast, forecast),
    fun s la _ => (if s.dim ≠ 1 then -1 else if la < 2 then -3 else if s.entry 0 0 = 0 then 4 else 0, s),
    fun _ _ => 0, fun s b => (0, fun _ => b 0 / s.entry 0 0)⟩

theorem ma57_correct (forecast : Nat) : (ma57 forecast).Correct := by
  intro s la lia b h1 h2 _
  have h1' : (0 : Int) ≤ if s.dim ≠ 1 then -1 else if la < 2 then -3 else if s.entry 0 0 = 0 then 4 else 0 := h1
  have h2' : (if s.dim ≠ 1 then (-1 : Int) else if la < 2 then -3 else if s.entry 0 0 = 0 then 4 else 0) ≠ 4 := h2
  by_cases hn : s.dim = 1
  · rw [if_neg (not_not.mpr hn)] at h1' h2'
    by_cases hl : la < 2
    · rw [if_pos hl] at h1'; omega
    · rw [if_neg hl] at h2'
      exact solves1 b hn fun he => by rw [if_pos he] at h2'; exact h2' rfl
  · rw [if_pos hn] at h1'; omega

/-- CHOLMOD for systems of size 1: a matrix which is not positive definite is reported by 1 -/
def chol : CholLib (CscSys ℚ) ℚ :=
  ⟨fun s => (if s.numRows ≠ 1 then -1 else if 0 < s.lowerEntry 0 0 then 0 else 1, s), fun s b => some fun _ => b 0 / s.lowerEntry 0 0⟩

theorem chol_correct : chol.Correct := by
  intro s b x _ h1 h2
  have h1' : (if s.numRows ≠ 1 then (-1 : Int) else if 0 < s.lowerEntry 0 0 then 0 else 1) = 0 := h1
  have h2' : some (fun _ => b 0 / s.lowerEntry 0 0) = some x := h2
  cases h2'
  by_cases hn : s.numRows = 1
  · rw [if_neg (not_not.mpr hn)] at h1'
    refine solves1 b hn fun he => ?_
    rw [if_neg (by rw [he]; exact lt_irrefl _)] at h1'
    omega
  · rw [if_pos hn] at h1'; omega

/-- UMFPACK for the identity of size 2: solves fail if the second entry is zero -/
def umf : FactLib (CscSys ℚ) Unit ℚ :=
  ⟨fun s => (if s.numRows = 2 ∧ s.entry 0 0 = 1 ∧ s.entry 0 1 = 0 ∧ s.entry 1 0 = 0 ∧ s.entry 1 1 = 1 then 0 else -1, ()),
    fun _ b => (if b 1 = 0 then -1 else 0, b)⟩

theorem umf_correct : umf.Correct CscSys.numRows CscSys.entry fun st => st = 0 := by
  intro s b h1 _
  have h1' : (if s.numRows = 2 ∧ s.entry 0 0 = 1 ∧ s.entry 0 1 = 0 ∧ s.entry 1 0 = 0 ∧ s.entry 1 1 = 1 then (0 : Int) else -1) = 0 := h1
  by_cases h : s.numRows = 2 ∧ s.entry 0 0 = 1 ∧ s.entry 0 1 = 0 ∧ s.entry 1 0 = 0 ∧ s.entry 1 1 = 1
  · obtain ⟨hn, e1, e2, e3, e4⟩ := h
    rw [hn]
    intro i hi
    show ∑ j ∈ range 2, s.entry i j * b j = b i
    rw [sum_range_succ, sum_range_one]
    rcases (by omega : i = 0 ∨ i = 1) with rfl | rfl
    · rw [e1, e2]; ring
    · rw [e3, e4]; ring
  · rw [if_neg h] at h1'; omega

/-- the right-hand sides (5, 0) and (0, 1) -/
def rhs1 : Vec ℚ := ⟨2, 1, [(0, 5)]⟩

@[inherit_doc rhs1]
def rhs2 : Vec ℚ := ⟨2, 1, [(1, 1)]⟩

/-- the first entry of the solution for (0, 1) after a failed solve for (5, 0) -/
def afterFailure {σ : Type*} (B : Backend σ ℚ) : Option ℚ :=
  match B.setMatrix B.init id2 with
  | .okay s => match B.solve s rhs1 with
    | .raised s1 => match B.solve s1 rhs2 with
      | .okay s2 => some ((B.sol s2).get 0)
      | _ => none
    | _ => none
  | _ => none

theorem not_reliable_after {σ : Type*} {B : Backend σ ℚ} (h : afterFailure B = some 5)
    (h2 : ∀ x : Nat → ℚ, x 0 = 5 → ¬ SolvesSys 2 (symEntry false id2) rhs2.value x) : ¬ B.Reliable false := by
  intro hr
  unfold afterFailure at h
  split at h
  · rename_i s hs
    split at h
    · rename_i s1 hs1
      split at h
      · rename_i s2 hs2
        have hreach := Backend.Reach.solveFails (b := rhs1) (.set .init id2_fits hs) ((C02_isValid_iff _).mp (by decide +kernel)) rfl hs1
        exact h2 _ (Option.some.inj h) (((hr _ _ hreach).2 id2 rfl rhs2 ((C02_isValid_iff _).mp (by decide +kernel)) rfl).2 s2 hs2).2
      · cases h
    · cases h
  · cases h

end FactWitness

open FactWitness

/-- **C88** The MA86 and MA97 back ends look at `info.stat`, the status of the last allocation,
instead of `info.flag` (fact/fact_ma86.c, fact/fact_ma97.c): a matrix reported as singular is
accepted, and a vector which solves nothing is returned without an error. -/
theorem C88_ma86_violated : ∃ L : Ma86Lib (CscSys ℚ) ℚ, L.Correct ∧ ¬ (Ma86.backend L fun _ => 0).Reliable true :=
  ⟨ma86, ma86_correct, not_reliable (by decide +kernel)⟩

/-- **C88** The MA57 back end takes the warning 4, by which MA57 reports a singular matrix, for
success (fact/fact_ma57.c): a vector which solves nothing is returned without an error. -/
theorem C88_ma57_violated : ∃ L : Ma57Lib (CoordSys ℚ) ℚ, L.Correct ∧
    ¬ (Ma57.backend L 1 (fun _ => 0) fun _ => 0).Reliable true :=
  ⟨ma57 9, ma57_correct 9, not_reliable (by decide +kernel)⟩

/-- **C88** The CHOLMOD back end accepts positive statuses, among them `CHOLMOD_NOT_POSDEF`
(fact/fact_cholmod.c): for a matrix which is not positive definite a vector which solves nothing is
returned without an error. -/
theorem C88_cholmod_violated : ∃ L : CholLib (CscSys ℚ) ℚ, L.Correct ∧
    ¬ (Cholmod.backend L ⟨0, ⟨0, fun _ => 0⟩, ⟨0, fun _ => 0⟩, ⟨0, fun _ => 0⟩⟩).Reliable true :=
  ⟨chol, chol_correct, not_reliable (by decide +kernel)⟩

/-- **C88** If a solve of UMFPACK fails, its right-hand side stays in the array which is expected
to be zero (fact/fact_umfpack.c:207-233): the next solve with the same matrix succeeds, but adds
the old right-hand side to the new one. -/
theorem C88_umfpack_violated : ∃ L : FactLib (CscSys ℚ) Unit ℚ, L.Correct CscSys.numRows CscSys.entry (fun st => st = 0) ∧
    ¬ (Umfpack.backend L fun _ => 0).Reliable false := by
  refine ⟨umf, umf_correct, not_reliable_after (by decide +kernel) fun x hx h => ?_⟩
  have h2 := h 0 (by decide)
  rw [sum_range_succ, sum_range_one, show symEntry false id2 0 0 = 1 by decide +kernel,
    show symEntry false id2 0 1 = 0 by decide +kernel, show rhs2.value 0 = 0 by decide +kernel, hx] at h2
  norm_num at h2

/-! ### C89 -/

/-- **C89** in every state MA27 has been brought into, a matrix is taken or rejected after finitely
many attempts, if the library needs a finite amount of space and suggests more than it has got -/
theorem C89_ma27 [IsStrictOrderedRing K] {L : Ma27Lib H K} (hL : L.Correct) (hF : L.Frugal) {fuel₀ : Nat} {ijunk : Nat → Nat}
    {junk : Nat → K} {s : Ma27 H K} {m : Option (Mat K)} (h : (Ma27.backend L fuel₀ ijunk junk).Reach true s m) {M : Mat K}
    (hM : M.Fits true) : Ends fun fuel => Ma27.setMatrix L fuel s M := by
  have hinv := reach_of (Ma27.Inv L) ⟨⟨rfl, rfl, rfl⟩, le_rfl, rfl, fun _ hm => by cases hm⟩ (fun _ _ _ h hM => Ma27.inv_set h hM)
    (fun _ _ _ h hb hd => Ma27.inv_solve hL h hb hd) h
  unfold Ma27.setMatrix
  simp only
  generalize h1 : (if s.hsl.dim < M.numCols then { s with rhsSol := s.rhsSol.realloc M.numCols } else s) = s1
  have g1 : s1.hsl = s.hsl ∧ s1.factor.size = s1.factorSize := by
    subst h1; split
    · exact ⟨rfl, hinv.fac⟩
    · exact ⟨rfl, hinv.fac⟩
  obtain ⟨k, e, hk⟩ := Hsl.set_spec (g1.1 ▸ hinv.hsl : s1.hsl.Inv) hM
  obtain ⟨p, hp⟩ := hk.pattern
  obtain ⟨sys, e1, -, -⟩ := hk.sys k.data hk.dat (by rw [hk.inv.data, ← hk.nnz]; exact hk.le)
  obtain ⟨need, hneed⟩ := hF.need sys
  rw [e]
  simp only [hp]
  split
  · split
    · exact ⟨0, fun _ _ h => by cases h⟩
    · have hrs := Ma27.reserve_spec { s1 with
        hsl := k,
        iw := max s1.iw (size20 (max (2 * M.nnz + 3 * M.numCols + 1) (M.nnz + 3 * M.numCols + 1))),
        ikeep := max s1.ikeep (3 * M.numCols), iw1 := max s1.iw1 (2 * M.numCols),
        nsteps := (L.analyse k.dim p).2.2.2 } (max (size20 (L.analyse k.dim p).2.1) k.nnz) g1.2
      refine Ma27.loop_ends hF (M := M) hneed _ _ le_rfl ?_ ?_ hrs.1 ?_
      · exact hrs.2.2.2.1 ▸ hk
      · show (Ma27.reserve _ _).hsl.system (Ma27.reserve _ _).hsl.data = some sys
        rw [hrs.2.2.2.1]; exact e1
      · refine le_trans ?_ hrs.2.2.1
        rw [hk.nnz]; exact le_max_right _ _
  · exact ⟨0, fun _ _ h => by cases h⟩

/-- **C89** the same for MA57, if it forecasts at least five numbers of each kind.  Missing:
smaller forecasts, see `C89_ma57_violated`. -/
theorem C89_ma57_partial [IsStrictOrderedRing K] {L : Ma57Lib H K} (hL : L.Correct) (hre : 1 ≤ L.refine)
    (hfc : ∀ n p, 5 ≤ (L.analyse n p).2.1 ∧ 5 ≤ (L.analyse n p).2.2) (hrank : ∀ sys la lia, (L.factor sys la lia).1 ≠ 4)
    (hF : L.Frugal) {fuel₀ : Nat} {ijunk : Nat → Nat} {junk : Nat → K} {s : Ma57 H K} {m : Option (Mat K)}
    (h : (Ma57.backend L fuel₀ ijunk junk).Reach true s m) {M : Mat K} (hM : M.Fits true) :
    Ends fun fuel => Ma57.setMatrix L fuel s M := by
  have hinv := reach_of (Ma57.Inv L) ⟨⟨rfl, rfl, rfl⟩, rfl, fun _ hm => by cases hm⟩ (fun _ _ _ h hM => Ma57.inv_set hre hfc h hM)
    (fun _ _ _ h hb hd => Ma57.inv_solve hL hrank h hb hd) h
  unfold Ma57.setMatrix
  simp only
  generalize h1 : (if s.rhsSolSize < M.numCols then { s with sol := s.sol.realloc M.numCols, rhsSolSize := M.numCols } else s) = s1
  have g1 : s1.hsl = s.hsl := by
    subst h1; split <;> rfl
  obtain ⟨k, e, hk⟩ := Hsl.set_spec (g1 ▸ hinv.hsl : s1.hsl.Inv) hM
  obtain ⟨p, hp⟩ := hk.pattern
  obtain ⟨sys, e1, -, -⟩ := hk.sys k.data hk.dat (by rw [hk.inv.data, ← hk.nnz]; exact hk.le)
  obtain ⟨nr, hnr⟩ := hF.real sys
  obtain ⟨ni, hni⟩ := hF.int sys
  have hf := hfc k.dim p
  rw [e]
  simp only [hp]
  split
  · split
    · exact ⟨0, fun _ _ h => by cases h⟩
    · exact Ma57.loop_ends (M := M) hnr hni _ _ le_rfl hk e1 (by simp only; omega) (by simp only; omega)
  · exact ⟨0, fun _ _ h => by cases h⟩

/-- a call is undefined -/
def FactWitness.isUb {σ : Type*} : Call σ → Bool
  | .ub => true
  | _ => false

theorem FactWitness.ma57_frugal (forecast : Nat) : (ma57 forecast).Frugal := by
  refine ⟨fun sys => ⟨2, fun la lia hla h => ?_⟩, fun sys => ⟨0, fun la lia _ h => ?_⟩⟩
  · have h' : (if sys.dim ≠ 1 then (-1 : Int) else if la < 2 then -3 else if sys.entry 0 0 = 0 then 4 else 0) = -3 := h
    rw [if_neg (show ¬ la < 2 by omega)] at h'
    split at h'
    · omega
    · split at h' <;> omega
  · have h' : (if sys.dim ≠ 1 then (-1 : Int) else if la < 2 then -3 else if sys.entry 0 0 = 0 then 4 else 0) = -4 := h
    split at h'
    · omega
    · split at h'
      · omega
      · split at h' <;> omega

/-- **C89** The arrays of MA57 are enlarged to 1.2 times their size, rounded down
(fact/fact_ma57.c:347-442): an array of less than five numbers does not grow.  If MA57 forecasts so
little space and needs more, the assert fails; without it the loop would not end. -/
theorem C89_ma57_violated : ∃ L : Ma57Lib (CoordSys ℚ) ℚ, L.Correct ∧ L.Frugal ∧ four1.Fits true ∧
    Ma57.setMatrix L 1 (Ma57.create (fun _ => 0) fun _ => 0) four1 = .ub := by
  refine ⟨ma57 1, ma57_correct 1, FactWitness.ma57_frugal 1, four1_fits, ?_⟩
  have h : FactWitness.isUb (Ma57.setMatrix (ma57 1) 1 (Ma57.create (fun _ => 0) fun _ => 0) four1) = true := by decide +kernel
  revert h
  cases Ma57.setMatrix (ma57 1) 1 (Ma57.create (fun _ => 0) fun _ => 0) four1 with
  | ub => exact fun _ => rfl
  | _ => exact fun h => absurd h Bool.false_ne_true

/-! ### The hypotheses are met -/

namespace FactWitness
open Classical in
/-- a library which solves every regular system and reports an error for all others -/
noncomputable def ideal {S : Type*} (dim : S → Nat) (entry : S → Nat → Nat → K) : FactLib S S K :=
  ⟨fun s => (if ∀ b, ∃ x, SolvesSys (dim s) (entry s) b x then 0 else -1, s),
    fun s b => (0, if h : ∃ x, SolvesSys (dim s) (entry s) b x then h.choose else fun _ => 0)⟩

theorem ideal_correct {S : Type*} (dim : S → Nat) (entry : S → Nat → Nat → K) (fine : Int → Prop) (hf : ¬ fine (-1)) :
    (ideal dim entry).Correct dim entry fine := by
  classical
  intro s b h1 _
  have h1' : fine (if ∀ b, ∃ x, SolvesSys (dim s) (entry s) b x then 0 else -1) := h1
  have hall : ∀ b, ∃ x, SolvesSys (dim s) (entry s) b x := by
    by_contra hcon
    rw [if_neg hcon] at h1'
    exact hf h1'
  show SolvesSys (dim s) (entry s) b (if h : ∃ x, SolvesSys (dim s) (entry s) b x then h.choose else fun _ => 0)
  rw [dif_pos (hall b)]
  exact (hall b).choose_spec

theorem ideal_okay {S : Type*} (dim : S → Nat) (entry : S → Nat → Nat → K) (s : S) (h : ∀ b, ∃ x, SolvesSys (dim s) (entry s) b x) :
    ((ideal dim entry).factor s).1 = 0 := by
  classical
  show (if ∀ b, ∃ x, SolvesSys (dim s) (entry s) b x then (0 : Int) else -1) = 0
  rw [if_pos h]

/-- MA27 without limits of space: `ideal`, and twice the space as suggestion -/
noncomputable def idealMa27 : Ma27Lib (CoordSys K) K :=
  ⟨fun n _ => (0, n, n, n), fun s la _ => (if la < 10 * s.dim then -4 else ((ideal CoordSys.dim CoordSys.entry).factor s).1, la + 1, s.dim, s),
    (ideal CoordSys.dim CoordSys.entry).solve⟩

/-- the hypotheses of `C88_ma27` and `C89_ma27` -/
example : (idealMa27 (K := ℚ)).Correct ∧ (idealMa27 (K := ℚ)).Frugal := by
  refine ⟨fun s la liw b h1 h2 => ?_, ⟨fun s => ⟨10 * s.dim, fun la liw hla h => ?_⟩, fun s la liw _ => Nat.lt_succ_self la⟩⟩
  · have h1' : (if la < 10 * s.dim then (-4 : Int) else ((ideal CoordSys.dim CoordSys.entry).factor s).1) = 0 := h1
    split at h1'
    · omega
    · exact ideal_correct CoordSys.dim CoordSys.entry (fun st => st = 0) (by decide) s b h1' rfl
  · classical
    have h' : (if la < 10 * s.dim then (-4 : Int) else if ∀ b, ∃ x, SolvesSys s.dim s.entry b x then 0 else -1) = -4 := h
    rw [if_neg (by omega)] at h'
    split at h' <;> omega

/-- `C88_mumps`: a correct library which accepts the matrix (4), so that a solution is returned -/
example : (ideal (K := ℚ) CoordSys.dim CoordSys.entry).Correct CoordSys.dim CoordSys.entry (fun st => 0 ≤ st) ∧
    ((ideal (K := ℚ) CoordSys.dim CoordSys.entry).factor ⟨1, [(1, 1, 4)]⟩).1 = 0 :=
  ⟨ideal_correct _ _ _ (by decide), ideal_okay _ _ _ fun b => ⟨_, solves1 b rfl (by decide +kernel)⟩⟩

/-- `C88_umfpack_partial`: solves of this library never fail -/
example : (ideal (K := ℚ) CscSys.numRows CscSys.entry).Correct CscSys.numRows CscSys.entry (fun st => st = 0) ∧
    (∀ k x, ((ideal (K := ℚ) CscSys.numRows CscSys.entry).solve k x).1 = 0) ∧
    ((ideal (K := ℚ) CscSys.numRows CscSys.entry).factor four1.csc).1 = 0 :=
  ⟨ideal_correct _ _ _ (by decide), fun _ _ => rfl, ideal_okay _ _ _ fun b => ⟨_, solves1 b rfl (by decide +kernel)⟩⟩

/-- MA57 for systems of size 1 which rejects singular matrices -/
def ma57b : Ma57Lib (CoordSys ℚ) ℚ :=
  { ma57 9 with factor := fun s la lia => (if s.dim ≠ 1 ∨ s.entry 0 0 = 0 then -5 else ((ma57 9).factor s la lia).1, s) }

/-- the hypotheses of `C88_ma57_partial` -/
example : ma57b.Correct ∧ 1 ≤ ma57b.refine ∧ (∀ n p, 5 ≤ (ma57b.analyse n p).2.1 ∧ 5 ≤ (ma57b.analyse n p).2.2) ∧
    ∀ sys la lia, (ma57b.factor sys la lia).1 ≠ 4 := by
  refine ⟨fun s la lia b h1 h2 h3 => ?_, by decide, fun _ _ => ⟨show 5 ≤ 9 by decide, show 5 ≤ 9 by decide⟩, fun s la lia h => ?_⟩
  · have h1' : (0 : Int) ≤ if s.dim ≠ 1 ∨ s.entry 0 0 = 0 then -5 else ((ma57 9).factor s la lia).1 := h1
    by_cases hs : s.dim ≠ 1 ∨ s.entry 0 0 = 0
    · rw [if_pos hs] at h1'; omega
    · push Not at hs
      exact solves1 b hs.1 hs.2
  · have h' : (if s.dim ≠ 1 ∨ s.entry 0 0 = 0 then (-5 : Int) else
      if s.dim ≠ 1 then -1 else if la < 2 then -3 else if s.entry 0 0 = 0 then 4 else 0) = 4 := h
    by_cases hs : s.dim ≠ 1 ∨ s.entry 0 0 = 0
    · rw [if_pos hs] at h'; omega
    · rw [if_neg hs] at h'
      push Not at hs
      rw [if_neg (not_not.mpr hs.1), if_neg hs.2] at h'
      split at h' <;> omega

/-- MA86 for systems of size 1 whose failures are failed allocations -/
def ma86b : Ma86Lib (CscSys ℚ) ℚ :=
  ⟨fun s => ⟨if s.numRows = 1 ∧ s.lowerEntry 0 0 ≠ 0 then 0 else -1, if s.numRows = 1 ∧ s.lowerEntry 0 0 ≠ 0 then 0 else -1⟩, fun _ => ⟨0, 0⟩,
    fun s => (⟨0, 0⟩, s), fun s b => (⟨0, 0⟩, fun _ => b 0 / s.lowerEntry 0 0)⟩

/-- the hypotheses of `C88_ma86_partial` -/
example : ma86b.Correct ∧ (∀ sys, 0 ≤ (ma86b.order sys).stat → 0 ≤ (ma86b.order sys).flag) ∧
    (∀ sys, 0 ≤ (ma86b.analyse sys).stat → 0 ≤ (ma86b.analyse sys).flag) ∧
    (∀ sys, 0 ≤ (ma86b.factor sys).1.stat → 0 ≤ (ma86b.factor sys).1.flag) ∧
    ∀ k x, 0 ≤ (ma86b.solve k x).1.stat → 0 ≤ (ma86b.solve k x).1.flag := by
  refine ⟨fun s b _ h1 _ _ _ => ?_, fun _ h => h, fun _ h => h, fun _ h => h, fun _ _ h => h⟩
  have h1' : (0 : Int) ≤ if s.numRows = 1 ∧ s.lowerEntry 0 0 ≠ 0 then 0 else -1 := h1
  by_cases hs : s.numRows = 1 ∧ s.lowerEntry 0 0 ≠ 0
  · exact solves1 b hs.1 hs.2
  · rw [if_neg hs] at h1'; omega

/-- CHOLMOD for systems of size 1 which rejects matrices that are not positive definite -/
def cholb : CholLib (CscSys ℚ) ℚ :=
  { chol with factor := fun s => (if s.numRows = 1 ∧ 0 < s.lowerEntry 0 0 then 0 else -1, s) }

/-- the hypotheses of `C88_cholmod_partial` -/
example : cholb.Correct ∧ (∀ sys, 0 ≤ (cholb.factor sys).1 → (cholb.factor sys).1 = 0) ∧ ∀ k x, cholb.solve k x ≠ none := by
  refine ⟨fun s b x _ h1 h2 => ?_, fun s h => ?_, fun _ _ h => by cases h⟩
  · have h1' : (if s.numRows = 1 ∧ 0 < s.lowerEntry 0 0 then (0 : Int) else -1) = 0 := h1
    have h2' : some (fun _ => b 0 / s.lowerEntry 0 0) = some x := h2
    cases h2'
    by_cases hs : s.numRows = 1 ∧ 0 < s.lowerEntry 0 0
    · exact solves1 b hs.1 hs.2.ne'
    · rw [if_neg hs] at h1'; omega
  · have h' : (0 : Int) ≤ if s.numRows = 1 ∧ 0 < s.lowerEntry 0 0 then 0 else -1 := h
    show (if s.numRows = 1 ∧ 0 < s.lowerEntry 0 0 then (0 : Int) else -1) = 0
    split
    · rfl
    · rename_i hs; rw [if_neg hs] at h'; omega

/-- LAPACK for systems of size 1: the factor is the matrix -/
def lapack1 : LapackLib ℚ :=
  ⟨fun n a => (if n = 1 ∧ a 0 ≠ 0 then 0 else 1, a), fun _ f b => (0, fun _ => b 0 / f 0)⟩

/-- the hypothesis of `C88_lapack`, and a run: with the matrix (4) the right-hand side (1) gives
1/4, after the matrix (0) was rejected -/
example : lapack1.Correct ∧ isOkay (Lapack.setMatrix lapack1 (Lapack.create fun _ => 7) zero1) = false ∧
    (match Lapack.setMatrix lapack1 (Lapack.create fun _ => 7) zero1 with
      | .raised s => match Lapack.setMatrix lapack1 s four1 with
        | .okay s => match Lapack.solve lapack1 s one1 with
          | .okay s => s.sol.get 0
          | _ => 0
        | _ => 0
      | _ => 0) = 1 / 4 := by
  refine ⟨fun n a f b h1 h2 _ => ?_, by decide +kernel, by decide +kernel⟩
  have h1' : (if n = 1 ∧ a 0 ≠ 0 then (0 : Int) else 1) = 0 := h1
  by_cases hs : n = 1 ∧ a 0 ≠ 0
  · have hf : f 0 = a 0 := h2 0 (by rw [hs.1]; decide)
    show SolvesSys n (denseEntry n a) b fun _ => b 0 / f 0
    rw [hf]
    have := solves1 (E := denseEntry n a) b hs.1 (by unfold denseEntry; rw [Nat.zero_mul]; exact hs.2)
    unfold denseEntry at this
    rw [Nat.zero_mul] at this
    exact this
  · rw [if_neg hs] at h1'; omega

end FactWitness

end Sleqp
