import Verif.Lemmas.Spqr
import Verif.Props.FactBackend
import Verif.Props.AugJacDirect
import Mathlib.Tactic.IntervalCases

/-!
C88 for SPQR, and C90: SPQR as the QR factorization behind the direct augmented Jacobian.
-/

namespace Sleqp
open Finset FactWitness
variable {K : Type*} [Field K] [LinearOrder K] {H : Type*}

/-- **C88** SPQR, if it rejects singular matrices and no operation of the library fails.  Missing:
see `C88_spqr_violated` and `C88_spqr_stale_violated`. -/
theorem C88_spqr_partial {L : SpqrLib H K} (hL : L.Correct) (hR : L.Rejects) (hT : L.Total) (spare : CholSparse K) :
    (Spqr.backend L spare).Reliable false := by
  refine reliable_of (fun s m => Spqr.Inv L s m ∧ ∀ M, m = some M → M.numRows = M.numCols)
    ⟨⟨fun _ _ h => (by cases h), fun _ _ _ h => (by cases h), fun _ hm => by cases hm⟩, fun _ hm => by cases hm⟩
    (fun s m M h hM => ?_) fun s M b h hb hd => ?_
  · have := Spqr.inv_set h.1 (M := M) ⟨hM.wf, hM.square.ge⟩
    show (Spqr.setMatrix L s M).Post _ _
    cases he : Spqr.setMatrix L s M with
    | ub => rw [he] at this; exact this
    | endless => exact trivial
    | raised s' => rw [he] at this; exact ⟨this, fun _ hm => by cases hm⟩
    | okay s' => rw [he] at this; exact ⟨this, fun M' hm => by cases hm; exact hM.square⟩
  · have := Spqr.inv_solve hL hR hT h.1 (h.2 M rfl) hb hd
    show (Spqr.factSolve L s b).Post _ _
    cases he : Spqr.factSolve L s b with
    | ub => rw [he] at this; exact this
    | endless => exact trivial
    | raised s' => rw [he] at this; exact ⟨this, h.2⟩
    | okay s' => rw [he] at this; exact ⟨⟨this.1, h.2⟩, this.2⟩

/-! ### C90 -/

theorem spqr_reach {L : SpqrLib H K} (hT : L.Total) (hN : L.Natural) (hR : L.Rejects) {spare : CholSparse K} {s : Spqr H K} {m : Option (Mat K)}
    (h : (Spqr.qrBackend L spare).Reach s m) : Spqr.Inv L s m := by
  induction h with
  | init => exact ⟨fun _ _ h => (by cases h), fun _ _ _ h => (by cases h), fun _ hm => by cases hm⟩
  | set _ hM he ih => have := Spqr.inv_set ih hM; rw [show Spqr.setMatrix L _ _ = _ from he] at this; exact this
  | setFails _ hM he ih => have := Spqr.inv_set ih hM; rw [show Spqr.setMatrix L _ _ = _ from he] at this; exact this
  | step _ hs ih =>
    obtain ⟨hM, k, sys, hr, hf, h1, h2, h3⟩ := ih.ready _ rfl
    obtain ⟨Q, R, hq, hv⟩ := hN sys k (by rw [h1, h2]; exact hM.tall) (hR _ _ hf) hf
    rw [h1, h2] at hv
    refine Spqr.Ready.inv ih hr.handle ?_
    cases hs with
    | solveTri b x hb hd he =>
      obtain ⟨s', y, e, g, -⟩ := Spqr.solveTri_spec hT hr hM.tall hv hb hd
      rw [show Spqr.solveTri L _ _ _ = _ from he] at e
      cases e; exact g
    | solveTriTrans b x hb hd he =>
      obtain ⟨s', y, e, g, -⟩ := Spqr.solveTriTrans_spec hT hr hM.tall hv hb hd
      rw [show Spqr.solveTriTrans L _ _ _ = _ from he] at e
      cases e; exact g
    | multOrth b x hb hd he =>
      obtain ⟨s', y, e, g, -⟩ := Spqr.multOrth_spec hT hr hv hb hd
      rw [show Spqr.multOrth L _ _ _ = _ from he] at e
      cases e; exact g
    | multOrthTrans b x hb hd he =>
      obtain ⟨s', y, e, g, -⟩ := Spqr.multOrthTrans_spec hT hr hv hb hd
      rw [show Spqr.multOrthTrans L _ _ _ = _ from he] at e
      cases e; exact g

theorem spqr_steps {L : SpqrLib H K} (hT : L.Total) {spare : CholSparse K} {s s' : Spqr H K} {m n : Nat} {k : H} (hmn : n ≤ m)
    {Q R : Nat → Nat → K} {E : Nat → Nat} (hv : L.Serves k m n Q R E) (hr : s.Ready m n k)
    (h : (Spqr.qrBackend L spare).Steps m n s s') : s'.Ready m n k := by
  induction h with
  | none => exact hr
  | more _ hs ih =>
    cases hs with
    | solveTri b x hb hd he =>
      obtain ⟨s', y, e, g, -⟩ := Spqr.solveTri_spec hT ih hmn hv hb hd
      rw [show Spqr.solveTri L _ _ _ = _ from he] at e
      cases e; exact g
    | solveTriTrans b x hb hd he =>
      obtain ⟨s', y, e, g, -⟩ := Spqr.solveTriTrans_spec hT ih hmn hv hb hd
      rw [show Spqr.solveTriTrans L _ _ _ = _ from he] at e
      cases e; exact g
    | multOrth b x hb hd he =>
      obtain ⟨s', y, e, g, -⟩ := Spqr.multOrth_spec hT ih hv hb hd
      rw [show Spqr.multOrth L _ _ _ = _ from he] at e
      cases e; exact g
    | multOrthTrans b x hb hd he =>
      obtain ⟨s', y, e, g, -⟩ := Spqr.multOrthTrans_spec hT ih hv hb hd
      rw [show Spqr.multOrthTrans L _ _ _ = _ from he] at e
      cases e; exact g

/-- **C90** SPQR as QR factorization, if it does not permute columns, rejects matrices without
full column rank and no operation fails.  Missing: permuted columns, see `C90_violated`; failed
operations, see `C90_stale_violated`. -/
theorem C90_spqr_partial {L : SpqrLib H K} (hT : L.Total) (hN : L.Natural) (hR : L.Rejects) (spare : CholSparse K) :
    (Spqr.qrBackend L spare).Reliable := by
  intro s m h M hM
  have hset := Spqr.inv_set (spqr_reach hT hN hR h) hM
  refine ⟨fun he => ?_, fun s1 he => ?_⟩
  · rw [show Spqr.setMatrix L _ _ = _ from he] at hset; exact hset
  · rw [show Spqr.setMatrix L _ _ = _ from he] at hset
    obtain ⟨-, k, sys, hr, hf, h1, h2, h3⟩ := hset.ready _ rfl
    obtain ⟨Q, R, hq, hv⟩ := hN sys k (by rw [h1, h2]; exact hM.tall) (hR _ _ hf) hf
    rw [h1, h2] at hv hq
    refine ⟨Q, R, ⟨hq.perm, hq.cols, hq.rows, fun i hi k hk => ?_⟩, fun s2 h2 => ?_⟩
    · rw [← hq.prod i hi k hk, id, h3 i k hk]
    · have hr2 := spqr_steps hT hM.tall hv hr h2
      refine ⟨fun b hb hd => ?_, fun b hb hd => ?_, fun b hb hd => ?_, fun b hb hd => ?_⟩
      · obtain ⟨s', x, e, -, g⟩ := Spqr.solveTri_spec hT hr2 hM.tall hv hb hd
        exact ⟨s', x, e, g⟩
      · obtain ⟨s', x, e, -, g⟩ := Spqr.solveTriTrans_spec hT hr2 hM.tall hv hb hd
        exact ⟨s', x, e, g⟩
      · obtain ⟨s', x, e, -, g⟩ := Spqr.multOrth_spec hT hr2 hv hb hd
        exact ⟨s', x, e, g⟩
      · obtain ⟨s', x, e, -, g⟩ := Spqr.multOrthTrans_spec hT hr2 hv hb hd
        exact ⟨s', x, e, g⟩

/-- **C90** a reliable QR factorization is one as expected by the direct augmented Jacobian (C67),
in every state after the matrix was set -/
theorem C90_factors {σ : Type*} {B : QrBackend σ K} (hB : B.Reliable) {s s1 s2 : σ} {m : Option (Mat K)} (h : B.Reach s m) {M : Mat K}
    (hM : M.Tall) (hs : B.setMatrix s M = .okay s1) (hs2 : B.Steps M.numRows M.numCols s1 s2) :
    (B.qr s2).Factors M M.numRows M.numCols := by
  obtain ⟨Q, R, hq, hall⟩ := (hB s m h M hM).2 s1 hs
  obtain ⟨g1, g2, g3, g4⟩ := hall s2 hs2
  refine ⟨Q, R, hq.cols, hq.rows, hq.prod, fun b hb hd => ?_, fun b hb hd => ?_, fun b hb hd => ?_, fun b hb hd => ?_⟩
  · obtain ⟨s3, x, e, g⟩ := g1 b hb hd
    show ∀ k < M.numCols, ∑ l ∈ range M.numCols, R k l * (B.solveTri s2 b M.numCols).result l = b.value k
    rw [e]; exact g
  · obtain ⟨s3, x, e, g⟩ := g2 b hb hd
    show ∀ k < M.numCols, ∑ l ∈ range M.numCols, R l k * (B.solveTriTrans s2 b M.numCols).result l = b.value k
    rw [e]; exact g
  · obtain ⟨s3, x, e, g⟩ := g3 b hb hd
    show ∀ i < M.numRows, (B.multOrth s2 b M.numRows).result i = _
    rw [e]; exact g
  · obtain ⟨s3, x, e, g⟩ := g4 b hb hd
    show ∀ i < M.numRows, (B.multOrthTrans s2 b M.numRows).result i = _
    rw [e]; exact g

/-! ### Witnesses -/

namespace FactWitness

/-- nothing allocated -/
def spare0 : CholSparse ℚ := ⟨0, ⟨0, fun _ => 0⟩, ⟨0, fun _ => 0⟩, ⟨0, fun _ => 0⟩⟩

/-- SPQR for matrices of size 1, singular ones included -/
def spqr1 : SpqrLib ℚ ℚ :=
  ⟨fun s => if s.numRows = 1 ∧ s.numCols = 1 then some (s.entry 0 0) else none, fun _ _ _ x => some ⟨1, x⟩,
    fun _ h _ b => some ⟨1, fun _ => b 0 / h⟩⟩

theorem spqr1_correct : spqr1.Correct := by
  intro s h _ hr hf
  replace hf : (if s.numRows = 1 ∧ s.numCols = 1 then some (s.entry 0 0) else none) = some h := hf
  by_cases hs : s.numRows = 1 ∧ s.numCols = 1
  · rw [if_pos hs] at hf
    cases hf
    rw [hs.1, hs.2] at hr ⊢
    have hne : s.entry 0 0 ≠ 0 := by
      intro he
      have := hr (fun _ => 1) (fun i hi => by
        have : i = 0 := by omega
        subst this
        rw [sum_range_one, he, zero_mul]) 0 (by decide)
      exact absurd this (by decide)
    refine ⟨fun _ _ => 1, fun _ _ => s.entry 0 0, id, ⟨⟨fun k hk => hk, fun _ _ _ _ h => h⟩, fun l hl l' hl' => ?_, fun l hl l' hl' => ?_,
      fun i hi k hk => ?_⟩, ⟨fun x y hy => ?_, fun x y hy => ?_, fun b y hy => ?_, fun b y hy => ?_, fun b y hy => ?_⟩⟩
    · rw [sum_range_one, if_pos (by omega)]; ring
    · rw [sum_range_one, if_pos (by omega)]; ring
    · have h1 : i = 0 := by omega
      have h2 : k = 0 := by omega
      subst h1; subst h2
      rw [sum_range_one, one_mul]; rfl
    · cases hy
      refine ⟨rfl, fun i hi => ?_⟩
      have h1 : i = 0 := by omega
      subst h1
      rw [sum_range_one, one_mul]
    · cases hy
      refine ⟨rfl, fun i hi => ?_⟩
      have h1 : i = 0 := by omega
      subst h1
      rw [sum_range_one, one_mul]
    · cases hy
      refine ⟨le_rfl, fun i hi => ?_⟩
      have h1 : i = 0 := by omega
      subst h1
      rw [sum_range_one]
      field_simp
    · cases hy
      refine ⟨le_rfl, fun i hi => ?_⟩
      have h1 : i = 0 := by omega
      subst h1
      rw [sum_range_one]
      field_simp
    · cases hy
      refine ⟨le_rfl, fun i hi => ?_⟩
      have h1 : i = 0 := by omega
      subst h1
      rw [sum_range_one]
      field_simp
  · rw [if_neg hs] at hf; cases hf

/-- the identity of size 2 -/
def isId2 (s : CscSys ℚ) : Prop :=
  s.numRows = 2 ∧ s.numCols = 2 ∧ s.entry 0 0 = 1 ∧ s.entry 0 1 = 0 ∧ s.entry 1 0 = 0 ∧ s.entry 1 1 = 1

instance (s : CscSys ℚ) : Decidable (isId2 s) := by unfold isId2; infer_instance

/-- the other index, if columns are swapped -/
def other (swap : Bool) (i : Nat) : Nat := if swap then 1 - i else i

/-- SPQR for the identity of size 2.  With `swap` it swaps the columns: the identity is
`Q` times the permutation, both are the matrix which swaps two entries, and `R` is the identity.
`bad` are the right-hand sides for which solves fail. -/
def spqr2 (swap : Bool) (bad : (Nat → ℚ) → Bool) : SpqrLib Unit ℚ :=
  ⟨fun s => if isId2 s then some () else none, fun _ _ _ x => some ⟨2, fun i => x (other swap i)⟩,
    fun t _ _ b => if bad b then none else match t with
      | .retx => some ⟨2, fun i => b (other swap i)⟩
      | _ => some ⟨2, b⟩⟩

/-- the factorization of `spqr2` -/
theorem spqr2_serves (swap : Bool) (bad : (Nat → ℚ) → Bool) {s : CscSys ℚ} {h : Unit} (hf : (spqr2 swap bad).factor s = some h) :
    IsQr s.numRows s.numCols s.entry (fun i l => if i = other swap l then 1 else 0) (fun l k => if l = k then 1 else 0) (other swap) ∧
    (spqr2 swap bad).Serves h s.numRows s.numCols (fun i l => if i = other swap l then 1 else 0) (fun l k => if l = k then 1 else 0)
      (other swap) := by
  replace hf : (if isId2 s then some () else none) = some h := hf
  by_cases hs : isId2 s
  · obtain ⟨h1, h2, e1, e2, e3, e4⟩ := hs
    rw [h1, h2]
    have hsol : ∀ t b y, (spqr2 swap bad).solve t h 2 b = some y →
        (match t with
          | .retx => some ⟨2, fun i => b (other swap i)⟩
          | _ => some (⟨2, b⟩ : Buf ℚ)) = some y := by
      intro t b y hy
      replace hy : (if bad b then none else match t with
        | .retx => some ⟨2, fun i => b (other swap i)⟩
        | _ => some (⟨2, b⟩ : Buf ℚ)) = some y := hy
      split at hy
      · cases hy
      · exact hy
    refine ⟨⟨⟨fun k hk => ?_, fun k hk k' hk' he => ?_⟩, fun l hl l' hl' => ?_, fun l hl l' hl' => ?_,
      fun i hi k hk => ?_⟩, ⟨fun x y hy => ?_, fun x y hy => ?_, fun b y hy => ?_, fun b y hy => ?_, fun b y hy => ?_⟩⟩
    · unfold other; split <;> omega
    · unfold other at he; split at he <;> omega
    · rw [sum_range_succ, sum_range_one]; unfold other
      cases swap <;> interval_cases l <;> interval_cases l' <;> simp
    · rw [sum_range_succ, sum_range_one]; unfold other
      cases swap <;> interval_cases l <;> interval_cases l' <;> simp
    · rw [sum_range_succ, sum_range_one]; unfold other
      cases swap <;> interval_cases i <;> interval_cases k <;> simp [e1, e2, e3, e4]
    · cases hy
      refine ⟨rfl, fun i hi => ?_⟩
      rw [sum_range_succ, sum_range_one]; unfold other
      cases swap <;> interval_cases i <;> simp
    · cases hy
      refine ⟨rfl, fun i hi => ?_⟩
      rw [sum_range_succ, sum_range_one]; unfold other
      cases swap <;> interval_cases i <;> simp
    · have := hsol _ _ _ hy
      cases this
      refine ⟨le_rfl, fun i hi => ?_⟩
      rw [sum_range_succ, sum_range_one]
      interval_cases i <;> simp
    · have := hsol _ _ _ hy
      cases this
      refine ⟨le_rfl, fun i hi => ?_⟩
      rw [sum_range_succ, sum_range_one]; unfold other
      cases swap <;> interval_cases i <;> simp
    · have := hsol _ _ _ hy
      cases this
      refine ⟨le_rfl, fun i hi => ?_⟩
      rw [sum_range_succ, sum_range_one]
      interval_cases i <;> simp
  · rw [if_neg hs] at hf; cases hf

theorem spqr2_correct (swap : Bool) (bad : (Nat → ℚ) → Bool) : (spqr2 swap bad).Correct :=
  fun _ _ _ _ hf => ⟨_, _, _, spqr2_serves swap bad hf⟩

theorem spqr2_natural (bad : (Nat → ℚ) → Bool) : (spqr2 false bad).Natural :=
  fun _ _ _ _ hf => ⟨_, _, (spqr2_serves false bad hf).1, (spqr2_serves false bad hf).2⟩

theorem spqr2_rejects (swap : Bool) (bad : (Nat → ℚ) → Bool) : (spqr2 swap bad).Rejects := by
  intro s h hf
  replace hf : (if isId2 s then some () else none) = some h := hf
  by_cases hs : isId2 s
  · obtain ⟨h1, h2, e1, e2, e3, e4⟩ := hs
    rw [h1, h2]
    intro x hx k hk
    have g0 := hx 0 (by decide)
    have g1 := hx 1 (by decide)
    rw [sum_range_succ, sum_range_one, e1, e2] at g0
    rw [sum_range_succ, sum_range_one, e3, e4] at g1
    interval_cases k <;> linarith
  · rw [if_neg hs] at hf; cases hf

theorem spqr2_total (swap : Bool) : (spqr2 swap fun _ => false).Total := by
  refine ⟨fun _ _ _ _ h => (by cases h), fun t _ _ _ h => ?_⟩
  cases t <;> cases h

/-- the least squares solution with the identity for the right-hand side (5, 0) -/
def lsqRun (L : SpqrLib Unit ℚ) : Option (ℚ × ℚ) :=
  match Spqr.setMatrix L (Spqr.create spare0) id2 with
  | .okay s => (directLsq ((Spqr.qrBackend L spare0).qr s) id2 rhs1 ⟨2, 2, []⟩ ⟨2, 2, []⟩).map fun v => (v.value 0, v.value 1)
  | _ => none

/-- the solutions for (0, 1) and then for (5, 0) -/
def twoSolves (L : SpqrLib Unit ℚ) : Option (ℚ × ℚ) :=
  match Spqr.setMatrix L (Spqr.create spare0) id2 with
  | .okay s => match Spqr.factSolve L s rhs2 with
    | .okay s1 => match Spqr.factSolve L s1 rhs1 with
      | .okay s2 => s2.sol.map fun y => (y.get 0, y.get 1)
      | _ => none
    | _ => none
  | _ => none

/-- the results of `solve_tri` for (0, 1) and then for (5, 0) -/
def twoTris (L : SpqrLib Unit ℚ) : Option (ℚ × ℚ) :=
  match Spqr.setMatrix L (Spqr.create spare0) id2 with
  | .okay s => match Spqr.solveTri L s rhs2 2 with
    | .okay s1 => match Spqr.solveTri L s1.1 rhs1 2 with
      | .okay s2 => some (s2.2 0, s2.2 1)
      | _ => none
    | _ => none
  | _ => none

theorem rhs1_wf : rhs1.WF := (C02_isValid_iff _).mp (by decide +kernel)

theorem rhs2_wf : rhs2.WF := (C02_isValid_iff _).mp (by decide +kernel)

end FactWitness

/-- **C88** SPQR does not fail for singular matrices, and its back end does not ask for the rank
(fact/fact_spqr.c:85-145): a vector which solves nothing is returned without an error. -/
theorem C88_spqr_violated : ∃ L : SpqrLib ℚ ℚ, L.Correct ∧ L.Total ∧ ¬ (Spqr.backend L spare0).Reliable false :=
  ⟨spqr1, spqr1_correct, ⟨fun _ _ _ _ h => (by cases h), fun _ _ _ _ h => (by cases h)⟩, not_reliable (by decide +kernel)⟩

/-- **C88** The error code of `spqr_set_sol` is ignored by all its callers
(fact/fact_spqr.c:169-217): if a solve fails, the solution of the one before is returned again,
without an error. -/
theorem C88_spqr_stale_violated : ∃ L : SpqrLib Unit ℚ, L.Correct ∧ L.Rejects ∧ ¬ (Spqr.backend L spare0).Reliable false := by
  refine ⟨spqr2 false fun b => decide (b 0 = 5), spqr2_correct _ _, spqr2_rejects _ _, fun hr => ?_⟩
  have h : twoSolves (spqr2 false fun b => decide (b 0 = 5)) = some (0, 1) := by decide +kernel
  unfold twoSolves at h
  split at h
  · rename_i s hs
    split at h
    · rename_i s1 hs1
      split at h
      · rename_i s2 hs2
        have hreach := Backend.Reach.solve (B := Spqr.backend (spqr2 false fun b => decide (b 0 = 5)) spare0) (b := rhs2)
          (.set .init id2_fits hs) rhs2_wf rfl hs1
        have hsol := (((hr _ _ hreach).2 id2 rfl rhs1 rhs1_wf rfl).2 s2 hs2).2 0 (by decide)
        obtain ⟨y, hy, hy'⟩ := Option.map_eq_some_iff.mp h
        have hsol' : ∑ j ∈ range 2, symEntry false id2 0 j * (s2.sol.getD ⟨0, fun _ => 0⟩).get j = rhs1.value 0 := hsol
        rw [hy, sum_range_succ, sum_range_one, show symEntry false id2 0 0 = 1 by decide +kernel,
          show symEntry false id2 0 1 = 0 by decide +kernel, show rhs1.value 0 = 5 by decide +kernel,
          show (some y : Option (Buf ℚ)).getD ⟨0, fun _ => 0⟩ = y from rfl, (Prod.mk.inj hy').1] at hsol'
        norm_num at hsol'
      · cases h
    · cases h
  · cases h

/-- **C90** SPQR orders the columns to keep `R` sparse (`SPQR_ORDERING_DEFAULT`,
fact/fact_spqr.c:136): it factorizes `A E = Q R`, but `spqr_qr_solve_tri` and
`spqr_qr_solve_tri_trans` (fact/fact_spqr.c:219-269) solve with `R` alone and drop the permutation
`E`.  If two columns are swapped, the direct augmented Jacobian returns a least squares solution
with two entries swapped. -/
theorem C90_violated : ∃ L : SpqrLib Unit ℚ, L.Correct ∧ L.Rejects ∧ L.Total ∧ ∃ s sol,
    Spqr.setMatrix L (Spqr.create spare0) id2 = .okay s ∧
    directLsq ((Spqr.qrBackend L spare0).qr s) id2 rhs1 ⟨2, 2, []⟩ ⟨2, 2, []⟩ = some sol ∧
    ¬ SolvesSys 2 id2.value rhs1.value sol.value := by
  refine ⟨spqr2 true fun _ => false, spqr2_correct _ _, spqr2_rejects _ _, spqr2_total _, ?_⟩
  have h : lsqRun (spqr2 true fun _ => false) = some (0, 5) := by decide +kernel
  unfold lsqRun at h
  split at h
  · rename_i s hs
    obtain ⟨v, hv, hv'⟩ := Option.map_eq_some_iff.mp h
    refine ⟨s, v, hs, hv, fun hsol => ?_⟩
    have h0 := hsol 0 (by decide)
    rw [sum_range_succ, sum_range_one, show id2.value 0 0 = 1 by decide +kernel, show id2.value 0 1 = 0 by decide +kernel,
      show rhs1.value 0 = 5 by decide +kernel, (Prod.mk.inj hv').1] at h0
    norm_num at h0
  · cases h

/-- **C90** If an operation of SPQR fails, the QR factorization returns the result of the operation
before, without an error (fact/fact_spqr.c:169-323): here the solve for (5, 0) fails, and returns
(0, 1), the solution of the solve before. -/
theorem C90_stale_violated : ∃ L : SpqrLib Unit ℚ, L.Correct ∧ L.Rejects ∧ L.Natural ∧ L.solve .rx () 2 rhs1.value = none ∧
    ∃ s s1 s2 x y, Spqr.setMatrix L (Spqr.create spare0) id2 = .okay s ∧ Spqr.solveTri L s rhs2 2 = .okay (s1, x) ∧
      Spqr.solveTri L s1 rhs1 2 = .okay (s2, y) ∧ y 0 = 0 ∧ y 1 = 1 := by
  refine ⟨spqr2 false fun b => decide (b 0 = 5), spqr2_correct _ _, spqr2_rejects _ _, spqr2_natural _, ?_, ?_⟩
  · show (if decide (rhs1.value 0 = 5) = true then (none : Option (Buf ℚ)) else some ⟨2, rhs1.value⟩) = none
    exact if_pos (by decide +kernel)
  · have h : twoTris (spqr2 false fun b => decide (b 0 = 5)) = some (0, 1) := by decide +kernel
    unfold twoTris at h
    split at h
    · rename_i s hs
      split at h
      · rename_i s1 hs1
        split at h
        · rename_i s2 hs2
          have := Prod.mk.inj (Option.some.inj h)
          exact ⟨s, s1.1, s2.1, s1.2, s2.2, hs, hs1, hs2, this.1, this.2⟩
        · cases h
      · cases h
    · cases h

/-- the hypotheses of `C88_spqr_partial` and of `C90_spqr_partial`, and a run of the latter: the
least squares solution is right -/
example : (spqr2 false fun _ => false).Correct ∧ (spqr2 false fun _ => false).Natural ∧ (spqr2 false fun _ => false).Rejects ∧
    (spqr2 false fun _ => false).Total ∧ lsqRun (spqr2 false fun _ => false) = some (5, 0) :=
  ⟨spqr2_correct _ _, spqr2_natural _, spqr2_rejects _ _, spqr2_total _, by decide +kernel⟩

/-- the hypotheses of `C88_spqr_partial` with swapped columns -/
example : (spqr2 true fun _ => false).Correct ∧ (spqr2 true fun _ => false).Rejects ∧ (spqr2 true fun _ => false).Total ∧
    twoSolves (spqr2 true fun _ => false) = some (5, 0) :=
  ⟨spqr2_correct _ _, spqr2_rejects _ _, spqr2_total _, by decide +kernel⟩

end Sleqp
