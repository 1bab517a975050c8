import Verif.Spec.LpBackend
import Verif.Lemmas.VecNum
import Verif.Lemmas.Mat
import Mathlib.Algebra.BigOperators.Intervals
import Mathlib.Tactic.Linarith

/-! Invariants of the LP back ends. -/

namespace Sleqp
open Finset
variable {K : Type*} [Field K] [LinearOrder K] {S : Type*}

theorem lastBounds_snoc (h : List (LpiOp K S)) (o : LpiOp K S) :
    lastBounds (h ++ [o]) = (match o with | .bounds cl cu vl vu => some (cl, cu, vl, vu) | _ => lastBounds h) := by
  unfold lastBounds
  rw [List.reverse_append]
  cases o <;> simp [List.findSome?_cons]

theorem lastCoeffs_snoc (h : List (LpiOp K S)) (o : LpiOp K S) :
    lastCoeffs (h ++ [o]) = (match o with | .coeffs a => some a | _ => lastCoeffs h) := by
  unfold lastCoeffs
  rw [List.reverse_append]
  cases o <;> simp [List.findSome?_cons]

theorem lastObjective_snoc (h : List (LpiOp K S)) (o : LpiOp K S) :
    lastObjective (h ++ [o]) = (match o with | .objective c => some c | _ => lastObjective h) := by
  unfold lastObjective
  rw [List.reverse_append]
  cases o <;> simp [List.findSome?_cons]

theorem firstN_lt {α : Type*} {n j : Nat} (hj : j < n) (f g : Nat → α) : firstN n f g j = f j := by simp [firstN, hj]

/-- an invariant of a partial step function, over the history -/
theorem foldlM_hist {σ ο : Type*} (step : σ → ο → Option σ) (P : List ο → σ → Prop) (s0 : σ) (h0 : P [] s0)
    (hstep : ∀ h s o s', P h s → step s o = some s' → P (h ++ [o]) s') (h : List ο) (s : σ) (hr : h.foldlM step s0 = some s) : P h s := by
  induction h using List.reverseRecOn generalizing s with
  | nil => cases hr; exact h0
  | append_singleton h o ih =>
    rw [List.foldlM_append] at hr
    rcases h1 : h.foldlM step s0 with _ | t
    · rw [h1] at hr; exact absurd hr (by simp)
    · rw [h1] at hr
      refine hstep h t o s (ih t h1) ?_
      simpa using hr

/-! ### HiGHS -/

/-- the invariant of the HiGHS interface -/
structure HighsInv (inf : K) (n m : Nat) (h : List (LpiOp K HighsStat)) (s : HighsLpi K) : Prop where
  cols : s.numCols = n
  rows : s.numRows = m
  costs : ∀ j < n, s.costs j = ((lastObjective h).getD fun _ => 0) j
  bnds : ∀ b, lastBounds h = some b →
    (∀ j < n, s.colLb j = HighsLpi.adjustNeg inf (b.2.2.1 j) ∧ s.colUb j = HighsLpi.adjustPos inf (b.2.2.2 j)) ∧
    ∀ i < m, s.rowLb i = HighsLpi.adjustNeg inf (b.1 i) ∧ s.rowUb i = HighsLpi.adjustPos inf (b.2.1 i)
  coeffs : s.dirtyCoeffs = (lastCoeffs h).isNone
  mat : ∀ a, lastCoeffs h = some a → s.lib.a = fun i j => a.value i j
  libCols : s.dirtyCoeffs = false → s.dirtyCols = false → ∀ j < n, s.lib.colLb j = s.colLb j ∧ s.lib.colUb j = s.colUb j
  libRows : s.dirtyCoeffs = false → s.dirtyRows = false → ∀ i < m, s.lib.rowLb i = s.rowLb i ∧ s.lib.rowUb i = s.rowUb i
  libObj : s.dirtyCoeffs = false → s.dirtyObj = false → ∀ j < n, s.lib.obj j = s.costs j

theorem highs_create_inv (inf : K) (n m : Nat) (s : HighsLpi K) : HighsInv inf n m [] (HighsLpi.create n m s) where
  cols := rfl
  rows := rfl
  costs := fun j hj => by simp [HighsLpi.create, firstN, hj, lastObjective]
  bnds := fun b hb => by simp [lastBounds] at hb
  coeffs := rfl
  mat := fun a ha => by simp [lastCoeffs] at ha
  libCols := fun hc => by simp [HighsLpi.create] at hc
  libRows := fun hc => by simp [HighsLpi.create] at hc
  libObj := fun hc => by simp [HighsLpi.create] at hc

/-- the state and library after `prepare` -/
theorem highs_prepare {inf : K} {n m : Nat} {h : List (LpiOp K HighsStat)} {s : HighsLpi K} (hi : HighsInv inf n m h s)
    (hc : s.dirtyCoeffs = false) : ∃ t, s.prepare = some t ∧ HighsInv inf n m h t ∧ t.dirtyCols = false ∧ t.dirtyRows = false ∧ t.dirtyObj = false := by
  refine ⟨_, by unfold HighsLpi.prepare; rw [if_neg (by simp [hc])], ?_, rfl, rfl, rfl⟩
  refine ⟨hi.cols, hi.rows, hi.costs, hi.bnds, hi.coeffs, hi.mat, fun _ _ j hj => ?_, fun _ _ i hi' => ?_, fun _ _ j hj => ?_⟩
  · have h0 := hi.libCols hc
    have h1 : j < s.numCols := by rw [hi.cols]; exact hj
    rcases hd : s.dirtyCols
    · exact h0 hd j hj
    · simp [firstN, h1]
  · have h0 := hi.libRows hc
    have h1 : i < s.numRows := by rw [hi.rows]; exact hi'
    rcases hd : s.dirtyRows
    · exact h0 hd i hi'
    · simp [firstN, h1]
  · have h0 := hi.libObj hc
    have h1 : j < s.numCols := by rw [hi.cols]; exact hj
    rcases hd : s.dirtyObj
    · exact h0 hd j hj
    · simp [firstN, h1]

theorem highs_step_inv {inf : K} {n m : Nat} {h : List (LpiOp K HighsStat)} {s : HighsLpi K} {o : LpiOp K HighsStat} {s' : HighsLpi K}
    (hi : HighsInv inf n m h s) (hs : s.step inf o = some s') : HighsInv inf n m (h ++ [o]) s' := by
  have hn := hi.cols
  have hm := hi.rows
  cases o with
  | bounds cl cu vl vu =>
    obtain rfl := Option.some.inj hs
    refine ⟨hn, hm, ?_, ?_, ?_, ?_, ?_, ?_, ?_⟩
    · rw [lastObjective_snoc]; exact hi.costs
    · rw [lastBounds_snoc]
      rintro b hb
      obtain rfl := Option.some.inj hb
      refine ⟨fun j hj => ?_, fun i hi' => ?_⟩
      · rw [← hn] at hj; exact ⟨firstN_lt hj (fun j => HighsLpi.adjustNeg inf (vl j)) s.colLb, firstN_lt hj (fun j => HighsLpi.adjustPos inf (vu j)) s.colUb⟩
      · rw [← hm] at hi'; exact ⟨firstN_lt hi' (fun i => HighsLpi.adjustNeg inf (cl i)) s.rowLb, firstN_lt hi' (fun i => HighsLpi.adjustPos inf (cu i)) s.rowUb⟩
    · rw [lastCoeffs_snoc]; exact hi.coeffs
    · rw [lastCoeffs_snoc]; exact hi.mat
    · intro _ hd j hj
      have : ¬ 0 < s.numCols := by simpa using (Bool.or_eq_false_iff.mp hd).2
      omega
    · intro _ hd i hi'
      have : ¬ 0 < s.numRows := by simpa using (Bool.or_eq_false_iff.mp hd).2
      omega
    · exact hi.libObj
  | coeffs a =>
    unfold HighsLpi.step at hs
    dsimp only at hs
    split at hs
    · obtain rfl := Option.some.inj hs
      refine ⟨hn, hm, ?_, ?_, ?_, ?_, fun _ _ _ _ => ⟨rfl, rfl⟩, fun _ _ _ _ => ⟨rfl, rfl⟩, fun _ _ _ _ => rfl⟩
      · rw [lastObjective_snoc]; exact hi.costs
      · rw [lastBounds_snoc]; exact hi.bnds
      · rw [lastCoeffs_snoc]; rfl
      · rw [lastCoeffs_snoc]
        intro a' ha
        obtain rfl := Option.some.inj ha
        rfl
    · exact absurd hs (by simp)
  | objective c =>
    obtain rfl := Option.some.inj hs
    refine ⟨hn, hm, ?_, ?_, ?_, ?_, hi.libCols, hi.libRows, fun _ hd => by simp at hd⟩
    · rw [lastObjective_snoc]
      intro j hj
      rw [← hn] at hj
      exact firstN_lt hj _ _
    · rw [lastBounds_snoc]; exact hi.bnds
    · rw [lastCoeffs_snoc]; exact hi.coeffs
    · rw [lastCoeffs_snoc]; exact hi.mat
  | setBasis k vs cs =>
    obtain rfl := Option.some.inj hs
    refine ⟨hn, hm, ?_, ?_, ?_, ?_, hi.libCols, hi.libRows, hi.libObj⟩
    · rw [lastObjective_snoc]; exact hi.costs
    · rw [lastBounds_snoc]; exact hi.bnds
    · rw [lastCoeffs_snoc]; exact hi.coeffs
    · rw [lastCoeffs_snoc]; exact hi.mat
  | saveBasis k =>
    obtain ⟨b, -, hs⟩ := Option.bind_eq_some_iff.mp hs
    obtain rfl := Option.some.inj hs
    refine ⟨hn, hm, ?_, ?_, ?_, ?_, hi.libCols, hi.libRows, hi.libObj⟩
    · rw [lastObjective_snoc]; exact hi.costs
    · rw [lastBounds_snoc]; exact hi.bnds
    · rw [lastCoeffs_snoc]; exact hi.coeffs
    · rw [lastCoeffs_snoc]; exact hi.mat
  | restoreBasis k =>
    unfold HighsLpi.step at hs
    dsimp only at hs
    split at hs
    · obtain ⟨b, -, hs⟩ := Option.bind_eq_some_iff.mp hs
      obtain rfl := Option.some.inj hs
      refine ⟨hn, hm, ?_, ?_, ?_, ?_, hi.libCols, hi.libRows, hi.libObj⟩
      · rw [lastObjective_snoc]; exact hi.costs
      · rw [lastBounds_snoc]; exact hi.bnds
      · rw [lastCoeffs_snoc]; exact hi.coeffs
      · rw [lastCoeffs_snoc]; exact hi.mat
    · exact absurd hs (by simp)
  | solve vs cs =>
    obtain ⟨t, ht, hs⟩ := Option.bind_eq_some_iff.mp hs
    obtain rfl := Option.some.inj hs
    have hc : s.dirtyCoeffs = false := by
      unfold HighsLpi.prepare at ht
      split at ht
      · exact absurd ht (by simp)
      · rename_i hd; simpa using hd
    obtain ⟨t', ht', hi', -⟩ := highs_prepare hi hc
    obtain rfl : t' = t := Option.some.inj (ht'.symm.trans ht)
    refine ⟨hi'.cols, hi'.rows, ?_, ?_, ?_, ?_, hi'.libCols, hi'.libRows, hi'.libObj⟩
    · rw [lastObjective_snoc]; exact hi'.costs
    · rw [lastBounds_snoc]; exact hi'.bnds
    · rw [lastCoeffs_snoc]; exact hi'.coeffs
    · rw [lastCoeffs_snoc]; exact hi'.mat

theorem highs_run_inv {inf : K} {n m : Nat} {s0 s : HighsLpi K} {h : List (LpiOp K HighsStat)}
    (hr : (HighsLpi.create n m s0).run inf h = some s) : HighsInv inf n m h s :=
  foldlM_hist _ (HighsInv inf n m) _ (highs_create_inv inf n m s0) (fun _ _ _ _ hi hs => highs_step_inv hi hs) h s hr

theorem lastLp_eq {n m : Nat} {h : List (LpiOp K S)} {lp : LpArrays K} (hl : lastLp n m h = some lp) :
    lp.numVars = n ∧ lp.numCons = m ∧ (lp.obj = (lastObjective h).getD fun _ => 0) ∧
      lastBounds h = some (lp.consLb, lp.consUb, lp.varsLb, lp.varsUb) ∧ lastCoeffs h = some lp.coeffs := by
  obtain ⟨b, hb, hl⟩ := Option.bind_eq_some_iff.mp hl
  obtain ⟨a, ha, rfl⟩ := Option.map_eq_some_iff.mp hl
  exact ⟨rfl, rfl, rfl, hb, ha⟩

/-- a library program with the bounds, coefficients and objective of `lp` -/
theorem libLp_solves {thr : K} {l : LibLp K} {lp : LpArrays K}
    (hcl : ∀ j < lp.numVars, l.colLb j = if lp.varsLb j ≤ -thr then none else some (lp.varsLb j))
    (hcu : ∀ j < lp.numVars, l.colUb j = if thr ≤ lp.varsUb j then none else some (lp.varsUb j))
    (hrl : ∀ i < lp.numCons, l.rowLb i = if lp.consLb i ≤ -thr then none else some (lp.consLb i))
    (hru : ∀ i < lp.numCons, l.rowUb i = if thr ≤ lp.consUb i then none else some (lp.consUb i))
    (ha : ∀ i < lp.numCons, ∀ j < lp.numVars, l.a i j = lp.coeffs.value i j)
    (ho : ∀ j < lp.numVars, l.obj j = lp.obj j) : l.Solves thr lp := by
  have low : ∀ (lo v : K) (b : Option K), (b = if lo ≤ -thr then none else some lo) → ((∀ c, b = some c → c ≤ v) ↔ (lo ≤ -thr ∨ lo ≤ v)) := by
    intro lo v b hb
    by_cases h1 : lo ≤ -thr
    · simp [hb, h1]
    · simp [hb, h1]
  have upp : ∀ (hi v : K) (b : Option K), (b = if thr ≤ hi then none else some hi) → ((∀ c, b = some c → v ≤ c) ↔ (thr ≤ hi ∨ v ≤ hi)) := by
    intro hi v b hb
    by_cases h1 : thr ≤ hi
    · simp [hb, h1]
    · simp [hb, h1]
  have hrow : ∀ i < lp.numCons, ∀ x : Nat → K, ∑ j ∈ range lp.numVars, l.a i j * x j = lp.row x i := by
    intro i hi x
    exact sum_congr rfl fun j hj => by rw [ha i hi j (mem_range.mp hj)]
  refine ⟨fun x => ⟨fun hf => ⟨fun j hj => ?_, fun i hi => ?_⟩, fun hf => ⟨fun j hj => ?_, fun j hj => ?_, fun i hi => ?_, fun i hi => ?_⟩⟩, fun x => ?_⟩
  · exact ⟨(low _ _ _ (hcl j hj)).mp (hf.colLb j hj), (upp _ _ _ (hcu j hj)).mp (hf.colUb j hj)⟩
  · rw [← hrow i hi x]
    exact ⟨(low _ _ _ (hrl i hi)).mp (hf.rowLb i hi), (upp _ _ _ (hru i hi)).mp (hf.rowUb i hi)⟩
  · exact (low _ _ _ (hcl j hj)).mpr (hf.vars j hj).1
  · exact (upp _ _ _ (hcu j hj)).mpr (hf.vars j hj).2
  · have := (hf.cons i hi).1
    rw [← hrow i hi x] at this
    exact (low _ _ _ (hrl i hi)).mpr this
  · have := (hf.cons i hi).2
    rw [← hrow i hi x] at this
    exact (upp _ _ _ (hru i hi)).mpr this
  · exact sum_congr rfl fun j hj => by rw [ho j (mem_range.mp hj)]

theorem adjustNeg_eq [IsStrictOrderedRing K] (inf v : K) : HighsLpi.adjustNeg inf v = if v ≤ -(inf / 2) then none else some v := by
  unfold HighsLpi.adjustNeg isInfinite
  simp only [decide_eq_true_eq, ge_iff_le, le_neg]

theorem adjustPos_eq (inf v : K) : HighsLpi.adjustPos inf v = if inf / 2 ≤ v then none else some v := by
  unfold HighsLpi.adjustPos isInfinite
  simp only [decide_eq_true_eq, ge_iff_le]

/-! ### SoPlex -/

/-- the invariant of the SoPlex interface -/
structure SoplexInv (n m : Nat) (h : List (LpiOp K SpxStat)) (s : SoplexLpi K) : Prop where
  cols : s.numCols = n
  rows : s.numRows = m
  costs : ∀ j < n, s.obj j = ((lastObjective h).getD fun _ => 0) j
  bnds : ∀ b, lastBounds h = some b →
    (∀ j < n, s.colLb j = b.2.2.1 j ∧ s.colUb j = b.2.2.2 j) ∧ ∀ i < m, s.rowLb i = b.1 i ∧ s.rowUb i = b.2.1 i
  mat : ∀ a, lastCoeffs h = some a → ∀ i, ∀ j < n, s.a i j = a.value i j

theorem soplex_create_inv (debug : Bool) (fe se infty : K) (n m : Nat) : SoplexInv n m [] (SoplexLpi.create debug fe se infty n m) where
  cols := rfl
  rows := rfl
  costs := fun j hj => by simp [SoplexLpi.create, lastObjective]
  bnds := fun b hb => by simp [lastBounds] at hb
  mat := fun a ha => by simp [lastCoeffs] at ha

theorem soplex_step_inv {n m : Nat} {h : List (LpiOp K SpxStat)} {s : SoplexLpi K} {o : LpiOp K SpxStat} {s' : SoplexLpi K}
    (hi : SoplexInv n m h s) (hs : s.step o = some s') : SoplexInv n m (h ++ [o]) s' := by
  have hn := hi.cols
  have hm := hi.rows
  cases o with
  | bounds cl cu vl vu =>
    unfold SoplexLpi.step at hs
    dsimp only at hs
    split at hs
    · obtain rfl := Option.some.inj hs
      refine ⟨hn, hm, ?_, ?_, ?_⟩
      · rw [lastObjective_snoc]; exact hi.costs
      · rw [lastBounds_snoc]
        rintro b hb
        obtain rfl := Option.some.inj hb
        refine ⟨fun j hj => ?_, fun i hi' => ?_⟩
        · rw [← hn] at hj; exact ⟨firstN_lt hj _ _, firstN_lt hj _ _⟩
        · rw [← hm] at hi'; exact ⟨firstN_lt hi' _ _, firstN_lt hi' _ _⟩
      · rw [lastCoeffs_snoc]; exact hi.mat
    · exact absurd hs (by simp)
  | coeffs a =>
    unfold SoplexLpi.step at hs
    dsimp only at hs
    split at hs
    · obtain rfl := Option.some.inj hs
      refine ⟨hn, hm, ?_, ?_, ?_⟩
      · rw [lastObjective_snoc]; exact hi.costs
      · rw [lastBounds_snoc]; exact hi.bnds
      · rw [lastCoeffs_snoc]
        intro a' ha i j hj
        obtain rfl := Option.some.inj ha
        rw [← hn] at hj
        exact if_pos hj
    · exact absurd hs (by simp)
  | objective c =>
    obtain rfl := Option.some.inj hs
    refine ⟨hn, hm, ?_, ?_, ?_⟩
    · rw [lastObjective_snoc]
      intro j hj
      rw [← hn] at hj
      exact firstN_lt hj _ _
    · rw [lastBounds_snoc]; exact hi.bnds
    · rw [lastCoeffs_snoc]; exact hi.mat
  | setBasis k vs cs =>
    obtain rfl := Option.some.inj hs
    refine ⟨hn, hm, ?_, ?_, ?_⟩
    · rw [lastObjective_snoc]; exact hi.costs
    · rw [lastBounds_snoc]; exact hi.bnds
    · rw [lastCoeffs_snoc]; exact hi.mat
  | saveBasis k =>
    obtain ⟨b, -, hs⟩ := Option.bind_eq_some_iff.mp hs
    obtain rfl := Option.some.inj hs
    refine ⟨hn, hm, ?_, ?_, ?_⟩
    · rw [lastObjective_snoc]; exact hi.costs
    · rw [lastBounds_snoc]; exact hi.bnds
    · rw [lastCoeffs_snoc]; exact hi.mat
  | restoreBasis k =>
    unfold SoplexLpi.step at hs
    dsimp only at hs
    split at hs
    · obtain rfl := Option.some.inj hs
      refine ⟨hn, hm, ?_, ?_, ?_⟩
      · rw [lastObjective_snoc]; exact hi.costs
      · rw [lastBounds_snoc]; exact hi.bnds
      · rw [lastCoeffs_snoc]; exact hi.mat
    · exact absurd hs (by simp)
  | solve vs cs =>
    obtain rfl := Option.some.inj hs
    refine ⟨hn, hm, ?_, ?_, ?_⟩
    · rw [lastObjective_snoc]; exact hi.costs
    · rw [lastBounds_snoc]; exact hi.bnds
    · rw [lastCoeffs_snoc]; exact hi.mat

theorem soplex_run_inv {debug : Bool} {fe se infty : K} {n m : Nat} {s : SoplexLpi K} {h : List (LpiOp K SpxStat)}
    (hr : (SoplexLpi.create debug fe se infty n m).run h = some s) : SoplexInv n m h s :=
  foldlM_hist _ (SoplexInv n m) _ (soplex_create_inv debug fe se infty n m) (fun _ _ _ _ hi hs => soplex_step_inv hi hs) h s hr

/-! ### Gurobi -/

theorem chg_col (col : Nat) (l : List (Nat × K)) (a : Nat → Nat → K) (i c : Nat) (hs : Srt l) :
    l.foldl (fun a e => GurobiLpi.chgCoeff a e.1 col e.2) a i c =
      if c = col ∧ (∃ e ∈ l, e.1 = i) then valAt l i else a i c := by
  induction l generalizing a with
  | nil => simp
  | cons e l ih =>
    have hs' : Srt l := List.Pairwise.of_cons hs
    rw [List.foldl_cons, ih _ hs', valAt_cons]
    have hcons : (∃ e' ∈ e :: l, e'.1 = i) ↔ e.1 = i ∨ ∃ e' ∈ l, e'.1 = i := by simp
    by_cases hc : c = col
    · by_cases he : e.1 = i
      · have hno : ¬ ∃ e' ∈ l, e'.1 = i := by
          rintro ⟨e', he', h1⟩
          have := List.rel_of_pairwise_cons hs he'
          omega
        rw [if_neg fun h => hno h.2, if_pos ⟨hc, hcons.mpr (Or.inl he)⟩, if_pos he]
        exact if_pos ⟨he.symm, hc⟩
      · rw [if_neg he]
        by_cases hl : ∃ e' ∈ l, e'.1 = i
        · rw [if_pos ⟨hc, hl⟩, if_pos ⟨hc, hcons.mpr (Or.inr hl)⟩]
        · rw [if_neg fun h => hl h.2, if_neg fun h => (hcons.mp h.2).elim he hl]
          exact if_neg fun h => he h.1.symm
    · rw [if_neg fun h => hc h.1, if_neg fun h => hc h.1]
      exact if_neg fun h => hc h.2

theorem setCoeffs_apply (n : Nat) (m : Mat K) (a : Nat → Nat → K) (i c : Nat) (hs : ∀ j < n, Srt (m.col j)) :
    GurobiLpi.setCoeffs n m a i c = if c < n ∧ (∃ e ∈ m.col c, e.1 = i) then m.value i c else a i c := by
  unfold GurobiLpi.setCoeffs
  induction n with
  | zero => simp
  | succ n ih =>
    rw [List.range_succ, List.foldl_append, List.foldl_cons, List.foldl_nil, chg_col _ _ _ _ _ (hs n (Nat.lt_succ_self n)),
      ih fun j hj => hs j (Nat.lt_succ_of_lt hj)]
    by_cases he : ∃ e ∈ m.col c, e.1 = i
    · by_cases hc : c = n
      · subst hc
        rw [if_pos ⟨rfl, he⟩, if_pos ⟨Nat.lt_succ_self c, he⟩]
        rfl
      · rw [if_neg fun h => hc h.1]
        by_cases hlt : c < n
        · rw [if_pos ⟨hlt, he⟩, if_pos ⟨by omega, he⟩]
        · rw [if_neg fun h => hlt h.1, if_neg fun h => hlt (by omega)]
    · have h1 : ¬ (c = n ∧ ∃ e ∈ m.col n, e.1 = i) := by rintro ⟨rfl, h⟩; exact he h
      rw [if_neg h1, if_neg fun h => he h.2, if_neg fun h => he h.2]

/-- the invariant of the Gurobi interface -/
structure GurobiInv (n m : Nat) (h : List (LpiOp K Int)) (s : GurobiLpi K) : Prop where
  cols : s.numCols = n
  rows : s.numRows = m
  costs : ∀ j < n, s.obj j = ((lastObjective h).getD fun _ => 0) j
  slackObj : ∀ c, n ≤ c → s.obj c = 0
  bnds : ∀ b, lastBounds h = some b →
    (∀ j < n, s.lb j = b.2.2.1 j ∧ s.ub j = b.2.2.2 j) ∧ ∀ i < m, s.lb (n + i) = b.1 i ∧ s.ub (n + i) = b.2.1 i
  slack : ∀ i c, n ≤ c → s.a i c = if c = n + i then -1 else 0
  stored : ∀ a, lastCoeffs h = some a → ∀ i, ∀ j < n, (∃ e ∈ a.col j, e.1 = i) → s.a i j = a.value i j
  other : ∀ i, ∀ j < n, (∀ a', .coeffs a' ∈ h → ¬ ∃ e ∈ a'.col j, e.1 = i) → s.a i j = 0

theorem gurobi_create_inv (infty : K) (n m : Nat) : GurobiInv n m [] (GurobiLpi.create infty n m) where
  cols := rfl
  rows := rfl
  costs := fun j hj => by simp [GurobiLpi.create, lastObjective]
  slackObj := fun _ _ => rfl
  bnds := fun b hb => by simp [lastBounds] at hb
  slack := fun _ _ _ => rfl
  stored := fun a ha => by simp [lastCoeffs] at ha
  other := fun i j hj _ => if_neg (by omega)

theorem gurobi_step_inv {n m : Nat} {h : List (LpiOp K Int)} {s : GurobiLpi K} {o : LpiOp K Int} {s' : GurobiLpi K}
    (hi : GurobiInv n m h s) (hs : s.step o = some s') (hw : ∀ a, o = .coeffs a → a.WF) : GurobiInv n m (h ++ [o]) s' := by
  have hn := hi.cols
  have hm := hi.rows
  have hmem : ∀ a', LpiOp.coeffs a' ∈ h → LpiOp.coeffs a' ∈ h ++ [o] := fun a' ha => List.mem_append_left _ ha
  cases o with
  | bounds cl cu vl vu =>
    obtain rfl := Option.some.inj hs
    refine ⟨hn, hm, ?_, hi.slackObj, ?_, hi.slack, ?_, fun i j hj ha => hi.other i j hj fun a' h1 => ha a' (hmem a' h1)⟩
    · rw [lastObjective_snoc]; exact hi.costs
    · rw [lastBounds_snoc]
      rintro b hb
      obtain rfl := Option.some.inj hb
      refine ⟨fun j hj => ?_, fun i hi' => ?_⟩
      · simp [hn, hj]
      · simp [hn, hm, hi']
    · rw [lastCoeffs_snoc]; exact hi.stored
  | coeffs a =>
    unfold GurobiLpi.step at hs
    dsimp only at hs
    split at hs
    · rename_i hd
      obtain rfl := Option.some.inj hs
      have hsrt : ∀ j < s.numCols, Srt (a.col j) := fun j hj => (hw a rfl).srt j (by rw [hd.2]; exact hj)
      refine ⟨hn, hm, ?_, hi.slackObj, ?_, fun i c hc => ?_, ?_, fun i j hj ha => ?_⟩
      · rw [lastObjective_snoc]; exact hi.costs
      · rw [lastBounds_snoc]; exact hi.bnds
      · dsimp only
        rw [setCoeffs_apply _ _ _ _ _ hsrt, if_neg (by rw [hn]; omega)]
        exact hi.slack i c hc
      · rw [lastCoeffs_snoc]
        intro a' ha i j hj he
        obtain rfl := Option.some.inj ha
        dsimp only
        rw [setCoeffs_apply _ _ _ _ _ hsrt, if_pos ⟨by rw [hn]; exact hj, he⟩]
      · dsimp only
        rw [setCoeffs_apply _ _ _ _ _ hsrt, if_neg fun hc => ha a (by simp) hc.2]
        exact hi.other i j hj fun a' h1 => ha a' (hmem a' h1)
    · exact absurd hs (by simp)
  | objective c =>
    obtain rfl := Option.some.inj hs
    refine ⟨hn, hm, ?_, fun c' hc => ?_, ?_, hi.slack, ?_, fun i j hj ha => hi.other i j hj fun a' h1 => ha a' (hmem a' h1)⟩
    · rw [lastObjective_snoc]
      intro j hj
      rw [← hn] at hj
      exact firstN_lt hj _ _
    · show firstN s.numCols c s.obj c' = 0
      rw [firstN, if_neg (by omega)]
      exact hi.slackObj c' hc
    · rw [lastBounds_snoc]; exact hi.bnds
    · rw [lastCoeffs_snoc]; exact hi.stored
  | setBasis k vs cs =>
    obtain rfl := Option.some.inj hs
    refine ⟨hn, hm, ?_, hi.slackObj, ?_, hi.slack, ?_, fun i j hj ha => hi.other i j hj fun a' h1 => ha a' (hmem a' h1)⟩
    · rw [lastObjective_snoc]; exact hi.costs
    · rw [lastBounds_snoc]; exact hi.bnds
    · rw [lastCoeffs_snoc]; exact hi.stored
  | saveBasis k =>
    obtain ⟨b, -, hs⟩ := Option.bind_eq_some_iff.mp hs
    obtain rfl := Option.some.inj hs
    refine ⟨hn, hm, ?_, hi.slackObj, ?_, hi.slack, ?_, fun i j hj ha => hi.other i j hj fun a' h1 => ha a' (hmem a' h1)⟩
    · rw [lastObjective_snoc]; exact hi.costs
    · rw [lastBounds_snoc]; exact hi.bnds
    · rw [lastCoeffs_snoc]; exact hi.stored
  | restoreBasis k =>
    unfold GurobiLpi.step at hs
    dsimp only at hs
    split at hs
    · obtain ⟨b, -, hs⟩ := Option.bind_eq_some_iff.mp hs
      obtain rfl := Option.some.inj hs
      refine ⟨hn, hm, ?_, hi.slackObj, ?_, hi.slack, ?_, fun i j hj ha => hi.other i j hj fun a' h1 => ha a' (hmem a' h1)⟩
      · rw [lastObjective_snoc]; exact hi.costs
      · rw [lastBounds_snoc]; exact hi.bnds
      · rw [lastCoeffs_snoc]; exact hi.stored
    · exact absurd hs (by simp)
  | solve vs cs =>
    obtain rfl := Option.some.inj hs
    refine ⟨hn, hm, ?_, hi.slackObj, ?_, hi.slack, ?_, fun i j hj ha => hi.other i j hj fun a' h1 => ha a' (hmem a' h1)⟩
    · rw [lastObjective_snoc]; exact hi.costs
    · rw [lastBounds_snoc]; exact hi.bnds
    · rw [lastCoeffs_snoc]; exact hi.stored

theorem gurobi_dims {infty : K} {n m : Nat} {s : GurobiLpi K} {h : List (LpiOp K Int)} (hr : (GurobiLpi.create infty n m).run h = some s) :
    ∀ a, .coeffs a ∈ h → a.numCols = n := by
  refine (foldlM_hist _ (fun h s => s.numCols = n ∧ ∀ a, .coeffs a ∈ h → a.numCols = n) _ ⟨rfl, fun a ha => by simp at ha⟩ ?_ h s hr).2
  rintro h s o s' ⟨hn, ih⟩ hs
  cases o with
  | bounds => obtain rfl := Option.some.inj hs; exact ⟨hn, fun a ha => ih a (by simpa using ha)⟩
  | coeffs b =>
    unfold GurobiLpi.step at hs
    dsimp only at hs
    split at hs
    · rename_i hd
      obtain rfl := Option.some.inj hs
      refine ⟨hn, fun a ha => ?_⟩
      rcases List.mem_append.mp ha with ha | ha
      · exact ih a ha
      · obtain rfl : a = b := by simpa using ha
        exact hd.2.trans hn
    · exact absurd hs (by simp)
  | objective => obtain rfl := Option.some.inj hs; exact ⟨hn, fun a ha => ih a (by simpa using ha)⟩
  | setBasis => obtain rfl := Option.some.inj hs; exact ⟨hn, fun a ha => ih a (by simpa using ha)⟩
  | saveBasis =>
    obtain ⟨b, -, hs⟩ := Option.bind_eq_some_iff.mp hs
    obtain rfl := Option.some.inj hs
    exact ⟨hn, fun a ha => ih a (by simpa using ha)⟩
  | restoreBasis =>
    unfold GurobiLpi.step at hs
    dsimp only at hs
    split at hs
    · obtain ⟨b, -, hs⟩ := Option.bind_eq_some_iff.mp hs
      obtain rfl := Option.some.inj hs
      exact ⟨hn, fun a ha => ih a (by simpa using ha)⟩
    · exact absurd hs (by simp)
  | solve => obtain rfl := Option.some.inj hs; exact ⟨hn, fun a ha => ih a (by simpa using ha)⟩

theorem gurobi_run_inv {infty : K} {n m : Nat} {s : GurobiLpi K} {h : List (LpiOp K Int)}
    (hw : ∀ a, .coeffs a ∈ h → a.WF) (hr : (GurobiLpi.create infty n m).run h = some s) : GurobiInv n m h s :=
  foldlM_hist _ (fun h s => (∀ a, .coeffs a ∈ h → a.WF) → GurobiInv n m h s) _ (fun _ => gurobi_create_inv infty n m)
    (fun h _ o _ hi hs hw => gurobi_step_inv (hi fun a ha => hw a (List.mem_append_left _ ha)) hs fun a ha => hw a (by simp [ha])) h s hr hw

/-- the program held by Gurobi, from its invariant -/
theorem gurobi_solves {infty : K} {n m : Nat} {s : GurobiLpi K} {lp : LpArrays K} (hn : lp.numVars = n) (hm : lp.numCons = m)
    (hsn : s.numCols = n) (hsm : s.numRows = m) (ho : ∀ j < n, s.obj j = lp.obj j) (hso : ∀ c, n ≤ c → s.obj c = 0)
    (hc : ∀ j < n, s.lb j = lp.varsLb j ∧ s.ub j = lp.varsUb j) (hr : ∀ i < m, s.lb (n + i) = lp.consLb i ∧ s.ub (n + i) = lp.consUb i)
    (hs : ∀ i c, n ≤ c → s.a i c = if c = n + i then -1 else 0) (ha : ∀ i < m, ∀ j < n, s.a i j = lp.coeffs.value i j) :
    s.Solves infty lp := by
  subst hn hm
  have hrow : ∀ z : Nat → K, ∀ i < lp.numCons, ∑ c ∈ range (s.numCols + s.numRows), s.a i c * z c = lp.row z i - z (lp.numVars + i) := by
    intro z i hi
    rw [hsn, hsm, sum_range_add, LpArrays.row, sum_congr rfl fun j hj => by rw [ha i hi j (mem_range.mp hj)], sub_eq_add_neg]
    congr 1
    rw [sum_eq_single i]
    · rw [hs _ _ (Nat.le_add_right _ _), if_pos rfl, neg_one_mul]
    · intro b _ hb
      rw [hs _ _ (Nat.le_add_right _ _), if_neg (by omega), zero_mul]
    · intro hb; exact absurd (mem_range.mpr hi) hb
  have hslack : ∀ z, s.Feasible infty z → ∀ i < lp.numCons, z (lp.numVars + i) = lp.row z i := by
    intro z hz i hi
    have := hz.rows i (by rw [hsm]; exact hi)
    rw [hrow z i hi] at this
    exact (sub_eq_zero.mp this).symm
  refine ⟨fun z hz => ⟨fun j hj => ?_, fun i hi => ?_⟩, fun x hx => ?_, hslack, fun z => ?_⟩
  · have := hz.bounds j (by omega)
    rwa [(hc j hj).1, (hc j hj).2] at this
  · have := hz.bounds (lp.numVars + i) (by omega)
    rwa [(hr i hi).1, (hr i hi).2, hslack z hz i hi] at this
  · have hz : ∀ i, lp.row (fun c => if c < lp.numVars then x c else lp.row x (c - lp.numVars)) i = lp.row x i := by
      intro i
      exact sum_congr rfl fun j hj => by dsimp only; rw [if_pos (mem_range.mp hj)]
    refine ⟨fun c => if c < lp.numVars then x c else lp.row x (c - lp.numVars), ⟨fun c hc' => ?_, fun i hi => ?_⟩, fun j hj => if_pos hj⟩
    · by_cases h1 : c < lp.numVars
      · rw [if_pos h1, (hc c h1).1, (hc c h1).2]; exact hx.vars c h1
      · obtain ⟨i, rfl⟩ := Nat.exists_eq_add_of_le (not_lt.mp h1)
        have hi : i < lp.numCons := by omega
        rw [if_neg h1, (hr i hi).1, (hr i hi).2, Nat.add_sub_cancel_left]
        exact hx.cons i hi
    · rw [hsm] at hi
      rw [hrow _ i hi, hz, if_neg (by omega), Nat.add_sub_cancel_left, sub_self]
  · rw [GurobiLpi.cost, LpArrays.cost, hsn, sum_range_add]
    rw [sum_congr rfl fun j hj => by rw [ho j (mem_range.mp hj)], add_eq_left]
    exact sum_eq_zero fun i _ => by rw [hso _ (Nat.le_add_right _ _), zero_mul]

end Sleqp
