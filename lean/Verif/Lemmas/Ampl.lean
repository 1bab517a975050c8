import Verif.Model.Ampl
import Verif.Spec.Mat
import Verif.Lemmas.Mat
import Mathlib.Algebra.Order.BigOperators.Group.Finset
import Mathlib.Algebra.BigOperators.Group.Finset.Piecewise

/-! C85: assembly of matrices from triplets. -/

namespace Sleqp
variable {K : Type*} [Field K] [LinearOrder K]

/-- entries of column `j` which are kept -/
def tripletCol (keep : Nat → Option Nat) (es : List (Nat × Nat × K)) (j : Nat) : List (Nat × K) :=
  es.filterMap fun e => if e.2.1 = j then (keep e.1).map fun r => (r, e.2.2) else none

theorem tripletCol_ne {keep : Nat → Option Nat} {r c : Nat} {v : K} {es : List (Nat × Nat × K)} {j : Nat} (h : c ≠ j) :
    tripletCol keep ((r, c, v) :: es) j = tripletCol keep es j := by
  unfold tripletCol
  rw [List.filterMap_cons]
  simp [h]

theorem tripletCol_same {keep : Nat → Option Nat} {r c : Nat} {v : K} {es : List (Nat × Nat × K)} :
    tripletCol keep ((r, c, v) :: es) c = (match keep r with | some r' => [(r', v)] | none => []) ++ tripletCol keep es c := by
  unfold tripletCol
  rw [List.filterMap_cons]
  cases keep r <;> simp

theorem tripletCol_nil_of {keep : Nat → Option Nat} {es : List (Nat × Nat × K)} {j : Nat} (h : ∀ e ∈ es, e.2.1 ≠ j) :
    tripletCol keep es j = [] := by
  unfold tripletCol
  rw [List.filterMap_eq_nil_iff]
  intro e he
  rw [if_neg (h e he)]

theorem assembleFrom_append (a b : List (List (Nat × K))) (m : Mat K) (j : Nat) :
    m.assembleFrom j (a ++ b) = (m.assembleFrom j a).bind fun m => m.assembleFrom (j + a.length) b := by
  induction a generalizing m j with
  | nil => rfl
  | cons c a ih =>
    have hc : ∀ l, m.assembleFrom j (c :: l) =
        (m.pushCol j).bind fun m1 => (m1.pushAll j c).bind fun m2 => m2.assembleFrom (j + 1) l := fun _ => rfl
    rw [List.cons_append, hc, hc]
    rcases m.pushCol j with _ | m1
    · rfl
    simp only [Option.bind_some]
    rcases m1.pushAll j c with _ | m2
    · rfl
    simp only [Option.bind_some]
    rw [ih, List.length_cons, show j + 1 + a.length = j + (a.length + 1) by omega]

theorem pushCols_assemble (k : Nat) (m : Mat K) (a : Nat) :
    (List.range' a k).foldlM (fun (m : Mat K) j => m.pushCol j) m = m.assembleFrom a ((List.range' a k).map fun _ => []) := by
  induction k generalizing m a with
  | zero => rfl
  | succ k ih =>
    rw [List.range'_succ, List.foldlM_cons, List.map_cons]
    unfold Mat.assembleFrom
    refine congrArg (Option.bind (m.pushCol a)) (funext fun m1 => ?_)
    exact ih m1 (a + 1)

theorem pushColsTo_append {m : Mat K} {a b c : Nat} (h1 : a ≤ b) (h2 : b ≤ c) :
    m.pushColsTo a c = (m.pushColsTo a b).bind fun m => m.pushColsTo b c := by
  unfold Mat.pushColsTo
  rw [show c - a = (b - a) + (c - b) by omega, ← List.range'_append_1, List.foldlM_append, show a + (b - a) = b by omega]
  rfl

/-- the rest of the assembly when the columns below `next` are begun -/
def tripletRest (keep : Nat → Option Nat) (n : Nat) (m : Mat K) (next : Nat) (es : List (Nat × Nat × K)) : Option (Mat K) :=
  (match next with
    | 0 => some m
    | p + 1 => m.pushAll p (tripletCol keep es p)).bind fun m =>
  m.assembleFrom next ((List.range' next (n - next)).map (tripletCol keep es))

theorem tripletLoop_spec (keep : Nat → Option Nat) (n : Nat) (es : List (Nat × Nat × K)) :
    ∀ (m : Mat K) (next : Nat), next ≤ n → (∀ e ∈ es, next ≤ e.2.1 + 1 ∧ e.2.1 < n) → es.Pairwise (fun a b => a.2.1 ≤ b.2.1) →
      ((Mat.tripletLoop keep m next es).bind fun r => r.1.pushColsTo r.2 n) = tripletRest keep n m next es := by
  induction es with
  | nil =>
    intro m next hn _ _
    show m.pushColsTo next n = _
    unfold tripletRest Mat.pushColsTo
    rw [pushCols_assemble]
    cases next <;> rfl
  | cons e es ih =>
    obtain ⟨r, c, v⟩ := e
    intro m next hn hb hs
    obtain ⟨hc1, hc2⟩ := hb _ List.mem_cons_self
    dsimp only at hc1 hc2
    obtain ⟨hs1, hs2⟩ := List.pairwise_cons.mp hs
    have hmax : max next (c + 1) = c + 1 := max_eq_right hc1
    have hrest : ∀ m2 : Mat K, ((Mat.tripletLoop keep m2 (c + 1) es).bind fun r => r.1.pushColsTo r.2 n) = tripletRest keep n m2 (c + 1) es :=
      fun m2 => ih m2 (c + 1) hc2 (fun e he => ⟨Nat.succ_le_succ (hs1 e he), (hb e (List.mem_cons_of_mem _ he)).2⟩) hs2
    -- after the columns up to `c` were begun
    have hafter : ∀ m1 : Mat K, ((match keep r with | some r' => m1.push r' c v | none => some m1).bind fun m2 =>
        tripletRest keep n m2 (c + 1) es) = tripletRest keep n m1 (c + 1) ((r, c, v) :: es) := by
      intro m1
      have hcols : (List.range' (c + 1) (n - (c + 1))).map (tripletCol keep ((r, c, v) :: es)) =
          (List.range' (c + 1) (n - (c + 1))).map (tripletCol keep es) := by
        apply List.map_congr_left
        intro j hj
        rw [List.mem_range'_1] at hj
        exact tripletCol_ne (by omega)
      unfold tripletRest
      dsimp only
      rw [hcols, tripletCol_same]
      rcases keep r with _ | r'
      · rfl
      · dsimp only
        unfold Mat.pushAll
        rw [List.foldlM_append, List.foldlM_cons]
        simp only [Option.bind_eq_bind, Option.bind_assoc]
        rcases m1.push r' c v with _ | m2
        · rfl
        · rfl
    have hL : ((Mat.tripletLoop keep m next ((r, c, v) :: es)).bind fun r => r.1.pushColsTo r.2 n) =
        (m.pushColsTo next (c + 1)).bind fun m1 => tripletRest keep n m1 (c + 1) ((r, c, v) :: es) := by
      unfold Mat.tripletLoop
      rw [hmax]
      simp only [Option.bind_assoc]
      congr 1
      funext m1
      rw [← hafter m1]
      congr 1
      funext m2
      exact hrest m2
    rw [hL]
    rcases Nat.eq_or_lt_of_le hc1 with hq | hq
    · subst hq
      have : m.pushColsTo (c + 1) (c + 1) = some m := by unfold Mat.pushColsTo; rw [Nat.sub_self]; rfl
      rw [this]; rfl
    · have hle : next ≤ c := Nat.lt_succ_iff.mp hq
      have hbelow : ∀ j < c, tripletCol keep ((r, c, v) :: es) j = [] := by
        intro j hj
        refine tripletCol_nil_of fun e he => ?_
        rcases List.mem_cons.mp he with rfl | he
        · exact Nat.ne_of_gt hj
        · have := hs1 e he
          dsimp only at this
          omega
      have hopen : (match (motive := Nat → Option (Mat K)) next with
          | 0 => some m
          | p + 1 => m.pushAll p (tripletCol keep ((r, c, v) :: es) p)) = some m := by
        cases next with
        | zero => rfl
        | succ p => dsimp only; rw [hbelow p (by omega)]; rfl
      conv_rhs => unfold tripletRest
      rw [hopen, Option.bind_some]
      rw [show n - next = (c - next) + (n - c) by omega, ← List.range'_append_1, show next + (c - next) = c by omega, List.map_append,
        assembleFrom_append, List.length_map, List.length_range', show next + (c - next) = c by omega]
      have hempty : (List.range' next (c - next)).map (tripletCol keep ((r, c, v) :: es)) = (List.range' next (c - next)).map fun _ => [] := by
        apply List.map_congr_left
        intro j hj
        rw [List.mem_range'_1] at hj
        exact hbelow j (by omega)
      rw [hempty, ← pushCols_assemble, pushColsTo_append hle (Nat.le_succ c), Option.bind_assoc]
      refine congrArg (Option.bind _) (funext fun m1 => ?_)
      rw [show n - c = (n - (c + 1)) + 1 by omega, List.range'_succ, List.map_cons]
      unfold Mat.assembleFrom Mat.pushColsTo tripletRest
      rw [show c + 1 - c = 1 by omega, List.range'_one, List.foldlM_cons]
      rcases m1.pushCol c with _ | m2 <;> rfl

/-- the matrix is assembled column by column -/
theorem fromTriplets_eq (keep : Nat → Option Nat) (m : Mat K) (es : List (Nat × Nat × K)) (hb : ∀ e ∈ es, e.2.1 < m.numCols)
    (hs : es.Pairwise fun a b => a.2.1 ≤ b.2.1) :
    Mat.fromTriplets keep m es = m.assembleFrom 0 ((List.range m.numCols).map (tripletCol keep es)) := by
  unfold Mat.fromTriplets
  rw [tripletLoop_spec keep m.numCols es m 0 (Nat.zero_le _) (fun e he => ⟨Nat.zero_le _, hb e he⟩) hs, List.range_eq_range']
  rfl

theorem mem_tripletCol {keep : Nat → Option Nat} {es : List (Nat × Nat × K)} {j i : Nat} {v : K} :
    (i, v) ∈ tripletCol keep es j ↔ ∃ r, (r, j, v) ∈ es ∧ keep r = some i := by
  unfold tripletCol
  rw [List.mem_filterMap]
  constructor
  · rintro ⟨⟨r, c, w⟩, h1, h2⟩
    dsimp only at h2
    split at h2
    · rename_i hc
      obtain ⟨r', h3, h4⟩ := Option.map_eq_some_iff.mp h2
      obtain ⟨rfl, rfl⟩ := Prod.mk.inj h4
      exact ⟨r, hc ▸ h1, h3⟩
    · cases h2
  · rintro ⟨r, h1, h2⟩
    exact ⟨_, h1, by simp [h2]⟩

theorem tripletCol_lengths (keep : Nat → Option Nat) (n : Nat) (es : List (Nat × Nat × K)) :
    (((List.range n).map (tripletCol keep es)).map List.length).sum ≤ es.length := by
  rw [List.map_map]
  have hsum : ∀ (n : Nat) (f : Nat → Nat), ((List.range n).map f).sum = ∑ j ∈ Finset.range n, f j := by
    intro n f
    induction n with
    | zero => rfl
    | succ n ih => rw [List.range_succ, List.map_append, List.sum_append, ih, Finset.sum_range_succ]; simp
  rw [hsum]
  induction es with
  | nil => simp [tripletCol]
  | cons e es ih =>
    obtain ⟨r, c, v⟩ := e
    have h1 : ∀ j, (List.length ∘ tripletCol keep ((r, c, v) :: es)) j ≤ (List.length ∘ tripletCol keep es) j + if c = j then 1 else 0 := by
      intro j
      show (tripletCol keep ((r, c, v) :: es) j).length ≤ (tripletCol keep es j).length + _
      by_cases h : c = j
      · subst h
        rw [tripletCol_same, List.length_append, if_pos rfl]
        cases keep r <;> simp <;> omega
      · rw [tripletCol_ne h, if_neg h]; omega
    refine le_trans (Finset.sum_le_sum fun j _ => h1 j) ?_
    rw [Finset.sum_add_distrib, Finset.sum_ite_eq, List.length_cons]
    split <;> omega

theorem tripletCol_srt {keep : Nat → Option Nat} (hk : ∀ r s r' s', keep r = some r' → keep s = some s' → r < s → r' < s')
    {es : List (Nat × Nat × K)} (hs : es.Pairwise fun a b => a.2.1 < b.2.1 ∨ (a.2.1 = b.2.1 ∧ a.1 < b.1)) (j : Nat) :
    Srt (tripletCol keep es j) := by
  unfold Srt tripletCol
  rw [List.pairwise_filterMap]
  refine hs.imp ?_
  intro a b hab x hx y hy
  split at hx
  · split at hy
    · rename_i h1 h2
      obtain ⟨r', h3, rfl⟩ := Option.map_eq_some_iff.mp hx
      obtain ⟨s', h4, rfl⟩ := Option.map_eq_some_iff.mp hy
      refine hk _ _ _ _ h3 h4 ?_
      rcases hab with h | h
      · omega
      · exact h.2
    · cases hy
  · cases hx

theorem fromTriplets_spec {keep : Nat → Option Nat} (hk : ∀ r s r' s', keep r = some r' → keep s = some s' → r < s → r' < s')
    {m : Mat K} {es : List (Nat × Nat × K)} (h0 : m.ptr 0 = 0) (hn : m.nnz = 0) (hcap : es.length ≤ m.cap)
    (hb : ∀ e ∈ es, e.2.1 < m.numCols ∧ ∀ r, keep e.1 = some r → r < m.numRows)
    (hs : es.Pairwise fun a b => a.2.1 < b.2.1 ∨ (a.2.1 = b.2.1 ∧ a.1 < b.1)) :
    ∃ m', Mat.fromTriplets keep m es = some m' ∧ m'.WF ∧ m'.numRows = m.numRows ∧ m'.numCols = m.numCols ∧
      ∀ i, ∀ j < m.numCols, (∀ r v, (r, j, v) ∈ es → keep r = some i → m'.value i j = v) ∧
        ((∀ r v, (r, j, v) ∈ es → keep r ≠ some i) → m'.value i j = 0) := by
  rw [fromTriplets_eq keep m es (fun e he => (hb e he).1) (hs.imp fun h => by rcases h with h | h <;> omega)]
  obtain ⟨m', h1, h2, h3, h4, -, h5⟩ := Mat.assemble_wf m ((List.range m.numCols).map (tripletCol keep es)) h0 hn (by simp)
    (by intro c hc; obtain ⟨j, -, rfl⟩ := List.mem_map.mp hc; exact tripletCol_srt hk hs j)
    (by
      intro c hc e he
      obtain ⟨j, -, rfl⟩ := List.mem_map.mp hc
      obtain ⟨r, h1, h2⟩ := mem_tripletCol.mp he
      exact (hb _ h1).2 _ h2)
    (le_trans (tripletCol_lengths keep _ es) hcap)
  refine ⟨m', h1, h2, h3, h4, fun i j hj => ?_⟩
  have hcol : m'.col j = tripletCol keep es j := by
    rw [h5 j (by simpa using hj)]
    simp
  constructor
  · intro r v hr hkr
    unfold Mat.value
    rw [hcol]
    unfold valAt
    rw [at?_of_mem (tripletCol_srt hk hs j) (mem_tripletCol.mpr ⟨r, hr, hkr⟩)]
    rfl
  · intro hr
    unfold Mat.value
    rw [hcol]
    unfold valAt
    rw [at?_none_of_forall]
    · rfl
    · rintro ⟨i', v⟩ he rfl
      obtain ⟨r, h6, h7⟩ := mem_tripletCol.mp he
      exact hr r v h6 h7

end Sleqp
