import Mathlib.Algebra.BigOperators.Fin
import Verif.Spec.GaussNewton
import Verif.Lemmas.NullProj
import Verif.Props.Lsqr
import Verif.Props.WorkStep
import Verif.Props.MatRemove
import Verif.Lemmas.Restoration

/-! The least-squares problem set up for the Gauss-Newton step. -/

namespace Sleqp
open Matrix

section Structural
variable {K : Type*} [Field K] [LinearOrder K]

omit [Field K] [LinearOrder K] in
theorem filter_ge_succ {l : List (Nat × K)} (hl : Srt l) (i : Nat) :
    l.filter (fun e => decide (i + 1 ≤ e.1)) = (l.filter fun e => decide (i ≤ e.1)).filter fun e => decide (i ≠ e.1) := by
  rw [List.filter_filter]
  refine List.filter_congr fun e _ => ?_
  by_cases h : i + 1 ≤ e.1
  · simp [h, show i ≤ e.1 by omega, show i ≠ e.1 by omega]
  · by_cases h2 : i ≤ e.1
    · simp [h, show i = e.1 by omega]
    · simp [h, h2]

omit [Field K] [LinearOrder K] in
theorem gnRemoved_loop {l : List (Nat × K)} (hl : Srt l) (i : Nat) :
    (List.range i).foldl gnRemovedStep (l, []) =
      (l.filter (fun e => decide (i ≤ e.1)), (List.range i).filter fun k => decide (k ∉ l.map Prod.fst)) := by
  induction i with
  | zero =>
    simp
  | succ i ih =>
    rw [List.range_succ, List.foldl_append, ih, List.filter_append, filter_ge_succ hl]
    simp only [List.foldl_cons, List.foldl_nil]
    set rest := l.filter (fun e => decide (i ≤ e.1)) with hrest
    have hs : Srt rest := List.Pairwise.filter _ hl
    have hmem : i ∈ l.map Prod.fst ↔ ∃ e ∈ rest, e.1 = i := by
      rw [List.mem_map]
      constructor
      · rintro ⟨e, he, rfl⟩; exact ⟨e, by rw [hrest, List.mem_filter]; exact ⟨he, by simp⟩, rfl⟩
      · rintro ⟨e, he, rfl⟩; rw [hrest, List.mem_filter] at he; exact ⟨e, he.1, rfl⟩
    have hge : ∀ e ∈ rest, i ≤ e.1 := fun e he => by rw [hrest, List.mem_filter] at he; simpa using he.2
    clear_value rest
    unfold gnRemovedStep
    rcases rest with _ | ⟨⟨j, v⟩, rest⟩
    · have : i ∉ l.map Prod.fst := fun h => by obtain ⟨e, he, -⟩ := hmem.1 h; simp at he
      simp [this]
    · obtain ⟨h1, h2⟩ := List.pairwise_cons.mp hs
      have hrs : rest.filter (fun e => decide (i ≠ e.1)) = rest := by
        rw [List.filter_eq_self]
        intro e he
        have := h1 e he
        have := hge (j, v) (by simp)
        simp only at *
        simp; omega
      simp only
      split
      · rename_i hij
        have : i ∈ l.map Prod.fst := hmem.2 ⟨(j, v), by simp, hij.symm⟩
        rw [List.filter_cons]
        simp only [hij, ne_eq, not_true, decide_false, Bool.false_eq_true, if_false]
        rw [hij] at hrs this
        simp only [ne_eq] at hrs
        rw [hrs]
        simp [this]
      · rename_i hij
        have : i ∉ l.map Prod.fst := fun h => by
          obtain ⟨e, he, h3⟩ := hmem.1 h
          rcases List.mem_cons.1 he with rfl | he
          · exact hij h3.symm
          · have := h1 e he
            have := hge (j, v) (by simp)
            simp only at *
            omega
        rw [List.filter_cons]
        simp only [ne_eq, decide_not] at hrs
        simp [hij, this, hrs]

omit [Field K] [LinearOrder K] in
/-- the constraints removed are those without stored entry -/
theorem gnRemoved_spec {m : Nat} {mu : Vec K} (hw : mu.WF) (hd : mu.dim = m) :
    gnRemoved m mu = some ((List.range m).filter fun k => decide (k ∉ mu.ents.map Prod.fst)) := by
  unfold gnRemoved
  rw [gnRemoved_loop hw.srt]
  have : mu.ents.filter (fun e => decide (m ≤ e.1)) = [] := by
    rw [List.filter_eq_nil_iff]
    intro e he
    have := hw.lt_dim e he
    simp; omega
  simp [this]

omit [Field K] [LinearOrder K] in
theorem pushLoop_mem {τ : Type*} {f : Nat × τ → Option K} (l : List (Nat × τ)) : ∀ {r w : Vec K}, pushLoop f r l = some w →
    ∀ e ∈ w.ents, e ∈ r.ents ∨ ∃ t ∈ l, f t = some e.2 := by
  induction l with
  | nil =>
    intro r w h e he
    unfold pushLoop at h
    simp at h
    exact Or.inl (h ▸ he)
  | cons t l ih =>
    intro r w h e he
    have h' : ((match f t with | none => some r | some v => r.push t.1 v) >>= fun r => pushLoop f r l) = some w := h
    rcases hf : f t with _ | v
    · rw [hf] at h'
      rcases ih (r := r) h' e he with h1 | ⟨t', h1, h2⟩
      · exact Or.inl h1
      · exact Or.inr ⟨t', List.mem_cons_of_mem _ h1, h2⟩
    · rw [hf] at h'
      obtain ⟨r', h1, h2⟩ := Option.bind_eq_some_iff.mp h'
      obtain ⟨rfl, -⟩ := Vec.push_eq_some h1
      rcases ih h2 e he with h3 | ⟨t', h3, h4⟩
      · rcases List.mem_append.mp h3 with h3 | h3
        · exact Or.inl h3
        · simp at h3
          exact Or.inr ⟨t, by simp, by rw [hf, h3]⟩
      · exact Or.inr ⟨t', List.mem_cons_of_mem _ h3, h4⟩

/-- stored multipliers of violated constraints are not zero -/
theorem multipliers_ne [IsStrictOrderedRing K] {active : Nat → Bool} {m : Nat} {c lb ub r0 mu : Vec K} (h : violatedMultipliers active m c lb ub r0 = some mu) :
    ∀ e ∈ mu.ents, e.2 ≠ 0 := by
  unfold violatedMultipliers at h
  simp only at h
  split at h
  · intro e he
    rcases pushLoop_mem _ h e he with h1 | ⟨t, -, h1⟩
    · simp [Vec.clear, Vec.reserve] at h1
    · unfold multBody at h1
      split at h1
      · simp at h1
      · split at h1
        · simp only [Option.some.injEq] at h1; rw [← h1]; exact one_ne_zero
        · split at h1
          · simp only [Option.some.injEq] at h1; rw [← h1]; exact neg_ne_zero.2 one_ne_zero
          · simp at h1
  · simp at h

omit [Field K] [LinearOrder K] in
theorem gnSplit_loop (R : Nat) (l : List (Nat × K)) : ∀ {a b a' b' : Vec K},
    a.pushAll (l.filter fun t => decide (t.1 < R)) = some a' →
    b.pushAll ((l.filter fun t => !decide (t.1 < R)).map fun t => (t.1 - R, t.2)) = some b' →
    l.foldlM (gnSplitStep R) (a, b) = some (a', b') := by
  induction l with
  | nil =>
    intro a b a' b' h1 h2
    simp [Vec.pushAll] at h1 h2
    simp [h1, h2]
  | cons t l ih =>
    intro a b a' b' h1 h2
    rw [List.foldlM_cons]
    unfold gnSplitStep
    by_cases ht : t.1 < R
    · rw [if_pos ht]
      rw [List.filter_cons_of_pos (by simpa using ht)] at h1
      rw [List.filter_cons_of_neg (by simpa using ht)] at h2
      obtain ⟨a1, q1, q2⟩ := Option.bind_eq_some_iff.mp (show (a.push t.1 t.2).bind (fun a => a.pushAll (l.filter fun t => decide (t.1 < R))) = some a' from h1)
      rw [q1]
      exact ih q2 h2
    · rw [if_neg ht]
      rw [List.filter_cons_of_neg (by simpa using ht)] at h1
      rw [List.filter_cons_of_pos (by simpa using ht), List.map_cons] at h2
      obtain ⟨b1, q1, q2⟩ := Option.bind_eq_some_iff.mp (show (b.push (t.1 - R) t.2).bind (fun b => b.pushAll ((l.filter fun t => !decide (t.1 < R)).map fun t => (t.1 - R, t.2))) = some b' from h2)
      rw [q1]
      exact ih h1 q2

/-- the direction is split into its two parts -/
theorem gnSplit_spec {e : GnEnv K} {s : GnMem K} {R k : Nat} (hR : e.numRes = R) (ha : s.adjLsqDir.dim = R) (hb : s.adjConsDir.dim = k)
    {d : Vec K} (hd : VOk (R + k) d) :
    ∃ a b, gnSplit e s k d = some (a, b) ∧ VOk R a ∧ VOk k b ∧ dense (R + k) d = Fin.append (dense R a) (dense k b) := by
  obtain ⟨hw, hdim⟩ := hd
  set la := d.ents.filter fun t => decide (t.1 < R) with hla
  set lb := (d.ents.filter fun t => decide (R ≤ t.1)).map fun t => (t.1 - R, t.2) with hlb
  have sa : Srt la := List.Pairwise.filter _ hw.srt
  have sb : Srt lb := by
    rw [hlb, Srt, List.pairwise_map]
    refine List.Pairwise.imp_of_mem ?_ (List.Pairwise.filter _ hw.srt)
    intro x y hx hy hxy
    rw [List.mem_filter, decide_eq_true_eq] at hx hy
    simp only at hxy ⊢
    omega
  have la' : ∀ t ∈ la, t.1 < R := fun t ht => by rw [hla, List.mem_filter, decide_eq_true_eq] at ht; exact ht.2
  have lb' : ∀ t ∈ lb, t.1 < k := fun t ht => by
    rw [hlb, List.mem_map] at ht
    obtain ⟨u, hu, rfl⟩ := ht
    rw [List.mem_filter, decide_eq_true_eq] at hu
    have := hw.lt_dim u hu.1
    simp only
    omega
  have ca : la.length ≤ min R d.nnz := le_min (by
    simpa using sorted_length_le (rem := la.map Prod.fst) (by rw [List.pairwise_map]; exact sa) (a := 0) (k := R) (by simp) (fun r hr => by
      obtain ⟨t, ht, rfl⟩ := List.mem_map.mp hr
      have := la' t ht; omega)) (List.length_filter_le _ _)
  have cb : lb.length ≤ min k d.nnz := le_min (by
    simpa using sorted_length_le (rem := lb.map Prod.fst) (by rw [List.pairwise_map]; exact sb) (a := 0) (k := k) (by simp) (fun r hr => by
      obtain ⟨t, ht, rfl⟩ := List.mem_map.mp hr
      have := lb' t ht; omega)) (by rw [hlb, List.length_map]; exact List.length_filter_le _ _)
  have pa := Vec.pushAll_ok ((s.adjLsqDir.clear).reserve (min R d.nnz)) la (by simpa [Vec.clear, Vec.reserve] using sa)
    (fun t ht => by show t.1 < s.adjLsqDir.dim; rw [ha]; exact la' t ht)
    (by show 0 + la.length ≤ max _ _; rw [zero_add]; exact le_trans ca (le_max_right _ _))
  have pb := Vec.pushAll_ok ((s.adjConsDir.clear).reserve (min k d.nnz)) lb (by simpa [Vec.clear, Vec.reserve] using sb)
    (fun t ht => by show t.1 < s.adjConsDir.dim; rw [hb]; exact lb' t ht)
    (by show 0 + lb.length ≤ max _ _; rw [zero_add]; exact le_trans cb (le_max_right _ _))
  refine ⟨{ (s.adjLsqDir.clear).reserve (min R d.nnz) with ents := [] ++ la },
    { (s.adjConsDir.clear).reserve (min k d.nnz) with ents := [] ++ lb }, ?_, ?_, ?_, ?_⟩
  · unfold gnSplit
    rw [hR]
    refine gnSplit_loop R d.ents pa ?_
    have : (d.ents.filter fun t => !decide (t.1 < R)) = d.ents.filter fun t => decide (R ≤ t.1) :=
      List.filter_congr fun t _ => by by_cases h : t.1 < R <;> simp [h, Nat.not_le.mpr, Nat.le_of_not_lt]
    rw [this]
    exact pb
  · refine ⟨⟨?_, ?_, ?_⟩, ha⟩
    · show Srt ([] ++ la); rwa [List.nil_append]
    · show ∀ t ∈ [] ++ la, t.1 < s.adjLsqDir.dim; rw [List.nil_append, ha]; exact la'
    · show ([] ++ la).length ≤ max _ _; rw [List.nil_append]; exact le_trans ca (le_max_right _ _)
  · refine ⟨⟨?_, ?_, ?_⟩, hb⟩
    · show Srt ([] ++ lb); rwa [List.nil_append]
    · show ∀ t ∈ [] ++ lb, t.1 < s.adjConsDir.dim; rw [List.nil_append, hb]; exact lb'
    · show ([] ++ lb).length ≤ max _ _; rw [List.nil_append]; exact le_trans cb (le_max_right _ _)
  · funext i
    refine Fin.addCases (fun i => ?_) (fun i => ?_) i
    · rw [Fin.append_left]
      show valAt d.ents i = valAt ([] ++ la) i
      rw [List.nil_append, hla]
      unfold valAt
      rw [at?_filter_lt d.ents R i i.2]
    · rw [Fin.append_right]
      show valAt d.ents (R + i) = valAt ([] ++ lb) i
      rw [List.nil_append, hlb]
      unfold valAt
      rw [at?_shift]

end Structural

section Dense
variable {K : Type*} [Field K] [LinearOrder K] [IsStrictOrderedRing K] {n m R k : Nat}

theorem concat_dense {a b : Vec K} (ha : VOk R a) (hb : VOk k b) (r0 : Vec K) :
    ∃ r, Vec.concat a b r0 = some r ∧ VOk (R + k) r ∧ dense (R + k) r = Fin.append (dense R a) (dense k b) := by
  obtain ⟨r, h1, h2, h3, h4, h5⟩ := C03_concat a b r0 ha.1 hb.1
  refine ⟨r, h1, ⟨h2, by rw [h3, ha.2, hb.2]⟩, ?_⟩
  funext i
  refine Fin.addCases (fun i => ?_) (fun i => ?_) i
  · rw [Fin.append_left]
    exact h4 i (by rw [ha.2]; exact i.2)
  · rw [Fin.append_right]
    have := h5 i
    rw [ha.2] at this
    exact this

/-- two matrices on top of each other -/
def gnStack (A : Matrix (Fin R) (Fin n) K) (B : Matrix (Fin k) (Fin n) K) : Matrix (Fin (R + k)) (Fin n) K :=
  fun i j => Fin.append (fun i => A i j) (fun i => B i j) i

omit [LinearOrder K] [IsStrictOrderedRing K] in
theorem append_mulVec (A : Matrix (Fin R) (Fin n) K) (B : Matrix (Fin k) (Fin n) K) (x : Fin n → K) :
    gnStack A B *ᵥ x = Fin.append (A *ᵥ x) (B *ᵥ x) := by
  funext i
  refine Fin.addCases (fun i => ?_) (fun i => ?_) i
  · rw [Fin.append_left]; unfold mulVec dotProduct; simp [gnStack]
  · rw [Fin.append_right]; unfold mulVec dotProduct; simp [gnStack]

omit [LinearOrder K] [IsStrictOrderedRing K] in
theorem append_mulVec_trans (A : Matrix (Fin R) (Fin n) K) (B : Matrix (Fin k) (Fin n) K) (x : Fin R → K) (y : Fin k → K) :
    (gnStack A B)ᵀ *ᵥ Fin.append x y = Aᵀ *ᵥ x + Bᵀ *ᵥ y := by
  funext j
  rw [Pi.add_apply]
  unfold mulVec dotProduct
  rw [Fin.sum_univ_add]
  simp [gnStack]

omit [LinearOrder K] [IsStrictOrderedRing K] in
theorem append_dot (x x' : Fin R → K) (y y' : Fin k → K) : Fin.append x y ⬝ᵥ Fin.append x' y' = x ⬝ᵥ x' + y ⬝ᵥ y' := by
  unfold dotProduct
  rw [Fin.sum_univ_add]
  simp

/-- the products of the solver are those with the residual Jacobian and the scaled Jacobian of the
violated constraints, restricted to the null space -/
theorem gn_lsqrFor {q : LocalModel n m K} {r : Fin R → K} {Jr : Matrix (Fin R) (Fin n) K} {l : List WEntry} {J : Nat → Nat → K} {e : GnEnv K}
    (he : GnFor q r Jr l J e) {s : GnMem K} (hs : s.Sized n R) (hc : s.adjConsDir.dim = k) (hj : s.jac.WF) (hjr : s.jac.numRows = k)
    (hjc : s.jac.numCols = n) {B : Matrix (Fin k) (Fin n) K} (hB : ∀ (i : Fin k) (j : Fin n), s.jac.value i j = B i j)
    {P : Matrix (Fin n) (Fin n) K} (hPs : Pᵀ = P)
    (hP : ∀ d t : Vec K, d.WF ∧ d.dim = n → ∃ v, e.proj d t = some v ∧ (v.WF ∧ v.dim = n) ∧ dense n v = P *ᵥ dense n d) (radius : K) :
    LsqrFor (gnStack Jr B * P) (gnLsqr e s k radius) := by
  refine ⟨he.nv, by show e.numRes + k = _; rw [he.nr], fun d t hd ht => ?_, fun d t hd ht => ?_, he.sqrt, he.zeroEps,
    mul_nonneg he.statTol (by norm_num)⟩
  · obtain ⟨v, v1, v2, v3⟩ := hP d s.fwdProj hd
    obtain ⟨f, f1, f2, f3⟩ := he.fwd v s.fwdLsq v2 hs.fwdLsq
    obtain ⟨res, r1, r2⟩ := C08_mult_vec s.jac v hj v2.1 (by rw [hjc, v2.2])
    obtain ⟨c, c1, c2, c3, c4⟩ := setFromRaw_spec 0 s.fwdCons ((List.range k).map res)
    have hcd : dense k c = B *ᵥ dense n v := by
      funext i
      show c.value i = _
      rw [c4 i]
      have : ((List.range k).map res)[(i : Nat)]? = some (res i) := by simp
      rw [this, r2, hjc, Finset.sum_range]
      have e2 : ∑ j : Fin n, s.jac.value i j * v.value j = (B *ᵥ dense n v) i :=
        Finset.sum_congr rfl fun j _ => by rw [hB]; rfl
      rw [e2]
      simp only
      split
      · rename_i h; exact (abs_nonpos_iff.mp h).symm
      · rfl
    obtain ⟨p, p1, p2, p3⟩ := concat_dense f2 (⟨c2, by rw [c3]; simp⟩ : VOk k c) t
    refine ⟨p, ?_, p2, ?_⟩
    · show gnForward e s k d t = _
      unfold gnForward
      rw [if_pos ⟨hd.2.trans he.nv.symm, by rw [ht, he.nr]⟩, v1, Option.bind_some, f1, Option.bind_some, r1, Option.bind_some, he.zeroEps, c1, Option.bind_some, p1]
    · rw [p3, f3, hcd, v3, ← mulVec_mulVec, append_mulVec]
  · obtain ⟨a, b, a1, a2, a3, a4⟩ := gnSplit_spec he.nr hs.adjLsqDir hc hd
    obtain ⟨f, f1, f2, f3⟩ := he.adj a s.adjLsq a2 hs.adjLsq
    obtain ⟨c, c1, c2, c3, c4⟩ := C08_mult_vec_trans s.jac b s.adjCons 0 le_rfl hj a3.1 (by rw [hjr, a3.2]) (by rw [hjc, hs.adjCons])
    have hcd : dense n c = Bᵀ *ᵥ dense k b := by
      funext j
      unfold dense
      rw [c4 j (by rw [hjc]; exact j.2)]
      have e2 : ∑ i ∈ Finset.range s.jac.numRows, s.jac.value i j * b.value i = (Bᵀ *ᵥ dense k b) j := by
        rw [hjr, Finset.sum_range]
        exact Finset.sum_congr rfl fun i _ => by rw [hB]; rfl
      rw [e2]
      split
      · rename_i h; exact (abs_nonpos_iff.mp h).symm
      · rfl
    obtain ⟨x, x1, x2, x3⟩ := addScaled_dense (r0 := s.adjProd) (1 : K) 1 f2 (⟨c2, c3.trans hjc⟩ : VOk n c)
    obtain ⟨v, v1, v2, v3⟩ := hP x t x2
    refine ⟨v, ?_, v2, ?_⟩
    · show gnAdjoint e s k d t = _
      unfold gnAdjoint
      rw [if_pos ⟨ht.trans he.nv.symm, by rw [hd.2, he.nr]⟩, a1, Option.bind_some, f1, Option.bind_some, he.zeroEps, c1, Option.bind_some,
        x1, Option.bind_some, v1]
    · rw [v3, x3, f3, hcd, one_smul, one_smul, transpose_mul, ← mulVec_mulVec, hPs, a4, append_mulVec_trans]

/-- sums over the violated constraints -/
theorem sum_violated {mu : Fin m → K} (hmu : ∀ i, mu i ≠ 0 → mu i ^ 2 = 1) {σ : Fin k → Fin m} (hi : Function.Injective σ)
    (hσ : ∀ i, (∃ j, σ j = i) ↔ mu i ≠ 0) (f : Fin m → K) : ∑ j, f (σ j) = ∑ i, mu i ^ 2 * f i := by
  classical
  have h1 : ∑ i, mu i ^ 2 * f i = ∑ i ∈ Finset.univ.image σ, mu i ^ 2 * f i := by
    symm
    refine Finset.sum_subset (Finset.subset_univ _) fun i _ h => ?_
    have : mu i = 0 := by
      by_contra hc
      obtain ⟨j, hj⟩ := (hσ i).2 hc
      exact h (by rw [← hj]; simp)
    rw [this]; simp
  rw [h1, Finset.sum_image fun a _ b _ h => hi h]
  refine Finset.sum_congr rfl fun j _ => ?_
  rw [hmu _ ((hσ _).1 ⟨j, rfl⟩), one_mul]

/-- the enumeration of the violated constraints -/
theorem exists_violated {mu : Vec K} (hw : mu.WF) (hd : mu.dim = m) (hne : ∀ t ∈ mu.ents, t.2 ≠ 0) {rem : List Nat}
    (hrem : rem = (List.range m).filter fun k => decide (k ∉ mu.ents.map Prod.fst)) :
    rem.Pairwise (· < ·) ∧ (∀ i ∈ rem, i < m) ∧ ∃ k, m = k + rem.length ∧ ∃ σ : Fin k → Fin m, Function.Injective σ ∧
      (∀ j, (σ j : Nat) = oldIdx rem j) ∧ ∀ i, (∃ j, σ j = i) ↔ dense m mu i ≠ 0 := by
  have hs : rem.Pairwise (· < ·) := by rw [hrem]; exact List.Pairwise.filter _ List.pairwise_lt_range
  have hlt : ∀ i ∈ rem, i < m := fun i hi => by rw [hrem, List.mem_filter, List.mem_range] at hi; exact hi.1
  have hlen : rem.length ≤ m := by
    rw [hrem]; exact (List.length_filter_le _ _).trans (by simp)
  have hmem : ∀ (i : Nat) (hi : i < m), i ∉ rem ↔ dense m mu ⟨i, hi⟩ ≠ 0 := by
    intro i hi
    rw [hrem, List.mem_filter, List.mem_range, decide_eq_true_eq]
    unfold dense Vec.value valAt
    constructor
    · intro h
      have h2 : i ∈ mu.ents.map Prod.fst := by by_contra hc; exact h ⟨hi, hc⟩
      obtain ⟨t, ht, rfl⟩ := List.mem_map.mp h2
      rw [at?_of_mem hw.srt (show (t.1, t.2) ∈ mu.ents from ht)]
      exact hne t ht
    · rintro h ⟨-, h2⟩
      apply h
      show orZero (at? mu.ents i) = 0
      rw [at?_none_of_forall fun t ht h3 => h2 (List.mem_map.mpr ⟨t, ht, h3⟩)]
      rfl
  refine ⟨hs, hlt, m - rem.length, by omega, fun j => ⟨oldIdx rem j, oldIdx_lt (by have := j.2; omega)⟩, fun a b h => ?_, fun j => rfl, fun i => ?_⟩
  · exact Fin.ext (oldIdx_inj hs (Fin.mk.inj_iff.mp h))
  · constructor
    · rintro ⟨j, rfl⟩
      exact (hmem _ _).1 (oldIdx_not_mem hs j)
    · intro h
      obtain ⟨j, hj⟩ := oldIdx_surj hs ((hmem i i.2).2 h)
      have hjl : j < m - rem.length := oldIdx_lt' hs hlt (by omega) (by rw [hj]; exact i.2)
      exact ⟨⟨j, hjl⟩, Fin.ext hj⟩

end Dense

end Sleqp
