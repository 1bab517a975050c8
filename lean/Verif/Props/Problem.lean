import Verif.Spec.Problem
import Verif.Lemmas.QnVec
import Verif.Lemmas.QnBlocks
import Verif.Lemmas.Restoration
import Verif.Props.Mat
import Mathlib.Data.List.Perm.Subperm
import Mathlib.Tactic.IntervalCases
import Mathlib.Tactic.Linarith

/-! C42: problem creation and constraint evaluation. -/

namespace Sleqp
variable {V : Type*}

theorem Mat.WF.isValid {m : Mat V} (h : m.WF) : m.isValid = true := by
  by_cases hn : m.nnz = 0
  · unfold Mat.isValid
    have := h.le_cap
    simp [hn]
  · exact (C09_isValid_iff m h.ptr_zero hn).mpr h

theorem Mat.copy_ok {src m : Mat V} (hs : src.WF) (h1 : src.numCols = m.numCols) (h2 : src.numRows = m.numRows) :
    ∃ m', src.copy m = some m' ∧ m'.WF ∧ m'.numRows = src.numRows ∧ m'.numCols = src.numCols ∧
      ∀ j < src.numCols, m'.col j = src.col j := by
  have : ∃ m', src.copy m = some m' := by
    unfold Mat.copy
    rw [if_pos ⟨h1, h2, hs.isValid⟩]
    exact ⟨_, rfl⟩
  obtain ⟨m', h⟩ := this
  exact ⟨m', h, Mat.copy_wf src m m' hs h⟩

theorem concat_ents {n k : Nat} {a b r0 : Vec V} (ha : VOk n a) (hb : VOk k b) :
    ∃ r, Vec.concat a b r0 = some r ∧ VOk (n + k) r ∧ r.ents = a.ents ++ b.ents.map fun e => (e.1 + n, e.2) := by
  obtain ⟨wa, rfl⟩ := ha
  obtain ⟨wb, rfl⟩ := hb
  obtain ⟨r1, hr1⟩ : ∃ r1, r1 = ((r0.clear).reserve (a.nnz + b.nnz)).resize (a.dim + b.dim) := ⟨_, rfl⟩
  have e1 : r1.ents = [] := by
    rw [hr1]; unfold Vec.resize; split <;> simp [Vec.clear, Vec.reserve]
  have d1 : r1.dim = a.dim + b.dim := by rw [hr1]; unfold Vec.resize; split <;> rfl
  have c1 : a.nnz + b.nnz ≤ r1.cap := by
    rw [hr1]; unfold Vec.resize; split <;> exact le_max_right _ _
  obtain ⟨B, hB⟩ : ∃ B, B = b.ents.map fun e => (e.1 + a.dim, e.2) := ⟨_, rfl⟩
  have sB : Srt B := by
    rw [hB, Srt, List.pairwise_map]; exact wb.srt.imp fun h => by simpa using h
  have hp1 := Vec.pushAll_ok r1 a.ents (by rw [e1]; simpa using wa.srt)
    (fun e he => by rw [d1]; have := wa.lt_dim e he; omega)
    (by rw [e1]; unfold Vec.nnz at c1; simp; omega)
  rw [e1, List.nil_append] at hp1
  have sAB : Srt (a.ents ++ B) := by
    rw [srt_append]
    refine ⟨wa.srt, sB, ?_⟩
    intro x hx y hy
    rw [hB] at hy
    obtain ⟨z, hz, rfl⟩ := List.mem_map.mp hy
    have := wa.lt_dim x hx
    simp; omega
  have hltB : ∀ e ∈ B, e.1 < a.dim + b.dim := by
    intro e he
    rw [hB] at he
    obtain ⟨z, hz, rfl⟩ := List.mem_map.mp he
    have := wb.lt_dim z hz
    simp; omega
  have hp2 := Vec.pushAll_ok { r1 with ents := a.ents } B sAB
    (fun e he => by rw [show ({ r1 with ents := a.ents } : Vec V).dim = r1.dim from rfl, d1]; exact hltB e he)
    (by rw [hB]; unfold Vec.nnz at c1; simp; omega)
  refine ⟨{ r1 with ents := a.ents ++ B }, ?_, ⟨⟨sAB, ?_, ?_⟩, d1⟩, by rw [hB]⟩
  · unfold Vec.concat
    simp only [← hr1, ← hB]
    rw [hp1]; exact hp2
  · intro e he
    change e.1 < r1.dim
    rw [d1]
    rcases List.mem_append.mp he with h | h
    · have := wa.lt_dim e h; omega
    · exact hltB e h
  · change (a.ents ++ B).length ≤ r1.cap
    unfold Vec.nnz at c1
    simp [hB]; omega

theorem bval_shift {n k : Nat} {zero : V} {a b r : Vec V} (ha : VOk n a) (hb : VOk k b)
    (hr : r.ents = a.ents ++ b.ents.map fun e => (e.1 + n, e.2)) :
    (∀ i < n, bval zero r i = bval zero a i) ∧ ∀ i, bval zero r (n + i) = bval zero b i := by
  have hat : ∀ (l : List (Nat × V)) (i : Nat), at? (l.map fun e => (e.1 + n, e.2)) (n + i) = at? l i := by
    intro l i
    induction l with
    | nil => rfl
    | cons e t ih =>
      rw [List.map_cons, at?_cons, at?_cons, ih]
      by_cases h : e.1 = i
      · rw [if_pos h, if_pos (by simp only; omega)]
      · rw [if_neg h, if_neg (by simp only; omega)]
  constructor
  · intro i hi
    unfold bval
    rw [hr, at?_append, at?_none_of_forall (l := b.ents.map _)]
    · simp
    · intro e he
      obtain ⟨z, _, rfl⟩ := List.mem_map.mp he
      simp only; omega
  · intro i
    unfold bval
    rw [hr, at?_append, hat, at?_none_of_forall (l := a.ents)]
    · simp
    · intro e he
      have := ha.1.lt_dim e he
      rw [ha.2] at this
      omega

theorem convertBound_spec {o : BoundOps V} {conv : V → V} {source target : Vec V} {n : Nat} (hs : VOk n source)
    (hf : ∀ t : Vec V, t.ents = source.ents.map (fun e => (e.1, conv e.2)) → o.finite t = true) :
    ∃ t, convertBound o conv source n target = .ok t ∧ VOk n t ∧ t.ents = source.ents.map fun e => (e.1, conv e.2) := by
  have hd : ((target.resize n).reserve source.nnz).dim = n := by
    unfold Vec.resize; split <;> rfl
  obtain ⟨r, r1, r2, r3⟩ := copy_spec hs hd
  refine ⟨{ r with ents := r.ents.map fun e => (e.1, conv e.2) }, ?_, ⟨⟨?_, ?_, ?_⟩, r2.2⟩, by rw [r3]⟩
  · unfold convertBound copyCreate
    rw [if_pos (by rw [Bool.and_eq_true, decide_eq_true_eq]; exact ⟨(C02_isValid_iff source).mpr hs.1, hs.2⟩), r1]
    show (if o.finite { r with ents := r.ents.map fun e => (e.1, conv e.2) } = true then _ else _) = _
    rw [if_pos (hf _ (by rw [r3]))]
  · rw [Srt, List.pairwise_map]; exact r2.1.srt
  · intro e he
    obtain ⟨z, hz, rfl⟩ := List.mem_map.mp he
    exact r2.1.lt_dim z hz
  · simpa using r2.1.le_cap

theorem bval_conv {conv : V → V} {zero : V} (h0 : conv zero = zero) {s t : Vec V}
    (h : t.ents = s.ents.map fun e => (e.1, conv e.2)) (i : Nat) : bval zero t i = conv (bval zero s i) := by
  unfold bval
  rw [h, at?_map (fun e : Nat × V => conv e.2)]
  rcases at? s.ents i with _ | x
  · exact h0.symm
  · rfl

theorem checkBounds_spec {o : BoundOps V} {zero : V} (hz : o.gt zero zero = false) {n : Nat} {lb ub : Vec V}
    (hl : VOk n lb) (hu : VOk n ub) :
    checkBounds o zero lb ub = .ok () ∧ (∀ i < n, o.gt (bval zero lb i) (bval zero ub i) = false) ∨
    checkBounds o zero lb ub = .error .illegalArgument ∧ ∃ i < n, o.gt (bval zero lb i) (bval zero ub i) = true := by
  unfold checkBounds
  rw [if_pos (hl.2.trans hu.2.symm)]
  by_cases h : ((merge2 lb.ents ub.ents).all fun t => !o.gt (t.2.1.getD zero) (t.2.2.getD zero)) = true
  · left
    rw [if_pos h]
    refine ⟨rfl, fun i _ => ?_⟩
    rw [List.all_eq_true] at h
    unfold bval
    rcases h1 : at? lb.ents i with _ | a
    · rcases h2 : at? ub.ents i with _ | b
      · exact hz
      · have := h _ (mem_of_at? (k := i) (a := (none, some b)) (by rw [merge2_at hl.1.srt hu.1.srt, h1, h2]; rfl))
        simpa using this
    · have := h _ (mem_of_at? (k := i) (a := (some a, at? ub.ents i)) (by
        rw [merge2_at hl.1.srt hu.1.srt, h1]
        rcases at? ub.ents i with _ | b <;> rfl))
      simpa using this
  · right
    rw [if_neg h]
    refine ⟨rfl, ?_⟩
    rw [List.all_eq_true] at h
    push Not at h
    obtain ⟨t, ht, hgt⟩ := h
    obtain ⟨e1, e2⟩ := merge2_mem hl.1.srt hu.1.srt ht
    refine ⟨t.1, ?_, ?_⟩
    · exact merge2_lt hl.1.srt hu.1.srt (fun e he => by have := hl.1.lt_dim e he; rwa [hl.2] at this)
        (fun e he => by have := hu.1.lt_dim e he; rwa [hu.2] at this) t ht
    · unfold bval
      rw [e1] at hgt
      simpa using hgt

/-- the created problem: data of the general constraints followed by the linear ones -/
structure ProbSpec (o : BoundOps V) (zero : V) (n m k : Nat) (varLb varUb genLb genUb linLb linUb : Vec V)
    (p : Prob V) : Prop where
  dims : p.numVars = n ∧ p.numGen = m ∧ p.numLin = k
  varLbOk : VOk n p.varLb ∧ ∀ i, bval zero p.varLb i = o.convLb (bval zero varLb i)
  varUbOk : VOk n p.varUb ∧ ∀ i, bval zero p.varUb i = o.convUb (bval zero varUb i)
  genLbOk : VOk m p.genLb ∧ ∀ i, bval zero p.genLb i = o.convLb (bval zero genLb i)
  genUbOk : VOk m p.genUb ∧ ∀ i, bval zero p.genUb i = o.convUb (bval zero genUb i)
  linLbOk : VOk k p.linLb ∧ ∀ i, bval zero p.linLb i = o.convLb (bval zero linLb i)
  linUbOk : VOk k p.linUb ∧ ∀ i, bval zero p.linUb i = o.convUb (bval zero linUb i)
  consLbOk : VOk (m + k) p.consLb ∧ (∀ i < m, bval zero p.consLb i = o.convLb (bval zero genLb i)) ∧
    ∀ i, bval zero p.consLb (m + i) = o.convLb (bval zero linLb i)
  consUbOk : VOk (m + k) p.consUb ∧ (∀ i < m, bval zero p.consUb i = o.convUb (bval zero genUb i)) ∧
    ∀ i, bval zero p.consUb (m + i) = o.convUb (bval zero linUb i)

/-- the two conditions on value operations: zero is a finite value -/
structure BoundOps.Ok (o : BoundOps V) (zero : V) : Prop where
  lb : o.convLb zero = zero
  ub : o.convUb zero = zero
  gt : o.gt zero zero = false

/-- the finiteness assertion holds for the converted bounds -/
def FiniteLb (o : BoundOps V) (v : Vec V) : Prop :=
  ∀ t : Vec V, t.ents = v.ents.map (fun e => (e.1, o.convLb e.2)) → o.finite t = true

def FiniteUb (o : BoundOps V) (v : Vec V) : Prop :=
  ∀ t : Vec V, t.ents = v.ents.map (fun e => (e.1, o.convUb e.2)) → o.finite t = true

theorem checkBounds_conv {o : BoundOps V} {zero : V} (ho : o.Ok zero) {n : Nat} {lb ub l u : Vec V} (hl : VOk n l)
    (hu : VOk n u) (el : l.ents = lb.ents.map fun e => (e.1, o.convLb e.2))
    (eu : u.ents = ub.ents.map fun e => (e.1, o.convUb e.2)) :
    checkBounds o zero l u = .ok () ∧ BoundsOk o zero n lb ub ∨
    checkBounds o zero l u = .error .illegalArgument ∧ ¬ BoundsOk o zero n lb ub := by
  rcases checkBounds_spec ho.gt hl hu with ⟨h1, h2⟩ | ⟨h1, i, hi, h2⟩
  · refine Or.inl ⟨h1, fun i hi => ?_⟩
    have := h2 i hi
    rwa [bval_conv ho.lb el, bval_conv ho.ub eu] at this
  · refine Or.inr ⟨h1, fun hc => ?_⟩
    have := hc i hi
    rw [bval_conv ho.lb el, bval_conv ho.ub eu] at h2
    rw [h2] at this
    cases this

theorem stackBounds_spec {o : BoundOps V} {zero : V} (ho : o.Ok zero) {m k : Nat}
    {genLb genUb linLb linUb : Vec V} {p : Prob V} (h1 : VOk m p.genLb) (h2 : VOk m p.genUb) (h3 : VOk k p.linLb)
    (h4 : VOk k p.linUb) (e1 : p.genLb.ents = genLb.ents.map fun e => (e.1, o.convLb e.2))
    (e2 : p.genUb.ents = genUb.ents.map fun e => (e.1, o.convUb e.2))
    (e3 : p.linLb.ents = linLb.ents.map fun e => (e.1, o.convLb e.2))
    (e4 : p.linUb.ents = linUb.ents.map fun e => (e.1, o.convUb e.2)) :
    (BoundsOk o zero m genLb genUb ∧ BoundsOk o zero k linLb linUb →
      ∃ cl cu, stackBounds o zero p = .ok { p with consLb := cl, consUb := cu } ∧
        (VOk (m + k) cl ∧ (∀ i < m, bval zero cl i = o.convLb (bval zero genLb i)) ∧
          ∀ i, bval zero cl (m + i) = o.convLb (bval zero linLb i)) ∧
        (VOk (m + k) cu ∧ (∀ i < m, bval zero cu i = o.convUb (bval zero genUb i)) ∧
          ∀ i, bval zero cu (m + i) = o.convUb (bval zero linUb i))) ∧
    (¬ (BoundsOk o zero m genLb genUb ∧ BoundsOk o zero k linLb linUb) →
      stackBounds o zero p = .error .illegalArgument) := by
  obtain ⟨cl, a1, a2, a3⟩ := concat_ents (r0 := p.consLb) h1 h3
  obtain ⟨cu, b1, b2, b3⟩ := concat_ents (r0 := p.consUb) h2 h4
  obtain ⟨s1, s2⟩ := bval_shift (zero := zero) h1 h3 a3
  obtain ⟨t1, t2⟩ := bval_shift (zero := zero) h2 h4 b3
  have hl : (∀ i < m, bval zero cl i = o.convLb (bval zero genLb i)) ∧
      ∀ i, bval zero cl (m + i) = o.convLb (bval zero linLb i) :=
    ⟨fun i hi => by rw [s1 i hi, bval_conv ho.lb e1], fun i => by rw [s2 i, bval_conv ho.lb e3]⟩
  have hu : (∀ i < m, bval zero cu i = o.convUb (bval zero genUb i)) ∧
      ∀ i, bval zero cu (m + i) = o.convUb (bval zero linUb i) :=
    ⟨fun i hi => by rw [t1 i hi, bval_conv ho.ub e2], fun i => by rw [t2 i, bval_conv ho.ub e4]⟩
  have heq : stackBounds o zero p = (checkBounds o zero cl cu).map fun _ => { p with consLb := cl, consUb := cu } := by
    unfold stackBounds
    rw [a1, b1]; rfl
  have hiff : (∀ i < m + k, o.gt (bval zero cl i) (bval zero cu i) = false) ↔
      BoundsOk o zero m genLb genUb ∧ BoundsOk o zero k linLb linUb := by
    constructor
    · intro h
      refine ⟨fun i hi => ?_, fun i hi => ?_⟩
      · have := h i (by omega); rwa [hl.1 i hi, hu.1 i hi] at this
      · have := h (m + i) (by omega); rwa [hl.2 i, hu.2 i] at this
    · rintro ⟨g1, g2⟩ i hi
      by_cases him : i < m
      · rw [hl.1 i him, hu.1 i him]; exact g1 i him
      · obtain ⟨j, rfl⟩ : ∃ j, i = m + j := ⟨i - m, by omega⟩
        rw [hl.2, hu.2]; exact g2 j (by omega)
  rcases checkBounds_spec (zero := zero) ho.gt a2 b2 with ⟨c1, c2⟩ | ⟨c1, i, hi, c2⟩
  · refine ⟨fun _ => ⟨cl, cu, by rw [heq, c1]; rfl, ⟨a2, hl⟩, ⟨b2, hu⟩⟩, fun h => absurd (hiff.mp c2) h⟩
  · have hn : ¬ (BoundsOk o zero m genLb genUb ∧ BoundsOk o zero k linLb linUb) := by
      rw [← hiff]
      intro h
      rw [h i hi] at c2; cases c2
    exact ⟨fun h => absurd h hn, fun _ => by rw [heq, c1]; rfl⟩

theorem probCreateBase_spec {o : BoundOps V} {zero : V} (ho : o.Ok zero) {n m : Nat} {varLb varUb genLb genUb : Vec V}
    (h1 : VOk n varLb) (h2 : VOk n varUb) (h3 : VOk m genLb) (h4 : VOk m genUb) (f1 : FiniteLb o varLb)
    (f2 : FiniteUb o varUb) (f3 : FiniteLb o genLb) (f4 : FiniteUb o genUb) (row : Nat → Nat) (val : Nat → V) :
    (BoundsOk o zero n varLb varUb → ∃ vl vu gl gu,
      probCreateBase o zero n m varLb varUb genLb genUb row val = .ok ⟨n, m, 0, vl, vu, gl, gu, Vec.create 0 0,
        Vec.create 0 0, Vec.create 0 0, Vec.create 0 0, Mat.create 0 n 0 row val⟩ ∧
      (VOk n vl ∧ vl.ents = varLb.ents.map fun e => (e.1, o.convLb e.2)) ∧
      (VOk n vu ∧ vu.ents = varUb.ents.map fun e => (e.1, o.convUb e.2)) ∧
      (VOk m gl ∧ gl.ents = genLb.ents.map fun e => (e.1, o.convLb e.2)) ∧
      (VOk m gu ∧ gu.ents = genUb.ents.map fun e => (e.1, o.convUb e.2))) ∧
    (¬ BoundsOk o zero n varLb varUb →
      probCreateBase o zero n m varLb varUb genLb genUb row val = .error .illegalArgument) := by
  obtain ⟨vl, a1, a2⟩ := convertBound_spec (target := Vec.create n varLb.nnz) h1 f1
  obtain ⟨vu, b1, b2⟩ := convertBound_spec (target := Vec.create n varUb.nnz) h2 f2
  obtain ⟨gl, c1, c2⟩ := convertBound_spec (target := Vec.create m genLb.nnz) h3 f3
  obtain ⟨gu, d1, d2⟩ := convertBound_spec (target := Vec.create m genUb.nnz) h4 f4
  have heq : probCreateBase o zero n m varLb varUb genLb genUb row val = (checkBounds o zero vl vu).map fun _ =>
      ⟨n, m, 0, vl, vu, gl, gu, Vec.create 0 0, Vec.create 0 0, Vec.create 0 0, Vec.create 0 0,
        Mat.create 0 n 0 row val⟩ := by
    unfold probCreateBase
    rw [a1, b1, c1, d1]; rfl
  rcases checkBounds_conv ho a2.1 b2.1 a2.2 b2.2 with ⟨e1, e2⟩ | ⟨e1, e2⟩
  · exact ⟨fun _ => ⟨vl, vu, gl, gu, by rw [heq, e1]; rfl, a2, b2, c2, d2⟩, fun h => absurd e2 h⟩
  · exact ⟨fun h => absurd h e2, fun _ => by rw [heq, e1]; rfl⟩

/-- C42 (any value type): creation succeeds iff no lower bound exceeds its upper bound, and
otherwise reports an illegal argument; the created problem has the given bounds, general
constraints first, and the given coefficients. -/
theorem C42_create {o : BoundOps V} {zero : V} (ho : o.Ok zero) {n m : Nat}
    {varLb varUb genLb genUb linLb linUb : Vec V} {coeffs : Mat V} (h1 : VOk n varLb) (h2 : VOk n varUb)
    (h3 : VOk m genLb) (h4 : VOk m genUb) (h5 : VOk coeffs.numRows linLb) (h6 : VOk coeffs.numRows linUb)
    (hc : coeffs.WF) (hn : coeffs.numCols = n) (f1 : FiniteLb o varLb)
    (f2 : FiniteUb o varUb) (f3 : FiniteLb o genLb) (f4 : FiniteUb o genUb) (f5 : FiniteLb o linLb)
    (f6 : FiniteUb o linUb) (row : Nat → Nat) (val : Nat → V) :
    (BoundsOk o zero n varLb varUb ∧ BoundsOk o zero m genLb genUb ∧ BoundsOk o zero coeffs.numRows linLb linUb →
      ∃ p, probCreate o zero n m varLb varUb genLb genUb coeffs linLb linUb row val = .ok p ∧
        ProbSpec o zero n m coeffs.numRows varLb varUb genLb genUb linLb linUb p ∧
        p.coeffs.WF ∧ p.coeffs.numRows = coeffs.numRows ∧ p.coeffs.numCols = n ∧
        ∀ i, ∀ j < n, p.coeffs.at? i j = coeffs.at? i j) ∧
    (¬ (BoundsOk o zero n varLb varUb ∧ BoundsOk o zero m genLb genUb ∧ BoundsOk o zero coeffs.numRows linLb linUb) →
      probCreate o zero n m varLb varUb genLb genUb coeffs linLb linUb row val = .error .illegalArgument) := by
  obtain ⟨hb1, hb2⟩ := probCreateBase_spec ho h1 h2 h3 h4 f1 f2 f3 f4 row val
  by_cases hvar : BoundsOk o zero n varLb varUb
  · obtain ⟨vl, vu, gl, gu, b1, a1, a2, a3, a4⟩ := hb1 hvar
    have hrs : (Mat.create 0 n 0 row val).resize coeffs.numRows n =
        { Mat.create 0 n 0 row val with numRows := coeffs.numRows } := by
      unfold Mat.resize
      rw [if_neg (by simp [Mat.create]), if_neg (by simp [Mat.create])]
    obtain ⟨A, m1, m2, m3, m4, m5⟩ := Mat.copy_ok (m := (Mat.create 0 n 0 row val).resize coeffs.numRows n) hc
      (by rw [hrs, hn]; rfl) (by rw [hrs])
    obtain ⟨ll, c1, c2⟩ := convertBound_spec (target := Vec.create 0 0) h5 f5
    obtain ⟨lu, d1, d2⟩ := convertBound_spec (target := Vec.create 0 0) h6 f6
    obtain ⟨p1, hp1⟩ : ∃ p1 : Prob V, p1 = ⟨n, m, coeffs.numRows, vl, vu, gl, gu, ll, lu, Vec.create 0 0, Vec.create 0 0, A⟩ :=
      ⟨_, rfl⟩
    obtain ⟨s1, s2⟩ := stackBounds_spec ho (p := p1) (by rw [hp1]; exact a3.1) (by rw [hp1]; exact a4.1)
      (by rw [hp1]; exact c2.1) (by rw [hp1]; exact d2.1) (by rw [hp1]; exact a3.2) (by rw [hp1]; exact a4.2)
      (by rw [hp1]; exact c2.2) (by rw [hp1]; exact d2.2)
    have heq : probCreate o zero n m varLb varUb genLb genUb coeffs linLb linUb row val = stackBounds o zero p1 := by
      unfold probCreate
      rw [b1]
      show ((orAssert (coeffs.copy ((Mat.create 0 n 0 row val).resize coeffs.numRows n))).bind fun a => _) = _
      rw [m1]
      show ((if A.isValid && decide (A.numCols = n) then Except.ok () else .error PErr.failedAssertion).bind fun _ => _) = _
      rw [if_pos (by rw [Bool.and_eq_true, decide_eq_true_eq]; exact ⟨m2.isValid, m4.trans hn⟩)]
      show ((convertBound o o.convLb linLb coeffs.numRows (Vec.create 0 0)).bind fun ll =>
        (convertBound o o.convUb linUb coeffs.numRows (Vec.create 0 0)).bind fun lu => _) = _
      rw [c1, d1, hp1]; rfl
    constructor
    · rintro ⟨_, g1, g2⟩
      obtain ⟨cl, cu, t1, t2, t3⟩ := s1 ⟨g1, g2⟩
      refine ⟨{ p1 with consLb := cl, consUb := cu }, heq.trans t1, ?_⟩
      rw [hp1]
      refine ⟨⟨⟨rfl, rfl, rfl⟩, ⟨a1.1, fun i => bval_conv ho.lb a1.2 i⟩, ⟨a2.1, fun i => bval_conv ho.ub a2.2 i⟩,
        ⟨a3.1, fun i => bval_conv ho.lb a3.2 i⟩, ⟨a4.1, fun i => bval_conv ho.ub a4.2 i⟩,
        ⟨c2.1, fun i => bval_conv ho.lb c2.2 i⟩, ⟨d2.1, fun i => bval_conv ho.ub d2.2 i⟩, t2, t3⟩, m2, m3,
        m4.trans hn, fun i j hj => ?_⟩
      show at? (A.col j) i = at? (coeffs.col j) i
      rw [m5 j (by omega)]
    · intro h
      rw [heq]
      exact s2 fun hc => h ⟨hvar, hc⟩
  · refine ⟨fun h => absurd h.1 hvar, fun _ => ?_⟩
    unfold probCreate
    rw [hb2 hvar]; rfl

/-- C42: the same for problems without linear constraints. -/
theorem C42_create_simple {o : BoundOps V} {zero : V} (ho : o.Ok zero) {n m : Nat}
    {varLb varUb genLb genUb : Vec V} (h1 : VOk n varLb) (h2 : VOk n varUb) (h3 : VOk m genLb) (h4 : VOk m genUb)
    (f1 : FiniteLb o varLb) (f2 : FiniteUb o varUb) (f3 : FiniteLb o genLb) (f4 : FiniteUb o genUb)
    (row : Nat → Nat) (val : Nat → V) :
    (BoundsOk o zero n varLb varUb ∧ BoundsOk o zero m genLb genUb →
      ∃ p, probCreateSimple o zero n m varLb varUb genLb genUb row val = .ok p ∧
        ProbSpec o zero n m 0 varLb varUb genLb genUb (Vec.create 0 0) (Vec.create 0 0) p) ∧
    (¬ (BoundsOk o zero n varLb varUb ∧ BoundsOk o zero m genLb genUb) →
      probCreateSimple o zero n m varLb varUb genLb genUb row val = .error .illegalArgument) := by
  obtain ⟨hb1, hb2⟩ := probCreateBase_spec ho h1 h2 h3 h4 f1 f2 f3 f4 row val
  have hcr : VOk 0 (Vec.create 0 0 : Vec V) := ⟨⟨by simp [Vec.create, Srt], by simp [Vec.create], by simp [Vec.create]⟩, rfl⟩
  by_cases hvar : BoundsOk o zero n varLb varUb
  · obtain ⟨vl, vu, gl, gu, b1, a1, a2, a3, a4⟩ := hb1 hvar
    obtain ⟨p1, hp1⟩ : ∃ p1 : Prob V, p1 = ⟨n, m, 0, vl, vu, gl, gu, Vec.create 0 0, Vec.create 0 0, Vec.create 0 0,
      Vec.create 0 0, Mat.create 0 n 0 row val⟩ := ⟨_, rfl⟩
    obtain ⟨s1, s2⟩ := stackBounds_spec ho (p := p1) (linLb := Vec.create 0 0) (linUb := Vec.create 0 0)
      (by rw [hp1]; exact a3.1) (by rw [hp1]; exact a4.1)
      (by rw [hp1]; exact hcr) (by rw [hp1]; exact hcr) (by rw [hp1]; exact a3.2) (by rw [hp1]; exact a4.2)
      (by rw [hp1]; rfl) (by rw [hp1]; rfl)
    have heq : probCreateSimple o zero n m varLb varUb genLb genUb row val = stackBounds o zero p1 := by
      unfold probCreateSimple
      rw [b1, hp1]; rfl
    have hlin : BoundsOk o zero 0 (Vec.create 0 0) (Vec.create 0 0) := fun i hi => absurd hi (Nat.not_lt_zero _)
    constructor
    · rintro ⟨_, g1⟩
      obtain ⟨cl, cu, t1, t2, t3⟩ := s1 ⟨g1, hlin⟩
      refine ⟨{ p1 with consLb := cl, consUb := cu }, heq.trans t1, ?_⟩
      rw [hp1]
      exact ⟨⟨rfl, rfl, rfl⟩, ⟨a1.1, fun i => bval_conv ho.lb a1.2 i⟩, ⟨a2.1, fun i => bval_conv ho.ub a2.2 i⟩,
        ⟨a3.1, fun i => bval_conv ho.lb a3.2 i⟩, ⟨a4.1, fun i => bval_conv ho.ub a4.2 i⟩,
        ⟨hcr, fun i => ho.lb.symm⟩, ⟨hcr, fun i => ho.ub.symm⟩, t2, t3⟩
    · intro h
      rw [heq]
      exact s2 fun hc => h ⟨hvar, hc.1⟩
  · refine ⟨fun h => absurd h.1 hvar, fun _ => ?_⟩
    unfold probCreateSimple
    rw [hb2 hvar]; rfl

section
variable {K : Type*} [Field K] [LinearOrder K] [IsStrictOrderedRing K]

/-- the operations on doubles satisfy the conditions of `C42_create` … -/
theorem extBounds_ok {inf : K} : (extBounds inf).Ok (.fin 0) :=
  ⟨by simp [extBounds], by simp [extBounds], by simp [extBounds, Ext.gt, Ext.lt]⟩

/-- … and so does the finiteness assertion whenever no bound is NaN, no lower bound `+inf`
and no upper bound `-inf`. -/
theorem C42_finite {inf : K} {v : Vec (Ext K)} (h : ∀ e ∈ v.ents, e.2 ≠ .nan) :
    ((∀ e ∈ v.ents, e.2 ≠ .pinf) → FiniteLb (extBounds inf) v) ∧
    ((∀ e ∈ v.ents, e.2 ≠ .ninf) → FiniteUb (extBounds inf) v) := by
  constructor
  · intro hp t ht
    show t.isFiniteChk = true
    unfold Vec.isFiniteChk
    rw [List.all_eq_true]
    intro e he
    have he' := List.dropLast_subset _ he
    rw [ht] at he'
    obtain ⟨z, hz, rfl⟩ := List.mem_map.mp he'
    have h1 := h z hz
    have h2 := hp z hz
    rcases hz2 : z.2 with x | _ | _ | _ <;> rw [hz2] at h1 h2 <;>
      simp_all [extBounds, Ext.isNan, Ext.isInf]
  · intro hp t ht
    show t.isFiniteChk = true
    unfold Vec.isFiniteChk
    rw [List.all_eq_true]
    intro e he
    have he' := List.dropLast_subset _ he
    rw [ht] at he'
    obtain ⟨z, hz, rfl⟩ := List.mem_map.mp he'
    have h1 := h z hz
    have h2 := hp z hz
    rcases hz2 : z.2 with x | _ | _ | _ <;> rw [hz2] at h1 h2 <;>
      simp_all [extBounds, Ext.isNan, Ext.isInf]

/-- C42: an absent bound is converted to a value that is recognised as infinite, a given
bound is not changed. -/
theorem C42_infinite {inf : K} (hinf : 0 ≤ inf) :
    (∃ v, (extBounds inf).convLb .ninf = .fin v ∧ isFinite inf v = false) ∧
    (∃ v, (extBounds inf).convUb .pinf = .fin v ∧ isFinite inf v = false) ∧
    ∀ x : K, (extBounds inf).convLb (.fin x) = .fin x ∧ (extBounds inf).convUb (.fin x) = .fin x := by
  have h : isInfinite inf inf = true := by
    unfold isInfinite
    rw [decide_eq_true_eq]
    linarith
  refine ⟨⟨-inf, rfl, ?_⟩, ⟨inf, rfl, ?_⟩, fun x => ⟨rfl, rfl⟩⟩
  · unfold isFinite; rw [abs_neg, abs_of_nonneg hinf, h]; rfl
  · unfold isFinite; rw [abs_of_nonneg hinf, h]; rfl

/-- C42: constraint values are those of the function followed by the products with the linear
coefficients, at every point (entries up to `zeroEps` are dropped from the linear part). -/
theorem C42_cons_val {p : Prob K} {zeroEps : K} {primal general linear out : Vec K} (hp : VOk p.numVars primal)
    (hg : VOk p.numGen general) (hc : p.coeffs.WF) (h1 : p.coeffs.numRows = p.numLin)
    (h2 : p.coeffs.numCols = p.numVars) :
    ∃ r, p.consVal zeroEps primal general linear out = some r ∧ VOk (p.numGen + p.numLin) r ∧
      (∀ i < p.numGen, r.value i = general.value i) ∧
      ∀ i < p.numLin, r.value (p.numGen + i) =
        (if |∑ j ∈ Finset.range p.numVars, p.coeffs.value i j * primal.value j| ≤ zeroEps then 0
         else ∑ j ∈ Finset.range p.numVars, p.coeffs.value i j * primal.value j) := by
  unfold Prob.consVal
  by_cases h0 : p.numLin = 0
  · rw [if_pos h0, h0]
    exact ⟨general, rfl, hg, fun _ _ => rfl, fun i hi => absurd hi (Nat.not_lt_zero _)⟩
  · rw [if_neg h0]
    obtain ⟨d, d1, d2⟩ := C08_mult_vec p.coeffs primal hc hp.1 (h2.trans hp.2.symm)
    rw [d1]
    simp only [Option.bind_some]
    have raw : ∀ v : Vec K, ∃ r, v.setFromRaw zeroEps ((List.range p.numLin).map d) = some r ∧ VOk p.numLin r ∧
        ∀ i < p.numLin, r.value i = (if |∑ j ∈ Finset.range p.numVars, p.coeffs.value i j * primal.value j| ≤ zeroEps
          then 0 else ∑ j ∈ Finset.range p.numVars, p.coeffs.value i j * primal.value j) := by
      intro v
      obtain ⟨r, r1, r2, r3, r4⟩ := setFromRaw_spec zeroEps v ((List.range p.numLin).map d)
      refine ⟨r, r1, ⟨r2, by simpa using r3⟩, fun i hi => ?_⟩
      rw [r4 i]
      have : ((List.range p.numLin).map d)[i]? = some (d i) := by simp [hi]
      rw [this]
      simp only []
      rw [d2 i, h2]
    by_cases hg0 : p.numGen = 0
    · rw [if_pos hg0]
      obtain ⟨r, r1, r2, r3⟩ := raw out
      refine ⟨r, r1, by rw [hg0, Nat.zero_add]; exact r2, fun i hi => by omega, fun i hi => ?_⟩
      rw [hg0, Nat.zero_add]; exact r3 i hi
    · rw [if_neg hg0]
      obtain ⟨l, l1, l2, l3⟩ := raw linear
      rw [l1]
      simp only [Option.bind_some]
      obtain ⟨r, r1, r2, r3, r4, r5⟩ := C03_concat general l out hg.1 l2.1
      refine ⟨r, r1, ⟨r2, by rw [r3, hg.2, l2.2]⟩, fun i hi => r4 i (by rw [hg.2]; exact hi), fun i hi => ?_⟩
      rw [← hg.2, r5, l3 i hi]

/-- C42: the Jacobian is that of the function followed by the linear coefficients. -/
theorem C42_cons_jac {p : Prob K} {general out : Mat K} (hg : general.WF) (g1 : general.numRows = p.numGen)
    (g2 : general.numCols = p.numVars) (hc : p.coeffs.WF) (h1 : p.coeffs.numRows = p.numLin)
    (h2 : p.coeffs.numCols = p.numVars) (ho : out.ptr 0 = 0) (o1 : out.numRows = p.numGen + p.numLin)
    (o2 : out.numCols = p.numVars) :
    ∃ r, p.consJac general out = some r ∧ r.WF ∧ r.numRows = p.numGen + p.numLin ∧ r.numCols = p.numVars ∧
      (∀ i < p.numGen, ∀ j < p.numVars, r.at? i j = general.at? i j) ∧
      ∀ i < p.numLin, ∀ j < p.numVars, r.at? (p.numGen + i) j = p.coeffs.at? i j := by
  unfold Prob.consJac
  by_cases h0 : p.numLin = 0
  · rw [if_pos h0, h0]
    exact ⟨general, rfl, hg, g1, g2, fun _ _ _ _ => rfl, fun i hi => absurd hi (Nat.not_lt_zero _)⟩
  · rw [if_neg h0]
    by_cases hg0 : p.numGen = 0
    · rw [if_pos hg0]
      obtain ⟨r, r1, r2, r3, r4, r5⟩ := Mat.copy_ok (m := out) hc (h2.trans o2.symm) (by rw [h1, o1, hg0, Nat.zero_add])
      refine ⟨r, r1, r2, by rw [r3, h1, hg0, Nat.zero_add], r4.trans h2, fun i hi => by omega, fun i _ j hj => ?_⟩
      unfold Mat.at?
      rw [r5 j (by omega), hg0, Nat.zero_add]
    · rw [if_neg hg0]
      obtain ⟨r, r1, r2, r3, r4, r5, r6⟩ := C10_vstack_partial general p.coeffs out hg hc (g2.trans h2.symm) ho
        (by rw [o2, g2])
      refine ⟨r, r1, r2, by rw [r3, g1, h1], r4.trans g2, fun i hi j hj => r5 i (by omega) j (by omega), fun i hi j hj => ?_⟩
      have := r6 i (by omega) j (by omega)
      rwa [g1] at this

/-- C42: second-order information is requested for the multipliers of the general
constraints. -/
theorem C42_hess_duals {p : Prob K} {duals cache : Vec K} (hd : VOk (p.numGen + p.numLin) duals)
    (hc : cache.dim = p.numGen) :
    ∃ r, p.hessDuals duals cache = some r ∧ VOk p.numGen r ∧ ∀ i < p.numGen, r.value i = duals.value i := by
  unfold Prob.hessDuals
  by_cases h0 : p.numLin = 0
  · rw [if_pos h0]
    rw [h0, Nat.add_zero] at hd
    exact ⟨duals, rfl, hd, fun _ _ => rfl⟩
  · rw [if_neg h0]
    unfold Prob.prepareDuals
    obtain ⟨T, hT⟩ : ∃ T, T = duals.ents.takeWhile fun e => decide (¬ e.1 ≥ p.numGen) := ⟨_, rfl⟩
    have hT2 : T = duals.ents.takeWhile fun e => decide (e.1 < p.numGen) := by
      rw [hT]; congr 1; funext e; simp
    have hsub : ∀ e ∈ T, e ∈ duals.ents ∧ e.1 < p.numGen := by
      intro e he
      rw [hT2] at he
      exact (mem_takeWhile_lt hd.1.srt _ _).mp he
    have hs : Srt T := by
      rw [hT]; exact List.Pairwise.sublist (List.takeWhile_sublist _) hd.1.srt
    have hlen : T.length ≤ duals.ents.length := by rw [hT]; exact (List.takeWhile_sublist _).length_le
    have hp := Vec.pushAll_ok ((cache.reserve duals.nnz).clear) T (by simpa [Vec.clear] using hs)
      (by intro e he; show e.1 < cache.dim; rw [hc]; exact (hsub e he).2)
      (by simp only [Vec.clear, Vec.reserve, List.length_nil, Nat.zero_add]; exact le_trans hlen (le_max_right _ _))
    rw [← hT, hp]
    refine ⟨_, rfl, ⟨⟨by simpa [Vec.clear] using hs, ?_, ?_⟩, hc⟩, fun i hi => ?_⟩
    · intro e he
      show e.1 < cache.dim
      rw [hc]; exact (hsub e (by simpa [Vec.clear] using he)).2
    · show (([] : List (Nat × K)) ++ T).length ≤ max cache.cap duals.nnz
      rw [List.nil_append]; exact le_trans hlen (le_max_right _ _)
    · show valAt ([] ++ T) i = valAt duals.ents i
      rw [List.nil_append]
      unfold valAt
      congr 1
      rcases h : at? duals.ents i with _ | x
      · apply at?_none_of_forall
        intro e he h2
        have := at?_isSome_iff.mpr ⟨e, (hsub e he).1, h2⟩
        rw [h] at this; simp at this
      · apply at?_of_mem hs
        rw [hT2, mem_takeWhile_lt hd.1.srt]
        exact ⟨mem_of_at? h, hi⟩

theorem vecHasFinite_iff {inf : K} (hinf : 0 < inf) {v : Vec K} (hv : v.WF) :
    vecHasFinite inf v = false ↔ ∀ i < v.dim, isFinite inf (v.value i) = false := by
  have habs : ∀ x : K, isFinite inf |x| = isFinite inf x := by
    intro x; unfold isFinite; rw [abs_abs]
  have hzero : isFinite inf (0 : K) = true := by
    unfold isFinite isInfinite
    rw [abs_zero]
    simp only [Bool.not_eq_true', decide_eq_false_iff_not, not_le]
    linarith
  unfold vecHasFinite
  rw [Bool.or_eq_false_iff, decide_eq_false_iff_not, not_not, List.any_eq_false]
  constructor
  · rintro ⟨hn, hall⟩ i hi
    by_cases hx : ∃ x, (i, x) ∈ v.ents
    · obtain ⟨x, hx⟩ := hx
      have := hall _ hx
      rw [habs] at this
      unfold Vec.value
      rw [valAt_of_mem hv.srt hx]
      simpa using this
    · exfalso
      have hnd : (v.ents.map Prod.fst).Nodup := by
        rw [List.Nodup, List.pairwise_map]
        exact hv.srt.imp fun h => Nat.ne_of_lt h
      have hsubset : v.ents.map Prod.fst ⊆ (List.range v.dim).erase i := by
        intro k hk
        obtain ⟨e, he, rfl⟩ := List.mem_map.mp hk
        refine (List.Nodup.mem_erase_iff List.nodup_range).mpr ⟨?_, List.mem_range.mpr (hv.lt_dim e he)⟩
        rintro rfl
        exact hx ⟨e.2, he⟩
      have hle := (List.subperm_of_subset hnd hsubset).length_le
      rw [List.length_map, List.length_erase_of_mem (List.mem_range.mpr hi), List.length_range] at hle
      unfold Vec.nnz at hn
      omega
  · intro h
    have hmem : ∀ i < v.dim, ∃ x, (i, x) ∈ v.ents := by
      intro i hi
      rcases hx : at? v.ents i with _ | x
      · have := h i hi
        unfold Vec.value valAt at this
        rw [hx, orZero_none, hzero] at this
        cases this
      · exact ⟨x, mem_of_at? hx⟩
    refine ⟨?_, ?_⟩
    · have h1 := srt_length_le hv.srt hv.lt_dim
      have hsubset : List.range v.dim ⊆ v.ents.map Prod.fst := by
        intro i hi
        obtain ⟨x, hx⟩ := hmem i (List.mem_range.mp hi)
        exact List.mem_map.mpr ⟨_, hx, rfl⟩
      have hle := (List.subperm_of_subset List.nodup_range hsubset).length_le
      rw [List.length_map, List.length_range] at hle
      unfold Vec.nnz
      omega
    · intro e he
      have := h e.1 (hv.lt_dim e he)
      unfold Vec.value at this
      rw [valAt_of_mem hv.srt he] at this
      rw [habs, this]; simp

/-- C42: a problem counts as unconstrained iff all its bounds are infinite (in the sense of
the library). -/
theorem C42_unconstrained {inf : K} (hinf : 0 < inf) {p : Prob K} (h1 : p.varLb.WF) (h2 : p.varUb.WF)
    (h3 : p.consLb.WF) (h4 : p.consUb.WF) :
    p.isUnconstrained inf = true ↔
      (∀ i < p.varLb.dim, isFinite inf (p.varLb.value i) = false) ∧ (∀ i < p.varUb.dim, isFinite inf (p.varUb.value i) = false) ∧
      (∀ i < p.consLb.dim, isFinite inf (p.consLb.value i) = false) ∧ ∀ i < p.consUb.dim, isFinite inf (p.consUb.value i) = false := by
  unfold Prob.isUnconstrained
  rw [Bool.not_eq_true', Bool.or_eq_false_iff, Bool.or_eq_false_iff, Bool.or_eq_false_iff, vecHasFinite_iff hinf h1, vecHasFinite_iff hinf h2,
    vecHasFinite_iff hinf h3, vecHasFinite_iff hinf h4]
  tauto

/-- one variable without lower bound and one with `[1, 2]`; one general constraint `≤ 5` -/
example : ∃ p, probCreateSimple (extBounds (100 : ℚ)) (.fin 0) 2 1 ⟨2, 2, [(0, .ninf), (1, .fin 1)]⟩
    ⟨2, 2, [(0, .pinf), (1, .fin 2)]⟩ ⟨1, 1, [(0, .ninf)]⟩ ⟨1, 1, [(0, .fin 5)]⟩ (fun _ => 0) (fun _ => .fin 0) = .ok p ∧
    bval (.fin 0) p.varLb 0 = .fin (-100) ∧ bval (.fin 0) p.consUb 0 = .fin 5 := by
  obtain ⟨p, h1, h2⟩ := (C42_create_simple (extBounds_ok (inf := (100 : ℚ))) (n := 2) (m := 1)
    (varLb := ⟨2, 2, [(0, .ninf), (1, .fin 1)]⟩) (varUb := ⟨2, 2, [(0, .pinf), (1, .fin 2)]⟩)
    (genLb := ⟨1, 1, [(0, .ninf)]⟩) (genUb := ⟨1, 1, [(0, .fin 5)]⟩)
    ⟨⟨by simp [Srt], by simp, by simp⟩, rfl⟩ ⟨⟨by simp [Srt], by simp, by simp⟩, rfl⟩
    ⟨⟨by simp [Srt], by simp, by simp⟩, rfl⟩ ⟨⟨by simp [Srt], by simp, by simp⟩, rfl⟩
    ((C42_finite (by simp)).1 (by simp)) ((C42_finite (by simp)).2 (by simp))
    ((C42_finite (by simp)).1 (by simp)) ((C42_finite (by simp)).2 (by simp)) (fun _ => 0) (fun _ => .fin 0)).1
    ⟨by intro i hi; interval_cases i <;> decide +kernel, by intro i hi; interval_cases i; decide +kernel⟩
  refine ⟨p, h1, ?_, ?_⟩
  · rw [h2.varLbOk.2]; decide +kernel
  · rw [h2.consUbOk.2.1 0 (by omega)]; decide +kernel

end

end Sleqp
