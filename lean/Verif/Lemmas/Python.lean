import Verif.Spec.Python
import Verif.Lemmas.Mat
import Verif.Lemmas.VecNum

/-! Auxiliary facts about the conversions from Python: the loop over the entries of a matrix does the same as the usual loop over its
columns, except for the space reserved. -/

namespace Sleqp
variable {V : Type*} [DecidableEq V]

/-- looking up an index in the nonzeros -/
theorem at?_nonzeros (zero : V) {l : List (Nat × V)} (h : Srt l) (i : Nat) :
    (at? (l.filter fun e => decide (e.2 ≠ zero)) i).getD zero = (at? l i).getD zero := by
  by_cases hex : ∃ a, (i, a) ∈ l
  · obtain ⟨a, ha⟩ := hex
    rw [at?_of_mem h ha]
    by_cases hz : a = zero
    · subst hz
      have : at? (l.filter fun e => decide (e.2 ≠ a)) i = none := by
        refine at?_none_of_forall fun e he hi => ?_
        obtain ⟨h1, h2⟩ := List.mem_filter.mp he
        have h3 := at?_of_mem h (show (i, e.2) ∈ l from hi ▸ h1)
        rw [at?_of_mem h ha] at h3
        simp only [decide_eq_true_eq] at h2
        exact h2 (Option.some.inj h3).symm
      rw [this]; rfl
    · rw [at?_of_mem (srt_filter _ h) (List.mem_filter.mpr ⟨ha, by simpa using hz⟩)]
  · have h1 : ∀ e ∈ l, e.1 ≠ i := fun e he hi => hex ⟨e.2, hi ▸ he⟩
    rw [at?_none_of_forall h1, at?_none_of_forall fun e he => h1 e (List.mem_filter.mp he).1]

section Loop

/-- the same matrix with other space -/
def setCap (C : Nat) (m : Mat V) : Mat V := { m with cap := C }

theorem pushCol_setCap (C : Nat) (m : Mat V) (j : Nat) : (setCap C m).pushCol j = (m.pushCol j).map (setCap C) := by
  unfold Mat.pushCol setCap
  split <;> rfl

/-- pushing the columns up to `k` -/
theorem pyPushCols_spec (C : Nat) (rest : List (List (Nat × V))) : ∀ (d : Nat) (m : Mat V) (next : Nat), next + d ≤ m.numCols →
    ∃ m', pyPushCols m next (next + d) = some m' ∧ m'.cap = m.cap ∧ m'.nnz = m.nnz ∧ m'.numRows = m.numRows ∧ m'.numCols = m.numCols ∧
      (setCap C m).assembleFrom next (List.replicate d [] ++ rest) = (setCap C m').assembleFrom (next + d) rest := by
  intro d
  induction d with
  | zero =>
    intro m next _
    refine ⟨m, ?_, rfl, rfl, rfl, rfl, rfl⟩
    unfold pyPushCols
    rw [if_pos (by omega)]
    simp
  | succ d ih =>
    intro m next h
    obtain ⟨m1, hm1⟩ : ∃ m1 : Mat V, m1 = { m with ptr := setAt m.ptr (next + 1) (m.ptr next) } := ⟨_, rfl⟩
    have hp : m.pushCol next = some m1 := by
      unfold Mat.pushCol; rw [if_pos (by omega), hm1]
    obtain ⟨m', h1, h2, h3, h4, h5, h6⟩ := ih m1 (next + 1) (by rw [hm1]; show _ ≤ m.numCols; omega)
    refine ⟨m', ?_, by rw [h2, hm1], by rw [h3, hm1], by rw [h4, hm1], by rw [h5, hm1], ?_⟩
    · unfold pyPushCols at h1 ⊢
      rw [if_pos (by omega)] at h1 ⊢
      rw [show next + (d + 1) - next = (next + 1 + d - (next + 1)) + 1 by omega, List.range'_succ, List.foldlM_cons, hp]
      exact h1
    · rw [List.replicate_succ, List.cons_append, Mat.assembleFrom, pushCol_setCap, hp]
      show (setCap C m1).assembleFrom (next + 1) _ = _
      rw [h6, show next + 1 + d = next + (d + 1) by omega]

/-- the space a matrix may have while the loop runs -/
def CapOk (C bound : Nat) (m : Mat V) : Prop := max m.cap bound = C ∧ m.nnz ≤ m.cap

/-- reserving if necessary, and a push -/
theorem pyPush_spec {C bound : Nat} {m : Mat V} {i j : Nat} {x : V} (hc : CapOk C bound m) (hb : m.nnz + 1 ≤ bound)
    (hi : i < m.numRows) (hj : j < m.numCols) :
    ∃ m', (if m.nnz = m.cap then m.reserve bound else m).push i j x = some m' ∧ CapOk C bound m' ∧ m'.nnz = m.nnz + 1 ∧
      m'.numRows = m.numRows ∧ m'.numCols = m.numCols ∧ (setCap C m).push i j x = some (setCap C m') := by
  obtain ⟨h1, h2⟩ := hc
  have hC : (setCap C m).push i j x = some (setCap C { m with
      val := setAt m.val m.nnz x, row := setAt m.row m.nnz i, ptr := setAt m.ptr (j + 1) (m.ptr (j + 1) + 1), nnz := m.nnz + 1 }) := by
    unfold Mat.push setCap
    rw [if_pos ⟨show m.nnz < C by omega, hi, hj⟩]
  by_cases h : m.nnz = m.cap
  · rw [if_pos h]
    refine ⟨⟨m.numRows, m.numCols, m.nnz + 1, max m.cap bound, setAt m.ptr (j + 1) (m.ptr (j + 1) + 1), setAt m.row m.nnz i,
      setAt m.val m.nnz x⟩, ?_, ⟨by show max (max m.cap bound) bound = C; omega, by show m.nnz + 1 ≤ max m.cap bound; omega⟩,
      rfl, rfl, rfl, hC⟩
    unfold Mat.push Mat.reserve
    rw [if_pos ⟨show m.nnz < max m.cap bound by omega, hi, hj⟩]
  · rw [if_neg h]
    refine ⟨⟨m.numRows, m.numCols, m.nnz + 1, m.cap, setAt m.ptr (j + 1) (m.ptr (j + 1) + 1), setAt m.row m.nnz i,
      setAt m.val m.nnz x⟩, ?_, ⟨h1, by show m.nnz + 1 ≤ m.cap; omega⟩, rfl, rfl, rfl, hC⟩
    unfold Mat.push
    rw [if_pos ⟨by omega, hi, hj⟩]

theorem pyPushCols_self (m : Mat V) (k : Nat) : pyPushCols m k k = some m := by
  unfold pyPushCols
  rw [if_pos le_rfl, Nat.sub_self]
  rfl

/-- the entries of a column after its first one -/
theorem pyColumn_spec {C bound j : Nat} : ∀ (c : List (Nat × V)) (m : Mat V), CapOk C bound m → m.nnz + c.length ≤ bound →
    (∀ e ∈ c, e.1 < m.numRows) → j < m.numCols →
    ∃ m', (c.map fun e => (j, e.1, e.2)).foldlM (pyMatStep bound) (m, j + 1) = some (m', j + 1) ∧ CapOk C bound m' ∧
      m'.nnz = m.nnz + c.length ∧ m'.numRows = m.numRows ∧ m'.numCols = m.numCols ∧
      (setCap C m).pushAll j c = some (setCap C m') := by
  intro c
  induction c with
  | nil => intro m hc _ _ _; exact ⟨m, rfl, hc, rfl, rfl, rfl, rfl⟩
  | cons e t ih =>
    intro m hc hb hr hj
    obtain ⟨m1, a1, a2, a3, a4, a5, a6⟩ := pyPush_spec (x := e.2) hc (by simp at hb; omega) (hr e (by simp)) hj
    obtain ⟨m', b1, b2, b3, b4, b5, b6⟩ := ih m1 a2 (by simp at hb; omega) (by rw [a4]; exact fun x hx => hr x (by simp [hx])) (by rw [a5]; exact hj)
    refine ⟨m', ?_, b2, by rw [b3, a3]; simp; omega, b4.trans a4, b5.trans a5, ?_⟩
    · have hs : pyMatStep bound (m, j + 1) (j, e.1, e.2) = some (m1, j + 1) := by
        unfold pyMatStep
        rw [pyPushCols_self, Option.bind_some, a1]
        rfl
      rw [List.map_cons, List.foldlM_cons, hs]
      exact b1
    · unfold Mat.pushAll at b6 ⊢
      rw [List.foldlM_cons, a6]
      exact b6

/-- the entries of the columns `cs`, the first of which is `j` -/
def entriesFrom (j : Nat) : List (List (Nat × V)) → List (Nat × Nat × V)
  | [] => []
  | c :: cs => (c.map fun e => (j, e.1, e.2)) ++ entriesFrom (j + 1) cs

theorem pyLoop_spec {C bound : Nat} : ∀ (cs : List (List (Nat × V))) (d : Nat) (m : Mat V) (next : Nat), CapOk C bound m →
    m.nnz + (cs.map List.length).sum ≤ bound → (∀ c ∈ cs, ∀ e ∈ c, e.1 < m.numRows) → next + d + cs.length = m.numCols →
    ∃ m', ((entriesFrom (next + d) cs).foldlM (pyMatStep bound) (m, next)).bind (fun s => pyPushCols s.1 s.2 m.numCols) = some m' ∧
      m'.nnz ≤ m'.cap ∧ (setCap C m).assembleFrom next (List.replicate d [] ++ cs) = some (setCap C m') := by
  intro cs
  induction cs with
  | nil =>
    intro d m next hc _ _ hn
    obtain ⟨m', h1, h2, h3, h4, h5, h6⟩ := pyPushCols_spec C [] d m next (by simp at hn; omega)
    refine ⟨m', ?_, by rw [h2, h3]; exact hc.2, by rw [h6]; rfl⟩
    show pyPushCols m next m.numCols = some m'
    rw [← hn]; exact h1
  | cons c cs ih =>
    intro d m next hc hb hr hn
    simp only [List.length_cons, List.map_cons, List.sum_cons] at hn hb
    cases c with
    | nil =>
      obtain ⟨m', h1, h2, h3⟩ := ih (d + 1) m next hc (by simpa using hb) (fun c hc' => hr c (by simp [hc'])) (by omega)
      refine ⟨m', ?_, h2, ?_⟩
      · rw [entriesFrom, List.map_nil, List.nil_append]
        exact h1
      · rw [← h3, List.replicate_succ']
        simp
    | cons e t =>
      obtain ⟨m1, a1, a2, a3, a4, a5, a6⟩ := pyPushCols_spec C ((e :: t) :: cs) d m next (by omega)
      obtain ⟨m2, hm2⟩ : ∃ m2 : Mat V, m2 = { m1 with ptr := setAt m1.ptr (next + d + 1) (m1.ptr (next + d)) } := ⟨_, rfl⟩
      have hp : m1.pushCol (next + d) = some m2 := by
        unfold Mat.pushCol; rw [if_pos (by omega), hm2]
      have hp1 : pyPushCols m next (next + d + 1) = some m2 := by
        unfold pyPushCols at a1 ⊢
        rw [if_pos (by omega)] at a1 ⊢
        rw [show next + d + 1 - next = (next + d - next) + 1 by omega, List.range'_concat, List.foldlM_append, a1]
        simp only [Nat.one_mul, Option.bind_eq_bind, Option.bind_some, List.foldlM_cons, List.foldlM_nil]
        rw [show next + (next + d - next) = next + d by omega, hp]
        rfl
      have hc2 : CapOk C bound m2 := by rw [hm2]; exact ⟨by show max m1.cap bound = C; rw [a2]; exact hc.1, by show m1.nnz ≤ m1.cap; rw [a2, a3]; exact hc.2⟩
      have n2 : m2.nnz = m.nnz := by rw [hm2]; exact a3
      have r2 : m2.numRows = m.numRows := by rw [hm2]; exact a4
      have c2 : m2.numCols = m.numCols := by rw [hm2]; exact a5
      simp only [List.length_cons] at hb
      obtain ⟨m3, b1, b2, b3, b4, b5, b6⟩ := pyPush_spec (i := e.1) (j := next + d) (x := e.2) hc2 (by omega)
        (by rw [r2]; exact hr (e :: t) (by simp) e (by simp)) (by omega)
      obtain ⟨m4, d1, d2, d3, d4, d5, d6⟩ := pyColumn_spec (j := next + d) t m3 b2 (by omega)
        (by rw [b4, r2]; exact fun x hx => hr (e :: t) (by simp) x (by simp [hx])) (by omega)
      obtain ⟨m5, f1, f2, f3⟩ := ih 0 m4 (next + d + 1) d2 (by omega)
        (by rw [d4, b4, r2]; exact fun c hc' => hr c (by simp [hc'])) (by omega)
      refine ⟨m5, ?_, f2, ?_⟩
      · have hs : pyMatStep bound (m, next) (next + d, e.1, e.2) = some (m3, next + d + 1) := by
          unfold pyMatStep
          rw [hp1, Option.bind_some, b1]
          rfl
        rw [entriesFrom, List.map_cons, List.cons_append, List.foldlM_cons, hs]
        show ((_ ++ _ : List (Nat × Nat × V)).foldlM _ _ : Option _).bind _ = _
        rw [List.foldlM_append, d1]
        show (List.foldlM (pyMatStep bound) (m4, next + d + 1) _ : Option _).bind _ = _
        rw [show m.numCols = m4.numCols by omega]
        exact f1
      · rw [a6, Mat.assembleFrom, pushCol_setCap, hp]
        show ((setCap C m2).pushAll (next + d) (e :: t)).bind _ = _
        have : (setCap C m2).pushAll (next + d) (e :: t) = some (setCap C m4) := by
          unfold Mat.pushAll at d6 ⊢
          rw [List.foldlM_cons, b6]
          exact d6
        rw [this]
        exact f3

end Loop

theorem entries_eq (zero : V) (a : PyMat V) : a.entries zero = entriesFrom 0 ((List.range a.cols).map (a.col zero)) := by
  have key : ∀ (n j : Nat), (List.range' j n).flatMap (fun j => (a.col zero j).map fun e => (j, e.1, e.2)) =
      entriesFrom j ((List.range' j n).map (a.col zero)) := by
    intro n
    induction n with
    | zero => intro j; rfl
    | succ n ih =>
      intro j
      rw [List.range'_succ, List.flatMap_cons, ih, List.map_cons, entriesFrom]
  unfold PyMat.entries
  rw [List.range_eq_range']
  exact key a.cols 0

theorem bound_ok (zero : V) (a : PyMat V) : (((List.range a.cols).map (a.col zero)).map List.length).sum ≤ a.bound zero := by
  match a with
  | .csc s =>
    rw [List.map_map]
    exact le_rfl
  | .dense r c entry =>
    show (((List.range c).map _).map List.length).sum ≤ r * c
    rw [List.map_map]
    induction c with
    | zero => simp
    | succ c ih =>
      rw [List.range_succ, List.map_append, List.sum_append]
      have : ((PyMat.dense r c entry).col zero c).length ≤ r := by
        unfold PyMat.col
        exact (List.length_filter_le _ _).trans (by simp)
      have h2 : (List.map (List.length ∘ (PyMat.dense r (c + 1) entry).col zero) (List.range c)).sum ≤ r * c := ih
      have h3 : (List.map (List.length ∘ (PyMat.dense r (c + 1) entry).col zero) [c]).sum ≤ r := by
        simp only [List.map_cons, List.map_nil, List.sum_cons, List.sum_nil, Nat.add_zero]
        exact this
      rw [Nat.mul_succ]
      omega

theorem col_srt (zero : V) {a : PyMat V} (h : a.Ordered) {j : Nat} (hj : j < a.cols) :
    Srt (a.col zero j) ∧ (∀ e ∈ a.col zero j, e.1 < a.rows) ∧
    ∀ i < a.rows, (at? (a.col zero j) i).getD zero = a.get zero i j := by
  match a, h, hj with
  | .csc s, h, hj =>
    obtain ⟨h1, h2⟩ := h j hj
    exact ⟨srt_filter _ h1, fun e he => h2 e (List.mem_filter.mp he).1, fun i _ => at?_nonzeros zero h1 i⟩
  | .dense r c entry, _, _ =>
    have hs : Srt ((List.range r).map fun i => (i, entry i j)) := by
      rw [Srt, List.pairwise_map]; exact List.pairwise_lt_range
    refine ⟨srt_filter _ hs, ?_, ?_⟩
    · intro e he
      obtain ⟨i, hi, rfl⟩ := List.mem_map.mp (List.mem_filter.mp he).1
      exact List.mem_range.mp hi
    · intro i hi
      refine (at?_nonzeros zero hs i).trans ?_
      rw [at?_of_mem hs (List.mem_map.mpr ⟨i, List.mem_range.mpr hi, rfl⟩)]
      rfl

end Sleqp
