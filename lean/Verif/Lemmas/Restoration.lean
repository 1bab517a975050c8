import Verif.Model.Restoration
import Verif.Props.Lsq
import Verif.Props.Mat
import Verif.Lemmas.Feas

/-! Lemmas about the restoration problem. -/

namespace Sleqp
open Finset
variable {K : Type*}

/-! ### splitting -/

theorem at?_append (l m : List (Nat × K)) (k : Nat) :
    at? (l ++ m) k = (at? l k).or (at? m k) := by
  induction l with
  | nil => rfl
  | cons e t ih =>
    rw [List.cons_append, at?_cons, at?_cons, ih]
    split_ifs <;> rfl

theorem pushAll_cap {v w : Vec K} {l : List (Nat × K)} (h : v.pushAll l = some w) : w.cap = v.cap := by
  induction l generalizing v with
  | nil => cases h; rfl
  | cons e t ih =>
    unfold Vec.pushAll at h
    rw [List.foldlM_cons] at h
    unfold Vec.push at h
    split_ifs at h
    · exact ih (v := { v with ents := v.ents ++ [(e.1, e.2)] }) h
    · simp at h

theorem splitFold (n m : Nat) (v c : Vec K) (hv : v.dim = n) (hc : c.dim = m)
    (l : List (Nat × K)) (hs : Srt l) (hl : ∀ e ∈ l, e.1 < n + m)
    (hvs : ∀ a ∈ v.ents, ∀ b ∈ l, a.1 < b.1) (hcs : ∀ a ∈ c.ents, ∀ b ∈ l, n ≤ b.1 → a.1 < b.1 - n)
    (sv : Srt v.ents) (sc : Srt c.ents)
    (cv : v.ents.length + (l.filter fun e => decide (e.1 < n)).length ≤ v.cap)
    (cc : c.ents.length + (l.filter fun e => decide (n ≤ e.1)).length ≤ c.cap) :
    l.foldlM splitStep (v, c) =
      some ({ v with ents := v.ents ++ (l.filter fun e => decide (e.1 < n)) },
            { c with ents := c.ents ++ ((l.filter fun e => decide (n ≤ e.1)).map
              fun e => (e.1 - n, e.2)) }) := by
  induction l generalizing v c with
  | nil => simp
  | cons e t ih =>
    have hst := srt_cons.mp hs
    rw [List.foldlM_cons]
    by_cases he : e.1 < n
    · have hne : ¬ n ≤ e.1 := by omega
      rw [List.filter_cons_of_pos (by simpa using he), List.length_cons] at cv
      have hp : v.push e.1 e.2 = some { v with ents := v.ents ++ [e] } := by
        unfold Vec.push
        rw [if_pos]
        refine ⟨by omega, by omega, ?_⟩
        intro a ha
        exact hvs a (List.mem_of_mem_getLast? ha) e List.mem_cons_self
      have h1 : splitStep (v, c) e = some ({ v with ents := v.ents ++ [e] }, c) := by
        unfold splitStep
        rw [if_pos (by simpa [hv] using he)]
        show Option.map _ (v.push e.1 e.2) = _
        rw [hp]; rfl
      rw [h1]
      simp only [Option.bind_eq_bind, Option.bind_some]
      rw [ih { v with ents := v.ents ++ [e] } c hv hc hst.2 (fun a ha => hl a (List.mem_cons_of_mem _ ha))]
      · rw [List.filter_cons_of_pos (by simpa using he), List.filter_cons_of_neg (by simpa using hne)]
        simp
      · intro a ha b hb
        rcases List.mem_append.mp ha with h | h
        · exact hvs a h b (List.mem_cons_of_mem _ hb)
        · rw [List.mem_singleton.mp h]; exact hst.1 b hb
      · intro a ha b hb; exact hcs a ha b (List.mem_cons_of_mem _ hb)
      · exact srt_append.mpr ⟨sv, by simp [Srt], fun a ha b hb => by
          rw [List.mem_singleton.mp hb]; exact hvs a ha e List.mem_cons_self⟩
      · exact sc
      · simp; omega
      · rw [List.filter_cons_of_neg (by simpa using hne)] at cc; exact cc
    · have hne : n ≤ e.1 := by omega
      rw [List.filter_cons_of_pos (by simpa using hne), List.length_cons] at cc
      have hlt := hl e List.mem_cons_self
      have hp : c.push (e.1 - n) e.2 = some { c with ents := c.ents ++ [(e.1 - n, e.2)] } := by
        unfold Vec.push
        rw [if_pos]
        refine ⟨by omega, by omega, ?_⟩
        intro a ha
        exact hcs a (List.mem_of_mem_getLast? ha) e List.mem_cons_self hne
      have h1 : splitStep (v, c) e = some (v, { c with ents := c.ents ++ [(e.1 - n, e.2)] }) := by
        unfold splitStep
        rw [if_neg (by simpa [hv] using he)]
        show Option.map _ (c.push (e.1 - v.dim) e.2) = _
        rw [hv, hp]; rfl
      rw [h1]
      simp only [Option.bind_eq_bind, Option.bind_some]
      rw [ih v { c with ents := c.ents ++ [(e.1 - n, e.2)] } hv hc hst.2 (fun a ha => hl a (List.mem_cons_of_mem _ ha))]
      · rw [List.filter_cons_of_neg (by simpa using he), List.filter_cons_of_pos (by simpa using hne)]
        simp
      · intro a ha b hb
        exact hvs a ha b (List.mem_cons_of_mem _ hb)
      · intro a ha b hb hnb
        rcases List.mem_append.mp ha with h | h
        · exact hcs a h b (List.mem_cons_of_mem _ hb) hnb
        · rw [List.mem_singleton.mp h]
          have := hst.1 b hb
          simp only; omega
      · exact sv
      · refine srt_append.mpr ⟨sc, by simp [Srt], fun a ha b hb => ?_⟩
        rw [List.mem_singleton.mp hb]; exact hcs a ha e List.mem_cons_self hne
      · rw [List.filter_cons_of_neg (by simpa using he)] at cv; exact cv
      · simp; omega

theorem at?_shift (l : List (Nat × K)) (n k : Nat) :
    at? ((l.filter fun e => decide (n ≤ e.1)).map fun e => (e.1 - n, e.2)) k = at? l (n + k) := by
  induction l with
  | nil => rfl
  | cons e t ih =>
    by_cases h : n ≤ e.1
    · rw [List.filter_cons_of_pos (by simpa using h), List.map_cons, at?_cons, at?_cons, ih]
      by_cases hk : e.1 = n + k
      · rw [if_pos hk, if_pos (show e.1 - n = k by omega)]
      · rw [if_neg hk, if_neg (show ¬ e.1 - n = k by omega)]
    · rw [List.filter_cons_of_neg (by simpa using h), ih, at?_cons, if_neg (by omega)]

theorem at?_filter_lt (l : List (Nat × K)) (n k : Nat) (hk : k < n) :
    at? (l.filter fun e => decide (e.1 < n)) k = at? l k := by
  induction l with
  | nil => rfl
  | cons e t ih =>
    by_cases h : e.1 < n
    · rw [List.filter_cons_of_pos (by simpa using h), at?_cons, at?_cons, ih]
    · rw [List.filter_cons_of_neg (by simpa using h), ih, at?_cons, if_neg (by omega)]

theorem srt_shift {l : List (Nat × K)} (hs : Srt l) (n : Nat) :
    Srt ((l.filter fun e => decide (n ≤ e.1)).map fun e => (e.1 - n, e.2)) := by
  rw [Srt, List.pairwise_map]
  refine List.Pairwise.imp_of_mem ?_ (srt_filter (fun e => decide (n ≤ e.1)) hs)
  intro a b ha hb hab
  have := of_decide_eq_true (List.of_mem_filter (p := fun e : Nat × K => decide (n ≤ e.1)) ha)
  have := of_decide_eq_true (List.of_mem_filter (p := fun e : Nat × K => decide (n ≤ e.1)) hb)
  simp only; omega

/-- `split_primal` never overruns its targets and splits the lifted point. -/
theorem splitPrimal_spec (n m : Nat) (z : Vec K) (hz : z.WF) (hd : z.dim = n + m) :
    ∃ x s, splitPrimal n m z = some (x, s) ∧ x.WF ∧ s.WF ∧ x.dim = n ∧ s.dim = m ∧
      (∀ i < n, at? x.ents i = at? z.ents i) ∧ (∀ i, at? s.ents i = at? z.ents (n + i)) := by
  have s1 : Srt (z.ents.filter fun e => decide (e.1 < n)) := srt_filter _ hz.srt
  have s2 := srt_shift hz.srt n
  have b1 : ∀ e ∈ z.ents.filter fun e => decide (e.1 < n), e.1 < n := fun e he =>
    of_decide_eq_true (List.of_mem_filter (p := fun e : Nat × K => decide (e.1 < n)) he)
  have b2 : ∀ e ∈ (z.ents.filter fun e => decide (n ≤ e.1)).map fun e => (e.1 - n, e.2), e.1 < m := by
    intro e he
    obtain ⟨a, ha, rfl⟩ := List.mem_map.mp he
    have h1 := of_decide_eq_true (List.of_mem_filter (p := fun e : Nat × K => decide (n ≤ e.1)) ha)
    have h2 := hz.lt_dim a (List.mem_of_mem_filter ha)
    simp only; omega
  have c1 : (z.ents.filter fun e => decide (e.1 < n)).length ≤ min z.nnz n :=
    le_min (List.length_filter_le _ _) (srt_length_le s1 b1)
  have c2 : (z.ents.filter fun e => decide (n ≤ e.1)).length ≤ min z.nnz m := by
    refine le_min (List.length_filter_le _ _) ?_
    have := srt_length_le s2 b2
    rwa [List.length_map] at this
  have c1' : (z.ents.filter fun e => decide (e.1 < n)).length ≤
      ((Vec.create n 0 : Vec K).reserve (min z.nnz n)).cap := c1.trans (le_max_right _ _)
  have c2' : (z.ents.filter fun e => decide (n ≤ e.1)).length ≤
      ((Vec.create m 0 : Vec K).reserve (min z.nnz m)).cap := c2.trans (le_max_right _ _)
  have hf := splitFold n m ((Vec.create n 0 : Vec K).reserve (min z.nnz n))
    ((Vec.create m 0 : Vec K).reserve (min z.nnz m)) rfl rfl z.ents hz.srt
    (fun e he => hd ▸ hz.lt_dim e he) (by intro a ha; simp [Vec.reserve, Vec.create] at ha)
    (by intro a ha; simp [Vec.reserve, Vec.create] at ha) Srt.nil Srt.nil
    (by simpa [Vec.reserve, Vec.create] using c1') (by simpa [Vec.reserve, Vec.create] using c2')
  refine ⟨_, _, hf, ⟨?_, ?_, ?_⟩, ⟨?_, ?_, ?_⟩, rfl, rfl, fun i hi => ?_, fun i => ?_⟩
  · exact s1
  · exact b1
  · exact c1'
  · exact s2
  · exact b2
  · show List.length _ ≤ _
    simp only [List.nil_append, Vec.reserve, Vec.create, List.length_map]
    simpa [Vec.reserve, Vec.create] using c2'
  · exact at?_filter_lt z.ents n i hi
  · exact at?_shift z.ents n i

section
variable [Field K] [LinearOrder K]

/-- A state of the restoration function whose vectors and matrix are well formed and
of the dimensions of the problem. -/
structure RestOk (pr : RestProblem K) (s : RestState K) : Prop where
  sWF : s.consPrimal.WF
  sDim : s.consPrimal.dim = pr.numCons
  cWF : (s.computeVal pr).consVal.WF
  cDim : (s.computeVal pr).consVal.dim = pr.numCons
  jWF : (s.computeJac pr).consJac.WF
  jRows : (s.computeJac pr).consJac.numRows = pr.numCons
  jCols : (s.computeJac pr).consJac.numCols = pr.numVars

/-- the residual `c(x) - s` -/
def restR (pr : RestProblem K) (s : RestState K) (i : Nat) : K :=
  (s.computeVal pr).consVal.value i - s.consPrimal.value i

/-- the Jacobian `[c'(x) | -I]` of the residual -/
def restJ (pr : RestProblem K) (s : RestState K) (i j : Nat) : K :=
  if j < pr.numVars then (s.computeJac pr).consJac.value i j
  else if j = pr.numVars + i then -1 else 0

variable [IsStrictOrderedRing K]

theorem drop_zero (x : K) : (if |x| ≤ (0 : K) then 0 else x) = x := by
  split_ifs with h
  · exact ((abs_nonpos_iff).mp h).symm
  · rfl

theorem restForward_spec (n m : Nat) (jac : Mat K) (d dest : Vec K) (hj : jac.WF)
    (hr : jac.numRows = m) (hcn : jac.numCols = n) (hd : d.WF) (hdd : d.dim = n + m) :
    ∃ r, restForward n m 0 jac d dest = some r ∧ r.WF ∧ r.dim = m ∧
      ∀ i < m, r.value i = (∑ j ∈ range n, jac.value i j * d.value j) - d.value (n + i) := by
  obtain ⟨x, s, h1, xw, sw, xd, sd, hx, hs⟩ := splitPrimal_spec n m d hd hdd
  obtain ⟨a, a1, a2⟩ := C08_mult_vec jac x hj xw (hcn.trans xd.symm)
  obtain ⟨f, f1, f2, f3, f4⟩ := setFromRaw_spec 0 (Vec.create m 0) ((List.range m).map a)
  rw [List.length_map, List.length_range] at f3
  obtain ⟨w, w1, w2, w3, w4⟩ := C03_add_scaled f s dest 1 (-1) 0 f2 sw (f3.trans sd.symm) le_rfl
  refine ⟨w, ?_, w2, w3.trans f3, fun i hi => ?_⟩
  · unfold restForward
    rw [h1]; simp only [Option.bind_some]
    rw [a1]; simp only [Option.bind_some]
    rw [f1]; exact w1
  · rw [w4 i, drop_zero, one_mul, f4 i]
    have : ((List.range m).map a)[i]? = some (a i) := by simp [hi]
    rw [this]
    simp only
    rw [drop_zero, a2 i, hcn, neg_mul, one_mul, ← sub_eq_add_neg]
    congr 1
    · refine Finset.sum_congr rfl fun j hj => ?_
      have : x.value j = d.value j := by
        unfold Vec.value valAt; rw [hx j (Finset.mem_range.mp hj)]
      rw [this]
    · unfold Vec.value valAt; rw [hs i]

omit [IsStrictOrderedRing K] in
theorem addScaled_cap {a b r0 r : Vec K} {f g eps : K} (h : Vec.addScaled a b f g eps r0 = some r) :
    r0.cap ≤ r.cap := by
  unfold Vec.addScaled at h
  split_ifs at h
  have := Vec.foldlM_push_map (fun t => isZero (Vec.addVal f g t) eps)
      (fun t => (t.1, Vec.addVal f g t)) (((r0.clear).resize a.dim).reserve (a.nnz + b.nnz))
      (merge2 a.ents b.ents)
  simp only at this h
  rw [this] at h
  rw [pushAll_cap h]
  refine le_trans ?_ (le_max_left _ _)
  unfold Vec.resize
  split <;> exact le_rfl

theorem concatAdjoint_spec (a y dest : Vec K) (ha : a.WF) (hy : y.WF)
    (hd : dest.dim = a.dim + y.dim) :
    ∃ r, concatAdjoint a y dest = some r ∧ r.WF ∧ r.dim = dest.dim ∧ dest.cap ≤ r.cap ∧
      (∀ j < a.dim, r.value j = a.value j) ∧ ∀ i, r.value (a.dim + i) = -y.value i := by
  obtain ⟨r1, hr1⟩ : ∃ r1, r1 = (dest.clear).reserve (min (a.nnz + y.nnz) dest.dim) := ⟨_, rfl⟩
  obtain ⟨B, hB⟩ : ∃ B, B = y.ents.map fun e => (e.1 + a.dim, -e.2) := ⟨_, rfl⟩
  have sB : Srt B := by
    rw [hB, Srt, List.pairwise_map]; exact hy.srt.imp fun h => by simpa using h
  have lB : B.length = y.nnz := by rw [hB, List.length_map]; rfl
  have bB : ∀ e ∈ B, e.1 < dest.dim := by
    intro e he
    rw [hB] at he
    obtain ⟨b, hb, rfl⟩ := List.mem_map.mp he
    have := hy.lt_dim b hb
    simp only; omega
  have sAB : Srt (a.ents ++ B) := by
    refine srt_append.mpr ⟨ha.srt, sB, fun p hp q hq => ?_⟩
    rw [hB] at hq
    obtain ⟨b, hb, rfl⟩ := List.mem_map.mp hq
    have := ha.lt_dim p hp
    simp only; omega
  have bAB : ∀ e ∈ a.ents ++ B, e.1 < dest.dim := by
    intro e he
    rcases List.mem_append.mp he with h | h
    · have := ha.lt_dim e h; omega
    · exact bB e h
  have hlen : a.ents.length + B.length ≤ r1.cap := by
    have h1 : a.ents.length + B.length ≤ a.nnz + y.nnz := by rw [lB]; exact le_rfl
    have h2 : a.ents.length + B.length ≤ dest.dim := by
      rw [← List.length_append]; exact srt_length_le sAB bAB
    rw [hr1]
    exact (le_min h1 h2).trans (le_max_right _ _)
  have e1 : r1.ents = [] := by rw [hr1]; rfl
  have d1 : r1.dim = dest.dim := by rw [hr1]; rfl
  have c1 : dest.cap ≤ r1.cap := by rw [hr1]; exact le_max_left _ _
  have p1 := Vec.pushAll_ok r1 a.ents (by rw [e1]; exact ha.srt)
    (fun e he => by rw [d1]; exact bAB e (List.mem_append_left _ he))
    (by rw [e1]; simp only [List.length_nil]; omega)
  rw [e1, List.nil_append] at p1
  have p2 := Vec.pushAll_ok { r1 with ents := a.ents } B sAB (fun e he => by
    show e.1 < r1.dim; rw [d1]; exact bB e he) hlen
  refine ⟨{ r1 with ents := a.ents ++ B }, ?_, ⟨sAB, ?_, ?_⟩, d1, c1, fun j hj => ?_, fun i => ?_⟩
  · unfold concatAdjoint
    rw [← hr1, ← hB]
    simp only
    rw [p1]
    exact p2
  · show ∀ e ∈ a.ents ++ B, e.1 < r1.dim
    rw [d1]; exact bAB
  · show (a.ents ++ B).length ≤ r1.cap
    rw [List.length_append]; exact hlen
  · show valAt (a.ents ++ B) j = valAt a.ents j
    unfold valAt
    congr 1
    have : ∀ e ∈ B, e.1 ≠ j := by
      intro e he
      rw [hB] at he
      obtain ⟨b, hb, rfl⟩ := List.mem_map.mp he
      simp only; omega
    rw [at?_append, at?_none_of_forall this]
    cases at? a.ents j <;> rfl
  · show valAt (a.ents ++ B) (a.dim + i) = -valAt y.ents i
    have hn : at? a.ents (a.dim + i) = none := at?_none_of_forall fun e he => by
      have := ha.lt_dim e he; omega
    unfold valAt
    rw [at?_append, hn, hB]
    have : ∀ l : List (Nat × K), at? (l.map fun e => (e.1 + a.dim, -e.2)) (a.dim + i) =
        (at? l i).map fun x => -x := by
      intro l
      induction l with
      | nil => rfl
      | cons e t ih =>
        rw [List.map_cons, at?_cons, at?_cons, ih]
        by_cases h : e.1 = i
        · rw [if_pos h, if_pos (show e.1 + a.dim = a.dim + i by omega)]; rfl
        · rw [if_neg h, if_neg (show ¬ e.1 + a.dim = a.dim + i by omega)]
    rw [this]
    cases at? y.ents i <;> simp [orZero]

end
end Sleqp
