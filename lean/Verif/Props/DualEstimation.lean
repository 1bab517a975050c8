import Verif.Model.DualEstimation
import Verif.Lemmas.Cursor
import Verif.Props.WorkingSet

/-! C31: estimated multipliers have admissible signs. -/

namespace Sleqp
variable {K : Type*} [Field K] [LinearOrder K]

/-- the admissible part of a multiplier -/
def admissible (st : ActiveState) (v : K) : K :=
  match st with
  | .inactive => 0
  | .upper => max v 0
  | .lower => min v 0
  | .both => v

/-- the multiplier is pushed -/
def lsqKeeps (st : ActiveState) (v : K) : Bool :=
  match st with
  | .inactive => false
  | .upper => decide (v > 0)
  | .lower => decide (v < 0)
  | .both => true

/-- the multiplier has the wrong sign -/
def lsqClips (st : ActiveState) (v : K) : Bool :=
  match st with
  | .inactive => false
  | .upper => decide (v < 0)
  | .lower => decide (v > 0)
  | .both => false

theorem lsqPush_eq (st : ActiveState) (hst : st ≠ .inactive) (dual : Vec K) (c i : Nat) (v : K) :
    lsqPush st dual c i v = (if lsqKeeps st v then dual.push i v else some dual).map fun d =>
      (d, c + if lsqClips st v then 1 else 0) := by
  cases st with
  | inactive => exact absurd rfl hst
  | both => simp [lsqPush, lsqKeeps, lsqClips]
  | upper =>
    simp only [lsqPush, lsqKeeps, lsqClips, decide_eq_true_eq]
    by_cases h : v > 0
    · simp [h, not_lt_of_gt h]
    · by_cases h2 : v < 0 <;> simp [h, h2]
  | lower =>
    simp only [lsqPush, lsqKeeps, lsqClips, decide_eq_true_eq]
    by_cases h : v < 0
    · simp [h, not_lt_of_gt h]
    · by_cases h2 : v > 0 <;> simp [h, h2]

theorem keeps_admissible (st : ActiveState) (v : K) : (if lsqKeeps st v then v else 0) = admissible st v := by
  cases st <;> simp only [lsqKeeps, admissible]
  · simp
  · by_cases h : v < 0
    · simp [h, min_eq_left h.le]
    · simp [h, min_eq_right (not_lt.mp h)]
  · by_cases h : v > 0
    · simp [h, max_eq_left h.le]
    · simp [h, max_eq_right (not_lt.mp h)]
  · simp

/-- entries of one kind kept by the loop: `sel` maps a position to the index of an entry of
that kind -/
def keptOf (sel : Nat → Option Nat) (state : Nat → ActiveState) (es : List (Nat × K)) : List (Nat × K) :=
  es.filterMap fun e => (sel e.1).bind fun i => if lsqKeeps (state i) e.2 then some (i, e.2) else none

/-- number of clipped entries of one kind -/
def clippedOf (sel : Nat → Option Nat) (state : Nat → ActiveState) (es : List (Nat × K)) : Nat :=
  es.countP fun e => match sel e.1 with
    | none => false
    | some i => lsqClips (state i) e.2

def WSet.varSel (w : WSet) (k : Nat) : Option Nat := if w.content k < w.numVars then some (w.content k) else none
def WSet.consSel (w : WSet) (k : Nat) : Option Nat :=
  if w.content k < w.numVars then none else some (w.content k - w.numVars)

theorem add_clip (a b c : Nat) : a + b + c = a + (c + b) := by omega

theorem pushAll_cons (v : Vec K) (e : Nat × K) (l : List (Nat × K)) :
    v.pushAll (e :: l) = (v.push e.1 e.2).bind fun d => d.pushAll l := rfl

theorem lsq_fold (w : WSet) (es : List (Nat × K))
    (hact : ∀ e ∈ es, (∀ i, w.varSel e.1 = some i → w.varState i ≠ .inactive) ∧
      ∀ i, w.consSel e.1 = some i → w.consState i ≠ .inactive) (v c : Vec K) (nv nc : Nat) :
    es.foldlM (lsqDualBody w) ((v, nv), (c, nc)) =
      (v.pushAll (keptOf w.varSel w.varState es)).bind fun v' =>
      (c.pushAll (keptOf w.consSel w.consState es)).map fun c' =>
        ((v', nv + clippedOf w.varSel w.varState es), (c', nc + clippedOf w.consSel w.consState es)) := by
  induction es generalizing v c nv nc with
  | nil => simp [keptOf, clippedOf, Vec.pushAll]
  | cons e es ih =>
    have ih' := ih fun e' he' => hact e' (List.mem_cons_of_mem _ he')
    obtain ⟨h1, h2⟩ := hact e List.mem_cons_self
    have hb : lsqDualBody w ((v, nv), (c, nc)) e = if w.content e.1 < w.numVars then
        (lsqPush (w.varState (w.content e.1)) v nv (w.content e.1) e.2).map fun a => (a, (c, nc))
      else (lsqPush (w.consState (w.content e.1 - w.numVars)) c nc (w.content e.1 - w.numVars) e.2).map
        fun a => ((v, nv), a) := rfl
    rw [List.foldlM_cons, hb]
    by_cases hlt : w.content e.1 < w.numVars
    · have hsel : w.varSel e.1 = some (w.content e.1) := if_pos hlt
      have hsel2 : w.consSel e.1 = none := if_pos hlt
      simp only [hlt, if_true]
      rw [lsqPush_eq _ (h1 _ hsel)]
      have e1 : keptOf w.consSel w.consState (e :: es) = keptOf w.consSel w.consState es := by
        unfold keptOf; rw [List.filterMap_cons]; simp [hsel2]
      have e2 : clippedOf w.consSel w.consState (e :: es) = clippedOf w.consSel w.consState es := by
        unfold clippedOf; rw [List.countP_cons]; simp [hsel2]
      have e3 : clippedOf w.varSel w.varState (e :: es) = clippedOf w.varSel w.varState es +
          if lsqClips (w.varState (w.content e.1)) e.2 then 1 else 0 := by
        unfold clippedOf; rw [List.countP_cons]; simp [hsel]
      rw [e1, e2, e3]
      cases hk : lsqKeeps (w.varState (w.content e.1)) e.2
      · have e4 : keptOf w.varSel w.varState (e :: es) = keptOf w.varSel w.varState es := by
          unfold keptOf; rw [List.filterMap_cons]; simp [hsel, hk]
        rw [e4]
        simp only [Bool.false_eq_true, if_false, Option.map_some, Option.bind_eq_bind, Option.bind_some]
        rw [ih']
        simp only [add_clip]
      · have e4 : keptOf w.varSel w.varState (e :: es) = (w.content e.1, e.2) :: keptOf w.varSel w.varState es := by
          unfold keptOf; rw [List.filterMap_cons]; simp [hsel, hk]
        rw [e4, pushAll_cons]
        rcases hp : v.push (w.content e.1) e.2 with _ | v1
        · simp
        · simp only [if_true, Option.map_some, Option.bind_eq_bind, Option.bind_some]
          rw [ih']
          simp only [add_clip]
    · have hsel : w.varSel e.1 = none := if_neg hlt
      have hsel2 : w.consSel e.1 = some (w.content e.1 - w.numVars) := if_neg hlt
      simp only [hlt, if_false]
      rw [lsqPush_eq _ (h2 _ hsel2)]
      have e1 : keptOf w.varSel w.varState (e :: es) = keptOf w.varSel w.varState es := by
        unfold keptOf; rw [List.filterMap_cons]; simp [hsel]
      have e2 : clippedOf w.varSel w.varState (e :: es) = clippedOf w.varSel w.varState es := by
        unfold clippedOf; rw [List.countP_cons]; simp [hsel]
      have e3 : clippedOf w.consSel w.consState (e :: es) = clippedOf w.consSel w.consState es +
          if lsqClips (w.consState (w.content e.1 - w.numVars)) e.2 then 1 else 0 := by
        unfold clippedOf; rw [List.countP_cons]; simp [hsel2]
      rw [e1, e2, e3]
      cases hk : lsqKeeps (w.consState (w.content e.1 - w.numVars)) e.2
      · have e4 : keptOf w.consSel w.consState (e :: es) = keptOf w.consSel w.consState es := by
          unfold keptOf; rw [List.filterMap_cons]; simp [hsel2, hk]
        rw [e4]
        simp only [Bool.false_eq_true, if_false, Option.map_some, Option.bind_eq_bind, Option.bind_some]
        rw [ih']
        simp only [add_clip]
      · have e4 : keptOf w.consSel w.consState (e :: es) =
            (w.content e.1 - w.numVars, e.2) :: keptOf w.consSel w.consState es := by
          unfold keptOf; rw [List.filterMap_cons]; simp [hsel2, hk]
        rw [e4, pushAll_cons]
        rcases hp : c.push (w.content e.1 - w.numVars) e.2 with _ | c1
        · simp only [if_true, Option.map_none, Option.bind_eq_bind, Option.bind_none]
          cases v.pushAll (keptOf w.varSel w.varState es) <;> rfl
        · simp only [if_true, Option.map_some, Option.bind_eq_bind, Option.bind_some]
          rw [ih']
          simp only [add_clip]

/-- positions are ordered by index, i.e. entries of each kind were added in increasing order -/
def WSet.Ordered (w : WSet) : Prop := ∀ k k', k < k' → k' < w.size → w.content k < w.content k'

theorem keptOf_srt {sel : Nat → Option Nat} {state : Nat → ActiveState} {es : List (Nat × K)} (hs : Srt es)
    (hsel : ∀ e ∈ es, ∀ e' ∈ es, e.1 < e'.1 → ∀ i i', sel e.1 = some i → sel e'.1 = some i' → i < i') :
    Srt (keptOf sel state es) := by
  unfold keptOf Srt
  rw [List.pairwise_filterMap]
  refine List.Pairwise.imp_of_mem ?_ hs
  intro a b ha hb hab x hx y hy
  rcases h1 : sel a.1 with _ | i
  · simp [h1] at hx
  · rcases h2 : sel b.1 with _ | i'
    · simp [h2] at hy
    · rw [h1] at hx
      rw [h2] at hy
      simp only [Option.bind_some] at hx hy
      split at hx
      · split at hy
        · injection hx with hx
          injection hy with hy
          rw [← hx, ← hy]
          exact hsel a ha b hb hab i i' h1 h2
        · cases hy
      · cases hx

theorem mem_keptOf {sel : Nat → Option Nat} {state : Nat → ActiveState} {es : List (Nat × K)} {x : Nat × K} :
    x ∈ keptOf sel state es ↔ ∃ k, (k, x.2) ∈ es ∧ sel k = some x.1 ∧ lsqKeeps (state x.1) x.2 = true := by
  unfold keptOf
  rw [List.mem_filterMap]
  constructor
  · rintro ⟨e, he, hx⟩
    rcases h1 : sel e.1 with _ | i
    · simp [h1] at hx
    · rw [h1] at hx
      simp only [Option.bind_some] at hx
      split at hx
      · rename_i hk
        injection hx with hx
        rw [← hx]
        exact ⟨e.1, he, h1, hk⟩
      · cases hx
  · rintro ⟨k, he, h1, h2⟩
    exact ⟨(k, x.2), he, by simp [h1, h2]⟩

theorem keptOf_length (sel : Nat → Option Nat) (state : Nat → ActiveState) (es : List (Nat × K)) :
    (keptOf sel state es).length ≤ es.length := List.length_filterMap_le _ _

/-- the value computed for an entry at position `k` -/
theorem keptOf_value {sel : Nat → Option Nat} {state : Nat → ActiveState} {es : List (Nat × K)} (hs : Srt es)
    (hk : Srt (keptOf sel state es)) {i : Nat} {pos : Option Nat} (hpos : ∀ e ∈ es, (sel e.1 = some i ↔ pos = some e.1)) :
    valAt (keptOf sel state es) i = pos.elim 0 fun k => admissible (state i) (valAt es k) := by
  by_cases hex : ∃ k, pos = some k ∧ ∃ v, (k, v) ∈ es
  · obtain ⟨k, rfl, v, hv⟩ := hex
    have hve : valAt es k = v := valAt_of_mem hs hv
    simp only [Option.elim_some, hve, ← keeps_admissible]
    have hsel := (hpos _ hv).mpr rfl
    by_cases hkk : lsqKeeps (state i) v = true
    · rw [if_pos hkk]
      exact valAt_of_mem hk (e := (i, v)) (mem_keptOf.mpr ⟨k, hv, hsel, hkk⟩)
    · rw [if_neg hkk]
      unfold valAt
      rw [at?_none_of_forall]
      · rfl
      · intro e he hei
        obtain ⟨k', h1, h2, h3⟩ := mem_keptOf.mp he
        rw [hei] at h2 h3
        have := (hpos _ h1).mp h2
        injection this with this
        simp only at this
        subst this
        have : valAt es k = e.2 := valAt_of_mem hs h1
        rw [hve] at this
        rw [← this] at h3
        exact hkk h3
  · have h0 : valAt (keptOf sel state es) i = 0 := by
      unfold valAt
      rw [at?_none_of_forall]
      · rfl
      · intro e he hei
        obtain ⟨k', h1, h2, h3⟩ := mem_keptOf.mp he
        rw [hei] at h2
        exact hex ⟨k', (hpos _ h1).mp h2, _, h1⟩
    rw [h0]
    rcases pos with _ | k
    · rfl
    · have : valAt es k = 0 := by
        unfold valAt
        rw [at?_none_of_forall]
        · rfl
        · intro e he hek
          exact hex ⟨k, rfl, e.2, by rw [← hek]; exact he⟩
      simp only [Option.elim_some, this]
      cases state i <;> simp [admissible]

/-- C31: for every working set whose entries were added in increasing order and every
solution of the least-squares system, the estimate succeeds; the multiplier of an inactive
entry is `0`, that of an active entry the solution, clipped to the admissible sign; the
number of clipped entries is reported. -/
theorem C31_lsq {n m : Nat} {w : WSet} {l : List WEntry} (h : WRep n m w l) (ho : w.Ordered) {sol cd vd : Vec K}
    (hs : VOk w.size sol) (hc : cd.dim = m) (hv : vd.dim = n) :
    ∃ r : LsqDuals K, lsqDuals w sol cd vd = some r ∧ VOk n r.1.1 ∧ VOk m r.2.1 ∧
      (∀ j < n, r.1.1.value j = (w.varIdx j).elim 0 fun k => admissible (w.varState j) (sol.value k)) ∧
      (∀ i < m, r.2.1.value i = (w.consIdx i).elim 0 fun k => admissible (w.consState i) (sol.value k)) ∧
      r.1.2 = clippedOf w.varSel w.varState sol.ents ∧ r.2.2 = clippedOf w.consSel w.consState sol.ents ∧
      supportsRange w.varState r.1.1 = true ∧ supportsRange w.consState r.2.1 = true ∧
      ((∀ e ∈ sol.ents, e.2 ≠ 0) → (∀ e ∈ r.1.1.ents, e.2 ≠ 0) ∧ ∀ e ∈ r.2.1.ents, e.2 ≠ 0) := by
  obtain ⟨q1, q2, q3, q4, q5, q6⟩ := C30_queries h
  have hlt : ∀ e ∈ sol.ents, e.1 < w.size := fun e he => by have := hs.1.lt_dim e he; rwa [hs.2] at this
  have hvs : ∀ k < w.size, ∀ i, w.varSel k = some i ↔ i < n ∧ w.varIdx i = some k := by
    intro k hk i
    unfold WSet.varSel
    rw [h.nv]
    by_cases hc : w.content k < n
    · rw [if_pos hc]
      constructor
      · intro he; injection he with he; subst he; exact ⟨hc, (q2 _ hc k).mpr ⟨hk, rfl⟩⟩
      · rintro ⟨h1, h2⟩; rw [((q2 _ h1 k).mp h2).2]
    · rw [if_neg hc]
      constructor
      · intro he; cases he
      · rintro ⟨h1, h2⟩; have := ((q2 _ h1 k).mp h2).2; omega
  have hcs : ∀ k < w.size, ∀ i, w.consSel k = some i ↔ i < m ∧ w.consIdx i = some k := by
    intro k hk i
    unfold WSet.consSel
    rw [h.nv]
    have h6 := (q6 k hk).2
    by_cases hc : w.content k < n
    · rw [if_pos hc]
      constructor
      · intro he; cases he
      · rintro ⟨h1, h2⟩; have := ((q3 _ h1 k).mp h2).2; omega
    · rw [if_neg hc]
      constructor
      · intro he; injection he with he
        have h1 : i < m := by omega
        exact ⟨h1, (q3 _ h1 k).mpr ⟨hk, by omega⟩⟩
      · rintro ⟨h1, h2⟩; have := ((q3 _ h1 k).mp h2).2; congr 1; omega
  have hact : ∀ e ∈ sol.ents, (∀ i, w.varSel e.1 = some i → w.varState i ≠ .inactive) ∧
      ∀ i, w.consSel e.1 = some i → w.consState i ≠ .inactive := by
    intro e he
    constructor
    · intro i hi hst
      obtain ⟨h1, h2⟩ := (hvs _ (hlt e he) i).mp hi
      rw [(q4 i h1).mpr hst] at h2; cases h2
    · intro i hi hst
      obtain ⟨h1, h2⟩ := (hcs _ (hlt e he) i).mp hi
      rw [(q5 i h1).mpr hst] at h2; cases h2
  have sv : Srt (keptOf w.varSel w.varState sol.ents) := keptOf_srt hs.1.srt fun e he e' he' hee i i' h1 h2 => by
    have a1 := ((q2 _ ((hvs _ (hlt e he) i).mp h1).1 _).mp ((hvs _ (hlt e he) i).mp h1).2).2
    have a2 := ((q2 _ ((hvs _ (hlt e' he') i').mp h2).1 _).mp ((hvs _ (hlt e' he') i').mp h2).2).2
    have := ho _ _ hee (hlt e' he')
    omega
  have sc : Srt (keptOf w.consSel w.consState sol.ents) := keptOf_srt hs.1.srt fun e he e' he' hee i i' h1 h2 => by
    have a1 := ((q3 _ ((hcs _ (hlt e he) i).mp h1).1 _).mp ((hcs _ (hlt e he) i).mp h1).2).2
    have a2 := ((q3 _ ((hcs _ (hlt e' he') i').mp h2).1 _).mp ((hcs _ (hlt e' he') i').mp h2).2).2
    have := ho _ _ hee (hlt e' he')
    omega
  have dv : ∀ e ∈ keptOf w.varSel w.varState sol.ents, e.1 < n := by
    intro e he
    obtain ⟨k, h1, h2, _⟩ := mem_keptOf.mp he
    exact ((hvs _ (hlt _ h1) _).mp h2).1
  have dc : ∀ e ∈ keptOf w.consSel w.consState sol.ents, e.1 < m := by
    intro e he
    obtain ⟨k, h1, h2, _⟩ := mem_keptOf.mp he
    exact ((hcs _ (hlt _ h1) _).mp h2).1
  have lv := keptOf_length w.varSel w.varState sol.ents
  have lc := keptOf_length w.consSel w.consState sol.ents
  have pv := Vec.pushAll_ok ((vd.reserve sol.nnz).clear) (keptOf w.varSel w.varState sol.ents) (by simpa [Vec.clear] using sv)
    (by simpa [Vec.clear, Vec.reserve, hv] using dv) (by simp only [Vec.clear, Vec.reserve, Vec.nnz, List.length_nil]; omega)
  have pc := Vec.pushAll_ok ((cd.reserve sol.nnz).clear) (keptOf w.consSel w.consState sol.ents) (by simpa [Vec.clear] using sc)
    (by simpa [Vec.clear, Vec.reserve, hc] using dc) (by simp only [Vec.clear, Vec.reserve, Vec.nnz, List.length_nil]; omega)
  have valv : ∀ j < n, valAt (keptOf w.varSel w.varState sol.ents) j = (w.varIdx j).elim 0 fun k => admissible (w.varState j) (sol.value k) := fun j hj =>
    keptOf_value hs.1.srt sv fun e he => by rw [hvs _ (hlt e he)]; exact ⟨fun hh => hh.2, fun hh => ⟨hj, hh⟩⟩
  have valc : ∀ i < m, valAt (keptOf w.consSel w.consState sol.ents) i = (w.consIdx i).elim 0 fun k => admissible (w.consState i) (sol.value k) := fun j hj =>
    keptOf_value hs.1.srt sc fun e he => by rw [hcs _ (hlt e he)]; exact ⟨fun hh => hh.2, fun hh => ⟨hj, hh⟩⟩
  have wfv : VOk n (⟨vd.dim, max vd.cap sol.nnz, keptOf w.varSel w.varState sol.ents⟩ : Vec K) :=
    ⟨⟨sv, by rw [hv]; exact dv, by simp only [Vec.nnz]; omega⟩, hv⟩
  have wfc : VOk m (⟨cd.dim, max cd.cap sol.nnz, keptOf w.consSel w.consState sol.ents⟩ : Vec K) :=
    ⟨⟨sc, by rw [hc]; exact dc, by simp only [Vec.nnz]; omega⟩, hc⟩
  refine ⟨((⟨vd.dim, max vd.cap sol.nnz, keptOf w.varSel w.varState sol.ents⟩, clippedOf w.varSel w.varState sol.ents),
    (⟨cd.dim, max cd.cap sol.nnz, keptOf w.consSel w.consState sol.ents⟩, clippedOf w.consSel w.consState sol.ents)),
    ?_, wfv, wfc, valv, valc, rfl, rfl, ?_, ?_, ?_⟩
  · unfold lsqDuals
    rw [lsq_fold w sol.ents hact, pv, pc]
    simp [Vec.clear, Vec.reserve]
  · rw [C30_supports _ _ wfv.1]
    intro j hj
    rw [wfv.2] at hj
    have e := valv j hj
    have e' : (⟨vd.dim, max vd.cap sol.nnz, keptOf w.varSel w.varState sol.ents⟩ : Vec K).value j =
      valAt (keptOf w.varSel w.varState sol.ents) j := rfl
    rw [e', e]
    rcases hk : w.varIdx j with _ | k
    · rw [(q4 j hj).mp hk]; rfl
    · simp only [Option.elim_some]
      cases hst : w.varState j
      · rfl
      · exact min_le_right _ _
      · exact le_max_right _ _
      · trivial
  · rw [C30_supports _ _ wfc.1]
    intro j hj
    rw [wfc.2] at hj
    have e := valc j hj
    have e' : (⟨cd.dim, max cd.cap sol.nnz, keptOf w.consSel w.consState sol.ents⟩ : Vec K).value j =
      valAt (keptOf w.consSel w.consState sol.ents) j := rfl
    rw [e', e]
    rcases hk : w.consIdx j with _ | k
    · rw [(q5 j hj).mp hk]; rfl
    · simp only [Option.elim_some]
      cases hst : w.consState j
      · rfl
      · exact min_le_right _ _
      · exact le_max_right _ _
      · trivial
  · intro hnz
    constructor
    · intro e he
      obtain ⟨k, h1, _⟩ := mem_keptOf.mp he
      exact hnz (k, e.2) h1
    · intro e he
      obtain ⟨k, h1, _⟩ := mem_keptOf.mp he
      exact hnz (k, e.2) h1

theorem admissible_of_not_clipped {st : ActiveState} (hst : st ≠ .inactive) {v : K} (h : lsqClips st v = false) :
    admissible st v = v := by
  cases st with
  | inactive => exact absurd rfl hst
  | both => rfl
  | upper => simp only [lsqClips, decide_eq_false_iff_not, not_lt] at h; exact max_eq_left h
  | lower => simp only [lsqClips, decide_eq_false_iff_not, gt_iff_lt, not_lt] at h; exact min_eq_left h

theorem mergeDual_fold (es : List (Nat × Option K × Option K)) (dual : Vec K)
    (hnz : ∀ t ∈ es, (∀ a, t.2.1 = some a → a ≠ 0) ∧ (∀ b, t.2.2 = some b → b ≠ 0) ∧ (t.2.1.isSome ∨ t.2.2.isSome)) :
    es.foldlM mergeDualBody dual = dual.pushAll (es.map fun t => (t.1, (t.2.1.orElse fun _ => t.2.2).getD 0)) := by
  induction es generalizing dual with
  | nil => rfl
  | cons t es ih =>
    have ih' := fun d => ih d fun t ht => hnz t (List.mem_cons_of_mem _ ht)
    obtain ⟨h1, h2, h3⟩ := hnz t List.mem_cons_self
    rw [List.foldlM_cons, List.map_cons]
    unfold Vec.pushAll
    rw [List.foldlM_cons]
    obtain ⟨i, a, b⟩ := t
    simp only at h1 h2 h3
    rcases a with _ | a
    · rcases b with _ | b
      · simp at h3
      · have : mergeDualBody dual (i, none, some b) = dual.push i b := by
          unfold mergeDualBody; simp only []; rw [if_pos (h2 b rfl)]
        rw [this]
        simp only [Option.orElse_none, Option.getD_some]
        rcases dual.push i b with _ | d
        · rfl
        · exact ih' d
    · have : mergeDualBody dual (i, some a, b) = dual.push i a := by
        unfold mergeDualBody; simp only []; rw [if_pos (h1 a rfl)]
      rw [this]
      simp only [Option.orElse_some, Option.getD_some]
      rcases dual.push i a with _ | d
      · rfl
      · exact ih' d

/-- merging two estimates: the first where it is nonzero, else the second -/
theorem mergeDuals_spec {n na : Nat} {a b d : Vec K} (ha : VOk n a) (hb : VOk n b) (hd : d.dim = n)
    (na0 : ∀ e ∈ a.ents, e.2 ≠ 0) (nb0 : ∀ e ∈ b.ents, e.2 ≠ 0) {act : List Nat} (hact : act.length = na)
    (haa : ∀ e ∈ a.ents, e.1 ∈ act) (hba : ∀ e ∈ b.ents, e.1 ∈ act) :
    ∃ r, mergeDuals a na b d = some r ∧ VOk n r ∧
      ∀ i, r.value i = if a.value i ≠ 0 then a.value i else b.value i := by
  have hsm := merge2_srt ha.1.srt hb.1.srt
  have hmm := fun t ht => merge2_mem (t := t) ha.1.srt hb.1.srt ht
  have hL : Srt ((merge2 a.ents b.ents).map fun t => (t.1, (t.2.1.orElse fun _ => t.2.2).getD (0 : K))) :=
    srt_map_snd (fun t : Nat × Option K × Option K => (t.2.1.orElse fun _ => t.2.2).getD (0 : K)) hsm
  have hdim : ∀ e ∈ (merge2 a.ents b.ents).map fun t => (t.1, (t.2.1.orElse fun _ => t.2.2).getD (0 : K)), e.1 < n := by
    intro e he
    obtain ⟨t, ht, rfl⟩ := List.mem_map.mp he
    exact merge2_lt ha.1.srt hb.1.srt (fun e he => by have := ha.1.lt_dim e he; rwa [ha.2] at this)
      (fun e he => by have := hb.1.lt_dim e he; rwa [hb.2] at this) t ht
  have hlen : (merge2 a.ents b.ents).length ≤ na := by
    have h1 : ((merge2 a.ents b.ents).map Prod.fst).Nodup := by
      unfold List.Nodup
      rw [List.pairwise_map]
      exact hsm.imp fun h => Nat.ne_of_lt h
    have h2 := (List.subperm_of_subset h1 (l₂ := act) (by
      intro i hi
      obtain ⟨t, ht, rfl⟩ := List.mem_map.mp hi
      rcases (hmm t ht).2 with h | h
      · obtain ⟨x, hx⟩ := Option.isSome_iff_exists.mp h
        exact haa _ (mem_of_at? hx)
      · obtain ⟨x, hx⟩ := Option.isSome_iff_exists.mp h
        exact hba _ (mem_of_at? hx))).length_le
    rw [List.length_map, hact] at h2
    exact h2
  have hfold := mergeDual_fold (merge2 a.ents b.ents) ((d.clear).reserve na) (by
    intro t ht
    obtain ⟨h1, h2⟩ := hmm t ht
    rw [h1]
    refine ⟨fun x hx => na0 _ (mem_of_at? hx), fun x hx => nb0 _ (mem_of_at? hx), h2⟩)
  have hp := Vec.pushAll_ok ((d.clear).reserve na)
    ((merge2 a.ents b.ents).map fun t => (t.1, (t.2.1.orElse fun _ => t.2.2).getD (0 : K)))
    (by simpa [Vec.clear, Vec.reserve] using hL) (by simpa [Vec.clear, Vec.reserve, hd] using hdim)
    (by simp only [Vec.clear, Vec.reserve, List.length_nil, List.length_map]; omega)
  refine ⟨⟨d.dim, max d.cap na, (merge2 a.ents b.ents).map fun t => (t.1, (t.2.1.orElse fun _ => t.2.2).getD (0 : K))⟩,
    ?_, ⟨⟨hL, by rw [hd]; exact hdim, by simp only [List.length_map]; omega⟩, hd⟩, ?_⟩
  · unfold mergeDuals
    rw [if_pos ⟨by rw [ha.2, hb.2], by rw [ha.2, hd]⟩, hfold, hp]
    simp [Vec.clear, Vec.reserve]
  · intro i
    unfold Vec.value valAt
    simp only []
    rw [at?_map (fun t : Nat × Option K × Option K => (t.2.1.orElse fun _ => t.2.2).getD (0 : K)),
      merge2_at ha.1.srt hb.1.srt]
    rcases h1 : at? a.ents i with _ | x
    · rcases h2 : at? b.ents i with _ | y
      · simp [comb2]
      · simp [comb2]
    · have := na0 _ (mem_of_at? h1)
      simp only at this
      rcases h2 : at? b.ents i with _ | y <;> simp [comb2, this]

/-- C31: combining the least-squares estimate with another admissible estimate without
stored zeros (used when something was clipped) yields multipliers supported by the working
set, equal to the least-squares estimate wherever that is nonzero. -/
theorem C31_mixed {n m : Nat} {w : WSet} {l : List WEntry} (h : WRep n m w l) (ho : w.Ordered)
    {sol cd vd lpV lpC outV outC : Vec K} (hs : VOk w.size sol) (hnz : ∀ e ∈ sol.ents, e.2 ≠ 0) (hc : cd.dim = m)
    (hv : vd.dim = n) (hlv : VOk n lpV) (hlc : VOk m lpC) (nlv : ∀ e ∈ lpV.ents, e.2 ≠ 0)
    (nlc : ∀ e ∈ lpC.ents, e.2 ≠ 0) (slv : supportsRange w.varState lpV = true)
    (slc : supportsRange w.consState lpC = true) (hov : outV.dim = n) (hoc : outC.dim = m) :
    ∃ r v c, lsqDuals w sol cd vd = some r ∧ mixedDuals w r lpV lpC outV outC = some (v, c) ∧
      VOk n v ∧ VOk m c ∧ supportsRange w.varState v = true ∧ supportsRange w.consState c = true ∧
      (∀ j < n, r.1.1.value j ≠ 0 → v.value j = r.1.1.value j) ∧
      ∀ i < m, r.2.1.value i ≠ 0 → c.value i = r.2.1.value i := by
  obtain ⟨r, r1, r2, r3, _, _, _, _, r8, r9, r10⟩ := C31_lsq h ho hs hc hv
  obtain ⟨z1, z2⟩ := r10 hnz
  obtain ⟨q1, q2, q3, q4, q5, q6⟩ := C30_queries h
  have gen : ∀ (N na : Nat) (state : Nat → ActiveState) (a b d : Vec K) (cl : Bool) (act : List Nat),
      VOk N a → VOk N b → d.dim = N → (∀ e ∈ a.ents, e.2 ≠ 0) → (∀ e ∈ b.ents, e.2 ≠ 0) →
      supportsRange state a = true → supportsRange state b = true → act.length = na →
      (∀ i < N, state i ≠ .inactive → i ∈ act) →
      ∃ o, copyOrMerge cl na a b d = some o ∧ VOk N o ∧ supportsRange state o = true ∧
        ∀ i < N, a.value i ≠ 0 → o.value i = a.value i := by
    intro N na state a b d cl act ha hb hd na0 nb0 sa sb hact hin
    have inact : ∀ (v : Vec K), VOk N v → (∀ e ∈ v.ents, e.2 ≠ 0) → supportsRange state v = true →
        ∀ e ∈ v.ents, e.1 ∈ act := by
      intro v hv h0 hsup e he
      have hlt : e.1 < N := by have := hv.1.lt_dim e he; rwa [hv.2] at this
      refine hin _ hlt fun hst => ?_
      have := (C30_supports _ _ hv.1).mp hsup e.1 (by rw [hv.2]; exact hlt)
      rw [hst] at this
      simp only at this
      rw [show v.value e.1 = e.2 from valAt_of_mem hv.1.srt he] at this
      exact h0 e he this
    unfold copyOrMerge
    cases cl
    · obtain ⟨o, o1, o2, o3⟩ := copy_spec ha hd
      refine ⟨o, by simpa using o1, o2, ?_, fun i _ _ => ?_⟩
      · unfold supportsRange at sa ⊢; rw [o3]; exact sa
      · unfold Vec.value; rw [o3]
    · obtain ⟨o, o1, o2, o3⟩ := mergeDuals_spec ha hb hd na0 nb0 hact (inact a ha na0 sa) (inact b hb nb0 sb)
      refine ⟨o, by simpa using o1, o2, ?_, fun i _ hne => by rw [o3 i, if_pos hne]⟩
      rw [C30_supports _ _ o2.1, o2.2]
      intro i hi
      have h1 := (C30_supports _ _ ha.1).mp sa i (by rw [ha.2]; exact hi)
      have h2 := (C30_supports _ _ hb.1).mp sb i (by rw [hb.2]; exact hi)
      rw [o3 i]
      split_ifs
      · exact h1
      · exact h2
  have actV : ∀ i < n, w.varState i ≠ .inactive → i ∈ (l.filter fun e => !e.constraint).map WEntry.index := by
    intro i hi hst
    have := (h.var_inactive hi).not.mp hst
    push Not at this
    obtain ⟨e, he, h1, h2⟩ := this
    exact List.mem_map.mpr ⟨e, List.mem_filter.mpr ⟨he, by simp [h1]⟩, h2⟩
  have actC : ∀ i < m, w.consState i ≠ .inactive → i ∈ (l.filter fun e => e.constraint).map WEntry.index := by
    intro i hi hst
    have := (h.cons_inactive hi).not.mp hst
    push Not at this
    obtain ⟨e, he, h1, h2⟩ := this
    exact List.mem_map.mpr ⟨e, List.mem_filter.mpr ⟨he, by simp [h1]⟩, h2⟩
  obtain ⟨v, v1, v2, v3, v4⟩ := gen n w.actVars w.varState r.1.1 lpV outV (decide (r.1.2 > 0)) _ r2 hlv hov z1 nlv r8 slv
    (by rw [List.length_map, ← List.countP_eq_length_filter, h.vars]) actV
  obtain ⟨c, c1, c2, c3, c4⟩ := gen m w.actCons w.consState r.2.1 lpC outC (decide (r.2.2 > 0)) _ r3 hlc hoc z2 nlc r9 slc
    (by rw [List.length_map, ← List.countP_eq_length_filter, h.cons]) actC
  exact ⟨r, v, c, r1, by unfold mixedDuals; rw [v1, c1]; rfl, v2, c2, v3, c3, v4, c4⟩

/-- Witness: the combined estimate fails an assertion if the least-squares solution stores a
zero for an equality entry while another multiplier is clipped.  (For problems with bounds
only the solution is copied from the user's gradient, which may store zeros.)  Two fixed/
bounded variables: variable 0 fixed (`both`) with stored gradient entry `0`, variable 1 at
its upper bound with gradient `1`, hence solution entry `-1`. -/
theorem C31_stored_zero_violated :
    ∃ (w : WSet) (r : LsqDuals ℚ), WRep 2 0 w [⟨false, 0, .both⟩, ⟨false, 1, .upper⟩] ∧
      lsqDuals w (⟨2, 2, [(0, 0), (1, -1)]⟩ : Vec ℚ) ⟨0, 0, []⟩ ⟨2, 0, []⟩ = some r ∧
      mixedDuals w r ⟨2, 0, []⟩ ⟨0, 0, []⟩ ⟨2, 0, []⟩ ⟨0, 0, []⟩ = none := by
  obtain ⟨w1, a1, a2⟩ := wrep_addVar (wrep_create 2 0 fun _ => 0) (i := 0) (st := .both) (by omega) (by simp)
    (by simp) (by decide)
  obtain ⟨w2, b1, b2⟩ := wrep_addVar a2 (i := 1) (st := .upper) (by omega) (by simp) (by simp) (by decide)
  have hc0 := b2.content 0 (by simp)
  have hc1 := b2.content 1 (by simp)
  simp at hc0 hc1
  have hs0 := (b2.vidx 0 (by simp) rfl).2
  have hs1 := (b2.vidx 1 (by simp) rfl).2
  simp at hs0 hs1
  refine ⟨w2, ((⟨2, 2, [(0, 0)]⟩, 1), (⟨0, 2, []⟩, 0)), by simpa using b2, ?_, ?_⟩
  · unfold lsqDuals
    simp only [List.foldlM_cons, List.foldlM_nil, lsqDualBody, hc0, hc1, b2.nv, hs0, hs1, lsqPush,
      show (0 : Nat) < 2 from by omega, show (1 : Nat) < 2 from by omega, if_true]
    decide +kernel
  · unfold mixedDuals copyOrMerge mergeDuals
    rw [if_neg (by decide), if_pos (by decide)]
    have : merge2 ([(0, (0 : ℚ))] : List (Nat × ℚ)) ([] : List (Nat × ℚ)) = [(0, some 0, none)] := by
      have hs := merge2_srt (x := [(0, (0 : ℚ))]) (y := ([] : List (Nat × ℚ))) (by simp [Srt]) Srt.nil
      refine srt_ext hs (by simp [Srt]) fun k => ?_
      rw [merge2_at (by simp [Srt]) Srt.nil]
      by_cases hk : 0 = k <;> simp [at?, comb2, hk]
    rw [this]
    rfl

/-- one variable at its lower bound, one constraint at its upper bound; the solution has the
wrong sign for the variable -/
example : ∃ (w : WSet) (r : LsqDuals ℚ), lsqDuals w (⟨2, 2, [(0, 3), (1, 5)]⟩ : Vec ℚ) ⟨1, 0, []⟩ ⟨2, 0, []⟩ = some r ∧
    r.1.2 = 1 ∧ r.2.2 = 0 ∧ r.1.1.value 1 = 0 ∧ r.2.1.value 0 = 5 := by
  obtain ⟨w1, a1, a2⟩ := wrep_addVar (wrep_create 2 1 fun _ => 0) (i := 1) (st := .lower) (by omega) (by simp)
    (by simp) (by decide)
  obtain ⟨w2, b1, b2⟩ := wrep_addCons a2 (i := 0) (st := .upper) (by omega) (by simp) (by decide)
  have hc0 := b2.content 0 (by simp)
  have hc1 := b2.content 1 (by simp)
  simp at hc0 hc1
  have hs0 := (b2.vidx 0 (by simp) rfl)
  have hs1 := (b2.cidx 1 (by simp) rfl)
  simp at hs0 hs1
  have hsz : w2.size = 2 := b2.size
  obtain ⟨r, r1, _, _, r2, r3, r4, r5, _⟩ := C31_lsq b2 (by
    intro k k' h1 h2
    have : k = 0 ∧ k' = 1 := by omega
    rw [this.1, this.2, hc0, hc1]; omega) (sol := (⟨2, 2, [(0, 3), (1, 5)]⟩ : Vec ℚ)) (cd := ⟨1, 0, []⟩) (vd := ⟨2, 0, []⟩)
    ⟨⟨by simp [Srt], by simp, by simp⟩, hsz.symm⟩ rfl rfl
  refine ⟨w2, r, r1, ?_, ?_, ?_, ?_⟩
  · rw [r4]; simp [clippedOf, WSet.varSel, hc0, hc1, b2.nv, hs0.2, lsqClips]
  · rw [r5]; simp [clippedOf, WSet.consSel, hc0, hc1, b2.nv, hs1.2, lsqClips]
  · rw [r2 1 (by omega), hs0.1]; simp [hs0.2, admissible, Vec.value, valAt, at?]
  · rw [r3 0 (by omega), hs1.1]; simp [hs1.2, admissible, Vec.value, valAt, at?]

end Sleqp
