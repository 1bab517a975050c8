import Verif.Lemmas.WorkRhs
import Verif.Spec.AugJac
import Verif.Props.AugJac
import Verif.Props.MaxStep
import Verif.Props.Clip
import Verif.Props.Vec

/-! C68: second-order correction and trial points. -/

namespace Sleqp
open Finset
variable {K : Type*} [Field K] [LinearOrder K]

/-- value pushed for an entry, if any -/
def socPick (eps : K) (st : ActiveState) (lo up : K) : Option K :=
  match st with
  | .inactive => none
  | .upper => if isZero up eps then none else some up
  | .lower => if isZero lo eps then none else some lo
  | .both => some up

theorem socPush_eq {eps : K} {st : ActiveState} {pos : Option Nat} {lo up : K} (hp : st ≠ .inactive → pos.isSome)
    (hb : st = .both → isEq lo up eps = true) (r : Vec K) :
    socPush eps st pos lo up r = r.pushAll ((pos.bind fun k => (socPick eps st lo up).map fun v => (k, v)).toList) := by
  have hn : ∀ o : Option Nat, (o.bind fun k => (none : Option K).map fun v => (k, v)).toList = ([] : List (Nat × K)) := by
    intro o; cases o <;> rfl
  cases st with
  | inactive => unfold socPush socPick; rw [hn]; rfl
  | lower =>
    obtain ⟨k, rfl⟩ := Option.isSome_iff_exists.mp (hp (by simp))
    by_cases hz : isZero lo eps = true
    · simp only [socPush, socPick, if_pos hz]; rw [hn]; rfl
    · simp only [socPush, socPick, if_neg hz]; rw [pushAt_some]; rfl
  | upper =>
    obtain ⟨k, rfl⟩ := Option.isSome_iff_exists.mp (hp (by simp))
    by_cases hz : isZero up eps = true
    · simp only [socPush, socPick, if_pos hz]; rw [hn]; rfl
    · simp only [socPush, socPick, if_neg hz]; rw [pushAt_some]; rfl
  | both =>
    obtain ⟨k, rfl⟩ := Option.isSome_iff_exists.mp (hp (by simp))
    simp only [socPush, socPick, if_pos (hb rfl)]; rw [pushAt_some]; rfl

/-- the loop with the cursors pushes the picked values -/
theorem soc_fold (eps : K) {lo up : List (Nat × K)} (hlo : Srt lo) (hup : Srt up) (count : Nat) {state : Nat → ActiveState}
    {pos : Nat → Option Nat} (hp : ∀ i < count, state i ≠ .inactive → (pos i).isSome)
    (hb : ∀ i < count, state i = .both → isEq (valAt lo i) (valAt up i) eps = true) {r r' : Vec K}
    (h : r.pushAll ((List.range count).filterMap fun i =>
      (pos i).bind fun k => (socPick eps (state i) (valAt lo i) (valAt up i)).map fun v => (k, v)) = some r') :
    ((List.range count).foldlM (socBody eps state pos) (lo, up, r)).map (fun s => s.2.2) = some r' := by
  set g : Nat → Option (Nat × K) := fun i =>
    (pos i).bind fun k => (socPick eps (state i) (valAt lo i) (valAt up i)).map fun v => (k, v) with hg
  obtain ⟨s, h1, h2, h3, h4⟩ := foldlM_range_inv (P := fun i (s : List (Nat × K) × List (Nat × K) × Vec K) =>
      (∀ j, i ≤ j → cursorTo j s.1 = cursorTo j lo) ∧ (∀ j, i ≤ j → cursorTo j s.2.1 = cursorTo j up) ∧
        r.pushAll ((List.range i).filterMap g) = some s.2.2)
    (f := socBody eps state pos) count (s0 := (lo, up, r)) ⟨fun _ _ => rfl, fun _ _ => rfl, rfl⟩ (by
      rintro i hi ⟨a, b, t⟩ ⟨p1, p2, p3⟩
      simp only at p1 p2 p3
      have e1 : cursorVal i (cursorTo i a) = valAt lo i := by rw [p1 i le_rfl, cursorVal_cursorTo hlo]
      have e2 : cursorVal i (cursorTo i b) = valAt up i := by rw [p2 i le_rfl, cursorVal_cursorTo hup]
      have e3 : (List.range (i + 1)).filterMap g = (List.range i).filterMap g ++ (g i).toList := by
        rw [List.range_succ, List.filterMap_append, List.filterMap_cons, List.filterMap_nil]
        cases g i <;> rfl
      have e4 : ∃ t', r.pushAll ((List.range (i + 1)).filterMap g) = some t' := by
        obtain ⟨d, rfl⟩ : ∃ d, count = i + 1 + d := ⟨count - (i + 1), by omega⟩
        rw [List.range_add, List.filterMap_append, pushAll_append] at h
        obtain ⟨t', ht', -⟩ := Option.bind_eq_some_iff.mp h
        exact ⟨t', ht'⟩
      obtain ⟨t', ht'⟩ := e4
      have e5 : t.pushAll (g i).toList = some t' := by
        rw [e3, pushAll_append, p3, Option.bind_some] at ht'; exact ht'
      refine ⟨(cursorTo i a, cursorTo i b, t'), ?_, ?_, ?_, ht'⟩
      · unfold socBody
        simp only
        rw [e1, e2, socPush_eq (hp i hi) (hb i hi)]
        exact congrArg (Option.map _) e5
      · intro j hj
        simp only
        rw [p1 i le_rfl, cursorTo_cursorTo (by omega)]
      · intro j hj
        simp only
        rw [p2 i le_rfl, cursorTo_cursorTo (by omega)])
  rw [h1, Option.map_some]
  rw [h] at h4
  exact h4.symm

variable [IsStrictOrderedRing K]

/-- difference to a bound as computed -/
theorem diff_spec {v b : Vec K} (hv : v.WF) (hb : b.WF) (hd : v.dim = b.dim) {z : K} (hz : 0 ≤ z) (d0 : Vec K) :
    ∃ r, v.addScaled b (-1) 1 z d0 = some r ∧ r.WF ∧ r.dim = v.dim ∧ ∀ i, r.value i = dropSmall z (b.value i - v.value i) := by
  obtain ⟨r, h1, h2, h3, h4⟩ := C03_add_scaled v b d0 (-1) 1 z hv hb hd hz
  refine ⟨r, h1, h2, h3, fun i => ?_⟩
  have e : -1 * v.value i + 1 * b.value i = b.value i - v.value i := by ring
  rw [h4 i, e]; rfl

theorem socPick_drop {eps z lo up : K} (st : ActiveState) (hst : st ≠ .inactive) (hb : st = .both → lo = up) :
    (socPick eps st (dropSmall z lo) (dropSmall z up)).getD 0 =
      dropSmall (if st = .both then z else max eps z) (if st = .lower then lo else up) := by
  have key : ∀ v : K, (if isZero (dropSmall z v) eps = true then none else some (dropSmall z v)).getD 0 = dropSmall (max eps z) v := by
    intro v
    unfold dropSmall
    by_cases h1 : |v| ≤ z
    · rw [if_pos h1, if_pos (le_max_of_le_right h1)]
      split <;> rfl
    · rw [if_neg h1]
      by_cases h2 : |v| ≤ eps
      · rw [if_pos (isZero_iff.mpr h2), if_pos (le_max_of_le_left h2)]; rfl
      · rw [if_neg (by rw [isZero_iff]; exact h2), if_neg (by rw [le_max_iff]; tauto)]; rfl
  cases st with
  | inactive => exact absurd rfl hst
  | lower => simpa [socPick] using key lo
  | upper => simpa [socPick] using key up
  | both => simp [socPick]

/-- entries and their indices -/
theorem WRep.entry {n m : Nat} {w : WSet} {l : List WEntry} (h : WRep n m w l) {k : Nat} (hk : k < l.length) :
    w.content k < n + m ∧
    ((w.content k < n ∧ l[k].constraint = false ∧ l[k].index = w.content k ∧ w.varState (w.content k) = l[k].state) ∨
     (n ≤ w.content k ∧ l[k].constraint = true ∧ l[k].index = w.content k - n ∧ w.consState (w.content k - n) = l[k].state)) := by
  have hc := h.content k hk
  have hok := (h.ok l[k] (List.getElem_mem hk)).1
  rcases hb : l[k].constraint with _ | _
  · rw [hb] at hc hok
    simp only [Bool.false_eq_true, if_false] at hc hok
    refine ⟨by omega, Or.inl ⟨by omega, rfl, hc.symm, ?_⟩⟩
    rw [hc]; exact (h.vidx k hk hb).2
  · rw [hb] at hc hok
    simp only [if_true] at hc hok
    refine ⟨by omega, Or.inr ⟨by omega, rfl, by omega, ?_⟩⟩
    have e : w.content k - n = l[k].index := by omega
    rw [e]; exact (h.cidx k hk hb).2

/-- the bounds agree where the state says so -/
theorem Tight.states {n m : Nat} {w : WSet} {l : List WEntry} (h : WRep n m w l) {p : Bounds K} (ht : Tight p l) :
    (∀ j < n, w.varState j = .both → p.varsLb.value j = p.varsUb.value j) ∧
    (∀ i < m, w.consState i = .both → p.consLb.value i = p.consUb.value i) := by
  constructor
  · intro j hj hs
    by_cases hex : ∃ e ∈ l, e.constraint = false ∧ e.index = j
    · obtain ⟨e, he, h1, rfl⟩ := hex
      obtain ⟨k, hk, rfl⟩ := List.getElem_of_mem he
      have h2 := (h.vidx k hk h1).2
      have := ht _ he (by rw [← h2, hs])
      rwa [h1] at this
    · have := (h.vout j hj (fun e he hh => hex ⟨e, he, hh⟩)).2
      rw [hs] at this; exact absurd this (by simp)
  · intro j hj hs
    by_cases hex : ∃ e ∈ l, e.constraint = true ∧ e.index = j
    · obtain ⟨e, he, h1, rfl⟩ := hex
      obtain ⟨k, hk, rfl⟩ := List.getElem_of_mem he
      have h2 := (h.cidx k hk h1).2
      have := ht _ he (by rw [← h2, hs])
      rwa [h1] at this
    · have := (h.cout j hj (fun e he hh => hex ⟨e, he, hh⟩)).2
      rw [hs] at this; exact absurd this (by simp)

theorem gap_eq (e : WEntry) (p : Bounds K) (x c : Nat → K) : e.gap p x c =
    if e.constraint then (if e.state = .lower then p.consLb.value e.index - c e.index else p.consUb.value e.index - c e.index)
    else (if e.state = .lower then p.varsLb.value e.index - x e.index else p.varsUb.value e.index - x e.index) := by
  unfold WEntry.gap
  rcases e.constraint with _ | _ <;> simp

omit [IsStrictOrderedRing K] in
theorem fresh_storage (v : Vec K) (d : Nat) : (((v.clear).resize d).reserve d).ents = [] ∧
    (((v.clear).resize d).reserve d).dim = d ∧ d ≤ (((v.clear).resize d).reserve d).cap := by
  unfold Vec.reserve Vec.resize Vec.clear
  split <;> exact ⟨rfl, rfl, le_max_right _ _⟩

/-- C68: the right-hand side of the correction holds, for every active entry, the distance from
its value at the trial point to the bound it is active at; distances up to the tolerances are
zero. No assertion fails. -/
theorem C68_rhs {n m : Nat} {w : WSet} {l : List WEntry} (h : WRep n m w l) (ho : w.Ordered) {p : Bounds K} (hp : p.Sized n m)
    (ht : Tight p l) {x c : Vec K} (hx : x.WF) (hxd : x.dim = n) (hc : c.WF) (hcd : c.dim = m) {eps z : K} (he : 0 ≤ eps)
    (hz : 0 ≤ z) (d0 rhs : Vec K) :
    ∃ r, socRhs eps z w p x c d0 rhs = some r ∧ r.WF ∧ r.dim = l.length ∧
      ∀ k (hk : k < l.length), r.value k =
        dropSmall (if l[k].state = .both then z else max eps z) (l[k].gap p x.value c.value) := by
  have hsz := h.size
  obtain ⟨-, -, -, q4, q5, -⟩ := C30_queries h
  obtain ⟨t1, t2⟩ := ht.states h
  obtain ⟨lo, a1, a2, a3, a4⟩ := diff_spec hx hp.wvl (hxd.trans hp.dvl.symm) hz d0
  obtain ⟨up, b1, b2, b3, b4⟩ := diff_spec hx hp.wvu (hxd.trans hp.dvu.symm) hz d0
  obtain ⟨lo', c1, c2, c3, c4⟩ := diff_spec hc hp.wcl (hcd.trans hp.dcl.symm) hz d0
  obtain ⟨up', d1, d2, d3, d4⟩ := diff_spec hc hp.wcu (hcd.trans hp.dcu.symm) hz d0
  set fv : Nat → Option K := fun i => socPick eps (w.varState i) (valAt lo.ents i) (valAt up.ents i) with hfv
  set fc : Nat → Option K := fun i => socPick eps (w.consState i) (valAt lo'.ents i) (valAt up'.ents i) with hfc
  set r0 := ((rhs.clear).resize w.size).reserve w.size with hr0
  obtain ⟨g1, g2, g3⟩ := fresh_storage rhs w.size
  rw [← hr0, hsz] at g2 g3
  rw [← hr0] at g1
  have hcs : (List.range n ++ (List.range m).map fun i => n + i) = List.range (n + m) := List.range_add.symm
  obtain ⟨r, e1, e2, e3, e4⟩ := rhs_pushed h ho (fun c => if c < n then fv c else fc (c - n)) (cs := List.range (n + m))
    List.pairwise_lt_range (fun c hc => List.mem_range.mp hc) g1 g2 g3
  rw [← hcs, rhsList_parts h fv fc (fun c hc => List.mem_range.mp hc), pushAll_append] at e1
  obtain ⟨r1, e5, e6⟩ := Option.bind_eq_some_iff.mp e1
  refine ⟨r, ?_, e2, e3, ?_⟩
  · unfold socRhs socAdd
    simp only
    rw [a1, b1, c1, d1, h.nv, h.nc]
    simp only [Option.bind_some]
    rw [← hr0, soc_fold eps a2.srt b2.srt n (fun i hi hs => ?_) (fun i hi hs => ?_) e5, Option.bind_some,
      soc_fold eps c2.srt d2.srt m (fun i hi hs => ?_) (fun i hi hs => ?_) e6]
    · rw [Option.isSome_iff_ne_none]; exact fun hh => hs ((q5 i hi).mp hh)
    · have e7 : valAt lo'.ents i = valAt up'.ents i := by
        show lo'.value i = up'.value i
        rw [c4, d4, t2 i hi hs]
      rw [e7]; exact (C01_symmetry _ (0 : K) eps he).1
    · rw [Option.isSome_iff_ne_none]; exact fun hh => hs ((q4 i hi).mp hh)
    · have e7 : valAt lo.ents i = valAt up.ents i := by
        show lo.value i = up.value i
        rw [a4, b4, t1 i hi hs]
      rw [e7]; exact (C01_symmetry _ (0 : K) eps he).1
  · intro k hk
    obtain ⟨f1, f2⟩ := h.entry hk
    have hact := (h.ok l[k] (List.getElem_mem hk)).2
    rw [e4 k hk, if_pos (List.mem_range.mpr f1), gap_eq]
    rcases f2 with ⟨f3, f4, f5, f6⟩ | ⟨f3, f4, f5, f6⟩
    · simp only [if_pos f3, f4, Bool.false_eq_true, if_false, f5]
      rw [hfv]; simp only
      have v1 : valAt lo.ents (w.content k) = _ := a4 (w.content k)
      have v2 : valAt up.ents (w.content k) = _ := b4 (w.content k)
      rw [v1, v2, f6]
      exact socPick_drop _ hact fun hb => by rw [t1 _ f3 (f6.trans hb)]
    · have f7 : ¬ w.content k < n := by omega
      simp only [if_neg f7, f4, if_true, f5]
      rw [hfc]; simp only
      have v1 : valAt lo'.ents (w.content k - n) = _ := c4 (w.content k - n)
      have v2 : valAt up'.ents (w.content k - n) = _ := d4 (w.content k - n)
      rw [v1, v2, f6]
      exact socPick_drop _ hact fun hb => by rw [t2 _ (by omega) (f6.trans hb)]

/-- C68: the correction is the shortest vector that moves every active entry, in its
linearisation, from its value at the trial point to the bound it is active at. -/
theorem C68_correction {n m : Nat} {w : WSet} {l : List WEntry} (h : WRep n m w l) (ho : w.Ordered) {p : Bounds K} (hp : p.Sized n m)
    (ht : Tight p l) {x c : Vec K} (hx : x.WF) (hxd : x.dim = n) (hc : c.WF) (hcd : c.dim = m) {eps z : K} (he : 0 ≤ eps)
    (hz : 0 ≤ z) (d0 rhs : Vec K) {solve : Vec K → Option (Vec K)} {J : Nat → Nat → K} (hS : MinNormService solve n l J) :
    ∃ d, socCorrection solve eps z w p x c d0 rhs = some d ∧ d.WF ∧ d.dim = n ∧
      (∀ k (hk : k < l.length), ∑ j ∈ range n, l[k].gradient J j * d.value j =
        dropSmall (if l[k].state = .both then z else max eps z) (l[k].gap p x.value c.value)) ∧
      ∀ y : Nat → K, (∀ k (hk : k < l.length), ∑ j ∈ range n, l[k].gradient J j * y j =
        dropSmall (if l[k].state = .both then z else max eps z) (l[k].gap p x.value c.value)) →
        ∑ j ∈ range n, d.value j ^ 2 ≤ ∑ j ∈ range n, y j ^ 2 := by
  obtain ⟨r, r1, r2, r3, r4⟩ := C68_rhs h ho hp ht hx hxd hc hcd he hz d0 rhs
  obtain ⟨d, d1, d2, d3, d4, d5⟩ := hS r r2 r3
  have hrow : ∀ k (hk : k < l.length) j, workMat l J k j = l[k].gradient J j := fun k hk j => by
    unfold workMat; rw [List.getElem?_eq_getElem hk]; rfl
  refine ⟨d, ?_, d2, d3, ?_, ?_⟩
  · unfold socCorrection; rw [r1, Option.bind_some, d1]
  · intro k hk
    rw [← r4 k hk, ← d4 k hk]
    exact Finset.sum_congr rfl fun j _ => by rw [hrow k hk]
  · intro y hy
    refine d5 y fun k hk => ?_
    rw [r4 k hk, ← hy k hk]
    exact Finset.sum_congr rfl fun j _ => by rw [hrow k hk]

/-- C68: the corrected step is the trial step plus the correction, shortened to the longest length
(at most one) that does not leave the variable bounds. -/
theorem C68_step {n m : Nat} {w : WSet} {l : List WEntry} (h : WRep n m w l) (ho : w.Ordered) {p : Bounds K} (hp : p.Sized n m)
    (ht : Tight p l) {x c : Vec K} (hx : x.WF) (hxd : x.dim = n) (hc : c.WF) (hcd : c.dim = m) {eps z : K} (he : 0 ≤ eps)
    (hz : 0 ≤ z) (hbox : ∀ j, p.varsLb.value j ≤ x.value j ∧ x.value j ≤ p.varsUb.value j)
    (d0 rhs : Vec K) {step : Vec K} (hs : step.WF) (hsd : step.dim = n) (out : Vec K)
    {solve : Vec K → Option (Vec K)} {J : Nat → Nat → K} (hS : MinNormService solve n l J) :
    ∃ s d a, socStep solve eps z w p x c d0 rhs step out = some s ∧ s.WF ∧ s.dim = n ∧
      socCorrection solve eps z w p x c d0 rhs = some d ∧ 0 < a ∧ a ≤ 1 ∧
      (∀ j, s.value j = dropSmall z (step.value j + a * d.value j)) ∧
      (∀ t, a < t → t ≤ 1 → ∃ j < n, x.value j + t * d.value j < p.varsLb.value j ∨ p.varsUb.value j < x.value j + t * d.value j) := by
  obtain ⟨d, d1, d2, d3, -, -⟩ := C68_correction h ho hp ht hx hxd hc hcd he hz d0 rhs hS
  obtain ⟨a, a1, a2, a3, a4, -⟩ := C47_length_partial (init := (1 : K)) hx d2 hp.wvl hp.wvu (d3.trans hxd.symm)
    (hp.dvl.trans hxd.symm) (hp.dvu.trans hxd.symm) zero_lt_one hbox
  obtain ⟨s, s1, s2, s3, s4⟩ := C03_add_scaled step d out 1 a z hs d2 (hsd.trans d3.symm) hz
  refine ⟨s, d, a, ?_, s2, s3.trans hsd, d1, a2, a3, fun j => ?_, ?_⟩
  · unfold socStep; rw [d1, Option.bind_some, a1, Option.bind_some, s1]
  · rw [s4 j, one_mul]; rfl
  · rw [hxd] at a4; exact a4

/-- the bounds of the variables are consistent, and none of them is so small that it cannot be told
from zero -/
def Bounds.Clear (n : Nat) (p : Bounds K) (z : K) : Prop :=
  ∀ j < n, p.varsLb.value j ≤ p.varsUb.value j ∧ (p.varsLb.value j ≤ 0 ∨ z < p.varsLb.value j) ∧
    (0 ≤ p.varsUb.value j ∨ p.varsUb.value j < -z)

/-- C68: whatever the step, the trial point lies within the variable bounds; it is the current
point plus the step, projected (up to the tolerance). -/
theorem C68_trial_point {n m : Nat} {p : Bounds K} (hp : p.Sized n m) {z : K} (hz : 0 ≤ z) (hcl : p.Clear n z) {x step : Vec K}
    (hx : x.WF) (hxd : x.dim = n) (hs : step.WF) (hsd : step.dim = n) (tmp : Vec K) {out : Vec K} (hod : out.dim = n) :
    ∃ t, trialFromStep z p x step tmp out = some t ∧ t.WF ∧ t.dim = n ∧
      (∀ j < n, p.varsLb.value j ≤ t.value j ∧ t.value j ≤ p.varsUb.value j) ∧
      ∀ j < n, t.value j = dropSmall z (min (max (dropSmall z (x.value j + step.value j)) (p.varsLb.value j)) (p.varsUb.value j)) := by
  obtain ⟨y, y1, y2, y3, y4⟩ := C03_add_scaled x step tmp 1 1 z hx hs (hxd.trans hsd.symm) hz
  have hyd : y.dim = n := y3.trans hxd
  obtain ⟨t, t1, t2, t3, t4, t5⟩ := C05_clip_tolerance_partial y p.varsLb p.varsUb out hz y2 hp.wvl hp.wvu (hp.dvl.trans hyd.symm)
    (hp.dvu.trans hyd.symm) (hod.trans hyd.symm) (fun i hi => (hcl i (by omega)).1) (fun i hi => (hcl i (by omega)).2.1)
    (fun i hi => (hcl i (by omega)).2.2)
  refine ⟨t, ?_, t2, t3.trans hyd, fun j hj => t5 j (by omega), fun j hj => ?_⟩
  · unfold trialFromStep; rw [y1, Option.bind_some, t1]
  · have e : y.value j = dropSmall z (x.value j + step.value j) := by rw [y4 j, one_mul, one_mul]; rfl
    rw [t4 j (by omega), e]; rfl

/-- C68: with a function evaluated exactly, the corrected trial point replaces the trial point, is
never rejected, and lies within the bounds. -/
theorem C68_corrected_point {n m : Nat} {w : WSet} {l : List WEntry} (h : WRep n m w l) (ho : w.Ordered) {p : Bounds K}
    (hp : p.Sized n m) (ht : Tight p l) {cur x c : Vec K} (hcur : cur.WF) (hcurd : cur.dim = n) (hx : x.WF) (hxd : x.dim = n)
    (hc : c.WF) (hcd : c.dim = m) {eps z : K} (he : 0 ≤ eps) (hz : 0 ≤ z) (hcl : p.Clear n z)
    (hbox : ∀ j, p.varsLb.value j ≤ x.value j ∧ x.value j ≤ p.varsUb.value j)
    (d0 rhs : Vec K) {step : Vec K} (hs : step.WF) (hsd : step.dim = n) (out tmp : Vec K)
    {solve : Vec K → Option (Vec K)} {J : Nat → Nat → K} (hS : MinNormService solve n l J) :
    ∃ t s d a, trialSocDet solve eps z w p cur x c d0 rhs step out tmp = some (t, false) ∧ t.WF ∧ t.dim = n ∧
      (∀ j < n, p.varsLb.value j ≤ t.value j ∧ t.value j ≤ p.varsUb.value j) ∧
      socStep solve eps z w p x c d0 rhs step out = some s ∧ socCorrection solve eps z w p x c d0 rhs = some d ∧
      0 < a ∧ a ≤ 1 ∧ (∀ j, s.value j = dropSmall z (step.value j + a * d.value j)) ∧
      ∀ j < n, t.value j = dropSmall z (min (max (dropSmall z (cur.value j + s.value j)) (p.varsLb.value j)) (p.varsUb.value j)) := by
  obtain ⟨s, d, a, s1, s2, s3, s4, s5, s6, s7, -⟩ := C68_step h ho hp ht hx hxd hc hcd he hz hbox d0 rhs hs hsd out hS
  obtain ⟨t, t1, t2, t3, t4, t5⟩ := C68_trial_point hp hz hcl hcur hcurd s2 s3 tmp (out := x) hxd
  refine ⟨t, s, d, a, ?_, t2, t3, t4, s1, s4, s5, s6, s7, t5⟩
  unfold trialSocDet; rw [s1, Option.bind_some, t1]; rfl

/-- C68: if the whole correction fits into the bounds and nothing is dropped, the corrected point
differs from the trial point by the correction: every active entry is, in its linearisation, at
its bound. -/
theorem C68_linearised {n m : Nat} {w : WSet} {l : List WEntry} (h : WRep n m w l) (ho : w.Ordered) {p : Bounds K}
    (hp : p.Sized n m) (ht : Tight p l) {cur x c : Vec K} (hcur : cur.WF) (hcurd : cur.dim = n) (hx : x.WF) (hxd : x.dim = n)
    (hc : c.WF) (hcd : c.dim = m) (hbox : ∀ j, p.varsLb.value j ≤ x.value j ∧ x.value j ≤ p.varsUb.value j)
    (d0 rhs : Vec K) {step : Vec K} (hs : step.WF) (hsd : step.dim = n) (out tmp : Vec K)
    (hsum : ∀ j < n, x.value j = cur.value j + step.value j)
    {solve : Vec K → Option (Vec K)} {J : Nat → Nat → K} (hS : MinNormService solve n l J)
    (hfit : ∀ d, socCorrection solve 0 0 w p x c d0 rhs = some d → ∀ j < n,
      p.varsLb.value j ≤ x.value j + d.value j ∧ x.value j + d.value j ≤ p.varsUb.value j) :
    ∃ t, trialSocDet solve 0 0 w p cur x c d0 rhs step out tmp = some (t, false) ∧ t.dim = n ∧
      (∀ j < n, p.varsLb.value j ≤ t.value j ∧ t.value j ≤ p.varsUb.value j) ∧
      ∀ k (hk : k < l.length), ∑ j ∈ range n, l[k].gradient J j * (t.value j - x.value j) = l[k].gap p x.value c.value := by
  have hd0 : ∀ v : K, dropSmall 0 v = v := fun v => by
    unfold dropSmall; split
    · rename_i hv; exact (abs_nonpos_iff.mp hv).symm
    · rfl
  have hcl : p.Clear n 0 := fun j hj => by
    refine ⟨(hbox j).1.trans (hbox j).2, le_or_gt _ _, ?_⟩
    rw [neg_zero]; exact le_or_gt _ _
  obtain ⟨t, s, d, a, t1, t2, t3, t4, s1, s2, s3, s4, s5, t5⟩ := C68_corrected_point h ho hp ht hcur hcurd hx hxd hc hcd le_rfl
    le_rfl hcl hbox d0 rhs hs hsd out tmp hS
  obtain ⟨s', d', a', b1, -, -, b2, -, b6, b3, b4⟩ := C68_step h ho hp ht hx hxd hc hcd le_rfl le_rfl hbox d0 rhs hs hsd out hS
  obtain ⟨d'', c1, -, -, c2, -⟩ := C68_correction h ho hp ht hx hxd hc hcd le_rfl (le_refl (0 : K)) d0 rhs hS
  rw [s2] at b2 c1
  obtain rfl := Option.some.inj b2
  obtain rfl := Option.some.inj c1
  rw [s1] at b1
  obtain rfl := Option.some.inj b1
  have ha' : a' = 1 := by
    rcases lt_or_eq_of_le b6 with hlt | heq
    · obtain ⟨j, hj, hbad⟩ := b4 1 hlt le_rfl
      obtain ⟨f1, f2⟩ := hfit d s2 j hj
      rw [one_mul] at hbad
      rcases hbad with hb | hb
      · exact absurd f1 (not_le.mpr hb)
      · exact absurd f2 (not_le.mpr hb)
    · exact heq
  refine ⟨t, t1, t3, t4, fun k hk => ?_⟩
  have hm : (if l[k].state = .both then (0 : K) else max 0 0) = 0 := by rw [max_self, ite_self]
  have hk' := c2 k hk
  rw [hm, hd0] at hk'
  rw [← hk']
  refine Finset.sum_congr rfl fun j hj => ?_
  have hj := Finset.mem_range.mp hj
  obtain ⟨f1, f2⟩ := hfit d s2 j hj
  have e1 : cur.value j + s.value j = x.value j + d.value j := by
    rw [b3 j, hd0, ha', one_mul, hsum j hj, add_assoc]
  rw [t5 j hj, hd0, hd0, e1, max_eq_left f1, min_eq_left f2, add_sub_cancel_left]

/-! ### Functions evaluated with errors -/

/-- one variable within `[-10, 10]`, one constraint `≤ 0` -/
def exSocBounds : Bounds ℚ := ⟨⟨1, 1, [(0, -10)]⟩, ⟨1, 1, [(0, 10)]⟩, ⟨1, 1, [(0, -10)]⟩, ⟨1, 1, []⟩⟩

theorem exSocWf {v : Vec ℚ} (h : v.isValid = true) : v.WF := (C02_isValid_iff v).mp h

theorem exSocSized : exSocBounds.Sized 1 1 :=
  ⟨exSocWf (by decide +kernel), exSocWf (by decide +kernel), exSocWf (by decide +kernel), exSocWf (by decide +kernel), rfl, rfl, rfl, rfl⟩

/-- the Jacobian is 1: every right-hand side is its own solution -/
theorem exSocService : MinNormService (K := K) some 1 [⟨true, 0, .upper⟩] fun _ _ => 1 := by
  intro rhs hr hd
  refine ⟨rhs, rfl, hr, hd, ?_, ?_⟩
  · intro k hk
    obtain rfl : k = 0 := by simp at hk; omega
    simp [workMat, WEntry.gradient]
  · intro y hy
    have := hy 0 (by simp)
    simp [workMat, WEntry.gradient] at this
    simp [this]

/-- the working set of the constraint -/
theorem exSocSet : ∃ w, (WSet.create 1 1 fun _ => 0).addCons 0 .upper = some w ∧ WRep 1 1 w [⟨true, 0, .upper⟩] ∧ w.Ordered := by
  obtain ⟨w, b1, b2⟩ := wrep_addCons (wrep_create 1 1 fun _ => 0) (i := 0) (st := .upper) (by omega) (by simp) (by decide)
  refine ⟨w, b1, b2, ?_⟩
  have hsz : w.size = 1 := b2.size
  intro k k' h1 h2
  omega

/-- C68, for functions evaluated with errors (dynamic functions): the corrected step is rejected exactly if the error of the function
exceeds two fifths of the accepted ratio times the reduction the model predicts for the corrected step. Missing: that the trial point is
the corrected one, see `C68_dynamic_violated`. -/
theorem C68_dynamic_partial (minNorm : Vec K → Option (Vec K)) (eps zeroEps : K) (w : WSet) (p : Bounds K)
    (trial cons d0 rhs step out : Vec K) (model : Vec K → K) (merit err accepted : K) {s : Vec K}
    (hs : socStep minNorm eps zeroEps w p trial cons d0 rhs step out = some s) :
    ∃ reject, trialSocDyn minNorm eps zeroEps w p trial cons d0 rhs step out model merit err accepted = some (trial, reject) ∧
      (reject = true ↔ 2 * accepted * (merit - model s) < 5 * err) := by
  refine ⟨_, by unfold trialSocDyn; rw [hs]; rfl, ?_⟩
  rw [decide_eq_true_iff]
  unfold requiredErrorBound
  constructor <;> intro h <;> linarith

/-- C68 violated by the code for functions evaluated with errors (dynamic functions): the corrected
step is computed but never applied. At the trial point `0` with constraint value `1 ≤ 0` and
slope `1` the correction is `-1`, and with an exact function the corrected point is `-1`; with a
dynamic one the point remains `0` for all error estimates, and is evaluated a second time. -/
theorem C68_dynamic_violated : ∃ w, WRep 1 1 w [⟨true, 0, .upper⟩] ∧ w.Ordered ∧
    (∃ t, trialSocDet some 0 0 w exSocBounds ⟨1, 1, []⟩ ⟨1, 1, []⟩ ⟨1, 1, [(0, 1)]⟩ ⟨1, 1, []⟩ ⟨0, 0, []⟩ ⟨1, 1, []⟩ ⟨1, 1, []⟩ ⟨1, 1, []⟩ =
      some (t, false) ∧ t.value 0 = -1) ∧
    ∀ model merit err accepted, ∃ reject, trialSocDyn some 0 0 w exSocBounds ⟨1, 1, []⟩ ⟨1, 1, [(0, 1)]⟩ ⟨1, 1, []⟩ ⟨0, 0, []⟩
      ⟨1, 1, []⟩ ⟨1, 1, []⟩ model merit err accepted = some ((⟨1, 1, []⟩ : Vec ℚ), reject) := by
  obtain ⟨w, hw, h, ho⟩ := exSocSet
  have hz : (⟨1, 1, []⟩ : Vec ℚ).WF := exSocWf (by decide +kernel)
  have h1 : (⟨1, 1, [(0, 1)]⟩ : Vec ℚ).WF := exSocWf (by decide +kernel)
  have ht : Tight exSocBounds [⟨true, 0, .upper⟩] := by
    intro e he hs
    rw [List.mem_singleton] at he
    rw [he] at hs
    exact absurd hs (by simp)
  refine ⟨w, h, ho, ?_, ?_⟩
  · have hr : ((WSet.create 1 1 fun _ => 0).addCons 0 .upper).bind (fun w => (trialSocDet some 0 0 w exSocBounds ⟨1, 1, []⟩ ⟨1, 1, []⟩
        ⟨1, 1, [(0, 1)]⟩ ⟨1, 1, []⟩ ⟨0, 0, []⟩ ⟨1, 1, []⟩ ⟨1, 1, []⟩ ⟨1, 1, []⟩).map fun r => (r.1.value 0, r.2)) = some (-1, false) := by
      decide +kernel
    rw [hw, Option.bind_some] at hr
    obtain ⟨⟨t, b⟩, r1, r2⟩ := Option.map_eq_some_iff.mp hr
    simp only [Prod.mk.injEq] at r2
    exact ⟨t, by rw [r1, r2.2], r2.1⟩
  · intro model merit err accepted
    have hbox : ∀ j, exSocBounds.varsLb.value j ≤ (⟨1, 1, []⟩ : Vec ℚ).value j ∧ (⟨1, 1, []⟩ : Vec ℚ).value j ≤ exSocBounds.varsUb.value j := by
      intro j
      have : ∀ j, (⟨1, 1, []⟩ : Vec ℚ).value j = 0 := fun _ => rfl
      rw [this]
      unfold exSocBounds Vec.value
      simp only
      rw [valAt_cons, valAt_cons]
      split <;> simp
    obtain ⟨s, d, a, s1, -⟩ := C68_step h ho exSocSized ht hz rfl h1 rfl le_rfl (le_refl (0 : ℚ)) hbox ⟨1, 1, []⟩ ⟨0, 0, []⟩ hz rfl
      ⟨1, 1, []⟩ exSocService
    unfold trialSocDyn
    rw [s1]
    exact ⟨_, rfl⟩

/-! ### Non-vacuity -/

/-- an instance of `C68_dynamic_partial`: the corrected step exists, and it is rejected for a large error only -/
example : ∃ w : WSet, WRep 1 1 w [⟨true, 0, .upper⟩] ∧ ∃ s, socStep some 0 0 w exSocBounds ⟨1, 1, []⟩ ⟨1, 1, [(0, 1)]⟩ ⟨1, 1, []⟩ ⟨0, 0, []⟩
    ⟨1, 1, []⟩ ⟨1, 1, []⟩ = some s ∧ s.value 0 = -1 := by
  obtain ⟨w, hw, h, -⟩ := exSocSet
  have hr : ((WSet.create 1 1 fun _ => 0).addCons 0 .upper).bind (fun w => (socStep some 0 0 w exSocBounds ⟨1, 1, []⟩ ⟨1, 1, [(0, 1)]⟩
      ⟨1, 1, []⟩ ⟨0, 0, []⟩ ⟨1, 1, []⟩ ⟨1, 1, []⟩).map fun r => r.value 0) = some (-1) := by decide +kernel
  rw [hw, Option.bind_some] at hr
  obtain ⟨d, r1, r2⟩ := Option.map_eq_some_iff.mp hr
  exact ⟨w, h, d, r1, r2⟩

/-- an instance of `C68_linearised`: the whole correction `-1` fits -/
example : ∃ w : WSet, WRep 1 1 w [⟨true, 0, .upper⟩] ∧ ∃ d, socCorrection some 0 0 w exSocBounds ⟨1, 1, []⟩ ⟨1, 1, [(0, 1)]⟩ ⟨1, 1, []⟩
    ⟨0, 0, []⟩ = some d ∧ d.value 0 = -1 := by
  obtain ⟨w, hw, h, -⟩ := exSocSet
  have hr : ((WSet.create 1 1 fun _ => 0).addCons 0 .upper).bind (fun w => (socCorrection some 0 0 w exSocBounds ⟨1, 1, []⟩ ⟨1, 1, [(0, 1)]⟩
      ⟨1, 1, []⟩ ⟨0, 0, []⟩).map fun r => r.value 0) = some (-1) := by decide +kernel
  rw [hw, Option.bind_some] at hr
  obtain ⟨d, r1, r2⟩ := Option.map_eq_some_iff.mp hr
  exact ⟨w, h, d, r1, r2⟩

/-- services as assumed exist for every box-constrained problem (C66) -/
example {n : Nat} {w : WSet} {l : List WEntry} (h : WRep n 0 w l) (ho : w.Ordered) (J : Nat → Nat → ℚ) :
    MinNormService (fun rhs => boxMinNorm w rhs (⟨n, 0, []⟩ : Vec ℚ)) n l J :=
  fun _ hr hd => C66_box_min_norm h ho J hr hd rfl

end Sleqp
