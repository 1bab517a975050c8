import Verif.Props.Soc
import Verif.Props.Feas
import Verif.Lemmas.QnVec
import Verif.Props.Direction
import Verif.Props.Mat
import Mathlib.Analysis.Real.Sqrt

/-! C69: the step towards the working set and the trust region left for the Newton step. -/

namespace Sleqp
open Finset
variable {K : Type*} [Field K] [LinearOrder K]

/-- value pushed for an entry, if any -/
def initialPick (st : ActiveState) (lo up : K) : Option K :=
  match st with
  | .inactive => none
  | .upper => some up
  | .lower => some lo
  | .both => some lo

theorem initialPush_eq {eps : K} {st : ActiveState} {pos : Option Nat} {lo up : K} (hp : st ≠ .inactive → pos.isSome)
    (hb : st = .both → isEq lo up eps = true) (r : Vec K) :
    initialPush eps st pos lo up r = r.pushAll ((pos.bind fun k => (initialPick st lo up).map fun v => (k, v)).toList) := by
  cases st with
  | inactive => unfold initialPush initialPick; cases pos <;> rfl
  | lower =>
    obtain ⟨k, rfl⟩ := Option.isSome_iff_exists.mp (hp (by simp))
    simp only [initialPush, initialPick]; rw [pushAt_some]; rfl
  | upper =>
    obtain ⟨k, rfl⟩ := Option.isSome_iff_exists.mp (hp (by simp))
    simp only [initialPush, initialPick]; rw [pushAt_some]; rfl
  | both =>
    obtain ⟨k, rfl⟩ := Option.isSome_iff_exists.mp (hp (by simp))
    simp only [initialPush, initialPick, if_pos (hb rfl)]; rw [pushAt_some]; rfl

variable [IsStrictOrderedRing K]

/-- the loop over the stored differences -/
theorem initialAdd_eq {eps z : K} {N : Nat} {state : Nat → ActiveState} {pos : Nat → Option Nat} {v lb ub d0 lo up : Vec K}
    (h1 : v.addScaled ub (-1) 1 z d0 = some up) (h2 : v.addScaled lb (-1) 1 z d0 = some lo) (hlo : lo.WF) (hup : up.WF)
    (dlo : lo.dim = N) (dup : up.dim = N) (hp : ∀ i < N, state i ≠ .inactive → (pos i).isSome)
    (hb : ∀ i < N, state i = .both → isEq (lo.value i) (up.value i) eps = true) (r : Vec K) :
    initialAdd eps z state pos v lb ub d0 r = r.pushAll (((merge2 lo.ents up.ents).map Prod.fst).filterMap fun i =>
      (pos i).bind fun k => (initialPick (state i) (lo.value i) (up.value i)).map fun v => (k, v)) := by
  unfold initialAdd
  rw [h1, Option.bind_some, h2, Option.bind_some, List.filterMap_map]
  refine foldlM_opt_push _ _ _ (fun t ht r => ?_) r
  have hm := merge2_mem hlo.srt hup.srt ht
  have hlt : t.1 < N := merge2_lt hlo.srt hup.srt (dlo ▸ hlo.lt_dim) (dup ▸ hup.lt_dim) t ht
  have e1 : orZero t.2.1 = lo.value t.1 := by rw [hm.1]; rfl
  have e2 : orZero t.2.2 = up.value t.1 := by rw [hm.1]; rfl
  rw [e1, e2, initialPush_eq (hp t.1 hlt) (hb t.1 hlt)]
  rfl

theorem not_stored {lo up : Vec K} (hlo : lo.WF) (hup : up.WF) {i : Nat}
    (h : i ∉ (merge2 lo.ents up.ents).map Prod.fst) : lo.value i = 0 ∧ up.value i = 0 := by
  have hn : at? (merge2 lo.ents up.ents) i = none := at?_none_of_forall fun e he hh => h (hh ▸ List.mem_map_of_mem (f := Prod.fst) he)
  rw [merge2_at hlo.srt hup.srt] at hn
  unfold Vec.value valAt
  rcases h1 : at? lo.ents i with _ | a <;> rcases h2 : at? up.ents i with _ | b <;> rw [h1, h2] at hn <;> simp [comb2] at hn ⊢

theorem initialPick_drop {z lo up : K} (st : ActiveState) (hst : st ≠ .inactive) (hb : st = .both → lo = up) :
    (initialPick st (dropSmall z lo) (dropSmall z up)).getD 0 = dropSmall z (if st = .lower then lo else up) := by
  cases st with
  | inactive => exact absurd rfl hst
  | lower => simp [initialPick]
  | upper => simp [initialPick]
  | both => simp [initialPick, hb rfl]

/-- C69: the right-hand side of the step towards the working set holds, for every active entry, the
distance from its current value to the bound it is active at (zero up to the tolerance). No
assertion fails. -/
theorem C69_rhs {n m : Nat} {w : WSet} {l : List WEntry} (h : WRep n m w l) (ho : w.Ordered) {p : Bounds K} (hp : p.Sized n m)
    (ht : Tight p l) {x c : Vec K} (hx : x.WF) (hxd : x.dim = n) (hc : c.WF) (hcd : c.dim = m) {eps z : K} (he : 0 ≤ eps)
    (hz : 0 ≤ z) (d0 rhs : Vec K) :
    ∃ r, initialRhs eps z w p x c d0 rhs = some r ∧ r.WF ∧ r.dim = l.length ∧
      ∀ k (hk : k < l.length), r.value k = dropSmall z (l[k].gap p x.value c.value) := by
  have hsz := h.size
  obtain ⟨-, -, -, q4, q5, -⟩ := C30_queries h
  obtain ⟨t1, t2⟩ := ht.states h
  obtain ⟨lo, a1, a2, a3, a4⟩ := diff_spec hx hp.wvl (hxd.trans hp.dvl.symm) hz d0
  obtain ⟨up, b1, b2, b3, b4⟩ := diff_spec hx hp.wvu (hxd.trans hp.dvu.symm) hz d0
  obtain ⟨lo', c1, c2, c3, c4⟩ := diff_spec hc hp.wcl (hcd.trans hp.dcl.symm) hz d0
  obtain ⟨up', d1, d2, d3, d4⟩ := diff_spec hc hp.wcu (hcd.trans hp.dcu.symm) hz d0
  set fv : Nat → Option K := fun i => initialPick (w.varState i) (lo.value i) (up.value i) with hfv
  set fc : Nat → Option K := fun i => initialPick (w.consState i) (lo'.value i) (up'.value i) with hfc
  set r0 := (((rhs.resize w.size).clear).reserve w.size).resize w.size with hr0
  obtain ⟨g1, g2, g3⟩ : r0.ents = [] ∧ r0.dim = l.length ∧ l.length ≤ r0.cap := by
    rw [hr0, ← hsz]
    have : ((rhs.resize w.size).clear).dim = w.size := by unfold Vec.clear Vec.resize; split <;> rfl
    unfold Vec.resize
    rw [if_neg (by show ¬ w.size < ((rhs.resize w.size).clear).dim; omega)]
    exact ⟨rfl, rfl, le_max_right _ _⟩
  set vs := (merge2 lo.ents up.ents).map Prod.fst with hvs
  set cs := (merge2 lo'.ents up'.ents).map Prod.fst with hcs
  have hvlt : ∀ i ∈ vs, i < n := by
    intro i hi
    obtain ⟨t, ht, rfl⟩ := List.mem_map.mp hi
    exact merge2_lt a2.srt b2.srt (fun e he => by have := a2.lt_dim e he; omega) (fun e he => by have := b2.lt_dim e he; omega) t ht
  have hclt : ∀ i ∈ cs, i < m := by
    intro i hi
    obtain ⟨t, ht, rfl⟩ := List.mem_map.mp hi
    exact merge2_lt c2.srt d2.srt (fun e he => by have := c2.lt_dim e he; omega) (fun e he => by have := d2.lt_dim e he; omega) t ht
  have hvp : vs.Pairwise (· < ·) := by rw [hvs, List.pairwise_map]; exact merge2_srt a2.srt b2.srt
  have hcp : cs.Pairwise (· < ·) := by rw [hcs, List.pairwise_map]; exact merge2_srt c2.srt d2.srt
  have hpw : (vs ++ cs.map fun i => n + i).Pairwise (· < ·) := by
    rw [List.pairwise_append]
    refine ⟨hvp, ?_, ?_⟩
    · rw [List.pairwise_map]; exact hcp.imp fun {a b} hab => by omega
    · intro a ha b hb
      obtain ⟨b', -, rfl⟩ := List.mem_map.mp hb
      have := hvlt a ha; omega
  have hlt : ∀ c ∈ vs ++ cs.map fun i => n + i, c < n + m := by
    intro c hc
    rcases List.mem_append.mp hc with hc | hc
    · have := hvlt c hc; omega
    · obtain ⟨b', hb', rfl⟩ := List.mem_map.mp hc
      have := hclt b' hb'; omega
  obtain ⟨r, e1, e2, e3, e4⟩ := rhs_pushed h ho (fun c => if c < n then fv c else fc (c - n)) hpw hlt g1 g2 g3
  rw [rhsList_parts h fv fc hvlt, pushAll_append] at e1
  refine ⟨r, ?_, e2, e3, ?_⟩
  · unfold initialRhs
    simp only
    rw [← hr0, initialAdd_eq (N := n) b1 a1 a2 b2 (a3.trans hxd) (b3.trans hxd) (fun i hi hs => ?_) (fun i hi hs => ?_), ← e1]
    · congr 1
      funext r1
      exact initialAdd_eq (N := m) d1 c1 c2 d2 (c3.trans hcd) (d3.trans hcd)
        (fun i hi hs => by rw [Option.isSome_iff_ne_none]; exact fun hh => hs ((q5 i hi).mp hh))
        (fun i hi hs => by rw [c4, d4, t2 i hi hs]; exact (C01_symmetry _ (0 : K) eps he).1) r1
    · rw [Option.isSome_iff_ne_none]; exact fun hh => hs ((q4 i hi).mp hh)
    · rw [a4, b4, t1 i hi hs]; exact (C01_symmetry _ (0 : K) eps he).1
  · intro k hk
    obtain ⟨f1, f2⟩ := h.entry hk
    have hact := (h.ok l[k] (List.getElem_mem hk)).2
    rw [e4 k hk, gap_eq]
    rcases f2 with ⟨f3, f4, f5, f6⟩ | ⟨f3, f4, f5, f6⟩
    · have key : (fv (w.content k)).getD 0 = dropSmall z (if l[k].state = .lower then p.varsLb.value (w.content k) - x.value (w.content k)
          else p.varsUb.value (w.content k) - x.value (w.content k)) := by
        rw [hfv]; simp only
        rw [a4, b4, f6]
        exact initialPick_drop _ hact fun hb => by rw [t1 _ f3 (f6.trans hb)]
      simp only [if_pos f3, f4, Bool.false_eq_true, if_false, f5]
      split
      · exact key
      · rename_i hn
        have hn' : w.content k ∉ vs := fun hh => hn (List.mem_append_left _ hh)
        obtain ⟨z1, z2⟩ := not_stored a2 b2 hn'
        rw [← key, hfv]; simp only
        rw [z1, z2]
        cases w.varState (w.content k) <;> rfl
    · have f7 : ¬ w.content k < n := by omega
      have key : (fc (w.content k - n)).getD 0 = dropSmall z (if l[k].state = .lower then p.consLb.value (w.content k - n) - c.value (w.content k - n)
          else p.consUb.value (w.content k - n) - c.value (w.content k - n)) := by
        rw [hfc]; simp only
        rw [c4, d4, f6]
        exact initialPick_drop _ hact fun hb => by rw [t2 _ (by omega) (f6.trans hb)]
      simp only [if_neg f7, f4, if_true, f5]
      split
      · exact key
      · rename_i hn
        have hn' : w.content k - n ∉ cs := fun hh => hn (List.mem_append_right _ (List.mem_map.mpr ⟨_, hh, by omega⟩))
        obtain ⟨z1, z2⟩ := not_stored c2 d2 hn'
        rw [← key, hfc]; simp only
        rw [z1, z2]
        cases w.consState (w.content k - n) <;> rfl

/-! ### The step towards the working set -/

theorem isEq_one_le {a eps : K} (h0 : 0 ≤ a) (h1 : a ≤ 1) (h : isEq a 1 eps = true) : 1 - a ≤ eps := by
  unfold isEq relDiff at h
  rw [decide_eq_true_eq] at h
  have hm : max (max |a| |(1 : K)|) 1 = 1 := by rw [abs_of_nonneg h0, abs_one, max_eq_right h1, max_self]
  have : |a - 1| ≤ eps := by
    refine le_trans ?_ h
    first
      | (rw [hm, div_one])
      | (simp [abs_of_nonneg h0, max_eq_right h1])
  rw [abs_sub_comm, abs_of_nonneg (by linarith)] at this
  exact this

/-- C69: the step towards the working set is a positive multiple, at most one, of the shortest
vector leading to the working set (that vector itself if the step is reported to reach the working
set), and what remains for the Newton step is what Pythagoras' theorem leaves of the trust radius. -/
theorem C69_radius {n : Nat} {sqrt : K → K} (hsq : ∀ v, 0 ≤ v → 0 ≤ sqrt v ∧ sqrt v * sqrt v = v) {eps radius : K}
    (h0 : 0 ≤ eps) (he : eps ≤ 1 / 5) (hr : 0 < radius) {d out : Vec K} (hd : d.WF) (hdd : d.dim = n) (hod : out.dim = n) :
    ∃ s a, initialStep sqrt eps radius d out = some s ∧ s.step.WF ∧ s.step.dim = n ∧ 0 < a ∧ a ≤ 1 ∧
      (∀ j, s.step.value j = a * d.value j) ∧ (s.inWorkingSet = true → a = 1) ∧ 0 ≤ s.radius ∧
      ∑ j ∈ range n, s.step.value j ^ 2 + s.radius ^ 2 = radius ^ 2 ∧
      (s.inWorkingSet = false → ∑ j ∈ range n, s.step.value j ^ 2 = (4 / 5 * radius) ^ 2 ∧
        (4 / 5 * radius) ^ 2 ≤ ∑ j ∈ range n, d.value j ^ 2) := by
  obtain ⟨s, s1, s2, s3⟩ := copy_spec (⟨hd, hdd⟩ : VOk n d) hod
  have hval : ∀ j, s.value j = d.value j := fun j => by unfold Vec.value; rw [s3]
  have hn := (C03_norms d hd).2
  rw [hdd] at hn
  have hn0 : 0 ≤ d.normSq := by rw [hn]; exact Finset.sum_nonneg fun j _ => sq_nonneg _
  obtain ⟨q0, q1⟩ := hsq _ hn0
  unfold initialStep
  rw [s1, Option.bind_some]
  simp only
  set nrm := sqrt d.normSq with hnrm
  have hsum : ∑ j ∈ range n, s.value j ^ 2 = nrm * nrm := by
    rw [q1, hn]; exact Finset.sum_congr rfl fun j _ => by rw [hval]
  by_cases hz : nrm = 0
  · rw [if_neg (not_not.mpr hz)]
    refine ⟨_, 1, rfl, s2.1, s2.2, one_pos, le_rfl, fun j => by rw [one_mul]; exact hval j, fun _ => rfl, hr.le, ?_, ?_⟩
    · show ∑ j ∈ range n, s.value j ^ 2 + radius ^ 2 = radius ^ 2
      rw [hsum, hz, mul_zero, zero_add]
    · intro h; exact absurd h (by simp)
  · have hpos : 0 < nrm := lt_of_le_of_ne q0 (Ne.symm hz)
    rw [if_pos hz, if_pos hpos]
    set a := min (4 / 5 * radius / nrm) 1 with ha
    have hbase : 0 < 4 / 5 * radius / nrm := by positivity
    have ha0 : 0 < a := lt_min hbase one_pos
    have ha1 : a ≤ 1 := min_le_right _ _
    by_cases heq : isEq a 1 eps = true
    · rw [if_pos heq]
      have h1 := isEq_one_le ha0.le ha1 heq
      have h2 : 4 / 5 ≤ 4 / 5 * radius / nrm := le_trans (by linarith : (4 : K) / 5 ≤ a) (min_le_left _ _)
      rw [le_div_iff₀ hpos] at h2
      have h3 : nrm ≤ radius := by linarith
      obtain ⟨w0, w1⟩ := hsq (radius * radius - nrm * nrm) (by nlinarith)
      refine ⟨_, 1, rfl, s2.1, s2.2, one_pos, le_rfl, fun j => by rw [one_mul]; exact hval j, fun _ => rfl, w0, ?_, ?_⟩
      · show ∑ j ∈ range n, s.value j ^ 2 + _ = radius ^ 2
        rw [hsum, sq, w1, sq]; ring
      · intro h; exact absurd h (by simp)
    · rw [if_neg heq]
      have hne : a ≠ 1 := fun hh => heq (by rw [hh]; exact (C01_symmetry _ (0 : K) eps h0).1)
      have hlt : 4 / 5 * radius / nrm < 1 := by
        by_contra hc
        exact hne (min_eq_right (not_lt.mp hc))
      have hae : a * nrm = 4 / 5 * radius := by
        rw [ha, min_eq_left hlt.le, div_mul_cancel₀ _ hz]
      have hle : 4 / 5 * radius ≤ nrm := by rw [div_lt_one hpos] at hlt; exact hlt.le
      obtain ⟨w0, w1⟩ := hsq (1 - 4 / 5 * (4 / 5)) (by norm_num)
      have hsc : ∀ j, (s.scale a).value j = a * d.value j := fun j => by rw [(C03_scale s a).2, hval, mul_comm]
      have hss : ∑ j ∈ range n, (s.scale a).value j ^ 2 = (4 / 5 * radius) ^ 2 := by
        rw [← hae, mul_pow, sq nrm, ← hsum, Finset.mul_sum]
        exact Finset.sum_congr rfl fun j _ => by rw [hsc, hval, mul_pow]
      obtain ⟨v1, -⟩ := scale_dense s2 a
      refine ⟨_, a, rfl, v1.1, v1.2, ha0, ha1, hsc, fun h => absurd h (by simp), mul_nonneg hr.le w0, ?_, fun _ => ⟨hss, ?_⟩⟩
      · show ∑ j ∈ range n, (s.scale a).value j ^ 2 + _ = radius ^ 2
        rw [hss, mul_pow radius, sq (sqrt _), w1]; ring
      · rw [← hn, ← q1, sq]
        exact mul_le_mul hle hle (by positivity) q0

/-- a vector of minimum norm is orthogonal to the null space -/
theorem IsMinNorm.orthogonal {n s : Nat} {A : Nat → Nat → K} {b x v : Nat → K} (h : IsMinNorm n s A b x)
    (hv : ∀ k < s, ∑ j ∈ range n, A k j * v j = 0) : ∑ j ∈ range n, x j * v j = 0 := by
  set xv := ∑ j ∈ range n, x j * v j with hxv
  set vv := ∑ j ∈ range n, v j ^ 2 with hvv
  have hvv0 : 0 ≤ vv := Finset.sum_nonneg fun j _ => sq_nonneg _
  have key : ∀ t : K, 0 ≤ 2 * t * xv + t ^ 2 * vv := by
    intro t
    have h1 := h.2 (fun j => x j + t * v j) fun k hk => by
      have : ∑ j ∈ range n, A k j * (x j + t * v j) = ∑ j ∈ range n, A k j * x j + t * ∑ j ∈ range n, A k j * v j := by
        rw [Finset.mul_sum, ← Finset.sum_add_distrib]
        exact Finset.sum_congr rfl fun j _ => by ring
      rw [this, hv k hk, mul_zero, add_zero, h.1 k hk]
    have h2 : ∑ j ∈ range n, (x j + t * v j) ^ 2 = ∑ j ∈ range n, x j ^ 2 + (2 * t * xv + t ^ 2 * vv) := by
      rw [hxv, hvv, Finset.mul_sum, Finset.mul_sum, ← Finset.sum_add_distrib, ← Finset.sum_add_distrib]
      exact Finset.sum_congr rfl fun j _ => by ring
    rw [h2] at h1
    linarith
  by_cases hz : vv = 0
  · have h1 := key (-xv)
    rw [hz] at h1
    have : xv * xv ≤ 0 := by linarith
    exact mul_self_eq_zero.mp (le_antisymm this (mul_self_nonneg _))
  · have hp : 0 < vv := lt_of_le_of_ne hvv0 (Ne.symm hz)
    have h1 := key (-(xv / vv))
    have h2 : 2 * -(xv / vv) * xv + (-(xv / vv)) ^ 2 * vv = -(xv * xv / vv) := by
      field_simp
      ring
    rw [h2] at h1
    have h3 : xv * xv / vv = 0 := le_antisymm (by linarith) (div_nonneg (mul_self_nonneg _) hp.le)
    rw [div_eq_zero_iff] at h3
    exact mul_self_eq_zero.mp (h3.resolve_right hz)

/-- C69: the step followed by any vector of the null space of the active gradients that is no longer
than the remaining radius stays within the trust region, and leads every active entry, in its
linearisation, by the same fraction of the way to its bound: all the way if the step is reported
to reach the working set. -/
theorem C69_newton_in_region {n m : Nat} {w : WSet} {l : List WEntry} (h : WRep n m w l) (ho : w.Ordered) {p : Bounds K}
    (hp : p.Sized n m) (ht : Tight p l) {x c : Vec K} (hx : x.WF) (hxd : x.dim = n) (hc : c.WF) (hcd : c.dim = m) {eps z : K}
    (h0 : 0 ≤ eps) (he : eps ≤ 1 / 5) (hz : 0 ≤ z) (d0 rhs : Vec K) {solve : Vec K → Option (Vec K)} {J : Nat → Nat → K}
    (hS : MinNormService solve n l J) {sqrt : K → K} (hsq : ∀ v, 0 ≤ v → 0 ≤ sqrt v ∧ sqrt v * sqrt v = v) {radius : K}
    (hr : 0 < radius) {out : Vec K} (hod : out.dim = n) :
    ∃ r d s a, initialRhs eps z w p x c d0 rhs = some r ∧ solve r = some d ∧ initialStep sqrt eps radius d out = some s ∧
      s.step.WF ∧ s.step.dim = n ∧ 0 < a ∧ a ≤ 1 ∧ (s.inWorkingSet = true → a = 1) ∧ 0 ≤ s.radius ∧
      (∀ j, s.step.value j = a * d.value j) ∧
      (∀ k (hk : k < l.length), ∑ j ∈ range n, l[k].gradient J j * d.value j = dropSmall z (l[k].gap p x.value c.value)) ∧
      (∀ y : Nat → K, (∀ k (hk : k < l.length), ∑ j ∈ range n, l[k].gradient J j * y j = dropSmall z (l[k].gap p x.value c.value)) →
        ∑ j ∈ range n, d.value j ^ 2 ≤ ∑ j ∈ range n, y j ^ 2) ∧
      ∀ v : Nat → K, (∀ k (hk : k < l.length), ∑ j ∈ range n, l[k].gradient J j * v j = 0) →
        (∑ j ∈ range n, (s.step.value j + v j) ^ 2 ≤ radius ^ 2 ↔ ∑ j ∈ range n, v j ^ 2 ≤ s.radius ^ 2) ∧
        ∀ k (hk : k < l.length), ∑ j ∈ range n, l[k].gradient J j * (s.step.value j + v j) =
          a * dropSmall z (l[k].gap p x.value c.value) := by
  obtain ⟨r, r1, r2, r3, r4⟩ := C69_rhs h ho hp ht hx hxd hc hcd h0 hz d0 rhs
  obtain ⟨d, d1, d2, d3, dm⟩ := hS r r2 r3
  obtain ⟨s, a, s1, s2, s3, a0, a1, s4, s5, s6, s7, -⟩ := C69_radius hsq h0 he hr d2 d3 hod
  have hrow : ∀ k (hk : k < l.length) j, workMat l J k j = l[k].gradient J j := fun k hk j => by
    unfold workMat; rw [List.getElem?_eq_getElem hk]; rfl
  have hlin : ∀ k (hk : k < l.length), ∑ j ∈ range n, l[k].gradient J j * d.value j = dropSmall z (l[k].gap p x.value c.value) := by
    intro k hk
    rw [← r4 k hk, ← dm.1 k hk]
    exact Finset.sum_congr rfl fun j _ => by rw [hrow k hk]
  refine ⟨r, d, s, a, r1, d1, s1, s2, s3, a0, a1, s5, s6, s4, hlin, ?_, fun v hv => ⟨?_, fun k hk => ?_⟩⟩
  · intro y hy
    refine dm.2 y fun k hk => ?_
    rw [r4 k hk, ← hy k hk]
    exact Finset.sum_congr rfl fun j _ => by rw [hrow k hk]
  · have ho := dm.orthogonal (v := v) fun k hk => by
      rw [← hv k hk]
      exact Finset.sum_congr rfl fun j _ => by rw [hrow k hk]
    have e : ∑ j ∈ range n, (s.step.value j + v j) ^ 2 = ∑ j ∈ range n, s.step.value j ^ 2 +
        2 * a * ∑ j ∈ range n, d.value j * v j + ∑ j ∈ range n, v j ^ 2 := by
      rw [Finset.mul_sum, ← Finset.sum_add_distrib, ← Finset.sum_add_distrib]
      exact Finset.sum_congr rfl fun j _ => by rw [s4]; ring
    rw [e, ho, mul_zero, add_zero, ← s7]
    constructor <;> intro hh <;> linarith
  · have e : ∑ j ∈ range n, l[k].gradient J j * (s.step.value j + v j) =
        a * ∑ j ∈ range n, l[k].gradient J j * d.value j + ∑ j ∈ range n, l[k].gradient J j * v j := by
      rw [Finset.mul_sum, ← Finset.sum_add_distrib]
      exact Finset.sum_congr rfl fun j _ => by rw [s4]; ring
    rw [e, hv k hk, add_zero, hlin k hk]

/-- C69: the whole computation succeeds; the slopes of objective and constraints along the step, the
linearised constraint values after it and the multipliers of the constraints violated there (those
outside the working set) are what their names say. -/
theorem C69_work_step {n m : Nat} {w : WSet} {l : List WEntry} (h : WRep n m w l) (ho : w.Ordered) {p : Bounds K}
    (hp : p.Sized n m) (ht : Tight p l) {it : Iterate K} (hf : it.Fits n m p) {eps z : K}
    (h0 : 0 ≤ eps) (he : eps ≤ 1 / 5) (hz : 0 ≤ z) (d0 : Vec K) {solve : Vec K → Option (Vec K)}
    (hS : MinNormService solve n l it.consJac.value) {sqrt : K → K} (hsq : ∀ v, 0 ≤ v → 0 ≤ sqrt v ∧ sqrt v * sqrt v = v) {radius : K}
    (hr : 0 < radius) {old : WorkStep K} (hod : old.init.step.dim = n) (hom : old.multipliers.dim = m) :
    ∃ s, workStep solve sqrt eps z radius w p it d0 old = some s ∧
      initialRhs eps z w p it.primal it.consVal d0 old.rhs = some s.rhs ∧ solve s.rhs = some s.direction ∧
      initialStep sqrt eps radius s.direction old.init.step = some s.init ∧
      s.slope = ∑ j ∈ range n, s.init.step.value j * it.objGrad.value j ∧
      (∀ i < m, s.dcons.value i = dropSmall z (∑ j ∈ range n, it.consJac.value i j * s.init.step.value j)) ∧
      Boxed m s.consVal p.consLb p.consUb ∧
      (∀ i < m, s.consVal.value i = dropSmall z (it.consVal.value i + s.dcons.value i)) ∧
      s.multipliers.WF ∧ s.multipliers.dim = m ∧
      (∀ i, s.multipliers.value i = if w.consState i ≠ .inactive then 0
        else if p.consUb.value i < s.consVal.value i then 1
        else if s.consVal.value i < p.consLb.value i then -1 else 0) ∧ s.dcons.WF ∧ s.dcons.dim = m := by
  obtain ⟨r, d, s, a, r1, d1, s1, s2, s3, -⟩ := C69_newton_in_region h ho hp ht hf.vars.wc hf.vars.dc hf.cons.wc hf.cons.dc
    h0 he hz d0 old.rhs hS hsq hr hod
  have g1 := C03_dot s.step it.objGrad s2 hf.wg (s3.trans hf.dg.symm)
  obtain ⟨res, g2, g3⟩ := C08_mult_vec it.consJac s.step hf.wj s2 (hf.cols.trans s3.symm)
  obtain ⟨dc, g4, g5, g6, g7⟩ := setFromRaw_spec z old.dcons ((List.range m).map res)
  rw [List.length_map, List.length_range] at g6
  obtain ⟨c, c1, c2, c3, c4⟩ := C03_add_scaled it.consVal dc old.consVal 1 1 z hf.cons.wc g5 (hf.cons.dc.trans g6.symm) hz
  have hB : Boxed m c p.consLb p.consUb := ⟨c2, hf.cons.wl, hf.cons.wu, c3.trans hf.cons.dc, hf.cons.dl, hf.cons.du, hf.cons.le⟩
  obtain ⟨mu, m1, m2, m3, m4⟩ := C13_multipliers hB (fun i => decide (w.consState i ≠ .inactive)) old.multipliers hom
  refine ⟨⟨r, d, s, ∑ j ∈ range s.step.dim, s.step.value j * it.objGrad.value j, dc, c, mu⟩, ?_, r1, d1, s1, ?_, ?_, hB, ?_, m2, m3, ?_, g5, g6⟩
  · unfold workStep fillInitialStep
    rw [r1, Option.bind_some, d1, Option.bind_some, s1, Option.bind_some, g1, Option.bind_some, g2, Option.bind_some, h.nc, g4]
    simp only [Option.map_some, Option.bind_some]
    rw [c1, Option.bind_some, m1]
    rfl
  · rw [← s3]
  · intro i hi
    rw [g7 i, List.getElem?_map, List.getElem?_range hi]
    simp only [Option.map_some]
    rw [g3 i, hf.cols]
    rfl
  · intro i hi
    rw [c4 i, one_mul, one_mul]
    rfl
  · intro i
    rw [m4 i]
    simp only [decide_eq_true_eq]

/-- C69: the offset of the Newton model is the penalised objective with the constraints linearised
along the step. -/
theorem C69_offset {m : Nat} {p : Bounds K} {c : Vec K} (h : Boxed m c p.consLb p.consUb) (obj penalty : K) :
    newtonOffset p m obj penalty c =
      some (obj + penalty * ∑ i ∈ range m, viol (c.value i) (p.consLb.value i) (p.consUb.value i)) := by
  unfold newtonOffset
  rw [C12_total_violation h, Option.map_some]

/-! ### Instances -/

/-- a square root as assumed exists -/
theorem real_sqrt_spec : ∀ v : ℝ, 0 ≤ v → 0 ≤ Real.sqrt v ∧ Real.sqrt v * Real.sqrt v = v :=
  fun v hv => ⟨Real.sqrt_nonneg v, Real.mul_self_sqrt hv⟩

theorem exWorkWf {e : List (Nat × K)} (h : e = [] ∨ ∃ v, e = [(0, v)]) : (⟨1, 1, e⟩ : Vec K).WF := by
  rcases h with rfl | ⟨v, rfl⟩
  · exact ⟨List.Pairwise.nil, by simp, by simp⟩
  · exact ⟨List.pairwise_singleton _ _, by simp, by simp⟩

/-- one variable within `[-10, 10]`, one constraint with value `2`, slope `1` and upper bound `0`;
trust radius `1`: the hypotheses of `C69_newton_in_region` hold, and the step, of length `4/5`, does
not reach the working set -/
example : ∃ w : WSet, ∃ s : InitialStep ℝ, WRep 1 1 w [⟨true, 0, .upper⟩] ∧ w.Ordered ∧
    (∃ r d, initialRhs (1 / 10) 0 w ⟨⟨1, 1, [(0, -10)]⟩, ⟨1, 1, [(0, 10)]⟩, ⟨1, 1, [(0, -10)]⟩, ⟨1, 1, []⟩⟩ ⟨1, 1, []⟩
      ⟨1, 1, [(0, 2)]⟩ ⟨1, 1, []⟩ ⟨0, 0, []⟩ = some r ∧ some r = some d ∧
      initialStep Real.sqrt (1 / 10) 1 d ⟨1, 1, []⟩ = some s) ∧ s.inWorkingSet = false ∧ s.step.value 0 ^ 2 = (4 / 5) ^ 2 := by
  obtain ⟨w, -, h, ho⟩ := exSocSet
  have hp : Bounds.Sized 1 1 (⟨⟨1, 1, [(0, -10)]⟩, ⟨1, 1, [(0, 10)]⟩, ⟨1, 1, [(0, -10)]⟩, ⟨1, 1, []⟩⟩ : Bounds ℝ) :=
    ⟨exWorkWf (Or.inr ⟨_, rfl⟩), exWorkWf (Or.inr ⟨_, rfl⟩), exWorkWf (Or.inr ⟨_, rfl⟩), exWorkWf (Or.inl rfl), rfl, rfl, rfl, rfl⟩
  have ht : Tight (⟨⟨1, 1, [(0, -10)]⟩, ⟨1, 1, [(0, 10)]⟩, ⟨1, 1, [(0, -10)]⟩, ⟨1, 1, []⟩⟩ : Bounds ℝ) [⟨true, 0, .upper⟩] := by
    intro e he hs
    rw [List.mem_singleton] at he
    rw [he] at hs
    exact absurd hs (by simp)
  obtain ⟨r, d, s, a, r1, d1, s1, s2, s3, a0, a1, s4, s5, s6, s7, -, -⟩ := C69_newton_in_region h ho hp ht (x := ⟨1, 1, []⟩)
    (exWorkWf (Or.inl rfl)) rfl (c := ⟨1, 1, [(0, 2)]⟩) (exWorkWf (Or.inr ⟨_, rfl⟩)) rfl (eps := 1 / 10) (z := 0) (by norm_num)
    (by norm_num) le_rfl ⟨1, 1, []⟩ ⟨0, 0, []⟩ exSocService real_sqrt_spec (radius := 1) one_pos (out := ⟨1, 1, []⟩) rfl
  obtain ⟨r', p1, p2, p3, p4⟩ := C69_rhs h ho hp ht (x := ⟨1, 1, []⟩) (exWorkWf (Or.inl rfl)) rfl (c := ⟨1, 1, [(0, 2)]⟩)
    (exWorkWf (Or.inr ⟨_, rfl⟩)) rfl (eps := 1 / 10) (z := 0) (by norm_num) le_rfl ⟨1, 1, []⟩ ⟨0, 0, []⟩
  rw [r1] at p1
  obtain rfl := Option.some.inj p1
  obtain rfl := Option.some.inj d1
  have hgap : dropSmall (0 : ℝ) (WEntry.gap ⟨true, 0, .upper⟩
      (⟨⟨1, 1, [(0, -10)]⟩, ⟨1, 1, [(0, 10)]⟩, ⟨1, 1, [(0, -10)]⟩, ⟨1, 1, []⟩⟩ : Bounds ℝ) (⟨1, 1, []⟩ : Vec ℝ).value
      (⟨1, 1, [(0, 2)]⟩ : Vec ℝ).value) = -2 := by
    simp [WEntry.gap, dropSmall, Vec.value, valAt, at?, orZero]
  have hd : r.value 0 = -2 := by
    have := p4 0 (by simp)
    rw [this]; exact hgap
  obtain ⟨s', a', t1, -, -, -, -, t2, t3, -, t4, t5⟩ := C69_radius (n := 1) real_sqrt_spec (eps := 1 / 10) (radius := 1) (by norm_num)
    (by norm_num) one_pos p2 p3 (out := ⟨1, 1, []⟩) rfl
  rw [s1] at t1
  obtain rfl := Option.some.inj t1
  have hin : s.inWorkingSet = false := by
    by_contra hc
    rw [Bool.not_eq_false] at hc
    have ha := t3 hc
    have := t4
    rw [Finset.sum_range_one, t2, ha, hd] at this
    nlinarith [sq_nonneg s.radius]
  refine ⟨w, s, h, ho, ⟨r, r, r1, rfl, s1⟩, hin, ?_⟩
  have := (t5 hin).1
  rw [Finset.sum_range_one] at this
  rw [this]; norm_num

end Sleqp
