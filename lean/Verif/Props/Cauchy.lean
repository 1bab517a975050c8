import Verif.Model.Cauchy
import Verif.Lemmas.Cursor
import Verif.Props.Vec
import Verif.Props.WorkingSet
import Mathlib.Algebra.Order.BigOperators.Ring.Finset

/-! C29: the Cauchy step of problems without general and linear constraints. -/

namespace Sleqp
open Finset
variable {K : Type*} [Field K] [LinearOrder K] [IsStrictOrderedRing K]

/-- the step of one variable -/
def boxStep (r l u g : K) : K :=
  if -g ≥ 0 then (if r < u then r else u) else (if l < -r then -r else l)

/-- the step stops at a bound -/
def boxActive (r l u g : K) : Bool :=
  if -g ≥ 0 then !decide (r < u) else !decide (l < -r)

/-- the state of one variable -/
def boxState (r l u g : K) (fixed : Bool) : ActiveState :=
  if boxActive r l u g then (if fixed then .both else if -g ≥ 0 then .upper else .lower) else .inactive

theorem boxStep_feasible {r l u g : K} (hr : 0 ≤ r) (hl : l ≤ 0) (hu : 0 ≤ u) :
    l ≤ boxStep r l u g ∧ boxStep r l u g ≤ u ∧ |boxStep r l u g| ≤ r := by
  unfold boxStep
  rw [abs_le]
  split_ifs <;> refine ⟨?_, ?_, ?_, ?_⟩ <;> linarith

theorem boxStep_optimal {r l u g d : K} (h1 : l ≤ d) (h2 : d ≤ u) (h3 : |d| ≤ r) :
    g * boxStep r l u g ≤ g * d := by
  rw [abs_le] at h3
  unfold boxStep
  split_ifs with a b c <;> nlinarith

/-- cursors at index `j` -/
structure BoxInv (r : K) (fixed : Nat → Bool) (ld ud grad : Vec K) (f : K) (st0 : Nat → ActiveState)
    (dim cap dim' cap' : Nat) (j : Nat) (s : BoxLoop K) : Prop where
  kl : ∀ i ≥ j, cursorTo i s.kl = cursorTo i ld.ents
  ku : ∀ i ≥ j, cursorTo i s.ku = cursorTo i ud.ents
  kg : ∀ i ≥ j, cursorTo i s.kg = cursorTo i grad.ents
  dir : s.direction = ⟨dim, cap, (List.range j).map fun i => (i, boxStep r (ld.value i) (ud.value i) (grad.value i))⟩
  dual : s.duals = ⟨dim', cap', ((List.range j).filter fun i => boxActive r (ld.value i) (ud.value i) (grad.value i)).map
    fun i => (i, -grad.value i)⟩
  states : ∀ i, s.states i = if i < j then boxState r (ld.value i) (ud.value i) (grad.value i) (fixed i) else st0 i
  obj : s.objective = f + ∑ i ∈ range j, grad.value i * boxStep r (ld.value i) (ud.value i) (grad.value i)

theorem boxInv_step {r : K} {fixed : Nat → Bool} {ld ud grad : Vec K} {f : K} {st0 : Nat → ActiveState}
    {dim cap dim' cap' : Nat} (hl : Srt ld.ents) (hu : Srt ud.ents) (hg : Srt grad.ents) {j : Nat}
    (hj : j < dim) (hc : j < cap) (hj' : j < dim') (hc' : j < cap') {s : BoxLoop K}
    (h : BoxInv r fixed ld ud grad f st0 dim cap dim' cap' j s) :
    ∃ s', boxCauchyBody r fixed s j = some s' ∧ BoxInv r fixed ld ud grad f st0 dim cap dim' cap' (j + 1) s' := by
  have vl : cursorVal j (cursorTo j s.kl) = ld.value j := by rw [h.kl j le_rfl]; exact cursorVal_cursorTo hl j
  have vu : cursorVal j (cursorTo j s.ku) = ud.value j := by rw [h.ku j le_rfl]; exact cursorVal_cursorTo hu j
  have vg : cursorVal j (cursorTo j s.kg) = grad.value j := by rw [h.kg j le_rfl]; exact cursorVal_cursorTo hg j
  have cur : ∀ {k l : List (Nat × K)}, (∀ i ≥ j, cursorTo i k = cursorTo i l) → ∀ i ≥ j + 1,
      cursorTo i (cursorTo j k) = cursorTo i l := by
    intro k l hk i hi
    rw [cursorTo_cursorTo (by omega), hk i (by omega)]
  have pd : ∀ x : K, s.direction.push j x = some { s.direction with ents := s.direction.ents ++ [(j, x)] } := by
    intro x
    rw [h.dir]
    refine push_range x ?_ hj (by simpa using hc)
    intro e he
    obtain ⟨k, hk, rfl⟩ := List.mem_map.mp he
    exact List.mem_range.mp hk
  have py : ∀ x : K, s.duals.push j x = some { s.duals with ents := s.duals.ents ++ [(j, x)] } := by
    intro x
    rw [h.dual]
    refine push_range x ?_ hj' ?_
    · intro e he
      obtain ⟨k, hk, rfl⟩ := List.mem_map.mp he
      exact List.mem_range.mp (List.mem_filter.mp hk).1
    · simp only [List.length_map]
      have := List.length_filter_le (fun i => boxActive r (ld.value i) (ud.value i) (grad.value i)) (List.range j)
      rw [List.length_range] at this
      omega
  have key : ∀ (s' : BoxLoop K), s'.kl = cursorTo j s.kl → s'.ku = cursorTo j s.ku → s'.kg = cursorTo j s.kg →
      s'.direction = { s.direction with ents := s.direction.ents ++ [(j, boxStep r (ld.value j) (ud.value j) (grad.value j))] } →
      s'.duals = (if boxActive r (ld.value j) (ud.value j) (grad.value j) then
        { s.duals with ents := s.duals.ents ++ [(j, -grad.value j)] } else s.duals) →
      s'.states = WSet.upd s.states j (boxState r (ld.value j) (ud.value j) (grad.value j) (fixed j)) →
      s'.objective = s.objective + boxStep r (ld.value j) (ud.value j) (grad.value j) * grad.value j →
      BoxInv r fixed ld ud grad f st0 dim cap dim' cap' (j + 1) s' := by
    intro s' e1 e2 e3 e4 e5 e6 e7
    refine ⟨by rw [e1]; exact cur h.kl, by rw [e2]; exact cur h.ku, by rw [e3]; exact cur h.kg, ?_, ?_, ?_, ?_⟩
    · rw [e4, h.dir, List.range_succ, List.map_append]; rfl
    · rw [e5, h.dual, List.range_succ, List.filter_append, List.map_append]
      cases ha : boxActive r (ld.value j) (ud.value j) (grad.value j) <;> simp [ha]
    · intro i
      rw [e6]
      unfold WSet.upd
      by_cases hi : i = j
      · rw [if_pos hi, if_pos (by omega), hi]
      · rw [if_neg hi, h.states i]
        by_cases hlt : i < j
        · rw [if_pos hlt, if_pos (by omega)]
        · rw [if_neg hlt, if_neg (by omega)]
    · rw [e7, h.obj, sum_range_succ]; ring
  unfold boxCauchyBody
  simp only [vl, vu, vg]
  by_cases hng : -grad.value j ≥ 0
  · rw [if_pos hng]
    by_cases hru : r < ud.value j
    · have ha : boxActive r (ld.value j) (ud.value j) (grad.value j) = false := by
        unfold boxActive; rw [if_pos hng]; simp [hru]
      have hs : boxStep r (ld.value j) (ud.value j) (grad.value j) = r := by
        unfold boxStep; rw [if_pos hng, if_pos hru]
      rw [if_pos hru, pd]
      refine ⟨_, rfl, key _ rfl rfl rfl (by rw [hs]) (by rw [ha]; rfl) ?_ (by rw [hs])⟩
      unfold boxState; rw [ha]; rfl
    · have ha : boxActive r (ld.value j) (ud.value j) (grad.value j) = true := by
        unfold boxActive; rw [if_pos hng]; simp [hru]
      have hs : boxStep r (ld.value j) (ud.value j) (grad.value j) = ud.value j := by
        unfold boxStep; rw [if_pos hng, if_neg hru]
      rw [if_neg hru, pd, py]
      refine ⟨_, rfl, key _ rfl rfl rfl (by rw [hs]) (by rw [ha]; rfl) ?_ (by rw [hs])⟩
      unfold boxState; rw [ha, if_pos hng]; rfl
  · rw [if_neg hng]
    by_cases hru : ld.value j < -r
    · have ha : boxActive r (ld.value j) (ud.value j) (grad.value j) = false := by
        unfold boxActive; rw [if_neg hng]; simp [hru]
      have hs : boxStep r (ld.value j) (ud.value j) (grad.value j) = -r := by
        unfold boxStep; rw [if_neg hng, if_pos hru]
      rw [if_pos hru, pd]
      refine ⟨_, rfl, key _ rfl rfl rfl (by rw [hs]) (by rw [ha]; rfl) ?_ (by rw [hs])⟩
      unfold boxState; rw [ha]; rfl
    · have ha : boxActive r (ld.value j) (ud.value j) (grad.value j) = true := by
        unfold boxActive; rw [if_neg hng]; simp [hru]
      have hs : boxStep r (ld.value j) (ud.value j) (grad.value j) = ld.value j := by
        unfold boxStep; rw [if_neg hng, if_neg hru]
      rw [if_neg hru, pd, py]
      refine ⟨_, rfl, key _ rfl rfl rfl (by rw [hs]) (by rw [ha]; rfl) ?_ (by rw [hs])⟩
      unfold boxState; rw [ha, if_neg hng]; rfl

theorem foldlM_range_inv {σ : Type*} {P : Nat → σ → Prop} {f : σ → Nat → Option σ} (n : Nat) {s0 : σ} (h0 : P 0 s0)
    (hstep : ∀ j < n, ∀ s, P j s → ∃ s', f s j = some s' ∧ P (j + 1) s') :
    ∃ s, (List.range n).foldlM f s0 = some s ∧ P n s := by
  induction n with
  | zero => exact ⟨s0, rfl, h0⟩
  | succ n ih =>
    obtain ⟨s, h1, h2⟩ := ih fun j hj => hstep j (by omega)
    obtain ⟨s', h3, h4⟩ := hstep n (by omega) s h2
    refine ⟨s', ?_, h4⟩
    rw [List.range_succ, List.foldlM_append, h1]
    simp [h3]

theorem foldl_range_inv {σ : Type*} {P : Nat → σ → Prop} {f : σ → Nat → σ} (n : Nat) {s0 : σ} (h0 : P 0 s0)
    (hstep : ∀ j < n, ∀ s, P j s → P (j + 1) (f s j)) : P n ((List.range n).foldl f s0) := by
  induction n with
  | zero => exact h0
  | succ n ih =>
    rw [List.range_succ, List.foldl_append]
    exact hstep n (by omega) _ (ih fun j hj => hstep j (by omega))

/-- C29: variables count as fixed exactly if their bounds are finite and equal. -/
theorem C29_fixed (inf : K) (n : Nat) (lb ub : Vec K) (junk : Nat → Bool) (hl : lb.WF) (hu : ub.WF) (j : Nat)
    (hj : j < n) : computeFixedVars inf n lb ub junk j = true ↔
      |lb.value j| < inf / 2 ∧ |ub.value j| < inf / 2 ∧ lb.value j = ub.value j := by
  have key := foldl_range_inv (f := fixedVarsBody inf) (s0 := (lb.ents, ub.ents, junk)) n
    (P := fun j s => (∀ i ≥ j, cursorTo i s.1 = cursorTo i lb.ents) ∧ (∀ i ≥ j, cursorTo i s.2.1 = cursorTo i ub.ents) ∧
      ∀ i < j, s.2.2 i = (isFinite inf (lb.value i) && isFinite inf (ub.value i) && decide (lb.value i = ub.value i)))
    ⟨fun _ _ => rfl, fun _ _ => rfl, fun i hi => absurd hi (Nat.not_lt_zero _)⟩
    (by
      rintro j hj ⟨a, b, c⟩ ⟨h1, h2, h3⟩
      simp only at h1 h2 h3
      refine ⟨fun i hi => ?_, fun i hi => ?_, fun i hi => ?_⟩
      · simp only [fixedVarsBody]; rw [cursorTo_cursorTo (by omega), h1 i (by omega)]
      · simp only [fixedVarsBody]; rw [cursorTo_cursorTo (by omega), h2 i (by omega)]
      · simp only [fixedVarsBody]
        rw [h1 j le_rfl, h2 j le_rfl, cursorVal_cursorTo hl.srt, cursorVal_cursorTo hu.srt]
        unfold WSet.upd
        by_cases hij : i = j
        · rw [if_pos hij, hij]; rfl
        · rw [if_neg hij]; exact h3 i (by omega))
  unfold computeFixedVars
  rw [key.2.2 j hj]
  simp only [isFinite, isInfinite, Bool.and_eq_true, Bool.not_eq_true', decide_eq_false_iff_not, decide_eq_true_eq,
    ge_iff_le, not_le, and_assoc]

/-- distance to a bound as stored: differences of magnitude at most `zero_eps` are dropped -/
def diffVal (eps b x : K) : K := if |b - x| ≤ eps then 0 else b - x

theorem diffVal_close {eps b x : K} (h : 0 ≤ eps) : |diffVal eps b x - (b - x)| ≤ eps := by
  unfold diffVal
  split_ifs with h1
  · rw [zero_sub, abs_neg]; exact h1
  · rw [sub_self, abs_zero]; exact h

/-- the result of setting the iterate and solving -/
theorem box_solve {n : Nat} {lb ub x grad : Vec K} (c : BoxCauchy K) {f eps r : K} (hl : VOk n lb) (hu : VOk n ub)
    (hx : VOk n x) (hg : VOk n grad) (heps : 0 ≤ eps) (hd : c.direction.dim = n) (hdc : n ≤ c.direction.cap)
    (hy : c.duals.dim = n) (hyc : n ≤ c.duals.cap) (hbox : ∀ j < n, lb.value j ≤ x.value j ∧ x.value j ≤ ub.value j) :
    ∃ c1 c2, c.setIterate lb ub x eps r = some c1 ∧ c1.solve n f grad = some c2 ∧
      VOk n c2.direction ∧ VOk n c2.duals ∧
      (∀ j < n, c2.direction.value j =
        boxStep r (diffVal eps (lb.value j) (x.value j)) (diffVal eps (ub.value j) (x.value j)) (grad.value j)) ∧
      (∀ j < n, c2.duals.value j = if boxActive r (diffVal eps (lb.value j) (x.value j))
        (diffVal eps (ub.value j) (x.value j)) (grad.value j) then -grad.value j else 0) ∧
      (∀ j < n, c2.varStates j = boxState r (diffVal eps (lb.value j) (x.value j))
        (diffVal eps (ub.value j) (x.value j)) (grad.value j) (c.fixed j)) ∧
      c2.objective = f + ∑ j ∈ range n, grad.value j * c2.direction.value j := by
  obtain ⟨ld, l1, l2, l3, l4⟩ := C03_add_scaled lb x c.lowerDiff 1 (-1) eps hl.1 hx.1 (by rw [hl.2, hx.2]) heps
  obtain ⟨ud, u1, u2, u3, u4⟩ := C03_add_scaled ub x c.upperDiff 1 (-1) eps hu.1 hx.1 (by rw [hu.2, hx.2]) heps
  obtain ⟨b, b1, b2⟩ := C05_is_boxed x lb ub hx.1 hl.1 hu.1 (by rw [hl.2, hx.2]) (by rw [hu.2, hx.2])
  have hb : b = true := b2.mpr (by rw [hx.2]; exact hbox)
  have ldv : ∀ j, ld.value j = diffVal eps (lb.value j) (x.value j) := by
    intro j; rw [l4 j]; unfold diffVal; simp only [one_mul, neg_mul, ← sub_eq_add_neg]
  have udv : ∀ j, ud.value j = diffVal eps (ub.value j) (x.value j) := by
    intro j; rw [u4 j]; unfold diffVal; simp only [one_mul, neg_mul, ← sub_eq_add_neg]
  obtain ⟨s, s1, s2⟩ := foldlM_range_inv (f := boxCauchyBody r c.fixed) n
    (s0 := ⟨ld.ents, ud.ents, grad.ents, c.direction.clear, c.duals.clear, c.varStates, f⟩)
    (P := fun j s => BoxInv r c.fixed ld ud grad f c.varStates c.direction.dim c.direction.cap c.duals.dim c.duals.cap j s)
    ⟨fun _ _ => rfl, fun _ _ => rfl, fun _ _ => rfl, rfl, rfl, fun i => by simp, by simp⟩
    (fun j hj s hs => boxInv_step l2.srt u2.srt hg.1.srt (by omega) (by omega) (by omega) (by omega) hs)
  refine ⟨{ c with radius := r, lowerDiff := ld, upperDiff := ud }, _,
    by unfold BoxCauchy.setIterate; rw [if_pos (by rw [b1, hb]), l1, u1]; rfl,
    by unfold BoxCauchy.solve; simp only; rw [s1]; rfl, ?_, ?_, ?_, ?_, ?_, ?_⟩
  · simp only [s2.dir]
    refine ⟨⟨range_map_srt _ _, ?_, by simpa using hdc⟩, hd⟩
    intro e he
    obtain ⟨k, hk, rfl⟩ := List.mem_map.mp he
    rw [hd]; exact List.mem_range.mp hk
  · simp only [s2.dual]
    refine ⟨⟨range_filter_map_srt _ _ _, ?_, ?_⟩, hy⟩
    · intro e he
      obtain ⟨k, hk, rfl⟩ := List.mem_map.mp he
      rw [hy]; exact List.mem_range.mp (List.mem_filter.mp hk).1
    · simp only [List.length_map]
      have := List.length_filter_le (fun i => boxActive r (ld.value i) (ud.value i) (grad.value i)) (List.range n)
      rw [List.length_range] at this
      omega
  · intro j hj
    simp only [s2.dir, ← ldv, ← udv]
    exact (valAt_range_map (K := K) _ _ j).trans (if_pos hj)
  · intro j hj
    simp only [s2.dual, ← ldv, ← udv]
    refine (valAt_range_filter_map (K := K) _ _ _ j).trans ?_
    simp [hj]
  · intro j hj
    simp only [s2.states, if_pos hj, ← ldv, ← udv]
  · simp only [s2.obj]
    congr 1
    refine sum_congr rfl fun j hj => ?_
    congr 1
    simp only [s2.dir]
    symm
    exact (valAt_range_map (K := K) _ _ j).trans (if_pos (mem_range.mp hj))

/-- C29: for a point within its bounds the Cauchy step stays within the bounds and the trust
region, its reported objective is the value of the linear model at the step, and no other
step within bounds and trust region has a smaller model value.  (Exact for `zero_eps = 0`;
otherwise bound distances of at most `zero_eps` are treated as `0`, which costs at most
`zero_eps` per unit of gradient.) -/
theorem C29_box_optimal {n : Nat} {lb ub x grad : Vec K} (c : BoxCauchy K) {f eps r : K} (hl : VOk n lb)
    (hu : VOk n ub) (hx : VOk n x) (hg : VOk n grad) (heps : 0 ≤ eps) (hr : 0 ≤ r) (hd : c.direction.dim = n)
    (hdc : n ≤ c.direction.cap) (hy : c.duals.dim = n) (hyc : n ≤ c.duals.cap)
    (hbox : ∀ j < n, lb.value j ≤ x.value j ∧ x.value j ≤ ub.value j) :
    ∃ c1 c2, c.setIterate lb ub x eps r = some c1 ∧ c1.solve n f grad = some c2 ∧ VOk n c2.direction ∧
      (∀ j < n, lb.value j ≤ x.value j + c2.direction.value j ∧ x.value j + c2.direction.value j ≤ ub.value j ∧
        |c2.direction.value j| ≤ r) ∧
      c2.objective = f + ∑ j ∈ range n, grad.value j * c2.direction.value j ∧
      ∀ d : Nat → K, (∀ j < n, lb.value j ≤ x.value j + d j ∧ x.value j + d j ≤ ub.value j ∧ |d j| ≤ r) →
        c2.objective ≤ f + ∑ j ∈ range n, grad.value j * d j + eps * ∑ j ∈ range n, |grad.value j| := by
  obtain ⟨c1, c2, h1, h2, h3, _, h5, _, _, h8⟩ := box_solve c hl hu hx hg heps hd hdc hy hyc hbox (f := f) (r := r)
  have hlo : ∀ j < n, lb.value j - x.value j ≤ diffVal eps (lb.value j) (x.value j) ∧
      diffVal eps (lb.value j) (x.value j) ≤ 0 := by
    intro j hj
    have := (hbox j hj).1
    unfold diffVal; split_ifs <;> constructor <;> linarith
  have hup : ∀ j < n, diffVal eps (ub.value j) (x.value j) ≤ ub.value j - x.value j ∧
      0 ≤ diffVal eps (ub.value j) (x.value j) := by
    intro j hj
    have := (hbox j hj).2
    unfold diffVal; split_ifs <;> constructor <;> linarith
  refine ⟨c1, c2, h1, h2, h3, ?_, h8, ?_⟩
  · intro j hj
    obtain ⟨a1, a2, a3⟩ := boxStep_feasible (g := grad.value j) hr (hlo j hj).2 (hup j hj).2
    rw [h5 j hj]
    exact ⟨by have := (hlo j hj).1; linarith, by have := (hup j hj).1; linarith, a3⟩
  · intro d hdd
    rw [h8, add_assoc, mul_sum, ← sum_add_distrib]
    gcongr with j hj
    rw [mem_range] at hj
    obtain ⟨e1, e2, e3⟩ := hdd j hj
    rw [h5 j hj]
    -- clamp the competitor to the stored bounds
    have cl := diffVal_close (b := lb.value j) (x := x.value j) heps
    have cu := diffVal_close (b := ub.value j) (x := x.value j) heps
    rw [abs_le] at cl cu
    obtain ⟨d', hd'⟩ : ∃ d', d' = max (diffVal eps (lb.value j) (x.value j))
      (min (d j) (diffVal eps (ub.value j) (x.value j))) := ⟨_, rfl⟩
    have hle : diffVal eps (lb.value j) (x.value j) ≤ diffVal eps (ub.value j) (x.value j) :=
      (hlo j hj).2.trans (hup j hj).2
    have b1 : diffVal eps (lb.value j) (x.value j) ≤ d' := by rw [hd']; exact le_max_left _ _
    have b2 : d' ≤ diffVal eps (ub.value j) (x.value j) := by rw [hd']; exact max_le hle (min_le_right _ _)
    have b3 : |d' - d j| ≤ eps ∧ |d'| ≤ r := by
      rw [abs_le] at e3
      have := (hlo j hj).2
      have := (hup j hj).2
      rw [hd']
      rcases le_total (d j) (diffVal eps (ub.value j) (x.value j)) with hm | hm
      · rw [min_eq_left hm]
        rcases le_total (diffVal eps (lb.value j) (x.value j)) (d j) with hm2 | hm2
        · rw [max_eq_right hm2, sub_self, abs_zero, abs_le]; exact ⟨heps, e3⟩
        · rw [max_eq_left hm2, abs_le, abs_le]
          refine ⟨⟨?_, ?_⟩, ?_, ?_⟩ <;> linarith
      · rw [min_eq_right hm, max_eq_right hle, abs_le, abs_le]
        refine ⟨⟨?_, ?_⟩, ?_, ?_⟩ <;> linarith
    have o := boxStep_optimal (g := grad.value j) b1 b2 b3.2
    have : grad.value j * (d' - d j) ≤ eps * |grad.value j| := by
      calc grad.value j * (d' - d j) ≤ |grad.value j * (d' - d j)| := le_abs_self _
        _ = |grad.value j| * |d' - d j| := abs_mul _ _
        _ ≤ |grad.value j| * eps := by gcongr; exact b3.1
        _ = eps * |grad.value j| := mul_comm _ _
    linarith

/-- C29: the working set of the Cauchy step consists of the variables whose step ends at a
(stored) bound; the multipliers cancel the gradient there, vanish elsewhere and have the
signs the active bounds require. -/
theorem C29_box_active {n : Nat} {lb ub x grad : Vec K} (c : BoxCauchy K) {f eps r inf : K} (hl : VOk n lb)
    (hu : VOk n ub) (hx : VOk n x) (hg : VOk n grad) (heps : 0 ≤ eps) (hd : c.direction.dim = n)
    (hdc : n ≤ c.direction.cap) (hy : c.duals.dim = n) (hyc : n ≤ c.duals.cap)
    (hbox : ∀ j < n, lb.value j ≤ x.value j ∧ x.value j ≤ ub.value j) (junk : Nat → Bool)
    (hf : c.fixed = computeFixedVars inf n lb ub junk) (w : WSet) (hw : w.numVars = n) :
    ∃ c1 c2 w', c.setIterate lb ub x eps r = some c1 ∧ c1.solve n f grad = some c2 ∧
      c2.workingSet n w = some w' ∧ supportsRange w'.varState c2.duals = true ∧ w'.actCons = 0 ∧
      w'.valid = some true ∧
      ∀ j < n,
        (w'.varState j = .inactive → c2.duals.value j = 0 ∧ |c2.direction.value j| = |r|) ∧
        (w'.varState j ≠ .inactive → c2.duals.value j = -grad.value j) ∧
        (w'.varState j = .upper → c2.direction.value j = diffVal eps (ub.value j) (x.value j) ∧ 0 ≤ c2.duals.value j) ∧
        (w'.varState j = .lower → c2.direction.value j = diffVal eps (lb.value j) (x.value j) ∧ c2.duals.value j ≤ 0) ∧
        (w'.varState j = .both → lb.value j = ub.value j) := by
  obtain ⟨c1, c2, h1, h2, h3, h4, h5, h6, h7, _⟩ := box_solve c hl hu hx hg heps hd hdc hy hyc hbox (f := f) (r := r)
  -- the working set
  have hsub : ∀ j, j ≤ n → ∃ w', (List.range j).foldlM (boxWorkingSetBody c2.varStates) w.reset = some w' ∧
      WRep n w.numCons w' (((List.range j).filter fun i => decide (c2.varStates i ≠ .inactive)).map
        fun i => ⟨false, i, c2.varStates i⟩) := by
    intro j
    induction j with
    | zero => intro _; exact ⟨w.reset, rfl, wrep_reset hw rfl⟩
    | succ j ih =>
      intro hj
      obtain ⟨w1, a1, a2⟩ := ih (by omega)
      rw [List.range_succ, List.foldlM_append, a1, List.filter_append, List.map_append]
      simp only [List.foldlM_cons, List.foldlM_nil, Option.bind_eq_bind, Option.bind_some, boxWorkingSetBody]
      by_cases hs : c2.varStates j = .inactive
      · rw [if_neg (by simpa using hs)]
        exact ⟨w1, rfl, by simpa [hs] using a2⟩
      · rw [if_pos hs]
        obtain ⟨w2, b1, b2⟩ := wrep_addVar a2 (i := j) (st := c2.varStates j) (by omega)
          (by intro e he; obtain ⟨k, hk, rfl⟩ := List.mem_map.mp he; rfl)
          (by
            rintro e he ⟨_, hi⟩
            obtain ⟨k, hk, rfl⟩ := List.mem_map.mp he
            have := List.mem_range.mp (List.mem_filter.mp hk).1
            simp only at hi
            omega) hs
        rw [b1]
        exact ⟨w2, rfl, by simpa [hs] using b2⟩
  obtain ⟨w', w1, w2⟩ := hsub n le_rfl
  have hst : ∀ j < n, w'.varState j = c2.varStates j := by
    intro j hj
    by_cases hs : c2.varStates j = .inactive
    · rw [hs, w2.var_inactive hj]
      rintro e he ⟨_, hi⟩
      obtain ⟨k, hk, rfl⟩ := List.mem_map.mp he
      simp only at hi
      subst hi
      have := (List.mem_filter.mp hk).2
      simp [hs] at this
    · obtain ⟨k, hk, e⟩ := List.getElem_of_mem (show (⟨false, j, c2.varStates j⟩ : WEntry) ∈
        ((List.range n).filter fun i => decide (c2.varStates i ≠ .inactive)).map
          fun i => (⟨false, i, c2.varStates i⟩ : WEntry) from
        List.mem_map.mpr ⟨j, List.mem_filter.mpr ⟨List.mem_range.mpr hj, by simpa using hs⟩, rfl⟩)
      have := (w2.vidx k hk (by rw [e])).2
      rw [e] at this
      exact this
  have hfin : ∀ j < n,
        (w'.varState j = .inactive → c2.duals.value j = 0 ∧ |c2.direction.value j| = |r|) ∧
        (w'.varState j ≠ .inactive → c2.duals.value j = -grad.value j) ∧
        (w'.varState j = .upper → c2.direction.value j = diffVal eps (ub.value j) (x.value j) ∧ 0 ≤ c2.duals.value j) ∧
        (w'.varState j = .lower → c2.direction.value j = diffVal eps (lb.value j) (x.value j) ∧ c2.duals.value j ≤ 0) ∧
        (w'.varState j = .both → lb.value j = ub.value j) := by
    intro j hj
    have hfx : c.fixed j = true → lb.value j = ub.value j := fun h => by
      rw [hf] at h
      exact ((C29_fixed inf n lb ub junk hl.1 hu.1 j hj).mp h).2.2
    rw [hst j hj, h5 j hj, h6 j hj, h7 j hj]
    unfold boxState boxActive boxStep
    split_ifs <;> simp_all <;> try linarith
  refine ⟨c1, c2, w', h1, h2, w1, ?_, ?_, ?_, hfin⟩
  · rw [C30_supports _ _ h4.1, h4.2]
    intro j hj
    obtain ⟨a1, a2, a3, a4, _⟩ := hfin j hj
    cases hs : w'.varState j
    · exact (a1 hs).1
    · exact (a4 hs).2
    · exact (a3 hs).2
    · trivial
  · rw [w2.actCons_zero]
    intro e he
    obtain ⟨k, hk, rfl⟩ := List.mem_map.mp he
    rfl
  · rw [C30_valid w2, if_pos]
    rw [List.length_map]
    exact (List.length_filter_le _ _).trans (by simp)

/-- C29: without bounds the step moves every variable by the full radius against its
gradient; it minimises the linear model over the trust region. -/
theorem C29_unconstrained {n : Nat} {grad direction : Vec K} {f r : K} (hg : VOk n grad) (hr : 0 ≤ r)
    (hd : direction.dim = n) (hc : n ≤ direction.cap) :
    ∃ d obj, unconCauchySolve n r f grad direction = some (d, obj) ∧ VOk n d ∧
      (∀ j < n, |d.value j| ≤ r) ∧ obj = f + ∑ j ∈ range n, grad.value j * d.value j ∧
      ∀ d' : Nat → K, (∀ j < n, |d' j| ≤ r) → obj ≤ f + ∑ j ∈ range n, grad.value j * d' j := by
  obtain ⟨s, s1, s2⟩ := foldlM_range_inv (f := unconCauchyBody r) n (s0 := (grad.ents, direction.clear, f))
    (P := fun j s => (∀ i ≥ j, cursorTo i s.1 = cursorTo i grad.ents) ∧
      s.2.1 = ⟨n, direction.cap, (List.range j).map fun i => (i, if -grad.value i ≥ 0 then r else -r)⟩ ∧
      s.2.2 = f + ∑ i ∈ range j, grad.value i * if -grad.value i ≥ 0 then r else -r)
    ⟨fun _ _ => rfl, by simp [Vec.clear, hd], by simp⟩
    (by
      rintro j hj ⟨a, b, o⟩ ⟨h1, h2, h3⟩
      simp only at h1 h2 h3
      have vg : cursorVal j (cursorTo j a) = grad.value j := by
        rw [h1 j le_rfl]; exact cursorVal_cursorTo hg.1.srt j
      have pd : ∀ x : K, b.push j x = some { b with ents := b.ents ++ [(j, x)] } := by
        intro x
        rw [h2]
        refine push_range x ?_ hj (by simp; omega)
        intro e he
        obtain ⟨k, hk, rfl⟩ := List.mem_map.mp he
        exact List.mem_range.mp hk
      unfold unconCauchyBody
      simp only [vg]
      by_cases hn : -grad.value j ≥ 0
      · rw [if_pos hn, pd]
        refine ⟨_, rfl, fun i hi => ?_, ?_, ?_⟩
        · simp only; rw [cursorTo_cursorTo (by omega), h1 i (by omega)]
        · simp only [h2, List.range_succ, List.map_append, List.map_cons, List.map_nil, if_pos hn]
        · simp only [h3, sum_range_succ, if_pos hn]; ring
      · rw [if_neg hn, pd]
        refine ⟨_, rfl, fun i hi => ?_, ?_, ?_⟩
        · simp only; rw [cursorTo_cursorTo (by omega), h1 i (by omega)]
        · simp only [h2, List.range_succ, List.map_append, List.map_cons, List.map_nil, if_neg hn]
        · simp only [h3, sum_range_succ, if_neg hn]; ring)
  obtain ⟨_, s3, s4⟩ := s2
  have hv : ∀ j < n, s.2.1.value j = if -grad.value j ≥ 0 then r else -r := by
    intro j hj
    rw [s3]
    exact (valAt_range_map _ _ j).trans (if_pos hj)
  refine ⟨s.2.1, s.2.2, by unfold unconCauchySolve; rw [s1]; rfl, ?_, ?_, ?_, ?_⟩
  · rw [s3]
    refine ⟨⟨range_map_srt _ _, ?_, by simpa using hc⟩, rfl⟩
    intro e he
    obtain ⟨k, hk, rfl⟩ := List.mem_map.mp he
    exact List.mem_range.mp hk
  · intro j hj
    rw [hv j hj]
    split_ifs
    · rw [abs_of_nonneg hr]
    · rw [abs_neg, abs_of_nonneg hr]
  · rw [s4]
    congr 1
    exact sum_congr rfl fun j hj => by rw [hv j (mem_range.mp hj)]
  · intro d' hd'
    rw [s4]
    refine add_le_add_right (sum_le_sum fun j hj => ?_) f
    have := abs_le.mp (hd' j (mem_range.mp hj))
    split_ifs with h <;> nlinarith

/-- two variables in `[0, 1] × [0, 5]` at `(1/2, 4)` with gradient `(-1, 2)`, radius 2 -/
example : ∃ c2 : BoxCauchy ℚ, ((⟨1, .create 2 0, .create 2 0, .create 2 2, .create 2 2, fun _ => .inactive,
      fun _ => false, 0⟩ : BoxCauchy ℚ).setIterate ⟨2, 0, []⟩ ⟨2, 2, [(0, 1), (1, 5)]⟩ ⟨2, 2, [(0, 1/2), (1, 4)]⟩ 0 2).bind
      (fun c1 => c1.solve 2 7 ⟨2, 2, [(0, -1), (1, 2)]⟩) = some c2 ∧
    (∀ j < 2, |c2.direction.value j| ≤ 2) := by
  obtain ⟨c1, c2, h1, h2, _, h3, _⟩ := C29_box_optimal (K := ℚ) (n := 2)
    (⟨1, .create 2 0, .create 2 0, .create 2 2, .create 2 2, fun _ => .inactive, fun _ => false, 0⟩ : BoxCauchy ℚ)
    (lb := ⟨2, 0, []⟩) (ub := ⟨2, 2, [(0, 1), (1, 5)]⟩) (x := ⟨2, 2, [(0, 1/2), (1, 4)]⟩)
    (grad := ⟨2, 2, [(0, -1), (1, 2)]⟩) (f := 7) (eps := 0) (r := 2)
    ⟨⟨by simp [Srt], by simp, by simp⟩, rfl⟩ ⟨⟨by simp [Srt], by simp, by simp⟩, rfl⟩
    ⟨⟨by simp [Srt], by simp, by simp⟩, rfl⟩ ⟨⟨by simp [Srt], by simp, by simp⟩, rfl⟩ le_rfl (by norm_num)
    rfl le_rfl rfl le_rfl (by
      intro j hj
      interval_cases j <;> simp [Vec.value, valAt, at?] <;> norm_num)
  exact ⟨c2, by rw [h1]; exact h2, fun j hj => (h3 j hj).2.2⟩

end Sleqp
