import Verif.Model.Bfgs
import Verif.Spec.Bfgs
import Verif.Props.Vec
import Verif.Lemmas.Ring
import Mathlib.Algebra.BigOperators.Fin

/-! Sparse vectors as dense vectors; ring buffer slots (helpers for the quasi-Newton files). -/

namespace Sleqp
open Matrix

namespace Ring
variable {α : Type*}

theorem window_len (r : Ring α) : r.window r.len = r.contents := rfl

theorem contents_nil (r : Ring α) (h : r.len = 0) : r.contents = [] :=
  List.eq_nil_of_length_eq_zero (by rw [contents_length, h])

theorem window_succ (r : Ring α) (k : Nat) : r.window (k + 1) = r.window k ++ [r.arr (r.slotAt k)] := by
  unfold window; rw [List.range_succ, List.map_append]; rfl

theorem slotAt_inj (r : Ring α) (hr : r.Inv) {i k : Nat} (hi : i < r.len) (hk : k < r.len)
    (h : r.slotAt i = r.slotAt k) : i = k := by
  have hl : 0 < r.len := by omega
  have h1 := dataIndex_eq r (r.curr - r.len + 1 + i) hl hr.pos
  have h2 := dataIndex_eq r (r.curr - r.len + 1 + k) hl hr.pos
  unfold slotAt at h
  have hle := hr.le
  rcases Nat.lt_trichotomy i k with hlt | heq | hgt
  · exact absurd (by omega) (emod_ne (a := r.curr - r.len + 1 + k) (b := r.curr - r.len + 1 + i)
      (n := r.num) (by omega) (by omega))
  · exact heq
  · exact absurd (by omega) (emod_ne (a := r.curr - r.len + 1 + i) (b := r.curr - r.len + 1 + k)
      (n := r.num) (by omega) (by omega))

theorem setSlot_slotAt (r : Ring α) (k : Nat) (x : α) (i : Nat) : (r.setSlot k x).slotAt i = r.slotAt i := rfl

theorem setSlot_inv (r : Ring α) (hr : r.Inv) (k : Nat) (x : α) : (r.setSlot k x).Inv := ⟨hr.pos, hr.le⟩

theorem setSlot_arr (r : Ring α) (hr : r.Inv) {k i : Nat} (x : α) (hk : k < r.len) (hi : i < r.len) :
    (r.setSlot k x).arr (r.slotAt i) = if i = k then x else r.arr (r.slotAt i) := by
  show (if r.slotAt i = r.slotAt k then x else r.arr (r.slotAt i)) = _
  by_cases h : i = k
  · subst h; simp
  · rw [if_neg h, if_neg (fun hc => h (slotAt_inj r hr hi hk hc))]

theorem setSlot_window_le (r : Ring α) (hr : r.Inv) {k m : Nat} (x : α) (hk : k < r.len) (hm : m ≤ k) :
    (r.setSlot k x).window m = r.window m := by
  unfold window
  refine List.map_congr_left fun i hi => ?_
  have : i < m := List.mem_range.mp hi
  rw [setSlot_slotAt, setSlot_arr r hr x hk (by omega), if_neg (by omega)]

theorem setSlot_window_succ (r : Ring α) (hr : r.Inv) {k : Nat} (x : α) (hk : k < r.len) :
    (r.setSlot k x).window (k + 1) = r.window k ++ [x] := by
  rw [window_succ, setSlot_window_le r hr x hk le_rfl, setSlot_slotAt, setSlot_arr r hr x hk hk, if_pos rfl]

theorem pushSet_contents (r : Ring α) (hr : r.Inv) (x : α) :
    (r.pushSet x).contents = (r.contents ++ [x]).drop (r.len + 1 - r.num) := by
  refine store_contents r hr x _ ?_
  exact Int.emod_eq_of_lt (by omega) (by have := dataIndex_lt r (r.curr + 1) hr.pos; omega)

theorem pushSet_newest (r : Ring α) (x : α) : (r.pushSet x).arr (r.pushSet x).curr.toNat = x := by
  simp [pushSet, store]

theorem pushSet_len (r : Ring α) (hr : r.Inv) (x : α) : 0 < (r.pushSet x).len := by
  have := hr.pos
  simp only [pushSet, store]; split <;> omega

end Ring

variable {K : Type*} [Field K] [LinearOrder K]

/-- well formed vector of dimension `n` -/
def VOk (n : Nat) (v : Vec K) : Prop := v.WF ∧ v.dim = n

omit [Field K] [LinearOrder K] in
theorem copy_spec {n : Nat} {v t : Vec K} (hv : VOk n v) (ht : t.dim = n) :
    ∃ r, Vec.copy v t = some r ∧ VOk n r ∧ r.ents = v.ents := by
  have hp := Vec.pushAll_ok ((t.reserve v.nnz).clear) v.ents (by simpa [Vec.clear] using hv.1.srt)
    (by
      intro e he
      have := hv.1.lt_dim e he
      rw [hv.2] at this
      simpa [Vec.clear, Vec.reserve, ht] using this)
    (by simp [Vec.clear, Vec.reserve, Vec.nnz])
  refine ⟨⟨t.dim, max t.cap v.nnz, v.ents⟩, ?_, ⟨⟨hv.1.srt, ?_, le_max_right _ _⟩, ht⟩, rfl⟩
  · unfold Vec.copy
    rw [if_pos (by rw [hv.2, ht]), hp]
    simp [Vec.clear, Vec.reserve]
  · intro e he
    have := hv.1.lt_dim e he
    rw [hv.2] at this
    simpa [ht] using this

theorem dense_of_ents {n : Nat} {v w : Vec K} (h : v.ents = w.ents) : dense n v = dense n w := by
  funext i; unfold dense Vec.value; rw [h]

theorem dot_dense [IsStrictOrderedRing K] {n : Nat} {v w : Vec K} (hv : VOk n v) (hw : VOk n w) :
    v.dot w = some (dense n v ⬝ᵥ dense n w) := by
  rw [C03_dot v w hv.1 hw.1 (by rw [hv.2, hw.2]), hv.2]
  congr 1
  rw [Finset.sum_range]
  rfl

theorem normSq_dense {n : Nat} [IsStrictOrderedRing K] {v : Vec K} (hv : VOk n v) :
    v.normSq = dense n v ⬝ᵥ dense n v := by
  rw [(C03_norms v hv.1).2, hv.2, Finset.sum_range]
  exact Finset.sum_congr rfl fun i _ => by unfold dense; rw [sq]

theorem addScaled_dense [IsStrictOrderedRing K] {n : Nat} {a b r0 : Vec K} (f g : K) (ha : VOk n a) (hb : VOk n b) :
    ∃ r, Vec.addScaled a b f g 0 r0 = some r ∧ VOk n r ∧ dense n r = f • dense n a + g • dense n b := by
  obtain ⟨r, h1, h2, h3, h4⟩ := C03_add_scaled a b r0 f g 0 ha.1 hb.1 (by rw [ha.2, hb.2]) le_rfl
  refine ⟨r, h1, ⟨h2, by rw [h3, ha.2]⟩, ?_⟩
  funext i
  unfold dense
  rw [h4 i]
  simp only [Pi.add_apply, Pi.smul_apply, smul_eq_mul]
  split
  · rename_i h
    exact (abs_nonpos_iff.mp h).symm
  · rfl

theorem scale_dense [IsStrictOrderedRing K] {n : Nat} {v : Vec K} (hv : VOk n v) (c : K) :
    VOk n (v.scale c) ∧ dense n (v.scale c) = c • dense n v := by
  obtain ⟨h1, h2⟩ := C03_scale v c
  refine ⟨⟨scale_wf hv.1 c, by rw [h1, hv.2]⟩, ?_⟩
  funext i
  unfold dense
  rw [h2 i, mul_comm]; rfl

theorem create_ok (n c : Nat) : VOk n (Vec.create n c : Vec K) :=
  ⟨⟨by simp [Vec.create, Srt], by simp [Vec.create], by simp [Vec.create]⟩, rfl⟩

theorem dense_eq_iff {n : Nat} {v : Vec K} (hv : VOk n v) (f : Nat → K) :
    (∀ i < n, v.value i = f i) ↔ dense n v = fun i : Fin n => f i := by
  constructor
  · intro h; funext i; exact h i i.2
  · intro h i hi; exact congrFun h ⟨i, hi⟩

end Sleqp
