import Verif.Lemmas.Vec
import Verif.Spec.Remove
import Verif.Model.Preprocessing

/-! Helper lemmas for C07. -/

namespace Sleqp

variable {K : Type*}

theorem oldIdx_ge (rem : List Nat) (i : Nat) : i ≤ oldIdx rem i := by
  induction rem generalizing i with
  | nil => exact le_rfl
  | cons r rs ih =>
    unfold oldIdx
    split
    · have := ih (i + 1); omega
    · exact le_rfl

theorem oldIdx_le (rem : List Nat) (i : Nat) : oldIdx rem i ≤ i + rem.length := by
  induction rem generalizing i with
  | nil => simp [oldIdx]
  | cons r rs ih =>
    unfold oldIdx
    split
    · have := ih (i + 1); simp; omega
    · omega

theorem oldIdx_of_lt {rem : List Nat} {i : Nat} (h : ∀ r ∈ rem, i < r) : oldIdx rem i = i := by
  cases rem with
  | nil => rfl
  | cons r rs =>
    unfold oldIdx
    rw [if_neg (by have := h r (by simp); omega)]

theorem oldIdx_strictMono {rem : List Nat} (hs : rem.Pairwise (· < ·)) {i j : Nat} (h : i < j) :
    oldIdx rem i < oldIdx rem j := by
  induction rem generalizing i j with
  | nil => exact h
  | cons r rs ih =>
    obtain ⟨h1, h2⟩ := List.pairwise_cons.mp hs
    unfold oldIdx
    split <;> split
    · exact ih h2 (by omega)
    · omega
    · have := oldIdx_ge rs (j + 1); omega
    · exact h

theorem oldIdx_not_mem {rem : List Nat} (hs : rem.Pairwise (· < ·)) (i : Nat) :
    oldIdx rem i ∉ rem := by
  induction rem generalizing i with
  | nil => simp
  | cons r rs ih =>
    obtain ⟨h1, h2⟩ := List.pairwise_cons.mp hs
    unfold oldIdx
    split
    · have h3 := ih h2 (i + 1)
      have h4 := oldIdx_ge rs (i + 1)
      simp only [List.mem_cons, not_or]
      exact ⟨by omega, h3⟩
    · simp only [List.mem_cons, not_or]
      refine ⟨by omega, fun h => ?_⟩
      have := h1 i h; omega

theorem oldIdx_surj {rem : List Nat} (hs : rem.Pairwise (· < ·)) {j : Nat} (hj : j ∉ rem) :
    ∃ i, oldIdx rem i = j := by
  suffices H : ∀ m, m ≤ j → ∀ rem : List Nat, rem.Pairwise (· < ·) → (∀ r ∈ rem, m ≤ r) → j ∉ rem →
      ∃ i, i + (rem.filter (· < j)).length = j ∧ oldIdx rem i = j by
    obtain ⟨i, _, h⟩ := H 0 (Nat.zero_le _) rem hs (by simp) hj
    exact ⟨i, h⟩
  intro m hm rem hs hb hj
  induction rem generalizing m with
  | nil => exact ⟨j, by simp, rfl⟩
  | cons r rs ih =>
    obtain ⟨h1, h2⟩ := List.pairwise_cons.mp hs
    simp only [List.mem_cons, not_or] at hj
    by_cases hr : r < j
    · obtain ⟨i, hi1, hi2⟩ := ih (r + 1) (by omega) h2 (fun x hx => h1 x hx) hj.2
      have hbnd : r < i := by
        have hlen : ((rs.filter (· < j)).length) + (r + 1) ≤ j := by
          have hp : (rs.filter (· < j)).Pairwise (· < ·) := h2.filter _
          have hmem : ∀ x ∈ rs.filter (· < j), r + 1 ≤ x ∧ x < j := by
            intro x hx
            rw [List.mem_filter] at hx
            exact ⟨h1 x hx.1, by simpa using hx.2⟩
          generalize rs.filter (· < j) = l at hp hmem
          have hnd : l.Nodup := hp.imp (fun h => h.ne)
          have hsub : l ⊆ List.range' (r + 1) (j - (r + 1)) := by
            intro x hx
            rw [List.mem_range'_1]
            have := hmem x hx; omega
          have := (hnd.subperm hsub).length_le
          rw [List.length_range'] at this
          omega
        omega
      refine ⟨i - 1, ?_, ?_⟩
      · rw [List.filter_cons_of_pos (by simpa using hr)]
        simp; omega
      · unfold oldIdx
        rw [if_pos (by omega), show i - 1 + 1 = i by omega, hi2]
    · refine ⟨j, ?_, ?_⟩
      · rw [List.filter_cons_of_neg (by simpa using hr)]
        have : rs.filter (· < j) = [] := by
          rw [List.filter_eq_nil_iff]
          intro x hx
          have := h1 x hx
          simp; omega
        simp [this]
      · unfold oldIdx
        rw [if_neg (by omega)]

namespace Vec

theorem removeLoop_spec (rem : List Nat) (off : Nat) (src : List (Nat × K))
    (hs : rem.Pairwise (· < ·)) (hsrc : Srt src) (h1 : ∀ r ∈ rem, off ≤ r)
    (h2 : ∀ e ∈ src, off ≤ e.1) :
    Srt (removeLoop rem off src) ∧
    ∀ j v, (j, v) ∈ removeLoop rem off src ↔ (oldIdx rem (j + off), v) ∈ src := by
  fun_induction removeLoop rem off src with
  | case1 => simp [Srt]
  | case2 off i v t ih =>
    obtain ⟨hc1, hc2⟩ := srt_cons.mp hsrc
    obtain ⟨s, m⟩ := ih hs hc2 h1 (fun e he => h2 e (by simp [he]))
    have hi := h2 (i, v) (by simp)
    simp only [oldIdx] at m ⊢
    refine ⟨srt_cons.mpr ⟨?_, s⟩, ?_⟩
    · rintro ⟨j, w⟩ he
      have := hc1 _ ((m j w).mp he)
      simp at this hi ⊢; omega
    · intro j w
      simp only [List.mem_cons, m, Prod.mk.injEq]
      simp at hi
      constructor
      · rintro (⟨rfl, rfl⟩ | h)
        · left; exact ⟨by omega, rfl⟩
        · right; exact h
      · rintro (⟨h, rfl⟩ | h)
        · left; exact ⟨by omega, rfl⟩
        · right; exact h
  | case3 r rs off i v t hlt ih =>
    obtain ⟨hp1, hp2⟩ := List.pairwise_cons.mp hs
    obtain ⟨hc1, hc2⟩ := srt_cons.mp hsrc
    have hr := h1 r (by simp)
    obtain ⟨s, m⟩ := ih hp2 hsrc (fun x hx => by have := hp1 x hx; omega) (by
      intro e he
      simp only [List.mem_cons] at he
      rcases he with rfl | he
      · simp; omega
      · have := hc1 e he; simp at this; omega)
    refine ⟨s, fun j w => ?_⟩
    rw [m]
    have hmin : ∀ e ∈ (i, v) :: t, r < e.1 := by
      intro e he
      simp only [List.mem_cons] at he
      rcases he with rfl | he
      · exact hlt
      · have := hc1 e he; simp at this; omega
    by_cases hj : r ≤ j + off
    · rw [oldIdx, if_pos hj, show j + (off + 1) = j + off + 1 by omega]
    · rw [oldIdx, if_neg hj, oldIdx_of_lt (fun x hx => by have := hp1 x hx; omega)]
      constructor
      · intro h; have := hmin _ h; simp at this; omega
      · intro h; have := hmin _ h; simp at this; omega
  | case4 rs off i v t hlt ih =>
    obtain ⟨hc1, hc2⟩ := srt_cons.mp hsrc
    obtain ⟨s, m⟩ := ih hs hc2 h1 (fun e he => h2 e (by simp [he]))
    refine ⟨s, fun j w => ?_⟩
    rw [m, List.mem_cons]
    constructor
    · exact Or.inr
    · rintro (h | h)
      · simp only [Prod.mk.injEq] at h
        have := oldIdx_not_mem hs (j + off)
        rw [h.1] at this
        simp at this
      · exact h
  | case5 r rs off i v t hlt hne ih =>
    obtain ⟨hc1, hc2⟩ := srt_cons.mp hsrc
    obtain ⟨s, m⟩ := ih hs hc2 h1 (fun e he => h2 e (by simp [he]))
    have hi := h2 (i, v) (by simp)
    simp only at hi
    have key : ∀ j, oldIdx (r :: rs) (j + off) = i ↔ j + off = i := by
      intro j
      unfold oldIdx
      split
      · have := oldIdx_ge rs (j + off + 1); constructor <;> intro h <;> omega
      · rfl
    refine ⟨srt_cons.mpr ⟨?_, s⟩, ?_⟩
    · rintro ⟨j, w⟩ he
      have h3 := hc1 _ ((m j w).mp he)
      simp only at h3 ⊢
      by_contra hcon
      rw [oldIdx, if_neg (by omega)] at h3
      omega
    · intro j w
      simp only [List.mem_cons, m, Prod.mk.injEq, key]
      constructor
      · rintro (⟨rfl, rfl⟩ | h)
        · left; exact ⟨by omega, rfl⟩
        · right; exact h
      · rintro (⟨h, rfl⟩ | h)
        · left; exact ⟨by omega, rfl⟩
        · right; exact h

theorem mergeLoop_spec (fx : List (Nat × K)) (off : Nat) (src : List (Nat × K))
    (hs : Srt fx) (hsrc : Srt src) :
    Srt (mergeLoop fx off src) ∧
    ∀ j v, (j, v) ∈ mergeLoop fx off src ↔ (j, v) ∈ fx ∨
      ∃ i, (i, v) ∈ src ∧ j = oldIdx (fx.map Prod.fst) (i + off) := by
  fun_induction mergeLoop fx off src with
  | case1 fx off => simpa using hs
  | case2 off i v t ih =>
    obtain ⟨hc1, hc2⟩ := srt_cons.mp hsrc
    obtain ⟨s, m⟩ := ih hs hc2
    simp only [List.map_nil, oldIdx, List.not_mem_nil, false_or] at m ⊢
    refine ⟨srt_cons.mpr ⟨?_, s⟩, ?_⟩
    · rintro ⟨j, w⟩ he
      obtain ⟨k, hk, rfl⟩ := (m j w).mp he
      have := hc1 _ hk
      simp only at this ⊢; omega
    · intro j w
      simp only [List.mem_cons, m, Prod.mk.injEq]
      constructor
      · rintro (⟨rfl, rfl⟩ | ⟨k, hk, rfl⟩)
        · exact ⟨i, Or.inl ⟨rfl, rfl⟩, rfl⟩
        · exact ⟨k, Or.inr hk, rfl⟩
      · rintro ⟨k, ⟨rfl, rfl⟩ | hk, rfl⟩
        · left; exact ⟨rfl, rfl⟩
        · right; exact ⟨k, hk, rfl⟩
  | case3 r w0 fs off i v t hle ih =>
    obtain ⟨hp1, hp2⟩ := srt_cons.mp hs
    obtain ⟨hc1, hc2⟩ := srt_cons.mp hsrc
    obtain ⟨s, m⟩ := ih hp2 hsrc
    have hmin : ∀ e ∈ (i, v) :: t, r ≤ e.1 + off := by
      intro e he
      simp only [List.mem_cons] at he
      rcases he with rfl | he
      · exact hle
      · have := hc1 e he; simp at this; omega
    refine ⟨srt_cons.mpr ⟨?_, s⟩, ?_⟩
    · rintro ⟨j, w⟩ he
      rcases (m j w).mp he with h | ⟨k, hk, rfl⟩
      · exact hp1 _ h
      · have h3 := hmin _ hk
        have h4 := oldIdx_ge (fs.map Prod.fst) (k + (off + 1))
        simp only at h3 ⊢; omega
    · intro j w
      rw [List.mem_cons, m]
      have : ∀ k, (k, w) ∈ (i, v) :: t →
          oldIdx (List.map Prod.fst ((r, w0) :: fs)) (k + off) =
            oldIdx (fs.map Prod.fst) (k + (off + 1)) := by
        intro k hk
        rw [List.map_cons, oldIdx, if_pos (hmin _ hk)]
        rfl
      constructor
      · rintro (h | h | ⟨k, hk, rfl⟩)
        · left; simp [h]
        · left; simp [h]
        · right; exact ⟨k, hk, (this k hk).symm⟩
      · rintro (h | ⟨k, hk, rfl⟩)
        · rw [List.mem_cons] at h
          rcases h with h | h
          · left; exact h
          · right; left; exact h
        · right; right; exact ⟨k, hk, this k hk⟩
  | case4 r w0 fs off i v t hle ih =>
    obtain ⟨hp1, hp2⟩ := srt_cons.mp hs
    obtain ⟨hc1, hc2⟩ := srt_cons.mp hsrc
    obtain ⟨s, m⟩ := ih hs hc2
    have hhead : oldIdx (List.map Prod.fst ((r, w0) :: fs)) (i + off) = i + off := by
      rw [List.map_cons, oldIdx, if_neg hle]
    refine ⟨srt_cons.mpr ⟨?_, s⟩, ?_⟩
    · rintro ⟨j, w⟩ he
      rcases (m j w).mp he with h | ⟨k, hk, rfl⟩
      · rw [List.mem_cons] at h
        rcases h with h | h
        · simp only [Prod.mk.injEq] at h; simp only; omega
        · have := hp1 _ h; simp only at this ⊢; omega
      · have h3 := hc1 _ hk
        have h4 := oldIdx_ge (List.map Prod.fst ((r, w0) :: fs)) (k + off)
        simp only at h3 ⊢; omega
    · intro j w
      rw [List.mem_cons, m]
      constructor
      · rintro (h | h | ⟨k, hk, rfl⟩)
        · right
          simp only [Prod.mk.injEq] at h
          exact ⟨i, by simp [h.2], by rw [hhead]; exact h.1⟩
        · left; exact h
        · right; exact ⟨k, by simp [hk], rfl⟩
      · rintro (h | ⟨k, hk, rfl⟩)
        · right; left; exact h
        · rw [List.mem_cons] at hk
          rcases hk with h | h
          · simp only [Prod.mk.injEq] at h
            left; rw [h.1, hhead, h.2]
          · right; right; exact ⟨k, h, rfl⟩

theorem addZeroLoop_spec (rem : List Nat) (off : Nat) (src : List (Nat × K))
    (hs : rem.Pairwise (· < ·)) (hsrc : Srt src) :
    Srt (addZeroLoop rem off src) ∧
    ∀ j v, (j, v) ∈ addZeroLoop rem off src ↔ ∃ i, (i, v) ∈ src ∧ j = oldIdx rem (i + off) := by
  fun_induction addZeroLoop rem off src with
  | case1 => simp [Srt]
  | case2 off i v t ih =>
    obtain ⟨hc1, hc2⟩ := srt_cons.mp hsrc
    obtain ⟨s, m⟩ := ih hs hc2
    simp only [oldIdx] at m ⊢
    refine ⟨srt_cons.mpr ⟨?_, s⟩, ?_⟩
    · rintro ⟨j, w⟩ he
      obtain ⟨k, hk, rfl⟩ := (m j w).mp he
      have := hc1 _ hk
      simp only at this ⊢; omega
    · intro j w
      simp only [List.mem_cons, m, Prod.mk.injEq]
      constructor
      · rintro (⟨rfl, rfl⟩ | ⟨k, hk, rfl⟩)
        · exact ⟨i, Or.inl ⟨rfl, rfl⟩, rfl⟩
        · exact ⟨k, Or.inr hk, rfl⟩
      · rintro ⟨k, ⟨rfl, rfl⟩ | hk, rfl⟩
        · left; exact ⟨rfl, rfl⟩
        · right; exact ⟨k, hk, rfl⟩
  | case3 r fs off i v t hle ih =>
    obtain ⟨hp1, hp2⟩ := List.pairwise_cons.mp hs
    obtain ⟨hc1, hc2⟩ := srt_cons.mp hsrc
    obtain ⟨s, m⟩ := ih hp2 hsrc
    have hmin : ∀ e ∈ (i, v) :: t, r ≤ e.1 + off := by
      intro e he
      simp only [List.mem_cons] at he
      rcases he with rfl | he
      · exact hle
      · have := hc1 e he; simp at this; omega
    refine ⟨s, fun j w => ?_⟩
    rw [m]
    have : ∀ k, (k, w) ∈ (i, v) :: t →
        oldIdx (r :: fs) (k + off) = oldIdx fs (k + (off + 1)) := by
      intro k hk
      rw [oldIdx, if_pos (hmin _ hk)]
      rfl
    constructor
    · rintro ⟨k, hk, rfl⟩
      exact ⟨k, hk, (this k hk).symm⟩
    · rintro ⟨k, hk, rfl⟩
      exact ⟨k, hk, this k hk⟩
  | case4 r fs off i v t hle ih =>
    obtain ⟨hc1, hc2⟩ := srt_cons.mp hsrc
    obtain ⟨s, m⟩ := ih hs hc2
    have hhead : oldIdx (r :: fs) (i + off) = i + off := by
      rw [oldIdx, if_neg hle]
    refine ⟨srt_cons.mpr ⟨?_, s⟩, ?_⟩
    · rintro ⟨j, w⟩ he
      obtain ⟨k, hk, rfl⟩ := (m j w).mp he
      have h3 := hc1 _ hk
      have h4 := oldIdx_ge (r :: fs) (k + off)
      simp only at h3 ⊢; omega
    · intro j w
      rw [List.mem_cons, m]
      constructor
      · rintro (h | ⟨k, hk, rfl⟩)
        · simp only [Prod.mk.injEq] at h
          exact ⟨i, by simp [h.2], by rw [hhead]; exact h.1⟩
        · exact ⟨k, by simp [hk], rfl⟩
      · rintro ⟨k, hk, rfl⟩
        rw [List.mem_cons] at hk
        rcases hk with h | h
        · simp only [Prod.mk.injEq] at h
          left; rw [h.1, hhead, h.2]
        · right; exact ⟨k, h, rfl⟩

end Vec

theorem oldIdx_inj {rem : List Nat} (hs : rem.Pairwise (· < ·)) {i j : Nat}
    (h : oldIdx rem i = oldIdx rem j) : i = j := by
  rcases Nat.lt_trichotomy i j with h1 | h1 | h1
  · have := oldIdx_strictMono hs h1; omega
  · exact h1
  · have := oldIdx_strictMono hs h1; omega

/-- two optional lookups agree if they agree on `some` -/
theorem at?_congr {l m : List (Nat × K)} (hl : Srt l) (hm : Srt m) {i j : Nat}
    (h : ∀ v, (i, v) ∈ l ↔ (j, v) ∈ m) : at? l i = at? m j := by
  ext v
  rw [at?_eq_some_iff hl, at?_eq_some_iff hm, h]

end Sleqp
