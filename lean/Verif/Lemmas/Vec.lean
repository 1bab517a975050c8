import Verif.Spec.Vec
import Mathlib.Data.List.Basic
import Mathlib.Data.List.Perm.Subperm
import Mathlib.Tactic.Linarith
import Mathlib.Tactic.Ring

/-! Helper lemmas on sparse entry lists. -/

namespace Sleqp

variable {α β γ K : Type*}

theorem Srt.nil : Srt ([] : List (Nat × α)) := List.Pairwise.nil

theorem srt_cons {e : Nat × α} {l : List (Nat × α)} :
    Srt (e :: l) ↔ (∀ a ∈ l, e.1 < a.1) ∧ Srt l := List.pairwise_cons

theorem srt_append {l m : List (Nat × α)} :
    Srt (l ++ m) ↔ Srt l ∧ Srt m ∧ ∀ a ∈ l, ∀ b ∈ m, a.1 < b.1 := List.pairwise_append

@[simp] theorem at?_nil (k : Nat) : at? ([] : List (Nat × α)) k = none := rfl

theorem at?_cons (e : Nat × α) (l : List (Nat × α)) (k : Nat) :
    at? (e :: l) k = if e.1 = k then some e.2 else at? l k := rfl

theorem at?_none_of_forall {l : List (Nat × α)} {k : Nat} (h : ∀ e ∈ l, e.1 ≠ k) :
    at? l k = none := by
  induction l with
  | nil => rfl
  | cons e t ih =>
    rw [at?_cons, if_neg (h e (by simp))]
    exact ih fun a ha => h a (by simp [ha])

theorem at?_none_of_lt {l : List (Nat × α)} {k : Nat} (h : ∀ e ∈ l, k < e.1) :
    at? l k = none := at?_none_of_forall fun e he => (h e he).ne'

theorem at?_none_of_gt {l : List (Nat × α)} {n k : Nat} (h : ∀ e ∈ l, e.1 < n) (hk : n ≤ k) :
    at? l k = none := at?_none_of_forall fun e he => by have := h e he; omega

theorem mem_of_at? {l : List (Nat × α)} {k : Nat} {a : α} (h : at? l k = some a) :
    (k, a) ∈ l := by
  induction l with
  | nil => simp at h
  | cons e t ih =>
    rw [at?_cons] at h
    split at h
    · rename_i h1; simp at h; subst h1; subst h; simp
    · simp [ih h]

theorem at?_isSome_iff {l : List (Nat × α)} {k : Nat} :
    (at? l k).isSome ↔ ∃ e ∈ l, e.1 = k := by
  constructor
  · intro h
    obtain ⟨a, ha⟩ := Option.isSome_iff_exists.mp h
    exact ⟨_, mem_of_at? ha, rfl⟩
  · rintro ⟨e, he, rfl⟩
    by_contra hn
    have hn : at? l e.1 = none := by simpa using hn
    induction l with
    | nil => simp at he
    | cons b t ih =>
      rw [at?_cons] at hn
      split at hn
      · simp at hn
      · rename_i h1
        rcases List.mem_cons.mp he with h | h
        · exact h1 (by rw [h])
        · exact ih h (by simpa using hn) hn

theorem at?_of_mem {l : List (Nat × α)} (hs : Srt l) {k : Nat} {a : α} (h : (k, a) ∈ l) :
    at? l k = some a := by
  induction l with
  | nil => simp at h
  | cons e t ih =>
    rw [srt_cons] at hs
    rw [at?_cons]
    rcases List.mem_cons.mp h with h1 | h1
    · rw [← h1]; simp
    · rw [if_neg (hs.1 _ h1).ne]; exact ih hs.2 h1

theorem at?_eq_some_iff {l : List (Nat × α)} (hs : Srt l) {k : Nat} {a : α} :
    at? l k = some a ↔ (k, a) ∈ l := ⟨mem_of_at?, at?_of_mem hs⟩

theorem srt_ext {l m : List (Nat × α)} (hl : Srt l) (hm : Srt m)
    (h : ∀ k, at? l k = at? m k) : l = m := by
  induction l generalizing m with
  | nil =>
    cases m with
    | nil => rfl
    | cons e t => have := h e.1; simp [at?_cons] at this
  | cons e t ih =>
    cases m with
    | nil => have := h e.1; simp [at?_cons] at this
    | cons f s =>
      rw [srt_cons] at hl hm
      have hef : e.1 = f.1 := by
        rcases lt_trichotomy e.1 f.1 with h1 | h1 | h1
        · have h2 := h e.1
          rw [at?_cons, at?_cons, if_pos rfl, if_neg h1.ne'] at h2
          rw [at?_none_of_lt fun a ha => lt_trans h1 (hm.1 a ha)] at h2
          simp at h2
        · exact h1
        · have h2 := h f.1
          rw [at?_cons, at?_cons, if_pos rfl, if_neg h1.ne'] at h2
          rw [at?_none_of_lt fun a ha => lt_trans h1 (hl.1 a ha)] at h2
          simp at h2
      have hv : e.2 = f.2 := by
        have h2 := h e.1
        rw [at?_cons, at?_cons, if_pos rfl, if_pos hef.symm] at h2
        simpa using h2
      have : e = f := Prod.ext hef hv
      subst this
      congr 1
      apply ih hl.2 hm.2
      intro k
      have h2 := h k
      rw [at?_cons, at?_cons] at h2
      by_cases hk : e.1 = k
      · rw [at?_none_of_lt (by rw [← hk]; exact hl.1), at?_none_of_lt (by rw [← hk]; exact hm.1)]
      · rwa [if_neg hk, if_neg hk] at h2

theorem srt_length_le {l : List (Nat × α)} {n : Nat} (hs : Srt l) (h : ∀ e ∈ l, e.1 < n) :
    l.length ≤ n := by
  have h1 : (l.map Prod.fst).Nodup := by
    rw [List.Nodup, List.pairwise_map]
    exact hs.imp fun h => h.ne
  have h2 : (l.map Prod.fst) ⊆ List.range n := by
    intro k hk
    obtain ⟨e, he, rfl⟩ := List.mem_map.mp hk
    exact List.mem_range.mpr (h e he)
  have := (h1.subperm h2).length_le
  simpa using this

theorem srt_map_snd {l : List (Nat × α)} (f : Nat × α → β) (hs : Srt l) :
    Srt (l.map fun e => (e.1, f e)) := by
  rw [Srt, List.pairwise_map]; exact hs

theorem at?_map {l : List (Nat × α)} (f : Nat × α → β) (k : Nat) :
    at? (l.map fun e => (e.1, f e)) k = (at? l k).map fun a => f (k, a) := by
  induction l with
  | nil => rfl
  | cons e t ih =>
    rw [List.map_cons, at?_cons, at?_cons]
    by_cases h : e.1 = k
    · subst h; simp
    · simp [h, ih]

theorem srt_filter {l : List (Nat × α)} (p : Nat × α → Bool) (hs : Srt l) : Srt (l.filter p) :=
  List.Pairwise.filter p hs

theorem at?_filter {l : List (Nat × α)} (p : Nat × α → Bool) (hs : Srt l) (k : Nat) :
    at? (l.filter p) k = (at? l k).filter fun a => p (k, a) := by
  induction l with
  | nil => rfl
  | cons e t ih =>
    rw [srt_cons] at hs
    rw [List.filter_cons]
    by_cases hk : e.1 = k
    · subst hk
      rw [at?_cons, if_pos rfl]
      by_cases hp : p e = true
      · rw [if_pos hp, at?_cons, if_pos rfl]
        have : p (e.1, e.2) = true := hp
        simp [Option.filter, this]
      · rw [if_neg hp, ih hs.2, at?_none_of_lt hs.1]
        have : p (e.1, e.2) = false := by simpa using hp
        simp [Option.filter, this]
    · rw [at?_cons, if_neg hk]
      by_cases hp : p e = true
      · rw [if_pos hp, at?_cons, if_neg hk, ih hs.2]
      · rw [if_neg hp, ih hs.2]

/-! ### merge loops -/

def LowerBd (i : Nat) (l : List (Nat × α)) : Prop := ∀ e ∈ l, i ≤ e.1

theorem lowerBd_of_head {l : List (Nat × α)} (hs : Srt l) {i : Nat}
    (h : ∀ j, headIdx l = some j → i ≤ j) : LowerBd i l := by
  cases l with
  | nil => intro e he; simp at he
  | cons e t =>
    rw [srt_cons] at hs
    have h1 := h e.1 rfl
    intro a ha
    rcases List.mem_cons.mp ha with h2 | h2
    · rw [h2]; exact h1
    · exact le_of_lt (lt_of_le_of_lt h1 (hs.1 a h2))

theorem takeAt_spec {l : List (Nat × α)} (hs : Srt l) {i : Nat} (hb : LowerBd i l) :
    (takeAt i l).1 = at? l i ∧ Srt (takeAt i l).2 ∧ (∀ e ∈ (takeAt i l).2, i < e.1) ∧
    (∀ k, k ≠ i → at? (takeAt i l).2 k = at? l k) := by
  cases l with
  | nil => simp [takeAt, Srt]
  | cons e t =>
    obtain ⟨j, a⟩ := e
    rw [srt_cons] at hs
    by_cases hj : j = i
    · subst hj
      refine ⟨by simp [takeAt, at?_cons], by simpa [takeAt] using hs.2, by simpa [takeAt] using hs.1, ?_⟩
      intro k hk; simp [takeAt, at?_cons, hk.symm]
    · have hlt : i < j := lt_of_le_of_ne (hb (j, a) (by simp)) (Ne.symm hj)
      have hall : ∀ e ∈ (j, a) :: t, i < e.1 := by
        intro e he
        rcases List.mem_cons.mp he with h | h
        · rw [h]; exact hlt
        · exact lt_trans hlt (hs.1 e h)
      refine ⟨?_, ?_, ?_, ?_⟩
      · simp only [takeAt, if_neg hj]; rw [at?_none_of_lt hall]
      · simp only [takeAt, if_neg hj]; exact srt_cons.mpr hs
      · simp only [takeAt, if_neg hj]; exact hall
      · intro k _; simp only [takeAt, if_neg hj]

theorem minIdx_le {a b : Option Nat} {i : Nat} (h : minIdx a b = some i) :
    (∀ j, a = some j → i ≤ j) ∧ (∀ j, b = some j → i ≤ j) := by
  rcases a with _ | a <;> rcases b with _ | b <;> simp_all [minIdx] <;> omega

theorem minIdx_eq_none {a b : Option Nat} (h : minIdx a b = none) : a = none ∧ b = none := by
  rcases a with _ | a <;> rcases b with _ | b <;> simp_all [minIdx]

theorem headIdx_eq_none {l : List (Nat × α)} (h : headIdx l = none) : l = [] := by
  cases l with
  | nil => rfl
  | cons e t => simp [headIdx] at h

/-- combination of three optional values: present iff one of them is. -/
def comb3 : Option α → Option β → Option γ → Option (Option α × Option β × Option γ)
  | none, none, none => none
  | a, b, c => some (a, b, c)

def comb2 : Option α → Option β → Option (Option α × Option β)
  | none, none => none
  | a, b => some (a, b)

theorem comb3_eq_some {a : Option α} {b : Option β} {c : Option γ} {t} (h : comb3 a b c = some t) :
    t = (a, b, c) ∧ (a.isSome ∨ b.isSome ∨ c.isSome) := by
  rcases a with _ | a <;> rcases b with _ | b <;> rcases c with _ | c <;> simp_all [comb3]

theorem comb3_eq_none {a : Option α} {b : Option β} {c : Option γ} (h : comb3 a b c = none) :
    a = none ∧ b = none ∧ c = none := by
  rcases a with _ | a <;> rcases b with _ | b <;> rcases c with _ | c <;> simp_all [comb3]

theorem comb2_eq_none {a : Option α} {b : Option β} (h : comb2 a b = none) :
    a = none ∧ b = none := by
  rcases a with _ | a <;> rcases b with _ | b <;> simp_all [comb2]

theorem comb2_eq_some {a : Option α} {b : Option β} {t} (h : comb2 a b = some t) :
    t = (a, b) ∧ (a.isSome ∨ b.isSome) := by
  rcases a with _ | a <;> rcases b with _ | b <;> simp_all [comb2]

theorem merge3_spec (x : List (Nat × α)) (y : List (Nat × β)) (z : List (Nat × γ))
    (hx : Srt x) (hy : Srt y) (hz : Srt z) :
    Srt (merge3 x y z) ∧
    (∀ m, LowerBd m x → LowerBd m y → LowerBd m z → LowerBd m (merge3 x y z)) ∧
    ∀ k, at? (merge3 x y z) k = comb3 (at? x k) (at? y k) (at? z k) := by
  fun_induction merge3 x y z with
  | case1 x y z h =>
    obtain ⟨h1, h2⟩ := minIdx_eq_none h
    obtain ⟨h3, h4⟩ := minIdx_eq_none h1
    rw [headIdx_eq_none h3, headIdx_eq_none h4, headIdx_eq_none h2]
    refine ⟨Srt.nil, ?_, ?_⟩
    · intro m _ _ _ e he; simp at he
    · intro k; simp [comb3]
  | case2 x y z i h ih =>
    have hb := minIdx_le h
    have bz : LowerBd i z := lowerBd_of_head hz hb.2
    have hxy : LowerBd i x ∧ LowerBd i y := by
      rcases hmm : minIdx (headIdx x) (headIdx y) with _ | j
      · obtain ⟨h3, h4⟩ := minIdx_eq_none hmm
        rw [headIdx_eq_none h3, headIdx_eq_none h4]
        exact ⟨by intro e he; simp at he, by intro e he; simp at he⟩
      · have h1 := hb.1 j hmm
        have h2 := minIdx_le hmm
        exact ⟨lowerBd_of_head hx fun k hk => le_trans h1 (h2.1 k hk),
          lowerBd_of_head hy fun k hk => le_trans h1 (h2.2 k hk)⟩
    obtain ⟨bx, bY⟩ := hxy
    obtain ⟨x1, x2, x3, x4⟩ := takeAt_spec hx bx
    obtain ⟨y1, y2, y3, y4⟩ := takeAt_spec hy bY
    obtain ⟨z1, z2, z3, z4⟩ := takeAt_spec hz bz
    obtain ⟨i1, i2, i3⟩ := ih x2 y2 z2
    have hlb := i2 (i + 1) (fun e he => x3 e he) (fun e he => y3 e he) (fun e he => z3 e he)
    have hmem : ∃ e, (e ∈ (x.map Prod.fst) ∨ e ∈ (y.map Prod.fst) ∨ e ∈ (z.map Prod.fst)) ∧ e = i := by
      rcases minIdx_eq_some h with h1 | h1
      · rcases minIdx_eq_some h1 with h1 | h1
        · cases x with
          | nil => simp [headIdx] at h1
          | cons e t => simp [headIdx] at h1; exact ⟨i, Or.inl (by simp [h1]), rfl⟩
        · cases y with
          | nil => simp [headIdx] at h1
          | cons e t => simp [headIdx] at h1; exact ⟨i, Or.inr (Or.inl (by simp [h1])), rfl⟩
      · cases z with
        | nil => simp [headIdx] at h1
        | cons e t => simp [headIdx] at h1; exact ⟨i, Or.inr (Or.inr (by simp [h1])), rfl⟩
    refine ⟨?_, ?_, ?_⟩
    · rw [srt_cons]; exact ⟨fun a ha => hlb a ha, i1⟩
    · intro m mx my mz e he
      have hmi : m ≤ i := by
        obtain ⟨e', he', rfl⟩ := hmem
        rcases he' with h1 | h1 | h1
        · obtain ⟨a, ha, rfl⟩ := List.mem_map.mp h1; exact mx a ha
        · obtain ⟨a, ha, rfl⟩ := List.mem_map.mp h1; exact my a ha
        · obtain ⟨a, ha, rfl⟩ := List.mem_map.mp h1; exact mz a ha
      rcases List.mem_cons.mp he with h1 | h1
      · rw [h1]; exact hmi
      · have := hlb e h1; omega
    · intro k
      rw [at?_cons]
      by_cases hk : i = k
      · subst hk
        rw [if_pos rfl, x1, y1, z1]
        have : (at? x i).isSome ∨ (at? y i).isSome ∨ (at? z i).isSome := by
          obtain ⟨e', he', rfl⟩ := hmem
          rcases he' with h1 | h1 | h1
          · obtain ⟨a, ha, rfl⟩ := List.mem_map.mp h1
            exact Or.inl (at?_isSome_iff.mpr ⟨a, ha, rfl⟩)
          · obtain ⟨a, ha, rfl⟩ := List.mem_map.mp h1
            exact Or.inr (Or.inl (at?_isSome_iff.mpr ⟨a, ha, rfl⟩))
          · obtain ⟨a, ha, rfl⟩ := List.mem_map.mp h1
            exact Or.inr (Or.inr (at?_isSome_iff.mpr ⟨a, ha, rfl⟩))
        clear * - this
        revert this
        generalize at? x i = a
        generalize at? y i = b
        generalize at? z i = c
        intro this
        rcases a with _ | a <;> rcases b with _ | b <;> rcases c with _ | c <;>
          simp_all [comb3]
      · rw [if_neg hk, i3 k, x4 k (Ne.symm hk), y4 k (Ne.symm hk), z4 k (Ne.symm hk)]

theorem merge3_srt {x : List (Nat × α)} {y : List (Nat × β)} {z : List (Nat × γ)}
    (hx : Srt x) (hy : Srt y) (hz : Srt z) : Srt (merge3 x y z) := (merge3_spec x y z hx hy hz).1

theorem merge3_at {x : List (Nat × α)} {y : List (Nat × β)} {z : List (Nat × γ)}
    (hx : Srt x) (hy : Srt y) (hz : Srt z) (k : Nat) :
    at? (merge3 x y z) k = comb3 (at? x k) (at? y k) (at? z k) := (merge3_spec x y z hx hy hz).2.2 k

theorem merge2_srt {x : List (Nat × α)} {y : List (Nat × β)}
    (hx : Srt x) (hy : Srt y) : Srt (merge2 x y) :=
  srt_map_snd (fun t : Nat × Option α × Option β × Option Unit => (t.2.1, t.2.2.1))
    (merge3_srt hx hy Srt.nil)

theorem merge2_at {x : List (Nat × α)} {y : List (Nat × β)}
    (hx : Srt x) (hy : Srt y) (k : Nat) : at? (merge2 x y) k = comb2 (at? x k) (at? y k) := by
  unfold merge2
  rw [at?_map (fun t : Nat × Option α × Option β × Option Unit => (t.2.1, t.2.2.1)),
    merge3_at hx hy Srt.nil]
  rcases at? x k with _ | a <;> rcases at? y k with _ | b <;> simp [comb2, comb3]

/-- Every triple visited by the merge loop carries the coordinates at its index. -/
theorem merge3_mem {x : List (Nat × α)} {y : List (Nat × β)} {z : List (Nat × γ)}
    (hx : Srt x) (hy : Srt y) (hz : Srt z) {t} (ht : t ∈ merge3 x y z) :
    t.2 = (at? x t.1, at? y t.1, at? z t.1) ∧
    ((at? x t.1).isSome ∨ (at? y t.1).isSome ∨ (at? z t.1).isSome) := by
  have h1 := at?_of_mem (merge3_srt hx hy hz) (k := t.1) (a := t.2) ht
  rw [merge3_at hx hy hz] at h1
  exact comb3_eq_some h1

theorem merge2_mem {x : List (Nat × α)} {y : List (Nat × β)}
    (hx : Srt x) (hy : Srt y) {t} (ht : t ∈ merge2 x y) :
    t.2 = (at? x t.1, at? y t.1) ∧ ((at? x t.1).isSome ∨ (at? y t.1).isSome) := by
  have h1 := at?_of_mem (merge2_srt hx hy) (k := t.1) (a := t.2) ht
  rw [merge2_at hx hy] at h1
  exact comb2_eq_some h1

theorem lt_of_at?_isSome {l : List (Nat × α)} {n k : Nat} (h : ∀ e ∈ l, e.1 < n)
    (hk : (at? l k).isSome) : k < n := by
  obtain ⟨e, he, rfl⟩ := at?_isSome_iff.mp hk
  exact h e he

theorem merge3_lt {x : List (Nat × α)} {y : List (Nat × β)} {z : List (Nat × γ)}
    (hx : Srt x) (hy : Srt y) (hz : Srt z) {n : Nat} (bx : ∀ e ∈ x, e.1 < n)
    (bY : ∀ e ∈ y, e.1 < n) (bz : ∀ e ∈ z, e.1 < n) : ∀ t ∈ merge3 x y z, t.1 < n := by
  intro t ht
  rcases (merge3_mem hx hy hz ht).2 with h | h | h
  · exact lt_of_at?_isSome bx h
  · exact lt_of_at?_isSome bY h
  · exact lt_of_at?_isSome bz h

theorem merge2_lt {x : List (Nat × α)} {y : List (Nat × β)}
    (hx : Srt x) (hy : Srt y) {n : Nat} (bx : ∀ e ∈ x, e.1 < n)
    (bY : ∀ e ∈ y, e.1 < n) : ∀ t ∈ merge2 x y, t.1 < n := by
  intro t ht
  rcases (merge2_mem hx hy ht).2 with h | h
  · exact lt_of_at?_isSome bx h
  · exact lt_of_at?_isSome bY h

theorem merge3_length_le (x : List (Nat × α)) (y : List (Nat × β)) (z : List (Nat × γ)) :
    (merge3 x y z).length ≤ x.length + y.length + z.length := by
  fun_induction merge3 x y z with
  | case1 x y z h => simp
  | case2 x y z i h ih =>
    have h1 := takeAt_length_le i x
    have h2 := takeAt_length_le i y
    have h3 := takeAt_length_le i z
    simp only [List.length_cons]
    rcases minIdx_eq_some h with h | h
    · rcases minIdx_eq_some h with h | h
      · have := takeAt_length_lt i x h; omega
      · have := takeAt_length_lt i y h; omega
    · have := takeAt_length_lt i z h; omega

theorem merge2_length_le (x : List (Nat × α)) (y : List (Nat × β)) :
    (merge2 x y).length ≤ x.length + y.length := by
  unfold merge2; rw [List.length_map]
  simpa using merge3_length_le x y ([] : List (Nat × Unit))

/-! ### pushing -/

namespace Vec

theorem push_eq_some {v w : Vec K} {i : Nat} {x : K} (h : v.push i x = some w) :
    w = { v with ents := v.ents ++ [(i, x)] } ∧ v.ents.length < v.cap ∧ i < v.dim ∧
      ∀ e ∈ v.ents.getLast?, e.1 < i := by
  unfold push at h
  split at h
  · rename_i hc; simp at h; exact ⟨h.symm, hc⟩
  · simp at h

theorem pushAll_ok (v : Vec K) (l : List (Nat × K)) (hs : Srt (v.ents ++ l))
    (hd : ∀ e ∈ l, e.1 < v.dim) (hc : v.ents.length + l.length ≤ v.cap) :
    v.pushAll l = some { v with ents := v.ents ++ l } := by
  induction l generalizing v with
  | nil => simp [pushAll]
  | cons e t ih =>
    have hp : v.push e.1 e.2 = some { v with ents := v.ents ++ [e] } := by
      unfold push
      rw [if_pos]
      refine ⟨by simp at hc; omega, hd e (by simp), ?_⟩
      intro a ha
      have ha' := List.mem_of_getLast? ha
      exact (srt_append.mp hs).2.2 a ha' e (by simp)
    unfold pushAll
    rw [List.foldlM_cons, hp]
    simp only [Option.bind_eq_bind, Option.bind_some]
    have := ih { v with ents := v.ents ++ [e] } (by simpa using hs)
      (fun a ha => hd a (by simp [ha])) (by simp at hc ⊢; omega)
    unfold pushAll at this
    rw [this]; simp

theorem foldlM_push_filter (skip : Nat × K → Bool) (v : Vec K) (l : List (Nat × K)) :
    l.foldlM (fun r e => if skip e then some r else r.push e.1 e.2) v =
      v.pushAll (l.filter fun e => !skip e) := by
  induction l generalizing v with
  | nil => rfl
  | cons e t ih =>
    rw [List.foldlM_cons, List.filter_cons]
    by_cases h : skip e = true
    · simp only [h, if_true, Option.bind_eq_bind, Option.bind_some, Bool.not_true]
      rw [ih]; simp
    · simp only [h, if_false, Option.bind_eq_bind, Bool.not_eq_true]
      simp only [Bool.not_eq_true] at h
      simp only [h, Bool.not_false, if_true, pushAll, List.foldlM_cons, Option.bind_eq_bind]
      simp only [Bool.false_eq_true, if_false]
      congr 1
      funext w
      rw [ih]; rfl

theorem foldlM_push_map {τ : Type*} (skip : τ → Bool) (g : τ → Nat × K) (v : Vec K) (l : List τ) :
    l.foldlM (fun r t => if skip t then some r else r.push (g t).1 (g t).2) v =
      v.pushAll ((l.filter fun t => !skip t).map g) := by
  induction l generalizing v with
  | nil => rfl
  | cons e t ih =>
    rw [List.foldlM_cons, List.filter_cons]
    by_cases h : skip e = true
    · simp only [h, if_true, Option.bind_eq_bind, Option.bind_some, Bool.not_true]
      rw [ih]; simp
    · simp only [Bool.not_eq_true] at h
      simp only [h, Bool.not_false, if_true, pushAll, List.map_cons, List.foldlM_cons,
        Option.bind_eq_bind, Bool.false_eq_true, if_false]
      congr 1
      funext w
      rw [ih]; rfl

end Vec
end Sleqp
