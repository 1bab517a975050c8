import Verif.Spec.HessStruct
import Verif.Spec.Remove
import Verif.Props.MatRemove
import Mathlib.Tactic.Linarith

/-! C41: Hessian block structures; the block structure of reduced functions (part of C35). -/

namespace Sleqp
namespace HessStruct

theorem Valid.lt_last {h : HessStruct} (hv : h.Valid) {l : Int} (hl : h.ends.getLast? = some l) : (h.ends.length : Int) ≤ l := by
  have key : ∀ (L : List Int) (a : Int), L.Pairwise (· < ·) → (∀ e ∈ L, a < e) → ∀ l, L.getLast? = some l →
      a + L.length ≤ l := by
    intro L
    induction L with
    | nil => intro a _ _ l hl; simp at hl
    | cons x t ih =>
      intro a hp ha l hl
      rw [List.pairwise_cons] at hp
      have hx := ha x List.mem_cons_self
      cases t with
      | nil => simp at hl ⊢; omega
      | cons y t' =>
        rw [List.getLast?_cons_cons] at hl
        have := ih x hp.2 hp.1 l hl
        simp only [List.length_cons] at this ⊢
        push_cast at this ⊢
        omega
  have := key h.ends 0 hv.incr hv.pos l hl
  omega

/-- the exact effect of pushing a block onto a valid structure -/
theorem pushBlock_spec {h : HessStruct} (hv : h.Valid) {e : Int} (hpos : 0 < e) :
    (h.linRange.1 < e ∧ e ≤ h.dim ∧ h.pushBlock e = .ok { h with ends := h.ends ++ [e] } ∧
      Valid { h with ends := h.ends ++ [e] }) ∨
    (¬ (h.linRange.1 < e ∧ e ≤ h.dim) ∧ h.pushBlock e = .error .illegalArgument) := by
  unfold pushBlock linRange
  by_cases h1 : e > h.dim
  · right; rw [if_pos h1]; exact ⟨by rintro ⟨-, h⟩; omega, rfl⟩
  · rw [if_neg h1]
    cases hl : h.ends.getLast? with
    | none =>
      have hnil : h.ends = [] := List.getLast?_eq_none_iff.mp hl
      left
      have hva := hv.alloc
      refine ⟨hpos, by omega, ?_, ?_⟩
      · rw [if_neg (by rw [hnil]; simp only [List.length_nil]; omega), if_neg (by simp),
          if_pos (by rw [hnil]; simp only [List.length_nil]; omega)]
      · rw [hnil]
        exact ⟨by simp, by simpa using hpos, by simp; omega, hva⟩
    | some l =>
      have hlast := hv.lt_last hl
      have hva := hv.alloc
      have hmem : l ∈ h.ends := List.mem_of_getLast? hl
      by_cases h3 : e ≤ l
      · right
        refine ⟨by rintro ⟨h, -⟩; simp only [Option.getD_some] at h; omega, ?_⟩
        by_cases h2 : h.ends.length ≥ h.dim
        · rw [if_pos h2]
        · rw [if_neg h2, if_pos ⟨l, rfl, h3⟩]
      · left
        refine ⟨by simp only [Option.getD_some]; omega, by omega, ?_, ?_⟩
        · rw [if_neg (by omega), if_neg, if_pos (by omega)]
          rintro ⟨x, hx, h⟩
          have : x = l := by simpa using hx.symm
          omega
        · have hle : ∀ x ∈ h.ends, x ≤ l := by
            intro x hx
            obtain ⟨L, hL⟩ : ∃ L, h.ends = L ++ [l] := by
              rw [List.getLast?_eq_some_iff] at hl; exact hl
            have hi := hv.incr
            rw [hL] at hx hi
            rw [List.pairwise_append] at hi
            rcases List.mem_append.mp hx with hx | hx
            · exact (hi.2.2 x hx l (by simp)).le
            · simp at hx; omega
          refine ⟨?_, ?_, ?_, hva⟩
          · show (h.ends ++ [e]).Pairwise _
            rw [List.pairwise_append]
            exact ⟨hv.incr, by simp, fun a ha b hb => by have := hle a ha; simp at hb; omega⟩
          · intro x hx
            rcases List.mem_append.mp hx with hx | hx
            · exact hv.pos x hx
            · simp at hx; omega
          · intro x hx
            rcases List.mem_append.mp hx with hx | hx
            · exact hv.le_dim x hx
            · simp at hx; subst hx; show x ≤ (h.dim : Int); omega

theorem clear_valid {h : HessStruct} (hv : h.dim ≤ h.alloc) : h.clear.Valid :=
  ⟨by simp [clear], by simp [clear], by simp [clear], hv⟩

/-- C41: a structure created by the library is valid: one block, or none. -/
theorem C41_create (n : Nat) (empty : Bool) : ∃ h, create n empty = .ok h ∧ h.Valid ∧ h.dim = n ∧
    h.ends = if !empty ∧ n > 0 then [(n : Int)] else [] := by
  have h0 : Valid ⟨n, n, []⟩ := ⟨by simp, by simp, by simp, le_rfl⟩
  unfold create
  by_cases hc : !empty ∧ n > 0
  · rw [if_pos hc, if_pos hc]
    rcases pushBlock_spec (e := n) h0 (by omega) with ⟨-, -, h1, h2⟩ | ⟨h1, -⟩
    · exact ⟨_, h1, h2, rfl, rfl⟩
    · exact absurd ⟨by show (0 : Int) < n; omega, by show (n : Int) ≤ n; omega⟩ h1
  · rw [if_neg hc, if_neg hc]
    exact ⟨_, rfl, h0, rfl, rfl⟩

/-- C41: pushing and clearing in any order keeps the structure valid, provided the ends pushed are positive;
refused pushes change nothing. -/
theorem C41_run_partial {h : HessStruct} (hv : h.Valid) (os : List Op)
    (hpos : ∀ e, Op.push e ∈ os → 0 < e) : (h.run os).Valid ∧ (h.run os).dim = h.dim := by
  unfold run
  induction os generalizing h with
  | nil => exact ⟨hv, rfl⟩
  | cons o t ih =>
    rw [List.foldl_cons]
    have hs : (step h o).Valid ∧ (step h o).dim = h.dim := by
      cases o with
      | clear => exact ⟨clear_valid hv.alloc, rfl⟩
      | push e =>
        unfold step
        rcases pushBlock_spec hv (hpos e List.mem_cons_self) with ⟨-, -, h1, h2⟩ | ⟨-, h1⟩
        · simp only [h1]; exact ⟨h2, trivial⟩
        · simp only [h1]; exact ⟨hv, trivial⟩
    have := ih hs.1 fun e he => hpos e (List.mem_cons_of_mem _ he)
    exact ⟨this.1, this.2.trans hs.2⟩

/-- C41: a push of a positive end is accepted exactly if the end lies in the linear range's closure
`(begin, dim]`; the new block then takes the front of the linear range. -/
theorem C41_push {h : HessStruct} (hv : h.Valid) {e : Int} (hpos : 0 < e) :
    ((∃ h', h.pushBlock e = .ok h') ↔ h.linRange.1 < e ∧ e ≤ h.dim) ∧
    ∀ h', h.pushBlock e = .ok h' → h'.ends = h.ends ++ [e] ∧ h'.dim = h.dim := by
  rcases pushBlock_spec hv hpos with ⟨h1, h2, h3, -⟩ | ⟨h1, h2⟩
  · rw [h3]
    refine ⟨⟨fun _ => ⟨h1, h2⟩, fun _ => ⟨_, rfl⟩⟩, ?_⟩
    intro h' he
    cases he; exact ⟨rfl, rfl⟩
  · rw [h2]
    refine ⟨⟨fun h => ?_, fun h => absurd h h1⟩, ?_⟩
    · obtain ⟨_, h⟩ := h; cases h
    intro h' he; cases he

theorem blockRange_eq {h : HessStruct} {b : Nat} (hb : b < h.ends.length) :
    h.blockRange b = .ok (if b = 0 then 0 else h.ends.getD (b - 1) 0, h.ends.getD b 0) := by
  unfold blockRange
  rw [if_neg (by omega), if_neg (by omega)]
  have h2 : h.ends[(b : Int).toNat]? = some (h.ends.getD b 0) := by
    rw [Int.toNat_natCast, List.getD_eq_getElem?_getD, List.getElem?_eq_getElem hb]; rfl
  have h1 : (if (b : Int) > 0 then h.ends[(b : Int).toNat - 1]? else some 0) =
      some (if b = 0 then 0 else h.ends.getD (b - 1) 0) := by
    by_cases h0 : b = 0
    · rw [if_neg (by omega), if_pos h0]
    · rw [if_pos (by omega), if_neg h0, Int.toNat_natCast, List.getD_eq_getElem?_getD,
        List.getElem?_eq_getElem (by omega)]; rfl
  rw [h1, h2]

/-- number of block ends not after `j` -/
def blockOf (h : HessStruct) (j : Int) : Nat := (h.ends.takeWhile fun e => decide (e ≤ j)).length

theorem inBlock_iff {h : HessStruct} (hv : h.Valid) {b : Nat} {j : Int} (hj : 0 ≤ j) :
    h.InBlock b j ↔ b < h.ends.length ∧ h.blockOf j = b := by
  have key : ∀ (L : List Int), L.Pairwise (· < ·) → ∀ b < L.length,
      ((b = 0 ∨ L.getD (b - 1) 0 ≤ j) ∧ j < L.getD b 0 ↔ (L.takeWhile fun e => decide (e ≤ j)).length = b) := by
    intro L
    induction L with
    | nil => intro _ b hb; simp at hb
    | cons x t ih =>
      intro hp b hb
      rw [List.pairwise_cons] at hp
      rw [List.takeWhile_cons]
      by_cases hx : x ≤ j
      · simp only [hx, decide_true, if_true, List.length_cons]
        cases b with
        | zero => simp only [List.getD_cons_zero]; omega
        | succ b =>
          rw [List.length_cons] at hb
          have := ih hp.2 b (by omega)
          rw [Nat.add_right_cancel_iff, ← this]
          simp only [Nat.succ_ne_zero, false_or, List.getD_cons_succ, Nat.add_sub_cancel]
          cases b with
          | zero => simp only [List.getD_cons_zero, true_or, true_and]; tauto
          | succ b' => simp
      · simp only [hx, decide_false, if_false, Bool.false_eq_true, List.length_nil]
        cases b with
        | zero => simp only [List.getD_cons_zero]; simp; omega
        | succ b =>
          refine ⟨fun ⟨h1, h2⟩ => ?_, fun h => by omega⟩
          exfalso
          simp only [Nat.succ_ne_zero, false_or, Nat.add_sub_cancel] at h1
          have : x ≤ (x :: t).getD b 0 := by
            cases b with
            | zero => simp
            | succ b' =>
              rw [List.length_cons] at hb
              rw [List.getD_cons_succ, List.getD_eq_getElem?_getD, List.getElem?_eq_getElem (by omega)]
              exact (hp.1 _ (List.getElem_mem _)).le
          omega
  unfold InBlock
  constructor
  · rintro ⟨hb, x, y, h1, h2, h3⟩
    refine ⟨hb, ?_⟩
    rw [blockRange_eq hb] at h1
    injection h1 with h1
    obtain ⟨rfl, rfl⟩ := Prod.mk.inj h1
    refine (key h.ends hv.incr b hb).mp ⟨?_, h3⟩
    by_cases h0 : b = 0
    · exact Or.inl h0
    · right; rwa [if_neg h0] at h2
  · rintro ⟨hb, h1⟩
    obtain ⟨h2, h3⟩ := (key h.ends hv.incr b hb).mpr h1
    refine ⟨hb, _, _, blockRange_eq hb, ?_, h3⟩
    by_cases h0 : b = 0
    · rw [if_pos h0]; exact hj
    · rw [if_neg h0]; exact h2.resolve_left h0

theorem inLinear_iff {h : HessStruct} (hv : h.Valid) {j : Int} (hj : 0 ≤ j) (hd : j < h.dim) :
    h.InLinear j ↔ h.blockOf j = h.ends.length := by
  have key : ∀ (L : List Int), L.Pairwise (· < ·) →
      ((L.getLast?).getD 0 ≤ j ↔ (L.takeWhile fun e => decide (e ≤ j)).length = L.length) := by
    intro L
    induction L with
    | nil => intro _; simpa using hj
    | cons x t ih =>
      intro hp
      rw [List.pairwise_cons] at hp
      rw [List.takeWhile_cons]
      have hlast : ∀ l, (x :: t).getLast? = some l → x ≤ l := by
        intro l hl
        rcases List.mem_cons.mp (List.mem_of_getLast? hl) with h | h
        · omega
        · exact (hp.1 l h).le
      by_cases hx : x ≤ j
      · simp only [hx, decide_true, if_true, List.length_cons, Nat.add_right_cancel_iff]
        rw [← ih hp.2]
        cases t with
        | nil => simp; omega
        | cons y t' => rw [List.getLast?_cons_cons]
      · simp only [hx, decide_false, if_false, Bool.false_eq_true, List.length_nil, List.length_cons]
        refine ⟨fun h => ?_, fun h => by omega⟩
        obtain ⟨l, hl⟩ : ∃ l, (x :: t).getLast? = some l := ⟨_, List.getLast?_cons ..⟩
        rw [hl] at h
        have := hlast l hl
        simp only [Option.getD_some] at h
        omega
  unfold InLinear linRange
  simp only [hd, and_true]
  exact key h.ends hv.incr

/-- C41: in a valid structure every index belongs to exactly one block or to the linear range; nothing
outside of `[0, dim)` does. -/
theorem C41_partition {h : HessStruct} (hv : h.Valid) :
    (∀ j : Int, 0 ≤ j → j < h.dim → (h.InLinear j ∧ ∀ b, ¬ h.InBlock b j) ∨ (¬ h.InLinear j ∧ ∃! b, h.InBlock b j)) ∧
    (∀ j : Int, (h.InLinear j ∨ ∃ b, h.InBlock b j) → 0 ≤ j ∧ j < h.dim) ∧
    ∀ b < h.ends.length, ∃ begin fin, h.blockRange b = .ok (begin, fin) ∧ 0 ≤ begin ∧ begin < fin ∧ fin ≤ h.dim := by
  have hrange : ∀ b < h.ends.length, ∃ begin fin, h.blockRange b = .ok (begin, fin) ∧ 0 ≤ begin ∧ begin < fin ∧ fin ≤ h.dim := by
    intro b hb
    refine ⟨_, _, blockRange_eq hb, ?_, ?_, ?_⟩
    · by_cases h0 : b = 0
      · rw [if_pos h0]
      · rw [if_neg h0, List.getD_eq_getElem?_getD, List.getElem?_eq_getElem (by omega)]
        exact (hv.pos _ (List.getElem_mem _)).le
    · have hb' : h.ends.getD b 0 = h.ends[b] := by
        rw [List.getD_eq_getElem?_getD, List.getElem?_eq_getElem hb]; rfl
      rw [hb']
      by_cases h0 : b = 0
      · rw [if_pos h0]; exact hv.pos _ (List.getElem_mem _)
      · rw [if_neg h0, List.getD_eq_getElem?_getD, List.getElem?_eq_getElem (by omega)]
        exact List.pairwise_iff_getElem.mp hv.incr (b - 1) b (by omega) hb (by omega)
    · rw [List.getD_eq_getElem?_getD, List.getElem?_eq_getElem hb]
      exact hv.le_dim _ (List.getElem_mem _)
  refine ⟨fun j h0 hd => ?_, ?_, hrange⟩
  · rw [inLinear_iff hv h0 hd]
    simp only [inBlock_iff hv h0]
    have hle : h.blockOf j ≤ h.ends.length := (List.takeWhile_sublist _).length_le
    rcases Nat.lt_or_ge (h.blockOf j) h.ends.length with hlt | hge
    · right
      exact ⟨by omega, _, ⟨hlt, rfl⟩, fun b hb => hb.2.symm⟩
    · left
      exact ⟨by omega, fun b hb => by omega⟩
  · rintro j (⟨h1, h2⟩ | ⟨b, hb, x, y, h1, h2, h3⟩)
    · refine ⟨le_trans ?_ h1, h2⟩
      unfold linRange
      cases hl : h.ends.getLast? with
      | none => simp
      | some l => exact (hv.pos l (List.mem_of_getLast? hl)).le
    · obtain ⟨x', y', g1, g2, g3, g4⟩ := hrange b hb
      rw [h1] at g1
      injection g1 with g1
      obtain ⟨rfl, rfl⟩ := Prod.mk.inj g1
      exact ⟨by omega, by omega⟩

/-- C41: the first block may have an end that is not positive: on a cleared structure of
dimension 3, a block `[0, -2)` is accepted, and the linear range becomes `[-2, 3)`. -/
theorem C41_first_block_violated :
    pushBlock ⟨3, 3, []⟩ (-2) = .ok ⟨3, 3, [-2]⟩ ∧ linRange ⟨3, 3, [-2]⟩ = (-2, 3) ∧
      blockRange ⟨3, 3, [-2]⟩ 0 = .ok (0, -2) := by
  refine ⟨by decide, by decide, rfl⟩

/-- C41: asking for the block after the last one is not refused but reads an entry that
was never written. -/
theorem C41_range_violated {h : HessStruct} : h.blockRange h.ends.length = .error .outOfBounds := by
  unfold blockRange
  rw [if_neg (by omega), if_neg (by omega), Int.toNat_natCast, List.getElem?_eq_none (le_refl _)]
  split <;> simp_all

theorem foldlM_push {t : HessStruct} (L : List Int) (hv : Valid { t with ends := t.ends ++ L }) :
    L.foldlM pushBlock t = .ok { t with ends := t.ends ++ L } := by
  induction L generalizing t with
  | nil => simp; rfl
  | cons x L ih =>
    have hv' : Valid t := by
      refine ⟨?_, fun e he => hv.pos e (List.mem_append_left _ he), fun e he => hv.le_dim e (List.mem_append_left _ he), hv.alloc⟩
      have := hv.incr
      exact (List.pairwise_append.mp this).1
    have hmem : x ∈ t.ends ++ x :: L := by simp
    have h1 : t.linRange.1 < x ∧ x ≤ t.dim := by
      refine ⟨?_, hv.le_dim x hmem⟩
      unfold linRange
      cases hl : t.ends.getLast? with
      | none => exact hv.pos x hmem
      | some l =>
        exact (List.pairwise_append.mp hv.incr).2.2 l (List.mem_of_getLast? hl) x (by simp)
    rcases pushBlock_spec hv' (hv.pos x hmem) with ⟨-, -, h2, -⟩ | ⟨h2, -⟩
    · rw [List.foldlM_cons, h2]
      have := ih (t := { t with ends := t.ends ++ [x] }) (by
        show Valid { t with ends := t.ends ++ [x] ++ L }
        rw [List.append_assoc]; exact hv)
      simp only [List.append_assoc, List.singleton_append] at this
      exact this
    · exact absurd h1 h2

/-- C41: copying into a structure of at least the same (allocated) dimension reproduces the source. -/
theorem C41_copy_partial {source target : HessStruct} (hv : source.Valid) (ha : source.dim ≤ target.alloc) :
    ∃ t, copy source target = .ok t ∧ t.ends = source.ends ∧ t.dim = source.dim := by
  refine ⟨_, foldlM_push (t := clear { target with dim := source.dim }) source.ends ?_, rfl, rfl⟩
  exact ⟨hv.incr, hv.pos, hv.le_dim, ha⟩

/-- C41: copying into a smaller structure changes its dimension but not its array, which is then
overrun: copying two blocks (dimension 2) into a structure of dimension 1. -/
theorem C41_copy_violated : copy ⟨2, 2, [1, 2]⟩ ⟨1, 1, [1]⟩ = .error .outOfBounds := by
  decide

/-! ### reduced structures -/

/-- number of remaining (not fixed) indices below `e` -/
def keptBelow (fixed : List Nat) (e : Int) : Int := e - (fixed.filter fun (f : Nat) => decide ((f : Int) < e)).length

theorem fixedInner_spec {fixed : List Nat} (hs : fixed.Pairwise (· < ·)) (begin : Int) (h0 : 0 ≤ begin) (k : Nat) :
    ((List.range k).map fun (i : Nat) => begin + i).foldl fixedInner
      ((fixed.filter (fun (f : Nat) => decide (begin ≤ (f : Int))), ((fixed.filter fun (f : Nat) => decide ((f : Int) < begin)).length : Int)) : List Nat × Int) =
      (fixed.filter (fun (f : Nat) => decide (begin + k ≤ (f : Int))), ((fixed.filter fun (f : Nat) => decide ((f : Int) < begin + k)).length : Int)) := by
  induction k with
  | zero => simp
  | succ k ih =>
    rw [List.range_succ, List.map_append, List.foldl_append, ih]
    simp only [List.map_cons, List.map_nil, List.foldl_cons, List.foldl_nil]
    generalize hb : begin + (k : Int) = b
    have hb0 : 0 ≤ b := by omega
    have hk : begin + ((k + 1 : Nat) : Int) = b + 1 := by push_cast; omega
    rw [hk]
    clear ih
    -- one step
    have one : ∀ (L : List Nat), L.Pairwise (· < ·) →
        fixedInner (L.filter (fun (f : Nat) => decide (b ≤ (f : Int))), ((L.filter fun (f : Nat) => decide ((f : Int) < b)).length : Int)) b =
        (L.filter (fun (f : Nat) => decide (b + 1 ≤ (f : Int))), ((L.filter fun (f : Nat) => decide ((f : Int) < b + 1)).length : Int)) := by
      intro L
      induction L with
      | nil => intro _; simp [fixedInner]
      | cons x t ih =>
        intro hp
        rw [List.pairwise_cons] at hp
        rcases lt_trichotomy (x : Int) b with hx | hx | hx
        · have := ih hp.2
          rw [List.filter_cons_of_neg (by simp; omega), List.filter_cons_of_pos (by simp; omega),
            List.filter_cons_of_neg (by simp; omega), List.filter_cons_of_pos (by simp; omega)]
          generalize t.filter (fun (f : Nat) => decide (b ≤ (f : Int))) = A at this ⊢
          cases A with
          | nil =>
            simp only [fixedInner] at this ⊢
            obtain ⟨h1, h2⟩ := Prod.mk.inj this
            simp only [List.length_cons, Nat.cast_add]
            rw [← h1, ← h2]
          | cons a A =>
            simp only [fixedInner] at this ⊢
            by_cases ha : (a : Int) = b
            · rw [if_pos ha] at this ⊢
              obtain ⟨h1, h2⟩ := Prod.mk.inj this
              simp only [List.length_cons, Nat.cast_add]
              rw [← h1, ← h2]; simp only [Nat.cast_one, Prod.mk.injEq, true_and]
            · rw [if_neg ha] at this ⊢
              obtain ⟨h1, h2⟩ := Prod.mk.inj this
              simp only [List.length_cons, Nat.cast_add]
              rw [← h1, ← h2]
        · have e1 : t.filter (fun (f : Nat) => decide (b ≤ (f : Int))) = t := by
            rw [List.filter_eq_self]; intro a ha; have := hp.1 a ha; simp; omega
          have e2 : t.filter (fun (f : Nat) => decide (b + 1 ≤ (f : Int))) = t := by
            rw [List.filter_eq_self]; intro a ha; have := hp.1 a ha; simp; omega
          have e3 : t.filter (fun (f : Nat) => decide ((f : Int) < b)) = [] := by
            rw [List.filter_eq_nil_iff]; intro a ha; have := hp.1 a ha; simp; omega
          have e4 : t.filter (fun (f : Nat) => decide ((f : Int) < b + 1)) = [] := by
            rw [List.filter_eq_nil_iff]; intro a ha; have := hp.1 a ha; simp; omega
          rw [List.filter_cons_of_pos (by simp; omega), List.filter_cons_of_neg (by simp; omega),
            List.filter_cons_of_neg (by simp; omega), List.filter_cons_of_pos (by simp; omega), e1, e2, e3, e4]
          simp only [fixedInner, hx, if_true, List.length_nil, List.length_cons]
          rfl
        · have e1 : t.filter (fun (f : Nat) => decide (b ≤ (f : Int))) = t := by
            rw [List.filter_eq_self]; intro a ha; have := hp.1 a ha; simp; omega
          have e2 : t.filter (fun (f : Nat) => decide (b + 1 ≤ (f : Int))) = t := by
            rw [List.filter_eq_self]; intro a ha; have := hp.1 a ha; simp; omega
          have e3 : t.filter (fun (f : Nat) => decide ((f : Int) < b)) = [] := by
            rw [List.filter_eq_nil_iff]; intro a ha; have := hp.1 a ha; simp; omega
          have e4 : t.filter (fun (f : Nat) => decide ((f : Int) < b + 1)) = [] := by
            rw [List.filter_eq_nil_iff]; intro a ha; have := hp.1 a ha; simp; omega
          rw [List.filter_cons_of_pos (by simp; omega), List.filter_cons_of_neg (by simp; omega),
            List.filter_cons_of_pos (by simp; omega), List.filter_cons_of_neg (by simp; omega), e1, e2, e3, e4]
          simp only [fixedInner]
          rw [if_neg (by omega)]
    exact one fixed hs

theorem oldIdx_lt_iff {fixed : List Nat} (hs : fixed.Pairwise (· < ·)) (i : Nat) (e : Int) :
    (oldIdx fixed i : Int) < e ↔ (i : Int) < keptBelow fixed e := by
  unfold keptBelow
  induction fixed generalizing i with
  | nil => simp [oldIdx]
  | cons r rs ih =>
    rw [List.pairwise_cons] at hs
    unfold oldIdx
    have hnil : ∀ (_ : e ≤ r), rs.filter (fun (f : Nat) => decide ((f : Int) < e)) = [] := by
      intro h
      rw [List.filter_eq_nil_iff]; intro a ha; have := hs.1 a ha; simp; omega
    by_cases hr : r ≤ i
    · rw [if_pos hr]
      by_cases he : (r : Int) < e
      · rw [ih hs.2, List.filter_cons_of_pos (by simpa using he), List.length_cons]
        push_cast; omega
      · rw [List.filter_cons_of_neg (by simpa using he), hnil (by omega)]
        have := oldIdx_ge rs (i + 1)
        simp only [List.length_nil]; push_cast; omega
    · rw [if_neg hr]
      by_cases he : (r : Int) < e
      · have hle : (rs.filter fun (f : Nat) => decide ((f : Int) < e)).length ≤ e.toNat - (r + 1) := by
          refine sorted_length_le (hs.2.filter _) (a := r + 1) ?_ ?_
          · intro x hx
            have := hs.1 x (List.mem_filter.mp hx).1; omega
          · intro x hx
            have := (List.mem_filter.mp hx).2
            simp at this; omega
        rw [List.filter_cons_of_pos (by simpa using he), List.length_cons]
        push_cast; omega
      · rw [List.filter_cons_of_neg (by simpa using he), hnil (by omega)]
        simp

theorem keptBelow_nonneg {fixed : List Nat} (hs : fixed.Pairwise (· < ·)) {e : Int} (he : 0 ≤ e) : 0 ≤ keptBelow fixed e := by
  unfold keptBelow
  have hle : (fixed.filter fun (f : Nat) => decide ((f : Int) < e)).length ≤ e.toNat - 0 := by
    refine sorted_length_le (hs.filter _) (a := 0) (by simp) ?_
    intro x hx
    have := (List.mem_filter.mp hx).2
    simp at this; omega
  omega

theorem keptBelow_mono {fixed : List Nat} (hs : fixed.Pairwise (· < ·)) {b e : Int} (hb : 0 ≤ b) (h : b ≤ e) :
    keptBelow fixed b ≤ keptBelow fixed e := by
  have h1 := keptBelow_nonneg hs hb
  have h2 := keptBelow_nonneg hs (hb.trans h)
  by_contra hc
  obtain ⟨i, hi⟩ : ∃ i : Nat, (i : Int) = keptBelow fixed e := ⟨_, Int.toNat_of_nonneg h2⟩
  have h3 := (oldIdx_lt_iff hs i b).mpr (by omega)
  have h4 := (oldIdx_lt_iff hs i e).mp (by omega)
  omega

theorem keptBelow_le {fixed : List Nat} (hs : fixed.Pairwise (· < ·)) {n m : Nat} (hr : ∀ r ∈ fixed, r < n)
    (hd : n = m + fixed.length) {e : Int} (he : e ≤ n) : keptBelow fixed e ≤ m := by
  by_contra hc
  have h1 := (oldIdx_lt_iff hs m e).mpr (by omega)
  have h2 := oldIdx_lt' hs hr hd (i := m) (by omega)
  omega

/-- invariant of the outer loop: `done` are the ends of the blocks handled so far, `prev` the last of them -/
structure FixInv (fixed : List Nat) (m : Nat) (done : List Int) (s : HessStruct × List Nat × Int × Int) : Prop where
  valid : s.1.Valid
  dim : s.1.dim = m
  rem : s.2.1 = fixed.filter fun (f : Nat) => decide (s.2.2.2 ≤ (f : Int))
  off : s.2.2.1 = (fixed.filter fun (f : Nat) => decide ((f : Int) < s.2.2.2)).length
  prev : 0 ≤ s.2.2.2
  last : s.1.linRange.1 = keptBelow fixed s.2.2.2
  from_done : ∀ e' ∈ s.1.ends, ∃ e ∈ done, e' = keptBelow fixed e
  has_done : ∀ e ∈ done, keptBelow fixed e = 0 ∨ keptBelow fixed e ∈ s.1.ends

theorem fixedOuter_inv {fixed : List Nat} (hs : fixed.Pairwise (· < ·)) {n m : Nat} (hr : ∀ r ∈ fixed, r < n)
    (hd : n = m + fixed.length) {done : List Int} {s : HessStruct × List Nat × Int × Int} (h : FixInv fixed m done s)
    {e : Int} (h1 : s.2.2.2 < e) (h2 : e ≤ n) :
    ∃ s', fixedOuter s e = .ok s' ∧ FixInv fixed m (done ++ [e]) s' ∧ s'.2.2.2 = e := by
  obtain ⟨t, rem, off, prev⟩ := s
  obtain ⟨v1, v2, v3, v4, v5, v6, v7, v8⟩ := h
  simp only at v1 v2 v3 v4 v5 v6 v7 v8 h1
  have hinner : ((List.range (e - prev).toNat).map fun (k : Nat) => prev + k).foldl fixedInner (rem, off) =
      (fixed.filter (fun (f : Nat) => decide (e ≤ (f : Int))), ((fixed.filter fun (f : Nat) => decide ((f : Int) < e)).length : Int)) := by
    have := fixedInner_spec hs prev v5 (e - prev).toNat
    rw [show prev + ((e - prev).toNat : Int) = e by omega] at this
    rw [v3, v4, this]
  have hk : prev - off = keptBelow fixed prev := by unfold keptBelow; rw [v4]
  have hk' : e - ((fixed.filter fun (f : Nat) => decide ((f : Int) < e)).length : Int) = keptBelow fixed e := rfl
  have hmono := keptBelow_mono hs v5 h1.le
  have hnn := keptBelow_nonneg hs v5
  unfold fixedOuter
  simp only [hinner, hk, hk']
  by_cases hne : keptBelow fixed prev ≠ keptBelow fixed e
  · rw [if_pos hne]
    have hle := keptBelow_le hs hr hd h2
    rcases pushBlock_spec v1 (e := keptBelow fixed e) (by omega) with ⟨-, -, p1, p2⟩ | ⟨p1, -⟩
    · rw [p1]
      refine ⟨_, rfl, ⟨p2, v2, rfl, rfl, by show 0 ≤ e; omega, ?_, ?_, ?_⟩, rfl⟩
      · show ((t.ends ++ [keptBelow fixed e]).getLast?).getD 0 = _
        simp
      · intro e' he'
        rcases List.mem_append.mp (show e' ∈ t.ends ++ [keptBelow fixed e] from he') with h | h
        · obtain ⟨x, hx, hxe⟩ := v7 e' h
          exact ⟨x, List.mem_append_left _ hx, hxe⟩
        · exact ⟨e, by simp, by simpa using h⟩
      · intro x hx
        rcases List.mem_append.mp hx with h | h
        · rcases v8 x h with h | h
          · exact Or.inl h
          · exact Or.inr (List.mem_append_left _ h)
        · right
          have : x = e := by simpa using h
          rw [this]
          exact List.mem_append_right _ (by simp)
    · exact absurd ⟨by rw [v6]; omega, by rw [v2]; exact hle⟩ p1
  · rw [if_neg hne]
    have heq : keptBelow fixed prev = keptBelow fixed e := not_not.mp hne
    refine ⟨_, rfl, ⟨v1, v2, rfl, rfl, by show 0 ≤ e; omega, v6.trans heq, ?_, ?_⟩, rfl⟩
    · intro e' he'
      obtain ⟨x, hx, hxe⟩ := v7 e' he'
      exact ⟨x, List.mem_append_left _ hx, hxe⟩
    · intro x hx
      rcases List.mem_append.mp hx with h | h
      · exact v8 x h
      · have : x = e := by simpa using h
        rw [this, ← heq, ← v6]
        unfold linRange
        cases hl : t.ends.getLast? with
        | none => exact Or.inl rfl
        | some l => exact Or.inr (List.mem_of_getLast? hl)

theorem fixedLoop {fixed : List Nat} (hs : fixed.Pairwise (· < ·)) {n m : Nat} (hr : ∀ r ∈ fixed, r < n)
    (hd : n = m + fixed.length) (L : List Int) {done : List Int} {s : HessStruct × List Nat × Int × Int}
    (h : FixInv fixed m done s) (hL : L.Pairwise (· < ·)) (h1 : ∀ e ∈ L, s.2.2.2 < e) (h2 : ∀ e ∈ L, e ≤ (n : Int)) :
    ∃ s', L.foldlM fixedOuter s = .ok s' ∧ FixInv fixed m (done ++ L) s' := by
  induction L generalizing done s with
  | nil => exact ⟨s, rfl, by simpa using h⟩
  | cons e L ih =>
    rw [List.pairwise_cons] at hL
    obtain ⟨s1, a1, a2, a3⟩ := fixedOuter_inv hs hr hd h (h1 e List.mem_cons_self) (h2 e List.mem_cons_self)
    obtain ⟨s', b1, b2⟩ := ih a2 hL.2 (by rw [a3]; exact hL.1) (fun x hx => h2 x (List.mem_cons_of_mem _ hx))
    refine ⟨s', ?_, by simpa using b2⟩
    rw [List.foldlM_cons, a1]
    exact b1

theorem takeWhile_all_iff (L : List Int) (j : Int) :
    (L.takeWhile fun e => decide (e ≤ j)).length = L.length ↔ ∀ e ∈ L, e ≤ j := by
  induction L with
  | nil => simp
  | cons x t ih =>
    rw [List.takeWhile_cons]
    by_cases hx : x ≤ j
    · simp [hx, ih]
    · simp [hx]

theorem takeWhile_eq_iff {L : List Int} (hp : L.Pairwise (· < ·)) (j j' : Int) :
    (L.takeWhile fun e => decide (e ≤ j)).length = (L.takeWhile fun e => decide (e ≤ j')).length ↔
      ∀ e ∈ L, (e ≤ j ↔ e ≤ j') := by
  induction L with
  | nil => simp
  | cons x t ih =>
    rw [List.pairwise_cons] at hp
    rw [List.takeWhile_cons, List.takeWhile_cons]
    by_cases hx : x ≤ j <;> by_cases hx' : x ≤ j'
    · simp [hx, hx', ih hp.2]
    · simp [hx, hx']
    · simp [hx, hx']
    · simp only [hx, hx', decide_false, Bool.false_eq_true, if_false, List.length_nil, true_iff]
      intro e he
      rcases List.mem_cons.mp he with rfl | he
      · exact ⟨fun h => absurd h hx, fun h => absurd h hx'⟩
      · have := hp.1 e he
        constructor <;> intro h <;> omega

/-- C35/C41: the block structure handed to the reduced function (without the fixed variables) is valid, and
two remaining variables share a block, or are linear, exactly if they did before. -/
theorem C35_hess_struct {source target : HessStruct} (hv : source.Valid) {fixed : List Nat} (hs : fixed.Pairwise (· < ·))
    (hr : ∀ r ∈ fixed, r < source.dim) (hd : source.dim = target.dim + fixed.length) (ha : target.dim ≤ target.alloc) :
    ∃ t, fixedStruct source target fixed = .ok t ∧ t.Valid ∧ t.dim = target.dim ∧
      (∀ i < target.dim, (t.InLinear i ↔ source.InLinear (oldIdx fixed i))) ∧
      ∀ i < target.dim, ∀ i' < target.dim, ((∃ b, t.InBlock b i ∧ t.InBlock b i') ↔
        ∃ b, source.InBlock b (oldIdx fixed i) ∧ source.InBlock b (oldIdx fixed i')) := by
  have hinit : FixInv fixed target.dim [] (target.clear, fixed, 0, 0) := by
    refine ⟨clear_valid ha, rfl, ?_, ?_, le_rfl, ?_, by simp [clear], by simp⟩
    · symm; rw [List.filter_eq_self]; intro a _; simp
    · have : (fixed.filter fun (f : Nat) => decide ((f : Int) < 0)) = [] := by
        rw [List.filter_eq_nil_iff]; intro a _; simp
      simp only [this]; rfl
    · have : (fixed.filter fun (f : Nat) => decide ((f : Int) < 0)) = [] := by
        rw [List.filter_eq_nil_iff]; intro a _; simp
      unfold keptBelow
      simp only [this]; rfl
  obtain ⟨s, h1, h2⟩ := fixedLoop hs hr hd source.ends hinit hv.incr hv.pos hv.le_dim
  rw [List.nil_append] at h2
  have hdim : s.1.dim = target.dim := h2.dim
  -- comparison with ends
  have hcmp : ∀ (e : Int) (i : Nat), keptBelow fixed e ≤ i ↔ e ≤ (oldIdx fixed i : Int) := by
    intro e i
    have := oldIdx_lt_iff hs i e
    omega
  have hlt : ∀ i < target.dim, (oldIdx fixed i : Int) < source.dim := by
    intro i hi
    have := oldIdx_le fixed i
    omega
  have hlin : ∀ i < target.dim, (s.1.InLinear i ↔ source.InLinear (oldIdx fixed i)) := by
    intro i hi
    rw [inLinear_iff h2.valid (by omega) (by omega), inLinear_iff hv (by omega) (hlt i hi)]
    unfold blockOf
    rw [takeWhile_all_iff, takeWhile_all_iff]
    constructor
    · intro h e he
      rw [← hcmp]
      rcases h2.has_done e he with h' | h'
      · omega
      · exact h _ h'
    · intro h e' he'
      obtain ⟨e, he, rfl⟩ := h2.from_done e' he'
      rw [hcmp]; exact h e he
  have hsame : ∀ {g : HessStruct}, g.Valid → ∀ j j' : Int, 0 ≤ j → j < g.dim → 0 ≤ j' →
      ((∃ b, g.InBlock b j ∧ g.InBlock b j') ↔ ¬ g.InLinear j ∧ ∀ e ∈ g.ends, (e ≤ j ↔ e ≤ j')) := by
    intro g hg j j' h0 hjd h0'
    rw [inLinear_iff hg h0 hjd, ← takeWhile_eq_iff hg.incr]
    simp only [inBlock_iff hg h0, inBlock_iff hg h0']
    have hle : g.blockOf j ≤ g.ends.length := (List.takeWhile_sublist _).length_le
    constructor
    · rintro ⟨b, ⟨h3, h4⟩, -, h5⟩
      exact ⟨by omega, by unfold blockOf at h4 h5; omega⟩
    · rintro ⟨h3, h4⟩
      exact ⟨_, ⟨by omega, rfl⟩, by omega, h4.symm⟩
  refine ⟨s.1, ?_, h2.valid, hdim, hlin, ?_⟩
  · unfold fixedStruct; rw [h1]; rfl
  · intro i hi i' hi'
    rw [hsame h2.valid i i' (by omega) (by omega) (by omega), hsame hv _ _ (by omega) (hlt i hi) (by omega), hlin i hi]
    refine and_congr_right fun _ => ?_
    constructor
    · intro h e he
      rw [← hcmp, ← hcmp]
      rcases h2.has_done e he with h' | h'
      · rw [h']; constructor <;> intro _ <;> omega
      · exact h _ h'
    · intro h e' he'
      obtain ⟨e, he, rfl⟩ := h2.from_done e' he'
      rw [hcmp, hcmp]; exact h e he

/-- non-vacuity: two blocks and a linear index, dimension 5; fixing 0, 1 and 3 removes the first block -/
example : Valid ⟨5, 5, [2, 4]⟩ ∧ fixedStruct ⟨5, 5, [2, 4]⟩ ⟨2, 2, [2]⟩ [0, 1, 3] = .ok ⟨2, 2, [1]⟩ :=
  ⟨⟨by decide, by decide, by decide, by decide⟩, by decide⟩

end HessStruct
end Sleqp
