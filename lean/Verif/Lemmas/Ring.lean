import Verif.Model.Ring
import Mathlib.Tactic.Ring
import Mathlib.Tactic.Linarith

/-! Ring buffer lemmas. -/

namespace Sleqp.Ring
variable {α : Type*}

theorem tmod_norm (i : Int) (n : Nat) (hn : 0 < n) :
    (let d := Int.tmod i n; (if d < 0 then d + n else d)) = i % n := by
  have hn' : (n : Int) ≠ 0 := by omega
  have h1 : 0 ≤ i % (n : Int) := Int.emod_nonneg _ hn'
  have h2 : i % (n : Int) < n := Int.emod_lt_of_pos _ (by omega)
  have h3 : Int.tmod i n % n = i % n := by
    have := Int.tmod_add_mul_tdiv i n
    conv_rhs => rw [← this]
    simp
  have h4 : |Int.tmod i n| < n := by
    have := Int.tmod_lt_of_pos i (by omega : (0 : Int) < n)
    rcases le_or_gt 0 i with hi | hi
    · have := Int.tmod_nonneg n hi
      rw [abs_of_nonneg this]; assumption
    · have h6 : Int.tmod (-i) n = - Int.tmod i n := Int.neg_tmod i n
      have h7 := Int.tmod_nonneg n (by omega : (0 : Int) ≤ -i)
      have h8 := Int.tmod_lt_of_pos (-i) (by omega : (0 : Int) < n)
      rw [abs_lt]; constructor <;> omega
  rw [abs_lt] at h4
  simp only
  split
  · rename_i hneg
    rw [← h3, ← Int.add_emod_right, Int.emod_eq_of_lt (by omega) (by omega)]
  · rename_i hpos
    rw [← h3, Int.emod_eq_of_lt (by omega) (by omega)]

theorem dataIndex_eq (r : Ring α) (i : Int) (hl : 0 < r.len) (hn : 0 < r.num) :
    (r.dataIndex i : Int) = i % r.num := by
  unfold dataIndex
  rw [if_neg (by omega)]
  have := tmod_norm i r.num hn
  simp only at this ⊢
  rw [this]
  exact Int.toNat_of_nonneg (Int.emod_nonneg _ (by omega))

theorem dataIndex_lt (r : Ring α) (i : Int) (hn : 0 < r.num) : r.dataIndex i < r.num := by
  by_cases hl : r.len = 0
  · unfold dataIndex; rw [if_pos hl]; exact hn
  · have := dataIndex_eq r i (by omega) hn
    have := Int.emod_lt_of_pos i (by omega : (0 : Int) < r.num)
    omega

theorem emod_ne {a b n : Int} (h1 : 0 < a - b) (h2 : a - b < n) : a % n ≠ b % n := by
  intro h
  have hd : n ∣ a - b := Int.ModEq.dvd (show b ≡ a [ZMOD n] from h.symm)
  have := Int.le_of_dvd h1 hd
  omega

/-- the invariants of the buffer: `len ≤ num`, and a fresh buffer starts at slot 0 -/
structure Inv (r : Ring α) : Prop where
  pos : 0 < r.num
  le : r.len ≤ r.num

theorem contents_get (r : Ring α) (k : Nat) : r.contents[k]? =
    if k < r.len then some (r.arr (r.dataIndex (r.curr - r.len + 1 + k))) else none := by
  unfold contents
  rw [List.getElem?_map]
  split
  · rename_i h; rw [List.getElem?_range h]; rfl
  · rename_i h; rw [List.getElem?_eq_none (by simpa using h)]; rfl

theorem contents_length (r : Ring α) : r.contents.length = r.len := by unfold contents; simp

theorem store_contents (r : Ring α) (hr : r.Inv) (x : α) (c : Int)
    (hc : c % r.num = (r.dataIndex (r.curr + 1) : Int)) :
    (r.store (r.dataIndex (r.curr + 1)) x c).contents =
      (r.contents ++ [x]).drop (r.len + 1 - r.num) := by
  have hpos := hr.pos
  have hle := hr.le
  have hnewN : ∀ i, (r.store (r.dataIndex (r.curr + 1)) x c).dataIndex i = (i % r.num).toNat := by
    intro i
    have : ((r.store (r.dataIndex (r.curr + 1)) x c).dataIndex i : Int) = i % r.num :=
      dataIndex_eq (r.store (r.dataIndex (r.curr + 1)) x c) i
        (by simp only [store]; split <;> omega) hpos
    omega
  have hlt := dataIndex_lt r (r.curr + 1) hpos
  apply List.ext_getElem?
  intro k
  rw [contents_get, List.getElem?_drop]
  obtain ⟨L, hL⟩ : ∃ L : Nat, L = if r.len < r.num then r.len + 1 else r.len := ⟨_, rfl⟩
  have hLc : (r.len < r.num ∧ L = r.len + 1) ∨ (r.len = r.num ∧ L = r.len) := by
    rw [hL]; split <;> omega
  have s1 : (r.store (r.dataIndex (r.curr + 1)) x c).len = L := hL.symm
  have s2 : (r.store (r.dataIndex (r.curr + 1)) x c).curr = c := rfl
  have s3 : ∀ k, (r.store (r.dataIndex (r.curr + 1)) x c).arr k =
      if k = r.dataIndex (r.curr + 1) then x else r.arr k := fun _ => rfl
  rw [s1, s2, s3, hnewN]
  have hLn : L ≤ r.num := by rw [hL]; split <;> omega
  by_cases hk : k < L
  · rw [if_pos hk]
    by_cases hlast : k + 1 = L
    · have e : c - (L : Int) + 1 + k = c := by rw [← hlast]; push_cast; ring
      rw [e, hc, Int.toNat_natCast, if_pos rfl]
      have hidx : r.len + 1 - r.num + k = r.len := by omega
      rw [hidx, List.getElem?_append_right (by rw [contents_length]), contents_length]
      simp
    · have hlpos : 0 < r.len := by omega
      have hcur := dataIndex_eq r (r.curr + 1) hlpos hpos
      have hcc : c % r.num = (r.curr + 1) % r.num := by rw [hc, hcur]
      have hshift : ∀ m : Int, (c + m) % r.num = (r.curr + 1 + m) % r.num := by
        intro m; rw [Int.add_emod, hcc, ← Int.add_emod]
      have e1 : c - (L : Int) + 1 + k = c + (k + 1 - L) := by ring
      rw [e1, hshift]
      have hne : ((r.curr + 1 + ((k : Int) + 1 - L)) % r.num).toNat ≠ r.dataIndex (r.curr + 1) := by
        intro h
        have h3 : 0 ≤ (r.curr + 1 + ((k : Int) + 1 - L)) % r.num := Int.emod_nonneg _ (by omega)
        have h4 : (r.curr + 1 + ((k : Int) + 1 - L)) % r.num = (r.curr + 1) % r.num := by omega
        exact emod_ne (a := r.curr + 1) (b := r.curr + 1 + ((k : Int) + 1 - L)) (by omega) (by omega)
          h4.symm
      rw [if_neg hne]
      have hidx : r.len + 1 - r.num + k < r.len := by omega
      rw [List.getElem?_append_left (by rw [contents_length]; exact hidx), contents_get, if_pos hidx]
      congr 2
      have := dataIndex_eq r (r.curr - r.len + 1 + ((r.len + 1 - r.num + k : Nat) : Int)) hlpos hpos
      have e2 : r.curr - r.len + 1 + ((r.len + 1 - r.num + k : Nat) : Int) =
          r.curr + 1 + ((k : Int) + 1 - L) := by
        omega
      rw [e2] at this ⊢
      omega
  · rw [if_neg hk, List.getElem?_eq_none]
    rw [List.length_append, contents_length, List.length_singleton]
    omega

theorem store_inv (r : Ring α) (hr : r.Inv) (p : Nat) (x : α) (c : Int) : (r.store p x c).Inv := by
  refine ⟨hr.pos, ?_⟩
  have := hr.le
  simp only [store]; split <;> omega

end Sleqp.Ring
