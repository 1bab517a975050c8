import Verif.Spec.Hist

namespace Sleqp

theorem lastN_push {α : Type*} (n : Nat) (l : List α) (x : α) :
    (lastN n l ++ [x]).drop ((lastN n l).length + 1 - n) = lastN n (l ++ [x]) := by
  unfold lastN
  rcases Nat.lt_or_ge l.length n with h | h
  · rw [show l.length - n = 0 by omega, List.drop_zero, List.length_append, List.length_singleton]
  · have e : (l.drop (l.length - n)).length + 1 - n = 1 := by rw [List.length_drop]; omega
    rw [e]
    rcases Nat.eq_zero_or_pos n with h0 | h0
    · subst h0
      simp
    · rw [List.drop_append_of_le_length (by rw [List.length_drop]; omega), List.drop_drop,
        List.length_append, List.length_singleton,
        List.drop_append_of_le_length (by omega)]
      congr 2; omega

theorem lastN_mem {α : Type*} {n : Nat} {l : List α} {x : α} (h : x ∈ lastN n l) : x ∈ l :=
  List.mem_of_mem_drop h

end Sleqp
