import Verif.Spec.Callback

/-! C40: callback registration. -/

namespace Sleqp
variable {α : Type*} [DecidableEq α]

namespace Handler

theorem findFrom_none {c : α} {l : List α} {p : Nat} : findFrom c p l = none ↔ c ∉ l := by
  induction l generalizing p with
  | nil => simp [findFrom]
  | cons x t ih =>
    unfold findFrom
    by_cases h : x = c
    · simp [h]
    · rw [if_neg h, ih]
      simp [Ne.symm h]

theorem findFrom_some {c : α} {l : List α} {p q : Nat} (h : findFrom c p l = some q) :
    ∃ l1 l2, l = l1 ++ c :: l2 ∧ q = p + l1.length := by
  induction l generalizing p with
  | nil => simp [findFrom] at h
  | cons x t ih =>
    unfold findFrom at h
    by_cases hx : x = c
    · rw [if_pos hx] at h
      cases h
      exact ⟨[], t, by rw [hx]; rfl, rfl⟩
    · rw [if_neg hx] at h
      obtain ⟨l1, l2, rfl, rfl⟩ := ih h
      exact ⟨x :: l1, l2, rfl, by simp only [List.length_cons]; omega⟩

theorem add_spec (h : Handler α) (c : α) (hc : h.cbs.length ≤ h.capacity) :
    ∃ h', h.add c = .ok h' ∧ h'.cbs = h.cbs ++ [c] ∧ h'.cbs.length ≤ h'.capacity := by
  have key : h.reserve.cbs = h.cbs ∧ h.cbs.length < h.reserve.capacity := by
    unfold reserve size
    split
    · exact ⟨rfl, by assumption⟩
    · refine ⟨rfl, ?_⟩
      show _ < max 1 (2 * h.capacity)
      omega
  refine ⟨{ h.reserve with cbs := h.reserve.cbs ++ [c] }, ?_, by simp [key.1], ?_⟩
  · unfold add
    rw [if_pos]
    show h.reserve.cbs.length < _
    rw [key.1]; exact key.2
  · simp [key.1]; exact key.2

theorem remove_spec (h : Handler α) (c : α) (hc : h.cbs.length ≤ h.capacity) :
    (c ∉ h.cbs → h.remove c = .error .illegalArgument) ∧
    (c ∈ h.cbs → ∃ h', h.remove c = .ok h' ∧ (h'.cbs : Multiset α) = (h.cbs : Multiset α).erase c ∧
      h'.cbs.length ≤ h'.capacity) := by
  constructor
  · intro hn
    unfold remove
    rw [findFrom_none.mpr hn]
  · intro hm
    cases hf : findFrom c 0 h.cbs with
    | none => exact absurd hm (findFrom_none.mp hf)
    | some pos =>
      obtain ⟨l1, l2, hl, hp⟩ := findFrom_some hf
      rw [Nat.zero_add] at hp
      have herase : (h.cbs : Multiset α).erase c = ((l1 ++ l2 : List α) : Multiset α) := by
        rw [hl, show ((l1 ++ c :: l2 : List α) : Multiset α) = c ::ₘ ((l1 ++ l2 : List α) : Multiset α) from
          Multiset.coe_eq_coe.mpr List.perm_middle, Multiset.erase_cons_head]
      unfold remove
      rw [hf]
      simp only []
      have hsz : h.size = h.cbs.length := rfl
      rcases List.eq_nil_or_concat l2 with rfl | ⟨l3, z, rfl⟩
      · have : pos = h.cbs.length - 1 := by rw [hl, hp]; simp
        rw [if_neg (by rw [hsz]; simpa using this)]
        refine ⟨_, rfl, ?_, ?_⟩
        · show ((h.cbs.take (h.cbs.length - 1) : List α) : Multiset α) = _
          rw [herase, ← this, hp, hl]; simp
        · show (h.cbs.take (h.cbs.length - 1)).length ≤ h.capacity
          rw [List.length_take]; omega
      · have hlen : h.cbs.length = l1.length + l3.length + 2 := by rw [hl]; simp; omega
        rw [if_pos (by omega)]
        have hz : h.cbs[h.size - 1]? = some z := by
          rw [hsz, hlen, hl, List.concat_eq_append, List.getElem?_append_right (by omega),
            show l1.length + l3.length + 2 - 1 - l1.length = l3.length + 1 by omega, List.getElem?_cons_succ,
            List.getElem?_append_right le_rfl]
          simp
        rw [hz]
        refine ⟨_, rfl, ?_, ?_⟩
        · show (((h.cbs.set pos z).take (h.cbs.length - 1) : List α) : Multiset α) = _
          have e1 : (h.cbs.set pos z).take (h.cbs.length - 1) = l1 ++ z :: l3 := by
            rw [hlen, hl, hp, List.set_append_right _ _ (by omega), Nat.sub_self, List.set_cons_zero, List.concat_eq_append,
              List.take_append, List.take_of_length_le (by omega),
              show l1.length + l3.length + 2 - 1 - l1.length = l3.length + 1 by omega, List.take_succ_cons,
              List.take_append_of_le_length (by omega), List.take_length]
          rw [e1, herase, Multiset.coe_eq_coe, List.concat_eq_append]
          refine List.Perm.append_left l1 ?_
          exact (List.perm_append_singleton z l3).symm
        · show ((h.cbs.set pos z).take (h.cbs.length - 1)).length ≤ h.capacity
          rw [List.length_take, List.length_set]; omega

end Handler

/-- the handlers hold the registered callbacks -/
def Holds (hs : Nat → Handler α) (reg : Int → Multiset α) : Prop :=
  ∀ ev : Nat, ev < 3 → ((hs ev).cbs : Multiset α) = reg ev ∧ (hs ev).cbs.length ≤ (hs ev).capacity

/-- C40: an admissible call succeeds and has exactly the specified effect (in particular on no other event); any
other call is refused as an illegal argument. -/
theorem C40_call {hs : Nat → Handler α} {reg : Int → Multiset α} (h : Holds hs reg) (op : CbOp α) :
    (op.Legal reg → ∃ hs', op.exec hs = .ok hs' ∧ Holds hs' (op.effect reg)) ∧
    (¬ op.Legal reg → op.exec hs = .error .illegalArgument) := by
  have hset : ∀ {ev : Nat} {h' : Handler α} {m : Multiset α}, (h'.cbs : Multiset α) = m → h'.cbs.length ≤ h'.capacity →
      Holds (setHandler hs ev h') (fun e => if e = (ev : Int) then m else reg e) := by
    intro ev h' m h1 h2 e he
    unfold setHandler
    show (((if e = ev then h' else hs e).cbs : List α) : Multiset α) = (if (e : Int) = (ev : Int) then m else reg e) ∧ _
    by_cases hee : e = ev
    · rw [if_pos hee, if_pos (by exact_mod_cast hee)]; exact ⟨h1, h2⟩
    · rw [if_neg hee, if_neg (by exact_mod_cast hee)]; exact h e he
  cases op with
  | add ev c =>
    constructor
    · rintro ⟨h1, h2⟩
      obtain ⟨n, rfl⟩ := Int.eq_ofNat_of_zero_le h1
      have hn : n < 3 := by omega
      obtain ⟨h', a1, a2, a3⟩ := (hs n).add_spec c (h n hn).2
      refine ⟨setHandler hs n h', ?_, ?_⟩
      · show solverAddCallback hs n c = _
        unfold solverAddCallback
        rw [if_neg (by omega), Int.toNat_natCast, a1]; rfl
      · have := hset (ev := n) (h' := h') (m := c ::ₘ reg n) (by
          rw [a2, ← (h n hn).1]
          exact Multiset.coe_eq_coe.mpr (List.perm_append_singleton c _)) a3
        convert this using 1
        funext e
        show (if e = (n : Int) then c ::ₘ reg e else reg e) = _
        split
        · next he => rw [he]
        · rfl
    · intro hn
      show solverAddCallback hs ev c = _
      unfold solverAddCallback
      rw [if_pos]
      by_contra hc
      exact hn ⟨by omega, by omega⟩
  | remove ev c =>
    constructor
    · rintro ⟨⟨h1, h2⟩, h3⟩
      obtain ⟨n, rfl⟩ := Int.eq_ofNat_of_zero_le h1
      have hn : n < 3 := by omega
      obtain ⟨h', a1, a2, a3⟩ := ((hs n).remove_spec c (h n hn).2).2 (by
        rw [← Multiset.mem_coe, (h n hn).1]; exact h3)
      refine ⟨setHandler hs n h', ?_, ?_⟩
      · show solverRemoveCallback hs n c = _
        unfold solverRemoveCallback
        rw [if_neg (by omega), Int.toNat_natCast, a1]; rfl
      · have := hset (ev := n) (h' := h') (m := (reg n).erase c) (by rw [a2, ← (h n hn).1]) a3
        convert this using 1
        funext e
        show (if e = (n : Int) then (reg e).erase c else reg e) = _
        split
        · next he => rw [he]
        · rfl
    · intro hn
      show solverRemoveCallback hs ev c = _
      unfold solverRemoveCallback
      by_cases hr : ev < 0 ∨ 3 ≤ ev
      · rw [if_pos hr]
      · rw [if_neg hr]
        obtain ⟨n, rfl⟩ := Int.eq_ofNat_of_zero_le (show 0 ≤ ev by omega)
        have hn3 : n < 3 := by omega
        rw [Int.toNat_natCast, ((hs n).remove_spec c (h n hn3).2).1 ?_]
        · rfl
        · intro hm
          refine hn ⟨⟨by omega, by omega⟩, ?_⟩
          rw [← (h n hn3).1]; exact hm

/-- C40: after every sequence of calls (refused ones included) each event has exactly the registered callbacks. -/
theorem C40_history {hs : Nat → Handler α} {reg : Int → Multiset α} (h : Holds hs reg) (ops : List (CbOp α)) :
    Holds (runCalls hs ops) (registered reg ops) := by
  induction ops generalizing hs reg with
  | nil => exact h
  | cons op ops ih =>
    unfold runCalls registered
    by_cases hl : op.Legal reg
    · obtain ⟨hs', h1, h2⟩ := (C40_call h op).1 hl
      rw [h1, if_pos hl]
      exact ih h2
    · rw [(C40_call h op).2 hl, if_neg hl]
      exact ih h

/-- C40: a new solver has no callbacks. -/
theorem C40_create : Holds (fun _ => (Handler.create : Handler α)) (fun _ => 0) := fun _ _ => ⟨rfl, le_rfl⟩

namespace Handler

theorem dispatchFrom_ok {exec : α → Handler α → Handler α × Bool} {P : Handler α → Prop} {l1 l2 : List α}
    (hP : ∀ h c, P h → c ∈ l1 ++ l2 → (exec c h).2 = true ∧ P (exec c h).1 ∧ h.cbs <+: (exec c h).1.cbs)
    {h : Handler α} (hh : P h) (hpre : l1 ++ l2 <+: h.cbs) (called : List α) :
    ∃ h', dispatchFrom exec l2.length l1.length h called = (.ok h', called ++ l2) ∧ P h' ∧ h.cbs <+: h'.cbs := by
  induction l2 generalizing l1 h called with
  | nil => exact ⟨h, by simp [dispatchFrom], hh, List.prefix_refl _⟩
  | cons c t ih =>
    obtain ⟨s, hs⟩ := hpre
    have hget : h.get l1.length = .ok c := by
      unfold get
      rw [← hs, List.append_assoc, List.getElem?_append_right le_rfl, Nat.sub_self]
      rfl
    obtain ⟨p1, p2, p3⟩ := hP h c hh (by simp)
    have e : l1 ++ c :: t = (l1 ++ [c]) ++ t := by simp
    obtain ⟨h', q1, q2, q3⟩ := ih (l1 := l1 ++ [c]) (by rw [← e]; exact hP) p2
      (by rw [← e]; exact List.IsPrefix.trans ⟨s, hs⟩ p3) (called ++ [c])
    refine ⟨h', ?_, q2, p3.trans q3⟩
    show dispatchFrom exec (t.length + 1) l1.length h called = _
    unfold dispatchFrom
    rw [hget]
    simp only [p1, if_true]
    rw [List.length_append] at q1
    rw [show l1.length + 1 = l1.length + [c].length from rfl, q1]
    simp

end Handler

/-- C40: raising an event calls exactly the registered callbacks, each as often as registered, in order,
as long as they succeed and do not remove callbacks (they may register further ones, which are not called this time). -/
theorem C40_dispatch_partial {exec : α → Handler α → Handler α × Bool} (h : Handler α)
    (hP : ∀ h' c, (exec c h').2 = true ∧ h'.cbs <+: (exec c h').1.cbs) :
    ∃ h', h.dispatch exec = (.ok h', h.cbs) ∧ h.cbs <+: h'.cbs := by
  obtain ⟨h', q1, -, q3⟩ := Handler.dispatchFrom_ok (exec := exec) (P := fun _ => True) (l1 := []) (l2 := h.cbs)
    (fun h' c _ _ => ⟨(hP h' c).1, trivial, (hP h' c).2⟩) trivial (List.prefix_refl _) []
  exact ⟨h', q1, q3⟩

/-- C40: a failing callback stops the dispatch and is reported as a callback error; the ones before it have been called. -/
theorem C40_dispatch_error {exec : α → Handler α → Handler α × Bool} {h : Handler α} {l1 l2 : List α} {c : α}
    (hl : h.cbs = l1 ++ c :: l2) (h1 : ∀ x ∈ l1, exec x h = (h, true)) (h2 : (exec c h).2 = false) :
    h.dispatch exec = (.error .callbackError, l1 ++ [c]) := by
  have key : ∀ (a b : List α) (fuel : Nat) (called : List α), h.cbs = a ++ b ++ c :: l2 → (∀ x ∈ b, exec x h = (h, true)) →
      Handler.dispatchFrom exec (b.length + 1 + fuel) a.length h called = (.error .callbackError, called ++ b ++ [c]) := by
    intro a b
    induction b generalizing a with
    | nil =>
      intro fuel called ha _
      have hget : h.get a.length = .ok c := by
        unfold Handler.get
        rw [ha, List.append_nil, List.getElem?_append_right le_rfl, Nat.sub_self]; rfl
      rw [show ([] : List α).length + 1 + fuel = fuel + 1 by simp; omega]
      unfold Handler.dispatchFrom
      rw [hget]
      simp [h2]
    | cons x t ih =>
      intro fuel called ha hx
      have hget : h.get a.length = .ok x := by
        unfold Handler.get
        rw [ha, List.append_assoc, List.getElem?_append_right le_rfl, Nat.sub_self]; rfl
      rw [show (x :: t).length + 1 + fuel = (t.length + 1 + fuel) + 1 by simp; omega]
      unfold Handler.dispatchFrom
      rw [hget]
      simp only [hx x (by simp), if_true]
      have := ih (a ++ [x]) fuel (called ++ [x]) (by rw [ha]; simp) (fun y hy => hx y (by simp [hy]))
      rw [List.length_append] at this
      rw [show a.length + 1 = a.length + [x].length from rfl, this]
      simp
  have := key [] l1 l2.length [] (by simpa using hl) h1
  unfold Handler.dispatch Handler.size
  rw [hl, List.length_append, List.length_cons, show l1.length + (l2.length + 1) = l1.length + 1 + l2.length by omega]
  simpa using this

/-- a callback `true` which unregisters itself, and a passive callback `false` -/
def selfRemoving (c : Bool) (h : Handler Bool) : Handler Bool × Bool :=
  if c then (match h.remove c with | .ok h' => (h', true) | .error _ => (h, false)) else (h, true)

/-- C40: if a callback unregisters itself while being called, the dispatch skips the callback moved into its place
and then fails with an illegal argument: the second callback is never called. -/
theorem C40_dispatch_violated :
    ((⟨2, [true, false]⟩ : Handler Bool).dispatch selfRemoving).2 = [true] ∧
    (((⟨2, [true, false]⟩ : Handler Bool).dispatch selfRemoving).1.toOption.isNone) = true ∧
    (false ∈ (⟨2, [true, false]⟩ : Handler Bool).cbs) := by decide +kernel

/-- non-vacuity: callbacks 1, 2 and 1 registered for event 0, one 1 removed, 5 cannot be removed -/
example : (runCalls (fun _ => (Handler.create : Handler Nat)) [.add 0 1, .add 0 2, .add 0 1, .remove 0 1, .remove 0 5, .add 7 1] 0).cbs = [1, 2] := by
  decide +kernel

/-- non-vacuity: passive callbacks -/
example : ∃ h', (⟨2, [1, 2]⟩ : Handler Nat).dispatch (fun _ h => (h, true)) = (.ok h', [1, 2]) ∧ [1, 2] <+: h'.cbs :=
  C40_dispatch_partial _ fun _ _ => ⟨rfl, List.prefix_refl _⟩

end Sleqp
