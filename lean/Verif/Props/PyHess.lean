import Verif.Model.PyHess
import Verif.Props.HessStruct

/-! C130: block structures set from Python. -/

namespace Sleqp
namespace PyHess
open HessStruct

/-- ends of blocks `0 < e₁ < … < e_k ≤ n` -/
def GoodEnds (n : Nat) (es : List Int) : Prop := es.Pairwise (· < ·) ∧ ∀ e ∈ es, 0 < e ∧ e ≤ n

instance (n : Nat) (es : List Int) : Decidable (GoodEnds n es) := by unfold GoodEnds; infer_instance

/-- the usual method: start afresh, then push one block after the other -/
def usual (es : List Int) : List Cmd := .clear :: es.map fun e => .push e false

/-- the method only pushes blocks with positive ends -/
def Positive (cs : List Cmd) : Prop := ∀ e c, Cmd.push e c ∈ cs → 0 < e

theorem runCmds_push (es : List Int) : ∀ {h : HessStruct}, h.Valid → (∀ e ∈ es, 0 < e) →
    (Valid { h with ends := h.ends ++ es } → runCmds h (es.map fun e => .push e false) = .ok ({ h with ends := h.ends ++ es }, none)) ∧
    (¬ Valid { h with ends := h.ends ++ es } → ∃ h', runCmds h (es.map fun e => .push e false) = .ok (h', some .value)) := by
  induction es with
  | nil =>
    intro h hv _
    simp only [List.append_nil, List.map_nil]
    exact ⟨fun _ => rfl, fun h' => absurd hv h'⟩
  | cons e es ih =>
    intro h hv hpos
    have he := hpos e List.mem_cons_self
    rcases pushBlock_spec hv he with ⟨-, -, h1, h2⟩ | ⟨h1, h2⟩
    · have := ih h2 fun x hx => hpos x (List.mem_cons_of_mem _ hx)
      simp only [List.append_assoc, List.singleton_append] at this
      have e1 : runCmds h ((e :: es).map fun e => .push e false) =
          runCmds { h with ends := h.ends ++ [e] } (es.map fun e => .push e false) := by
        rw [List.map_cons, runCmds, h1]
      rw [e1]
      exact this
    · have e1 : runCmds h ((e :: es).map fun e => .push e false) = .ok (h, some .value) := by
        rw [List.map_cons, runCmds, h2]
        rfl
      rw [e1]
      refine ⟨fun hg => absurd ⟨?_, hg.le_dim e (by simp)⟩ h1, fun _ => ⟨h, rfl⟩⟩
      unfold linRange
      cases hl : h.ends.getLast? with
      | none => exact he
      | some l =>
        have hi : (h.ends ++ e :: es).Pairwise (· < ·) := hg.incr
        rw [List.pairwise_append] at hi
        exact hi.2.2 l (List.mem_of_getLast? hl) e List.mem_cons_self

/-- C130 (partial): for ordinary and dynamic functions, a method which starts afresh and pushes blocks with positive ends is obeyed: the problem
is created exactly if the ends increase and do not exceed the number of variables, and then has the blocks
`[0, e₁), [e₁, e₂), …` and the linear range from the last end on; otherwise a `ValueError` is raised.
Missing with respect to the statement: least-squares functions (`C130_lsq_violated`), methods which raise an `AttributeError`
(`C130_attribute_violated`), ends which are not positive (`C130_end_violated`). -/
theorem C130_method_partial {k : Kind} (hk : k ≠ .lsq) (n : Nat) (es : List Int) (hpos : ∀ e ∈ es, 0 < e) :
    (GoodEnds n es → ∃ h, makeProblem k n (some (usual es)) = .made h ∧ h.dim = n ∧ h.ends.length = es.length ∧
      (∀ b : Nat, b < es.length → h.blockRange b = .ok (if b = 0 then 0 else es.getD (b - 1) 0, es.getD b 0)) ∧
      h.linRange = ((es.getLast?).getD 0, (n : Int))) ∧
    (¬ GoodEnds n es → makeProblem k n (some (usual es)) = .raised .value) := by
  obtain ⟨h0, c1, c2, c3, -⟩ := C41_create n false
  have hcv : h0.clear.Valid := clear_valid c2.alloc
  have hiff : Valid { h0.clear with ends := h0.clear.ends ++ es } ↔ GoodEnds n es := by
    constructor
    · intro h
      refine ⟨h.incr, fun e he => ⟨h.pos e he, ?_⟩⟩
      have := h.le_dim e he
      change e ≤ (h0.dim : Int) at this
      rwa [c3] at this
    · rintro ⟨a, b⟩
      refine ⟨a, fun e he => (b e he).1, fun e he => ?_, hcv.alloc⟩
      show e ≤ (h0.dim : Int)
      rw [c3]
      exact (b e he).2
  have hm : makeProblem k n (some (usual es)) = afterHook (runCmds h0.clear (es.map fun e => .push e false)) := by
    unfold makeProblem
    rw [c1]
    simp only [if_neg hk]
    rfl
  obtain ⟨r1, r2⟩ := runCmds_push es hcv hpos
  rw [hm]
  constructor
  · intro hg
    have hv := hiff.2 hg
    rw [r1 hv]
    refine ⟨_, rfl, c3, rfl, fun b hb => ?_, ?_⟩
    · exact blockRange_eq (h := { h0.clear with ends := h0.clear.ends ++ es }) (b := b) hb
    · unfold linRange
      show ((es.getLast?).getD 0, (h0.dim : Int)) = _
      rw [c3]
  · intro hg
    obtain ⟨h', r3⟩ := r2 fun hv => hg (hiff.1 hv)
    rw [r3]
    rfl

/-- C130: without a method, all variables form one block, for all kinds of functions. -/
theorem C130_default (k : Kind) (n : Nat) : ∃ h, makeProblem k n none = .made h ∧ h.dim = n ∧
    (∀ j : Int, 0 ≤ j → j < n → h.InBlock 0 j) ∧ h.linRange.1 = n ∧ h.linRange.2 = n := by
  obtain ⟨h, c1, c2, c3, c4⟩ := C41_create n false
  have hm : makeProblem k n none = .made h := by
    unfold makeProblem
    rw [c1]
    rfl
  rcases Nat.eq_zero_or_pos n with rfl | hn
  · refine ⟨h, hm, c3, fun j a b => by omega, ?_, ?_⟩
    · unfold linRange; rw [c4]; rfl
    · unfold linRange; rw [c3]
  · rw [if_pos ⟨rfl, hn⟩] at c4
    refine ⟨h, hm, c3, fun j a b => ⟨by rw [c4]; simp, 0, n, ?_, a, b⟩, ?_, ?_⟩
    · have := blockRange_eq (h := h) (b := 0) (by rw [c4]; simp)
      rw [c4] at this
      exact this
    · unfold linRange; rw [c4]; rfl
    · unfold linRange; rw [c3]

theorem runCmds_valid (cs : List Cmd) : ∀ {h : HessStruct}, h.Valid → Positive cs →
    ∃ h' x, runCmds h cs = .ok (h', x) ∧ h'.Valid ∧ h'.dim = h.dim ∧ ∀ y, x = some y → y = .value ∨ Cmd.raise y ∈ cs := by
  induction cs with
  | nil => intro h hv _; exact ⟨h, none, rfl, hv, rfl, by simp⟩
  | cons c cs ih =>
    intro h hv hp
    have hp' : Positive cs := fun e c he => hp e c (List.mem_cons_of_mem _ he)
    cases c with
    | clear =>
      obtain ⟨h', x, a, b, c, d⟩ := ih (clear_valid hv.alloc) hp'
      exact ⟨h', x, a, b, c, fun y hy => (d y hy).imp_right (List.mem_cons_of_mem _)⟩
    | raise y =>
      refine ⟨h, some y, rfl, hv, rfl, fun z hz => Or.inr ?_⟩
      injection hz with hz
      subst hz
      exact List.mem_cons_self
    | push e caught =>
      rw [runCmds]
      rcases pushBlock_spec hv (hp e caught List.mem_cons_self) with ⟨-, -, h1, h2⟩ | ⟨-, h1⟩
      · rw [h1]
        obtain ⟨h', x, a, b, c, d⟩ := ih h2 hp'
        exact ⟨h', x, a, b, c, fun y hy => (d y hy).imp_right (List.mem_cons_of_mem _)⟩
      · rw [h1]
        cases caught with
        | false =>
          refine ⟨h, some .value, rfl, hv, rfl, fun z hz => Or.inl ?_⟩
          injection hz with hz
          exact hz.symm
        | true =>
          obtain ⟨h', x, a, b, c, d⟩ := ih hv hp'
          exact ⟨h', x, a, b, c, fun y hy => (d y hy).imp_right (List.mem_cons_of_mem _)⟩

theorem wraps_same {n : Nat} (depth : Nat) : ∀ {h : HessStruct}, h.Valid → h.dim = n →
    ∃ t, wraps n depth h = .ok t ∧ t.ends = h.ends ∧ t.dim = n := by
  induction depth with
  | zero => intro h _ hd; exact ⟨h, rfl, rfl, hd⟩
  | succ depth ih =>
    intro h hv hd
    obtain ⟨t0, a1, a2, a3, -⟩ := C41_create n false
    have hal : h.dim ≤ t0.alloc := by rw [hd, ← a3]; exact a2.alloc
    have hw := foldlM_push (t := clear { t0 with dim := h.dim }) h.ends ⟨hv.incr, hv.pos, hv.le_dim, hal⟩
    have hc : copy h t0 = .ok { clear { t0 with dim := h.dim } with ends := h.ends } := hw
    obtain ⟨t, b1, b2, b3⟩ := ih (h := { clear { t0 with dim := h.dim } with ends := h.ends })
      ⟨hv.incr, hv.pos, hv.le_dim, hal⟩ hd
    refine ⟨t, ?_, b2, b3⟩
    unfold wraps wrap
    rw [a1]
    simp only [hc]
    exact b1

/-- C130 (partial): whatever a method does (pushing positive ends), with or without catching exceptions: no array is overrun; if the problem is
created, its blocks and the linear range are a partition of the variables, and this very structure arrives at every function a solver wraps around
that of the user; if an exception is raised, it is one the method raised, or the `ValueError` of a push.
Missing with respect to the statement: least-squares functions and `AttributeError`s (`C130_lsq_violated`, `C130_attribute_violated`), ends
which are not positive (`C130_end_violated`). -/
theorem C130_valid_partial {k : Kind} (hk : k ≠ .lsq) (n : Nat) {cs : List Cmd} (hpos : Positive cs) :
    (∃ h, makeProblem k n (some cs) = .made h ∧ h.dim = n ∧
      (∀ j : Int, 0 ≤ j → j < n → (h.InLinear j ∧ ∀ b, ¬ h.InBlock b j) ∨ (¬ h.InLinear j ∧ ∃! b, h.InBlock b j)) ∧
      ∀ depth, ∃ t, wraps n depth h = .ok t ∧ t.ends = h.ends ∧ t.dim = n) ∨
    ∃ x, makeProblem k n (some cs) = .raised x ∧ (x = .value ∨ Cmd.raise x ∈ cs) := by
  obtain ⟨h0, c1, c2, c3, -⟩ := C41_create n false
  obtain ⟨h, x, r1, r2, r3, r4⟩ := runCmds_valid cs c2 hpos
  have hm : makeProblem k n (some cs) = afterHook (.ok (h, x)) := by
    unfold makeProblem
    rw [c1]
    simp only [if_neg hk, r1]
  have hd : h.dim = n := r3.trans c3
  have made : makeProblem k n (some cs) = .made h → (∃ h, makeProblem k n (some cs) = .made h ∧ h.dim = n ∧
      (∀ j : Int, 0 ≤ j → j < n → (h.InLinear j ∧ ∀ b, ¬ h.InBlock b j) ∨ (¬ h.InLinear j ∧ ∃! b, h.InBlock b j)) ∧
      ∀ depth, ∃ t, wraps n depth h = .ok t ∧ t.ends = h.ends ∧ t.dim = n) := fun e =>
    ⟨h, e, hd, fun j a b => (C41_partition r2).1 j a (by rw [hd]; exact b), fun depth => wraps_same depth r2 hd⟩
  match x, hm, r4 with
  | none, hm, _ => exact Or.inl (made hm)
  | some .attribute, hm, _ => exact Or.inl (made hm)
  | some .value, hm, r4 => exact Or.inr ⟨.value, hm, r4 _ rfl⟩
  | some .other, hm, r4 => exact Or.inr ⟨.other, hm, r4 _ rfl⟩

/-- nothing leaves this part of a method -/
def Quiet (cs : List Cmd) : Prop := ∀ c ∈ cs, c = .clear ∨ ∃ e, c = .push e true

theorem runCmds_quiet {pre : List Cmd} (hq : Quiet pre) (x : Exc) (post : List Cmd) : ∀ {h : HessStruct}, h.Valid → Positive pre →
    ∃ h', runCmds h (pre ++ .raise x :: post) = .ok (h', some x) := by
  induction pre with
  | nil => intro h _ _; exact ⟨h, rfl⟩
  | cons c cs ih =>
    intro h hv hp
    have hp' : Positive cs := fun e c he => hp e c (List.mem_cons_of_mem _ he)
    have hq' : Quiet cs := fun c hc => hq c (List.mem_cons_of_mem _ hc)
    rcases hq c List.mem_cons_self with rfl | ⟨e, rfl⟩
    · exact ih hq' (clear_valid hv.alloc) hp'
    · rw [List.cons_append, runCmds]
      rcases pushBlock_spec hv (hp e true List.mem_cons_self) with ⟨-, -, h1, h2⟩ | ⟨-, h1⟩
      · rw [h1]; exact ih hq' h2 hp'
      · rw [h1]; exact ih hq' hv hp'

/-- C130 (partial): an exception raised by the method, other than an `AttributeError`, leaves the constructor, whatever was done before and would
have been done after it.
Missing with respect to the statement: least-squares functions and `AttributeError`s (`C130_lsq_violated`, `C130_attribute_violated`). -/
theorem C130_exception_partial {k : Kind} (hk : k ≠ .lsq) (n : Nat) {pre : List Cmd} (hpos : Positive pre) (hq : Quiet pre) {x : Exc}
    (hx : x ≠ .attribute) (post : List Cmd) : makeProblem k n (some (pre ++ .raise x :: post)) = .raised x := by
  obtain ⟨h0, c1, c2, -, -⟩ := C41_create n false
  obtain ⟨h, r1⟩ := runCmds_quiet hq x post c2 hpos
  unfold makeProblem
  rw [c1]
  simp only [if_neg hk, r1]
  match x, hx with
  | .attribute, hx => exact absurd rfl hx
  | .value, _ => rfl
  | .other, _ => rfl

/-- what a step does to the ends of the blocks: a block is added if its end exceeds all ends so far and not the number of variables -/
def endsStep (n : Nat) (ends : List Int) : Cmd → List Int
  | .push e _ => if (∀ x ∈ ends, x < e) ∧ e ≤ n then ends ++ [e] else ends
  | _ => []

theorem runCmds_ends {n : Nat} {cs : List Cmd} (hq : Quiet cs) : ∀ {h : HessStruct}, h.Valid → h.dim = n → Positive cs →
    ∃ h', runCmds h cs = .ok (h', none) ∧ h'.ends = cs.foldl (endsStep n) h.ends := by
  induction cs with
  | nil => intro h _ _ _; exact ⟨h, rfl, rfl⟩
  | cons c cs ih =>
    intro h hv hd hp
    have hp' : Positive cs := fun e c he => hp e c (List.mem_cons_of_mem _ he)
    have hq' : Quiet cs := fun c hc => hq c (List.mem_cons_of_mem _ hc)
    rcases hq c List.mem_cons_self with rfl | ⟨e, rfl⟩
    · exact ih hq' (clear_valid hv.alloc) hd hp'
    · have he := hp e true List.mem_cons_self
      have hlin : h.linRange.1 < e ↔ ∀ x ∈ h.ends, x < e := by
        unfold linRange
        cases hl : h.ends.getLast? with
        | none => simp [List.getLast?_eq_none_iff.mp hl, he]
        | some l =>
          refine ⟨fun h1 x hx => ?_, fun h1 => h1 l (List.mem_of_getLast? hl)⟩
          obtain ⟨L, hL⟩ := List.getLast?_eq_some_iff.1 hl
          have hi := hv.incr
          rw [hL] at hx hi
          rw [List.pairwise_append] at hi
          have h1' : l < e := h1
          rcases List.mem_append.mp hx with hx | hx
          · exact (hi.2.2 x hx l (by simp)).trans h1'
          · rw [List.mem_singleton.1 hx]; exact h1'
      rw [runCmds, List.foldl_cons]
      have es : endsStep n h.ends (.push e true) = if (∀ x ∈ h.ends, x < e) ∧ e ≤ (n : Int) then h.ends ++ [e] else h.ends := rfl
      rw [es]
      rcases pushBlock_spec hv he with ⟨a1, a2, h1, h2⟩ | ⟨a1, h1⟩
      · rw [h1, if_pos (c := (∀ x ∈ h.ends, x < e) ∧ e ≤ (n : Int)) ⟨hlin.1 a1, by rw [← hd]; exact a2⟩]
        exact ih hq' h2 hd hp'
      · rw [h1, if_neg (c := (∀ x ∈ h.ends, x < e) ∧ e ≤ (n : Int)) fun a => a1 ⟨hlin.2 a.1, by rw [hd]; exact a.2⟩]
        exact ih hq' hv hd hp'

/-- C130 (partial): a method which catches the exceptions of its pushes is obeyed step by step: a refused push changes nothing, also of the single block
the structure has at the beginning.
Missing with respect to the statement: least-squares functions (`C130_lsq_violated`), ends which are not positive
(`C130_end_violated`). -/
theorem C130_steps_partial {k : Kind} (hk : k ≠ .lsq) (n : Nat) {cs : List Cmd} (hpos : Positive cs) (hq : Quiet cs) :
    ∃ h, makeProblem k n (some cs) = .made h ∧ h.ends = cs.foldl (endsStep n) (if 0 < n then [(n : Int)] else []) := by
  obtain ⟨h0, c1, c2, c3, c4⟩ := C41_create n false
  obtain ⟨h, r1, r2⟩ := runCmds_ends hq c2 c3 hpos
  refine ⟨h, ?_, ?_⟩
  · unfold makeProblem
    rw [c1]
    simp only [if_neg hk, r1]
    rfl
  · rw [r2, c4]
    simp

/-! ### samples -/

example : ∃ h, makeProblem .plain 3 (some [.push 2 true, .clear, .push 2 true, .push 1 true, .push 3 true]) = .made h ∧ h.ends = [2, 3] :=
  C130_steps_partial (by decide) 3 (by unfold Positive; simp) (by unfold Quiet; simp)

example : GoodEnds 3 [1, 3] ∧ ¬ GoodEnds 3 [2, 1] ∧ makeProblem .plain 3 (some (usual [1, 3])) = .made ⟨3, 3, [1, 3]⟩ ∧
    makeProblem .dyn 3 (some (usual [2, 1])) = .raised .value ∧ makeProblem .plain 3 none = .made ⟨3, 3, [3]⟩ := by decide +kernel

example : makeProblem .plain 3 (some (usual [2, 1])) = .raised .value :=
  (C130_method_partial (by decide) 3 [2, 1] (by decide)).2 (by decide +kernel)

/-- a method which catches the exception of a push and goes on -/
example : Positive [.clear, .push 2 true, .push 1 true, .push 3 false] ∧
    makeProblem .plain 3 (some [.clear, .push 2 true, .push 1 true, .push 3 false]) = .made ⟨3, 3, [2, 3]⟩ ∧
    (wraps 3 2 ⟨3, 3, [2, 3]⟩).toOption.map HessStruct.ends = some [2, 3] :=
  ⟨by unfold Positive; simp; omega, by decide +kernel, by decide +kernel⟩

example : makeProblem .dyn 2 (some ([.clear, .push 1 true, .push 1 true] ++ .raise .other :: [])) = .raised .other :=
  C130_exception_partial (by decide) 2 (by unfold Positive; simp) (by unfold Quiet; simp) (by decide) []

/-! ### violations -/

/-- For least-squares problems the method is never called: `LSQProblem` has no property `hess_struct`, the `AttributeError` this causes is
caught (problem.pxi:396-399), and all variables stay in one block, whatever the method does; its exceptions are not raised either. -/
theorem C130_lsq_violated : (∀ n hook, makeProblem .lsq n hook = makeProblem .lsq n none) ∧ GoodEnds 3 [1, 2, 3] ∧
    makeProblem .lsq 3 (some (usual [1, 2, 3])) = .made ⟨3, 3, [3]⟩ ∧ makeProblem .lsq 3 (some [.raise .other]) = .made ⟨3, 3, [3]⟩ := by
  refine ⟨fun n hook => ?_, by decide +kernel, by decide +kernel, by decide +kernel⟩
  cases hook with
  | none => rfl
  | some cs =>
    unfold makeProblem
    simp

/-- An `AttributeError` raised inside the method, such as by a misspelt name, is taken for the method not being there (problem.pxi:314-317): the problem is created
with what has been pushed up to then. Here the method is to push the blocks `[0, 1)` and `[1, 3)` but fails after the first one: the last two
variables are then treated as if the functions were linear in them. -/
theorem C130_attribute_violated : makeProblem .plain 3 (some [.clear, .push 1 false, .raise .attribute, .push 3 false]) = .made ⟨3, 3, [1]⟩ ∧
    HessStruct.linRange ⟨3, 3, [1]⟩ = (1, 3) ∧ makeProblem .plain 3 (some (usual [1, 3])) = .made ⟨3, 3, [1, 3]⟩ := by
  decide +kernel

/-- A first block with a negative end is accepted from Python as well (hess_struct.pxi:17-18). -/
theorem C130_end_violated : makeProblem .plain 3 (some (usual [-2])) = .made ⟨3, 3, [-2]⟩ ∧ HessStruct.linRange ⟨3, 3, [-2]⟩ = (-2, 3) := by
  decide +kernel

end PyHess
end Sleqp
