import Mathlib.Logic.Function.Basic

/-!
Model of reference counting: objects with a count, `*_capture`, `*_release` and the functions which free an object by
releasing its fields.

The shape of all of these functions is the same: aug_jac/aug_jac.c:120-126, aug_jac/aug_jac.c:148-164,
callback_handler.c:38-44, callback_handler.c:161-179, cauchy/cauchy.c:152-158, cauchy/cauchy.c:172-190, direction.c:245-250,
direction.c:266-284, dual_estimation/dual_estimation.c:75-81, dual_estimation/dual_estimation.c:96-114, eqp.c:116-122,
eqp.c:124-142, fact/fact.c:120-126, fact/fact.c:143-161, fact/fact_qr.c:122-128, fact/fact_qr.c:145-163, func.c:465-471,
func.c:473-491, hess_struct.c:180-186, hess_struct.c:188-206, iterate.c:655-661, iterate.c:663-681, linesearch.c:1093-1099,
linesearch.c:1101-1119, lp/lpi.c:254-260, lp/lpi.c:262-280, measure.c:210-216, measure.c:452-470, merit.c:164-170,
merit.c:172-190, parametric.c:423-429, parametric.c:457-475, polish.c:265-271, polish.c:289-307,
preprocessor/preprocessing_state.c:590-595, preprocessor/preprocessing_state.c:597-615, preprocessor/preprocessor.c:857-862,
preprocessor/preprocessor.c:864-882, preprocessor/restore.c:825-831, preprocessor/restore.c:866-884,
preprocessor/transform.c:660-665, preprocessor/transform.c:667-685, problem.c:751-757, problem.c:759-777,
problem_scaling.c:650-656, problem_scaling.c:658-676, problem_solver.c:220-226, problem_solver.c:228-246,
quasi_newton/quasi_newton.c:188-194, quasi_newton/quasi_newton.c:214-232, scale.c:897-903, scale.c:905-923,
settings.c:820-826, settings.c:828-846, soc.c:385-391, soc.c:393-411, solver.c:504-510, solver.c:512-530,
sparse/mat.c:954-960, sparse/mat.c:962-980, step/step_rule.c:81-87, step/step_rule.c:113-131, tr/lsqr.c:335-340,
tr/lsqr.c:373-391, tr/tr_solver.c:90-96, tr/tr_solver.c:112-130, trial_point.c:1157-1163, trial_point.c:1165-1183,
working_set.c:606-612, working_set.c:639-657, working_step.c:556-562, working_step.c:564-582.
What differs is which fields a structure has and which of them are released,
see
`Layout` and Model/OwnLayout.lean.  Vectors, timers, arrays and objects of libraries have no count; they are objects which
are never captured.  `sleqp_aug_jac_release` (aug_jac/aug_jac.c:148-164) leaves the pointer as it is if the object stays
alive, while all others reset it: its callers all assign or free the field afterwards.
-/

namespace Sleqp

/-- an object: its type, the length of its arrays, its count and its fields; a field which is no array only uses the index 0 -/
structure Obj (T : Type*) where
  ty : T
  size : Nat
  rc : Nat
  field : String → Nat → Option Nat

/-- the fields of the structures which hold pointers and whether they own what they point to, and the fields released by the function
which frees the structure, in this order -/
structure Layout (T : Type*) where
  fields : T → List (String × Bool)
  released : T → List String

/-- the memory: objects by address, addresses are never used again; `hand` counts the references the callers hold -/
structure Heap (T : Type*) where
  next : Nat
  obj : Nat → Option (Obj T)
  hand : Nat → Nat

variable {T : Type*}

def Heap.empty : Heap T := ⟨0, fun _ => none, fun _ => 0⟩

def Heap.setObj (h : Heap T) (a : Nat) (o : Option (Obj T)) : Heap T := ⟨h.next, Function.update h.obj a o, h.hand⟩

def Heap.setHand (h : Heap T) (a k : Nat) : Heap T := ⟨h.next, h.obj, Function.update h.hand a k⟩

def Obj.setField (o : Obj T) (f : String) (i : Nat) (a : Option Nat) : Obj T :=
  ⟨o.ty, o.size, o.rc, fun g j => if g = f ∧ j = i then a else o.field g j⟩

def Obj.setRc (o : Obj T) (r : Nat) : Obj T := ⟨o.ty, o.size, r, o.field⟩

/-- the slots released when an object is freed -/
def Layout.slots (L : Layout T) (o : Obj T) : List (String × Nat) :=
  (L.released o.ty).flatMap fun f => (List.range o.size).map fun i => (f, i)

/-- the body of a function which frees an object, up to the object itself: the fields are released one after the other and reset.
Accesses to freed memory are `none`. -/
def freeSlots (rel : Heap T → Nat → Option (Heap T)) (a : Nat) : List (String × Nat) → Heap T → Option (Heap T)
  | [], h => some h
  | (f, i) :: rest, h =>
    match h.obj a with
    | none => none
    | some o =>
      match o.field f i with
      | none => freeSlots rel a rest h
      | some c => (rel (h.setObj a (some (o.setField f i none))) c).bind (freeSlots rel a rest)

/-- `*_release`: the count is decreased; if it reaches zero the object is freed.  An access to freed memory is `none`; so is running
out of `fuel`, which bounds the depth of the recursion. -/
def releaseF (L : Layout T) : Nat → Heap T → Nat → Option (Heap T)
  | 0, _, _ => none
  | fuel + 1, h, a =>
    match h.obj a with
    | none => none
    | some o =>
      match o.rc with
      | 0 => none
      | 1 => (freeSlots (releaseF L fuel) a (L.slots o) (h.setObj a (some (o.setRc 0)))).map (·.setObj a none)
      | r + 2 => some (h.setObj a (some (o.setRc (r + 1))))

/-- the steps of programs which use reference counted objects -/
inductive OwnOp (T : Type*) where
  /-- `malloc`, all fields zero, count one -/
  | alloc (ty : T) (size : Nat)
  /-- `*_capture` -/
  | capture (a : Nat)
  /-- `*_release` of a reference held by the caller -/
  | release (a : Nat)
  /-- assignment to a field, which takes over the reference of the caller if it owns what it points to -/
  | store (b : Nat) (f : String) (i a : Nat)
  /-- `*_release(&b->f)` -/
  | clear (b : Nat) (f : String) (i : Nat)
  /-- any access to the contents of an object -/
  | use (a : Nat)

/-- one step; an access to freed memory is `none` -/
def ownStep (L : Layout T) (h : Heap T) : OwnOp T → Option (Heap T)
  | .alloc ty size =>
    some ⟨h.next + 1, Function.update h.obj h.next (some ⟨ty, size, 1, fun _ _ => none⟩), Function.update h.hand h.next 1⟩
  | .capture a =>
    match h.obj a with
    | none => none
    | some o => some ((h.setObj a (some (o.setRc (o.rc + 1)))).setHand a (h.hand a + 1))
  | .release a => releaseF L (h.next + 1) (h.setHand a (h.hand a - 1)) a
  | .store b f i a =>
    match h.obj b with
    | none => none
    | some o =>
      let h' := h.setObj b (some (o.setField f i (some a)))
      some (if (f, true) ∈ L.fields o.ty then h'.setHand a (h.hand a - 1) else h')
  | .clear b f i =>
    match h.obj b with
    | none => none
    | some o =>
      match o.field f i with
      | none => some h
      | some c => releaseF L (h.next + 1) (h.setObj b (some (o.setField f i none))) c
  | .use a => (h.obj a).map fun _ => h

/-- a program -/
def ownRun (L : Layout T) : Heap T → List (OwnOp T) → Option (Heap T)
  | h, [] => some h
  | h, op :: ops => (ownStep L h op).bind fun h' => ownRun L h' ops

end Sleqp
