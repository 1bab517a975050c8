import Verif.Model.Own

/-!
Specification of the discipline of references: who may access what, and which structures are sound.
-/

namespace Sleqp
variable {T : Type*}

/-- field `f` owns what it points to -/
def Layout.Owns (L : Layout T) (ty : T) (f : String) : Prop := (f, true) ∈ L.fields ty

/-- a structure is sound: the function which frees it releases exactly the fields which own what they point to -/
def Layout.Sound (L : Layout T) (ty : T) : Prop :=
  (∀ f, L.Owns ty f ↔ f ∈ L.released ty) ∧ ∀ f, L.Owns ty f → (f, false) ∉ L.fields ty

/-- `a` is held by `b` -/
def Heap.Holds (L : Layout T) (h : Heap T) (b a : Nat) : Prop :=
  ∃ o f i, h.obj b = some o ∧ L.Owns o.ty f ∧ o.field f i = some a

/-- `b` leads to `a` by owning fields -/
inductive Heap.Leads (L : Layout T) (h : Heap T) : Nat → Nat → Prop
  | refl (a : Nat) : Leads L h a a
  | step {b c a : Nat} : h.Holds L b c → Leads L h c a → Leads L h b a

/-- what callers get at: the objects they hold references to and those held by these -/
def Heap.Reach (L : Layout T) (h : Heap T) (a : Nat) : Prop := ∃ b, 0 < h.hand b ∧ h.Leads L b a

/-- the rules for programs: only objects one gets at are used, only own references are given up or handed over, fields which own
something are not overwritten, and no object comes to hold itself; structures are sound -/
def OwnOp.Allowed (L : Layout T) (h : Heap T) : OwnOp T → Prop
  | .alloc ty _ => L.Sound ty
  | .capture a => h.Reach L a
  | .release a => 0 < h.hand a
  | .store b f i a => h.Reach L b ∧ ∃ o, h.obj b = some o ∧ i < o.size ∧
      (L.Owns o.ty f ∧ 0 < h.hand a ∧ o.field f i = none ∧ ¬ h.Leads L a b ∨ (f, false) ∈ L.fields o.ty ∧ ¬ L.Owns o.ty f)
  | .clear b f _ => h.Reach L b ∧ ∃ o, h.obj b = some o ∧ L.Owns o.ty f
  | .use a => h.Reach L a

/-- every step of the program is allowed when it is made -/
def Obeys (L : Layout T) : Heap T → List (OwnOp T) → Prop
  | _, [] => True
  | h, op :: ops => op.Allowed L h ∧ ∀ h', ownStep L h op = some h' → Obeys L h' ops

end Sleqp
