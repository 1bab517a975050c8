import Verif.Model.HessStruct

/-! Specification for Hessian block structures. -/

namespace Sleqp
namespace HessStruct

/-- index `j` lies in block number `b`, as reported by `sleqp_hess_struct_block_range` -/
def InBlock (h : HessStruct) (b : Nat) (j : Int) : Prop :=
  b < h.ends.length ∧ ∃ begin fin, h.blockRange b = .ok (begin, fin) ∧ begin ≤ j ∧ j < fin

/-- index `j` lies in the linear range -/
def InLinear (h : HessStruct) (j : Int) : Prop := h.linRange.1 ≤ j ∧ j < h.linRange.2

/-- the documented condition `0 < j_2 < ... < j_{k+1} <= n` on the block ends -/
structure Valid (h : HessStruct) : Prop where
  incr : h.ends.Pairwise (· < ·)
  pos : ∀ e ∈ h.ends, 0 < e
  le_dim : ∀ e ∈ h.ends, e ≤ h.dim
  alloc : h.dim ≤ h.alloc

/-- operations of a user -/
inductive Op
  | push (e : Int)
  | clear

/-- a refused push changes nothing -/
def step (h : HessStruct) : Op → HessStruct
  | .push e => match h.pushBlock e with
    | .ok h' => h'
    | .error _ => h
  | .clear => h.clear

def run (h : HessStruct) (os : List Op) : HessStruct := os.foldl step h

end HessStruct
end Sleqp
