import Verif.Model.Bfgs

/-!
Model of `quasi_newton/sr1.c` (limited-memory SR1, block diagonal).

As in `Model/Bfgs.lean` the parallel arrays of a block are one ring buffer of slots,
caches are fresh vectors of the block's dimension, and divisions by zero are `none`.
`norm` stands for `sleqp_vec_norm` (vec.c), which takes a square root; the theorems
say what they need from it.
-/

namespace Sleqp

variable {K : Type*} [Field K] [LinearOrder K]

/-- one slot of the arrays of `SR1Block`, quasi_newton/sr1.c:45-62 -/
structure Sr1Slot (K : Type*) where
  /-- `step_diffs` -/
  s : Vec K
  /-- `grad_diffs` -/
  y : Vec K
  /-- `inner_prods` -/
  a : Vec K
  /-- `inner_dots`, 0 if the pair is skipped -/
  dot : K

/-- `SR1Block`, quasi_newton/sr1.c:45-62 -/
structure Sr1Block (K : Type*) where
  dim : Nat
  ring : Ring (Sr1Slot K)
  scale : K

namespace Sr1Block

/-- `sr1_block_create_at`, quasi_newton/sr1.c:92-124; `u` stands for the contents of the
uninitialised array `inner_dots`. -/
def create (dim num : Nat) (u : K) : Option (Sr1Block K) :=
  if 0 < dim ∧ 0 < num then
    some ⟨dim, Ring.create num fun _ => ⟨Vec.create dim 0, Vec.create dim 0, Vec.create dim 0, u⟩, 0⟩
  else none

/-- `sr1_initial_scale`, quasi_newton/sr1.c:208-231. -/
def initialScale (s y : Vec K) : Option K :=
  (y.dot s).bind fun ys => if 0 < ys then cdiv y.normSq ys else some (1 / 10000)

/-- body of the inner loop of `sr1_compute_inner_products`, quasi_newton/sr1.c:233-329:
add the contribution of an earlier slot to the product with `s` -/
def innerStep (eps : K) (dim : Nat) (s : Vec K) (outer : Vec K) (sl : Sr1Slot K) : Option (Vec K) :=
  if sl.dot = 0 then some outer
  else
    (s.dot sl.a).bind fun sa =>
    (cdiv sa sl.dot).bind fun f =>
    (Vec.addScaled outer sl.a 1 f eps (Vec.create dim 0)).bind fun inner =>
    Vec.copy inner (Vec.create dim 0)

/-- the safeguard, quasi_newton/sr1.c:299-321 -/
def safeguard (norm : Vec K → K) (s a : Vec K) (d : K) : K :=
  if |d| < 1 / 100000000 * norm a * norm s then 0 else d

/-- One pass of the outer loop of `sr1_compute_inner_products`,
quasi_newton/sr1.c:233-329, for the slot `k` steps after the oldest one. -/
def processSlot (norm : Vec K → K) (eps : K) (b : Sr1Block K) (k : Nat) : Option (Sr1Block K) :=
  let sl := b.ring.arr (b.ring.slotAt k)
  (Vec.copy sl.s (Vec.create b.dim 0)).bind fun outer0 =>
  ((b.ring.window k).foldlM (innerStep eps b.dim sl.s) (outer0.scale b.scale)).bind fun outer =>
  (Vec.addScaled outer sl.y (-1) 1 eps sl.a).bind fun a =>
  (sl.s.dot a).map fun d =>
    { b with ring := b.ring.setSlot k { sl with a := a, dot := safeguard norm sl.s a d } }

/-- `sr1_compute_inner_products`, quasi_newton/sr1.c:233-329. -/
def computeProducts (norm : Vec K → K) (eps : K) (b : Sr1Block K) : Option (Sr1Block K) :=
  let sl := b.ring.arr (b.ring.dataIndex b.ring.curr)
  (initialScale sl.s sl.y).bind fun sc =>
    (List.range b.ring.len).foldlM (processSlot norm eps) { b with scale := sc }

/-- `sr1_block_push`, quasi_newton/sr1.c:331-353. -/
def push (norm : Vec K → K) (eps : K) (b : Sr1Block K) (s y : Vec K) : Option (Sr1Block K) :=
  let old := b.ring.arr (b.ring.dataIndex (b.ring.curr + 1))
  (Vec.copy s old.s).bind fun s' =>
  (Vec.copy y old.y).bind fun y' =>
    computeProducts norm eps { b with ring := b.ring.pushSet { old with s := s', y := y' } }

/-- `sr1_reset` for one block, quasi_newton/sr1.c:466-480. -/
def reset (b : Sr1Block K) : Sr1Block K := { b with ring := b.ring.resetLen }

/-- body of the loop of `sr1_block_hess_prod`, quasi_newton/sr1.c:482-533 -/
def prodStep (eps : K) (dim : Nat) (d : Vec K) (product : Vec K) (sl : Sr1Slot K) : Option (Vec K) :=
  if sl.dot = 0 then some product
  else
    (sl.a.dot d).bind fun ad =>
    (cdiv ad sl.dot).bind fun f =>
    (Vec.addScaled product sl.a 1 f eps (Vec.create dim 0)).bind fun inner =>
    Vec.copy inner (Vec.create dim 0)

/-- `sr1_block_hess_prod`, quasi_newton/sr1.c:482-533. -/
def hessProd (eps : K) (b : Sr1Block K) (d : Vec K) : Option (Vec K) :=
  (Vec.copy d (Vec.create b.dim 0)).bind fun product =>
    if b.ring.len = 0 then some product
    else (b.ring.window b.ring.len).foldlM (prodStep eps b.dim d) (product.scale b.scale)

/-- product with one block as used by `sr1_hess_prod`, quasi_newton/sr1.c:535-612:
`none` if the block is empty (then the direction is copied unchanged) -/
def prod? (eps : K) (b : Sr1Block K) : Option (Vec K → Option (Vec K)) :=
  if b.ring.len = 0 then none else some fun d => b.hessProd eps d

/-- calls on one block -/
def step (norm : Vec K → K) (eps : K) (b : Sr1Block K) : BfgsBlock.Op K → Option (Sr1Block K)
  | .push s y => b.push norm eps s y
  | .reset => some b.reset

def run (norm : Vec K → K) (eps : K) (b : Sr1Block K) (ops : List (BfgsBlock.Op K)) : Option (Sr1Block K) :=
  ops.foldlM (step norm eps) b

end Sr1Block

/-- `sr1_create`, quasi_newton/sr1.c:126-193: one block per range of the Hessian
structure. -/
def sr1Create (dims : List Nat) (num : Nat) (u : K) : Option (List (Sr1Block K)) :=
  dims.mapM fun dim => Sr1Block.create dim num u

end Sleqp
