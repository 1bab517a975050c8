import Verif.Model.Mat
import Verif.Model.Ring
import Verif.Model.StepRule

/-!
Model of `quasi_newton/bfgs.c` (limited-memory BFGS, plain or damped, block diagonal)
and of the block splitting shared with `quasi_newton/sr1.c`.

The parallel arrays of a block (`point_diffs`, `grad_diffs`, …) are one ring buffer of
slots.  Caches and target vectors are freshly created vectors of the block's dimension
(every routine that writes them clears and reserves first).  Divisions by zero and
failed `assert`s are `none`; the numerical asserts (`sleqp_assert_is_pos`, …), which
only exist in special builds, are not modelled.
-/

namespace Sleqp

namespace Ring
variable {α : Type*}

/-- `sr1_reset` / `bfgs_reset`, quasi_newton/sr1.c:466-480, quasi_newton/bfgs.c:696-710:
only `len` is set to 0. -/
def resetLen (r : Ring α) : Ring α := { r with len := 0 }

/-- the slot index visited `k` steps after the oldest element,
`data_index(block, block->curr - block->len + 1 + k)` -/
def slotAt (r : Ring α) (k : Nat) : Nat := r.dataIndex (r.curr - r.len + 1 + k)

/-- the first `k` elements visited by a loop starting at `curr - len + 1` -/
def window (r : Ring α) (k : Nat) : List α := (List.range k).map fun i => r.arr (r.slotAt i)

/-- overwrite the slot visited `k` steps after the oldest element -/
def setSlot (r : Ring α) (k : Nat) (x : α) : Ring α :=
  { r with arr := fun i => if i = r.slotAt k then x else r.arr i }

end Ring

variable {K : Type*} [Field K] [LinearOrder K]

/-- one slot of the arrays of `BFGSBlock`, quasi_newton/bfgs.c:22-68 -/
structure BfgsSlot (K : Type*) where
  /-- `point_diffs` -/
  s : Vec K
  /-- `grad_diffs` -/
  y : Vec K
  /-- `point_products`: `B_k s_k` -/
  p : Vec K
  /-- `damped_grad_diffs`: `r_k` -/
  r : Vec K
  /-- `damped_grad_point_diff_dots`: `s_k · r_k` -/
  rs : K
  /-- `grad_point_diff_dots`: `s_k · y_k` -/
  ys : K
  /-- `point_diff_inner_dots`: `s_k · s_k` -/
  ss : K
  /-- `bidir_products`: `s_k · B_k s_k` -/
  bidir : K
  /-- `sizing_factors` -/
  sizing : K

/-- `BFGSBlock`, quasi_newton/bfgs.c:22-68; `ol` is
`sizing == SLEQP_BFGS_SIZING_CENTERED_OL` (the only sizing besides `NONE`). -/
structure BfgsBlock (K : Type*) where
  dim : Nat
  ring : Ring (BfgsSlot K)
  scale : K
  damped : Bool
  ol : Bool

namespace BfgsBlock

/-- `bfgs_block_create_at`, quasi_newton/bfgs.c:96-157; `u` stands for the contents of
the uninitialised arrays. -/
def create (dim num : Nat) (damped ol : Bool) (u : K) : Option (BfgsBlock K) :=
  if 0 < dim ∧ 0 < num then
    some ⟨dim, Ring.create num fun _ =>
      ⟨Vec.create dim 0, Vec.create dim 0, Vec.create dim 0, Vec.create dim 0, 0, u, u, u, 1⟩, 0, damped, ol⟩
  else none

/-- body of the loop of `bfgs_hess_prod_range`, quasi_newton/bfgs.c:291-346 -/
def prodStep (eps : K) (dim : Nat) (d : Vec K) (product : Vec K) (sl : BfgsSlot K) : Option (Vec K) :=
  (sl.p.dot d).bind fun dp =>
  (sl.r.dot d).bind fun dr =>
  (cdiv (-1 * dp) sl.bidir).bind fun f =>
  (Vec.addScaled product sl.p 1 f eps (Vec.create dim 0)).bind fun inner =>
  (cdiv dr sl.rs).bind fun g =>
  Vec.addScaled inner sl.r sl.sizing g eps (Vec.create dim 0)

/-- `bfgs_hess_prod_range`, quasi_newton/bfgs.c:291-346, over the first `k` slots
(`final = curr - len + k`). -/
def hessProdRange (b : BfgsBlock K) (eps : K) (d : Vec K) (k : Nat) : Option (Vec K) :=
  (Vec.copy d (Vec.create b.dim 0)).bind fun product =>
    (b.ring.window k).foldlM (prodStep eps b.dim d) (product.scale b.scale)

/-- `bfgs_initial_scale`, quasi_newton/bfgs.c:348-380. -/
def initialScale (damped : Bool) (s y : Vec K) : Option K :=
  (y.dot s).bind fun ys =>
    if ys = 0 then some 1
    else
      (cdiv s.normSq ys).map fun q =>
        let q := max q (1 / 1000000)
        if damped then min q 1 else q

/-- `bfgs_compute_sizing`, quasi_newton/bfgs.c:382-430: factor of slot `cur`, given the
slot before it in the window (if any). -/
def sizingFactor (prev : Option (BfgsSlot K)) (cur : BfgsSlot K) : Option K :=
  match prev with
  | none => some 1
  | some pr =>
    (cdiv ((1 - 1 / 2) * pr.ys) pr.ss).bind fun n1 =>
    (cdiv ((1 / 2) * cur.ys) cur.ss).bind fun n2 =>
    (cdiv ((1 - 1 / 2) * pr.rs) pr.ss).bind fun d1 =>
    (cdiv (n1 + n2) (d1 + (1 / 2) * cur.bidir)).map fun f => min (max f (1 / 10)) 1

/-- the damped gradient difference and its product with the step,
quasi_newton/bfgs.c:481-519 -/
def dampedDiff (eps : K) (dim : Nat) (damped : Bool) (sl : BfgsSlot K) (product : Vec K) (bidir ys : K) :
    Option (Vec K × K) :=
  if damped ∧ ys < 1 / 5 * bidir then
    (cdiv ((1 - 1 / 5) * bidir) (bidir - ys)).bind fun t =>
    (Vec.addScaled sl.y product t (1 - t) eps (Vec.create dim 0)).bind fun r =>
    (r.dot sl.s).map fun rs => (r, rs)
  else (Vec.copy sl.y (Vec.create dim 0)).map fun r => (r, ys)

/-- One pass of the loop of `bfgs_compute_products`, quasi_newton/bfgs.c:432-549, for
the slot `k` steps after the oldest one. -/
def processSlot (eps : K) (b : BfgsBlock K) (k : Nat) : Option (BfgsBlock K) :=
  let sl := b.ring.arr (b.ring.slotAt k)
  (b.hessProdRange eps sl.s k).bind fun product =>
  (product.dot sl.s).bind fun bidir =>
  if 0 < bidir then
    (sl.y.dot sl.s).bind fun ys =>
    (dampedDiff eps b.dim b.damped sl product bidir ys).bind fun rr =>
    if 0 < rr.2 then
      let sl1 := { sl with r := rr.1, rs := rr.2, p := product, bidir := bidir }
      if b.ol then
        (sizingFactor (b.ring.window k).getLast? sl1).map fun f =>
          { b with ring := b.ring.setSlot k { sl1 with sizing := f } }
      else some { b with ring := b.ring.setSlot k sl1 }
    else none
  else none

/-- `bfgs_compute_products`, quasi_newton/bfgs.c:432-549. -/
def computeProducts (eps : K) (b : BfgsBlock K) : Option (BfgsBlock K) :=
  let sl := b.ring.arr b.ring.curr.toNat
  (initialScale b.damped sl.s sl.y).bind fun sc =>
    (List.range b.ring.len).foldlM (processSlot eps) { b with scale := sc }

/-- `bfgs_block_push`, quasi_newton/bfgs.c:551-581. -/
def push (eps : K) (b : BfgsBlock K) (s y : Vec K) : Option (BfgsBlock K) :=
  (Vec.copy s (Vec.create b.dim 0)).bind fun s' =>
  (Vec.copy y (Vec.create b.dim 0)).bind fun y' =>
  (s.dot y).bind fun ys =>
    let old := b.ring.arr (b.ring.dataIndex (b.ring.curr + 1))
    let sl := if b.ol then { old with s := s', y := y', ss := s.normSq, ys := ys }
              else { old with s := s', y := y' }
    computeProducts eps { b with ring := b.ring.pushSet sl }

/-- `bfgs_reset` for one block, quasi_newton/bfgs.c:696-710. -/
def reset (b : BfgsBlock K) : BfgsBlock K := { b with ring := b.ring.resetLen }

/-- product with one block as used by `bfgs_hess_prod`, quasi_newton/bfgs.c:712-783:
`none` if the block is empty (then the direction is copied unchanged) -/
def prod? (eps : K) (b : BfgsBlock K) : Option (Vec K → Option (Vec K)) :=
  if b.ring.len = 0 then none else some fun d => b.hessProdRange eps d b.ring.len

/-- product of one block with a direction -/
def prod (eps : K) (b : BfgsBlock K) (d : Vec K) : Option (Vec K) :=
  match b.prod? eps with
  | none => some d
  | some f => f d

/-- calls on one block -/
inductive Op (K : Type*) where
  | push (s y : Vec K)
  | reset

def step (eps : K) (b : BfgsBlock K) : Op K → Option (BfgsBlock K)
  | .push s y => b.push eps s y
  | .reset => some b.reset

def run (eps : K) (b : BfgsBlock K) (ops : List (Op K)) : Option (BfgsBlock K) := ops.foldlM (step eps) b

end BfgsBlock

/-! ### Block splitting (shared by both quasi-Newton methods) -/

/-- entries of one block, shifted to start at 0: the `while (k < nnz && indices[k] <
next_offset)` loops of quasi_newton/bfgs.c:657-675, 749-757 and quasi_newton/sr1.c:426-445, 575-583 -/
def takeBlock (numVars offset dim : Nat) (ents : List (Nat × K)) : Option (Vec K) :=
  (Vec.create dim numVars).pushAll
    ((ents.takeWhile fun e => decide (e.1 < offset + dim)).map fun e => (e.1 - offset, e.2))

/-- The loop of `bfgs_hess_prod`, quasi_newton/bfgs.c:712-783 (same code: `sr1_hess_prod`,
quasi_newton/sr1.c:535-612): `blocks` lists dimension and product (`none` for an empty
block) of each block. -/
def blockProdLoop (numVars : Nat) :
    List (Nat × Option (Vec K → Option (Vec K))) → Nat → List (Nat × K) → Vec K → Option (Vec K)
  | [], _, _, product => some product
  | (dim, f?) :: bs, offset, ents, product =>
    let cur := ents.takeWhile fun e => decide (e.1 < offset + dim)
    let rest := ents.dropWhile fun e => decide (e.1 < offset + dim)
    (match f? with
      | none => product.pushAll cur
      | some f =>
        (takeBlock numVars offset dim ents).bind fun d =>
        (f d).bind fun q => product.pushAll (q.ents.map fun e : Nat × K => (e.1 + offset, e.2))).bind fun product' =>
      blockProdLoop numVars bs (offset + dim) rest product'

/-- `bfgs_hess_prod` called through `sleqp_func_hess_prod` (func.c:374-408), which
clears the product first. -/
def blockHessProd (numVars : Nat) (blocks : List (Nat × Option (Vec K → Option (Vec K)))) (d product : Vec K) :
    Option (Vec K) :=
  blockProdLoop numVars blocks 0 d.ents ((product.clear).reserve numVars)

/-- The differences of points and of gradients of the Lagrangean,
quasi_newton/bfgs.c:597-640 (same code: quasi_newton/sr1.c:369-411). -/
def lagrangeDiffs (eps : K) (n : Nat) (x0 g0 : Vec K) (j0 : Mat K) (x1 g1 : Vec K) (j1 : Mat K) (mult : Vec K) :
    Option (Vec K × Vec K) :=
  (j0.multVecTrans mult eps (Vec.create n 0)).bind fun p0 =>
  (Vec.addScaled p0 g0 1 1 eps (Vec.create n 0)).bind fun l0 =>
  (j1.multVecTrans mult eps (Vec.create n 0)).bind fun p1 =>
  (Vec.addScaled p1 g1 1 1 eps (Vec.create n 0)).bind fun l1 =>
  (Vec.addScaled l0 l1 (-1) 1 eps (Vec.create n 0)).bind fun y =>
  (Vec.addScaled x0 x1 (-1) 1 eps (Vec.create n 0)).map fun s => (s, y)

/-- The block loop of `bfgs_push`, quasi_newton/bfgs.c:583-694 (same code: `sr1_push`,
quasi_newton/sr1.c:355-464): a block is only updated if its part of the step is not
zero up to `tol`. -/
def blockPushLoop {β : Type*} (numVars : Nat) (tol : K) (dim : β → Nat) (push : β → Vec K → Vec K → Option β) :
    List β → Nat → List (Nat × K) → List (Nat × K) → Option (List β)
  | [], _, _, _ => some []
  | b :: bs, offset, sE, yE =>
    (takeBlock numVars offset (dim b) sE).bind fun s =>
    (takeBlock numVars offset (dim b) yE).bind fun y =>
    (if isZero s.normSq tol then some b else push b s y).bind fun b' =>
    (blockPushLoop numVars tol dim push bs (offset + dim b)
      (sE.dropWhile fun e => decide (e.1 < offset + dim b))
      (yE.dropWhile fun e => decide (e.1 < offset + dim b))).map fun bs' => b' :: bs'

/-- One call of `bfgs_push` (after the differences are computed) or `bfgs_reset` on all
blocks, quasi_newton/bfgs.c:642-710 (same code: quasi_newton/sr1.c:413-480). -/
def blocksStep {β : Type*} (numVars : Nat) (tol : K) (dim : β → Nat) (push : β → Vec K → Vec K → Option β)
    (reset : β → β) (bs : List β) : BfgsBlock.Op K → Option (List β)
  | .push s y => blockPushLoop numVars tol dim push bs 0 s.ents y.ents
  | .reset => some (bs.map reset)

def blocksRun {β : Type*} (numVars : Nat) (tol : K) (dim : β → Nat) (push : β → Vec K → Vec K → Option β)
    (reset : β → β) (bs : List β) (ops : List (BfgsBlock.Op K)) : Option (List β) :=
  ops.foldlM (blocksStep numVars tol dim push reset) bs

/-- `bfgs_create`, quasi_newton/bfgs.c:196-276: one block per range of the Hessian
structure (`dims`: the block dimensions). -/
def bfgsCreate (dims : List Nat) (num : Nat) (damped ol : Bool) (u : K) : Option (List (BfgsBlock K)) :=
  dims.mapM fun dim => BfgsBlock.create dim num damped ol u

end Sleqp
