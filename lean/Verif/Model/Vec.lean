import Verif.Model.Cmp

/-!
Model of `/repo/src/main/sparse/vec.c`: sparse vectors.

`SleqpVec {data, indices, dim, nnz, nnz_max}` (sparse/pub_vec.h) becomes `Vec`:
the first `nnz` pairs `(indices[k], data[k])` are the list `ents`
(so `nnz = ents.length`), `cap` is `nnz_max`.  Contents of the arrays beyond
`nnz` are not observable and not modelled.  A failed `assert` is `none`.
In-place update of `result` arguments becomes returning the new vector.
-/

namespace Sleqp

/-- `SleqpVec`, sparse/pub_vec.h. -/
structure Vec (K : Type*) where
  dim : Nat
  cap : Nat
  ents : List (Nat × K)
deriving DecidableEq

section Structural
variable {α β γ K : Type*}

/-- Linear search of `sleqp_vec_at`, sparse/vec.c:459-473 (`none` = `NULL`). -/
def at? : List (Nat × α) → Nat → Option α
  | [], _ => none
  | (i, a) :: t, k => if i = k then some a else at? t k

/-- index of the entry under a cursor (`valid ? indices[k] : dim + 1` in the
merge loops; the sentinel `dim + 1` is `none`). -/
def headIdx : List (Nat × α) → Option Nat
  | [] => none
  | (i, _) :: _ => some i

/-- `SLEQP_MIN` of two cursor indices (`none` = sentinel, i.e. larger than all). -/
def minIdx : Option Nat → Option Nat → Option Nat
  | none, b => b
  | some a, none => some a
  | some a, some b => some (min a b)

/-- One cursor of a merge loop at combined index `i`: the value if the cursor
points to `i` (`valid = valid && index == i_combined`), and the advanced cursor. -/
def takeAt (i : Nat) : List (Nat × α) → Option α × List (Nat × α)
  | [] => (none, [])
  | (j, a) :: t => if j = i then (some a, t) else (none, (j, a) :: t)

theorem takeAt_length_le (i : Nat) (l : List (Nat × α)) : (takeAt i l).2.length ≤ l.length := by
  cases l with
  | nil => simp [takeAt]
  | cons e t => obtain ⟨j, a⟩ := e; by_cases h : j = i <;> simp [takeAt, h]

theorem takeAt_length_lt (i : Nat) (l : List (Nat × α)) (h : headIdx l = some i) :
    (takeAt i l).2.length < l.length := by
  cases l with
  | nil => simp [headIdx] at h
  | cons e t => obtain ⟨j, a⟩ := e; simp [headIdx] at h; simp [takeAt, h]

theorem minIdx_eq_some {a b : Option Nat} {i : Nat} (h : minIdx a b = some i) :
    a = some i ∨ b = some i := by
  rcases a with _ | a <;> rcases b with _ | b <;> simp_all [minIdx]; omega

/-- The three-cursor merge loop used throughout the code, e.g.
sparse/vec.c:493-536 (`is_boxed`), 569-615 (`clip`), feas.c, iterate.c:
`while (k_x < x->nnz || k_lb < lb->nnz || k_ub < ub->nnz)` visits the smallest
index under the cursors with the values found there. -/
def merge3 (x : List (Nat × α)) (y : List (Nat × β)) (z : List (Nat × γ)) :
    List (Nat × Option α × Option β × Option γ) :=
  match _h : minIdx (minIdx (headIdx x) (headIdx y)) (headIdx z) with
  | none => []
  | some i =>
    (i, (takeAt i x).1, (takeAt i y).1, (takeAt i z).1) ::
      merge3 (takeAt i x).2 (takeAt i y).2 (takeAt i z).2
termination_by x.length + y.length + z.length
decreasing_by
  have h1 := takeAt_length_le i x
  have h2 := takeAt_length_le i y
  have h3 := takeAt_length_le i z
  rcases minIdx_eq_some _h with h | h
  · rcases minIdx_eq_some h with h | h
    · have := takeAt_length_lt i x h; omega
    · have := takeAt_length_lt i y h; omega
  · have := takeAt_length_lt i z h; omega

/-- The two-cursor merge loop, e.g. sparse/vec.c:394-426 (`add_scaled`). -/
def merge2 (x : List (Nat × α)) (y : List (Nat × β)) : List (Nat × Option α × Option β) :=
  (merge3 x y ([] : List (Nat × Unit))).map fun t => (t.1, t.2.1, t.2.2.1)

namespace Vec

/-- `nnz`. -/
def nnz (v : Vec K) : Nat := v.ents.length

/-- `sleqp_vec_create`, sparse/vec.c:12-30. -/
def create (dim cap : Nat) : Vec K := ⟨dim, cap, []⟩

/-- `sleqp_vec_push`, sparse/vec.c:48-69; the three asserts are the guard. -/
def push (v : Vec K) (i : Nat) (x : K) : Option (Vec K) :=
  if v.ents.length < v.cap ∧ i < v.dim ∧ (∀ e ∈ v.ents.getLast?, e.1 < i) then
    some { v with ents := v.ents ++ [(i, x)] }
  else none

/-- A loop of pushes. -/
def pushAll (v : Vec K) (l : List (Nat × K)) : Option (Vec K) :=
  l.foldlM (fun w e => w.push e.1 e.2) v

/-- `sleqp_vec_clear`, sparse/vec.c:138-144. -/
def clear (v : Vec K) : Vec K := { v with ents := [] }

/-- `sleqp_vec_reserve`, sparse/vec.c:146-162 (never shrinks). -/
def reserve (v : Vec K) (n : Nat) : Vec K := { v with cap := max v.cap n }

/-- `sleqp_vec_resize`, sparse/vec.c:164-180: drops trailing entries `≥ dim`
only if the dimension shrinks. -/
def resize (v : Vec K) (dim : Nat) : Vec K :=
  if dim < v.dim then
    { v with dim := dim, ents := (v.ents.reverse.dropWhile fun e => decide (dim ≤ e.1)).reverse }
  else { v with dim := dim }

/-- `sleqp_vec_copy`, sparse/vec.c:121-136. -/
def copy (source target : Vec K) : Option (Vec K) :=
  if source.dim = target.dim then
    ((target.reserve source.nnz).clear).pushAll source.ents
  else none

/-- `sleqp_vec_concat`, sparse/vec.c:182-206. -/
def concat (first second result : Vec K) : Option (Vec K) :=
  let r := ((result.clear).reserve (first.nnz + second.nnz)).resize (first.dim + second.dim)
  (r.pushAll first.ents).bind fun r =>
    r.pushAll (second.ents.map fun e => (e.1 + first.dim, e.2))

/-- `sleqp_vec_is_valid`, sparse/vec.c:721-756 (with `Nat` indices the sign
check is vacuous). -/
def isValid (v : Vec K) : Bool :=
  decide (v.ents.length ≤ v.cap) &&
    (v.ents.isEmpty ||
      ((v.ents.zip v.ents.tail).all (fun p => decide (p.1.1 < p.2.1)) &&
        (v.ents.getLast?.all fun e => decide (e.1 < v.dim))))

/-- `sleqp_vec_remove_entries` loop, sparse/vec.c:634-654, unrolled into one
recursion over both cursors: `rem` is the rest of the sorted array of removed
indices (from `k_f`), `off` the running offset, the last argument the source
entries from `k` on. -/
def removeLoop : List Nat → Nat → List (Nat × K) → List (Nat × K)
  | _, _, [] => []
  | [], off, (i, v) :: t => (i - off, v) :: removeLoop [] off t
  | r :: rs, off, (i, v) :: t =>
    if r < i then removeLoop rs (off + 1) ((i, v) :: t)
    else if r = i then removeLoop (r :: rs) off t
    else (i - off, v) :: removeLoop (r :: rs) off t
termination_by rem _ src => rem.length + src.length

/-- `sleqp_vec_remove_entries`, sparse/vec.c:622-657. -/
def removeEntries (source target : Vec K) (rem : List Nat) : Option (Vec K) :=
  if source.dim = target.dim + rem.length then
    ((target.clear).reserve source.nnz).pushAll (removeLoop rem 0 source.ents)
  else none

/-- `sleqp_vec_set_from_raw`, sparse/vec.c:71-103, for an arbitrary zero test. -/
def setFromRawWith (zero : K → Bool) (v : Vec K) (values : List K) : Option (Vec K) :=
  let kept := (values.zipIdx.map fun p => (p.2, p.1)).filter fun e => !zero e.2
  (((v.clear).resize values.length).reserve kept.length).pushAll kept

end Vec
end Structural

section Numeric
variable {K : Type*} [Field K] [LinearOrder K]

/-- `valid ? data[k] : 0.` -/
def orZero [Zero α] : Option α → α
  | some a => a
  | none => 0

/-- `sleqp_vec_value_at`, sparse/vec.c:475-481, on the entry list. -/
def valAt (l : List (Nat × K)) (i : Nat) : K := orZero (at? l i)

namespace Vec

/-- `sleqp_vec_value_at`, sparse/vec.c:475-481 (the assert `index < dim` is a
precondition of the caller). -/
def value (v : Vec K) (i : Nat) : K := valAt v.ents i

/-- `sleqp_vec_set_from_raw`, sparse/vec.c:71-103. -/
def setFromRaw (eps : K) (v : Vec K) (values : List K) : Option (Vec K) :=
  setFromRawWith (fun x => isZero x eps) v values

/-- `sleqp_vec_to_raw`, sparse/vec.c:105-119: zero fill, then scatter. -/
def toRaw (v : Vec K) : List K :=
  v.ents.foldl (fun a e => a.set e.1 e.2) (List.replicate v.dim 0)

/-- `sleqp_vec_scale`, sparse/vec.c:283-303: factor `0` clears; factor `1` is a
no-op. -/
def scale (v : Vec K) (f : K) : Vec K :=
  if f = 0 then v.clear
  else if f = 1 then v
  else { v with ents := v.ents.map fun e => (e.1, e.2 * f) }

/-- `sleqp_vec_dot`, sparse/vec.c:250-281: two cursors, advance the smaller. -/
def dotList : List (Nat × K) → List (Nat × K) → K → K
  | [], _, acc => acc
  | _ :: _, [], acc => acc
  | (i, a) :: s, (j, b) :: t, acc =>
    if i = j then dotList s t (acc + a * b)
    else if i < j then dotList s ((j, b) :: t) acc
    else dotList ((i, a) :: s) t acc
termination_by l m => l.length + m.length

/-- `sleqp_vec_dot` with its dimension assert. -/
def dot (v w : Vec K) : Option K :=
  if v.dim = w.dim then some (dotList v.ents w.ents 0) else none

/-- `sleqp_vec_one_norm`, sparse/vec.c:313-326. -/
def oneNorm (v : Vec K) : K := v.ents.foldl (fun s e => s + |e.2|) 0

/-- `sleqp_vec_norm_sq`, sparse/vec.c:328-341. -/
def normSq (v : Vec K) : K := v.ents.foldl (fun s e => s + e.2 * e.2) 0

/-- `sleqp_vec_inf_norm`, sparse/vec.c:343-356. -/
def infNorm (v : Vec K) : K := v.ents.foldl (fun s e => max |e.2| s) 0

/-- value computed in the loop of `add_scaled`, sparse/vec.c:407-419. -/
def addVal (f g : K) (t : Nat × Option K × Option K) : K :=
  f * orZero t.2.1 + g * orZero t.2.2

/-- `sleqp_vec_add_scaled`, sparse/vec.c:369-429: entries that are zero up to
`eps` are not pushed.  (The asserts `first != result` are about aliasing; the
functional model has no aliasing.) -/
def addScaled (first second : Vec K) (f g eps : K) (result : Vec K) : Option (Vec K) :=
  if first.dim = second.dim then
    let r := ((result.clear).resize first.dim).reserve (first.nnz + second.nnz)
    (merge2 first.ents second.ents).foldlM
      (fun r t => if isZero (addVal f g t) eps then some r else r.push t.1 (addVal f g t)) r
  else none

/-- `sleqp_vec_fill`, sparse/vec.c:431-457. -/
def fill (v : Vec K) (x : K) : Vec K :=
  if x = 0 then v.clear
  else { (v.reserve v.dim) with ents := (List.range v.dim).map fun i => (i, x) }

/-- `sleqp_vec_eq`, sparse/vec.c:208-248: merged comparison. -/
def eq (v w : Vec K) (eps : K) : Option Bool :=
  if v.dim = w.dim then
    some ((merge2 v.ents w.ents).all fun t => isEq (orZero t.2.1) (orZero t.2.2) eps)
  else none

/-- `sleqp_vec_is_boxed`, sparse/vec.c:483-538. -/
def isBoxed (x lb ub : Vec K) : Option Bool :=
  if lb.dim = x.dim ∧ ub.dim = x.dim then
    some ((merge3 x.ents lb.ents ub.ents).all fun t =>
      decide (¬ orZero t.2.1 < orZero t.2.2.1) && decide (¬ orZero t.2.1 > orZero t.2.2.2))
  else none

/-- value computed in the loop of `clip`, sparse/vec.c:591-596. -/
def clipVal (t : Nat × Option K × Option K × Option K) : K :=
  max (min (orZero t.2.1) (orZero t.2.2.2)) (orZero t.2.2.1)

/-- The loop of `sleqp_vec_clip`, sparse/vec.c:540-620 without the final assert. -/
def clipLoop (x lb ub : Vec K) (eps : K) (xclip : Vec K) : Option (Vec K) :=
  if lb.dim = x.dim ∧ ub.dim = x.dim ∧ xclip.dim = x.dim then
    let r := (xclip.clear).reserve (min (max lb.nnz x.nnz + max ub.nnz x.nnz) x.dim)
    (merge3 x.ents lb.ents ub.ents).foldlM
      (fun r t => if !isZero (clipVal t) eps then r.push t.1 (clipVal t) else some r) r
  else none

/-- `sleqp_vec_clip`, sparse/vec.c:540-620, with the final assert
`sleqp_vec_is_boxed(xclip, lb, ub)` at line 617. -/
def clip (x lb ub : Vec K) (eps : K) (xclip : Vec K) : Option (Vec K) :=
  (clipLoop x lb ub eps xclip).bind fun r =>
    match isBoxed r lb ub with
    | some true => some r
    | _ => none

end Vec
end Numeric
end Sleqp
