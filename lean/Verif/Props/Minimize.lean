import Verif.Lemmas.Minimize
import Mathlib.Data.Rat.Cast.Order
import Mathlib.Algebra.Order.Ring.Rat
import Mathlib.Tactic.Ring
import Mathlib.Tactic.NormNum

/-!
C100: the solver gets the values and derivatives of the functions given to `minimize`, at the point it asked for.
-/

namespace Sleqp
open Finset

section
variable {K A : Type*} [Field K] [LinearOrder K]

/-- C100 (partial): for every sequence of requests, in any order and with any repetitions, each answer is the value, the first derivative or the
product of the second derivatives of the Lagrangian at the point set last, with quotients of differences where the user asked for them, and no request
raises an exception. Missing, since the code violates it: see `MinProb.Supported` and the theorems below. -/
theorem C100_evaluations_partial (eps : FdEps K) (iter : A → Option (List A)) (P : MinProb K A) (x : List K) (ops : List (MinOp K))
    (hs : P.Supported ops) :
    P.run eps iter P.init (.setValue x :: ops) = .ok .nothing :: P.answers eps x ops := by
  have main : ∀ (l : List (MinOp K)), (∀ op ∈ l, op ∈ ops) → ∀ (x : List K) (seen : Bool) (m : MinSt K), PyMinInv eps P x seen m →
      ((∃ F ∈ P.cons.getD [], F.user.ValueFirst) → ValuesFirst seen l) → P.run eps iter m l = P.answers eps x l := by
    intro l
    induction l with
    | nil => intro _ x seen m _ _; rfl
    | cons op l ih =>
      intro hl x seen m hm hord
      obtain ⟨m', e, hm'⟩ := step_spec (iter := iter) hs hm op (hl op (by simp)) (by
        intro hF ho; subst ho; exact (hord hF).1)
      have hr : P.run eps iter m (op :: l) = .ok (P.answer eps x op) :: P.run eps iter m' l := by
        show (match P.step eps iter m op with
          | .ok r => Except.ok r.1 :: P.run eps iter r.2 l
          | .error e => [Except.error e]) = _
        rw [e]
      rw [hr, ih (fun o ho => hl o (by simp [ho])) _ _ m' hm' (by
        intro hF
        have := hord hF
        cases op <;> first | exact this | exact this.2)]
      cases op <;> rfl
  have h0 : PyMinInv eps P x false ⟨P.init.obj.setValue x, P.init.cons.map fun c => c.setValue x, none, none⟩ := by
    refine ⟨funOk_set P.init.obj, ?_, fun _ e => (by cases e), fun _ e => (by cases e)⟩
    show List.Forall₂ _ (P.cons.getD []) (((P.cons.getD []).map fun _ => (⟨[], none, none, none⟩ : FunSt K)).map fun c => c.setValue x)
    rw [List.map_map, List.forall₂_map_right_iff, List.forall₂_same]
    exact fun F _ => ⟨funOk_set (⟨[], none, none, none⟩ : FunSt K), fun e => by cases e⟩
  show .ok .nothing :: P.run eps iter _ ops = _
  rw [main ops (fun _ h => h) x false _ h0 hs.order]

/-- C100: the rows of the Jacobian are those of the constraints, one block after the other. -/
theorem C100_rows (l : List (Nat × Entries K)) (k : Nat) (hk : k < l.length) (i j : Nat) (hi : i < l[k].1) :
    stackRows l (((l.take k).map Prod.fst).sum + i) j = l[k].2 i j := by
  induction l generalizing k with
  | nil => simp at hk
  | cons a t ih =>
    obtain ⟨d, v⟩ := a
    cases k with
    | zero => simp only [List.take_zero, List.map_nil, List.sum_nil, Nat.zero_add]; exact stackRows_lt v t hi j
    | succ k =>
      simp only [List.take_succ_cons, List.map_cons, List.sum_cons, Nat.add_assoc]
      rw [stackRows_add]
      exact ih k (by simpa using hk) hi

/-- `minimize` with an objective returning a plain Python number and differences instead of a gradient (the default) fails with an `AttributeError`
(`f0.size`, `_derivative.py:25`), for every objective, point and step size: the gradient is evaluated after the value, which is handed to
the difference formula as it was returned. -/
theorem C100_float_violated (eps : FdEps K) (iter : A → Option (List A)) (f : List K → List A → K) (h : Hess K A) (args : List A)
    (cons : Option (List (MinFun K A))) (x : List K) :
    MinProb.run eps iter ⟨⟨.point (fun y as => .num (f y as)) .twoPoint, h, 1, false⟩, cons, args⟩
      (MinProb.init ⟨⟨.point (fun y as => .num (f y as)) .twoPoint, h, 1, false⟩, cons, args⟩) [.setValue x, .objGrad]
      = [.ok .nothing, .error .attribute] := rfl

/-- With `jac=True`, an extra argument is not handed to the function: if it is a sequence, its elements are (`_func.py:59`), otherwise a `TypeError` is raised,
as it is for two or more extra arguments. -/
theorem C100_combined_violated (eps : FdEps K) (iter : A → Option (List A)) (f : List K → List A → PyVal K × Ref (Nat × Nat) K) (h : Hess K A)
    (a : A) (cons : Option (List (MinFun K A))) (x : List K) :
    let P : MinProb K A := ⟨⟨.combined f, h, 1, false⟩, cons, [a]⟩;
    (iter a = none → P.run eps iter P.init [.setValue x, .objVal] = [.ok .nothing, .error .type]) ∧
    (∀ l, iter a = some l → P.run eps iter P.init [.setValue x, .objVal] = [.ok .nothing, .ok (.value (f x l).1)]) ∧
    P.answers eps x [.objVal] = [.ok (.value (f x [a]).1)] ∧
    ∀ b, MinProb.run eps iter ⟨P.obj, cons, [a, b]⟩ P.init [.setValue x, .objVal] = [.ok .nothing, .error .type] := by
  refine ⟨fun hi => ?_, fun l hi => ?_, rfl, fun b => rfl⟩ <;>
  · simp only [MinProb.run, MinProb.step, MinProb.evalVal, MinFun.val, FunSt.setValue, evalArgs, hi, Except.map]

/-- The Jacobian of a constraint with `jac=True` cannot be evaluated before its values: the code refers to a variable which does not exist
(`_func.py:65`, a `NameError`). -/
theorem C100_order_violated (eps : FdEps K) (iter : A → Option (List A)) (f : List K → List A → PyVal K × Ref (Nat × Nat) K) (h : Hess K A)
    (obj : MinFun K A) (dim : Nat) (b : Bool) (x : List K) :
    MinProb.run eps iter ⟨obj, some [⟨.combined f, h, dim, b⟩], []⟩ (MinProb.init ⟨obj, some [⟨.combined f, h, dim, b⟩], []⟩) [.setValue x, .consJac]
      = [.ok .nothing, .error .name] := rfl

/-- Second derivatives by complex steps always fail with an `AttributeError` (`_derivative.py:85`: `f0` is `None`). -/
theorem C100_complex_violated (eps : FdEps K) (jac : List K → List A → Ref (Nat × Nat) K) (f : List K → List A → PyVal K) (args : List A)
    (d : Nat → K) (s : FunSt K) (hs : s.hval = none) :
    (⟨.point f (.callable jac), .complexStep, 1, false⟩ : MinFun K A).hessProd eps args d s = .error .attribute := by
  simp only [MinFun.hessProd, hs]; rfl

/-- Complex steps call the function without the extra arguments (`_derivative.py:99`). -/
theorem C100_complex_args_violated (eps : FdEps K) (f : List K → List A → PyVal K) (im : List K → Nat → K → List A → Nat → K) (x : List K)
    (args : List A) (l : List K) (i j : Nat) (hj : j < x.length) :
    ∃ g, evalJac eps f (.complexStep im) x args (some (.np l)) = .ok g ∧
      g i j = im x j (eps.two * max |x.getD j 0| 1) [] i / (eps.two * max |x.getD j 0| 1) ∧
      (UserFun.point f (.complexStep im)).derivAt eps x args i j = im x j (eps.two * max |x.getD j 0| 1) args i / (eps.two * max |x.getD j 0| 1) :=
  ⟨_, rfl, if_pos hj, if_pos hj⟩

/-- The constraints are evaluated with the extra arguments of the objective (`minimize.py:38`), which SciPy does not do. -/
theorem C100_args_violated (eps : FdEps K) (iter : A → Option (List A)) (f : List K → List A → K) (jac : Jac K A) (h : Hess K A)
    (obj : MinFun K A) (args : List A) (x : List K) :
    let P : MinProb K A := ⟨obj, some [⟨.point (fun y as => .num (f y as)) jac, h, 1, false⟩], args⟩;
    P.run eps iter P.init [.setValue x, .consVals] = [.ok .nothing, .ok (.vector [f x args])] ∧
      P.answers eps x [.consVals] = [.ok (.vector [f x []])] := ⟨rfl, rfl⟩

/-- With constraints, a Hessian product which returns the direction it was given (the identity) fails: the products of the constraints are added in place to an
array which is read-only (`minimize.py:74`, a `ValueError`). -/
theorem C100_identity_violated (eps : FdEps K) (iter : A → Option (List A)) (f : List K → List A → PyVal K) (jac : List K → List A → Ref (Nat × Nat) K)
    (args : List A) (x : List K) (d duals : Nat → K) :
    let P : MinProb K A := ⟨⟨.point f (.callable jac), .product fun _ _ _ => .same, 1, false⟩, some [], args⟩;
    P.run eps iter P.init [.setValue x, .hessProd d duals] = [.ok .nothing, .error .value] := rfl

/-- If the objective has second derivatives and a constraint has not, products fail with an `AttributeError` (`_func.py:35`). -/
theorem C100_missing_violated (eps : FdEps K) (iter : A → Option (List A)) (f : List K → List A → PyVal K) (jac : List K → List A → Ref (Nat × Nat) K)
    (T : List K → List A → Tensor K) (u : UserFun K A) (args : List A) (x : List K) (d duals : Nat → K) :
    let P : MinProb K A := ⟨⟨.point f (.callable jac), .callable T, 1, false⟩, some [⟨u, .none, 1, false⟩], args⟩;
    P.run eps iter P.init [.setValue x, .hessProd d duals] = [.ok .nothing, .error .attribute] := rfl

/-- Central differences (`'3-point'`) of a function which returns its argument or a slice of it are zero instead of one: both values are
views of the array with the perturbed point, and are subtracted after it was restored (`_derivative.py:61-72`). This concerns constraints such as `lambda x: x` and
second derivatives of gradients such as `lambda x: x`; no exception is raised. -/
theorem C100_views_violated [IsStrictOrderedRing K] (eps : FdEps K) (he : 0 < eps.three) (a : K) :
    ∃ g, evalJac eps (fun (_ : List K) (_ : List A) => .view [0]) .threePoint [a] [] none = .ok g ∧ g 0 0 = 0 ∧
      (UserFun.point (fun (_ : List K) (_ : List A) => .view [0]) .threePoint).derivAt eps [a] [] 0 0 = 1 := by
  refine ⟨_, rfl, ?_, ?_⟩
  · simp [fdThree, PyVal.ref, Ref.read]
  · have h : 0 < eps.three * max |a| 1 := mul_pos he (lt_max_of_lt_right one_pos)
    simp only [UserFun.derivAt, pyCentral, UserFun.comp, UserFun.valueAt, PyVal.list, moved]
    simp only [List.length_cons, List.length_nil, Nat.zero_add, Nat.lt_one_iff, if_true, List.map_cons, List.map_nil, List.getD_cons_zero, List.set_cons_zero]
    rw [div_eq_one_iff_eq (mul_pos two_pos h).ne']
    ring

end

section Examples

/-- objective `x₀² + a x₁` with a gradient and a Hessian, one constraint `x₀ x₁` by differences, asked for twice at two points -/
def exMin : MinProb ℚ ℚ :=
  ⟨⟨.point (fun x _ => .np [x.getD 0 0 ^ 2 + x.getD 1 0]) (.callable fun x _ => .own fun p => if p.2 = 0 then 2 * x.getD 0 0 else 1),
      .callable fun _ _ _ j l => if j = 0 ∧ l = 0 then 2 else 0, 1, false⟩,
    some [⟨.point (fun x _ => .np [x.getD 0 0 * x.getD 1 0]) .threePoint, .callable fun _ _ _ j l => if j = l then 0 else 1, 1, false⟩], []⟩

def exOps : List (MinOp ℚ) :=
  [.objGrad, .consJac, .consVals, .hessProd (fun j => j + 1) (fun _ => 3), .setValue [4, 5], .consJac, .objVal, .consJac, .hessProd (fun j => j) (fun _ => 1)]

theorem exMin_supported : exMin.Supported exOps := by
  refine ⟨fun h => h.elim, fun _ => rfl, trivial, ?_, ?_, fun _ => ⟨trivial, ?_⟩, fun _ => trivial, fun _ => rfl, ?_⟩
  · intro F hF
    obtain rfl := List.mem_singleton.mp hF
    exact fun _ => ⟨trivial, trivial⟩
  · intro F hF
    obtain rfl := List.mem_singleton.mp hF
    exact fun _ => rfl
  · intro F hF
    obtain rfl := List.mem_singleton.mp hF
    trivial
  · rintro ⟨F, hF, h⟩
    obtain rfl := List.mem_singleton.mp hF
    exact h.elim

/-- the hypotheses are met, and the answers are the numbers expected: Jacobian `(x₁, x₀)`, product `(2 + 3·2, 3·1)` -/
example : exMin.run ⟨1 / 10, 1 / 100⟩ (fun _ => none) exMin.init (.setValue [1, 2] :: exOps) =
    .ok .nothing :: exMin.answers ⟨1 / 10, 1 / 100⟩ [1, 2] exOps := C100_evaluations_partial _ _ _ _ _ exMin_supported

def outAt (o : Option (Except PyExc (MinOut ℚ))) (i j : Nat) : ℚ :=
  match o with
  | some (.ok (.entries g)) => g i j
  | some (.ok (.product p)) => p j
  | _ => -1

example : let r := exMin.run ⟨1 / 10, 1 / 100⟩ (fun _ => none) exMin.init (.setValue [1, 2] :: exOps);
    (outAt r[2]? 0 0, outAt r[2]? 0 1, outAt r[4]? 0 0, outAt r[4]? 0 1, outAt r[6]? 0 0, outAt r[6]? 0 1, r.length) = (2, 1, 8, 3, 5, 4, 10) := by
  decide +kernel

/-- a row of the second block -/
example : stackRows [(2, fun i j => (i + j : ℚ)), (1, fun _ j => (10 * j : ℚ))] 2 3 = 30 :=
  (C100_rows [(2, fun i j => (i + j : ℚ)), (1, fun _ j => (10 * j : ℚ))] 1 (by decide) 0 3 (by decide)).trans (by decide +kernel)

/-- the step size is positive -/
example : ∃ g, evalJac (⟨1 / 10, 1 / 100⟩ : FdEps ℚ) (fun (_ : List ℚ) (_ : List ℚ) => .view [0]) .threePoint [3] [] none = .ok g ∧ g 0 0 = 0 :=
  (C100_views_violated _ (by norm_num) 3).imp fun _ h => ⟨h.1, h.2.1⟩

end Examples
end Sleqp
