import Verif.Spec.Minimize
import Mathlib.Algebra.BigOperators.Intervals

namespace Sleqp
open Finset

section
variable {K A ι : Type*} [Field K] [LinearOrder K]

theorem set_back (x : List K) (j : Nat) (a : K) : (x.set j a).set j (x.getD j 0) = x := by
  rw [List.set_set]
  apply List.ext_getElem? ; intro i
  rw [List.getElem?_set]
  by_cases h : j = i
  · subst h
    by_cases hl : j < x.length
    · simp [hl, List.getD_eq_getElem?_getD]
    · simp [hl]
  · simp [h]

theorem set_add (x : List K) (j : Nat) (h : K) : x.set j (x.getD j 0 + h) = moved x j (x.getD j 0 + h) := rfl

theorem fdTwo_spec (eps : K) (f : List K → Ref ι K) (x : List K) (k j : Nat) (df : ι → Nat → K) (i : ι) (l : Nat) :
    fdTwo eps f ((f x).read x) x k j x df i l =
      if j ≤ l ∧ l < j + k then pyForward eps (fun y i => (f y).read y i) x i l else df i l := by
  induction k generalizing j df with
  | zero => rw [if_neg (by omega)]; rfl
  | succ k ih =>
    rw [fdTwo]
    rw [set_back, ih]
    by_cases h : j + 1 ≤ l ∧ l < j + 1 + k
    · rw [if_pos h, if_pos (by omega)]
    · rw [if_neg h]
      by_cases hj : l = j
      · rw [if_pos hj, if_pos (by omega), hj]; rfl
      · rw [if_neg hj, if_neg (by omega)]

theorem fdThree_spec (eps : K) (f : List K → Ref ι K) (hf : ∀ y, (f y).IsOwn) (x : List K) (k j : Nat) (df : ι → Nat → K) (i : ι) (l : Nat) :
    fdThree eps f x k j x df i l =
      if j ≤ l ∧ l < j + k then pyCentral eps (fun y i => (f y).read y i) x i l else df i l := by
  have own : ∀ y z z' i, (f y).read z i = (f y).read z' i := by
    intro y z z' i
    have := hf y
    cases h : f y with
    | own v => rfl
    | view s => rw [h] at this; exact this.elim
  induction k generalizing j df with
  | zero => rw [if_neg (by omega)]; rfl
  | succ k ih =>
    rw [fdThree]
    rw [List.set_set, set_back, ih]
    by_cases h : j + 1 ≤ l ∧ l < j + 1 + k
    · rw [if_pos h, if_pos (by omega)]
    · rw [if_neg h]
      by_cases hj : l = j
      · rw [if_pos hj, if_pos (by omega), hj, pyCentral]
        rw [own _ x (moved x j (x.getD j 0 + eps * max |x.getD j 0| 1)),
          own ((x.set j _).set j _) x (moved x j (x.getD j 0 - eps * max |x.getD j 0| 1)), List.set_set]
        rfl
      · rw [if_neg hj, if_neg (by omega)]

theorem ref_read (v : PyVal K) (x : List K) (i : Nat) : v.ref.read x i = (v.list x).getD i 0 := by
  cases v with
  | num a => rfl
  | np l => rfl
  | view s =>
    show ((s[i]?).map fun j => x.getD j 0).getD 0 = (s.map fun j => x.getD j 0).getD i 0
    rw [List.getD_eq_getElem?_getD, List.getElem?_map]

theorem ref_own {v : PyVal K} (h : v.IsOwn) : v.ref.IsOwn := by
  cases v <;> first | exact trivial | exact h.elim

/-- the caches hold what they should at the point `x` -/
structure FunOk (eps : FdEps K) (F : MinFun K A) (x : List K) (args : List A) (s : FunSt K) : Prop where
  point : s.x = x
  fval : ∀ v, s.fval = some v → v = F.user.valueAt x args
  gval : ∀ g, s.gval = some g → g = F.user.derivAt eps x args
  hval : ∀ T, s.hval = some T → T = F.hessAt eps x args
  both : ∀ f, F.user = .combined f → s.fval.isSome → s.gval.isSome

variable {eps : FdEps K} {iter : A → Option (List A)} {F : MinFun K A} {x : List K} {args : List A} {s : FunSt K}

theorem funOk_set (s : FunSt K) : FunOk eps F x args (s.setValue x) :=
  ⟨rfl, fun _ h => (by cases h), fun _ h => (by cases h), fun _ h => (by cases h), fun _ _ h => (by cases h)⟩

theorem val_spec (h : FunOk eps F x args s) (ha : F.user.ValueFirst → args = []) :
    ∃ s', F.val iter args s = .ok (F.user.valueAt x args, s') ∧ FunOk eps F x args s' ∧ s'.fval.isSome := by
  obtain ⟨hx, hf, hg, hh, hb⟩ := h
  unfold MinFun.val
  cases hv : s.fval with
  | some v =>
    refine ⟨s, ?_, ⟨hx, hf, hg, hh, hb⟩, by rw [hv]; rfl⟩
    rw [hf v hv]
  | none =>
    cases hu : F.user with
    | point f jac =>
      refine ⟨{ s with fval := some (f s.x args) }, by simp only [hx]; rfl, ⟨hx, ?_, ?_, hh, ?_⟩, rfl⟩
      · intro v e; cases e; rw [hu, hx]; rfl
      · intro g e; exact hg g e
      · intro f' e; rw [hu] at e; cases e
    | combined f =>
      have : args = [] := ha (by rw [hu]; trivial)
      subst this
      refine ⟨{ s with fval := some (f s.x []).1, gval := some fun i j => (f s.x []).2.read s.x (i, j) }, by simp only [hx]; rfl, ⟨hx, ?_, ?_, hh, ?_⟩, rfl⟩
      · intro v e; cases e; rw [hu, hx]; rfl
      · intro g e; cases e; rw [hu, hx]; rfl
      · intro _ _ _; rfl

theorem base_spec (f : List K → List A → PyVal K) (x : List K) (args : List A) (f0 : Option (PyVal K))
    (h0 : ∀ v, f0 = some v → v = f x args) (hn : (f x args).IsNp) :
    baseVal f x args f0 = .ok ((f x args).ref.read x) := by
  cases f0 with
  | none => rfl
  | some v =>
    rw [h0 v rfl]
    show (sizeOf? (f x args)).map _ = _
    cases h : f x args with
    | num a => rw [h] at hn; exact hn.elim
    | np l => rfl
    | view l => rfl

theorem comp_eq (u : UserFun K A) (f : List K → List A → PyVal K) (jac : Jac K A) (hu : u = .point f jac) (args : List A) :
    (fun y i => (f y args).ref.read y i) = u.comp args := by
  funext y i
  rw [ref_read, hu]; rfl

theorem jac_spec (f : List K → List A → PyVal K) (jac : Jac K A) (hu : F.user = .point f jac) (hv : F.user.ValuesOk args)
    (ha : F.user.ValueFirst → args = []) (f0 : Option (PyVal K)) (h0 : ∀ v, f0 = some v → v = f x args)
    (hf : F.user.ValueFirst → f0.isSome) : evalJac eps f jac x args f0 = .ok (F.user.derivAt eps x args) := by
  cases jac with
  | callable j => rw [hu]; rfl
  | twoPoint =>
    rw [hu] at hv
    show (baseVal f x args f0).map _ = _
    rw [base_spec f x args f0 h0 (hv x)]
    show Except.ok _ = _
    congr 1
    funext i j
    refine (fdTwo_spec eps.two (fun y => (f y args).ref) x x.length 0 (fun _ _ => 0) i j).trans ?_
    rw [comp_eq F.user f _ hu, hu]
    simp only [Nat.zero_le, true_and, Nat.zero_add]
    rfl
  | threePoint =>
    rw [hu] at hv
    show (baseVal f x args f0).map _ = _
    rw [base_spec f x args f0 h0 (hv x).1]
    show Except.ok _ = _
    congr 1
    funext i j
    refine (fdThree_spec eps.three (fun y => (f y args).ref) (fun y => ref_own (hv y).2) x x.length 0 (fun _ _ => 0) i j).trans ?_
    rw [comp_eq F.user f _ hu, hu]
    simp only [Nat.zero_le, true_and, Nat.zero_add]
    rfl
  | complexStep im =>
    have e : args = [] := ha (by rw [hu]; trivial)
    subst e
    cases f0 with
    | none => exact absurd (hf (by rw [hu]; trivial)) (by simp)
    | some v =>
      rw [hu] at hv
      have hn := hv x
      rw [← h0 v rfl] at hn
      rw [hu]
      cases v with
      | num a => exact hn.elim
      | np l => rfl
      | view l => rfl

theorem grad_spec (h : FunOk eps F x args s) (hv : F.user.ValuesOk args) (ha : F.user.ValueFirst → args = [])
    (hf : F.user.ValueFirst → s.fval.isSome) :
    ∃ s', F.grad eps args s = .ok (F.user.derivAt eps x args, s') ∧ FunOk eps F x args s' ∧ s'.fval = s.fval := by
  obtain ⟨hx, hfv, hg, hh, hb⟩ := h
  unfold MinFun.grad
  cases hgv : s.gval with
  | some g => exact ⟨s, by rw [hg g hgv], ⟨hx, hfv, hg, hh, hb⟩, rfl⟩
  | none =>
    cases hu : F.user with
    | point f jac =>
      have hj := jac_spec (F := F) (eps := eps) (x := x) f jac hu hv ha s.fval (by
        intro v e; rw [hfv v e, hu]; rfl) hf
      refine ⟨{ s with gval := some (F.user.derivAt eps x args) }, ?_, ⟨hx, hfv, ?_, hh, ?_⟩, rfl⟩
      · show (evalJac eps f jac s.x args s.fval).map _ = _
        rw [hx, hj, ← hu]; rfl
      · intro g e; cases e; rfl
      · intro _ _ _; rfl
    | combined f =>
      have := hb f hu (hf (by rw [hu]; trivial))
      rw [hgv] at this; cases this

theorem tensor_two (g : List K → List A → Ref (Nat × Nat) K) (hg : F.user.gradient = some g) (hh : F.hess = .twoPoint) :
    toTensor F.matrix (fdTwo eps.two (fun y => g y args) ((g x args).read x) x x.length 0 x fun _ _ => 0) = F.hessAt eps x args := by
  funext i j l
  unfold toTensor MinFun.hessAt
  rw [hh, hg]
  have e := fdTwo_spec eps.two (fun y => g y args) x x.length 0 (fun _ _ => 0)
  simp only [Nat.zero_le, true_and, Nat.zero_add] at e
  simp only [e]
  rfl

theorem tensor_three (g : List K → List A → Ref (Nat × Nat) K) (hg : F.user.gradient = some g) (hh : F.hess = .threePoint)
    (ho : ∀ y, (g y args).IsOwn) :
    toTensor F.matrix (fdThree eps.three (fun y => g y args) x x.length 0 x fun _ _ => 0) = F.hessAt eps x args := by
  funext i j l
  unfold toTensor MinFun.hessAt
  rw [hh, hg]
  have e := fdThree_spec eps.three (fun y => g y args) ho x x.length 0 (fun _ _ => 0)
  simp only [Nat.zero_le, true_and, Nat.zero_add] at e
  simp only [e]
  rfl

theorem evalHess_spec (ho : F.HessOk args) (hp : ∀ p, F.hess ≠ .product p) : F.evalHess eps args x = .ok (F.hessAt eps x args) := by
  unfold MinFun.HessOk at ho
  unfold MinFun.evalHess
  cases hh : F.hess with
  | none => rw [hh] at ho; exact ho.elim
  | product p => exact absurd hh (hp p)
  | callable h =>
    show Except.ok _ = _
    congr 1; funext i j l; unfold MinFun.hessAt; rw [hh]
  | twoPoint =>
    rw [hh] at ho
    obtain ⟨g, hg⟩ := Option.isSome_iff_exists.mp ho
    simp only [hg]
    rw [tensor_two g hg hh]
  | threePoint =>
    rw [hh] at ho
    obtain ⟨g, hg, hw⟩ := ho
    simp only [hg]
    rw [tensor_three g hg hh hw]
  | complexStep => rw [hh] at ho; exact ho.elim

theorem prod_spec (h : FunOk eps F x args s) (ho : F.HessOk args) (d : Nat → K) :
    ∃ o s', F.hessProd eps args d s = .ok (o, s') ∧ o.entries d = F.prodAt eps x args d ∧ FunOk eps F x args s' ∧ s'.fval = s.fval ∧
      (F.ProdOwn args → o ≠ .same) := by
  obtain ⟨hx, hfv, hg, hhv, hb⟩ := h
  by_cases hp : ∃ p, F.hess = .product p
  · obtain ⟨p, hp⟩ := hp
    refine ⟨p x d args, s, ?_, ?_, ⟨hx, hfv, hg, hhv, hb⟩, rfl, ?_⟩
    · unfold MinFun.hessProd; rw [hp, hx]
    · funext i j; unfold MinFun.prodAt; rw [hp]
    · intro hw; unfold MinFun.ProdOwn at hw; rw [hp] at hw; exact hw x d
  · have hp' : ∀ p, F.hess ≠ .product p := fun p e => hp ⟨p, e⟩
    have hpa : F.prodAt eps x args d = tensorMul x.length (F.hessAt eps x args) d := by
      funext i j; unfold MinFun.prodAt tensorMul
      cases hh : F.hess <;> first | rfl | exact absurd hh (hp' _)
    have hun : F.hessProd eps args d s = (match s.hval with
        | some T => .ok (.fresh (tensorMul s.x.length T d), s)
        | none => (F.evalHess eps args s.x).map fun T => (.fresh (tensorMul s.x.length T d), { s with hval := some T })) := by
      unfold MinFun.hessProd
      cases hh : F.hess <;> first | rfl | exact absurd hh (hp' _)
    cases hT : s.hval with
    | some T =>
      refine ⟨.fresh (tensorMul x.length T d), s, by rw [hun, hT, hx], ?_, ⟨hx, hfv, hg, hhv, hb⟩, rfl, fun _ => by simp⟩
      rw [hpa, ← hhv T hT]; rfl
    | none =>
      refine ⟨.fresh (tensorMul x.length (F.hessAt eps x args) d), { s with hval := some (F.hessAt eps x args) }, ?_, ?_,
        ⟨hx, hfv, hg, ?_, hb⟩, rfl, fun _ => by simp⟩
      · rw [hun, hT, hx, evalHess_spec ho hp']; rfl
      · rw [hpa]; rfl
      · intro T e; cases e; rfl

/-- a method of all constraint functions -/
theorem each_spec {β : Type*} (m : MinFun K A → FunSt K → Except PyExc (β × FunSt K)) (val : MinFun K A → β → Prop)
    (Q Q' : MinFun K A → FunSt K → Prop) (Fs : List (MinFun K A)) (ss : List (FunSt K)) (h : List.Forall₂ Q Fs ss)
    (hm : ∀ F ∈ Fs, ∀ s, Q F s → ∃ b s', m F s = .ok (b, s') ∧ val F b ∧ Q' F s') :
    ∃ bs ss', eachCons m Fs ss = .ok (bs, ss') ∧ List.Forall₂ val Fs bs ∧ List.Forall₂ Q' Fs ss' := by
  induction h with
  | nil => exact ⟨[], [], rfl, .nil, .nil⟩
  | @cons F s Fs ss hq hqs ih =>
    obtain ⟨b, s', e, hv, hq'⟩ := hm F (by simp) s hq
    obtain ⟨bs, ss', e2, hvs, hqs'⟩ := ih fun F hF => hm F (by simp [hF])
    refine ⟨b :: bs, s' :: ss', ?_, .cons hv hvs, .cons hq' hqs'⟩
    rw [eachCons, e]
    show (eachCons m Fs ss).map _ = _
    rw [e2]; rfl

theorem forall2_map {α β : Type*} {f : α → β} {l : List α} {bs : List β} (h : List.Forall₂ (fun a b => b = f a) l bs) : bs = l.map f := by
  induction h with
  | nil => rfl
  | cons e _ ih => rw [List.map_cons, e, ih]

theorem zip_map {α β γ : Type*} (f : α → β) (g : α → γ) (l : List α) : (l.map f).zip (l.map g) = l.map fun a => (f a, g a) := by
  induction l with
  | nil => rfl
  | cons a t ih => simp only [List.map_cons, List.zip_cons_cons, ih]

theorem stackRows_lt {d r : Nat} (v : Entries K) (t : List (Nat × Entries K)) (h : r < d) (j : Nat) : stackRows ((d, v) :: t) r j = v r j := by
  show (if r < d then _ else _) = _
  rw [if_pos h]

theorem stackRows_add (d r : Nat) (v : Entries K) (t : List (Nat × Entries K)) (j : Nat) : stackRows ((d, v) :: t) (d + r) j = stackRows t r j := by
  show (if d + r < d then _ else stackRows t (d + r - d) j) = _
  rw [if_neg (by omega), Nat.add_sub_cancel_left]

theorem consProd_spec (duals : Nat → K) (l : List (Nat × Entries K)) (o : Nat) (p : Nat → K) (j : Nat) :
    consProd duals o l p j = p j + ∑ r ∈ range (l.map Prod.fst).sum, duals (o + r) * stackRows l r j := by
  induction l generalizing o p with
  | nil => simp [consProd]
  | cons a t ih =>
    obtain ⟨d, v⟩ := a
    rw [consProd, ih, List.map_cons, List.sum_cons, Finset.sum_range_add, add_assoc]
    congr 2
    · apply Finset.sum_congr rfl
      intro r hr
      rw [stackRows_lt v t (Finset.mem_range.mp hr)]
    · apply Finset.sum_congr rfl
      intro r _
      rw [stackRows_add, Nat.add_assoc]

/-- the invariant: all caches belong to the point set last; `seen` tells that the values of the constraints were asked for -/
structure PyMinInv (eps : FdEps K) (P : MinProb K A) (x : List K) (seen : Bool) (s : MinSt K) : Prop where
  obj : FunOk eps P.obj x P.args s.obj
  cons : List.Forall₂ (fun F c => FunOk eps F x [] c ∧ (seen = true → c.fval.isSome)) (P.cons.getD []) s.cons
  objVal : ∀ v, s.objVal = some v → v = P.obj.user.valueAt x P.args ∧ s.obj.fval.isSome
  objGrad : ∀ g, s.objGrad = some g → g = P.obj.user.derivAt eps x P.args

variable {P : MinProb K A} {m : MinSt K} {seen : Bool}

theorem evalVal_spec (h : PyMinInv eps P x seen m) (ha : P.obj.user.ValueFirst → P.args = []) :
    ∃ m', P.evalVal iter m = .ok (P.obj.user.valueAt x P.args, m') ∧ PyMinInv eps P x seen m' ∧ m'.obj.fval.isSome ∧ m'.cons = m.cons := by
  obtain ⟨ho, hc, hv, hg⟩ := h
  unfold MinProb.evalVal
  cases e : m.objVal with
  | some v => exact ⟨m, by rw [(hv v e).1], ⟨ho, hc, hv, hg⟩, (hv v e).2, rfl⟩
  | none =>
    obtain ⟨s', es, ok, some⟩ := val_spec (iter := iter) ho ha
    refine ⟨{ m with obj := s', objVal := .some (P.obj.user.valueAt x P.args) }, ?_, ⟨ok, hc, ?_, hg⟩, some, rfl⟩
    · show (P.obj.val iter P.args m.obj).map _ = _
      rw [es]; rfl
    · intro v e; cases e; exact ⟨rfl, some⟩

theorem evalGrad_spec (h : PyMinInv eps P x seen m) (ha : P.obj.user.ValueFirst → P.args = []) (hv : P.obj.user.ValuesOk P.args) :
    ∃ m', P.evalGrad eps iter m = .ok (P.obj.user.derivAt eps x P.args, m') ∧ PyMinInv eps P x seen m' ∧ m'.cons = m.cons := by
  obtain ⟨m1, e1, i1, some1, c1⟩ := evalVal_spec (iter := iter) h ha
  unfold MinProb.evalGrad
  rw [e1]
  show ∃ m', (match m1.objGrad with
    | some g => Except.ok (g, m1)
    | none => (P.obj.grad eps P.args m1.obj).map fun (q : Entries K × FunSt K) => (q.1, { m1 with obj := q.2, objGrad := some q.1 })) = _ ∧ _
  obtain ⟨ho, hc, hov, hg⟩ := i1
  cases e : m1.objGrad with
  | some g => exact ⟨m1, by rw [hg g e], ⟨ho, hc, hov, hg⟩, c1⟩
  | none =>
    obtain ⟨s', es, ok, ef⟩ := grad_spec ho hv ha fun _ => some1
    refine ⟨{ m1 with obj := s', objGrad := some (P.obj.user.derivAt eps x P.args) }, ?_, ⟨ok, hc, ?_, ?_⟩, c1⟩
    · show (P.obj.grad eps P.args m1.obj).map _ = _
      rw [es]; rfl
    · intro v e; exact ⟨(hov v e).1, by show s'.fval.isSome; rw [ef]; exact (hov v e).2⟩
    · intro g e; cases e; rfl

/-- what is known after a request -/
def seenAfter (seen : Bool) : MinOp K → Bool
  | .setValue _ => false
  | .consVals => true
  | _ => seen

/-- the point after a request -/
def pointAfter (x : List K) : MinOp K → List K
  | .setValue y => y
  | _ => x

theorem step_spec {ops : List (MinOp K)} (hs : P.Supported ops) (h : PyMinInv eps P x seen m) (op : MinOp K) (hop : op ∈ ops)
    (hord : (∃ F ∈ P.cons.getD [], F.user.ValueFirst) → op = .consJac → seen = true) :
    ∃ m', P.step eps iter m op = .ok (P.answer eps x op, m') ∧ PyMinInv eps P (pointAfter x op) (seenAfter seen op) m' := by
  have args : ∀ F ∈ P.cons.getD [], P.args = [] := fun F hF => hs.consArgs (List.ne_nil_of_mem hF)
  cases op with
  | setValue y =>
    refine ⟨_, rfl, ⟨funOk_set m.obj, ?_, fun _ e => (by cases e), fun _ e => (by cases e)⟩⟩
    have := h.cons
    show List.Forall₂ _ _ (m.cons.map fun c => c.setValue y)
    rw [List.forall₂_map_right_iff]
    exact this.imp fun F c _ => ⟨funOk_set c, fun e => by cases e⟩
  | objVal =>
    obtain ⟨m', e, i, _⟩ := evalVal_spec (iter := iter) h hs.objArgs
    refine ⟨m', ?_, i⟩
    show (P.evalVal iter m).map _ = _
    rw [e]; rfl
  | objGrad =>
    obtain ⟨m', e, i, _⟩ := evalGrad_spec (iter := iter) h hs.objArgs hs.objVals
    refine ⟨m', ?_, i⟩
    show (P.evalGrad eps iter m).map _ = _
    rw [e]; rfl
  | consVals =>
    obtain ⟨Fs, hF⟩ := Option.isSome_iff_exists.mp (hs.hasCons ⟨_, hop, trivial⟩)
    have hFs : P.cons.getD [] = Fs := by rw [hF]; rfl
    have hc := h.cons
    rw [hFs] at hc args
    obtain ⟨bs, ss, e, hb, hq⟩ := each_spec (fun F c => F.val iter P.args c) (fun F b => b = F.user.valueAt x [])
      _ (fun F c => FunOk eps F x [] c ∧ (true = true → c.fval.isSome)) Fs m.cons hc (by
        intro F hm c hq
        rw [args F hm]
        obtain ⟨c', e, ok, some⟩ := val_spec (iter := iter) hq.1 fun _ => rfl
        exact ⟨_, c', e, rfl, ok, fun _ => some⟩)
    have hb' := forall2_map hb
    refine ⟨{ m with cons := ss }, ?_, ⟨h.obj, by rw [hFs]; exact hq, h.objVal, h.objGrad⟩⟩
    have hl : ((bs.map (PyVal.list m.obj.x)).flatten).length = (Fs.map MinFun.dim).sum := by
      rw [hb', h.obj.point, List.length_flatten, List.map_map, List.map_map]
      congr 1
      apply List.map_congr_left
      intro F hm
      exact hs.dims F (by rw [hFs]; exact hm) x
    show (P.consFuncs).bind _ = _
    unfold MinProb.consFuncs
    rw [hF]
    show (eachCons (fun F c => F.val iter P.args c) Fs m.cons).bind _ = _
    rw [e]
    show (if ((bs.map (PyVal.list m.obj.x)).flatten).length = (Fs.map MinFun.dim).sum then _ else _) = _
    rw [if_pos hl, hb', h.obj.point, List.map_map]
    show _ = Except.ok (MinOut.vector (((P.cons.getD []).map _).flatten), _)
    rw [hFs]; rfl
  | consJac =>
    obtain ⟨Fs, hF⟩ := Option.isSome_iff_exists.mp (hs.hasCons ⟨_, hop, trivial⟩)
    have hFs : P.cons.getD [] = Fs := by rw [hF]; rfl
    have hc := h.cons
    rw [hFs] at hc args hord
    obtain ⟨bs, ss, e, hb, hq⟩ := each_spec (fun F c => F.grad eps P.args c) (fun F b => b = F.user.derivAt eps x [])
      _ (fun F c => FunOk eps F x [] c ∧ (seen = true → c.fval.isSome)) Fs m.cons hc (by
        intro F hm c hq
        rw [args F hm]
        obtain ⟨c', e, ok, ef⟩ := grad_spec hq.1 (hs.consVals F (by rw [hFs]; exact hm)) (fun _ => rfl)
          fun hv => hq.2 (hord ⟨F, hm, hv⟩ rfl)
        exact ⟨_, c', e, rfl, ok, fun hse => by rw [ef]; exact hq.2 hse⟩)
    have hb' := forall2_map hb
    refine ⟨{ m with cons := ss }, ?_, ⟨h.obj, by rw [hFs]; exact hq, h.objVal, h.objGrad⟩⟩
    show (P.consFuncs).bind _ = _
    unfold MinProb.consFuncs
    rw [hF]
    show (eachCons (fun F c => F.grad eps P.args c) Fs m.cons).map _ = _
    rw [e]
    show Except.ok (MinOut.entries (stackRows ((Fs.map MinFun.dim).zip bs)), _) = Except.ok (MinOut.entries (stackRows ((P.cons.getD []).map _)), _)
    rw [hFs, hb', zip_map]
  | hessProd d duals =>
    obtain ⟨hoh, hch⟩ := hs.hess ⟨_, hop, trivial⟩
    obtain ⟨m1, e1, i1, c1⟩ := evalGrad_spec (iter := iter) h hs.objArgs hs.objVals
    obtain ⟨o, s', e2, hent, ok2, ef2, hown⟩ := prod_spec i1.obj hoh d
    have keep : ∀ v, m1.objVal = some v → v = P.obj.user.valueAt x P.args ∧ s'.fval.isSome :=
      fun v e => ⟨(i1.objVal v e).1, by rw [ef2]; exact (i1.objVal v e).2⟩
    cases hF : P.cons with
    | none =>
      refine ⟨{ m1 with obj := s' }, ?_, ⟨ok2, i1.cons, keep, i1.objGrad⟩⟩
      simp only [MinProb.step, e1, Except.bind, e2, hF, MinProb.answer]
      rw [hent]
      simp
    | some Fs =>
      have hFs : P.cons.getD [] = Fs := by rw [hF]; rfl
      have hc := h.cons
      rw [hFs] at hc args hch
      obtain ⟨bs, ss, e, hb, hq⟩ := each_spec (fun F c => F.hessProd eps P.args d c) (fun F b => b.entries d = F.prodAt eps x [] d)
        _ (fun F c => FunOk eps F x [] c ∧ (seen = true → c.fval.isSome)) Fs m.cons hc (by
          intro F hm c hq
          rw [args F hm]
          obtain ⟨b, c', e, hb, ok, ef, _⟩ := prod_spec hq.1 (hch F hm) d
          exact ⟨b, c', e, hb, ok, fun hse => by rw [ef]; exact hq.2 hse⟩)
      have hb' : bs.map (fun o => o.entries d) = Fs.map fun F => F.prodAt eps x [] d := by
        apply forall2_map (f := fun F : MinFun K A => F.prodAt eps x [] d)
        rw [List.forall₂_map_right_iff]
        exact hb
      refine ⟨{ m1 with obj := s', cons := ss }, ?_, ⟨ok2, by rw [hFs]; exact hq, keep, i1.objGrad⟩⟩
      cases o with
      | same => exact absurd rfl (hown (hs.own (by rw [hF]; rfl)))
      | fresh v =>
        simp only [MinProb.step, e1, Except.bind, e2, hF, e, MinProb.answer, hb', zip_map, Option.getD_some]
        congr 3
        funext j
        have hv : v = P.obj.prodAt eps x P.args d := hent
        rw [hv, consProd_spec, List.map_map, zero_add]
        simp only [Nat.zero_add]
        rfl

end
end Sleqp
