import Verif.Lemmas.CauchyLp

/-! The states of the linear program between calls. -/

namespace Sleqp
open Finset
variable {K : Type*} [Field K] [LinearOrder K] [IsStrictOrderedRing K]

theorem SameMat.value {n m : Nat} {J J' : Mat K} (h : SameMat n m J J') (i : Nat) {j : Nat} (hj : j < n) : J'.value i j = J.value i j := by
  unfold Mat.value; rw [h.col j hj]

/-- states of the object, from its creation on; `J0` is the matrix of the constraints if all of them are linear -/
structure LpBase (e : LpEnv K) (J0 : Nat → Nat → K) (s : CauchyLp K) : Prop where
  nv : s.lp.numVars = e.numLp
  nc : s.lp.numCons = e.numCons
  slb : ∀ j, e.numVars ≤ j → j < e.numLp → s.varsLb j = 0
  sub : ∀ j, e.numVars ≤ j → j < e.numLp → s.varsUb j = e.inf
  jac : e.nonlinear = false → s.hasCoeffs = true → ∀ i < e.numCons, ∀ j < e.numVars, s.lp.coeffs.value i j = J0 i j
  pos : s.hasCoeffs = true → ∀ i < e.numCons, ∀ k < e.numCons, s.lp.coeffs.value i (e.numVars + k) = if i = k then 1 else 0
  neg : s.hasCoeffs = true → ∀ i < e.numCons, ∀ k < e.numCons, s.lp.coeffs.value i (e.numVars + e.numCons + k) = if i = k then -1 else 0

/-- the linear program of the iterate and radius is in place -/
structure LpReady (e : LpEnv K) (J0 : Nat → Nat → K) (it : Iterate K) (r : K) (s : CauchyLp K) : Prop where
  base : LpBase e J0 s
  coeffs : s.hasCoeffs = true
  fits : LpIterate e it
  rpos : 0 < r
  rinf : r < e.inf
  radius : s.radius = r
  iter : ∃ J', SameMat e.numVars e.numCons it.consJac J' ∧ s.iterate = some { it with consJac := J' }
  data : LpData e it r s.lp
  vlb : s.varsLb = s.lp.varsLb
  vub : s.varsUb = s.lp.varsUb
  clb : s.consLb = s.lp.consLb
  cub : s.consUb = s.lp.consUb

theorem lpBase_create (e : LpEnv K) (J0 : Nat → Nat → K) (s : CauchyLp K) : LpBase e J0 (CauchyLp.create e s) where
  nv := rfl
  nc := rfl
  slb := fun j h _ => by show (if e.numVars ≤ j then (0 : K) else _) = 0; rw [if_pos h]
  sub := fun j h _ => by show (if e.numVars ≤ j then e.inf else _) = e.inf; rw [if_pos h]
  jac := fun _ h => by cases h
  pos := fun h => by cases h
  neg := fun h => by cases h

section
variable {e : LpEnv K} {J0 : Nat → Nat → K} {it : Iterate K} {r : K} {s : CauchyLp K} {lp : LpArrays K}

theorem createVarBounds_spec (hb : LpBounds e) (hit : LpIterate e it) (hr : 0 < s.radius) :
    ∃ lo hi, s.createVarBounds e it = some { s with varsLb := lo, varsUb := hi } ∧
      (∀ j, lo j = if j < e.numVars then lpVarLb e.inf s.radius (e.bounds.varsLb.value j) (it.primal.value j) else s.varsLb j) ∧
      (∀ j, hi j = if j < e.numVars then lpVarUb e.inf s.radius (e.bounds.varsUb.value j) (it.primal.value j) else s.varsUb j) := by
  obtain ⟨b, b1, b2, b3⟩ := varBounds_fold (inf := e.inf) (r := s.radius) (x := it.primal) (l := e.bounds.varsLb) (u := e.bounds.varsUb)
    hit.primal.1.srt hb.sized.wvl.srt hb.sized.wvu.srt e.numVars
    (fun i hi => ⟨(hb.vars i hi).1, (hb.vars i hi).2, (hit.box i hi).1, (hit.box i hi).2, hit.xfin i hi⟩) hr s.varsLb s.varsUb
  refine ⟨b.lo, b.hi, ?_, b2, b3⟩
  unfold CauchyLp.createVarBounds
  rw [if_pos hr, b1]; rfl

theorem createConsBounds_spec (hb : LpBounds e) (hit : LpIterate e it) :
    ∃ lo hi, s.createConsBounds e it = some { s with consLb := lo, consUb := hi } ∧
      (∀ j < e.numCons, lo j = lpConsLb e.inf (e.bounds.consLb.value j) (it.consVal.value j)) ∧
      (∀ j < e.numCons, hi j = lpConsUb e.inf (e.bounds.consUb.value j) (it.consVal.value j)) := by
  obtain ⟨b, b1, b2, b3⟩ := consBounds_fold (inf := e.inf) (x := it.consVal) (l := e.bounds.consLb) (u := e.bounds.consUb)
    hit.consVal.1.srt hb.sized.wcl.srt hb.sized.wcu.srt e.numCons
    (fun i hi => ⟨(hb.cons i hi).1, (hb.cons i hi).2.1, (hb.cons i hi).2.2, hit.cfin i hi⟩) hb.inf s.consLb s.consUb
  refine ⟨b.lo, b.hi, ?_, fun j hj => by rw [b2, if_pos hj], fun j hj => by rw [b3, if_pos hj]⟩
  unfold CauchyLp.createConsBounds
  rw [b1]; rfl

theorem setCoeffs_spec {n m : Nat} {J : Mat K} (hJ : J.WF) (hr : J.numRows = m) (hc : J.numCols = n) :
    (∃ A J', s.setCoeffs e J = some ({ s with lp := { s.lp with coeffs := A }, hasCoeffs := true }, J') ∧ SameMat n m J J' ∧
      (∀ i, ∀ j < n, A.value i j = J.value i j) ∧
      (∀ i, ∀ k < m, A.value i (n + k) = if i = k then 1 else 0) ∧
      (∀ i, ∀ k < m, A.value i (n + m + k) = if i = k then -1 else 0)) ∨
    (e.nonlinear = false ∧ s.hasCoeffs = true ∧ s.setCoeffs e J = some (s, J)) := by
  by_cases h : (!e.nonlinear && s.hasCoeffs) = true
  · right
    have h' := h
    simp only [Bool.and_eq_true, Bool.not_eq_true'] at h'
    refine ⟨h'.1, h'.2, ?_⟩
    unfold CauchyLp.setCoeffs
    rw [if_pos h]
  · left
    obtain ⟨A, J', a1, a2, a3, a4, a5, a6, a7, a8, a9, a10, a11, a12⟩ := identities_spec hJ hr hc
    refine ⟨A, J', ?_, ⟨a9, a10, a11, a12⟩, a5, a6, a7⟩
    unfold CauchyLp.setCoeffs
    rw [if_neg h, hc, hr, a1, Option.bind_some, if_pos (isValid_of_wf a2), a8, Option.bind_some, if_pos (isValid_of_wf a9)]

/-- `set_iterate` puts the linear program in place -/
theorem setIterate_spec (hb : LpBounds e) (hit : LpIterate e it) (hr : 0 < r) (hri : r < e.inf) (hs : LpBase e J0 s)
    (hJ : e.nonlinear = false → ∀ i < e.numCons, ∀ j < e.numVars, it.consJac.value i j = J0 i j) :
    ∃ s' J', s.setIterate e it r = some (s', { it with consJac := J' }) ∧ SameMat e.numVars e.numCons it.consJac J' ∧
      LpReady e J0 it r s' := by
  obtain ⟨lo, hi, v1, v2, v3⟩ := createVarBounds_spec (s := { s with radius := r }) hb hit hr
  obtain ⟨cl, cu, c1, c2, c3⟩ := createConsBounds_spec (s := { s with radius := r, varsLb := lo, varsUb := hi }) hb hit
  set s2 : CauchyLp K := { s with radius := r, varsLb := lo, varsUb := hi, consLb := cl, consUb := cu } with hs2
  have hslb : ∀ j, e.numVars ≤ j → j < e.numLp → lo j = 0 := fun j h1 h2 => by
    rw [v2, if_neg (by omega)]; exact hs.slb j h1 h2
  have hsub : ∀ j, e.numVars ≤ j → j < e.numLp → hi j = e.inf := fun j h1 h2 => by
    rw [v3, if_neg (by omega)]; exact hs.sub j h1 h2
  have hset : s.setIterate e it r = (s2.setBounds.setCoeffs e it.consJac).map fun r =>
      ({ r.1 with iterate := some { it with consJac := r.2 } }, { it with consJac := r.2 }) := by
    unfold CauchyLp.setIterate
    rw [if_pos hr, v1, Option.bind_some, c1, Option.bind_some]
  rcases setCoeffs_spec (s := s2.setBounds) (e := e) hit.jac hit.rows hit.cols with ⟨A, J', a1, a2, a3, a4, a5⟩ | ⟨a1, a2, a3⟩
  · rw [a1] at hset
    refine ⟨_, J', hset, a2, ⟨⟨hs.nv, hs.nc, hslb, hsub, ?_, fun _ i _ => a4 i, fun _ i _ => a5 i⟩, rfl, hit, hr, hri, rfl, ⟨J', a2, rfl⟩,
      ⟨hs.nv, hs.nc, ?_, ?_, hslb, hsub, c2, c3, fun i _ => a3 i, fun i _ => a4 i, fun i _ => a5 i⟩, rfl, rfl, rfl, rfl⟩⟩
    · intro h1 _ i hi j hj
      rw [← hJ h1 i hi j hj]; exact a3 i j hj
    · intro j hj
      show lo j = _
      rw [v2, if_pos hj]
    · intro j hj
      show hi j = _
      rw [v3, if_pos hj]
  · rw [a3] at hset
    have hsame : SameMat e.numVars e.numCons it.consJac it.consJac := ⟨hit.jac, hit.rows, hit.cols, fun _ _ => rfl⟩
    have hco : s.hasCoeffs = true := a2
    refine ⟨_, it.consJac, hset, hsame, ⟨⟨hs.nv, hs.nc, hslb, hsub, hs.jac, hs.pos, hs.neg⟩, hco, hit, hr, hri, rfl, ⟨_, hsame, rfl⟩,
      ⟨hs.nv, hs.nc, ?_, ?_, hslb, hsub, c2, c3, ?_, hs.pos hco, hs.neg hco⟩, rfl, rfl, rfl, rfl⟩⟩
    · intro j hj
      show lo j = _
      rw [v2, if_pos hj]
    · intro j hj
      show hi j = _
      rw [v3, if_pos hj]
    · intro i hi j hj
      rw [hJ a1 i hi j hj]; exact hs.jac a1 hco i hi j hj

/-- the bounds do not depend on the copy of the matrix -/
theorem lpIterate_same {J' : Mat K} (h : LpIterate e it) (hJ : SameMat e.numVars e.numCons it.consJac J') :
    LpIterate e { it with consJac := J' } :=
  ⟨h.primal, h.consVal, hJ.wf, hJ.rows, hJ.cols, h.xfin, h.cfin, h.box⟩

/-- `set_trust_radius` replaces the radius -/
theorem setRadius_spec (hb : LpBounds e) {r' : K} (hr : 0 < r') (hri : r' < e.inf) (hs : LpReady e J0 it r s) :
    ∃ s', s.setRadius e r' = some s' ∧ LpReady e J0 it r' s' := by
  obtain ⟨J', hJ, hi⟩ := hs.iter
  obtain ⟨lo, hi', v1, v2, v3⟩ := createVarBounds_spec (s := { s with radius := r' }) hb (lpIterate_same hs.fits hJ) hr
  have hslb : ∀ j, e.numVars ≤ j → j < e.numLp → lo j = 0 := fun j h1 h2 => by
    rw [v2, if_neg (by omega)]; exact hs.base.slb j h1 h2
  have hsub : ∀ j, e.numVars ≤ j → j < e.numLp → hi' j = e.inf := fun j h1 h2 => by
    rw [v3, if_neg (by omega)]; exact hs.base.sub j h1 h2
  refine ⟨({ s with radius := r', varsLb := lo, varsUb := hi' } : CauchyLp K).setBounds, ?_, ?_⟩
  · unfold CauchyLp.setRadius
    exact Option.bind_eq_some_iff.mpr ⟨_, hi, by rw [v1]; rfl⟩
  · refine ⟨⟨hs.base.nv, hs.base.nc, hslb, hsub, hs.base.jac, hs.base.pos, hs.base.neg⟩, hs.coeffs, hs.fits, hr, hri, rfl, ⟨J', hJ, hi⟩,
      ⟨hs.base.nv, hs.base.nc, ?_, ?_, hslb, hsub, ?_, ?_, hs.data.jac, hs.data.pos, hs.data.neg⟩, rfl, rfl, rfl, rfl⟩
    · intro j hj
      show lo j = _
      rw [v2, if_pos hj]
    · intro j hj
      show hi' j = _
      rw [v3, if_pos hj]
    · intro i hi
      show s.consLb i = _
      rw [hs.clb]; exact hs.data.clb i hi
    · intro i hi
      show s.consUb i = _
      rw [hs.cub]; exact hs.data.cub i hi

/-! ### solve -/

/-- the reduced problem of an iterate and a trust radius -/
structure RedData (e : LpEnv K) (it : Iterate K) (r : K) (lp : LpArrays K) : Prop where
  nv : lp.numVars = e.numVars
  nc : lp.numCons = e.numCons
  vlb : ∀ j < e.numVars, lp.varsLb j = lpVarLb e.inf r (e.bounds.varsLb.value j) (it.primal.value j)
  vub : ∀ j < e.numVars, lp.varsUb j = lpVarUb e.inf r (e.bounds.varsUb.value j) (it.primal.value j)
  clb : ∀ i < e.numCons, lp.consLb i = lpConsLb e.inf (e.bounds.consLb.value i) (it.consVal.value i)
  cub : ∀ i < e.numCons, lp.consUb i = lpConsUb e.inf (e.bounds.consUb.value i) (it.consVal.value i)
  jac : ∀ i < e.numCons, ∀ j < e.numVars, lp.coeffs.value i j = it.consJac.value i j

/-- the state between `solve` and the next call changing the problem -/
structure LpSolved (e : LpEnv K) (it : Iterate K) (r : K) (grad : Option (Vec K)) (penalty : K) (s : CauchyLp K) : Prop where
  fits : LpIterate e it
  rpos : 0 < r
  rinf : r < e.inf
  radius : s.radius = r
  iter : ∃ J', SameMat e.numVars e.numCons it.consJac J' ∧ s.iterate = some { it with consJac := J' }
  data : LpData e it r s.lp
  obj : LpObjData e grad penalty s.lp.obj
  sol : LpSolves e.inf s.lp s.sol
  prim : s.dirtyPrimal = false → (∀ j < e.numVars, s.primal j = s.sol.primal j) ∨
    (s.useReduced = true ∧ ∀ j < e.numVars, s.primal j = s.redSol.primal j)
  slack : s.dirtyPrimal = false ∨ s.useReduced = true → ∀ j, e.numVars ≤ j → j < e.numLp → s.primal j = s.sol.primal j
  zero : s.useReduced = true → ∀ j, e.numVars ≤ j → j < e.numLp → s.sol.primal j = 0
  red : s.useReduced = true → RedData e it r s.red ∧ (∀ j < e.numVars, s.red.obj j = s.lp.obj j) ∧ LpSolves e.inf s.red s.redSol
  stats : s.dirtyStats = false → s.useReduced = false →
    (∀ j < e.numLp, s.varStats j = s.sol.varStats j) ∧ ∀ i < e.numCons, s.consStats i = s.sol.consStats i
  redStats : s.dirtyStats = false → s.useReduced = true →
    (∀ j < e.numVars, s.varStats j = s.redSol.varStats j) ∧ ∀ i < e.numCons, s.consStats i = s.redSol.consStats i

variable {grad : Option (Vec K)} {penalty : K}

theorem foldl_upd (l : List (Nat × K)) (hs : Srt l) (o : Nat → K) (j : Nat) :
    l.foldl (fun o t => WSet.upd o t.1 t.2) o j = match at? l j with | some v => v | none => o j := by
  induction l generalizing o with
  | nil => rfl
  | cons a t ih =>
    rw [List.foldl_cons, ih (List.pairwise_cons.mp hs).2, at?_cons]
    by_cases h : a.1 = j
    · rw [if_pos h, at?_none_of_forall (fun b hb => by
        have := (List.pairwise_cons.mp hs).1 b hb
        omega)]
      simp [WSet.upd, h]
    · rw [if_neg h]
      cases at? t j with
      | some v => rfl
      | none => simp [WSet.upd, Ne.symm h]

theorem createObjective_spec (hg : GradOk e grad) (p : K) :
    ∃ o, s.createObjective e grad p = some { s with objective := o } ∧ LpObjData e grad p o := by
  unfold CauchyLp.createObjective
  cases grad with
  | none =>
    refine ⟨_, rfl, fun j hj => ?_, fun j h1 h2 => ?_⟩
    · rw [if_pos hj]
    · rw [if_neg (by omega), if_pos h2]
  | some g =>
    obtain ⟨h1, h2⟩ := hg g rfl
    refine ⟨_, by dsimp only; rw [if_pos h2], fun j hj => ?_, fun j h3 h4 => ?_⟩
    · rw [foldl_upd _ h1.srt]
      dsimp only
      unfold Vec.value valAt
      cases h : at? g.ents j with
      | some v => rfl
      | none => dsimp only; rw [if_pos hj]; rfl
    · rw [foldl_upd _ h1.srt, at?_none_of_forall (fun t ht => by
        have := h1.lt_dim t ht
        omega)]
      dsimp only
      rw [if_neg (by omega), if_pos h4]

theorem warmStart_spec (t : LpObj) : ∃ f, (s.warmStart e t).1 = { s with firstSolve := f } := by
  have hr : ∀ t, ∃ f, (s.restoreBasis t).1 = { s with firstSolve := f } := by
    intro t
    unfold CauchyLp.restoreBasis
    split
    · exact ⟨s.firstSolve, rfl⟩
    · split
      · exact ⟨false, rfl⟩
      · exact ⟨s.firstSolve, rfl⟩
  unfold CauchyLp.warmStart
  split
  · cases t with
    | mixed =>
      dsimp only
      split
      · exact hr _
      · exact ⟨s.firstSolve, rfl⟩
    | default => exact hr _
    | feas => exact hr _
  · exact ⟨s.firstSolve, rfl⟩

/-- base status of the slacks -/
theorem slack_stat (hinf : 0 < e.inf) {lp : LpArrays K} {a : LpSol K} (hd : LpData e it r lp) (ha : LpSolves e.inf lp a) {j : Nat}
    (h1 : e.numVars ≤ j) (h2 : j < e.numLp) : a.varStats j = .basic ∨ (a.varStats j = .lower ∧ a.primal j = 0) := by
  have hj : j < lp.numVars := by rw [hd.nv]; exact h2
  cases h : a.varStats j with
  | lower => exact .inr ⟨rfl, by rw [(ha.varLower j hj h).2, hd.slb j h1 h2]⟩
  | basic => exact .inl rfl
  | upper =>
    have := (ha.varUpper j hj h).1
    rw [hd.sub j h1 h2] at this
    exact absurd this (lt_irrefl _)
  | zero =>
    have := (ha.varZero j hj h).1
    rw [hd.slb j h1 h2] at this
    linarith

/-- basic slacks are determined by the nonbasic variables and constraints -/
theorem slack_unique {lp : LpArrays K} {a : LpSol K} (hd : LpData e it r lp) (ha : LpSolves e.inf lp a) {i : Nat} (hi : i < e.numCons)
    (α β : K) (h1 : a.varStats (e.numVars + i) ≠ .basic → α = 0) (h2 : a.varStats (e.numVars + e.numCons + i) ≠ .basic → β = 0)
    (h3 : a.consStats i ≠ .basic → α = β) : α = 0 ∧ β = 0 := by
  have := ha.unique (fun j => if j = e.numVars + i then α else if j = e.numVars + e.numCons + i then β else 0) ?_ ?_
  · refine ⟨?_, ?_⟩
    · have h := this (e.numVars + i) (by rw [hd.nv]; unfold LpEnv.numLp; omega)
      rw [if_pos rfl] at h; exact h
    · have h := this (e.numVars + e.numCons + i) (by rw [hd.nv]; unfold LpEnv.numLp; omega)
      rw [if_neg (by omega), if_pos rfl] at h; exact h
  · intro j _ hj
    by_cases c1 : j = e.numVars + i
    · rw [if_pos c1]; exact h1 (c1 ▸ hj)
    · rw [if_neg c1]
      by_cases c2 : j = e.numVars + e.numCons + i
      · rw [if_pos c2]; exact h2 (c2 ▸ hj)
      · rw [if_neg c2]
  · intro k hk hne
    rw [hd.nc] at hk
    rw [lp_row hd _ hk]
    have hz : ∑ j ∈ range e.numVars, it.consJac.value k j *
        (if j = e.numVars + i then α else if j = e.numVars + e.numCons + i then β else 0) = 0 :=
      sum_eq_zero fun j hj => by
        have := mem_range.mp hj
        rw [if_neg (by omega), if_neg (by omega), mul_zero]
    rw [hz]
    by_cases hki : k = i
    · subst hki
      rw [if_pos rfl, if_neg (by omega), if_pos rfl, h3 hne]; ring
    · rw [if_neg (by omega), if_neg (by omega), if_neg (by omega), if_neg (by omega)]; ring

/-- at most one of a constraint and its two slacks is basic -/
theorem one_basic {lp : LpArrays K} {a : LpSol K} (hd : LpData e it r lp) (ha : LpSolves e.inf lp a) {i : Nat} (hi : i < e.numCons) :
    ¬ (a.varStats (e.numVars + i) = .basic ∧ a.varStats (e.numVars + e.numCons + i) = .basic) ∧
    ¬ (a.consStats i = .basic ∧ a.varStats (e.numVars + i) = .basic) ∧
    ¬ (a.consStats i = .basic ∧ a.varStats (e.numVars + e.numCons + i) = .basic) := by
  refine ⟨?_, ?_, ?_⟩
  · rintro ⟨h1, h2⟩
    exact one_ne_zero (slack_unique hd ha hi 1 1 (fun h => absurd h1 h) (fun h => absurd h2 h) (fun _ => rfl)).1
  · rintro ⟨h1, h2⟩
    exact one_ne_zero (slack_unique hd ha hi 1 0 (fun h => absurd h2 h) (fun _ => rfl) (fun h => absurd h1 h)).1
  · rintro ⟨h1, h2⟩
    exact one_ne_zero (slack_unique hd ha hi 0 1 (fun _ => rfl) (fun h => absurd h2 h) (fun h => absurd h1 h)).2

theorem lpConsState_some {c l u : BaseStat} {b : Bool} (h : l = .lower ∨ u = .lower) : ∃ st, lpConsState c l u b = some st := by
  unfold lpConsState
  rw [if_pos h]; exact ⟨_, rfl⟩

theorem lpConsState_active {c l u : BaseStat} {b : Bool} {st : ActiveState} (h : lpConsState c l u b = some st) (hne : st ≠ .inactive) :
    l = .lower ∧ u = .lower ∧ c ≠ .basic ∧ c ≠ .zero ∧ st = (if b then .both else if c = .lower then .lower else .upper) := by
  unfold lpConsState at h
  split at h
  · injection h with h
    split at h
    · exact absurd h.symm hne
    · rename_i hc
      rw [not_or] at hc
      split at h
      · rename_i hl
        refine ⟨hl.1, hl.2, hc.1, hc.2, ?_⟩
        rw [← h]
        cases c <;> simp_all
      · exact absurd h.symm hne
  · cases h

/-- if the loop asks for a second solve, all slacks are zero -/
theorem resolve_zero {is : List Nat} {kl ku : List (Nat × K)} {b : Bool} (h : s.resolveLoop e is kl ku b = some true) :
    ∀ i ∈ is, (s.varStats (e.numVars + i) = .lower ∧ s.varStats (e.numVars + e.numCons + i) = .lower) ∨
      (s.primal (e.numVars + i) = 0 ∧ s.primal (e.numVars + e.numCons + i) = 0) := by
  induction is generalizing kl ku b with
  | nil => simp
  | cons i is ih =>
    unfold CauchyLp.resolveLoop at h
    obtain ⟨st, h1, h2⟩ := Option.bind_eq_some_iff.mp h
    intro k hk
    rw [List.mem_cons] at hk
    by_cases hst : st = .inactive
    · rw [if_neg (not_not.mpr hst)] at h2
      by_cases hz : s.primal (e.numVars + i) = 0 ∧ s.primal (e.numVars + e.numCons + i) = 0
      · rw [if_pos hz] at h2
        rcases hk with hk | hk
        · rw [hk]; exact .inr hz
        · exact ih h2 k hk
      · rw [if_neg hz] at h2; cases h2
    · rw [if_pos hst] at h2
      rcases hk with hk | hk
      · have := lpConsState_active h1 hst
        rw [hk]; exact .inl ⟨this.1, this.2.1⟩
      · exact ih h2 k hk

theorem resolve_some (hs : ∀ i < e.numCons, s.varStats (e.numVars + i) = .lower ∨ s.varStats (e.numVars + e.numCons + i) = .lower)
    {is : List Nat} (his : ∀ i ∈ is, i < e.numCons) (kl ku : List (Nat × K)) (b : Bool) : ∃ c, s.resolveLoop e is kl ku b = some c := by
  induction is generalizing kl ku b with
  | nil => exact ⟨b, rfl⟩
  | cons i is ih =>
    unfold CauchyLp.resolveLoop
    obtain ⟨st, h1⟩ := lpConsState_some (c := s.consStats i) (b := isEq (cursorVal i (cursorTo i kl)) (cursorVal i (cursorTo i ku)) e.eps)
      (hs i (his i (by simp)))
    have h1' : s.consState e i (cursorVal i (cursorTo i kl)) (cursorVal i (cursorTo i ku)) = some st := h1
    rw [h1', Option.bind_some]
    have ih' := fun kl ku b => ih (fun k hk => his k (by simp [hk])) kl ku b
    split
    · exact ih' _ _ _
    · split
      · exact ih' _ _ _
      · exact ⟨false, rfl⟩

/-- the state after the first linear program was solved -/
def lpState (e : LpEnv K) (s : CauchyLp K) (o : Nat → K) (f : Bool) (t : LpObj) (a : LpSol K) : CauchyLp K :=
  { s with
    objective := o, lp := { s.lp with obj := o }, firstSolve := f, current := some t, sol := a
    dirtyStats := false, dirtyPrimal := true, dirtyDual := true, useReduced := false
    varStats := overlay e.numLp a.varStats s.varStats, consStats := overlay e.numCons a.consStats s.consStats
    saved := fun u => if e.warm ∧ u = t then true else s.saved u
    hasBasis := fun u => if u = t then true else s.hasBasis u }

/-- primal and dual values are fetched, too -/
def lpState' (e : LpEnv K) (s : CauchyLp K) (o : Nat → K) (f : Bool) (t : LpObj) (a : LpSol K) : CauchyLp K :=
  { lpState e s o f t a with
    dirtyPrimal := false, dirtyDual := false
    primal := overlay e.numLp a.primal s.primal
    dual := fun j => if j < e.numLp then a.varsDual j
        else if e.numLp ≤ j ∧ j < e.numLp + e.numCons then a.consDual (j - e.numLp) else s.dual j }

theorem solve_eq (hg : GradOk e grad) (p : K) (t : LpObj) (S S' : LpArrays K → Option (LpSol K)) :
    ∃ o f, ∃ b : Option BasisCall, LpObjData e grad p o ∧
      (b = (({ s with objective := o, lp := { s.lp with obj := o } } : CauchyLp K).warmStart e t).2) ∧
      s.solve e S S' grad p t = (S { s.lp with obj := o }).bind fun a =>
        if (lpState e s o f t a).checkBasis e then
          if e.resolves ∧ t = .default then
            ((lpState' e s o f t a).resolveLoop e (List.range e.numCons) e.bounds.consLb.ents e.bounds.consUb.ents false).bind fun c =>
              if c then ((lpState' e s o f t a).switchReduced e S').map fun s6 => (s6, b) else some (lpState' e s o f t a, b)
          else some (lpState e s o f t a, b)
        else none := by
  obtain ⟨o, c1, c2⟩ := createObjective_spec (s := s) hg p
  obtain ⟨f, hf⟩ := warmStart_spec (s := { s with objective := o, lp := { s.lp with obj := o } }) (e := e) t
  refine ⟨o, f, _, c2, rfl, ?_⟩
  unfold CauchyLp.solve
  rw [c1, Option.bind_some]
  dsimp only
  rw [hf]
  rfl

theorem checkBasis_ok (hd : LpData e it r lp) {a : LpSol K} (ha : LpSolves e.inf lp a)
    (hv : ∀ j < e.numLp, s.varStats j = a.varStats j) (hc : ∀ i < e.numCons, s.consStats i = a.consStats i) : s.checkBasis e = true := by
  unfold CauchyLp.checkBasis
  rw [decide_eq_true_eq]
  have h := ha.size
  rw [hd.nv, hd.nc] at h
  have e1 : (List.range e.numLp).countP (fun j => decide (s.varStats j ≠ .basic)) =
      (List.range e.numLp).countP (fun j => decide (a.varStats j ≠ .basic)) :=
    List.countP_congr fun j hj => by rw [hv j (List.mem_range.mp hj)]
  have e2 : (List.range e.numCons).countP (fun j => decide (s.consStats j ≠ .basic)) =
      (List.range e.numCons).countP (fun j => decide (a.consStats j ≠ .basic)) :=
    List.countP_congr fun j hj => by rw [hc j (List.mem_range.mp hj)]
  rw [e1, e2]; exact h

theorem overlay_lt {α : Type*} {k : Nat} {f g : Nat → α} {i : Nat} (h : i < k) : overlay k f g i = f i := by
  unfold overlay; rw [if_pos h]

theorem lpData_obj {o : Nat → K} (h : LpData e it r lp) : LpData e it r { lp with obj := o } :=
  ⟨h.nv, h.nc, h.vlb, h.vub, h.slb, h.sub, h.clb, h.cub, h.jac, h.pos, h.neg⟩

/-- the reduced problem of a state whose slacks are zero -/
def redOf (e : LpEnv K) (s : CauchyLp K) (J : Mat K) : LpArrays K :=
  ⟨e.numVars, e.numCons, s.objective, s.consLb, s.consUb, s.varsLb, s.varsUb, J⟩

theorem switchReduced_eq (S' : LpArrays K → Option (LpSol K)) {it' : Iterate K} (hi : s.iterate = some it') (h1 : s.dirtyStats = false)
    (h2 : s.dirtyPrimal = false) (hz : ∀ j, e.numVars ≤ j → j < e.numLp → s.primal j = 0) :
    s.switchReduced e S' = (S' (redOf e s it'.consJac)).map fun a =>
      { s with red := redOf e s it'.consJac, redSol := a, useReduced := true, dirtyStats := true, dirtyPrimal := true, dirtyDual := true } := by
  unfold CauchyLp.switchReduced
  conv_lhs => rw [hi]
  rw [Option.bind_some]
  have hs : (s.fetchStats e).fetchPrimal e = s := by
    have e1 : s.fetchStats e = s := by unfold CauchyLp.fetchStats; rw [h1]; rfl
    rw [e1]; unfold CauchyLp.fetchPrimal; rw [h2]; rfl
  rw [hs]
  have hc : ∀ f : Nat → K, (fun i => if i < e.numCons then f i + (s.primal (e.numVars + i) - s.primal (e.numVars + e.numCons + i)) else f i) = f := by
    intro f; funext i
    split
    · rw [hz _ (by omega) (by unfold LpEnv.numLp; omega), hz _ (by omega) (by unfold LpEnv.numLp; omega)]; ring
    · rfl
  dsimp only
  rw [hc, hc]
  rfl

theorem solved_first {o : Nat → K} {f : Bool} {t : LpObj} {a : LpSol K} (hs : LpReady e J0 it r s) (ho : LpObjData e grad penalty o)
    (ha : LpSolves e.inf { s.lp with obj := o } a) :
    LpReady e J0 it r (lpState e s o f t a) ∧ LpSolved e it r grad penalty (lpState e s o f t a) ∧
    LpReady e J0 it r (lpState' e s o f t a) ∧ LpSolved e it r grad penalty (lpState' e s o f t a) := by
  have hst : (∀ j < e.numLp, overlay e.numLp a.varStats s.varStats j = a.varStats j) ∧
      ∀ i < e.numCons, overlay e.numCons a.consStats s.consStats i = a.consStats i :=
    ⟨fun j hj => overlay_lt hj, fun i hi => overlay_lt hi⟩
  have hd := lpData_obj (o := o) hs.data
  have hbase : ∀ s1 : CauchyLp K, s1.lp = { s.lp with obj := o } → s1.varsLb = s.varsLb → s1.varsUb = s.varsUb →
      s1.hasCoeffs = s.hasCoeffs → LpBase e J0 s1 := by
    intro s1 h1 h2 h3 h4
    refine ⟨?_, ?_, ?_, ?_, ?_, ?_, ?_⟩
    · rw [h1]; exact hs.base.nv
    · rw [h1]; exact hs.base.nc
    · rw [h2]; exact hs.base.slb
    · rw [h3]; exact hs.base.sub
    · rw [h4, h1]; exact hs.base.jac
    · rw [h4, h1]; exact hs.base.pos
    · rw [h4, h1]; exact hs.base.neg
  refine ⟨⟨hbase _ rfl rfl rfl rfl, hs.coeffs, hs.fits, hs.rpos, hs.rinf, hs.radius, hs.iter, hd, hs.vlb, hs.vub, hs.clb, hs.cub⟩,
    ⟨hs.fits, hs.rpos, hs.rinf, hs.radius, hs.iter, hd, ho, ha, fun h => (by cases h), fun h => (by rcases h with h | h <;> cases h), fun h => (by cases h),
      fun h => (by cases h), fun _ _ => hst, fun _ h => (by cases h)⟩,
    ⟨hbase _ rfl rfl rfl rfl, hs.coeffs, hs.fits, hs.rpos, hs.rinf, hs.radius, hs.iter, hd, hs.vlb, hs.vub, hs.clb, hs.cub⟩,
    ⟨hs.fits, hs.rpos, hs.rinf, hs.radius, hs.iter, hd, ho, ha, fun _ => .inl fun j hj => ?_, fun _ j _ hj => ?_, fun h => (by cases h),
      fun h => (by cases h), fun _ _ => hst, fun _ h => (by cases h)⟩⟩
  · exact overlay_lt (by unfold LpEnv.numLp; omega)
  · exact overlay_lt hj

/-- after a request for a second solve all slacks are zero -/
theorem resolve_slacks {o : Nat → K} {f : Bool} {t : LpObj} {a : LpSol K} (hinf : 0 < e.inf) (hs : LpReady e J0 it r s)
    (ha : LpSolves e.inf { s.lp with obj := o } a)
    (h : (lpState' e s o f t a).resolveLoop e (List.range e.numCons) e.bounds.consLb.ents e.bounds.consUb.ents false = some true) :
    ∀ j, e.numVars ≤ j → j < e.numLp → a.primal j = 0 := by
  have hd := lpData_obj (o := o) hs.data
  have key := resolve_zero h
  have hz : ∀ i < e.numCons, a.primal (e.numVars + i) = 0 ∧ a.primal (e.numVars + e.numCons + i) = 0 := by
    intro i hi
    have l1 : e.numVars + i < e.numLp := by unfold LpEnv.numLp; omega
    have l2 : e.numVars + e.numCons + i < e.numLp := by unfold LpEnv.numLp; omega
    rcases key i (List.mem_range.mpr hi) with ⟨k1, k2⟩ | ⟨k1, k2⟩
    · have k1' : a.varStats (e.numVars + i) = .lower := by rw [← k1]; exact (overlay_lt l1).symm
      have k2' : a.varStats (e.numVars + e.numCons + i) = .lower := by rw [← k2]; exact (overlay_lt l2).symm
      refine ⟨?_, ?_⟩
      · rcases slack_stat hinf hd ha (by omega) l1 with h | h
        · rw [h] at k1'; cases k1'
        · exact h.2
      · rcases slack_stat hinf hd ha (by omega) l2 with h | h
        · rw [h] at k2'; cases k2'
        · exact h.2
    · exact ⟨by rw [← k1]; exact (overlay_lt l1).symm, by rw [← k2]; exact (overlay_lt l2).symm⟩
  intro j h1 h2
  unfold LpEnv.numLp at h2
  by_cases hlt : j < e.numVars + e.numCons
  · have := (hz (j - e.numVars) (by omega)).1
    rwa [show e.numVars + (j - e.numVars) = j by omega] at this
  · have := (hz (j - e.numVars - e.numCons) (by omega)).2
    rwa [show e.numVars + e.numCons + (j - e.numVars - e.numCons) = j by omega] at this

/-- the reduced problem -/
theorem redOf_data {o : Nat → K} {f : Bool} {t : LpObj} {a : LpSol K} (hs : LpReady e J0 it r s) {J' : Mat K}
    (hJ : SameMat e.numVars e.numCons it.consJac J') : RedData e it r (redOf e (lpState' e s o f t a) J') := by
  refine ⟨rfl, rfl, ?_, ?_, ?_, ?_, fun i _ j hj => hJ.value i hj⟩
  · intro j hj; show s.varsLb j = _; rw [hs.vlb]; exact hs.data.vlb j hj
  · intro j hj; show s.varsUb j = _; rw [hs.vub]; exact hs.data.vub j hj
  · intro i hi; show s.consLb i = _; rw [hs.clb]; exact hs.data.clb i hi
  · intro i hi; show s.consUb i = _; rw [hs.cub]; exact hs.data.cub i hi

/-- `solve` leaves a solved linear program -/
theorem solve_solved (hinf : 0 < e.inf) (hs : LpReady e J0 it r s) (hg : GradOk e grad) {S S' : LpArrays K → Option (LpSol K)}
    (hS : LpCorrect e.inf S) (hS' : LpCorrect e.inf S') {t : LpObj} {s' : CauchyLp K} {b : Option BasisCall}
    (h : s.solve e S S' grad penalty t = some (s', b)) : LpReady e J0 it r s' ∧ LpSolved e it r grad penalty s' := by
  obtain ⟨o, f, b', ho, -, heq⟩ := solve_eq (s := s) hg penalty t S S'
  rw [heq] at h
  obtain ⟨a, ha, h⟩ := Option.bind_eq_some_iff.mp h
  have hsol := hS _ _ ha
  obtain ⟨r1, r2, r3, r4⟩ := solved_first (f := f) (t := t) hs ho hsol
  split at h
  · split at h
    · obtain ⟨c, hc, h⟩ := Option.bind_eq_some_iff.mp h
      cases c with
      | true =>
        rw [if_pos rfl] at h
        obtain ⟨s6, h6, h7⟩ := Option.map_eq_some_iff.mp h
        injection h7 with h7 _
        subst h7
        have hz := resolve_slacks hinf hs hsol hc
        obtain ⟨J', hJ, hi⟩ := r3.iter
        rw [switchReduced_eq S' hi rfl rfl (fun j h1 h2 => by rw [← hz j h1 h2]; exact overlay_lt h2)] at h6
        obtain ⟨a', ha', h6⟩ := Option.map_eq_some_iff.mp h6
        subst h6
        refine ⟨⟨⟨r3.base.nv, r3.base.nc, r3.base.slb, r3.base.sub, r3.base.jac, r3.base.pos, r3.base.neg⟩, r3.coeffs, r3.fits, r3.rpos, r3.rinf, r3.radius, r3.iter, r3.data, r3.vlb, r3.vub, r3.clb, r3.cub⟩,
          ⟨r3.fits, r3.rpos, r3.rinf, r3.radius, r3.iter, r3.data, r4.obj, hsol, fun h => (by cases h),
            fun _ j h1 h2 => overlay_lt h2, fun _ => hz, fun _ => ⟨redOf_data hs hJ, fun _ _ => rfl, hS' _ _ ha'⟩,
            fun h => (by cases h), fun h => (by cases h)⟩⟩
      | false =>
        rw [if_neg (by decide)] at h
        injection h with h; injection h with h _
        subst h
        exact ⟨r3, r4⟩
    · injection h with h; injection h with h _
      subst h
      exact ⟨r1, r2⟩
  · cases h

/-! ### optimality -/

theorem red_row {x : Nat → K} (hd : RedData e it r lp) {i : Nat} (hi : i < e.numCons) :
    lp.row x i = ∑ j ∈ range e.numVars, it.consJac.value i j * x j := by
  unfold LpArrays.row
  rw [hd.nv]
  exact sum_congr rfl fun j hj => by rw [hd.jac i hi j (mem_range.mp hj)]

/-- feasible points of the reduced problem are those of the problem with zero slacks -/
theorem red_feasible {red : LpArrays K} (hinf : 0 < e.inf) (hd : LpData e it r lp) (hr : RedData e it r red) {x : Nat → K}
    (hz : ∀ j, e.numVars ≤ j → j < e.numLp → x j = 0) : LpFeasible e.inf red x ↔ LpFeasible e.inf lp x := by
  have hrow : ∀ i < e.numCons, lp.row x i = red.row x i := by
    intro i hi
    rw [red_row hr hi, lp_row hd x hi, hz _ (by omega) (by unfold LpEnv.numLp; omega), hz _ (by omega) (by unfold LpEnv.numLp; omega)]
    ring
  constructor
  · intro h
    refine ⟨fun j hj => ?_, fun i hi => ?_⟩
    · rw [hd.nv] at hj
      by_cases h1 : j < e.numVars
      · have := h.vars j (by rw [hr.nv]; exact h1)
        rw [hr.vlb j h1, hr.vub j h1] at this
        rw [hd.vlb j h1, hd.vub j h1]; exact this
      · rw [hd.slb j (by omega) hj, hd.sub j (by omega) hj, hz j (by omega) hj]
        exact (within_slack hinf _).mpr le_rfl
    · rw [hd.nc] at hi
      have := h.cons i (by rw [hr.nc]; exact hi)
      rw [hr.clb i hi, hr.cub i hi] at this
      rw [hd.clb i hi, hd.cub i hi, hrow i hi]; exact this
  · intro h
    refine ⟨fun j hj => ?_, fun i hi => ?_⟩
    · rw [hr.nv] at hj
      have := h.vars j (by rw [hd.nv]; unfold LpEnv.numLp; omega)
      rw [hd.vlb j hj, hd.vub j hj] at this
      rw [hr.vlb j hj, hr.vub j hj]; exact this
    · rw [hr.nc] at hi
      have := h.cons i (by rw [hd.nc]; exact hi)
      rw [hd.clb i hi, hd.cub i hi, hrow i hi] at this
      rw [hr.clb i hi, hr.cub i hi]; exact this

theorem feasible_congr {x y : Nat → K} (h : ∀ j < lp.numVars, x j = y j) (hx : LpFeasible e.inf lp x) : LpFeasible e.inf lp y := by
  have hrow : ∀ i, lp.row y i = lp.row x i := fun i => sum_congr rfl fun j hj => by rw [h j (mem_range.mp hj)]
  exact ⟨fun j hj => by rw [← h j hj]; exact hx.vars j hj, fun i hi => by rw [hrow]; exact hx.cons i hi⟩

/-- the first cells, zero behind them -/
def padZero (n : Nat) (x : Nat → K) : Nat → K := fun j => if j < n then x j else 0

theorem red_cost {red : LpArrays K} (hn : red.numVars = e.numVars) (ho : LpObjData e grad penalty lp.obj)
    (hro : ∀ j < e.numVars, red.obj j = lp.obj j) (x : Nat → K) : red.cost x = gradPart grad e.numVars x := by
  unfold LpArrays.cost
  rw [hn]
  exact grad_sum (fun j hj => by rw [hro j hj, ho.grad j hj]) x

/-- the solution of the reduced problem is optimal for the original one -/
theorem red_optimal {red : LpArrays K} (hinf : 0 < e.inf) (hd : LpData e it r lp) (hr : RedData e it r red)
    (ho : LpObjData e grad penalty lp.obj) (hro : ∀ j < e.numVars, red.obj j = lp.obj j) {x y : Nat → K}
    (hx : LpFeasible e.inf lp x) (hopt : ∀ z, LpFeasible e.inf lp z → lp.cost x ≤ lp.cost z)
    (hz : ∀ j, e.numVars ≤ j → j < e.numLp → x j = 0) (hy : LpFeasible e.inf red y)
    (hyopt : ∀ z, LpFeasible e.inf red z → red.cost y ≤ red.cost z) :
    LpFeasible e.inf lp (padZero e.numVars y) ∧ ∀ z, LpFeasible e.inf lp z → lp.cost (padZero e.numVars y) ≤ lp.cost z := by
  have hp0 : ∀ j, e.numVars ≤ j → j < e.numLp → padZero e.numVars y j = 0 := fun j h _ => by
    unfold padZero; rw [if_neg (by omega)]
  have hp1 : ∀ j < e.numVars, y j = padZero e.numVars y j := fun j h => by unfold padZero; rw [if_pos h]
  have hf : LpFeasible e.inf lp (padZero e.numVars y) :=
    (red_feasible hinf hd hr hp0).mp (feasible_congr (by rw [hr.nv]; exact hp1) hy)
  refine ⟨hf, fun z hz' => le_trans ?_ (hopt z hz')⟩
  have hc0 : ∀ u : Nat → K, (∀ j, e.numVars ≤ j → j < e.numLp → u j = 0) → lp.cost u = gradPart grad e.numVars u := by
    intro u hu
    rw [lp_cost hd.nv ho, sum_eq_zero fun i hi => ?_]
    · ring
    · have := mem_range.mp hi
      rw [hu _ (by omega) (by unfold LpEnv.numLp; omega), hu _ (by omega) (by unfold LpEnv.numLp; omega), add_zero]
  rw [hc0 _ hp0, hc0 _ hz, ← red_cost hr.nv ho hro, ← red_cost hr.nv ho hro]
  have : red.cost (padZero e.numVars y) = red.cost y := by
    unfold LpArrays.cost
    rw [hr.nv]
    exact sum_congr rfl fun j hj => by rw [hp1 j (mem_range.mp hj)]
  rw [this]
  exact hyopt x ((red_feasible hinf hd hr hz).mpr hx)

/-- what a solved linear program gives -/
theorem solved_opt (hb : LpBounds e) (hp : 0 ≤ penalty) (h : LpSolved e it r grad penalty s) :
    OptStep e it r grad penalty s.sol.primal ∧ (s.useReduced = true → OptStep e it r grad penalty s.redSol.primal) ∧
    s.sol.objVal = linModel e it grad penalty s.sol.primal ∧
    (0 < penalty → ∑ i ∈ range e.numCons, (s.sol.primal (e.numVars + i) + s.sol.primal (e.numVars + e.numCons + i)) =
      linViol e it s.sol.primal) := by
  obtain ⟨h1, h2, h3⟩ := lp_optimal hb h.fits h.rinf h.data h.obj hp h.sol.feas h.sol.opt
  refine ⟨h1, fun hr => ?_, by rw [h.sol.val, h2], fun hpos => ?_⟩
  · obtain ⟨r1, r2, r3⟩ := h.red hr
    obtain ⟨o1, o2⟩ := red_optimal hb.inf h.data r1 h.obj r2 h.sol.feas h.sol.opt (h.zero hr) r3.feas r3.opt
    exact optStep_congr (fun j hj => by unfold padZero; rw [if_pos hj]) (lp_optimal hb h.fits h.rinf h.data h.obj hp o1 o2).1
  · unfold linViol
    exact sum_congr rfl fun i hi => by
      have hi := mem_range.mp hi
      rw [(h3 hpos i hi).1, (h3 hpos i hi).2, lp_viol_split (hb.cons i hi).2.2]

/-- fetched values are optimal -/
theorem solved_primal (hb : LpBounds e) (hp : 0 ≤ penalty) (h : LpSolved e it r grad penalty s) (hd : s.dirtyPrimal = false) :
    OptStep e it r grad penalty s.primal := by
  obtain ⟨h1, h2, -⟩ := solved_opt hb hp h
  rcases h.prim hd with c | ⟨c1, c2⟩
  · exact optStep_congr (fun j hj => (c j hj).symm) h1
  · exact optStep_congr (fun j hj => (c2 j hj).symm) (h2 c1)

/-! ### queries -/

theorem solved_fetchStats (h : LpSolved e it r grad penalty s) :
    LpSolved e it r grad penalty (s.fetchStats e) ∧ (s.fetchStats e).dirtyStats = false := by
  unfold CauchyLp.fetchStats
  dsimp only
  by_cases hd : s.dirtyStats = true
  · rw [if_pos hd]
    refine ⟨⟨h.fits, h.rpos, h.rinf, h.radius, h.iter, h.data, h.obj, h.sol, h.prim, h.slack, h.zero, h.red, fun _ hu => ?_, fun _ hu => ?_⟩, rfl⟩
    · have hu' : s.useReduced = false := hu
      dsimp only
      rw [hu']
      exact ⟨fun j hj => overlay_lt hj, fun i hi => overlay_lt hi⟩
    · have hu' : s.useReduced = true := hu
      dsimp only
      rw [hu']
      exact ⟨fun j hj => overlay_lt hj, fun i hi => overlay_lt hi⟩
  · rw [if_neg hd]
    exact ⟨h, by simpa using hd⟩

theorem solved_fetchPrimal (h : LpSolved e it r grad penalty s) :
    LpSolved e it r grad penalty (s.fetchPrimal e) ∧ (s.fetchPrimal e).dirtyPrimal = false := by
  unfold CauchyLp.fetchPrimal
  dsimp only
  by_cases hd : s.dirtyPrimal = true
  · rw [if_pos hd]
    have hlt : ∀ j < e.numVars, j < e.numLp := fun j hj => by unfold LpEnv.numLp; omega
    refine ⟨⟨h.fits, h.rpos, h.rinf, h.radius, h.iter, h.data, h.obj, h.sol, fun _ => ?_, fun _ => ?_, h.zero, h.red, h.stats, h.redStats⟩, rfl⟩
    · dsimp only
      cases hu : s.useReduced with
      | true => exact .inr ⟨rfl, fun j hj => overlay_lt hj⟩
      | false => exact .inl fun j hj => overlay_lt (hlt j hj)
    · dsimp only
      cases hu : s.useReduced with
      | true =>
        intro j h1 h2
        show overlay e.numVars _ _ j = _
        unfold overlay
        rw [if_neg (by omega)]; exact h.slack (.inr hu) j h1 h2
      | false => exact fun j h1 h2 => overlay_lt h2
  · rw [if_neg hd]
    exact ⟨h, by simpa using hd⟩

theorem solved_violation (h : LpSolved e it r grad penalty s) : LpSolved e it r grad penalty (s.violation e).1 := by
  have hlt : ∀ j < e.numVars, j < e.numLp := fun j hj => by unfold LpEnv.numLp; omega
  exact ⟨h.fits, h.rpos, h.rinf, h.radius, h.iter, h.data, h.obj, h.sol, fun _ => .inl fun j hj => overlay_lt (hlt j hj),
    fun _ j _ h2 => overlay_lt h2, h.zero, h.red, h.stats, h.redStats⟩

theorem solved_query (h : LpSolved e it r grad penalty s) {op : LpOp K} (hq : op.isQuery) {s' : CauchyLp K}
    (hs : op.apply e s = some s') : LpSolved e it r grad penalty s' := by
  cases op with
  | setIterate _ _ => exact hq.elim
  | setRadius _ => exact hq.elim
  | solve _ _ _ _ _ => exact hq.elim
  | lpStep d =>
    obtain ⟨x, hx, rfl⟩ := Option.map_eq_some_iff.mp hs
    obtain ⟨y, -, rfl⟩ := Option.map_eq_some_iff.mp hx
    exact (solved_fetchPrimal h).1
  | workingSet it' w =>
    obtain ⟨x, hx, rfl⟩ := Option.map_eq_some_iff.mp hs
    unfold CauchyLp.workingSet at hx
    obtain ⟨w1, -, hx⟩ := Option.bind_eq_some_iff.mp hx
    obtain ⟨w2, -, hx⟩ := Option.bind_eq_some_iff.mp hx
    split at hx
    · injection hx with hx
      rw [← hx]; exact (solved_fetchStats h).1
    · cases hx
  | locallyInfeasible =>
    obtain ⟨x, hx, rfl⟩ := Option.map_eq_some_iff.mp hs
    unfold CauchyLp.locallyInfeasible at hx
    obtain ⟨it', -, hx⟩ := Option.bind_eq_some_iff.mp hx
    split at hx
    · cases hx
    · dsimp only at hx
      split at hx
      · obtain ⟨a, -, hx⟩ := Option.bind_eq_some_iff.mp hx
        obtain ⟨b, -, hx⟩ := Option.map_eq_some_iff.mp hx
        rw [← hx]; exact (solved_fetchStats h).1
      · cases hx
  | estimateDuals w cd vd =>
    obtain ⟨x, hx, rfl⟩ := Option.map_eq_some_iff.mp hs
    unfold CauchyLp.estimateDuals at hx
    obtain ⟨a, -, hx⟩ := Option.bind_eq_some_iff.mp hx
    obtain ⟨b, -, hx⟩ := Option.map_eq_some_iff.mp hx
    rw [← hx]
    exact ⟨h.fits, h.rpos, h.rinf, h.radius, h.iter, h.data, h.obj, h.sol, h.prim, h.slack, h.zero, h.red, h.stats, h.redStats⟩
  | violation =>
    injection hs with hs
    rw [← hs]; exact solved_violation h

/-! ### solving succeeds -/

theorem gradPart_ge {d : Nat → K} (h : InRegion e it r d) :
    -(match grad with | none => 0 | some g => ∑ j ∈ range e.numVars, |g.value j| * r) ≤ gradPart grad e.numVars d := by
  unfold gradPart
  cases grad with
  | none => simp
  | some g =>
    dsimp only
    rw [← sum_neg_distrib]
    refine sum_le_sum fun j hj => ?_
    have h1 := (h j (mem_range.mp hj)).1
    have h2 : |g.value j * d j| ≤ |g.value j| * r := by
      rw [abs_mul]; exact mul_le_mul_of_nonneg_left h1 (abs_nonneg _)
    linarith [neg_abs_le (g.value j * d j)]

theorem violInf_nonneg (inf v lb ub : K) : 0 ≤ violInf inf v lb ub := le_max_right _ _

theorem linViol_nonneg (e : LpEnv K) (it : Iterate K) (d : Nat → K) : 0 ≤ linViol e it d := sum_nonneg fun _ _ => violInf_nonneg _ _ _ _

/-- no step is feasible -/
theorem inRegion_zero (hit : LpIterate e it) (hr : 0 < r) : InRegion e it r (fun _ => 0) := by
  intro j hj
  obtain ⟨h1, h2⟩ := hit.box j hj
  exact ⟨by rw [abs_zero]; exact hr.le, .inr (by linarith), .inr (by linarith)⟩

theorem solve_some (hb : LpBounds e) (hs : LpReady e J0 it r s) (hg : GradOk e grad) (hp : 0 ≤ penalty) {S S' : LpArrays K → Option (LpSol K)}
    (hS : LpCorrect e.inf S) (hC : LpComplete e.inf S) (hC' : LpComplete e.inf S') (t : LpObj) :
    ∃ s' b, s.solve e S S' grad penalty t = some (s', b) := by
  obtain ⟨o, f, b', ho, -, heq⟩ := solve_eq (s := s) hg penalty t S S'
  have hd := lpData_obj (o := o) hs.data
  rw [heq]
  obtain ⟨a, ha⟩ := hC { s.lp with obj := o } ⟨_, lp_extend hb hs.fits hs.rinf hd (inRegion_zero hs.fits hs.rpos)⟩
    ⟨_, fun x hx => le_trans (le_trans (gradPart_ge (grad := grad) (lp_feasible hb hs.fits hs.rinf hd hx).1) (by
      have := mul_nonneg hp (linViol_nonneg e it x)
      unfold linModel; linarith)) (lp_cost_ge hb hs.fits hs.rinf hd ho hp hx)⟩
  have hsol := hS _ _ ha
  rw [ha, Option.bind_some, if_pos (checkBasis_ok hd hsol (fun j hj => overlay_lt hj) (fun i hi => overlay_lt hi))]
  split
  · obtain ⟨c, hc⟩ := resolve_some (s := lpState' e s o f t a) (e := e) (is := List.range e.numCons)
      (fun i hi => by
        have l1 : e.numVars + i < e.numLp := by unfold LpEnv.numLp; omega
        have l2 : e.numVars + e.numCons + i < e.numLp := by unfold LpEnv.numLp; omega
        have v1 : (lpState' e s o f t a).varStats (e.numVars + i) = a.varStats (e.numVars + i) := overlay_lt l1
        have v2 : (lpState' e s o f t a).varStats (e.numVars + e.numCons + i) = a.varStats (e.numVars + e.numCons + i) := overlay_lt l2
        rw [v1, v2]
        rcases slack_stat hb.inf hd hsol (by omega) l1 with h1 | h1
        · rcases slack_stat hb.inf hd hsol (by omega) l2 with h2 | h2
          · exact absurd ⟨h1, h2⟩ (one_basic hd hsol hi).1
          · exact .inr h2.1
        · exact .inl h1.1)
      (fun i hi => List.mem_range.mp hi) e.bounds.consLb.ents e.bounds.consUb.ents false
    rw [hc, Option.bind_some]
    cases c with
    | false => exact ⟨_, _, rfl⟩
    | true =>
      rw [if_pos rfl]
      have hz := resolve_slacks hb.inf hs hsol hc
      obtain ⟨J', hJ, hi⟩ := hs.iter
      rw [switchReduced_eq (s := lpState' e s o f t a) S' hi rfl rfl (fun j h1 h2 => by rw [← hz j h1 h2]; exact overlay_lt h2)]
      have hr := redOf_data (o := o) (f := f) (t := t) (a := a) hs hJ
      obtain ⟨a', ha'⟩ := hC' (redOf e (lpState' e s o f t a) J') ⟨_, (red_feasible hb.inf hd hr hz).mpr hsol.feas⟩
        ⟨_, fun x hx => by
          have hx' : LpFeasible e.inf { s.lp with obj := o } (padZero e.numVars x) :=
            (red_feasible hb.inf hd hr (fun j h _ => by unfold padZero; rw [if_neg (by omega)])).mp
              (feasible_congr (fun j hj => by
                have hj' : j < e.numVars := hj
                unfold padZero; rw [if_pos hj']) hx)
          have h1 := gradPart_ge (grad := grad) (lp_feasible hb hs.fits hs.rinf hd hx').1
          rw [gradPart_congr (d' := x) (fun j hj => by unfold padZero; rw [if_pos hj])] at h1
          rw [red_cost (lp := { s.lp with obj := o }) (penalty := penalty) hr.nv ho (fun _ _ => rfl)]
          exact h1⟩
      dsimp only
      rw [ha']
      exact ⟨_, _, rfl⟩
  · exact ⟨_, _, rfl⟩

end
end Sleqp
