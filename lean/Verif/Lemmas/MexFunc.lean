import Verif.Spec.MexFunc
import Verif.Props.Vec

/-! Helpers for the callbacks of the MATLAB interface. -/

namespace Sleqp

variable {K : Type*} [Field K] [LinearOrder K] [IsStrictOrderedRing K] {H : Type*}

theorem toRaw_full {n : Nat} {v : Vec K} (h : VOk n v) : v.toRaw = fullOf n v := by
  apply List.ext_getElem?
  intro i
  unfold fullOf
  by_cases hi : i < n
  · rw [toRaw_get v h.1 i (by rw [h.2]; exact hi)]
    simp [hi]
  · rw [List.getElem?_eq_none (by rw [toRaw_length, h.2]; omega), List.getElem?_eq_none (by simp; omega)]

theorem mxWrite_full {n : Nat} {v : Vec K} (h : VOk n v) {b : List K} (hb : b.length = n) :
    mxWrite b v = some (fullOf n v) := by
  unfold mxWrite
  rw [if_pos (by rw [h.2, hb]), toRaw_full h, List.drop_eq_nil_of_le (by rw [h.2, hb]), List.append_nil]

omit [LinearOrder K] [IsStrictOrderedRing K] in
theorem lastOf_length (n : Nat) (l : List (Vec K)) : (lastOf n l).length = n := by
  unfold lastOf
  cases l.getLast? <;> simp [fullOf]

/-- what the data of a function contain after a history -/
structure MexInv (kind : MexKind) (f : MexFuncs H) (n m k : Nat) (withHess : Bool) (hist : List (MexOp K))
    (d : MexData H K) : Prop where
  kind_eq : d.kind = kind
  objVal : kind = .regular → ∃ h, f .objVal = some (.handle h) ∧ d.objVal = some h
  objGrad : kind ≠ .lsq → ∃ h, f .objGrad = some (.handle h) ∧ d.objGrad = some h
  consVal : kind ≠ .dyn → 0 < m → ∃ h, f .consVal = some (.handle h) ∧ d.consVal = some h
  consJac : 0 < m → ∃ h, f .consJac = some (.handle h) ∧ d.consJac = some h
  lsqRes : kind = .lsq → ∃ h, f .lsqRes = some (.handle h) ∧ d.lsqRes = some h
  lsqFwd : kind = .lsq → ∃ h, f .lsqFwd = some (.handle h) ∧ d.lsqFwd = some h
  lsqAdj : kind = .lsq → ∃ h, f .lsqAdj = some (.handle h) ∧ d.lsqAdj = some h
  eval : kind = .dyn → ∃ h, f .eval = some (.handle h) ∧ d.eval = some h
  hess : kind ≠ .lsq → withHess = true → ∃ h, d.hess = some h ∧ h.consDual.length = m ∧
    (((f .hessProd).isSome ∧ f .hessProd = some (.handle h.fn) ∧ ∃ b, h.dir = some b ∧ b.length = n) ∨
     (¬ (f .hessProd).isSome ∧ f .hess = some (.handle h.fn) ∧ h.dir = none))
  primal : d.primal = lastOf n (hist.filterMap fun | .set x => some x | _ => none)
  fwd : kind = .lsq → d.forwardDir.length = n
  adj : kind = .lsq → d.adjointDir.length = k
  info : kind = .dyn → d.info = infoAfter m hist
  weights : kind = .dyn → 0 < m → ∃ w, d.weights = some w ∧ w.length = m

omit [Field K] [LinearOrder K] [IsStrictOrderedRing K] in
theorem getLast_snoc {α : Type*} (l : List (MexOp K)) (op : MexOp K) (g : MexOp K → Option α) :
    ((l ++ [op]).filterMap g).getLast? = match g op with
      | some a => some a
      | none => (l.filterMap g).getLast? := by
  rw [List.filterMap_append]
  cases h : g op <;> simp [List.filterMap_cons, h]

omit [LinearOrder K] [IsStrictOrderedRing K] in
theorem lastOf_snoc (n : Nat) (l : List (MexOp K)) (op : MexOp K) (g : MexOp K → Option (Vec K)) :
    lastOf n ((l ++ [op]).filterMap g) = match g op with
      | some v => fullOf n v
      | none => lastOf n (l.filterMap g) := by
  unfold lastOf
  rw [getLast_snoc]
  cases g op <;> rfl

omit [LinearOrder K] [IsStrictOrderedRing K] in
theorem infoAfter_same (m : Nat) (l : List (MexOp K)) (op : MexOp K)
    (h : (∀ e, op ≠ .errorBound e) ∧ (∀ w, op ≠ .objWeight w) ∧ ∀ w, op ≠ .consWeights w) :
    infoAfter m (l ++ [op]) = infoAfter m l := by
  unfold infoAfter
  rw [getLast_snoc, getLast_snoc, getLast_snoc]
  cases op with
  | errorBound e => exact absurd rfl (h.1 e)
  | objWeight w => exact absurd rfl (h.2.1 w)
  | consWeights w => exact absurd rfl (h.2.2 w)
  | _ => rfl

omit [LinearOrder K] [IsStrictOrderedRing K] in
/-- operations that change neither point nor error information -/
theorem MexInv.keep {kind : MexKind} {f : MexFuncs H} {n m k : Nat} {withHess : Bool} {hist : List (MexOp K)}
    {d : MexData H K} (h : MexInv kind f n m k withHess hist d) (op : MexOp K) (hs : ∀ x, op ≠ .set x)
    (hi : (∀ e, op ≠ .errorBound e) ∧ (∀ w, op ≠ .objWeight w) ∧ ∀ w, op ≠ .consWeights w) :
    MexInv kind f n m k withHess (hist ++ [op]) d where
  kind_eq := h.kind_eq
  objVal := h.objVal
  objGrad := h.objGrad
  consVal := h.consVal
  consJac := h.consJac
  lsqRes := h.lsqRes
  lsqFwd := h.lsqFwd
  lsqAdj := h.lsqAdj
  eval := h.eval
  hess := h.hess
  primal := by
    rw [lastOf_snoc]
    cases op with
    | set x => exact absurd rfl (hs x)
    | _ => exact h.primal
  fwd := h.fwd
  adj := h.adj
  info hk := by rw [infoAfter_same m hist op hi]; exact h.info hk
  weights := h.weights

theorem MexInv.point {kind : MexKind} {f : MexFuncs H} {n m k : Nat} {withHess : Bool} {hist : List (MexOp K)}
    {d : MexData H K} (h : MexInv kind f n m k withHess hist d) : d.point = mexPointAfter n hist := by
  unfold MexData.point mexPointAfter
  rw [h.primal, lastOf_length]
  rfl

theorem mexPrepareArgs_ok (c : Nat) (a b : List (MexArg K)) : ∃ c', mexPrepareArgs c a b = some (c', a ++ b) := by
  have h : 1 + a.length + b.length ≤ mexReserveArgs c (1 + a.length + b.length) := by
    unfold mexReserveArgs
    split_ifs <;> omega
  refine ⟨mexReserveArgs c (1 + a.length + b.length), ?_⟩
  show (if _ then _ else _) = _
  rw [if_pos h]

/-- the call for a product with the Hessian -/
theorem mexHessCall_ok {h : MexHess H K} {point : MexArg K} {dir duals : Vec K} {extra : List (MexArg K)} {n m : Nat}
    (hd : VOk n dir) (hy : VOk m duals) (hm : h.consDual.length = m) :
    (∀ b, h.dir = some b → b.length = n → ∃ h', mexHessCall h point dir duals extra = some (h',
        ⟨h.fn, [point, .array n 1 (fullOf n dir), .array m 1 (fullOf m duals)] ++ extra, 1⟩) ∧ h'.fn = h.fn ∧
        h'.consDual.length = m ∧ ∃ b', h'.dir = some b' ∧ b'.length = n) ∧
    (h.dir = none → ∃ h', mexHessCall h point dir duals extra = some (h',
        ⟨h.fn, [point, .array m 1 (fullOf m duals)] ++ extra, 1⟩) ∧ h'.fn = h.fn ∧
        h'.consDual.length = m ∧ h'.dir = none) := by
  have hl : ∀ (j : Nat) (v : Vec K), (fullOf j v).length = j := by intro j v; simp [fullOf]
  constructor
  · intro b hb hn
    unfold mexHessCall
    rw [mxWrite_full hy hm, hb]
    simp only [Option.bind_some]
    rw [mxWrite_full hd hn]
    simp only [Option.bind_some, hl]
    cases extra with
    | nil => exact ⟨_, rfl, rfl, hl _ _, _, rfl, hl _ _⟩
    | cons e es =>
      rw [if_neg (by simp)]
      obtain ⟨c', hc⟩ := mexPrepareArgs_ok h.nargs [point, .array n 1 (fullOf n dir), .array m 1 (fullOf m duals)] (e :: es)
      rw [hc]
      exact ⟨_, rfl, rfl, hl _ _, _, rfl, hl _ _⟩
  · intro hb
    unfold mexHessCall
    rw [mxWrite_full hy hm, hb]
    simp only [Option.bind_some, hl]
    cases extra with
    | nil => exact ⟨_, rfl, rfl, hl _ _, rfl⟩
    | cons e es =>
      rw [if_neg (by simp)]
      obtain ⟨c', hc⟩ := mexPrepareArgs_ok h.nargs [point, .array m 1 (fullOf m duals)] (e :: es)
      rw [hc]
      exact ⟨_, rfl, rfl, hl _ _, rfl⟩

/-- one operation -/
theorem MexInv.step {kind : MexKind} {f : MexFuncs H} {n m k : Nat} {withHess : Bool} {hist : List (MexOp K)}
    {d : MexData H K} (h : MexInv kind f n m k withHess hist d) {op : MexOp K} (ho : OpFits kind n m k withHess op) :
    ∃ d' c, d.step op = some (d', c) ∧ MexInv kind f n m k withHess (hist ++ [op]) d' ∧
      RightCall kind f n m k hist op c := by
  have hl : ∀ (j : Nat) (v : Vec K), (fullOf j v).length = j := by intro j v; simp [fullOf]
  have hcall : ∀ {fn : Option H} {name : MexField} {args : List (MexArg K)} {nl : Nat},
      (∃ a, f name = some (.handle a) ∧ fn = some a) → ∃ c, mexCall fn args nl = some c ∧ IsCallOf f name args nl (some c) := by
    rintro fn name args nl ⟨a, h1, rfl⟩
    exact ⟨_, rfl, a, h1, rfl⟩
  cases op with
  | set x =>
    have hx : VOk n x := ho
    refine ⟨{ d with primal := fullOf n x }, none, ?_, ?_, rfl⟩
    · show (mxWrite d.primal x).map _ = _
      rw [mxWrite_full hx (by rw [h.primal, lastOf_length])]; rfl
    · exact ⟨h.kind_eq, h.objVal, h.objGrad, h.consVal, h.consJac, h.lsqRes, h.lsqFwd, h.lsqAdj, h.eval, h.hess,
        by rw [lastOf_snoc], h.fwd, h.adj,
        fun hk => by rw [infoAfter_same m hist (.set x) (by simp)]; exact h.info hk, h.weights⟩
  | objVal =>
    obtain ⟨c, h1, h2⟩ := hcall (args := [d.point]) (nl := 1) (h.objVal ho)
    refine ⟨d, some c, ?_, h.keep _ (by simp) (by simp), by rw [h.point] at h2; exact h2⟩
    show (mexCall _ _ _).map _ = _
    rw [h1]; rfl
  | objGrad =>
    obtain ⟨c, h1, h2⟩ := hcall (args := [d.point]) (nl := 1) (h.objGrad ho)
    refine ⟨d, some c, ?_, h.keep _ (by simp) (by simp), by rw [h.point] at h2; exact h2⟩
    show (mexCall _ _ _).map _ = _
    rw [h1]; rfl
  | consVal =>
    obtain ⟨c, h1, h2⟩ := hcall (args := [d.point]) (nl := 1) (h.consVal ho.1 ho.2)
    refine ⟨d, some c, ?_, h.keep _ (by simp) (by simp), by rw [h.point] at h2; exact h2⟩
    show (mexCall _ _ _).map _ = _
    rw [h1]; rfl
  | consJac =>
    obtain ⟨c, h1, h2⟩ := hcall (args := [d.point]) (nl := 1) (h.consJac ho)
    refine ⟨d, some c, ?_, h.keep _ (by simp) (by simp), by rw [h.point] at h2; exact h2⟩
    show (mexCall _ _ _).map _ = _
    rw [h1]; rfl
  | residuals =>
    obtain ⟨c, h1, h2⟩ := hcall (args := [d.point]) (nl := 1) (h.lsqRes ho)
    refine ⟨d, some c, ?_, h.keep _ (by simp) (by simp), by rw [h.point] at h2; exact h2⟩
    show (mexCall _ _ _).map _ = _
    rw [h1]; rfl
  | eval =>
    obtain ⟨c, h1, h2⟩ := hcall (args := [d.point, d.info]) (nl := 3) (h.eval ho)
    refine ⟨d, some c, ?_, h.keep _ (by simp) (by simp), by rw [h.point, h.info ho] at h2; exact h2⟩
    show (mexCall _ _ _).map _ = _
    rw [h1]; rfl
  | jacForward v =>
    obtain ⟨hk, hv⟩ := ho
    obtain ⟨c, h1, h2⟩ := hcall (args := [d.point, .array 1 n (fullOf n v)]) (nl := 1) (h.lsqFwd hk)
    refine ⟨{ d with forwardDir := fullOf n v }, some c, ?_, ?_, by rw [h.point] at h2; exact h2⟩
    · show (mxWrite d.forwardDir v).bind _ = _
      rw [mxWrite_full hv (h.fwd hk)]
      simp only [Option.bind_some, hl]
      rw [h1]; rfl
    · have hh := h.keep (.jacForward v) (by simp) (by simp)
      exact ⟨hh.kind_eq, hh.objVal, hh.objGrad, hh.consVal, hh.consJac, hh.lsqRes, hh.lsqFwd, hh.lsqAdj, hh.eval, hh.hess,
        hh.primal, fun _ => hl _ _, hh.adj, hh.info, hh.weights⟩
  | jacAdjoint v =>
    obtain ⟨hk, hv⟩ := ho
    obtain ⟨c, h1, h2⟩ := hcall (args := [d.point, .array 1 k (fullOf k v)]) (nl := 1) (h.lsqAdj hk)
    refine ⟨{ d with adjointDir := fullOf k v }, some c, ?_, ?_, by rw [h.point] at h2; exact h2⟩
    · show (mxWrite d.adjointDir v).bind _ = _
      rw [mxWrite_full hv (h.adj hk)]
      simp only [Option.bind_some, hl]
      rw [h1]; rfl
    · have hh := h.keep (.jacAdjoint v) (by simp) (by simp)
      exact ⟨hh.kind_eq, hh.objVal, hh.objGrad, hh.consVal, hh.consJac, hh.lsqRes, hh.lsqFwd, hh.lsqAdj, hh.eval, hh.hess,
        hh.primal, hh.fwd, fun _ => hl _ _, hh.info, hh.weights⟩
  | errorBound e =>
    refine ⟨{ d with bound := e }, none, rfl, ?_, rfl⟩
    refine ⟨h.kind_eq, h.objVal, h.objGrad, h.consVal, h.consJac, h.lsqRes, h.lsqFwd, h.lsqAdj, h.eval, h.hess,
      by rw [lastOf_snoc]; exact h.primal, h.fwd, h.adj, fun hk => ?_, h.weights⟩
    have := h.info hk
    unfold infoAfter MexData.info at this ⊢
    rw [getLast_snoc, getLast_snoc, getLast_snoc]
    simp only [MexArg.info.injEq] at this ⊢
    exact ⟨rfl, this.2⟩
  | objWeight w =>
    refine ⟨{ d with weight := w }, none, rfl, ?_, rfl⟩
    refine ⟨h.kind_eq, h.objVal, h.objGrad, h.consVal, h.consJac, h.lsqRes, h.lsqFwd, h.lsqAdj, h.eval, h.hess,
      by rw [lastOf_snoc]; exact h.primal, h.fwd, h.adj, fun hk => ?_, h.weights⟩
    have := h.info hk
    unfold infoAfter MexData.info at this ⊢
    rw [getLast_snoc, getLast_snoc, getLast_snoc]
    simp only [MexArg.info.injEq] at this ⊢
    exact ⟨this.1, rfl, this.2.2⟩
  | consWeights w =>
    obtain ⟨hk, hm, hw⟩ := ho
    obtain ⟨b, hb1, hb2⟩ := h.weights hk hm
    refine ⟨{ d with weights := some w }, none, ?_, ?_, rfl⟩
    · show d.weights.bind _ = _
      rw [hb1]
      simp only [Option.bind_some]
      rw [if_pos (by omega), hb2, ← hw, List.take_length]
    · refine ⟨h.kind_eq, h.objVal, h.objGrad, h.consVal, h.consJac, h.lsqRes, h.lsqFwd, h.lsqAdj, h.eval, h.hess,
        by rw [lastOf_snoc]; exact h.primal, h.fwd, h.adj, fun hk => ?_, fun _ _ => ⟨w, rfl, hw⟩⟩
      have := h.info hk
      unfold infoAfter MexData.info at this ⊢
      rw [getLast_snoc, getLast_snoc, getLast_snoc]
      simp only [MexArg.info.injEq] at this ⊢
      exact ⟨this.1, this.2.1, by rw [if_pos hm]; rfl⟩
  | hessProd dir duals =>
    obtain ⟨hk, hw, hd, hy⟩ := ho
    obtain ⟨hs, e1, e2, e3⟩ := h.hess hk hw
    have hex : (if d.kind = .dyn then [d.info] else []) = (if kind = .dyn then [infoAfter m hist] else []) := by
      rw [h.kind_eq]
      split_ifs with hd
      · rw [h.info hd]
      · rfl
    have hcl := mexHessCall_ok (point := mexPointAfter n hist) (extra := if kind = .dyn then [infoAfter m hist] else [])
      hd hy e2
    have hh := h.keep (.hessProd dir duals) (by simp) (by simp)
    rcases e3 with ⟨p1, p2, b, p3, p4⟩ | ⟨p1, p2, p3⟩
    · obtain ⟨h', q1, q2, q3, b', q4, q5⟩ := hcl.1 b p3 p4
      refine ⟨{ d with hess := some h' }, some ⟨hs.fn, [mexPointAfter n hist, .array n 1 (fullOf n dir),
        .array m 1 (fullOf m duals)] ++ (if kind = .dyn then [infoAfter m hist] else []), 1⟩, ?_, ?_, ?_⟩
      · show d.hess.bind _ = _
        rw [e1]
        simp only [Option.bind_some]
        rw [hex, h.point, q1]; rfl
      · exact ⟨hh.kind_eq, hh.objVal, hh.objGrad, hh.consVal, hh.consJac, hh.lsqRes, hh.lsqFwd, hh.lsqAdj, hh.eval,
          fun _ _ => ⟨h', rfl, q3, .inl ⟨p1, by rw [q2]; exact p2, b', q4, q5⟩⟩, hh.primal, hh.fwd, hh.adj, hh.info, hh.weights⟩
      · show if _ then _ else _
        rw [if_pos p1]
        exact ⟨_, p2, rfl⟩
    · obtain ⟨h', q1, q2, q3, q4⟩ := hcl.2 p3
      refine ⟨{ d with hess := some h' }, some ⟨hs.fn, [mexPointAfter n hist, .array m 1 (fullOf m duals)] ++
        (if kind = .dyn then [infoAfter m hist] else []), 1⟩, ?_, ?_, ?_⟩
      · show d.hess.bind _ = _
        rw [e1]
        simp only [Option.bind_some]
        rw [hex, h.point, q1]; rfl
      · exact ⟨hh.kind_eq, hh.objVal, hh.objGrad, hh.consVal, hh.consJac, hh.lsqRes, hh.lsqFwd, hh.lsqAdj, hh.eval,
          fun _ _ => ⟨h', rfl, q3, .inr ⟨p1, by rw [q2]; exact p2, q4⟩⟩, hh.primal, hh.fwd, hh.adj, hh.info, hh.weights⟩
      · show if _ then _ else _
        rw [if_neg p1]
        exact ⟨_, p2, rfl⟩

end Sleqp
