import Verif.Lemmas.MexFunc
import Verif.Props.Events
import Verif.Model.Preprocessing

/-! C108: the callbacks of a MATLAB program are called with the right arguments. -/

namespace Sleqp

section
variable {K : Type*} [Field K] [LinearOrder K] [IsStrictOrderedRing K] {H : Type*}

omit [LinearOrder K] [IsStrictOrderedRing K] in
theorem lastOf_nil (n : Nat) : lastOf n ([] : List (Vec K)) = List.replicate n 0 := rfl

theorem MexFuncs.get_cases (f : MexFuncs H) (name : MexField) :
    (∃ h, f name = some (.handle h) ∧ f.get name = .ok h) ∨ ((¬ ∃ h, f name = some (.handle h)) ∧ f.get name = .err) := by
  unfold MexFuncs.get
  rcases hf : f name with _ | e
  · exact .inr ⟨(by rintro ⟨h, hh⟩; cases hh), rfl⟩
  · cases e with
    | handle h => exact .inl ⟨h, rfl, rfl⟩
    | other => exact .inr ⟨(by rintro ⟨h, hh⟩; cases hh), rfl⟩

theorem MexFuncs.getCons_cases (f : MexFuncs H) (m : Nat) (name : MexField) :
    (∃ r, f.getCons m name = .ok r ∧ (0 < m → ∃ h, f name = some (.handle h) ∧ r = some h)) ∨
      (0 < m ∧ (¬ ∃ h, f name = some (.handle h)) ∧ f.getCons m name = .err) := by
  unfold MexFuncs.getCons
  by_cases hm : 0 < m
  · rw [if_pos hm]
    rcases f.get_cases name with ⟨h, h1, h2⟩ | ⟨h1, h2⟩
    · rw [h2]
      exact .inl ⟨some h, rfl, fun _ => ⟨h, h1, rfl⟩⟩
    · rw [h2]
      exact .inr ⟨hm, h1, rfl⟩
  · rw [if_neg hm]
    exact .inl ⟨none, rfl, fun h => absurd h hm⟩

omit [LinearOrder K] [IsStrictOrderedRing K] in
theorem mexHessOpt_cases (f : MexFuncs H) (n m : Nat) (w : Bool) :
    (∃ r : Option (MexHess H K), mexHessOpt f n m w = .ok r ∧ (w = true → ∃ h, r = some h ∧ h.consDual.length = m ∧
      (((f .hessProd).isSome ∧ f .hessProd = some (.handle h.fn) ∧ ∃ b, h.dir = some b ∧ b.length = n) ∨
       (¬ (f .hessProd).isSome ∧ f .hess = some (.handle h.fn) ∧ h.dir = none)))) ∨
    (w = true ∧ mexHessOpt (K := K) f n m w = .err ∧
      (((f .hessProd).isSome ∧ ¬ ∃ h, f .hessProd = some (.handle h)) ∨
       (¬ (f .hessProd).isSome ∧ ¬ ∃ h, f .hess = some (.handle h)))) := by
  unfold mexHessOpt
  cases w with
  | false => exact .inl ⟨none, rfl, by simp⟩
  | true =>
    rw [if_pos rfl]
    unfold mexHessInit
    by_cases hp : (f .hessProd).isSome
    · rw [if_pos hp]
      rcases f.get_cases .hessProd with ⟨h, h1, h2⟩ | ⟨h1, h2⟩
      · rw [h2]
        exact .inl ⟨_, rfl, fun _ => ⟨_, rfl, List.length_replicate .., .inl ⟨hp, h1, _, rfl, List.length_replicate ..⟩⟩⟩
      · rw [h2]
        exact .inr ⟨rfl, rfl, .inl ⟨hp, h1⟩⟩
    · rw [if_neg hp]
      rcases f.get_cases .hess with ⟨h, h1, h2⟩ | ⟨h1, h2⟩
      · rw [h2]
        exact .inl ⟨_, rfl, fun _ => ⟨_, rfl, List.length_replicate .., .inr ⟨hp, h1, rfl⟩⟩⟩
      · rw [h2]
        exact .inr ⟨rfl, rfl, .inr ⟨hp, h1⟩⟩

omit [LinearOrder K] [IsStrictOrderedRing K] in
/-- creation: ready for the empty history, or a required callback is no function handle -/
theorem mexCreate_cases (kind : MexKind) (f : MexFuncs H) (n m k : Nat) (w : Bool) :
    (∃ d : MexData H K, mexCreate kind f n m k w = .ok d ∧ MexInv kind f n m k w [] d) ∨
    (mexCreate (K := K) kind f n m k w = .err ∧ ∃ name, Required kind f m w name ∧ ¬ ∃ h, f name = some (.handle h)) := by
  cases kind with
  | regular =>
    unfold mexCreate mexFuncCreate
    rcases f.get_cases .objVal with ⟨a, a1, a2⟩ | ⟨a1, a2⟩
    swap
    · exact .inr ⟨by rw [a2]; rfl, .objVal, rfl, a1⟩
    rcases f.get_cases .objGrad with ⟨b, b1, b2⟩ | ⟨b1, b2⟩
    swap
    · exact .inr ⟨by rw [a2, b2]; rfl, .objGrad, by unfold Required; simp, b1⟩
    rcases f.getCons_cases m .consVal with ⟨c, c1, c2⟩ | ⟨c0, c1, c2⟩
    swap
    · exact .inr ⟨by rw [a2, b2, c2]; rfl, .consVal, ⟨by simp, c0⟩, c1⟩
    rcases f.getCons_cases m .consJac with ⟨e, e1, e2⟩ | ⟨e0, e1, e2⟩
    swap
    · exact .inr ⟨by rw [a2, b2, c1, e2]; rfl, .consJac, e0, e1⟩
    rcases mexHessOpt_cases (K := K) f n m w with ⟨h, h1, h2⟩ | ⟨h0, h1, h2⟩
    swap
    · refine .inr ⟨by rw [a2, b2, c1, e1, h1]; rfl, ?_⟩
      rcases h2 with ⟨p, q⟩ | ⟨p, q⟩
      · exact ⟨.hessProd, ⟨by simp, h0, p⟩, q⟩
      · exact ⟨.hess, ⟨by simp, h0, p⟩, q⟩
    refine .inl ⟨_, by rw [a2, b2, c1, e1, h1]; rfl, ?_⟩
    exact ⟨rfl, fun _ => ⟨a, a1, rfl⟩, fun _ => ⟨b, b1, rfl⟩, fun _ hm => c2 hm, fun hm => e2 hm, nofun, nofun, nofun, nofun,
      fun _ hw => h2 hw, rfl, nofun, nofun, nofun, nofun⟩
  | lsq =>
    unfold mexCreate mexLsqCreate
    rcases f.get_cases .lsqRes with ⟨a, a1, a2⟩ | ⟨a1, a2⟩
    swap
    · exact .inr ⟨by rw [a2]; rfl, .lsqRes, rfl, a1⟩
    rcases f.get_cases .lsqFwd with ⟨b, b1, b2⟩ | ⟨b1, b2⟩
    swap
    · exact .inr ⟨by rw [a2, b2]; rfl, .lsqFwd, rfl, b1⟩
    rcases f.get_cases .lsqAdj with ⟨g, g1, g2⟩ | ⟨g1, g2⟩
    swap
    · exact .inr ⟨by rw [a2, b2, g2]; rfl, .lsqAdj, rfl, g1⟩
    rcases f.getCons_cases m .consVal with ⟨c, c1, c2⟩ | ⟨c0, c1, c2⟩
    swap
    · exact .inr ⟨by rw [a2, b2, g2, c2]; rfl, .consVal, ⟨by simp, c0⟩, c1⟩
    rcases f.getCons_cases m .consJac with ⟨e, e1, e2⟩ | ⟨e0, e1, e2⟩
    swap
    · exact .inr ⟨by rw [a2, b2, g2, c1, e2]; rfl, .consJac, e0, e1⟩
    refine .inl ⟨_, by rw [a2, b2, g2, c1, e1]; rfl, ?_⟩
    exact ⟨rfl, nofun, fun h => absurd rfl h, fun _ hm => c2 hm, fun hm => e2 hm, fun _ => ⟨a, a1, rfl⟩, fun _ => ⟨b, b1, rfl⟩,
      fun _ => ⟨g, g1, rfl⟩, nofun, fun h => absurd rfl h, rfl, fun _ => List.length_replicate ..,
      fun _ => List.length_replicate .., nofun, nofun⟩
  | dyn =>
    unfold mexCreate mexDynCreate
    rcases f.get_cases .eval with ⟨a, a1, a2⟩ | ⟨a1, a2⟩
    swap
    · exact .inr ⟨by rw [a2]; rfl, .eval, rfl, a1⟩
    rcases f.get_cases .objGrad with ⟨b, b1, b2⟩ | ⟨b1, b2⟩
    swap
    · exact .inr ⟨by rw [a2, b2]; rfl, .objGrad, by unfold Required; simp, b1⟩
    rcases f.getCons_cases m .consJac with ⟨e, e1, e2⟩ | ⟨e0, e1, e2⟩
    swap
    · exact .inr ⟨by rw [a2, b2, e2]; rfl, .consJac, e0, e1⟩
    rcases mexHessOpt_cases (K := K) f n m w with ⟨h, h1, h2⟩ | ⟨h0, h1, h2⟩
    swap
    · refine .inr ⟨by rw [a2, b2, e1, h1]; rfl, ?_⟩
      rcases h2 with ⟨p, q⟩ | ⟨p, q⟩
      · exact ⟨.hessProd, ⟨by simp, h0, p⟩, q⟩
      · exact ⟨.hess, ⟨by simp, h0, p⟩, q⟩
    refine .inl ⟨_, by rw [a2, b2, e1, h1]; rfl, ?_⟩
    exact ⟨rfl, nofun, fun _ => ⟨b, b1, rfl⟩, fun h => absurd rfl h, fun hm => e2 hm, nofun, nofun, nofun, fun _ => ⟨a, a1, rfl⟩,
      fun _ hw => h2 hw, rfl, nofun, nofun, fun _ => rfl, fun _ hm => ⟨_, if_pos hm, List.length_replicate ..⟩⟩

/-- C108: a problem is accepted exactly if all callbacks needed for its type are given as function handles; otherwise there is
an error, before anything is called. -/
theorem C108_create (kind : MexKind) (f : MexFuncs H) (n m k : Nat) (withHess : Bool) :
    ((∃ d : MexData H K, mexCreate kind f n m k withHess = .ok d) ↔
      ∀ name, Required kind f m withHess name → ∃ h, f name = some (.handle h)) ∧
    ((¬ ∃ d : MexData H K, mexCreate kind f n m k withHess = .ok d) → mexCreate (K := K) kind f n m k withHess = .err) := by
  have hmain : ∀ d : MexData H K, mexCreate kind f n m k withHess = .ok d →
      ∀ name, Required kind f m withHess name → ∃ h, f name = some (.handle h) := by
    intro d hd name hr
    rcases mexCreate_cases (K := K) kind f n m k withHess with ⟨d', e, i⟩ | ⟨e, -⟩
    swap
    · rw [e] at hd; cases hd
    cases name with
    | objVal => obtain ⟨h, h1, -⟩ := i.objVal hr; exact ⟨h, h1⟩
    | objGrad => obtain ⟨h, h1, -⟩ := i.objGrad hr; exact ⟨h, h1⟩
    | consVal => obtain ⟨h, h1, -⟩ := i.consVal hr.1 hr.2; exact ⟨h, h1⟩
    | consJac => obtain ⟨h, h1, -⟩ := i.consJac hr; exact ⟨h, h1⟩
    | lsqRes => obtain ⟨h, h1, -⟩ := i.lsqRes hr; exact ⟨h, h1⟩
    | lsqFwd => obtain ⟨h, h1, -⟩ := i.lsqFwd hr; exact ⟨h, h1⟩
    | lsqAdj => obtain ⟨h, h1, -⟩ := i.lsqAdj hr; exact ⟨h, h1⟩
    | eval => obtain ⟨h, h1, -⟩ := i.eval hr; exact ⟨h, h1⟩
    | hessProd =>
      obtain ⟨h, -, -, ⟨p, q, -⟩ | ⟨p, -⟩⟩ := i.hess hr.1 hr.2.1
      · exact ⟨h.fn, q⟩
      · exact absurd hr.2.2 p
    | hess =>
      obtain ⟨h, -, -, ⟨p, -⟩ | ⟨p, q, -⟩⟩ := i.hess hr.1 hr.2.1
      · exact absurd p hr.2.2
      · exact ⟨h.fn, q⟩
    | accepted => exact absurd hr id
  refine ⟨⟨fun ⟨d, hd⟩ => hmain d hd, fun h => ?_⟩, fun h => ?_⟩
  · rcases mexCreate_cases (K := K) kind f n m k withHess with ⟨d', e, i⟩ | ⟨-, name, h1, h2⟩
    · exact ⟨d', e⟩
    · exact absurd (h name h1) h2
  · rcases mexCreate_cases (K := K) kind f n m k withHess with ⟨d', e, i⟩ | ⟨e, -⟩
    · exact absurd ⟨d', e⟩ h
    · exact e

theorem mexRun_trace {kind : MexKind} {f : MexFuncs H} {n m k : Nat} {w : Bool} :
    ∀ (ops hist : List (MexOp K)) (d : MexData H K), MexInv kind f n m k w hist d → (∀ op ∈ ops, OpFits kind n m k w op) →
    ∃ d' calls, d.run ops = some (d', calls) ∧ calls.length = ops.length ∧
      ∀ pre op post, ops = pre ++ op :: post → ∃ c, calls[pre.length]? = some c ∧ RightCall kind f n m k (hist ++ pre) op c
  | [], _, d, _, _ => ⟨d, [], rfl, rfl, fun pre op post h => by simp at h⟩
  | o :: ops, hist, d, hi, ho => by
    obtain ⟨d1, c1, s1, s2, s3⟩ := hi.step (ho o (by simp))
    obtain ⟨d2, tr, r1, r2, r3⟩ := mexRun_trace ops (hist ++ [o]) d1 s2 (fun op h => ho op (by simp [h]))
    refine ⟨d2, c1 :: tr, ?_, by simp [r2], fun pre op post h => ?_⟩
    · show (d.step o).bind _ = _
      rw [s1]
      show (d1.run ops).map _ = _
      rw [r1]; rfl
    · cases pre with
      | nil =>
        obtain ⟨rfl, -⟩ := List.cons.inj h
        exact ⟨c1, rfl, by rw [List.append_nil]; exact s3⟩
      | cons p pre =>
        obtain ⟨rfl, h'⟩ := List.cons.inj h
        obtain ⟨c, e1, e2⟩ := r3 pre op post h'
        exact ⟨c, e1, by rw [List.append_assoc] at e2; exact e2⟩

/-- C108 (in part): for every history of evaluations of an accepted problem, no call is undefined and at each evaluation
exactly the callback of that name is called, with the point last set, the given direction and multipliers and, for dynamic
functions, the error information last set, each in full and in the documented shape and order; operations without an
evaluation call nothing.  Missing: the callback for accepted iterates. -/
theorem C108_calls_partial {kind : MexKind} {f : MexFuncs H} {n m k : Nat} {withHess : Bool} {d : MexData H K}
    (hc : mexCreate kind f n m k withHess = .ok d) {ops : List (MexOp K)} (ho : ∀ op ∈ ops, OpFits kind n m k withHess op) :
    ∃ d' calls, d.run ops = some (d', calls) ∧ calls.length = ops.length ∧
      ∀ pre op post, ops = pre ++ op :: post → ∃ c, calls[pre.length]? = some c ∧ RightCall kind f n m k pre op c := by
  rcases mexCreate_cases (K := K) kind f n m k withHess with ⟨d', e, i⟩ | ⟨e, -⟩
  · rw [e] at hc
    cases hc
    exact mexRun_trace ops [] _ i ho
  · rw [e] at hc; cases hc

/-- C108 (in part): the callback for accepted iterates gets all components of the iterate that the solver passes, as a
column, if this has the dimension of the user's problem: without preprocessing and scaling, where this is the accepted
iterate of the user's problem.  The result has to be a logical number. -/
theorem C108_accepted_partial {n : Nat} {fn : H} {buf : List K} (hb : buf.length = n) {lsq : Bool} {it trial : Iterate K}
    (ht : VOk n trial.primal) :
    (∃ v b, acceptedEvent some none lsq it trial = some v ∧ restoreIterate some none lsq trial = some v.passed ∧
      mexAccepted fn buf v.passed = some (b, ⟨fn, [.array n 1 (fullOf n trial.primal)], 1⟩) ∧ b.length = n) ∧
    (∀ b, mexAcceptedResult (some b) = .ok b) ∧ mexAcceptedResult none = .err := by
  refine ⟨⟨⟨trial, it⟩, fullOf n trial.primal, rfl, rfl, ?_, by simp [fullOf]⟩, fun _ => rfl, rfl⟩
  show (mxWrite buf trial.primal).map _ = _
  rw [mxWrite_full ht hb]
  simp [fullOf]

end

/-! ### examples -/

/-- callbacks of a regular problem: names as handles -/
def exMexFuncs : MexFuncs String
  | .objVal => some (.handle "f")
  | .objGrad => some (.handle "g")
  | .consVal => some (.handle "c")
  | .consJac => some (.handle "J")
  | .hess => some (.handle "H")
  | _ => none

/-- The problem is accepted with constraints and with second derivatives; a least-squares problem is not. -/
example : (∃ d : MexData String ℚ, mexCreate .regular exMexFuncs 2 1 0 true = .ok d) ∧
    mexCreate (K := ℚ) .lsq exMexFuncs 2 1 0 true = .err := ⟨⟨_, rfl⟩, rfl⟩

/-- An evaluation of the objective at (3, 0), then a Hessian product at (0, 4) with multiplier 7: the callback for the Hessian
gets the new point and the multiplier. -/
example : ∃ (d : MexData String ℚ) (d' : MexData String ℚ), mexCreate .regular exMexFuncs 2 1 0 true = .ok d ∧
    d.run [.set ⟨2, 1, [(0, 3)]⟩, .objVal, .set ⟨2, 1, [(1, 4)]⟩, .hessProd ⟨2, 1, [(0, 1)]⟩ ⟨1, 1, [(0, 7)]⟩] =
      some (d', [none, some ⟨"f", [.array 1 2 [3, 0]], 1⟩, none, some ⟨"H", [.array 1 2 [0, 4], .array 1 1 [7]], 1⟩]) :=
  ⟨_, _, rfl, rfl⟩

/-- The hypotheses on that history. -/
example : ∀ op ∈ [MexOp.set (⟨2, 1, [(0, 3)]⟩ : Vec ℚ), .objVal, .set ⟨2, 1, [(1, 4)]⟩,
    .hessProd ⟨2, 1, [(0, 1)]⟩ ⟨1, 1, [(0, 7)]⟩], OpFits .regular 2 1 0 true op := by
  have h : ∀ (j n : Nat) (a : ℚ), j < n → VOk n (⟨n, 1, [(j, a)]⟩ : Vec ℚ) := by
    intro j n a hj
    exact ⟨⟨by unfold Srt; simp, by simpa using hj, by simp⟩, rfl⟩
  intro op hop
  simp only [List.mem_cons, List.not_mem_nil, or_false] at hop
  rcases hop with rfl | rfl | rfl | rfl
  · exact h 0 2 3 (by decide)
  · exact rfl
  · exact h 1 2 4 (by decide)
  · exact ⟨by simp, rfl, h 0 2 1 (by decide), h 0 1 7 (by decide)⟩

/-- C108 is violated: with preprocessing the callback for accepted iterates gets the components of the reduced problem, at
wrong positions, followed by what the array contained before.  With two variables, the first fixed to 5 by the preprocessor,
the accepted iterate (5, 3) arrives as (3, 0). -/
theorem C108_accepted_violated : ∃ (pre : Iterate ℚ → Option (Iterate ℚ)) (trial orig : Iterate ℚ) (v : EventView ℚ)
    (b : List ℚ),
    (∀ it, (pre it).map (·.primal) = Vec.mergeEntries it.primal (Vec.create 2 2) [(0, 5)]) ∧
    restoreIterate pre none false trial = some orig ∧ fullOf 2 orig.primal = [5, 3] ∧
    acceptedEvent pre none false trial trial = some v ∧
    mexAccepted "accepted" (mxZeros 2) v.passed = some (b, ⟨"accepted", [.array 2 1 [3, 0]], 1⟩) := by
  have hm : Vec.mergeEntries (⟨1, 1, [(0, 3)]⟩ : Vec ℚ) (Vec.create 2 2) [(0, 5)] = some ⟨2, 2, [(0, 5), (1, 3)]⟩ := by
    unfold Vec.mergeEntries
    rw [if_pos (by decide)]
    have : Vec.mergeLoop [(0, 5)] 0 [(0, (3 : ℚ))] = [(0, 5), (1, 3)] := by simp [Vec.mergeLoop]
    rw [show (⟨1, 1, [(0, 3)]⟩ : Vec ℚ).ents = [(0, 3)] from rfl, this]
    rfl
  refine ⟨fun it => (Vec.mergeEntries it.primal (Vec.create 2 2) [(0, 5)]).map fun x => { it with primal := x },
    { exIt with primal := ⟨1, 1, [(0, 3)]⟩ }, { exIt with primal := ⟨2, 2, [(0, 5), (1, 3)]⟩ },
    ⟨{ exIt with primal := ⟨1, 1, [(0, 3)]⟩ }, { exIt with primal := ⟨2, 2, [(0, 5), (1, 3)]⟩ }⟩, [3, 0], ?_, ?_, ?_, ?_, rfl⟩
  · intro it
    rw [Option.map_map]
    cases Vec.mergeEntries it.primal (Vec.create 2 2) [(0, 5)] <;> rfl
  · show (Option.map _ (Vec.mergeEntries _ _ _)).bind _ = _
    rw [hm]; rfl
  · decide +kernel
  · show ((Option.map _ (Vec.mergeEntries _ _ _)).bind _).map _ = _
    rw [hm]; rfl

end Sleqp
