import Verif.Model.Dyn
import Mathlib.Data.Rat.Defs
import Mathlib.Algebra.Order.Field.Rat
import Mathlib.Tactic.NormNum

/-! C23: dynamic functions. -/

namespace Sleqp

variable {K P V W : Type*} [Field K] [LinearOrder K]
variable {U : Nat → DynUser K P W → DynEval K V} {numCons : Nat}

theorem hasFlag_iff (f : BitVec 32) (i : Nat) (hi : i < 32) :
    hasFlag f (BitVec.twoPow 32 i) = f.getLsbD i := by
  unfold hasFlag
  rw [BitVec.and_twoPow]
  split
  · rename_i h
    rw [h]
    have : BitVec.twoPow 32 i ≠ 0#32 := by
      intro h0
      have := congrArg (fun b => b.getLsbD i) h0
      simp [BitVec.getLsbD_twoPow, hi] at this
    simpa using this
  · rename_i h
    have h : f.getLsbD i = false := by simpa using h
    rw [h]
    simp

/-- the four flags as bits -/
theorem flag_bits (f : BitVec 32) :
    hasFlag f HAS_OBJ_WEIGHT = f.getLsbD 0 ∧ hasFlag f HAS_CONS_WEIGHTS = f.getLsbD 1 ∧
    hasFlag f HAS_ERROR_BOUND = f.getLsbD 2 ∧ hasFlag f HAS_VALUES = f.getLsbD 3 :=
  ⟨hasFlag_iff f 0 (by omega), hasFlag_iff f 1 (by omega), hasFlag_iff f 2 (by omega),
    hasFlag_iff f 3 (by omega)⟩

theorem hasValues_setValue (f : BitVec 32) : hasFlag (f &&& ~~~HAS_VALUES) HAS_VALUES = false := by
  rw [(flag_bits _).2.2.2]
  simp [HAS_VALUES, BitVec.getLsbD_and, BitVec.getLsbD_not]

/-- The mask used by the weight setters does not touch the `HAS_VALUES` bit. -/
theorem hasValues_setWeight (f m : BitVec 32) (hm : m.getLsbD 3 = false) :
    hasFlag ((f ||| m) &&& ~~~(1#32 <<< HAS_VALUES)) HAS_VALUES = hasFlag f HAS_VALUES := by
  rw [(flag_bits _).2.2.2, (flag_bits _).2.2.2]
  have : (~~~(1#32 <<< HAS_VALUES)).getLsbD 3 = true := by decide
  rw [BitVec.getLsbD_and, this, BitVec.getLsbD_or, hm]
  simp

theorem hasValues_set (f : BitVec 32) : hasFlag (f ||| HAS_VALUES) HAS_VALUES = true := by
  rw [(flag_bits _).2.2.2, BitVec.getLsbD_or]
  simp [HAS_VALUES]

/-- Invariant: stored values passed the checks of `eval`, and are what the user delivered
when asked at the present point and error bound. -/
def DynInv (U : Nat → DynUser K P W → DynEval K V) (s : Dyn K P V W) : Prop :=
  hasFlag s.flags HAS_VALUES = true →
    s.error ≠ extNone ∧ Ext.lt s.error (.fin 0) = false ∧ Ext.gt s.error s.errorBound = false ∧
    ∃ n u, n < s.calls ∧ (U n u).ok = true ∧ s.objVal = (U n u).objVal ∧ s.consVal = (U n u).consVal ∧
      s.error = (U n u).error ∧ u.point = s.user.point ∧ u.bound = s.user.bound

theorem dynInv_create (c : V) (u : DynUser K P W) : DynInv U (Dyn.create (K := K) c u) := by
  intro h
  simp [Dyn.create, hasFlag] at h

theorem eval_cases {s s' : Dyn K P V W} {b : Bool} (h : s.eval U numCons = some (b, s')) :
    (hasFlag s.flags HAS_VALUES = true ∧ b = true ∧ s' = s) ∨
    (hasFlag s.flags HAS_VALUES = false ∧ s'.user = s.user ∧ s'.errorBound = s.errorBound ∧
      s'.calls = s.calls + 1 ∧ s'.objVal = (U s.calls s.user).objVal ∧
      s'.consVal = (U s.calls s.user).consVal ∧ s'.error = (U s.calls s.user).error ∧
      ((b = false ∧ s'.flags = s.flags) ∨
       (b = true ∧ s'.flags = s.flags ||| HAS_VALUES ∧ (U s.calls s.user).ok = true ∧
        s'.error ≠ extNone ∧ Ext.lt s'.error (.fin 0) = false ∧
        Ext.gt s'.error s'.errorBound = false))) := by
  unfold Dyn.eval at h
  split at h
  · cases h
  split at h
  · cases h
  split at h
  · cases h
  split at h
  · rename_i hv
    split at h
    · cases h
    · injection h with h
      injection h with h1 h2
      exact Or.inl ⟨hv, h1.symm, h2.symm⟩
  · rename_i hv
    right
    refine ⟨by simpa using hv, ?_⟩
    simp only [] at h
    split at h
    · injection h with h; injection h with h1 h2
      rw [← h1, ← h2]
      exact ⟨rfl, rfl, rfl, rfl, rfl, rfl, Or.inl ⟨rfl, rfl⟩⟩
    rename_i hok
    split at h
    · injection h with h; injection h with h1 h2
      rw [← h1, ← h2]
      exact ⟨rfl, rfl, rfl, rfl, rfl, rfl, Or.inl ⟨rfl, rfl⟩⟩
    rename_i h3
    split at h
    · injection h with h; injection h with h1 h2
      rw [← h1, ← h2]
      exact ⟨rfl, rfl, rfl, rfl, rfl, rfl, Or.inl ⟨rfl, rfl⟩⟩
    rename_i h4
    split at h
    · injection h with h; injection h with h1 h2
      rw [← h1, ← h2]
      exact ⟨rfl, rfl, rfl, rfl, rfl, rfl, Or.inl ⟨rfl, rfl⟩⟩
    rename_i h5
    injection h with h; injection h with h1 h2
    rw [← h1, ← h2]
    exact ⟨rfl, rfl, rfl, rfl, rfl, rfl, Or.inr ⟨rfl, rfl, by simpa using hok, h3,
      by simpa using h4, by simpa using h5⟩⟩

theorem dynInv_step {s s' : Dyn K P V W} (op : DynOp K P W) (hi : DynInv U s)
    (h : op.apply U numCons s = some s') : DynInv U s' := by
  cases op with
  | setValue x t =>
    injection h with h; subst h
    intro hv
    exact absurd hv (by rw [Dyn.setValue]; rw [hasValues_setValue]; simp)
  | setErrorBound b t =>
    injection h with h; subst h
    intro hv
    exact absurd hv (by rw [Dyn.setErrorBound]; rw [hasValues_setValue]; simp)
  | setObjWeight w t =>
    injection h with h; subst h
    intro hv
    have hv' : hasFlag s.flags HAS_VALUES = true := by
      rw [← hasValues_setWeight s.flags HAS_OBJ_WEIGHT (by decide)]; exact hv
    obtain ⟨h1, h2, h3, n, u, h4, h5, h6, h7, h8, h9, h10⟩ := hi hv'
    refine ⟨h1, h2, h3, n, u, h4, h5, h6, h7, h8, ?_, ?_⟩
    · rw [h9]; unfold Dyn.setObjWeight Took.upd; cases t <;> rfl
    · rw [h10]; unfold Dyn.setObjWeight Took.upd; cases t <;> rfl
  | setConsWeights w t =>
    injection h with h; subst h
    intro hv
    have hv' : hasFlag s.flags HAS_VALUES = true := by
      rw [← hasValues_setWeight s.flags HAS_CONS_WEIGHTS (by decide)]; exact hv
    obtain ⟨h1, h2, h3, n, u, h4, h5, h6, h7, h8, h9, h10⟩ := hi hv'
    refine ⟨h1, h2, h3, n, u, h4, h5, h6, h7, h8, ?_, ?_⟩
    · rw [h9]; unfold Dyn.setConsWeights Took.upd; split <;> cases t <;> rfl
    · rw [h10]; unfold Dyn.setConsWeights Took.upd; split <;> cases t <;> rfl
  | eval =>
    obtain ⟨⟨b, s1⟩, he, rfl⟩ := Option.map_eq_some_iff.mp h
    rcases eval_cases he with ⟨_, _, rfl⟩ | ⟨hv0, hu, hb, hc, ho, hcv, her, hx⟩
    · exact hi
    · intro hv
      rcases hx with ⟨_, hf⟩ | ⟨_, _, hok, h1, h2, h3⟩
      · rw [hf, hv0] at hv; cases hv
      · exact ⟨h1, h2, h3, s.calls, s.user, by rw [hc]; omega, hok, ho, hcv, her,
          by rw [hu], by rw [hu]⟩

theorem dynInv_run {s s' : Dyn K P V W} {ops : List (DynOp K P W)} (hi : DynInv U s)
    (h : s.run U numCons ops = some s') : DynInv U s' := by
  unfold Dyn.run at h
  induction ops generalizing s with
  | nil => simp at h; rw [← h]; exact hi
  | cons op ops ih =>
    rw [List.foldlM_cons] at h
    obtain ⟨s1, h1, h2⟩ := Option.bind_eq_some_iff.mp h
    exact ih (dynInv_step op hi h1) h2

/-- After any history of calls, a successful evaluation returns values the user delivered
at the present point and error bound, with a reported error in `[0, bound]`.
Missing: NaN as reported error or as bound (false, see below), and freshness with respect
to the weights (false, see below). -/
theorem C23_error_within_bound_partial {c : V} {u0 : DynUser K P W} {ops : List (DynOp K P W)}
    {s s' : Dyn K P V W} (hrun : (Dyn.create (K := K) c u0).run U numCons ops = some s)
    (he : s.eval U numCons = some (true, s')) (hn : s'.error ≠ .nan) (hb : s'.errorBound ≠ .nan) :
    Ext.le (.fin 0) s'.error = true ∧ Ext.le s'.error s'.errorBound = true ∧
    s'.user = s.user ∧
    ∃ n u, n < s'.calls ∧ (U n u).ok = true ∧ s'.objVal = (U n u).objVal ∧
      s'.consVal = (U n u).consVal ∧ s'.error = (U n u).error ∧
      u.point = s'.user.point ∧ u.bound = s'.user.bound := by
  have hi' : DynInv U s' := dynInv_step .eval (dynInv_run (dynInv_create c u0) hrun) (by
    show (s.eval U numCons).map Prod.snd = some s'
    rw [he]; rfl)
  have hv : hasFlag s'.flags HAS_VALUES = true ∧ s'.user = s.user := by
    rcases eval_cases he with ⟨hv, _, rfl⟩ | ⟨_, hu, _, _, _, _, _, hx⟩
    · exact ⟨hv, rfl⟩
    · rcases hx with ⟨hb, _⟩ | ⟨_, hf, _⟩
      · cases hb
      · exact ⟨by rw [hf, hasValues_set], hu⟩
  obtain ⟨h1, h2, h3, n, u, h4⟩ := hi' hv.1
  refine ⟨?_, ?_, hv.2, n, u, h4⟩
  · cases hs : s'.error with
    | nan => exact absurd hs hn
    | fin x => rw [hs] at h2; simpa [Ext.lt, Ext.le] using h2
    | pinf => rfl
    | ninf => rw [hs] at h2; simp [Ext.lt] at h2
  · cases hs : s'.error <;> cases hs2 : s'.errorBound <;> rw [hs] at h2 h3 <;> rw [hs2] at h3 <;>
      simp_all [Ext.lt, Ext.le, Ext.gt]

/-- The error estimate offered to the solver is the error the user reported for the stored
values right after an evaluation, and the requested bound after the point was changed. -/
theorem C23_estimate {c : V} {u0 : DynUser K P W} {ops : List (DynOp K P W)}
    {s s' : Dyn K P V W} (hrun : (Dyn.create (K := K) c u0).run U numCons ops = some s)
    (he : s.eval U numCons = some (true, s')) :
    s'.errorEstimate = s'.error ∧ ∀ x t, (s'.setValue x t).errorEstimate = s'.errorBound := by
  have hi' : DynInv U s' := dynInv_step .eval (dynInv_run (dynInv_create c u0) hrun) (by
    show (s.eval U numCons).map Prod.snd = some s'
    rw [he]; rfl)
  have hv : hasFlag s'.flags HAS_VALUES = true := by
    rcases eval_cases he with ⟨hv, _, rfl⟩ | ⟨_, hu, _, _, _, _, _, hx⟩
    · exact hv
    · rcases hx with ⟨hb, _⟩ | ⟨_, hf, _⟩
      · cases hb
      · rw [hf, hasValues_set]
  refine ⟨if_pos (hi' hv).1, fun x t => ?_⟩
  unfold Dyn.errorEstimate
  rw [if_neg (by simp [Dyn.setValue])]
  rfl

/-- Evaluating again without changes in between does not ask the user again and leaves the
stored values as they are. -/
theorem C23_repeat_eval {s s' : Dyn K P V W} (hi : DynInv U s)
    (he : s.eval U numCons = some (true, s')) : s'.eval U numCons = some (true, s') := by
  have hi' : DynInv U s' := dynInv_step .eval hi (by
    show (s.eval U numCons).map Prod.snd = some s'
    rw [he]; rfl)
  rcases eval_cases he with ⟨hv, _, rfl⟩ | ⟨hv0, hu, _, _, _, _, _, hx⟩
  · exact he
  · rcases hx with ⟨hb, _⟩ | ⟨_, hf, _⟩
    · cases hb
    · have hv : hasFlag s'.flags HAS_VALUES = true := by rw [hf, hasValues_set]
      have herr := (hi' hv).1
      have hbits : ∀ i, i ≠ 3 → s'.flags.getLsbD i = s.flags.getLsbD i := by
        intro i hi3
        have : HAS_VALUES = BitVec.twoPow 32 3 := rfl
        rw [hf, BitVec.getLsbD_or, this, BitVec.getLsbD_twoPow]
        simp [Ne.symm hi3]
      unfold Dyn.eval at he ⊢
      rw [(flag_bits s'.flags).1, (flag_bits s'.flags).2.1, (flag_bits s'.flags).2.2.1,
        hbits 0 (by omega), hbits 1 (by omega), hbits 2 (by omega), ← (flag_bits s.flags).1,
        ← (flag_bits s.flags).2.1, ← (flag_bits s.flags).2.2.1]
      split at he
      · cases he
      rename_i g1
      rw [if_neg g1]
      split at he
      · cases he
      rename_i g2
      rw [if_neg g2]
      split at he
      · cases he
      rename_i g3
      rw [if_neg g3, if_pos hv, if_neg herr]

/-- Once error bound and weights have been set, no assert of `eval` can fail, after any
further history. -/
theorem C23_no_assert {s : Dyn K P V W} (hi : DynInv U s)
    (h0 : hasFlag s.flags HAS_OBJ_WEIGHT = true) (h1 : hasFlag s.flags HAS_CONS_WEIGHTS = true)
    (h2 : hasFlag s.flags HAS_ERROR_BOUND = true) (ops : List (DynOp K P W)) :
    ∃ s', s.run U numCons ops = some s' := by
  induction ops generalizing s with
  | nil => exact ⟨s, rfl⟩
  | cons op ops ih =>
    have hmono : ∀ (f m x : BitVec 32) (i : Nat), f.getLsbD i = true → x.getLsbD i = true →
        ((f ||| m) &&& x).getLsbD i = true := by
      intro f m x i hf hx
      rw [BitVec.getLsbD_and, BitVec.getLsbD_or, hf, hx]; rfl
    have hstep : ∃ s1, op.apply U numCons s = some s1 ∧ hasFlag s1.flags HAS_OBJ_WEIGHT = true ∧
        hasFlag s1.flags HAS_CONS_WEIGHTS = true ∧ hasFlag s1.flags HAS_ERROR_BOUND = true := by
      rw [(flag_bits _).1] at h0
      rw [(flag_bits _).2.1] at h1
      rw [(flag_bits _).2.2.1] at h2
      have hz : ∀ i < 3, (~~~HAS_VALUES).getLsbD i = true ∧ (~~~(1#32 <<< HAS_VALUES)).getLsbD i = true := by
        decide
      have hsv : ∀ (f : BitVec 32) (i : Nat), i < 3 → f.getLsbD i = true →
          (f &&& ~~~HAS_VALUES).getLsbD i = true := by
        intro f i hi hf
        rw [BitVec.getLsbD_and, hf, (hz i hi).1]; rfl
      cases op with
      | setValue x t =>
        refine ⟨_, rfl, ?_⟩
        rw [(flag_bits _).1, (flag_bits _).2.1, (flag_bits _).2.2.1]
        exact ⟨hsv _ _ (by omega) h0, hsv _ _ (by omega) h1, hsv _ _ (by omega) h2⟩
      | setErrorBound b t =>
        refine ⟨_, rfl, ?_⟩
        rw [(flag_bits _).1, (flag_bits _).2.1, (flag_bits _).2.2.1]
        exact ⟨hmono _ _ _ _ h0 (hz 0 (by omega)).1, hmono _ _ _ _ h1 (hz 1 (by omega)).1,
          hmono _ _ _ _ h2 (hz 2 (by omega)).1⟩
      | setObjWeight w t =>
        refine ⟨_, rfl, ?_⟩
        rw [(flag_bits _).1, (flag_bits _).2.1, (flag_bits _).2.2.1]
        exact ⟨hmono _ _ _ _ h0 (hz 0 (by omega)).2, hmono _ _ _ _ h1 (hz 1 (by omega)).2,
          hmono _ _ _ _ h2 (hz 2 (by omega)).2⟩
      | setConsWeights w t =>
        refine ⟨_, rfl, ?_⟩
        rw [(flag_bits _).1, (flag_bits _).2.1, (flag_bits _).2.2.1]
        exact ⟨hmono _ _ _ _ h0 (hz 0 (by omega)).2, hmono _ _ _ _ h1 (hz 1 (by omega)).2,
          hmono _ _ _ _ h2 (hz 2 (by omega)).2⟩
      | eval =>
        have hex : ∃ b s1, s.eval U numCons = some (b, s1) := by
          unfold Dyn.eval
          rw [if_neg (by rw [(flag_bits _).2.1, h1]; simp), if_neg (by rw [(flag_bits _).1, h0]; simp),
            if_neg (by rw [(flag_bits _).2.2.1, h2]; simp)]
          split
          · rename_i hv
            rw [if_neg (hi hv).1]
            exact ⟨_, _, rfl⟩
          · simp only []
            split_ifs <;> exact ⟨_, _, rfl⟩
        obtain ⟨b, s1, he⟩ := hex
        refine ⟨s1, by show (s.eval U numCons).map Prod.snd = some s1; rw [he]; rfl, ?_⟩
        rw [(flag_bits _).1, (flag_bits _).2.1, (flag_bits _).2.2.1]
        rcases eval_cases he with ⟨_, _, rfl⟩ | ⟨_, _, _, _, _, _, _, ⟨_, hf⟩ | ⟨_, hf, _⟩⟩
        · exact ⟨h0, h1, h2⟩
        · rw [hf]; exact ⟨h0, h1, h2⟩
        · rw [hf, BitVec.getLsbD_or, BitVec.getLsbD_or, BitVec.getLsbD_or, h0, h1, h2]
          simp
    obtain ⟨s1, hs1, g0, g1, g2⟩ := hstep
    obtain ⟨s2, hs2⟩ := ih (dynInv_step op hi hs1) g0 g1 g2
    refine ⟨s2, ?_⟩
    unfold Dyn.run at hs2 ⊢
    rw [List.foldlM_cons, hs1]
    exact hs2

/-- Freshness with respect to everything, for histories that set the weights before the
first evaluation only: the delivered values are those the user gave for exactly the
present data.  Missing: weight changes after an evaluation (false, next theorem). -/
theorem C23_fresh_partial {c : V} {u0 : DynUser K P W} {pre post : List (DynOp K P W)}
    {s s' : Dyn K P V W} (hpre : DynOp.eval ∉ pre)
    (hpost : ∀ op ∈ post, (∀ w t, op ≠ .setObjWeight w t) ∧ ∀ w t, op ≠ .setConsWeights w t)
    (hrun : (Dyn.create (K := K) c u0).run U numCons (pre ++ post) = some s)
    (he : s.eval U numCons = some (true, s')) :
    ∃ n < s'.calls, s'.objVal = (U n s'.user).objVal ∧ s'.consVal = (U n s'.user).consVal ∧
      s'.error = (U n s'.user).error := by
  unfold Dyn.run at hrun
  rw [List.foldlM_append] at hrun
  obtain ⟨s1, h1, h2⟩ := Option.bind_eq_some_iff.mp hrun
  -- no values before the first evaluation
  have hno : ∀ (l : List (DynOp K P W)) (a b : Dyn K P V W), DynOp.eval ∉ l →
      hasFlag a.flags HAS_VALUES = false →
      l.foldlM (fun s op => DynOp.apply U numCons s op) a = some b →
      hasFlag b.flags HAS_VALUES = false := by
    intro l
    induction l with
    | nil => intro a b _ ha hab; simp at hab; rw [← hab]; exact ha
    | cons op l ih =>
      intro a b hl ha hab
      rw [List.foldlM_cons] at hab
      obtain ⟨a1, ha1, hab1⟩ := Option.bind_eq_some_iff.mp hab
      refine ih a1 b (fun hm => hl (List.mem_cons_of_mem _ hm)) ?_ hab1
      cases op with
      | setValue x t => injection ha1 with ha1; subst ha1; exact hasValues_setValue _
      | setErrorBound x t => injection ha1 with ha1; subst ha1; exact hasValues_setValue _
      | setObjWeight w t =>
        injection ha1 with ha1; subst ha1
        exact (hasValues_setWeight _ _ (by decide)).trans ha
      | setConsWeights w t =>
        injection ha1 with ha1; subst ha1
        exact (hasValues_setWeight _ _ (by decide)).trans ha
      | eval => simp at hl
  have hs1 := hno pre _ _ hpre (by simp [Dyn.create, hasFlag]) h1
  -- strengthened invariant
  let Inv : Dyn K P V W → Prop := fun s => hasFlag s.flags HAS_VALUES = true →
    ∃ n < s.calls, s.objVal = (U n s.user).objVal ∧ s.consVal = (U n s.user).consVal ∧
      s.error = (U n s.user).error
  have hev : ∀ {a b : Dyn K P V W} {r : Bool}, Inv a → a.eval U numCons = some (r, b) → Inv b := by
    intro a b r ha hab
    rcases eval_cases hab with ⟨_, _, rfl⟩ | ⟨_, hu, _, hc, ho, hcv, her, _⟩
    · exact ha
    · intro _
      exact ⟨a.calls, by rw [hc]; omega, by rw [ho, hu], by rw [hcv, hu], by rw [her, hu]⟩
  have hinv : ∀ (l : List (DynOp K P W)) (a b : Dyn K P V W),
      (∀ op ∈ l, (∀ w t, op ≠ .setObjWeight w t) ∧ ∀ w t, op ≠ .setConsWeights w t) → Inv a →
      l.foldlM (fun s op => DynOp.apply U numCons s op) a = some b → Inv b := by
    intro l
    induction l with
    | nil => intro a b _ ha hab; simp at hab; rw [← hab]; exact ha
    | cons op l ih =>
      intro a b hl ha hab
      rw [List.foldlM_cons] at hab
      obtain ⟨a1, ha1, hab1⟩ := Option.bind_eq_some_iff.mp hab
      refine ih a1 b (fun o ho => hl o (List.mem_cons_of_mem _ ho)) ?_ hab1
      cases op with
      | setValue x t =>
        injection ha1 with ha1; subst ha1
        intro hv
        exact absurd hv (by rw [Dyn.setValue]; rw [hasValues_setValue]; simp)
      | setErrorBound x t =>
        injection ha1 with ha1; subst ha1
        intro hv
        exact absurd hv (by rw [Dyn.setErrorBound]; rw [hasValues_setValue]; simp)
      | setObjWeight w t => exact absurd rfl ((hl _ List.mem_cons_self).1 w t)
      | setConsWeights w t => exact absurd rfl ((hl _ List.mem_cons_self).2 w t)
      | eval =>
        obtain ⟨⟨r, a2⟩, h3, rfl⟩ := Option.map_eq_some_iff.mp ha1
        exact hev ha h3
  have hfin : Inv s' := hev (hinv post s1 s hpost (fun hv => by rw [hs1] at hv; cases hv) h2) he
  apply hfin
  rcases eval_cases he with ⟨hv, _, rfl⟩ | ⟨_, _, _, _, _, _, _, ⟨hb, _⟩ | ⟨_, hf, _⟩⟩
  · exact hv
  · cases hb
  · rw [hf, hasValues_set]

/-- a user function whose objective is the weight it was told -/
def exDynUser (_ : Nat) (u : DynUser ℚ Unit Unit) : DynEval ℚ Unit :=
  { ok := true, objVal := match u.objWeight with | .fin x => x | _ => 0, consVal := ()
    error := .fin 0 }

def exDynStart : Dyn ℚ Unit Unit Unit := Dyn.create () ⟨(), .fin 0, .fin 0, ()⟩

/-- The code violates freshness: the weight is changed from 1 to 2 between two successful
evaluations; the second one does not ask the user and returns the old value 1, while the
user would deliver 2.  (The setters clear bit `1 << HAS_VALUES` instead of `HAS_VALUES`.) -/
theorem C23_stale_weights_violated :
    ∃ s, exDynStart.run exDynUser 0
        [.setErrorBound (.fin 1) .ok, .setObjWeight (.fin 1) .ok, .setValue () .ok, .eval,
         .setObjWeight (.fin 2) .ok, .eval] = some s ∧
      s.objVal = 1 ∧ s.calls = 1 ∧ (exDynUser s.calls s.user).objVal = 2 := by
  exact ⟨_, rfl, rfl, rfl, rfl⟩

/-- In general: whenever values are stored, changing a weight never leads to a new
evaluation. -/
theorem C23_weights_never_invalidate {s : Dyn K P V W} (hi : DynInv U s)
    (hv : hasFlag s.flags HAS_VALUES = true) (w : Ext K) (t : Took) {s' : Dyn K P V W} {b : Bool}
    (he : (s.setObjWeight w t).eval U numCons = some (b, s')) :
    b = true ∧ s'.calls = s.calls ∧ s'.objVal = s.objVal := by
  have hv' : hasFlag (s.setObjWeight w t).flags HAS_VALUES = true :=
    (hasValues_setWeight _ _ (by decide)).trans hv
  rcases eval_cases he with ⟨_, hb, rfl⟩ | ⟨h0, _⟩
  · exact ⟨hb, rfl, rfl⟩
  · rw [hv'] at h0; cases h0

/-- The code also accepts NaN as a reported error. -/
theorem C23_nan_error_violated :
    ∃ s, exDynStart.run (fun _ _ => ⟨true, (7 : ℚ), (), .nan⟩) 0
        [.setErrorBound (.fin 1) .ok, .setObjWeight (.fin 1) .ok, .setValue () .ok, .eval] = some s ∧
      hasFlag s.flags HAS_VALUES = true ∧ Ext.le s.error s.errorBound = false := by
  exact ⟨_, rfl, by decide, rfl⟩

/-- a user function counting its calls -/
def exDynCount (n : Nat) (_ : DynUser ℚ Unit Unit) : DynEval ℚ Unit :=
  { ok := true, objVal := if n = 0 then 5 else 6, consVal := (), error := .fin 1 }

/-- non-vacuity: evaluations, a repeated one (no call), a tightened bound (new call) -/
example : ∃ s s', exDynStart.run exDynCount 0
    [.setErrorBound (.fin 2) .ok, .setObjWeight (.fin 1) .ok, .setValue () .ok, .eval, .eval,
     .setErrorBound (.fin 1) .ok] = some s ∧ s.calls = 1 ∧ s.objVal = 5 ∧
    s.eval exDynCount 0 = some (true, s') ∧ s'.calls = 2 ∧ s'.objVal = 6 :=
  ⟨_, _, rfl, rfl, rfl, rfl, rfl, rfl⟩

end Sleqp
