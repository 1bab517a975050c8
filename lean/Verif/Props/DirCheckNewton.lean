import Verif.Props.DirCheck
import Verif.Props.Newton

/-! C131: the Newton steps of the library pass the checks of the debug build. -/

namespace Sleqp
variable {K : Type*} [Field K] [LinearOrder K] [IsStrictOrderedRing K] {n m : Nat}
open Matrix

/-- a step leading every active entry all the way to its bound keeps the active constraints there -/
theorem keeps_of_gap {w : WSet} {l : List WEntry} (h : WRep n m w l) {p : Bounds K} (ht : Tight p l) {it : Iterate K}
    {q : LocalModel n m K} (hq : IterFor q p it) {d : Vec K} {eps : K} (he : 0 ≤ eps)
    (hd : ∀ k (hk : k < l.length), ∑ j ∈ Finset.range n, l[k].gradient it.consJac.value j * d.value j =
      l[k].gap p it.primal.value it.consVal.value) (i : Fin m) : KeepsActive q w eps (dense n d) i := by
  have hl : p.consLb.value i = q.lb i := congrFun hq.lb i
  have hu : p.consUb.value i = q.ub i := congrFun hq.ub i
  have hc : it.consVal.value i = q.c i := congrFun hq.c i
  by_cases hex : ∃ e ∈ l, e.constraint = true ∧ e.index = i
  · obtain ⟨e, hel, h1, h2⟩ := hex
    obtain ⟨k, hk, rfl⟩ := List.getElem_of_mem hel
    have hst : w.consState i = l[k].state := by rw [← h2]; exact (h.cidx k hk h1).2
    have hk' := hd k hk
    have hs : ∑ j ∈ Finset.range n, l[k].gradient it.consJac.value j * d.value j = (q.J *ᵥ dense n d) i := by
      rw [Finset.sum_range]
      refine Finset.sum_congr rfl fun j _ => ?_
      unfold WEntry.gradient
      rw [if_pos h1, h2, hq.J i j]
      rfl
    rw [hs] at hk'
    unfold WEntry.gap at hk'
    simp only [h1, if_true, h2] at hk'
    have tight : w.consState i = .both → q.lb i = q.ub i := fun hb => by
      rw [← hl, ← hu]; exact (ht.states h).2 i i.isLt hb
    have both : w.consState i = .both → q.c i + (q.J *ᵥ dense n d) i = q.ub i := fun hb => by
      rw [if_neg (by rw [← hst, hb]; decide), hu, hc] at hk'
      rw [hk', add_sub_cancel]
    constructor
    · rintro (hs | hs)
      · rw [if_pos (by rw [← hst, hs]), hl, hc] at hk'
        rw [hk', add_sub_cancel]
        exact close_self he _
      · rw [both hs, tight hs]
        exact close_self he _
    · rintro (hs | hs)
      · rw [if_neg (by rw [← hst, hs]; decide), hu, hc] at hk'
        rw [hk', add_sub_cancel]
        exact close_self he _
      · rw [both hs]
        exact close_self he _
  · have hin : w.consState i = .inactive := (h.cout i i.isLt fun e hel hh => hex ⟨e, hel, hh⟩).2
    constructor <;> rintro (hs | hs) <;> rw [hin] at hs <;> exact absurd hs (by decide)

/-- C131: the Newton direction passes the check of its derivative parts without losing memory; the part added to the step
towards the working set is orthogonal to that step, as the debug build asserts; if the step towards the
working set is reported to reach it, the Newton direction passes the check of the working set as well.
This is for `zero_eps = 0`; a positive drop tolerance is missing. -/
theorem C131_newton_partial {w : WSet} {l : List WEntry} (h : WRep n m w l) (ho : w.Ordered) {p : Bounds K}
    (hp : p.Sized n m) (ht : Tight p l) {it : Iterate K} (hf : it.Fits n m p) {eps : K} (h0 : 0 ≤ eps) (he : eps ≤ 1 / 5)
    {d0 : Vec K} {solve : Vec K → Option (Vec K)} (hS : MinNormService solve n l it.consJac.value) {radius : K} (hr : 0 < radius)
    {old : WorkStep K} (hod : old.init.step.dim = n) (hom : old.multipliers.dim = m) {q : LocalModel n m K} (hq : IterFor q p it)
    (hsym : q.Hᵀ = q.H) {e : TrEnv K} (hE : NewtonFor q l it.consJac.value e) {s : WorkStep K}
    (hs : workStep solve e.sqrt eps 0 radius w p it d0 old = some s) (fuel : Nat) {hess tr : Vec K} (htr : tr.WF ∧ tr.dim = n)
    {out : Dir K} (o1 : out.primal.dim = n) (o2 : out.consJac.WF ∧ out.consJac.dim = m) (o3 : out.hess.WF ∧ out.hess.dim = n) {D : Dir K}
    (hD : newtonDirection e fuel m q.penalty it.objGrad it.consJac s hess tr out = some D) {tol : K} (htol : 0 ≤ tol)
    {hp' : Vec K → Vec K → Option (Vec K)} (hh : HessFor q hp') :
    D.check n m it.objGrad it.consJac hp' 0 tol = some ⟨true, 0⟩ ∧
      ∑ j ∈ Finset.range n, s.init.step.value j * (D.primal.value j - s.init.step.value j) = 0 ∧
      (s.init.inWorkingSet = true → inWorkingSet it.consJac D.primal p.consLb it.consVal p.consUb w eps = some true) := by
  obtain ⟨D1, -, D2, -, -⟩ := C70_direction_partial h ho hp ht hf h0 he hS hr hod hom hq hsym hE hs fuel htr o1 o2 o3 hD
  have hgrad : VOk n it.objGrad := ⟨hf.wg, hf.dg⟩
  refine ⟨?_, ?_⟩
  · obtain ⟨v, v1, v2, v3, -⟩ := C131_direction_valid q D it.objGrad it.consJac hp' 0 tol htol D1.okP D1.okC D1.okH hgrad hq.g
      hf.wj hf.cols hq.J hh
    have hv : v.valid = true := by
      refine v2.2 ⟨?_, fun i => ?_, fun i => ?_⟩
      · rw [D1.grad, dotProduct_comm]; exact close_self htol _
      · have hz : cutSmall 0 ((q.J *ᵥ dense n D.primal) i) = dense m D.consJac i := by
          rw [D1.jac]
          unfold cutSmall
          split
          · rename_i hle; exact (abs_nonpos_iff.1 hle).symm
          · rfl
        rw [hz]; exact close_self htol _
      · rw [D1.hess]; exact close_self htol _
    rw [v1, ← v3 hv, ← hv]
  · obtain ⟨s', w1, w2, w3, w4, -⟩ := C69_work_step h ho hp ht hf h0 he le_rfl d0 hS hE.sqrt hr hod hom
    rw [hs] at w1
    obtain rfl := Option.some.inj w1
    obtain ⟨r, d, s', a, r1, r2, r3, -, -, -, -, r8, -, r10, r11, -, -⟩ := C69_newton_in_region h ho hp ht hf.vars.wc hf.vars.dc
      hf.cons.wc hf.cons.dc h0 he (le_refl (0 : K)) d0 old.rhs hS hE.sqrt hr hod
    obtain ⟨r', t1, t2, t3, -⟩ := C69_rhs h ho hp ht hf.vars.wc hf.vars.dc hf.cons.wc hf.cons.dc h0 (le_refl (0 : K)) d0 old.rhs
    rw [w2] at r1 t1
    obtain rfl := Option.some.inj r1
    obtain rfl := Option.some.inj t1
    obtain ⟨d', d1, -, -, dm⟩ := hS _ t2 t3
    rw [w3] at r2 d1
    obtain rfl := Option.some.inj r2
    obtain rfl := Option.some.inj d1
    rw [w4] at r3
    obtain rfl := Option.some.inj r3
    refine ⟨?_, fun hin => ?_⟩
    · have hv := dm.orthogonal (v := fun j => D.primal.value j - s.init.step.value j) fun k hk => by
        have hrow : ∀ j, workMat l it.consJac.value k j = l[k].gradient it.consJac.value j := fun j => by
          unfold workMat; rw [List.getElem?_eq_getElem hk]; rfl
        have e := D2 k hk
        rw [← sub_eq_zero, ← Finset.sum_sub_distrib] at e
        rw [← e]
        exact Finset.sum_congr rfl fun j _ => by rw [hrow, mul_sub]
      have e2 : ∑ j ∈ Finset.range n, s.init.step.value j * (D.primal.value j - s.init.step.value j) =
          a * ∑ j ∈ Finset.range n, s.direction.value j * (D.primal.value j - s.init.step.value j) := by
        rw [Finset.mul_sum]
        exact Finset.sum_congr rfl fun j _ => by rw [← mul_assoc, ← r10 j]
      rw [e2, hv, mul_zero]
    · have ha := r8 hin
      obtain ⟨b, b1, b2, -⟩ := C131_working_set_partial q it.consJac D.primal p.consLb it.consVal p.consUb w eps D1.okP
        ⟨hp.wcl, hp.dcl⟩ ⟨hf.cons.wc, hf.cons.dc⟩ ⟨hp.wcu, hp.dcu⟩ hq.lb hq.c hq.ub hf.wj hf.cols hq.J
      rw [b1, b2 (keeps_of_gap h ht hq h0 fun k hk => ?_)]
      rw [D2 k hk]
      have := r11 k hk
      have hz : dropSmall 0 (l[k].gap p it.primal.value it.consVal.value) = l[k].gap p it.primal.value it.consVal.value := by
        unfold dropSmall
        split
        · rename_i hle; exact (abs_nonpos_iff.1 hle).symm
        · rfl
      rw [hz] at this
      rw [← this]
      exact Finset.sum_congr rfl fun j _ => by rw [r10 j, ha, one_mul]

/-- the hypotheses of `C131_newton_partial` hold, with a step reported to reach the working set -/
example : ∃ (w : WSet) (D : Dir ℝ), WRep 2 1 w [⟨true, 0, .upper⟩] ∧
    D.check 2 1 exNewtonIter.objGrad exNewtonJac (fun d _ => some d) 0 (1 / 10 ^ 6) = some ⟨true, 0⟩ ∧
    inWorkingSet exNewtonJac D.primal exNewtonBounds.consLb exNewtonIter.consVal exNewtonBounds.consUb w (1 / 10) = some true := by
  obtain ⟨w, -, h⟩ := wrep_addCons (wrep_create 2 1 fun _ => 0) (i := 0) (st := .upper) (by omega) (by simp) (by decide)
  have ho : w.Ordered := by
    have hsz : w.size = 1 := h.size
    intro k k' h1 h2
    omega
  obtain ⟨hp, ht, hf, hq⟩ := exNewtonHyps
  have wf0 : ∀ k c, (⟨k, c, []⟩ : Vec ℝ).WF := fun k c => ⟨List.Pairwise.nil, by simp, by simp⟩
  obtain ⟨s, hs, w2, w3, w4, -⟩ := C69_work_step h ho hp ht hf (eps := 1 / 10) (by norm_num) (by norm_num) le_rfl ⟨2, 0, []⟩ exNewtonMin
    real_sqrt_spec (radius := 10) (by norm_num)
    (old := ⟨⟨0, 0, []⟩, ⟨0, 0, []⟩, ⟨⟨2, 0, []⟩, 0, false⟩, 0, ⟨1, 0, []⟩, ⟨1, 0, []⟩, ⟨1, 0, []⟩⟩) rfl rfl
  have hsym : exNewtonModel.Hᵀ = exNewtonModel.H := by simp [exNewtonModel]
  obtain ⟨D, hD, -⟩ := C70_stationary_partial h ho hp ht hf (eps := 1 / 10) (by norm_num) (by norm_num) exNewtonMin (radius := 10)
    (by norm_num) rfl rfl hq hsym exNewtonFor ⟨Or.inl rfl, fun _ => rfl⟩ hs ⟨2, 0, []⟩ (tr := ⟨2, 0, []⟩) ⟨wf0 _ _, rfl⟩
    (out := Dir.create 2 1) rfl ⟨wf0 _ _, rfl⟩ ⟨wf0 _ _, rfl⟩
  have key := C131_newton_partial h ho hp ht hf (eps := 1 / 10) (by norm_num) (by norm_num) exNewtonMin (radius := 10) (by norm_num)
    rfl rfl hq hsym exNewtonFor hs 3 (hess := ⟨2, 0, []⟩) (tr := ⟨2, 0, []⟩) ⟨wf0 _ _, rfl⟩ (out := Dir.create 2 1) rfl
    ⟨wf0 _ _, rfl⟩ ⟨wf0 _ _, rfl⟩ hD (tol := 1 / 10 ^ 6) (by norm_num) (hp' := fun d _ => some d)
    (fun d r hd _ => ⟨d, rfl, hd, by simp [exNewtonModel]⟩)
  refine ⟨w, D, h, key.1, key.2.2 ?_⟩
  obtain ⟨r, r1, r2, r3, r4⟩ := C69_rhs h ho hp ht hf.vars.wc hf.vars.dc hf.cons.wc hf.cons.dc (eps := 1 / 10) (by norm_num)
    (le_refl (0 : ℝ)) ⟨2, 0, []⟩ ⟨0, 0, []⟩
  rw [w2] at r1
  obtain rfl := Option.some.inj r1
  obtain ⟨d, d1, d2, d3, d4, d5⟩ := exNewtonMin _ r2 r3
  obtain rfl : s.direction = d := Option.some.inj (w3.symm.trans d1)
  obtain ⟨s', a, t1, -, -, -, -, -, -, -, -, t9⟩ := C69_radius (n := 2) real_sqrt_spec (eps := 1 / 10) (radius := 10) (by norm_num)
    (by norm_num) (by norm_num) d2 d3 (out := ⟨2, 0, []⟩) rfl
  have e4 : initialStep Real.sqrt (1 / 10) 10 s.direction ⟨2, 0, []⟩ = some s.init := w4
  rw [e4] at t1
  obtain rfl := Option.some.inj t1
  by_contra hc
  have hlen := (t9 (by simpa using hc)).2
  have hy := d5 (fun j => if j = 0 then s.rhs.value 0 else 0) (by
    intro k hk
    obtain rfl : k = 0 := by simp at hk; omega
    simp [workMat, WEntry.gradient, Finset.sum_range_succ, exJac_val])
  have hgap : s.rhs.value 0 = -2 := by
    have hg := r4 0 (by simp)
    simp only [List.nil_append, List.getElem_cons_zero] at hg
    rw [hg]
    norm_num [WEntry.gap, dropSmall, exNewtonBounds, exNewtonIter, Vec.value, valAt, at?, orZero,
      show ¬ ActiveState.upper = ActiveState.lower from by decide]
  simp only [Finset.sum_range_succ, Finset.sum_range_zero, hgap] at hy hlen
  norm_num at hy hlen
  linarith

end Sleqp
