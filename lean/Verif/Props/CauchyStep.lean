import Verif.Lemmas.CauchyStepEx
import Verif.Props.CauchyLp

/-! C76: the Cauchy direction and the penalty parameter. -/

namespace Sleqp
open Finset
variable {K : Type*} [Field K] [LinearOrder K] [IsStrictOrderedRing K]
variable {e : LpEnv K} {J0 : Nat → Nat → K} {s0 : CauchyLp K} {c : LpCalls K} {t t' : CauchyDir K} {tol feasTol b : K}

/-- norm of the multipliers of the iterate -/
def CauchyDir.dualNorm (t : CauchyDir K) : K := max t.iterate.consDual.infNorm t.iterate.varsDual.infNorm

/-- everything before the update of the penalty parameter -/
theorem compute_first (hb : LpBounds e) (hnf : NoFixed e) (hc : c.Correct e.inf) (ht : t.Ok e J0 s0) {s1 : CauchyLp K} {it' : Iterate K}
    {s2 : CauchyLp K} {bc : Option BasisCall} (h1 : t.cauchy.setIterate e t.iterate t.radius = some (s1, it'))
    (h2 : s1.solve e c.main c.red (some it'.objGrad) t.penalty .default = some (s2, bc)) :
    ∃ J' s3 d w qs l, it' = { t.iterate with consJac := J' } ∧ SameMat e.numVars e.numCons t.iterate.consJac J' ∧
      LpAfter e J0 s0 t.iterate t.radius (some t.iterate.objGrad) t.penalty .default [] s2 ∧
      ({ t with cauchy := s2, iterate := it' } : CauchyDir K).fetch e = some { t with cauchy := s3, iterate := it', step := d, work := w } ∧
      CauchyDirFor e t.iterate t.radius t.penalty d w s2.answer.primal ∧
      LpAfter e J0 s0 t.iterate t.radius (some t.iterate.objGrad) t.penalty .default qs s3 ∧ .violation ∉ qs ∧ s3.answer = s2.answer ∧
      s3.sol = s2.sol ∧ WRep e.numVars e.numCons w l := by
  obtain ⟨cur, hcur⟩ := ht.cauchy
  obtain ⟨i1, i2, i3, i4⟩ := ht.iterate
  have hbase : LpBase e J0 t.cauchy := by
    obtain ⟨ops, o1, o2, o3⟩ := hcur
    exact (lpHist_run hb o1 lpHist_create o3).base
  obtain ⟨s1', J', a1, a2, -⟩ := setIterate_spec hb i1 i2 i3 hbase i4
  rw [h1] at a1
  injection a1 with a1; injection a1 with e1 e2
  subst e1
  have hat := at_setIterate hcur ht.iterate h1
  have hg : it'.objGrad = t.iterate.objGrad := by rw [e2]
  rw [hg] at h2
  have haf := after_solve hb hat (grad := some t.iterate.objGrad)
    ⟨hc.main, hc.red, fun g hg' => by injection hg' with hg'; rw [← hg']; exact ht.grad, ht.penalty.le⟩ h2
  obtain ⟨l0, hl0⟩ := ht.work
  obtain ⟨s3, d, w, qs, f1, f2, f3, f4, f5, f6, f7⟩ := fetch_spec (t := { t with cauchy := s2, iterate := it' }) hb hnf haf (.inr (by simp)) ht.far (by rw [e2]) hl0
  obtain ⟨l, hl, -⟩ := f2.work
  exact ⟨J', s3, d, w, qs, l, e2, a2, haf, f1, f2, f3, f4 (by simp), by unfold CauchyLp.answer; rw [f5, f6, f7], f6, hl⟩

/-- the three cases of an update -/
theorem compute_spec (hb : LpBounds e) (hnf : NoFixed e) (hc : c.Correct e.inf) (ht : t.Ok e J0 s0)
    (h : t.compute e c tol feasTol = some (t', b)) :
    ∃ J' s2 s3 qs v, t'.iterate = { t.iterate with consJac := J' } ∧ SameMat e.numVars e.numCons t.iterate.consJac J' ∧
      LpAfter e J0 s0 t.iterate t.radius (some t.iterate.objGrad) t.penalty .default [] s2 ∧
      LpAfter e J0 s0 t.iterate t.radius (some t.iterate.objGrad) t.penalty .default qs s3 ∧ s3.sol = s2.sol ∧
      s2.objVal = some v ∧ b = (t.merit - v) / min t.radius 1 ∧
      ((e.numCons = 0 ∨ t.feasRes ≤ feasTol ∧ (t.allowReset = true → t.penalty ≤ 1000 * (t.dualNorm + 1))) ∧ t'.performedReset = false ∧
          t'.penalty = t.penalty ∧ t'.merit = t.merit ∧ t'.cauchy = s3 ∧ CauchyDirFor e t.iterate t.radius t.penalty t'.step t'.work s2.answer.primal ∨
        0 < e.numCons ∧ t.feasRes ≤ feasTol ∧ t.allowReset = true ∧ 1000 * (t.dualNorm + 1) < t.penalty ∧ t'.performedReset = true ∧
          t'.penalty = t.dualNorm + 10 ∧ meritFunc e.numCons e.bounds t.iterate t'.penalty = some t'.merit ∧ LpAt e J0 s0 (some (t.iterate, t.radius)) t'.cauchy ∧
          CauchyDirFor e t.iterate t.radius t.penalty t'.step t'.work s2.answer.primal ∨
        0 < e.numCons ∧ feasTol < t.feasRes ∧ t'.performedReset = false ∧ ∃ s4 p, lpUpdatePenalty e c tol t.iterate.objGrad s3 t.penalty = some (s4, p) ∧
          (p = t.penalty ∧ t'.penalty = t.penalty ∧ t'.merit = t.merit ∧ t'.cauchy = s4 ∧ CauchyDirFor e t.iterate t.radius t.penalty t'.step t'.work s2.answer.primal ∨
            p ≠ t.penalty ∧ t'.penalty = p ∧ meritFunc e.numCons e.bounds t.iterate p = some t'.merit ∧ LpAt e J0 s0 (some (t.iterate, t.radius)) t'.cauchy ∧
              CauchyDirFor e t.iterate t.radius p t'.step t'.work s4.sol.primal)) := by
  unfold CauchyDir.compute at h
  obtain ⟨⟨s1, it'⟩, h1, h⟩ := Option.bind_eq_some_iff.mp h
  obtain ⟨⟨s2, bc⟩, h2, h⟩ := Option.bind_eq_some_iff.mp h
  obtain ⟨v, h3, h⟩ := Option.bind_eq_some_iff.mp h
  obtain ⟨t1, h4, h⟩ := Option.bind_eq_some_iff.mp h
  obtain ⟨t2, h5, h⟩ := Option.bind_eq_some_iff.mp h
  obtain ⟨J', s3, d, w, qs, l, a1, a2, a3, a4, a5, a6, a7, a8, a9, a10⟩ := compute_first hb hnf hc ht h1 h2
  dsimp only at h3 h4
  have : t1 = { t with cauchy := s3, iterate := it', step := d, work := w } := by rw [h4] at a4; injection a4
  subst this
  have hmf : ∀ p, meritFunc e.numCons e.bounds it' p = meritFunc e.numCons e.bounds t.iterate p := fun p => by rw [a1]; rfl
  have hdn : max it'.consDual.infNorm it'.varsDual.infNorm = t.dualNorm := by rw [a1]; rfl
  have hdn0 : 0 ≤ t.dualNorm := le_max_of_le_left (infNorm_nonneg _)
  -- an unchanged penalty parameter
  have hsame : ∀ {s4 : CauchyLp K}, t2 = { t with cauchy := s4, iterate := it', step := d, work := w } →
      t'.iterate = it' ∧ b = (t.merit - v) / min t.radius 1 ∧ t'.performedReset = false ∧ t'.penalty = t.penalty ∧ t'.merit = t.merit ∧ t'.cauchy = s4 ∧
        CauchyDirFor e t.iterate t.radius t.penalty t'.step t'.work s2.answer.primal := by
    intro s4 hs4
    rw [if_neg (by rw [hs4]; exact fun hn => hn rfl)] at h
    injection h with h; injection h with e1 e2
    rw [← e1, hs4]
    exact ⟨rfl, e2.symm, ht.reset, rfl, rfl, rfl, a5⟩
  unfold CauchyDir.updatePenalty at h5
  split at h5
  · rename_i hm
    injection h5 with h5
    obtain ⟨g1, g2, g3, g4, g5, g6, g7⟩ := hsame h5.symm
    exact ⟨J', s2, s3, qs, v, g1.trans a1, a2, a3, a6, a9, h3, g2, .inl ⟨.inl hm, g3, g4, g5, g6, g7⟩⟩
  rename_i hm
  have hm' : 0 < e.numCons := Nat.pos_of_ne_zero hm
  split at h5
  · rename_i hfeas
    split at h5
    · rename_i hallow
      dsimp only at h5
      rw [hdn] at h5
      split at h5
      · rename_i hbig
        injection h5 with h5
        have hlt : t.dualNorm + 10 < t.penalty := by linarith
        rw [if_pos (by rw [← h5]; exact hlt.ne')] at h
        obtain ⟨t3, h6, h⟩ := Option.bind_eq_some_iff.mp h
        obtain ⟨m, h7, h⟩ := Option.map_eq_some_iff.mp h
        have hf : LpAfter e J0 s0 t.iterate t.radius (some t.iterate.objGrad) t.penalty .default qs t2.cauchy := by rw [← h5]; exact a6
        obtain ⟨s5, d', w', qs', f1, f2, f3, f4, f5, f6, f7⟩ := fetch_spec hb hnf hf (.inr a7) ht.far (by rw [← h5]; show it'.primal = _; rw [a1])
          (l0 := l) (by rw [← h5]; exact a10)
        rw [f1] at h6
        injection h6 with h6
        injection h with h8 h9
        rw [← h6] at h7 h8
        rw [← h8]
        refine ⟨J', s2, s3, qs, v, by rw [← h5]; exact a1, a2, a3, a6, a9, h3, h9.symm, .inr (.inl ⟨hm', hfeas, hallow, hbig, ?_, ?_, ?_, after_at f3, ?_⟩)⟩
        · show t2.performedReset = true; rw [← h5]
        · show t2.penalty = _; rw [← h5]
        · rw [← hmf]
          have : t2.iterate = it' := by rw [← h5]
          rw [← this]; exact h7
        · have : t2.cauchy.answer = s2.answer := by rw [← h5]; exact a8
          rw [this] at f2; exact f2
      · rename_i hsmall
        injection h5 with h5
        obtain ⟨g1, g2, g3, g4, g5, g6, g7⟩ := hsame h5.symm
        exact ⟨J', s2, s3, qs, v, g1.trans a1, a2, a3, a6, a9, h3, g2, .inl ⟨.inr ⟨hfeas, fun _ => not_lt.mp hsmall⟩, g3, g4, g5, g6, g7⟩⟩
    · rename_i hallow
      injection h5 with h5
      obtain ⟨g1, g2, g3, g4, g5, g6, g7⟩ := hsame h5.symm
      exact ⟨J', s2, s3, qs, v, g1.trans a1, a2, a3, a6, a9, h3, g2, .inl ⟨.inr ⟨hfeas, fun hc => absurd hc hallow⟩, g3, g4, g5, g6, g7⟩⟩
  · rename_i hfeas
    obtain ⟨⟨s4, p⟩, h6, h5⟩ := Option.map_eq_some_iff.mp h5
    dsimp only at h6 h5
    have hg : it'.objGrad = t.iterate.objGrad := by rw [a1]
    rw [hg] at h6
    by_cases hpp : p = t.penalty
    · obtain ⟨g1, g2, g3, g4, g5, g6, g7⟩ := hsame (s4 := s4) (by rw [← h5, hpp])
      exact ⟨J', s2, s3, qs, v, g1.trans a1, a2, a3, a6, a9, h3, g2, .inr (.inr ⟨hm', not_le.mp hfeas, g3, s4, p, h6, .inl ⟨hpp, g4, g5, g6, g7⟩⟩)⟩
    · rw [if_pos (by rw [← h5]; exact fun hn => hpp hn.symm)] at h
      obtain ⟨t3, h7, h⟩ := Option.bind_eq_some_iff.mp h
      obtain ⟨m, h8, h⟩ := Option.map_eq_some_iff.mp h
      obtain ⟨-, n, n1, n2, n3⟩ := lpUpdatePenalty_spec hb hc ht.grad a6 ht.penalty h6
      have hn : 0 < n := by
        rcases Nat.eq_zero_or_pos n with c | c
        · exact absurd (by rw [n2, c]; simp) hpp
        · exact c
      rcases n3 with ⟨n3, -⟩ | ⟨-, -, -, -, n3, -⟩
      · omega
      obtain ⟨qs4, hq4⟩ := n3 hn
      have hred : s4.useReduced = false := by
        by_contra hcon
        obtain ⟨-, x, -⟩ := after_solved hb hq4
        exact absurd (x.mode (by simpa using hcon)).2 (by decide)
      have hf : LpAfter e J0 s0 t.iterate t.radius (some t.iterate.objGrad) p .mixed qs4 t2.cauchy := by rw [← h5]; exact hq4
      obtain ⟨s5, d', w', qs', f1, f2, f3, f4, f5, f6, f7⟩ := fetch_spec hb hnf hf (.inl (by rw [← h5]; exact hred)) ht.far
        (by rw [← h5]; show it'.primal = _; rw [a1]) (l0 := l) (by rw [← h5]; exact a10)
      rw [f1] at h7
      injection h7 with h7
      injection h with h9 h10
      rw [← h7] at h8 h9
      rw [← h9]
      refine ⟨J', s2, s3, qs, v, by rw [← h5]; exact a1, a2, a3, a6, a9, h3, h10.symm, .inr (.inr ⟨hm', not_le.mp hfeas, ?_, s4, p, h6, .inr ⟨hpp, ?_, ?_, after_at f3, ?_⟩⟩)⟩
      · show t2.performedReset = false; rw [← h5]; exact ht.reset
      · show t2.penalty = _; rw [← h5]
      · rw [← hmf]
        have e1 : t2.iterate = it' := by rw [← h5]
        have e2 : t2.penalty = p := by rw [← h5]
        rw [← e1, ← e2]; exact h8
      · have : t2.cauchy.answer = s4.sol := by
          rw [← h5]
          show s4.answer = _
          unfold CauchyLp.answer; rw [hred]; rfl
        rw [this] at f2; exact f2

/-- C76. After any history, the Cauchy direction is computed as follows. The step minimises the linear model of the penalty function in the trust region, up to dropped
values; the working set is valid, with linearly independent gradients, and its entries are met at this minimiser. This holds for the penalty parameter the
direction is returned with, which is positive, unless it was reset. The merit value kept is that of this penalty parameter. The iterate is changed
only in the storage of its Jacobian, and the state of the LP-based solver is one to which this theorem applies again.
Missing: after a reset, step and working set belong to the penalty parameter before, see `C76_reset_violated`. Problems with variables of equal bounds, see
`C74_fixed_violated`. -/
theorem C76_direction_partial (hb : LpBounds e) (hnf : NoFixed e) (hc : c.Correct e.inf) (ht : t.Ok e J0 s0)
    (h : t.compute e c tol feasTol = some (t', b)) :
    (∃ p, CauchyDirFor e t.iterate t.radius (if t'.performedReset then t.penalty else t'.penalty) t'.step t'.work p) ∧ 0 < t'.penalty ∧
      meritFunc e.numCons e.bounds t.iterate t'.penalty = some t'.merit ∧
      (∃ J', t'.iterate = { t.iterate with consJac := J' } ∧ SameMat e.numVars e.numCons t.iterate.consJac J') ∧
      LpAt e J0 s0 (some (t.iterate, t.radius)) t'.cauchy := by
  obtain ⟨J', s2, s3, qs, v, h1, h2, h3, h4, h5, h6, h7, h8⟩ := compute_spec hb hnf hc ht h
  rcases h8 with ⟨-, g1, g2, g3, g4, g5⟩ | ⟨-, -, -, -, g1, g2, g3, g4, g5⟩ | ⟨-, -, g1, s4, p, g2, g⟩
  · rw [g1, if_neg (by decide), g2, g3, g4]
    exact ⟨⟨_, g5⟩, ht.penalty, ht.merit, ⟨J', h1, h2⟩, after_at h4⟩
  · rw [g1, if_pos rfl]
    have : 0 ≤ t.dualNorm := le_max_of_le_left (infNorm_nonneg _)
    exact ⟨⟨_, g5⟩, by rw [g2]; linarith, g3, ⟨J', h1, h2⟩, g4⟩
  · obtain ⟨m1, n, n1, n2, n3⟩ := lpUpdatePenalty_spec hb hc ht.grad h4 ht.penalty g2
    rw [g1, if_neg (by decide)]
    rcases g with ⟨-, k2, k3, k4, k5⟩ | ⟨k1, k2, k3, k4, k5⟩
    · rw [k2, k3, k4]
      exact ⟨⟨_, k5⟩, ht.penalty, ht.merit, ⟨J', h1, h2⟩, m1⟩
    · rw [k2]
      have := ht.penalty
      exact ⟨⟨_, k5⟩, by rw [n2]; positivity, k3, ⟨J', h1, h2⟩, k4⟩

/-- C76. In particular, the step does not increase the linear model of the penalty function. (Missing: after a reset it may, see `C76_reset_violated`.) -/
theorem C76_descent_partial (hb : LpBounds e) (hnf : NoFixed e) (hc : c.Correct e.inf) (ht : t.Ok e J0 s0) (hz : e.zeroEps = 0)
    (h : t.compute e c tol feasTol = some (t', b)) (hr : t'.performedReset = false) :
    t.iterate.objVal + linModel e t.iterate (some t.iterate.objGrad) t'.penalty t'.step.value ≤ t'.merit := by
  obtain ⟨⟨p, hp⟩, -, hm, -⟩ := C76_direction_partial hb hnf hc ht h
  rw [hr, if_neg (by decide)] at hp
  rw [meritFunc_lin hb ht.iterate.1] at hm
  injection hm with hm
  have h1 := hp.opt.2 _ (inRegion_zero ht.iterate.1 ht.iterate.2.1)
  have h2 : linModel e t.iterate (some t.iterate.objGrad) t'.penalty t'.step.value = linModel e t.iterate (some t.iterate.objGrad) t'.penalty p := by
    refine linModel_congr fun j hj => ?_
    rw [hp.step.2.2 j hj, hz]
    unfold dropSmall
    split
    · rename_i hle
      exact (abs_eq_zero.mp (le_antisymm hle (abs_nonneg _))).symm
    · rfl
  have h3 : linModel e t.iterate (some t.iterate.objGrad) t'.penalty (fun _ => 0) = t'.penalty * linViol e t.iterate fun _ => 0 := by
    unfold linModel gradPart; simp
  rw [h2, ← hm]
  linarith

/-- C76. When and how the penalty parameter changes. At feasible iterates it is kept, or, if a reset is allowed and it is larger than `1000 (‖multipliers‖ + 1)`, reset to
`‖multipliers‖ + 10`, which is smaller. At others it grows by `10 ^ n` with `n ≤ 100`: not at all if the average violation at the step for the old
penalty parameter is negligible, or exceeds the smallest one possible in the trust region, itself not negligible, only negligibly. Otherwise
the step returned reaches the goal of the update, namely a negligible violation if there is a step with one, or a tenth of the greatest possible reduction,
and the penalty parameter before the last increase did not, unless all increases were made. -/
theorem C76_penalty (hb : LpBounds e) (hnf : NoFixed e) (hc : c.Correct e.inf) (ht : t.Ok e J0 s0) (h : t.compute e c tol feasTol = some (t', b)) :
    (e.numCons = 0 → t'.penalty = t.penalty ∧ t'.performedReset = false) ∧
    (0 < e.numCons → t.feasRes ≤ feasTol → (if t.allowReset ∧ 1000 * (t.dualNorm + 1) < t.penalty then
        t'.penalty = t.dualNorm + 10 ∧ t'.penalty < t.penalty ∧ t'.performedReset = true else t'.penalty = t.penalty ∧ t'.performedReset = false)) ∧
    (0 < e.numCons → feasTol < t.feasRes → t'.performedReset = false ∧ ∃ n ≤ 100, ∃ q, OptStep e t.iterate t.radius (some t.iterate.objGrad) t.penalty q ∧
      t'.penalty = t.penalty * 10 ^ n ∧
      (n = 0 ∧ linViol e t.iterate q / e.numCons ≤ tol ∨ tol < linViol e t.iterate q / e.numCons ∧ ∃ v, MinViol e t.iterate t.radius v ∧
        (n = 0 ↔ tol < v / e.numCons ∧ linViol e t.iterate q / e.numCons - v / e.numCons ≤ tol) ∧
        (0 < n → n < 100 → ∃ p, CauchyDirFor e t.iterate t.radius t'.penalty t'.step t'.work p ∧
          PenaltyGoal tol (linViol e t.iterate q / e.numCons) (v / e.numCons) (linViol e t.iterate p / e.numCons)) ∧
        ∀ i, i + 1 < n → ∃ p, OptStep e t.iterate t.radius (some t.iterate.objGrad) (t.penalty * 10 ^ (i + 1)) p ∧
          ¬ PenaltyGoal tol (linViol e t.iterate q / e.numCons) (v / e.numCons) (linViol e t.iterate p / e.numCons))) := by
  obtain ⟨J', s2, s3, qs, v, h1, h2, h3, h4, h5, h6, h7, h8⟩ := compute_spec hb hnf hc ht h
  rcases h8 with ⟨g0, g1, g2, g3, g4, g5⟩ | ⟨m1, m2, m3, m4, g1, g2, g3, g4, g5⟩ | ⟨m1, m2, g1, s4, p, g2, g⟩
  · refine ⟨fun _ => ⟨g2, g1⟩, fun hm _ => ?_, fun hm hf => ?_⟩
    · rcases g0 with g0 | ⟨g0, g0'⟩
      · omega
      · rw [if_neg (fun hh => absurd (g0' hh.1) (not_le.mpr hh.2))]; exact ⟨g2, g1⟩
    · rcases g0 with g0 | ⟨g0, g0'⟩
      · omega
      · exact absurd g0 (not_le.mpr hf)
  · refine ⟨fun hm => by omega, fun hm _ => ?_, fun hm hf => absurd m2 (not_le.mpr hf)⟩
    rw [if_pos ⟨m3, m4⟩]
    have : 0 ≤ t.dualNorm := le_max_of_le_left (infNorm_nonneg _)
    exact ⟨g2, by rw [g2]; linarith, g1⟩
  · refine ⟨fun hm => by omega, fun hm hf => absurd hf (not_le.mpr m2), fun _ _ => ⟨g1, ?_⟩⟩
    obtain ⟨k1, n, n1, n2, n3⟩ := lpUpdatePenalty_spec hb hc ht.grad h4 ht.penalty g2
    obtain ⟨hsol, -, -, hp0⟩ := after_solved hb h4
    have hpen : t'.penalty = p := by
      rcases g with ⟨c1, c2, -⟩ | ⟨-, c2, -⟩
      · rw [c2, c1]
      · exact c2
    refine ⟨n, n1, s3.sol.primal, (solved_opt hb hp0 hsol).1, hpen.trans n2, ?_⟩
    rcases n3 with n3 | ⟨l1, v', l2, l3, l4, l5, l6⟩
    · exact .inl n3
    · refine .inr ⟨l1, v', l2, l3, fun hn hlt => ?_, l6⟩
      rcases g with ⟨c1, -⟩ | ⟨-, c2, -, -, c5⟩
      · exfalso
        rw [c1] at n2
        have h10 : (1 : K) < 10 ^ n := one_lt_pow₀ (by norm_num) (by omega)
        have := mul_lt_mul_of_pos_left h10 ht.penalty
        rw [mul_one, ← n2] at this
        exact lt_irrefl _ this
      · rw [c2]
        exact ⟨_, c5, l5 hn hlt⟩

/-- C76. The criticality bound is not negative, and zero exactly if the zero step minimises the linear model. -/
theorem C76_criticality (hb : LpBounds e) (hnf : NoFixed e) (hc : c.Correct e.inf) (ht : t.Ok e J0 s0) (h : t.compute e c tol feasTol = some (t', b)) :
    0 ≤ b ∧ (b = 0 ↔ OptStep e t.iterate t.radius (some t.iterate.objGrad) t.penalty fun _ => 0) := by
  obtain ⟨J', s2, s3, qs, v, h1, h2, h3, h4, h5, h6, h7, h8⟩ := compute_spec hb hnf hc ht h
  obtain ⟨ops, S, S', o1, o2, o3, o4, o5⟩ := h3
  obtain ⟨r1, r2⟩ := C73_reduction hb o1 o2 o3 o4 o5 h6
  have hm := ht.merit
  rw [meritFunc_lin hb ht.iterate.1] at hm
  injection hm with hm
  rw [hm] at r1 r2
  have hpos : 0 < min t.radius 1 := lt_min ht.iterate.2.1 one_pos
  rw [h7]
  refine ⟨div_nonneg (by linarith) hpos.le, ?_⟩
  rw [div_eq_zero_iff, or_iff_left hpos.ne', sub_eq_zero, ← r2]
  exact eq_comm

/-- C76. With LP solvers that solve every feasible bounded linear program, no assert fails. (Missing: variables of equal bounds, see `C74_fixed_violated`.) -/
theorem C76_total_partial (hb : LpBounds e) (hnf : NoFixed e) (hc : c.Correct e.inf) (hC : c.Complete e.inf) (ht : t.Ok e J0 s0) (tol feasTol : K) :
    ∃ t' b, t.compute e c tol feasTol = some (t', b) := by
  obtain ⟨cur, hcur⟩ := ht.cauchy
  obtain ⟨i1, i2, i3, i4⟩ := ht.iterate
  have hbase : LpBase e J0 t.cauchy := by
    obtain ⟨ops, o1, o2, o3⟩ := hcur
    exact (lpHist_run hb o1 lpHist_create o3).base
  have hgo : GradOk e (some t.iterate.objGrad) := fun g hg' => by injection hg' with hg'; rw [← hg']; exact ht.grad
  obtain ⟨s1, J', b1, -, hready⟩ := setIterate_spec hb i1 i2 i3 hbase i4
  obtain ⟨s2, bc, b2⟩ := solve_some hb hready hgo ht.penalty.le hc.main hC.main hC.red .default
  obtain ⟨J'', s3, d, w, qs, l, a1, a2, a3, a4, a5, a6, a7, a8, a9, a10⟩ := compute_first hb hnf hc ht b1 b2
  obtain ⟨v, hv⟩ : ∃ v, s2.objVal = some v := by
    obtain ⟨K', hK⟩ := (after_solved hb a3).1.iter
    exact ⟨_, by unfold CauchyLp.objVal; rw [hK.2]; rfl⟩
  unfold CauchyDir.compute
  rw [b1, Option.bind_some]
  dsimp only
  rw [b2, Option.bind_some, hv, Option.bind_some, a4, Option.bind_some]
  set t1 : CauchyDir K := { t with cauchy := s3, iterate := { t.iterate with consJac := J' }, step := d, work := w } with ht1
  -- the second reading
  have hfin : ∀ {t2 : CauchyDir K} {q : K} {o : LpObj} {qs' : List (LpOp K)}, t1.updatePenalty e c tol feasTol = some t2 →
      LpAfter e J0 s0 t.iterate t.radius (some t.iterate.objGrad) q o qs' t2.cauchy → t2.cauchy.useReduced = false ∨ .violation ∉ qs' →
      t2.iterate = t1.iterate → t2.work = w →
      ∃ t' b, ((t1.updatePenalty e c tol feasTol).bind fun t2 =>
        if t1.penalty ≠ t2.penalty then (t2.fetch e).bind fun t3 =>
          (meritFunc e.numCons e.bounds t3.iterate t3.penalty).map fun m => (({ t3 with merit := m } : CauchyDir K), (t.merit - v) / min t.radius 1)
        else some (t2, (t.merit - v) / min t.radius 1)) = some (t', b) := by
    intro t2 q o qs' e1 e2 e3 e4 e5
    rw [e1, Option.bind_some]
    split
    · obtain ⟨s5, d', w', qs'', f1, f2, -⟩ := fetch_spec hb hnf e2 e3 ht.far (by rw [e4]) (l0 := l) (by rw [e5]; exact a10)
      rw [f1, Option.bind_some]
      dsimp only
      have : ∀ p, meritFunc e.numCons e.bounds t2.iterate p = meritFunc e.numCons e.bounds t.iterate p := fun p => by rw [e4]; rfl
      rw [this, meritFunc_lin hb i1]
      exact ⟨_, _, rfl⟩
    · exact ⟨_, _, rfl⟩
  have hsome : ∀ {t2 : CauchyDir K}, t1.updatePenalty e c tol feasTol = some t2 → t1.penalty = t2.penalty →
      ∃ t' b, ((t1.updatePenalty e c tol feasTol).bind fun t2 =>
        if t1.penalty ≠ t2.penalty then (t2.fetch e).bind fun t3 =>
          (meritFunc e.numCons e.bounds t3.iterate t3.penalty).map fun m => (({ t3 with merit := m } : CauchyDir K), (t.merit - v) / min t.radius 1)
        else some (t2, (t.merit - v) / min t.radius 1)) = some (t', b) := by
    intro t2 e1 e2
    rw [e1, Option.bind_some, if_neg (not_not.mpr e2)]
    exact ⟨_, _, rfl⟩
  by_cases c1 : e.numCons = 0
  · exact hsome (t2 := t1) (by unfold CauchyDir.updatePenalty; rw [if_pos c1]) rfl
  by_cases c2 : t.feasRes ≤ feasTol
  · by_cases c3 : t.allowReset = true
    · by_cases c4 : t1.penalty > 1000 * (max t1.iterate.consDual.infNorm t1.iterate.varsDual.infNorm + 1)
      · exact hfin (t2 := { t1 with penalty := max t1.iterate.consDual.infNorm t1.iterate.varsDual.infNorm + 10, performedReset := true })
          (by unfold CauchyDir.updatePenalty; rw [if_neg c1, if_pos c2, if_pos c3]; dsimp only; rw [if_pos c4]) a6 (.inr a7) rfl rfl
      · exact hsome (t2 := t1) (by unfold CauchyDir.updatePenalty; rw [if_neg c1, if_pos c2, if_pos c3]; dsimp only; rw [if_neg c4]) rfl
    · exact hsome (t2 := t1) (by unfold CauchyDir.updatePenalty; rw [if_neg c1, if_pos c2, if_neg c3]) rfl
  · obtain ⟨s4, p, hup⟩ := lpUpdatePenalty_some (tol := tol) hb hc hC (Nat.pos_of_ne_zero c1) ht.grad a6 ht.penalty
    have hup' : t1.updatePenalty e c tol feasTol = some { t1 with cauchy := s4, penalty := p } := by
      unfold CauchyDir.updatePenalty
      rw [if_neg c1, if_neg c2]
      show (lpUpdatePenalty e c tol t.iterate.objGrad s3 t.penalty).map _ = _
      rw [hup]; rfl
    by_cases hpp : p = t.penalty
    · exact hsome hup' hpp.symm
    · obtain ⟨-, n, n1, n2, n3⟩ := lpUpdatePenalty_spec hb hc ht.grad a6 ht.penalty hup
      have hn : 0 < n := by
        rcases Nat.eq_zero_or_pos n with c | c
        · exact absurd (by rw [n2, c]; simp) hpp
        · exact c
      rcases n3 with ⟨n3, -⟩ | ⟨-, -, -, -, n3, -⟩
      · omega
      obtain ⟨qs4, hq4⟩ := n3 hn
      have hred : s4.useReduced = false := by
        by_contra hcon
        obtain ⟨-, x, -⟩ := after_solved hb hq4
        exact absurd (x.mode (by simpa using hcon)).2 (by decide)
      exact hfin hup' hq4 (.inl hred) rfl rfl

/-- C76 does not hold after a reset of the penalty parameter: step and working set are read again, but from the linear program for the penalty parameter before. Minimise
`100 x` for `10⁻⁷ ≤ x ≤ 5` at `x = 0`, feasible up to the tolerance, with penalty parameter `2000` and multipliers `0`: the penalty parameter is reset to `10`, and the step is
`10⁻⁷` as for `2000`, although `-1` minimises the linear model for `10`. The step increases this model over the value at the iterate, so that the
reduction of the model is negative. -/
theorem C76_reset_violated :
    LpBounds exResEnv ∧ NoFixed exResEnv ∧ exResCalls.Correct exResEnv.inf ∧ exResDir.Ok exResEnv (fun _ _ => 0) exLpState ∧
    ∃ t' b, exResDir.compute exResEnv exResCalls (1 / 10 ^ 8) (1 / 10 ^ 6) = some (t', b) ∧ t'.penalty = 10 ∧
      t'.merit < exResDir.iterate.objVal + linModel exResEnv exResDir.iterate (some exResDir.iterate.objGrad) t'.penalty t'.step.value ∧
      ¬ OptStep exResEnv exResDir.iterate exResDir.radius (some exResDir.iterate.objGrad) t'.penalty t'.step.value := by
  refine ⟨exResEnv_bounds, exResEnv_noFixed, exResCalls_correct, exResDir_ok, ?_⟩
  have : ((exResDir.compute exResEnv exResCalls (1 / 10 ^ 8) (1 / 10 ^ 6)).map fun r => (r.1.penalty, r.1.merit, r.1.step.value 0)) =
      some (10, 7 + 10 / 10 ^ 7, 1 / 10 ^ 7) := by decide +kernel
  obtain ⟨⟨t', b⟩, h1, h2⟩ := Option.map_eq_some_iff.mp this
  simp only [Prod.mk.injEq] at h2
  obtain ⟨e1, e2, e3⟩ := h2
  have hlin : ∀ d : Nat → ℚ, linViol exResEnv exResDir.iterate d = violInf 1000 (d 0) (1 / 10 ^ 7) 5 := by
    intro d
    unfold linViol
    show ∑ i ∈ range 1, _ = _
    rw [sum_range_one]
    unfold Iterate.lin
    show violInf 1000 (0 + ∑ j ∈ range 1, (1 : ℚ) * d j) _ _ = _
    rw [sum_range_one, one_mul, zero_add]
    rfl
  have hmodel : ∀ d : Nat → ℚ, linModel exResEnv exResDir.iterate (some exResDir.iterate.objGrad) 10 d =
      100 * d 0 + 10 * violInf 1000 (d 0) (1 / 10 ^ 7) 5 := by
    intro d
    unfold linModel
    rw [hlin]
    congr 1
    show ∑ j ∈ range 1, _ = _
    rw [sum_range_one]
    rfl
  have hv : linModel exResEnv exResDir.iterate (some exResDir.iterate.objGrad) 10 t'.step.value = 100 / 10 ^ 7 := by
    rw [hmodel, e3]; decide +kernel
  refine ⟨t', b, h1, e1, ?_, fun hopt => ?_⟩
  · rw [e1, e2, hv]
    show (7 : ℚ) + _ < 7 + _
    norm_num
  · rw [e1] at hopt
    have h0 := hopt.2 _ (inRegion_zero exResDir_ok.iterate.1 exResDir_ok.iterate.2.1)
    rw [hv, hmodel] at h0
    revert h0
    decide +kernel

/-! ### The hypotheses are met -/

/-- minimise `50 x` for `1/2 ≤ x ≤ 5`, at `0`: the penalty parameter grows from `10` to `100`, and the step from `-1` to `1/2` -/
example : ∃ t' b, exIncDir.compute exLpEnv exIncCalls (1 / 10 ^ 8) (1 / 10 ^ 6) = some (t', b) ∧ t'.penalty = 100 ∧ t'.step.ents = [(0, 1/2)] ∧ b = 40 ∧
    (∃ p, CauchyDirFor exLpEnv exIncDir.iterate 1 100 t'.step t'.work p) ∧
    exIncDir.iterate.objVal + linModel exLpEnv exIncDir.iterate (some exIncDir.iterate.objGrad) 100 t'.step.value ≤ t'.merit := by
  have : ((exIncDir.compute exLpEnv exIncCalls (1 / 10 ^ 8) (1 / 10 ^ 6)).map fun r => (r.1.penalty, r.1.step.ents, r.2, r.1.performedReset)) =
      some (100, [(0, 1/2)], 40, false) := by decide +kernel
  obtain ⟨⟨t', b⟩, h1, h2⟩ := Option.map_eq_some_iff.mp this
  simp only [Prod.mk.injEq] at h2
  obtain ⟨e1, e2, e3, e4⟩ := h2
  have a1 := (C76_direction_partial exLpEnv_bounds exLpEnv_noFixed exIncCalls_correct exIncDir_ok h1).1
  have a2 := C76_descent_partial exLpEnv_bounds exLpEnv_noFixed exIncCalls_correct exIncDir_ok rfl h1 e4
  rw [e4, if_neg (by decide), e1] at a1
  rw [e1] at a2
  exact ⟨t', b, h1, e1, e2, e3, a1, a2⟩

/-- `C76_penalty` and `C76_criticality` at this direction: the goal of the update is reached by the step returned -/
example : ∃ t' b q v p, exIncDir.compute exLpEnv exIncCalls (1 / 10 ^ 8) (1 / 10 ^ 6) = some (t', b) ∧ 0 ≤ b ∧
    OptStep exLpEnv exIncDir.iterate 1 (some exIncDir.iterate.objGrad) 10 q ∧ MinViol exLpEnv exIncDir.iterate 1 v ∧
    CauchyDirFor exLpEnv exIncDir.iterate 1 100 t'.step t'.work p ∧
    PenaltyGoal (1 / 10 ^ 8) (linViol exLpEnv exIncDir.iterate q / (1 : Nat)) (v / (1 : Nat)) (linViol exLpEnv exIncDir.iterate p / (1 : Nat)) := by
  have : ((exIncDir.compute exLpEnv exIncCalls (1 / 10 ^ 8) (1 / 10 ^ 6)).map fun r => r.1.penalty) = some 100 := by decide +kernel
  obtain ⟨⟨t', b⟩, h1, e1⟩ := Option.map_eq_some_iff.mp this
  dsimp only at e1
  obtain ⟨-, n, hn, q, hq, hp, hg⟩ := (C76_penalty exLpEnv_bounds exLpEnv_noFixed exIncCalls_correct exIncDir_ok h1).2.2 (by decide) (by decide +kernel)
  have h10 : (10 : ℚ) * 10 ^ n = 10 * 10 ^ 1 := by
    have : (100 : ℚ) = 10 * 10 ^ n := e1.symm.trans hp
    rw [← this]; norm_num
  have hn1 : n = 1 := by
    have := mul_left_cancel₀ (by norm_num) h10
    exact pow_right_injective₀ (by norm_num) (by norm_num) this
  subst hn1
  rcases hg with ⟨h, -⟩ | ⟨-, v, hv, -, hgoal, -⟩
  · cases h
  · obtain ⟨p, hp1, hp2⟩ := hgoal (by decide) (by decide)
    rw [e1] at hp1
    exact ⟨t', b, q, v, p, h1, (C76_criticality exLpEnv_bounds exLpEnv_noFixed exIncCalls_correct exIncDir_ok h1).1, hq, hv, hp1, hp2⟩

/-- constraints that cannot be met: the penalty parameter is kept -/
example : exStopEnv.bounds.consUb.value 0 < exStopEnv.bounds.varsLb.value 0 ∧ exStopDir.Ok exStopEnv (fun _ _ => 0) exLpState ∧
    ((exStopDir.compute exStopEnv exStopCalls (1 / 10 ^ 8) (1 / 10 ^ 6)).map fun r => (r.1.penalty, r.1.step.ents, r.2)) = some (2, [], 0) :=
  ⟨by decide +kernel, exStopDir_ok, by decide +kernel⟩

end Sleqp
