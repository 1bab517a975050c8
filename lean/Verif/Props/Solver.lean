import Verif.Model.Solver
import Verif.Props.Solve

/-!
C22: the two-phase outer loop.  C21 (second part): abort requests at the level of the
outer solver.
-/

namespace Sleqp

variable {K : Type*} [Field K] [LinearOrder K] {σ : Type*}
variable {pO pR : Params K} {R : Rule K σ} {innerFuel fuel : Nat} {env : Nat → OuterEnv K}

/-- States at the beginning of pass `k` of the outer loop. -/
inductive OReach (pO pR : Params K) (R : Rule K σ) (innerFuel : Nat) (env : Nat → OuterEnv K)
    (s0 : Solver K σ) : Nat → Solver K σ → Prop
  | start : OReach pO pR R innerFuel env s0 0 s0
  | pass {k s s'} : OReach pO pR R innerFuel env s0 k s →
      outerPass pO pR R innerFuel (env k) s = .more s' → OReach pO pR R innerFuel env s0 (k + 1) s'

theorem outerLoop_done {s0 s s' : Solver K σ} {k : Nat} (hr : OReach pO pR R innerFuel env s0 k s)
    (h : outerLoop pO pR R innerFuel env fuel k s = .done s') :
    ∃ k' s'', OReach pO pR R innerFuel env s0 k' s'' ∧
      outerPass pO pR R innerFuel (env k') s'' = .done s' := by
  induction fuel generalizing k s with
  | zero => simp [outerLoop] at h
  | succ fuel ih =>
    unfold outerLoop at h
    split at h
    · rename_i s1 h1
      exact ih (.pass hr h1) h
    · rename_i s1 h1
      injection h with h2
      subst h2
      exact ⟨k, s, hr, h1⟩
    · cases h
    · cases h
    · cases h

omit [Field K] [LinearOrder K] in
theorem account_spec {s s1 : Solver K σ} {el : Nat} (h : s.account el = some s1) :
    (∀ m, s.remaining = some m → el ≤ m) ∧
    s1.iterations = s.iterations + el ∧ s1.remaining = s.remaining.map (· - el) ∧
    s1.phase = s.phase ∧ s1.enableRest = s.enableRest ∧ s1.opt = s.opt ∧ s1.rest = s.rest := by
  unfold Solver.account at h
  cases hr : s.remaining with
  | none =>
    rw [hr] at h
    injection h with h
    refine ⟨by simp, ?_⟩
    rw [← h]
    simp [hr]
  | some m =>
    rw [hr] at h
    simp only [] at h
    split_ifs at h with c
    injection h with h
    refine ⟨by simpa using c, ?_⟩
    rw [← h]
    simp

/-- A pass that continues: local infeasibility in the optimization phase (restoration
enabled), or the return from a restoration phase. -/
theorem outerPass_more {s s' : Solver K σ} {e : OuterEnv K}
    (h : outerPass pO pR R innerFuel e s = .more s') :
    e.timeUp = false ∧ s.remaining ≠ some 0 ∧
    ((s.phase = .optimization ∧ ∃ n o,
        problemSolve pO R s.remaining s.enableRest e.inner innerFuel
          (s.opt.atIter s.iterations) = .done n o ∧
        (∀ m, s.remaining = some m → o.elapsed ≤ m) ∧
        o.status = .locallyInfeasible ∧ s.enableRest = true ∧ s'.phase = .restoration ∧
        s'.enableRest = true ∧ s'.opt = o ∧ s'.iterations = s.iterations + o.elapsed ∧
        s'.remaining = s.remaining.map (· - o.elapsed)) ∨
     (s.phase = .restoration ∧ ∃ n r,
        problemSolve pR R s.remaining s.enableRest e.inner innerFuel
          (s.rest.atIter s.iterations) = .done n r ∧
        (∀ m, s.remaining = some m → r.elapsed ≤ m) ∧ s'.phase = .optimization ∧
        s'.opt.cur = e.optPt ∧ s'.iterations = s.iterations + r.elapsed ∧
        s'.remaining = s.remaining.map (· - r.elapsed) ∧
        ((r.status = .abortManual ∧ s'.enableRest = s.enableRest) ∨
         (r.status = .optimal ∧ e.checkReject = false ∧ e.optPt.feasRes ≤ pO.feasTol ∧
           s'.enableRest = s.enableRest) ∨
         (r.status = .optimal ∧ s'.enableRest = false)))) := by
  unfold outerPass at h
  cases ht : e.timeUp
  swap
  · rw [ht] at h; simp at h
  rw [ht] at h
  simp only [Bool.false_eq_true, if_false] at h
  by_cases hz : s.remaining = some 0
  · rw [if_pos hz] at h; cases h
  rw [if_neg hz] at h
  refine ⟨rfl, hz, ?_⟩
  cases hph : s.phase with
  | optimization =>
    left
    refine ⟨rfl, ?_⟩
    rw [hph] at h
    simp only [] at h
    split at h
    · cases h
    · cases h
    · cases h
    · rename_i n o hps
      split at h
      · cases h
      · rename_i s1 hacc
        obtain ⟨hle, hs1⟩ := account_spec hacc
        split at h
        · cases h
        · rename_i hac
          unfold optBranch at h
          split at h <;> try cases h
          rename_i hst
          have hen := ((C20_status_meaning hps).2.2.2.2.2.1 hst).1
          obtain ⟨a1, a2, a3, a4, a5, a6⟩ := hs1
          rw [if_pos (by rw [a4]; exact hen)] at h
          injection h with h
          refine ⟨n, o, hps, hle, hst, hen, ?_⟩
          rw [← h]
          exact ⟨rfl, a4.trans hen, a5, a1, a2⟩
  | restoration =>
    right
    refine ⟨rfl, ?_⟩
    rw [hph] at h
    simp only [] at h
    split at h
    · cases h
    · cases h
    · cases h
    · rename_i n r hps
      obtain ⟨s0, hs0⟩ : ∃ s0, s0 = if e.userAbort then s.userAbort else s := ⟨_, rfl⟩
      rw [← hs0] at h
      have e1 : s0.iterations = s.iterations ∧ s0.remaining = s.remaining ∧
          s0.enableRest = s.enableRest := by
        rw [hs0]; split <;> exact ⟨rfl, rfl, rfl⟩
      split at h
      · cases h
      · rename_i s1 hacc
        obtain ⟨hle, hs1⟩ := account_spec hacc
        split at h
        · cases h
        · refine ⟨n, r, hps, ?_⟩
          obtain ⟨a1, a2, a3, a4, a5, a6⟩ := hs1
          have hle : ∀ m, s.remaining = some m → r.elapsed ≤ m := fun m hm =>
            hle m (e1.2.1.trans hm)
          have a1 : s1.iterations = s.iterations + r.elapsed := a1.trans (by rw [← e1.1]; rfl)
          have a2 : s1.remaining = s.remaining.map (· - r.elapsed) := a2.trans (by rw [← e1.2.1]; rfl)
          have a4 : s1.enableRest = s.enableRest := a4.trans e1.2.2
          unfold restBranch at h
          simp only [] at h
          split at h
          · rename_i hst
            injection h with h
            rw [← h]
            exact ⟨hle, rfl, rfl, a1, a2, Or.inl ⟨hst, a4⟩⟩
          · rename_i hst
            split_ifs at h with hf
            · injection h with h
              rw [Bool.and_eq_true, Bool.not_eq_true', decide_eq_true_eq] at hf
              rw [← h]
              exact ⟨hle, rfl, rfl, a1, a2, Or.inr (Or.inl ⟨hst, hf.1, hf.2, a4⟩)⟩
            · injection h with h
              rw [← h]
              exact ⟨hle, rfl, rfl, a1, a2, Or.inr (Or.inr ⟨hst, rfl⟩)⟩
          · cases h

/-- A pass that ends the loop. -/
theorem outerPass_done {s s' : Solver K σ} {e : OuterEnv K}
    (h : outerPass pO pR R innerFuel e s = .done s') :
    s'.phase = .optimization ∧
    ((e.timeUp = true ∧ s'.status = .abortTime ∧ s'.iterations = s.iterations) ∨
     (s.remaining = some 0 ∧ s'.status = .abortIter ∧ s'.iterations = s.iterations) ∨
     (s.phase = .optimization ∧ ∃ n o,
        problemSolve pO R s.remaining s.enableRest e.inner innerFuel
          (s.opt.atIter s.iterations) = .done n o ∧
        (∀ m, s.remaining = some m → o.elapsed ≤ m) ∧ s'.opt = o ∧
        s'.iterations = s.iterations + o.elapsed ∧
        ((o.status = .optimal ∧ s'.status = .optimal) ∨
         (o.status = .abortManual ∧ s'.status = .abortManual) ∨
         (o.status = .unbounded ∧ s'.status = .unbounded) ∨
         abortCode o.status = some s'.status)) ∨
     (s.phase = .restoration ∧ ∃ n r,
        problemSolve pR R s.remaining s.enableRest e.inner innerFuel
          (s.rest.atIter s.iterations) = .done n r ∧
        (∀ m, s.remaining = some m → r.elapsed ≤ m) ∧ s'.rest = r ∧
        s'.iterations = s.iterations + r.elapsed ∧ abortCode r.status = some s'.status)) := by
  have hleave : ∀ (s : Solver K σ), (s.leave e).phase = .optimization ∧ (s.leave e).status = s.status ∧
      (s.leave e).iterations = s.iterations ∧ (s.leave e).rest = s.rest := by
    intro s
    unfold Solver.leave
    split
    · rename_i h; exact ⟨h, rfl, rfl, rfl⟩
    · exact ⟨rfl, rfl, rfl, rfl⟩
  have hleave2 : ∀ (s : Solver K σ), s.phase = .optimization → s.leave e = s := by
    intro s hs
    unfold Solver.leave
    rw [hs]
  unfold outerPass at h
  cases ht : e.timeUp
  swap
  · rw [ht] at h
    simp only [if_true] at h
    injection h with h
    rw [← h]
    obtain ⟨h1, h2, h3, _⟩ := hleave { s with status := .abortTime }
    exact ⟨h1, Or.inl ⟨rfl, h2, h3⟩⟩
  rw [ht] at h
  simp only [Bool.false_eq_true, if_false] at h
  by_cases hz : s.remaining = some 0
  · rw [if_pos hz] at h
    injection h with h
    rw [← h]
    obtain ⟨h1, h2, h3, _⟩ := hleave { s with status := .abortIter }
    exact ⟨h1, Or.inr (Or.inl ⟨hz, h2, h3⟩)⟩
  rw [if_neg hz] at h
  cases hph : s.phase with
  | optimization =>
    rw [hph] at h
    simp only [] at h
    split at h
    · cases h
    · cases h
    · cases h
    · rename_i n o hps
      split at h
      · cases h
      · rename_i s1 hacc
        obtain ⟨hle, hs1⟩ := account_spec hacc
        obtain ⟨a1, a2, a3, a4, a5, a6⟩ := hs1
        have hp1 : s1.phase = .optimization := a3.trans hph
        split at h
        · rename_i st hac
          injection h with h
          rw [hleave2 _ (by exact hp1)] at h
          rw [← h]
          refine ⟨hp1, Or.inr (Or.inr (Or.inl ⟨rfl, n, o, hps, hle, a5, a1,
            Or.inr (Or.inr (Or.inr hac))⟩))⟩
        · unfold optBranch at h
          split at h
          · rename_i hst
            injection h with h
            rw [← h]
            refine ⟨hp1, Or.inr (Or.inr (Or.inl ⟨rfl, n, o, hps, hle, a5, a1,
            Or.inl ⟨hst, rfl⟩⟩))⟩
          · rename_i hst
            injection h with h
            rw [← h]
            refine ⟨hp1, Or.inr (Or.inr (Or.inl ⟨rfl, n, o, hps, hle, a5, a1,
            Or.inr (Or.inl ⟨hst, rfl⟩)⟩))⟩
          · rename_i hst
            injection h with h
            rw [← h]
            refine ⟨hp1, Or.inr (Or.inr (Or.inl ⟨rfl, n, o, hps, hle, a5, a1,
            Or.inr (Or.inr (Or.inl ⟨hst, rfl⟩))⟩))⟩
          · split_ifs at h
          · cases h
  | restoration =>
    rw [hph] at h
    simp only [] at h
    split at h
    · cases h
    · cases h
    · cases h
    · rename_i n r hps
      obtain ⟨s0, hs0⟩ : ∃ s0, s0 = if e.userAbort then s.userAbort else s := ⟨_, rfl⟩
      rw [← hs0] at h
      have e1 : s0.iterations = s.iterations ∧ s0.remaining = s.remaining := by
        rw [hs0]; split <;> exact ⟨rfl, rfl⟩
      split at h
      · cases h
      · rename_i s1 hacc
        obtain ⟨hle, hs1⟩ := account_spec hacc
        split at h
        · rename_i st hac
          injection h with h
          obtain ⟨h1, h2, h3, h4⟩ := hleave { s1 with status := st }
          obtain ⟨a1, a2, a3, a4, a5, a6⟩ := hs1
          have hle : ∀ m, s.remaining = some m → r.elapsed ≤ m := fun m hm =>
            hle m (e1.2.trans hm)
          have a1 : s1.iterations = s.iterations + r.elapsed := a1.trans (by rw [← e1.1]; rfl)
          rw [← h]
          refine ⟨h1, Or.inr (Or.inr (Or.inr ⟨rfl, n, r, hps, hle, h4.trans a6, h3.trans a1, ?_⟩))⟩
          rw [hac, h2]
        · unfold restBranch at h
          simp only [] at h
          split at h
          · cases h
          · split_ifs at h
          · cases h

/-! ### C22 -/

/-- The final status is a definite one; the solver ends in the optimization phase; optimal,
unbounded and manual abort come from an optimization phase, and "optimal" means that the
final iterate passes the residual tests. -/
theorem C22_final_status {s s' : Solver K σ} {max : Option Nat} {enable initReject : Bool}
    (h : runSolvingLoop pO pR R max enable initReject innerFuel env fuel s = .done s') :
    s'.phase = .optimization ∧
    s'.status ∈ [.optimal, .unbounded, .abortManual, .abortIter, .abortTime, .abortDeadpoint] ∧
    (s'.status = .optimal → s'.opt.status = .optimal ∧ s'.opt.cur.feasRes ≤ pO.feasTol ∧
      s'.opt.cur.slackRes < pO.slackTol ∧ s'.opt.cur.statRes < pO.statTol) ∧
    (s'.status = .unbounded → s'.opt.status = .unbounded ∧ s'.opt.cur.objVal ≤ pO.objLower) ∧
    (s'.status = .abortManual → s'.opt.status = .abortManual) ∧
    (s'.status = .abortDeadpoint →
      s'.opt.lpTrustRadius ≤ pO.deadpoint ∨ s'.opt.trustRadius ≤ pO.deadpoint ∨
      s'.rest.lpTrustRadius ≤ pR.deadpoint ∨ s'.rest.trustRadius ≤ pR.deadpoint) := by
  unfold runSolvingLoop at h
  split_ifs at h
  obtain ⟨k, s1, hr, hd⟩ := outerLoop_done .start h
  obtain ⟨hph, hc⟩ := outerPass_done hd
  refine ⟨hph, ?_⟩
  have hcode : ∀ {a : PStatus} {b : SStatus}, abortCode a = some b →
      (a = .abortIter ∧ b = .abortIter) ∨ (a = .abortTime ∧ b = .abortTime) ∨
      (a = .abortDeadpoint ∧ b = .abortDeadpoint) := by
    intro a b hab
    cases a <;> simp [abortCode] at hab <;> simp [← hab]
  rcases hc with ⟨_, h1, _⟩ | ⟨_, h1, _⟩ | ⟨_, n, o, hps, _, ho, _, hst⟩ | ⟨_, n, r, hps, _, ho, _, hst⟩
  · rw [h1]; simp
  · rw [h1]; simp
  · have hm := C20_status_meaning hps
    rcases hst with ⟨h1, h2⟩ | ⟨h1, h2⟩ | ⟨h1, h2⟩ | h1
    · have := hm.2.2.2.2.1 h1
      rw [h2, ho]; simp [h1, this]
    · rw [h2, ho]; simp [h1]
    · have := hm.2.2.2.2.2.2 h1
      rw [h2, ho]; simp [h1, this]
    · rcases hcode h1 with ⟨_, h3⟩ | ⟨_, h3⟩ | ⟨h4, h3⟩
      · rw [h3]; simp
      · rw [h3]; simp
      · have := hm.2.2.1 h4
        rw [h3, ho]
        exact ⟨by simp, by simp, by simp, by simp, fun _ => by rcases this with h | h <;> simp [h]⟩
  · have hm := C20_status_meaning hps
    rcases hcode hst with ⟨_, h3⟩ | ⟨_, h3⟩ | ⟨h4, h3⟩
    · rw [h3]; simp
    · rw [h3]; simp
    · have := hm.2.2.1 h4
      rw [h3, ho]
      exact ⟨by simp, by simp, by simp, by simp, fun _ => by rcases this with h | h <;> simp [h]⟩

/-- The total number of iterations over all phases respects the limit. -/
theorem C22_iteration_budget {s s' : Solver K σ} {m : Nat} {enable initReject : Bool}
    (h : runSolvingLoop pO pR R (some m) enable initReject innerFuel env fuel s = .done s') :
    s'.iterations ≤ m := by
  unfold runSolvingLoop at h
  split_ifs at h
  obtain ⟨k, s1, hr, hd⟩ := outerLoop_done .start h
  have hinv : ∃ r, s1.remaining = some r ∧ s1.iterations + r = m := by
    clear hd h
    induction hr with
    | start => exact ⟨m, rfl, Nat.zero_add m⟩
    | pass _ hp ih =>
      obtain ⟨r, hr1, hr2⟩ := ih
      obtain ⟨_, _, ⟨_, n, o, _, hle, _, _, _, _, _, hit, hrem⟩ |
        ⟨_, n, o, _, hle, _, _, hit, hrem, _⟩⟩ := outerPass_more hp
      · have := hle r hr1
        refine ⟨r - o.elapsed, by rw [hrem, hr1]; rfl, by omega⟩
      · have := hle r hr1
        refine ⟨r - o.elapsed, by rw [hrem, hr1]; rfl, by omega⟩
  obtain ⟨r, hr1, hr2⟩ := hinv
  obtain ⟨_, ⟨_, _, h1⟩ | ⟨_, _, h1⟩ | ⟨_, n, o, _, hle, _, h1, _⟩ | ⟨_, n, o, _, hle, _, h1, _⟩⟩ :=
    outerPass_done hd
  · omega
  · omega
  · have := hle r hr1; omega
  · have := hle r hr1; omega

/-- The restoration phase is entered only if enabled, and only from an optimization phase
that ended locally infeasible at a point whose residual exceeds the tolerance. -/
theorem C22_restoration_entry {s0 s : Solver K σ} {k : Nat} (h0 : s0.phase = .optimization)
    (hr : OReach pO pR R innerFuel env s0 k s) (hph : s.phase = .restoration) :
    s0.enableRest = true ∧ s.opt.status = .locallyInfeasible ∧ pO.feasTol < s.opt.cur.feasRes := by
  have hmono : ∀ {k s}, OReach pO pR R innerFuel env s0 k s → s.enableRest = true →
      s0.enableRest = true := by
    intro k s hr
    induction hr with
    | start => exact id
    | pass _ hp ih =>
      intro he
      obtain ⟨_, _, ⟨_, n, o, _, _, _, hen, _⟩ | ⟨_, n, o, _, _, _, _, _, _, hc⟩⟩ := outerPass_more hp
      · exact ih hen
      · rcases hc with ⟨_, hc⟩ | ⟨_, _, _, hc⟩ | ⟨_, hc⟩
        · exact ih (hc ▸ he)
        · exact ih (hc ▸ he)
        · rw [hc] at he; cases he
  cases hr with
  | start => rw [h0] at hph; cases hph
  | pass hr1 hp =>
    obtain ⟨_, _, ⟨_, n, o, hps, _, hst, hen, _, _, ho, _⟩ | ⟨_, n, o, _, _, hph2, _⟩⟩ :=
      outerPass_more hp
    · refine ⟨hmono hr1 hen, by rw [ho, hst], ?_⟩
      rw [ho]
      exact ((C20_status_meaning hps).2.2.2.2.2.1 hst).2
    · rw [hph2] at hph; cases hph

/-- With restoration disabled the outcome is that of one optimization phase. -/
theorem C22_disabled_is_single_phase {s : Solver K σ} {max : Option Nat} {n : Nat} {o : PSolver K σ}
    (hph : s.phase = .optimization) (ht : (env 0).timeUp = false) (hm : max ≠ some 0)
    (hps : problemSolve pO R max false (env 0).inner innerFuel (s.opt.atIter 0) = .done n o) :
    ∃ s', runSolvingLoop pO pR R max false false innerFuel env (fuel + 1) s = .done s' ∧
      s'.opt = o ∧ s'.iterations = o.elapsed ∧
      ((o.status = .optimal ∧ s'.status = .optimal) ∨
       (o.status = .unbounded ∧ s'.status = .unbounded) ∨
       (o.status = .abortManual ∧ s'.status = .abortManual) ∨
       (o.status = .abortIter ∧ s'.status = .abortIter) ∨
       (o.status = .abortTime ∧ s'.status = .abortTime) ∨
       (o.status = .abortDeadpoint ∧ s'.status = .abortDeadpoint)) := by
  obtain ⟨s1, hs1⟩ : ∃ s1 : Solver K σ,
    s1 = s.initial max false := ⟨_, rfl⟩
  have hl := C20_limit_respected hps
  have hmean := C20_status_meaning hps
  have hacc : ∃ s2, (s1.withOpt o).account o.elapsed = some s2 := by
    unfold Solver.account
    have hrem : (s1.withOpt o).remaining = max := by rw [hs1]; rfl
    rw [hrem]
    cases hr : max with
    | none => exact ⟨_, rfl⟩
    | some m =>
      simp only []
      rw [if_pos ((hl.2.2.2.2 m hr).2)]
      exact ⟨_, rfl⟩
  obtain ⟨s2, hacc⟩ := hacc
  obtain ⟨_, hs2⟩ := account_spec hacc
  have hpass : outerPass pO pR R innerFuel (env 0) s1 =
      (match abortCode o.status with
        | some st => .done ({ s2 with status := st }.leave (env 0))
        | none => optBranch (env 0) o.status s2) := by
    unfold outerPass
    rw [ht]
    simp only [Bool.false_eq_true, if_false]
    rw [if_neg (by rw [hs1]; exact hm)]
    have hp1 : s1.phase = .optimization := by rw [hs1]; exact hph
    rw [hp1]
    simp only []
    have : problemSolve pO R s1.remaining s1.enableRest (env 0).inner innerFuel
        (s1.opt.atIter s1.iterations) = .done n o := by rw [hs1]; exact hps
    rw [this]
    simp only []
    rw [hacc]
    rfl
  obtain ⟨a1, a2, a3, a4, a5, a6⟩ := hs2
  have hp2 : s2.phase = .optimization := by rw [a3, hs1]; exact hph
  have hopt : s2.opt = o := a5
  have hit : s2.iterations = o.elapsed := by rw [a1, hs1]; exact Nat.zero_add _
  have hleave : ∀ (s : Solver K σ), s.phase = .optimization → s.leave (env 0) = s := by
    intro s hs
    unfold Solver.leave
    rw [hs]
  have hrun : ∀ s', outerPass pO pR R innerFuel (env 0) s1 = .done s' →
      runSolvingLoop pO pR R max false false innerFuel env (fuel + 1) s = .done s' := by
    intro s' h'
    unfold runSolvingLoop
    rw [if_neg (by simp), ← hs1]
    unfold outerLoop
    rw [h']
  have hl1 := hl.1
  have hl2 := hl.2.1
  cases hst : o.status with
  | unknown => exact absurd hst hl2
  | running => exact absurd hst hl1
  | locallyInfeasible =>
    have := (hmean.2.2.2.2.2.1 hst).1
    cases this
  | optimal =>
    rw [hst] at hpass
    exact ⟨_, hrun _ hpass, hopt, hit, by simp⟩
  | unbounded =>
    rw [hst] at hpass
    exact ⟨_, hrun _ hpass, hopt, hit, by simp⟩
  | abortManual =>
    rw [hst] at hpass
    exact ⟨_, hrun _ hpass, hopt, hit, by simp⟩
  | abortIter =>
    rw [hst] at hpass
    simp only [abortCode] at hpass
    rw [hleave _ (by exact hp2)] at hpass
    exact ⟨_, hrun _ hpass, hopt, hit, by simp⟩
  | abortTime =>
    rw [hst] at hpass
    simp only [abortCode] at hpass
    rw [hleave _ (by exact hp2)] at hpass
    exact ⟨_, hrun _ hpass, hopt, hit, by simp⟩
  | abortDeadpoint =>
    rw [hst] at hpass
    simp only [abortCode] at hpass
    rw [hleave _ (by exact hp2)] at hpass
    exact ⟨_, hrun _ hpass, hopt, hit, by simp⟩

/-- Termination for a finite iteration budget `m`: `2 m + 4` phases always suffice.
Hypothesis: a restoration run that performs no iteration hands back the point it was
given (its residual is unchanged). -/
theorem C22_terminates {s : Solver K σ} {m : Nat} {enable initReject : Bool}
    (hph : s.phase = .optimization) (hfuel : m + 1 ≤ innerFuel)
    (hsame : ∀ k s1 n r, OReach pO pR R innerFuel env
      (s.initial (some m) enable) k s1 →
      s1.phase = .restoration →
      problemSolve pR R s1.remaining s1.enableRest (env k).inner innerFuel
        (s1.rest.atIter s1.iterations) = .done n r → r.elapsed = 0 →
      (env k).optPt.feasRes = s1.opt.cur.feasRes) :
    runSolvingLoop pO pR R (some m) enable initReject innerFuel env (2 * m + 4) s ≠ .outOfFuel := by
  obtain ⟨s0, hs0⟩ : ∃ s0 : Solver K σ,
    s0 = s.initial (some m) enable := ⟨_, rfl⟩
  rw [← hs0] at hsame
  have hph0 : s0.phase = .optimization := by rw [hs0]; exact hph
  have hmono : ∀ a b c (s : PSolver K σ) (p : Params K) (ab : Bool) (ev : Nat → IterEnv K),
      a ≤ b → problemSolve p R (some a) ab ev (b + 1 + c) s ≠ .outOfFuel := by
    intro a b c s p ab ev hab
    have key : ∀ fuel k (s : PSolver K σ), s.status = .running → s.elapsed = k → a + 1 ≤ fuel + k →
        k ≤ a → loop p R (some a) ev fuel k s ≠ .outOfFuel := by
      intro fuel
      induction fuel with
      | zero => intro k s _ _ h1 h2; omega
      | succ fuel ih =>
        intro k s hs he h1 h2
        unfold loop
        split
        · rename_i s1 h3
          obtain ⟨_, hlt, _⟩ := loopPass_more h3
          obtain ⟨_, _, _, _, _, _, h7, h8⟩ := loopPass_more h3
          obtain ⟨_, _, _, h9⟩ := performIteration_running h8 h7
          obtain ⟨d, _, h10, h11, _⟩ := finish_spec h9
          have hel : s1.elapsed = k + 1 := by rw [h11, ← he]; rfl
          have := hlt a rfl
          exact ih (k + 1) s1 h7 hel (by omega) (by omega)
        · simp
        · simp
        · simp
    exact key _ 0 _ rfl rfl (by omega) (by omega)
  have key : ∀ fuel k (s1 : Solver K σ) (r : Nat), OReach pO pR R innerFuel env s0 k s1 →
      s1.remaining = some r → r ≤ m →
      2 * r + (if s1.phase = .optimization then 1 else 0) + (if s1.enableRest then 2 else 0) + 1 ≤ fuel →
      outerLoop pO pR R innerFuel env fuel k s1 ≠ .outOfFuel := by
    intro fuel
    induction fuel with
    | zero => intro k s1 r _ _ _ h1; omega
    | succ fuel ih =>
      intro k s1 r hr hrem hrm hf
      unfold outerLoop
      split
      · rename_i s2 hp
        have hr2 : OReach pO pR R innerFuel env s0 (k + 1) s2 := .pass hr hp
        obtain ⟨_, hnz, ⟨hph1, n, o, hps, hle, _, hen, hph2, hen2, _, _, hrem2⟩ |
          ⟨hph1, n, o, hps, hle, hph2, hcur, _, hrem2, hc⟩⟩ := outerPass_more hp
        · have hlr := hle r hrem
          refine ih (k + 1) s2 (r - o.elapsed) hr2 (by rw [hrem2, hrem]; rfl) (by omega) ?_
          rw [hph2, hen2]
          rw [hph1, hen] at hf
          simp at hf ⊢
          omega
        · have hlr := hle r hrem
          refine ih (k + 1) s2 (r - o.elapsed) hr2 (by rw [hrem2, hrem]; rfl) (by omega) ?_
          rw [hph2]
          rw [hph1] at hf
          have hent := C22_restoration_entry hph0 hr hph1
          have hen1 : s1.enableRest = true := by
            cases hr with
            | start => rw [hph0] at hph1; cases hph1
            | pass _ hq =>
              obtain ⟨_, _, ⟨_, _, _, _, _, _, _, _, hx, _⟩ | ⟨_, _, _, _, _, hx, _⟩⟩ := outerPass_more hq
              · exact hx
              · rw [hx] at hph1; cases hph1
          rw [hen1] at hf
          have hpos : s2.enableRest = true → 0 < o.elapsed := by
            intro he2
            rcases hc with ⟨hst, _⟩ | ⟨hst, _, hfeas, _⟩ | ⟨_, hx⟩
            · obtain ⟨h1, j, h2, _⟩ := (C20_status_meaning hps).2.2.2.1 hst
              omega
            · by_contra hz
              have := hsame k s1 n o hr hph1 hps (by omega)
              rw [this] at hfeas
              exact absurd hent.2.2 (not_lt.mpr hfeas)
            · rw [hx] at he2; cases he2
          simp at hf ⊢
          by_cases he2 : s2.enableRest = true
          · have := hpos he2
            rw [if_pos he2]; omega
          · rw [if_neg he2]; omega
      · simp
      · simp
      · simp
      · rename_i hp
        exfalso
        have hin : ∀ (p : Params K) (ab : Bool) (ev : Nat → IterEnv K) (s : PSolver K σ),
            problemSolve p R s1.remaining ab ev innerFuel s ≠ .outOfFuel := by
          intro p ab ev s
          rw [hrem]
          have := hmono r r (innerFuel - (r + 1)) s p ab ev le_rfl
          rwa [show r + 1 + (innerFuel - (r + 1)) = innerFuel by omega] at this
        unfold outerPass at hp
        split at hp
        · cases hp
        split at hp
        · cases hp
        split at hp
        · split at hp
          · rename_i h2; exact hin _ _ _ _ h2
          · cases hp
          · cases hp
          · split at hp
            · cases hp
            · split at hp
              · cases hp
              · unfold optBranch at hp
                split at hp <;> try cases hp
                split_ifs at hp
        · split at hp
          · rename_i h2; exact hin _ _ _ _ h2
          · cases hp
          · cases hp
          · simp only [] at hp
            split at hp
            · cases hp
            · split at hp
              · cases hp
              · unfold restBranch at hp
                simp only [] at hp
                split at hp
                · cases hp
                · split_ifs at hp
                · cases hp
  unfold runSolvingLoop
  split_ifs
  · simp
  · rw [← hs0]
    refine key _ 0 s0 m .start (by rw [hs0]; rfl) le_rfl ?_
    rw [hph0]
    simp
    split_ifs <;> omega

/-- In the optimization phase the code's `assert(0)` and its iteration count assert are
never reached: a failure can only come from inside the problem solver. -/
theorem C22_optimization_no_assert {s : Solver K σ} {e : OuterEnv K}
    (hph : s.phase = .optimization) (h : outerPass pO pR R innerFuel e s = .fail) :
    problemSolve pO R s.remaining s.enableRest e.inner innerFuel
      (s.opt.atIter s.iterations) = .fail := by
  unfold outerPass at h
  split at h
  · cases h
  split at h
  · cases h
  rw [hph] at h
  simp only [] at h
  split at h
  · cases h
  · cases h
  · rename_i h2; exact h2
  · rename_i n o hps
    exfalso
    have hl := C20_limit_respected hps
    split at h
    · rename_i hacc
      unfold Solver.account at hacc
      rw [show (s.withOpt o).remaining = s.remaining from rfl] at hacc
      cases hr : s.remaining with
      | none => rw [hr] at hacc; cases hacc
      | some m =>
        rw [hr] at hacc
        simp only [] at hacc
        rw [if_pos ((hl.2.2.2.2 m hr).2)] at hacc
        cases hacc
    · split at h
      · cases h
      · rename_i hac
        unfold optBranch at h
        split at h <;> try cases h
        · split_ifs at h
        · rename_i h1 h2 h3 h4
          cases hst : o.status <;> simp_all [abortCode]

/-! ### C21: abort requests at the outer level -/

/-- sample outer environment: first pass locally infeasible, then restoration -/
def exOuter (k : Nat) : OuterEnv ℚ :=
  { timeUp := false
    inner := fun j =>
      if k = 0 then { quietEnv ⟨0, 5, 5, 1, 1⟩ with lpNorm := 0, trialNorm := 0 }
      else if k = 1 then { quietEnv ⟨0, 0, 0, 1, 1⟩ with modelTrial := 0, abortReq := true }
      else { quietEnv ⟨6 - 2 * (j : ℚ), 0, 0, 0, if j = 2 then 0 else 1⟩ with modelTrial := 5 - 2 * (j : ℚ) }
    restPt := ⟨5, 0, 0, 1, 1⟩
    optPt := ⟨8, 0, 0, 1, 1⟩
    checkReject := false
    userAbort := k == 1 }

/-- decidable test of a result -/
def SOut.check (o : SOut K σ) (f : Solver K σ → Bool) : Bool :=
  match o with
  | .done s => f s
  | _ => false

theorem SOut.check_spec {o : SOut K σ} {f : Solver K σ → Bool} (h : o.check f = true) :
    ∃ s, o = .done s ∧ f s = true := by
  cases o <;> simp_all [SOut.check]

/-- sample solver, infeasible start -/
def exSolver : Solver ℚ Unit :=
  { phase := .optimization, status := .unknown, enableRest := false, remaining := none
    iterations := 0, abortNext := false, opt := exFresh () ⟨0, 5, 5, 1, 1⟩
    rest := exFresh () ⟨0, 0, 0, 1, 1⟩ }

/-- The code violates C21 at the outer level: the user calls for an abort during the
restoration phase (iteration 1 of the run); the solver goes on for three more iterations
and reports "optimal". -/
theorem C21_restoration_abort_lost_violated :
    ∃ s', runSolvingLoop exParams exParams exDirect (some 20) true false 21 exOuter 10 exSolver =
        .done s' ∧ (exOuter 1).userAbort = true ∧ s'.iterations = 4 ∧ s'.status = .optimal ∧
      s'.abortNext = true := by
  obtain ⟨s', h1, h2⟩ := SOut.check_spec (o := runSolvingLoop exParams exParams exDirect (some 20)
    true false 21 exOuter 10 exSolver)
    (f := fun s' => decide (s'.iterations = 4 ∧ s'.status = .optimal ∧ s'.abortNext = true))
    (by decide +kernel)
  exact ⟨s', h1, rfl, of_decide_eq_true h2⟩

/-- It is also lost when the iteration that called for it ends locally infeasible. -/
theorem C21_infeasible_abort_lost_violated :
    ∃ s', runSolvingLoop exParams exParams exDirect (some 20) true false 21
        (fun k => if k = 0 then { exOuter 0 with
          inner := fun j => { (exOuter 0).inner j with abortReq := true } } else exOuter k) 10 exSolver =
        .done s' ∧ s'.iterations = 4 ∧ s'.status = .optimal := by
  obtain ⟨s', h1, h2⟩ := SOut.check_spec (o := runSolvingLoop exParams exParams exDirect (some 20)
    true false 21 (fun k => if k = 0 then { exOuter 0 with
          inner := fun j => { (exOuter 0).inner j with abortReq := true } } else exOuter k) 10 exSolver)
    (f := fun s' => decide (s'.iterations = 4 ∧ s'.status = .optimal))
    (by decide +kernel)
  exact ⟨s', h1, of_decide_eq_true h2⟩

/-- non-vacuity of the termination hypothesis: the sample restoration run makes an
iteration, so nothing is required of it. -/
example : ∃ r, problemSolve exParams exDirect (some 20) true (exOuter 1).inner 21
    (exFresh () ⟨5, 0, 0, 1, 1⟩) = .done 1 r ∧ r.elapsed = 1 ∧ r.status = .abortManual := by
  obtain ⟨n, s', h1, h2⟩ := Out.check_spec (o := problemSolve exParams exDirect (some 20) true
    (exOuter 1).inner 21 (exFresh () ⟨5, 0, 0, 1, 1⟩))
    (f := fun n s' => decide (n = 1 ∧ s'.elapsed = 1 ∧ s'.status = .abortManual))
    (by decide +kernel)
  obtain ⟨rfl, h3⟩ := of_decide_eq_true h2
  exact ⟨s', h1, h3⟩

end Sleqp
