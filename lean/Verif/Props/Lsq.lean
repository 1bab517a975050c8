import Verif.Spec.Lsq
import Verif.Props.Vec
import Mathlib.Algebra.Order.BigOperators.Group.Finset
import Mathlib.Algebra.BigOperators.Ring.Finset
import Mathlib.Tactic.Linarith
import Mathlib.Tactic.Positivity

/-! C24: least-squares functions. -/

namespace Sleqp
open Finset
variable {P K : Type*} [Field K] [LinearOrder K]

/-- the invariant kept by every history: internal vectors have their dimensions and
declared capacities, a cached residual is the one of the current point -/
structure LsqInv (u : LsqUser P K) (ok : P → Prop) (r : P → Nat → K) (cr cf ch : Nat) (s : Lsq P K) : Prop where
  pt : ok s.point
  rdim : s.residual.dim = u.numRes
  fdim : s.forward.dim = u.numRes
  hdim : s.hessProd.dim = u.numVars
  rcap : cr ≤ s.residual.cap
  fcap : cf ≤ s.forward.cap
  hcap : ch ≤ s.hessProd.cap
  res : s.hasResidual = true → s.residual.WF ∧ ∀ i < u.numRes, s.residual.value i = r s.point i

theorem reserveOpt_spec (v : Vec K) (n : Option Nat) :
    (Lsq.reserveOpt v n).dim = v.dim ∧ (Lsq.reserveOpt v n).ents = v.ents ∧
      v.cap ≤ (Lsq.reserveOpt v n).cap ∧ n.getD 0 ≤ (Lsq.reserveOpt v n).cap := by
  cases n with
  | none => exact ⟨rfl, rfl, le_rfl, Nat.zero_le _⟩
  | some n => exact ⟨rfl, rfl, le_max_left _ _, le_max_right _ _⟩

section
variable {u : LsqUser P K} {ok : P → Prop} {r : P → Nat → K} {J : P → Nat → Nat → K} {cr cf ca ch : Nat}

theorem lsqInv_nonzeros {s : Lsq P K} (h : LsqInv u ok r cr cf ch s) :
    LsqInv u ok r cr cf ch (Lsq.nonzeros u s) := by
  obtain ⟨a1, a2, a3, _⟩ := reserveOpt_spec s.residual u.residNnz
  obtain ⟨b1, b2, b3, _⟩ := reserveOpt_spec s.forward u.fwdNnz
  obtain ⟨c1, c2, c3, _⟩ := reserveOpt_spec s.hessProd u.fwdNnz
  refine ⟨h.pt, a1.trans h.rdim, b1.trans h.fdim, c1.trans h.hdim, h.rcap.trans a3, h.fcap.trans b3,
    h.hcap.trans c3, fun hr => ?_⟩
  obtain ⟨w, hv⟩ := h.res hr
  refine ⟨⟨?_, ?_, ?_⟩, fun i hi => ?_⟩
  · show Srt (Lsq.reserveOpt s.residual u.residNnz).ents
    rw [a2]; exact w.srt
  · show ∀ e ∈ (Lsq.reserveOpt s.residual u.residNnz).ents,
      e.1 < (Lsq.reserveOpt s.residual u.residNnz).dim
    rw [a2, a1]; exact w.lt_dim
  · show (Lsq.reserveOpt s.residual u.residNnz).ents.length ≤ _
    rw [a2]; exact w.le_cap.trans a3
  · show valAt (Lsq.reserveOpt s.residual u.residNnz).ents i = _
    rw [a2]; exact hv i hi

theorem lsqInv_residual (hs : LsqSpec u ok r J cr cf ca) {s : Lsq P K} (h : LsqInv u ok r cr cf ch s) :
    ∃ s', Lsq.computeResidual u s = some s' ∧ LsqInv u ok r cr cf ch s' ∧ s'.hasResidual = true ∧
      s'.point = s.point ∧ s'.lm = s.lm ∧ s'.zeroEps = s.zeroEps := by
  unfold Lsq.computeResidual
  by_cases hr : s.hasResidual = true
  · rw [if_pos hr]; exact ⟨s, rfl, h, hr, rfl, rfl, rfl⟩
  · rw [if_neg hr]
    obtain ⟨v, hv, w, d, c, val⟩ := hs.resid s.point s.residual.clear h.pt h.rdim rfl h.rcap
    rw [hv]
    refine ⟨_, rfl, ⟨h.pt, d.trans h.rdim, h.fdim, h.hdim, h.rcap.trans c, h.fcap, h.hcap, fun _ => ⟨w, ?_⟩⟩,
      rfl, rfl, rfl, rfl⟩
    intro i hi
    exact val i (by rw [d]; exact h.rdim ▸ hi)

theorem lsq_jtj (hs : LsqSpec u ok r J cr cf ca) {s : Lsq P K} (h : LsqInv u ok r cr cf ch s)
    {d dest : Vec K} (hd : d.WF) (hn : d.dim = u.numVars) (hdd : dest.dim = u.numVars)
    (hc : ca ≤ dest.cap) :
    ∃ q s', Lsq.jtj u s d dest = some (q, s') ∧ LsqInv u ok r cr cf ch s' ∧ s'.point = s.point ∧
      s'.lm = s.lm ∧ s'.zeroEps = s.zeroEps ∧
      Fills dest (fun j => ∑ i ∈ range u.numRes, J s.point i j *
        ∑ k ∈ range u.numVars, J s.point i k * d.value k) q := by
  obtain ⟨f, hf, fw, fd, fc, fv⟩ := hs.fwd s.point d s.forward.clear h.pt hd hn h.fdim rfl h.fcap
  have fd' : f.dim = u.numRes := fd.trans h.fdim
  obtain ⟨q, hq, qw, qd, qc, qv⟩ := hs.adj s.point f dest.clear h.pt fw fd' hdd rfl hc
  refine ⟨q, { s with forward := f }, ?_, ⟨h.pt, h.rdim, fd', h.hdim, h.rcap, h.fcap.trans fc, h.hcap, h.res⟩,
    rfl, rfl, rfl, ⟨qw, qd, qc, fun j hj => ?_⟩⟩
  · unfold Lsq.jtj Lsq.jacForward Lsq.jacAdjoint
    rw [if_pos ⟨hn, h.fdim⟩, hf]
    simp only [Option.bind_some]
    rw [if_pos ⟨fd', hdd⟩]
    show Option.map _ (u.adj s.point f dest.clear) = _
    rw [hq]; rfl
  · rw [qv j hj]
    refine Finset.sum_congr rfl fun i hi => ?_
    rw [fv i (by rw [fd']; exact Finset.mem_range.mp hi)]

theorem lsqInv_clear {s : Lsq P K} (h : LsqInv u ok r cr cf ch s) :
    LsqInv u ok r cr cf ch { s with forward := s.forward.clear, hessProd := s.hessProd.clear } :=
  ⟨h.pt, h.rdim, h.fdim, h.hdim, h.rcap, h.fcap, h.hcap, h.res⟩

/-- Correctness of the Hessian product in a state satisfying the invariant. -/
theorem lsq_hess [IsStrictOrderedRing K] (hs : LsqSpec u ok r J cr cf ca) {s : Lsq P K}
    (h : LsqInv u ok r cr cf ch s) (heps : 0 ≤ s.zeroEps) {d dest : Vec K} (hd : d.WF)
    (hn : d.dim = u.numVars) (hdd : dest.dim = u.numVars) (hc : ca ≤ dest.cap)
    (hch : ca ≤ ch ∨ s.lm = 0) :
    ∃ q s', Lsq.hessProduct u s d dest = some (q, s') ∧ LsqInv u ok r cr cf ch s' ∧
      s'.point = s.point ∧ s'.lm = s.lm ∧ s'.zeroEps = s.zeroEps ∧ q.WF ∧ q.dim = u.numVars ∧
      ∀ j < u.numVars, ∃ e, q.value j = e ∧
        (let t := (∑ i ∈ range u.numRes, J s.point i j *
          ∑ k ∈ range u.numVars, J s.point i k * d.value k) + s.lm * d.value j
         e = t ∨ (s.lm ≠ 0 ∧ e = 0 ∧ |t| ≤ s.zeroEps)) := by
  unfold Lsq.hessProduct
  by_cases hlm : s.lm = 0
  · rw [if_neg (not_not.mpr hlm)]
    obtain ⟨q, s', h1, h2, h3, h4, h5, h6⟩ := lsq_jtj hs (lsqInv_clear h) hd hn hdd hc
    refine ⟨q, s', h1, h2, h3, h4, h5, h6.wf, h6.dim.trans hdd, fun j hj => ⟨_, rfl, Or.inl ?_⟩⟩
    rw [h6.val j (by rw [h6.dim, hdd]; exact hj), hlm]
    simp
  · rw [if_pos hlm]
    have hca : ca ≤ s.hessProd.clear.cap := by
      rcases hch with hch | hch
      · exact hch.trans h.hcap
      · exact absurd hch hlm
    obtain ⟨q, s', h1, h2, h3, h4, h5, h6⟩ :=
      lsq_jtj (dest := s.hessProd.clear) hs (lsqInv_clear h) hd hn h.hdim hca
    have qd : q.dim = u.numVars := h6.dim.trans h.hdim
    obtain ⟨w, w1, w2, w3, w4⟩ := C03_add_scaled q d dest 1 s.lm s.zeroEps h6.wf hd (qd.trans hn.symm) heps
    rw [h1]
    simp only [Option.bind_some]
    rw [w1]
    refine ⟨w, _, rfl, ⟨h2.pt, h2.rdim, h2.fdim, qd, h2.rcap, h2.fcap, h.hcap.trans h6.cap, h2.res⟩, h3, h4, h5,
      w2, w3.trans qd, fun j hj => ⟨_, rfl, ?_⟩⟩
    rw [w4 j, h6.val j (by rw [qd]; exact hj)]
    simp only [one_mul]
    split_ifs with hz
    · exact Or.inr ⟨hlm, rfl, hz⟩
    · exact Or.inl rfl

theorem lsqInv_step [IsStrictOrderedRing K] (hs : LsqSpec u ok r J cr cf ca) {s s' : Lsq P K}
    (h : LsqInv u ok r cr cf ch s) (heps : 0 ≤ s.zeroEps) {o : Lsq.Op P K} (hst : Lsq.step u s o = some s')
    (hok : ∀ d g, o = .hess d g → d.WF ∧ d.dim = u.numVars ∧ g.dim = u.numVars ∧ ca ≤ g.cap)
    (hpt : ∀ p, o = .setValue p → ok p) (hch : ca ≤ ch) :
    LsqInv u ok r cr cf ch s' ∧ s'.zeroEps = s.zeroEps ∧ s'.point = latestPoint s.point [o] := by
  cases o with
  | setValue p =>
    cases hst
    exact ⟨⟨hpt p rfl, h.rdim, h.fdim, h.hdim, h.rcap, h.fcap, h.hcap, fun hr => absurd hr Bool.false_ne_true⟩, rfl, rfl⟩
  | objVal =>
    obtain ⟨t, t1, t2, t3, t4, t5, t6⟩ := lsqInv_residual hs h
    simp only [Lsq.step, Lsq.objVal, t1, Option.map_some, Option.some.injEq] at hst
    subst hst
    exact ⟨t2, t6, t4⟩
  | objGrad g =>
    obtain ⟨t, t1, t2, t3, t4, t5, t6⟩ := lsqInv_residual hs h
    simp only [Lsq.step, Lsq.objGrad, t1, Option.bind_some] at hst
    rcases hj : Lsq.jacAdjoint u t t.residual g.clear with _ | q
    · simp [hj] at hst
    · simp only [hj, Option.map_some, Option.some.injEq] at hst
      subst hst
      exact ⟨t2, t6, t4⟩
  | hess d g =>
    obtain ⟨k1, k2, k3, k4⟩ := hok d g rfl
    obtain ⟨q, t, t1, t2, t3, t4, t5, _⟩ := lsq_hess hs h heps k1 k2 k3 k4 (Or.inl hch)
    simp only [Lsq.step, t1, Option.map_some, Option.some.injEq] at hst
    subst hst
    exact ⟨t2, t5, t3⟩
  | residuals g =>
    obtain ⟨t, t1, t2, t3, t4, t5, t6⟩ := lsqInv_residual hs h
    simp only [Lsq.step, Lsq.residuals] at hst
    split at hst
    · simp only [t1, Option.bind_some] at hst
      rcases hj : Vec.copy t.residual g with _ | q
      · simp [hj] at hst
      · simp only [hj, Option.map_some, Option.some.injEq] at hst
        subst hst
        exact ⟨t2, t6, t4⟩
    · simp at hst
  | setLm l =>
    cases hst
    exact ⟨⟨h.pt, h.rdim, h.fdim, h.hdim, h.rcap, h.fcap, h.hcap, h.res⟩, rfl, rfl⟩
  | nonzeros =>
    cases hst
    exact ⟨lsqInv_nonzeros h, rfl, rfl⟩

theorem latestPoint_cons (p : P) (o : Lsq.Op P K) (os : List (Lsq.Op P K)) :
    latestPoint p (o :: os) = latestPoint (latestPoint p [o]) os := by
  cases o <;> rfl

theorem lsqInv_run [IsStrictOrderedRing K] (hs : LsqSpec u ok r J cr cf ca) (hch : ca ≤ ch)
    (os : List (Lsq.Op P K)) :
    ∀ {s s' : Lsq P K}, LsqInv u ok r cr cf ch s → 0 ≤ s.zeroEps → Lsq.run u s os = some s' →
    (∀ d g, Lsq.Op.hess d g ∈ os → d.WF ∧ d.dim = u.numVars ∧ g.dim = u.numVars ∧ ca ≤ g.cap) →
    (∀ p, Lsq.Op.setValue p ∈ os → ok p) →
    LsqInv u ok r cr cf ch s' ∧ s'.zeroEps = s.zeroEps ∧ s'.point = latestPoint s.point os := by
  induction os with
  | nil => intro s s' h _ hr _ _; cases hr; exact ⟨h, rfl, rfl⟩
  | cons o os ih =>
    intro s s' h heps hr hok hpt
    simp only [Lsq.run] at hr
    rcases hst : Lsq.step u s o with _ | t
    · simp [hst] at hr
    · simp only [hst, Option.bind_some] at hr
      obtain ⟨a1, a2, a3⟩ := lsqInv_step hs h heps hst
        (fun d g e => hok d g (e ▸ List.mem_cons_self))
        (fun p e => hpt p (e ▸ List.mem_cons_self)) hch
      obtain ⟨b1, b2, b3⟩ := ih a1 (a2 ▸ heps) hr (fun d g hm => hok d g (List.mem_cons_of_mem _ hm))
        (fun p hm => hpt p (List.mem_cons_of_mem _ hm))
      exact ⟨b1, b2.trans a2, by rw [b3, a3, ← latestPoint_cons]⟩

end

/-- A function object with enough room: created, and told the numbers of nonzeros,
where the room for the Hessian product comes either from the forward count or from
a nonzero Levenberg-Marquardt factor at creation. -/
def LsqRoom (u : LsqUser P K) (lm0 : K) (cr cf ca : Nat) : Prop :=
  cr ≤ u.residNnz.getD 0 ∧ cf ≤ u.fwdNnz.getD 0 ∧
    (ca ≤ u.fwdNnz.getD 0 ∨ (lm0 ≠ 0 ∧ ca ≤ u.numVars))

theorem lsqInv_create {u : LsqUser P K} {ok : P → Prop} {r : P → Nat → K} {cr cf ca : Nat} {p0 : P} {lm eps : K}
    {s : Lsq P K} (hc : Lsq.create u p0 lm eps = some s) (hr : LsqRoom u lm cr cf ca)
    (hp0 : ok p0) :
    LsqInv u ok r cr cf ca (Lsq.nonzeros u s) ∧ s.point = p0 ∧ s.zeroEps = eps ∧ s.lm = lm := by
  unfold Lsq.create at hc
  split at hc
  swap
  · simp at hc
  cases hc
  obtain ⟨a1, _, _, a4⟩ := reserveOpt_spec (Vec.create u.numRes 0 : Vec K) u.residNnz
  obtain ⟨b1, _, _, b4⟩ := reserveOpt_spec (Vec.create u.numRes 0 : Vec K) u.fwdNnz
  obtain ⟨c1, _, c3, c4⟩ := reserveOpt_spec (if lm ≠ 0 then (Vec.create u.numVars 0 : Vec K).reserve u.numVars
                        else Vec.create u.numVars 0) u.fwdNnz
  refine ⟨⟨hp0, a1, b1, c1.trans ?_, hr.1.trans a4, hr.2.1.trans b4, ?_, fun h => absurd h Bool.false_ne_true⟩,
    rfl, rfl, rfl⟩
  · split <;> rfl
  · rcases hr.2.2 with h | ⟨h1, h2⟩
    · exact h.trans c4
    · refine le_trans (h2.trans ?_) c3
      rw [if_pos h1]; exact le_max_right _ _

/-- the calls of a history are legal: points are admissible, Hessian products get a
valid direction and a destination of the right dimension with room for the result -/
def LsqLegal (u : LsqUser P K) (ok : P → Prop) (ca : Nat) (os : List (Lsq.Op P K)) : Prop :=
  (∀ d g, Lsq.Op.hess d g ∈ os → d.WF ∧ d.dim = u.numVars ∧ g.dim = u.numVars ∧ ca ≤ g.cap) ∧
    ∀ p, Lsq.Op.setValue p ∈ os → ok p

/-- C24: after every history of calls (in any order, any number of evaluations
between two `set_value`s, including changes of the Levenberg-Marquardt factor) the
objective value is half the squared norm of the residual at the point of the latest
`set_value`. -/
theorem C24_objective [IsStrictOrderedRing K] (u : LsqUser P K) (ok : P → Prop)
    (r : P → Nat → K)
    (J : P → Nat → Nat → K) (cr cf ca : Nat) (hs : LsqSpec u ok r J cr cf ca) (p0 : P) (hp0 : ok p0) (lm eps : K)
    (heps : 0 ≤ eps) (hroom : LsqRoom u lm cr cf ca) (s s' : Lsq P K)
    (hc : Lsq.create u p0 lm eps = some s) (os : List (Lsq.Op P K)) (hl : LsqLegal u ok ca os)
    (hrun : Lsq.run u (Lsq.nonzeros u s) os = some s') :
    ∃ s'', Lsq.objVal u s' =
      some ((1 / 2) * ∑ i ∈ range u.numRes, r (latestPoint p0 os) i ^ 2, s'') := by
  obtain ⟨h1, h2, h3, _⟩ := lsqInv_create (r := r) hc hroom hp0
  obtain ⟨g1, g2, g3⟩ := lsqInv_run hs le_rfl os h1 (by rw [← h3] at heps; exact heps) hrun hl.1 hl.2
  obtain ⟨t, t1, t2, t3, t4, _⟩ := lsqInv_residual hs g1
  refine ⟨t, ?_⟩
  unfold Lsq.objVal
  rw [t1]
  obtain ⟨w, hv⟩ := t2.res t3
  simp only [Option.map_some]
  rw [(C03_norms _ w).2, t2.rdim]
  have hp : t.point = latestPoint p0 os := by rw [t4, g3]; congr 1
  congr 3
  refine Finset.sum_congr rfl fun i hi => ?_
  rw [hv i (Finset.mem_range.mp hi), hp]

/-- C24: likewise the gradient is `Jᵀ r` at the latest point. -/
theorem C24_gradient [IsStrictOrderedRing K] (u : LsqUser P K) (ok : P → Prop)
    (r : P → Nat → K)
    (J : P → Nat → Nat → K) (cr cf ca : Nat) (hs : LsqSpec u ok r J cr cf ca) (p0 : P) (hp0 : ok p0) (lm eps : K)
    (heps : 0 ≤ eps) (hroom : LsqRoom u lm cr cf ca) (s s' : Lsq P K)
    (hc : Lsq.create u p0 lm eps = some s) (os : List (Lsq.Op P K)) (hl : LsqLegal u ok ca os)
    (hrun : Lsq.run u (Lsq.nonzeros u s) os = some s')
    (dest : Vec K) (hdd : dest.dim = u.numVars) (hcap : ca ≤ dest.cap) :
    ∃ g s'', Lsq.objGrad u s' dest = some (g, s'') ∧ g.WF ∧ g.dim = u.numVars ∧
      ∀ j < u.numVars, g.value j =
        ∑ i ∈ range u.numRes, J (latestPoint p0 os) i j * r (latestPoint p0 os) i := by
  obtain ⟨h1, h2, h3, _⟩ := lsqInv_create (r := r) hc hroom hp0
  obtain ⟨g1, g2, g3⟩ := lsqInv_run hs le_rfl os h1 (by rw [← h3] at heps; exact heps) hrun hl.1 hl.2
  obtain ⟨t, t1, t2, t3, t4, _⟩ := lsqInv_residual hs g1
  have hp : t.point = latestPoint p0 os := by rw [t4, g3]; congr 1
  obtain ⟨w, hv⟩ := t2.res t3
  obtain ⟨q, q1, q2⟩ := hs.adj t.point t.residual dest.clear.clear t2.pt w t2.rdim hdd rfl hcap
  refine ⟨q, t, ?_, q2.wf, q2.dim.trans hdd, fun j hj => ?_⟩
  · unfold Lsq.objGrad Lsq.jacAdjoint
    rw [t1]
    simp only [Option.bind_some]
    rw [if_pos ⟨t2.rdim, hdd⟩, q1]; rfl
  · rw [q2.val j (by rw [q2.dim]; exact hdd ▸ hj), ← hp]
    refine Finset.sum_congr rfl fun i hi => ?_
    rw [hv i (Finset.mem_range.mp hi)]

/-- C24: after every history the Hessian product is `(JᵀJ + lm I) d` at the latest
point, up to entries of magnitude at most `zero_eps` that are dropped (only if a
Levenberg-Marquardt term is added). -/
theorem C24_hessian [IsStrictOrderedRing K] (u : LsqUser P K) (ok : P → Prop)
    (r : P → Nat → K)
    (J : P → Nat → Nat → K) (cr cf ca : Nat) (hs : LsqSpec u ok r J cr cf ca) (p0 : P) (hp0 : ok p0) (lm eps : K)
    (heps : 0 ≤ eps) (hroom : LsqRoom u lm cr cf ca) (s s' : Lsq P K)
    (hc : Lsq.create u p0 lm eps = some s) (os : List (Lsq.Op P K)) (hl : LsqLegal u ok ca os)
    (hrun : Lsq.run u (Lsq.nonzeros u s) os = some s')
    (d dest : Vec K) (hd : d.WF) (hn : d.dim = u.numVars) (hdd : dest.dim = u.numVars)
    (hcap : ca ≤ dest.cap) :
    ∃ q s'', Lsq.hessProduct u s' d dest = some (q, s'') ∧ q.WF ∧ q.dim = u.numVars ∧
      ∀ j < u.numVars,
        |q.value j - ((∑ i ∈ range u.numRes, J (latestPoint p0 os) i j *
          ∑ k ∈ range u.numVars, J (latestPoint p0 os) i k * d.value k) + s'.lm * d.value j)| ≤ eps ∧
        (s'.lm = 0 → q.value j = ∑ i ∈ range u.numRes, J (latestPoint p0 os) i j *
          ∑ k ∈ range u.numVars, J (latestPoint p0 os) i k * d.value k) := by
  obtain ⟨h1, h2, h3, _⟩ := lsqInv_create (r := r) hc hroom hp0
  obtain ⟨g1, g2, g3⟩ := lsqInv_run hs le_rfl os h1 (by rw [← h3] at heps; exact heps) hrun hl.1 hl.2
  have he : s'.zeroEps = eps := g2.trans h3
  obtain ⟨q, t, q1, _, _, _, _, q3, q4, q5⟩ := lsq_hess hs g1 (by rw [he]; exact heps) hd hn hdd hcap
    (Or.inl le_rfl)
  have hp : s'.point = latestPoint p0 os := by rw [g3]; congr 1
  refine ⟨q, t, q1, q3, q4, fun j hj => ?_⟩
  obtain ⟨e, e1, e2⟩ := q5 j hj
  rw [hp, he] at e2
  simp only at e2
  rw [e1]
  constructor
  · rcases e2 with e2 | ⟨_, e2, e3⟩
    · rw [e2, sub_self, abs_zero]; exact heps
    · rw [e2, zero_sub, abs_neg]; exact e3
  · intro hz
    rcases e2 with e2 | ⟨e2, _⟩
    · rw [e2, hz]; simp
    · exact absurd hz e2

theorem gaussNewton_quad (m n : Nat) (J : Nat → Nat → K) (lm : K) (d : Nat → K) :
    ∑ j ∈ range n, d j * ((∑ i ∈ range m, J i j * ∑ k ∈ range n, J i k * d k) + lm * d j) =
      gaussNewtonForm m n J lm d := by
  unfold gaussNewtonForm
  have : ∀ j ∈ range n, d j * ((∑ i ∈ range m, J i j * ∑ k ∈ range n, J i k * d k) + lm * d j) =
      (∑ i ∈ range m, (J i j * d j) * ∑ k ∈ range n, J i k * d k) + lm * d j ^ 2 := by
    intro j _
    rw [mul_add, Finset.mul_sum]
    congr 1
    · exact Finset.sum_congr rfl fun i _ => by ring
    · ring
  rw [Finset.sum_congr rfl this, Finset.sum_add_distrib, Finset.sum_comm, Finset.mul_sum]
  congr 1
  refine Finset.sum_congr rfl fun i _ => ?_
  rw [← Finset.sum_mul, sq]

theorem gaussNewton_nonneg [IsStrictOrderedRing K] (m n : Nat) (J : Nat → Nat → K) (lm : K)
    (d : Nat → K) (h : 0 ≤ lm) : 0 ≤ gaussNewtonForm m n J lm d := by
  unfold gaussNewtonForm
  have h1 : 0 ≤ ∑ i ∈ range m, (∑ j ∈ range n, J i j * d j) ^ 2 :=
    Finset.sum_nonneg fun i _ => sq_nonneg _
  have h2 : 0 ≤ ∑ j ∈ range n, d j ^ 2 := Finset.sum_nonneg fun i _ => sq_nonneg _
  have := mul_nonneg h h2
  linarith

/-- C24: curvature of the model.  With `zero_eps = 0`, or without a
Levenberg-Marquardt term, the product `H d` satisfies `dᵀ H d = |J d|² + lm |d|²`,
which is nonnegative as long as the current factor is.  For a positive `zero_eps`
the two sides differ by at most `zero_eps · Σ |d_j|`.  Missing part of the property:
the factor can become negative, see `C24_negative_lm_violated`. -/
theorem C24_curvature_partial [IsStrictOrderedRing K] (u : LsqUser P K) (ok : P → Prop)
    (r : P → Nat → K)
    (J : P → Nat → Nat → K) (cr cf ca : Nat) (hs : LsqSpec u ok r J cr cf ca) (p0 : P) (hp0 : ok p0) (lm eps : K)
    (heps : 0 ≤ eps) (hroom : LsqRoom u lm cr cf ca) (s s' : Lsq P K)
    (hc : Lsq.create u p0 lm eps = some s) (os : List (Lsq.Op P K)) (hl : LsqLegal u ok ca os)
    (hrun : Lsq.run u (Lsq.nonzeros u s) os = some s')
    (d dest : Vec K) (hd : d.WF) (hn : d.dim = u.numVars) (hdd : dest.dim = u.numVars)
    (hcap : ca ≤ dest.cap) :
    ∃ q s'', Lsq.hessProduct u s' d dest = some (q, s'') ∧
      |∑ j ∈ range u.numVars, d.value j * q.value j -
        gaussNewtonForm u.numRes u.numVars (J (latestPoint p0 os)) s'.lm d.value| ≤
          eps * ∑ j ∈ range u.numVars, |d.value j| ∧
      (eps = 0 ∨ s'.lm = 0 → ∑ j ∈ range u.numVars, d.value j * q.value j =
        gaussNewtonForm u.numRes u.numVars (J (latestPoint p0 os)) s'.lm d.value) ∧
      (0 ≤ s'.lm → 0 ≤ gaussNewtonForm u.numRes u.numVars (J (latestPoint p0 os)) s'.lm d.value) := by
  obtain ⟨q, t, q1, q2, q3, q4⟩ := C24_hessian u ok r J cr cf ca hs p0 hp0 lm eps heps hroom s s' hc os hl hrun
    d dest hd hn hdd hcap
  have hmain : |∑ j ∈ range u.numVars, d.value j * q.value j -
        gaussNewtonForm u.numRes u.numVars (J (latestPoint p0 os)) s'.lm d.value| ≤
          eps * ∑ j ∈ range u.numVars, |d.value j| := by
    rw [← gaussNewton_quad, ← Finset.sum_sub_distrib, Finset.mul_sum]
    refine (Finset.abs_sum_le_sum_abs _ _).trans (Finset.sum_le_sum fun j hj => ?_)
    rw [← mul_sub, abs_mul, mul_comm]
    exact mul_le_mul_of_nonneg_right (q4 j (Finset.mem_range.mp hj)).1 (abs_nonneg _)
  refine ⟨q, t, q1, hmain, ?_, fun h => gaussNewton_nonneg _ _ _ _ _ h⟩
  rintro (h | h)
  · rw [h, zero_mul] at hmain
    exact sub_eq_zero.mp (abs_nonpos_iff.mp hmain)
  · rw [← gaussNewton_quad]
    refine Finset.sum_congr rfl fun j hj => ?_
    rw [(q4 j (Finset.mem_range.mp hj)).2 h, h, zero_mul, add_zero]

/-! A concrete instance: `r(x) = (x₀ + x₁)` over ℚ. -/

/-- user of the least-squares function `r(x) = x₀ + x₁` in two variables; the point
is a pair -/
def demoLsq (fwdNnz : Option Nat) : LsqUser (ℚ × ℚ) ℚ where
  numVars := 2
  numRes := 1
  resid p dest := dest.pushAll [(0, p.1 + p.2)]
  fwd _ d dest := dest.pushAll [(0, d.value 0 + d.value 1)]
  adj _ y dest := dest.pushAll [(0, y.value 0), (1, y.value 0)]
  residNnz := some 1
  fwdNnz := fwdNnz
  adjNnz := some 2

theorem demoLsq_spec (n : Option Nat) : LsqSpec (demoLsq n) (fun _ => True) (fun p _ => p.1 + p.2) (fun _ _ _ => 1) 1 1 2 := by
  have key : ∀ (dest : Vec ℚ) (l : List (Nat × ℚ)), dest.ents = [] → Srt l → (∀ e ∈ l, e.1 < dest.dim) →
      l.length ≤ dest.cap → ∃ v, dest.pushAll l = some v ∧ v.WF ∧ v.dim = dest.dim ∧ v.cap = dest.cap ∧
        v.ents = l := by
    intro dest l he hs hd hc
    have := Vec.pushAll_ok dest l (by rw [he]; exact hs) hd (by rw [he]; simpa using hc)
    rw [he, List.nil_append] at this
    exact ⟨_, this, ⟨hs, hd, hc⟩, rfl, rfl, rfl⟩
  refine ⟨fun p dest _ d1 d2 d3 => ?_, fun p d dest _ hd hn d1 d2 d3 => ?_, fun p y dest _ hy hm d1 d2 d3 => ?_⟩
  · obtain ⟨v, v1, v2, v3, v4, v5⟩ := key dest [(0, p.1 + p.2)] d2 (by simp [Srt])
      (by simp [d1, demoLsq]) (by simpa using d3)
    refine ⟨v, v1, v2, v3, v4.ge, fun i hi => ?_⟩
    rw [v3, d1] at hi
    have : i = 0 := by simp [demoLsq] at hi; exact hi
    subst this
    simp [Vec.value, valAt, v5, at?, orZero]
  · obtain ⟨v, v1, v2, v3, v4, v5⟩ := key dest [(0, d.value 0 + d.value 1)] d2 (by simp [Srt])
      (by simp [d1, demoLsq]) (by simpa using d3)
    refine ⟨v, v1, v2, v3, v4.ge, fun i hi => ?_⟩
    rw [v3, d1] at hi
    have : i = 0 := by simp [demoLsq] at hi; exact hi
    subst this
    simp [Vec.value, valAt, v5, at?, orZero, demoLsq, Finset.sum_range_succ]
  · obtain ⟨v, v1, v2, v3, v4, v5⟩ := key dest [(0, y.value 0), (1, y.value 0)] d2 (by simp [Srt])
      (by simp [d1, demoLsq]) (by simpa using d3)
    refine ⟨v, v1, v2, v3, v4.ge, fun i hi => ?_⟩
    rw [v3, d1] at hi
    have : i = 0 ∨ i = 1 := by simp [demoLsq] at hi; omega
    rcases this with rfl | rfl <;> simp [Vec.value, valAt, v5, at?, orZero, demoLsq]

/-- the hypotheses of the C24 theorems are met by a nontrivial history -/
example : LsqSpec (demoLsq (some 2)) (fun _ => True) (fun p _ => p.1 + p.2) (fun _ _ _ => 1) 1 1 2 ∧
    LsqRoom (demoLsq (some 2)) (0 : ℚ) 1 1 2 ∧
    ∃ s s', Lsq.create (demoLsq (some 2)) (0, 0) 0 0 = some s ∧
      LsqLegal (demoLsq (some 2)) (fun _ => True) 2
        [.setValue (1, 2), .objVal, .hess ⟨2, 2, [(0, 1)]⟩ ⟨2, 2, []⟩, .setLm 1, .setValue (3, 4)] ∧
      Lsq.run (demoLsq (some 2)) (Lsq.nonzeros (demoLsq (some 2)) s)
        [.setValue (1, 2), .objVal, .hess ⟨2, 2, [(0, 1)]⟩ ⟨2, 2, []⟩, .setLm 1, .setValue (3, 4)]
          = some s' ∧ s'.point = (3, 4) ∧ s'.lm = 1 := by
  refine ⟨demoLsq_spec _, ⟨by decide, by decide, Or.inl (by decide)⟩, ?_⟩
  refine ⟨_, _, rfl, ?_, rfl, rfl, rfl⟩
  refine ⟨fun d g h => ?_, fun _ _ => trivial⟩
  simp at h
  obtain ⟨rfl, rfl⟩ := h
  exact ⟨⟨by simp [Srt], by simp, by simp⟩, rfl, rfl, by decide⟩

/-- C24 is violated: the Levenberg-Marquardt factor is only checked at creation.
`sleqp_lsq_func_set_lm_factor` accepts a negative factor, after which the Hessian
product (still flagged positive semidefinite) has negative curvature. -/
theorem C24_negative_lm_violated :
    ∃ (s s' : Lsq (ℚ × ℚ) ℚ) (d q : Vec ℚ) (s'' : Lsq (ℚ × ℚ) ℚ),
      Lsq.create (demoLsq (some 2)) (0, 0) 0 0 = some s ∧
      Lsq.run (demoLsq (some 2)) (Lsq.nonzeros (demoLsq (some 2)) s) [.setValue (1, 2), .setLm (-1)]
        = some s' ∧
      d.WF ∧ Lsq.hessProduct (demoLsq (some 2)) s' d ⟨2, 2, []⟩ = some (q, s'') ∧
      ∑ j ∈ range 2, d.value j * q.value j < 0 := by
  obtain ⟨s, hs⟩ : ∃ s, Lsq.create (demoLsq (some 2)) ((0, 0) : ℚ × ℚ) 0 0 = some s := ⟨_, rfl⟩
  obtain ⟨s', hs'⟩ : ∃ s', Lsq.run (demoLsq (some 2)) (Lsq.nonzeros (demoLsq (some 2)) s)
      [.setValue (1, 2), .setLm (-1)] = some s' := ⟨_, rfl⟩
  have hd : (⟨2, 2, [(0, 1), (1, -1)]⟩ : Vec ℚ).WF := ⟨by simp [Srt], by simp, by simp⟩
  have hlm : s'.lm = -1 := by
    cases hs; cases hs'; rfl
  obtain ⟨q, t, h1, _, h2, _⟩ := C24_curvature_partial (demoLsq (some 2)) _ _ _ 1 1 2 (demoLsq_spec _) (0, 0)
    trivial 0 0
    le_rfl ⟨by decide, by decide, Or.inl (by decide)⟩ s s' hs _ ⟨by intro d g h; simp at h, fun _ _ => trivial⟩ hs'
    ⟨2, 2, [(0, 1), (1, -1)]⟩ ⟨2, 2, []⟩ hd rfl rfl (by decide)
  refine ⟨s, s', _, q, t, hs, hs', hd, h1, ?_⟩
  have h3 := h2 (Or.inl rfl)
  have h4 : gaussNewtonForm 1 2 (fun _ _ => (1 : ℚ)) (-1)
      (Vec.value ⟨2, 2, [(0, 1), (1, -1)]⟩) < 0 := by decide +kernel
  rw [hlm] at h3
  exact lt_of_eq_of_lt h3 h4

/-- C24 is violated: the room for the Hessian product is taken from the count of
*forward* products although it holds an *adjoint* product.  A user whose forward
products have one entry and whose adjoint products have two (reported truthfully),
whose product vector is large enough, and who enables the Levenberg-Marquardt term
after creation gets a push beyond the capacity of the internal vector. -/
theorem C24_hess_room_violated :
    ∃ (s s' : Lsq (ℚ × ℚ) ℚ),
      Lsq.create (demoLsq (some 1)) (0, 0) 0 0 = some s ∧
      Lsq.run (demoLsq (some 1)) (Lsq.nonzeros (demoLsq (some 1)) s) [.setValue (1, 2), .setLm 1]
        = some s' ∧
      Lsq.hessProduct (demoLsq (some 1)) s' ⟨2, 2, [(0, 1)]⟩ ⟨2, 2, []⟩ = none :=
  ⟨_, _, rfl, rfl, by rfl⟩

/-- C24: and the count it reports for Hessian products is the forward count, too
small for the products themselves: a product vector with just that capacity overruns. -/
theorem C24_hess_count_violated :
    ∃ (s s' : Lsq (ℚ × ℚ) ℚ) (n : Nat),
      Lsq.create (demoLsq (some 1)) (0, 0) 0 0 = some s ∧ Lsq.hessNnz (demoLsq (some 1)) = some n ∧
      Lsq.run (demoLsq (some 1)) (Lsq.nonzeros (demoLsq (some 1)) s) [.setValue (1, 2)] = some s' ∧
      Lsq.hessProduct (demoLsq (some 1)) s' ⟨2, 2, [(0, 1)]⟩ ⟨2, n, []⟩ = none :=
  ⟨_, _, _, rfl, rfl, rfl, by rfl⟩

end Sleqp
