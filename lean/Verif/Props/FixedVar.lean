import Verif.Spec.FixedVar
import Verif.Props.Lsq
import Verif.Props.Remove
import Verif.Props.MatRemove
import Verif.Props.HessStruct
import Verif.Props.Scale
import Verif.Lemmas.QnVec

/-! C35: functions with fixed variables. -/

namespace Sleqp
open Finset
variable {K : Type*} [Field K] [LinearOrder K]

theorem pushAll_cap_eq {K : Type*} {v w : Vec K} {l : List (Nat × K)} (h : v.pushAll l = some w) : w.cap = v.cap := by
  unfold Vec.pushAll at h
  induction l generalizing v with
  | nil => simp at h; rw [h]
  | cons e t ih =>
    rw [List.foldlM_cons] at h
    cases hp : v.push e.1 e.2 with
    | none => rw [hp] at h; cases h
    | some x =>
      rw [hp] at h
      rw [ih h]
      unfold Vec.push at hp
      split at hp
      · cases hp; rfl
      · cases hp

theorem removeEntries_cap {K : Type*} {v t w : Vec K} {rem : List Nat} (h : v.removeEntries t rem = some w) : t.cap ≤ w.cap := by
  unfold Vec.removeEntries at h
  split at h
  · rw [pushAll_cap_eq h]; exact le_max_left _ _
  · cases h

theorem copy_cap_le {K : Type*} {v t w : Vec K} (h : v.copy t = some w) : t.cap ≤ w.cap := by
  unfold Vec.copy at h
  split at h
  · rw [pushAll_cap_eq h]; exact le_max_left _ _
  · cases h

theorem valAt_congr {l l' : List (Nat × K)} {i j : Nat} (h : at? l i = at? l' j) : valAt l i = valAt l' j := by
  unfold valAt; rw [h]

/-- C35: the point handed to the original function has the fixed values at the fixed variables and the given values at the
others, in order (`oldIdx` enumerates them increasingly, `C07_oldIdx_characterised`). -/
theorem C35_point {n : Nat} {fx : List (Nat × K)} (hs : Srt fx) (hr : ∀ e ∈ fx, e.1 < n) {p : Vec K} (hp : p.WF)
    (hd : p.dim + fx.length = n) :
    ∃ x, fixedPoint n fx p = some x ∧ VOk n x ∧ (∀ e ∈ fx, x.value e.1 = e.2) ∧
      ∀ i, x.value (oldIdx (fx.map Prod.fst) i) = p.value i := by
  obtain ⟨x, h1, h2, h3, h4, h5⟩ := C07_merge p (Vec.create n n) fx hp hs hr hd
  refine ⟨x, h1, ⟨h2, h3⟩, fun e he => ?_, fun i => valAt_congr (h5 i)⟩
  unfold Vec.value valAt
  rw [h4 e he]; rfl

/-- sums over all variables of terms vanishing at the fixed ones are sums over the remaining ones -/
theorem sum_oldIdx {rem : List Nat} (hs : rem.Pairwise (· < ·)) {n m : Nat} (hr : ∀ r ∈ rem, r < n)
    (hd : n = m + rem.length) {h : Nat → K} (h0 : ∀ k ∈ rem, h k = 0) :
    ∑ k ∈ range n, h k = ∑ i ∈ range m, h (oldIdx rem i) := by
  rw [← Finset.sum_image (s := range m) (g := oldIdx rem) (f := h) (fun a _ b _ hab => oldIdx_inj hs hab)]
  symm
  apply Finset.sum_subset
  · intro k hk
    obtain ⟨i, hi, rfl⟩ := Finset.mem_image.mp hk
    have := oldIdx_le rem i
    rw [Finset.mem_range] at hi ⊢
    omega
  · intro k hk hnot
    by_cases hm : k ∈ rem
    · exact h0 k hm
    · obtain ⟨i, rfl⟩ := oldIdx_surj hs hm
      exact absurd (Finset.mem_image.mpr ⟨i, mem_range.mpr (oldIdx_lt' hs hr hd (mem_range.mp hk)), rfl⟩) hnot

/-- C35: the reduced function evaluates the original function at the restored point; its gradient, Jacobian and Hessian
are those of the original restricted to the remaining variables. The destinations need no reserved
room (except for the constraint values). -/
theorem C35_func {u : FuncUser (Vec K) K} {ok : Vec K → Prop} {f : Vec K → K} {g c : Vec K → Nat → K}
    {J : Vec K → Nat → Nat → K} {H : Vec K → (Nat → K) → Nat → Nat → K} {cg cc cj ch : Nat}
    (h : FuncSpec u ok f g c J H cg cc cj ch) {fx : List (Nat × K)} (hs : Srt fx) (hr : ∀ e ∈ fx, e.1 < u.numVars)
    (hg : cg ≤ max u.numVars (u.gradNnz.getD u.numVars)) (hj : cj ≤ u.consJacNnz.getD (u.numVars * u.numCons))
    (hh : ch ≤ u.numVars) (row : Nat → Nat) (val : Nat → K) :
    FuncSpec (fixedFunc u fx row val) (fun p => ∃ x, fixedPoint u.numVars fx p = some x ∧ ok x)
      (fun p => (fixedPoint u.numVars fx p).elim 0 f)
      (fun p i => (fixedPoint u.numVars fx p).elim 0 fun x => g x (oldIdx (fx.map Prod.fst) i))
      (fun p i => (fixedPoint u.numVars fx p).elim 0 fun x => c x i)
      (fun p i j => (fixedPoint u.numVars fx p).elim 0 fun x => J x i (oldIdx (fx.map Prod.fst) j))
      (fun p y i j => (fixedPoint u.numVars fx p).elim 0 fun x =>
        H x y (oldIdx (fx.map Prod.fst) i) (oldIdx (fx.map Prod.fst) j)) 0 cc 0 0 := by
  have hs' : (fx.map Prod.fst).Pairwise (· < ·) := by rw [List.pairwise_map]; exact hs
  have hr' : ∀ r ∈ fx.map Prod.fst, r < u.numVars := by
    intro r hr1; obtain ⟨e, he, rfl⟩ := List.mem_map.mp hr1; exact hr e he
  have hlen : (fx.map Prod.fst).length ≤ u.numVars := by
    have := sorted_length_le hs' (a := 0) (k := u.numVars) (by simp) (by simpa using hr')
    exact this
  rw [List.length_map] at hlen
  have hn : u.numVars = (u.numVars - fx.length) + (fx.map Prod.fst).length := by rw [List.length_map]; omega
  -- removing entries of a filled vector
  have hrem : ∀ {v dest : Vec K} {F : Nat → K}, v.WF → v.dim = u.numVars → (∀ i < v.dim, v.value i = F i) →
      dest.dim = u.numVars - fx.length → ∃ r, v.removeEntries dest (fx.map Prod.fst) = some r ∧
        Fills dest (fun i => F (oldIdx (fx.map Prod.fst) i)) r := by
    intro v dest F v1 v2 v3 v4
    obtain ⟨r, r1, r2, r3, r4⟩ := C07_remove v dest (fx.map Prod.fst) v1 hs' (by rw [v2]; exact hr') (by rw [v2, v4]; exact hn)
    refine ⟨r, r1, r2, r3, removeEntries_cap r1, fun i hi => ?_⟩
    have := oldIdx_le (fx.map Prod.fst) i
    rw [← v3 (oldIdx (fx.map Prod.fst) i) (by rw [v2]; rw [r3, v4] at hi; omega)]
    exact valAt_congr (r4 i)
  refine ⟨?_, ?_, ?_, ?_, ?_⟩
  · rintro p ⟨x, hx, hok⟩
    show (fixedPoint u.numVars fx p).bind u.objVal = _
    rw [hx]; exact h.objVal x hok
  · rintro p dest ⟨x, hx, hok⟩ h1 h2 h3
    obtain ⟨v, v1, v2⟩ := h.objGrad x u.gradCache.clear hok rfl rfl hg
    obtain ⟨r, r1, r2⟩ := hrem v2.wf v2.dim v2.val h1
    refine ⟨r, ?_, ?_⟩
    · show (fixedPoint u.numVars fx p).bind _ = _
      rw [hx]
      show ((u.objGrad x u.gradCache.clear).bind _) = _
      rw [v1]; exact r1
    · rw [hx]; exact r2
  · rintro p dest ⟨x, hx, hok⟩ h1 h2 h3
    replace h1 : dest.dim = u.numCons := h1
    by_cases h0 : u.numCons ≠ 0
    · obtain ⟨v, v1, v2⟩ := h.consVal x dest.clear hok h1 rfl h3
      refine ⟨v, ?_, ?_⟩
      · show (fixedPoint u.numVars fx p).bind _ = _
        rw [hx]
        show u.callConsVal x dest = _
        unfold FuncUser.callConsVal
        rw [if_pos h0]; exact v1
      · rw [hx]; exact ⟨v2.wf, v2.dim, v2.cap, v2.val⟩
    · refine ⟨dest.clear, ?_, ⟨clear_wf dest, rfl, le_rfl, ?_⟩⟩
      · show (fixedPoint u.numVars fx p).bind _ = _
        rw [hx]
        show u.callConsVal x dest = _
        unfold FuncUser.callConsVal
        rw [if_neg h0]
      · intro i hi
        replace hi : i < dest.dim := hi
        omega
  · rintro p dest ⟨x, hx, hok⟩ h1 h2 h3 h4 h5
    replace h2 : dest.numRows = u.numCons := h2
    replace h3 : dest.numCols = u.numVars - fx.length := h3
    obtain ⟨m, m1, m2⟩ : ∃ m, u.callConsJac x (u.jacCache row val) = some m ∧ MatFills (u.jacCache row val) (J x) m := by
      unfold FuncUser.callConsJac
      by_cases h0 : u.numCons ≠ 0
      · rw [if_pos h0]
        obtain ⟨m, m1, m2⟩ := h.consJac x (u.jacCache row val).clear hok (Mat.clear_wf _) rfl rfl rfl
          (by show cj ≤ max 0 _; rw [Nat.zero_max]; exact hj)
        exact ⟨m, m1, m2.wf, m2.rows, m2.cols, m2.val⟩
      · rw [if_neg h0]
        refine ⟨_, rfl, Mat.clear_wf _, rfl, rfl, ?_⟩
        intro i hi
        replace hi : i < u.numCons := hi
        omega
    obtain ⟨r, r1, r2, r3, r4, r5⟩ := C07_mat_remove_cols m dest (fx.map Prod.fst) m2.wf hs' (by rw [m2.cols]; exact hr')
      (by rw [m2.cols, h3]; exact hn) (by rw [m2.rows, h2]; rfl)
    refine ⟨r, ?_, r2, r3, r4, fun i hi j hj => ?_⟩
    · show fixedConsJac u fx (u.jacCache row val) p dest = _
      unfold fixedConsJac
      rw [hx]
      simp only [Option.bind_some]
      rw [m1]; exact r1
    · rw [hx]
      show _ = J x i (oldIdx (fx.map Prod.fst) j)
      have := oldIdx_le (fx.map Prod.fst) j
      rw [← m2.val i (by rw [m2.rows]; show i < u.numCons; rw [r3, h2] at hi; exact hi) (oldIdx (fx.map Prod.fst) j)
        (by rw [m2.cols]; show _ < u.numVars; rw [r4, h3] at hj; omega)]
      exact valAt_congr (r5 i j hj)
  · rintro p d y dest ⟨x, hx, hok⟩ hd1 hd2 hy1 hy2 h1 h2 h3
    replace hd2 : d.dim = u.numVars - fx.length := hd2
    replace hy2 : y.dim = u.numCons := hy2
    obtain ⟨d', e1, e2, e3, e4, e5⟩ := C07_add_zero d (Vec.create u.numVars u.numVars) (fx.map Prod.fst) hd1 hs'
      (by rw [hd2]; exact hn.symm)
    replace e3 : d'.dim = u.numVars := e3
    obtain ⟨v, v1, v2⟩ := h.hessProd x d' y (Vec.create u.numVars u.numVars).clear hok e2 e3 hy1 hy2 rfl rfl hh
    obtain ⟨r, r1, r2⟩ := hrem v2.wf v2.dim v2.val h1
    refine ⟨r, ?_, ?_⟩
    · show (fixedPoint u.numVars fx p).bind _ = _
      rw [hx]
      simp only [Option.bind_some]
      rw [e1]
      simp only [Option.bind_some]
      unfold FuncUser.callHessProd
      rw [if_pos ⟨e3.symm, rfl, hy2.symm⟩, v1]
      exact r1
    · rw [hx]
      convert r2 using 2
      rename_i i
      rw [sum_oldIdx hs' hr' hn (fun k hk => by rw [e4 k hk, mul_zero])]
      apply Finset.sum_congr rfl
      intro k _
      rw [e5]; rfl

/-- C35: evaluating a (correct) function gives the right vectors and matrices whatever the destinations hold before: they are
cleared by the calls. -/
theorem C35_stale {P : Type*} {u : FuncUser P K} {ok : P → Prop} {f : P → K} {g c : P → Nat → K} {J : P → Nat → Nat → K}
    {H : P → (Nat → K) → Nat → Nat → K} {cg cc cj ch : Nat} (h : FuncSpec u ok f g c J H cg cc cj ch) {x : P} (hx : ok x) :
    (∀ dest : Vec K, dest.dim = u.numVars → cg ≤ dest.cap → ∃ v, u.callObjGrad x dest = some v ∧ Fills dest (g x) v) ∧
    (∀ dest : Vec K, dest.dim = u.numCons → cc ≤ dest.cap → ∃ v, u.callConsVal x dest = some v ∧ Fills dest (c x) v) ∧
    (∀ dest : Mat K, dest.WF → dest.numRows = u.numCons → dest.numCols = u.numVars → cj ≤ dest.cap →
      ∃ m, u.callConsJac x dest = some m ∧ MatFills dest (J x) m) ∧
    (∀ d y dest : Vec K, d.WF → d.dim = u.numVars → y.WF → y.dim = u.numCons → dest.dim = u.numVars → ch ≤ dest.cap →
      ∃ v, u.callHessProd x d y dest = some v ∧ Fills dest (fun j => ∑ k ∈ range u.numVars, H x y.value j k * d.value k) v) := by
  have fill : ∀ {dest v : Vec K} {F : Nat → K}, Fills dest.clear F v → Fills dest F v := fun q => ⟨q.wf, q.dim, q.cap, q.val⟩
  refine ⟨fun dest h1 h2 => ?_, fun dest h1 h2 => ?_, fun dest h0 h1 h2 h3 => ?_, fun d y dest h1 h2 h3 h4 h5 h6 => ?_⟩
  · obtain ⟨v, v1, v2⟩ := h.objGrad x dest.clear hx h1 rfl h2
    exact ⟨v, v1, fill v2⟩
  · unfold FuncUser.callConsVal
    split
    · obtain ⟨v, v1, v2⟩ := h.consVal x dest.clear hx h1 rfl h2
      exact ⟨v, v1, fill v2⟩
    · rename_i h0
      refine ⟨_, rfl, ⟨List.Pairwise.nil, by simp [Vec.clear], Nat.zero_le _⟩, rfl, le_rfl, fun i hi => ?_⟩
      have : dest.dim = 0 := by rw [h1]; omega
      replace hi : i < dest.dim := hi
      omega
  · unfold FuncUser.callConsJac
    split
    · obtain ⟨m, m1, m2⟩ := h.consJac x dest.clear hx (Mat.clear_wf dest) h1 h2 rfl h3
      exact ⟨m, m1, m2.wf, m2.rows, m2.cols, m2.val⟩
    · rename_i hc
      refine ⟨_, rfl, Mat.clear_wf dest, rfl, rfl, fun i hi => ?_⟩
      have : dest.numRows = 0 := by rw [h1]; omega
      replace hi : i < dest.numRows := hi
      omega
  · unfold FuncUser.callHessProd
    rw [if_pos ⟨h2.symm, h5.symm, h4.symm⟩]
    obtain ⟨v, v1, v2⟩ := h.hessProd x d y dest.clear hx h1 h2 h3 h4 h5 rfl h6
    exact ⟨v, v1, fill v2⟩

/-- removing entries does not lengthen a vector -/
theorem removeLoop_length {V : Type*} (rem : List Nat) (off : Nat) (src : List (Nat × V)) :
    (Vec.removeLoop rem off src).length ≤ src.length := by
  fun_induction Vec.removeLoop rem off src <;> simp_all <;> omega

theorem pushAll_ents_length {V : Type*} {v w : Vec V} {l : List (Nat × V)} (h : v.pushAll l = some w) :
    w.ents.length = v.ents.length + l.length := by
  induction l generalizing v with
  | nil => cases h; rfl
  | cons e t ih =>
    unfold Vec.pushAll at h
    rw [List.foldlM_cons] at h
    cases hp : v.push e.1 e.2 with
    | none => rw [hp] at h; cases h
    | some v' =>
      rw [hp] at h
      rw [ih h]
      unfold Vec.push at hp
      split at hp
      · cases hp
        simp only [List.length_append, List.length_cons, List.length_nil]
        omega
      · cases hp

theorem removeEntries_count {V : Type*} {v t w : Vec V} {rem : List Nat} (h : v.removeEntries t rem = some w) :
    w.ents.length ≤ v.ents.length := by
  unfold Vec.removeEntries at h
  split at h
  · rw [pushAll_ents_length h]
    have := removeLoop_length rem 0 v.ents
    show 0 + _ ≤ _
    omega
  · cases h

/-- C35: if a least-squares function delivers adjoint products with at most as many entries as it reports, so does the one with
fixed variables, for products that are valid vectors. -/
theorem C35_lsq_count {u : LsqUser (Vec K) K} {fx : List (Nat × K)} (hs : Srt fx) (hr : ∀ e ∈ fx, e.1 < u.numVars) {n : Nat}
    (hn : u.adjNnz = some n)
    (hu : ∀ x y dest v, u.adj x y dest = some v → VOk u.numVars v ∧ v.ents.length ≤ n) {p y dest w : Vec K}
    (hd : dest.dim = u.numVars - fx.length) (h : (fixedLsq u fx).adj p y dest = some w) :
    ∃ k, (fixedLsq u fx).adjNnz = some k ∧ w.ents.length ≤ k := by
  have hs' : (fx.map Prod.fst).Pairwise (· < ·) := by rw [List.pairwise_map]; exact hs
  have hr' : ∀ r ∈ fx.map Prod.fst, r < u.numVars := by
    intro r hr1; obtain ⟨e, he, rfl⟩ := List.mem_map.mp hr1; exact hr e he
  have hlen : (fx.map Prod.fst).length ≤ u.numVars :=
    sorted_length_le hs' (a := 0) (k := u.numVars) (by simp) (by simpa using hr')
  rw [List.length_map] at hlen
  obtain ⟨x, -, h2⟩ := Option.bind_eq_some_iff.mp h
  obtain ⟨v, v1, v2⟩ := Option.bind_eq_some_iff.mp h2
  obtain ⟨v3, v4⟩ := hu _ _ _ _ v1
  obtain ⟨w', w1, w2, w3, -⟩ := C07_remove v dest (fx.map Prod.fst) v3.1 hs' (by rw [v3.2]; exact hr')
    (by rw [v3.2, hd, List.length_map]; omega)
  rw [w1] at v2
  cases v2
  refine ⟨min (u.numVars - fx.length) n, by show u.adjNnz.map _ = _; rw [hn]; rfl, le_min ?_ ?_⟩
  · have := srt_length_le w2.srt w2.lt_dim
    rw [w3, hd] at this
    exact this
  · exact (removeEntries_count w1).trans v4

/-- C35: likewise for least-squares functions. -/
theorem C35_lsq {u : LsqUser (Vec K) K} {ok : Vec K → Prop} {r : Vec K → Nat → K} {J : Vec K → Nat → Nat → K}
    {cr cf ca : Nat} (h : LsqSpec u ok r J cr cf ca) {fx : List (Nat × K)} (hs : Srt fx) (hr : ∀ e ∈ fx, e.1 < u.numVars)
    (hres : cr ≤ u.residNnz.getD 0) (ha : ca ≤ u.numVars) :
    LsqSpec (fixedLsq u fx) (fun p => ∃ x, fixedPoint u.numVars fx p = some x ∧ ok x)
      (fun p i => (fixedPoint u.numVars fx p).elim 0 fun x => r x i)
      (fun p i j => (fixedPoint u.numVars fx p).elim 0 fun x => J x i (oldIdx (fx.map Prod.fst) j)) 0 cf 0 := by
  have hs' : (fx.map Prod.fst).Pairwise (· < ·) := by rw [List.pairwise_map]; exact hs
  have hr' : ∀ r ∈ fx.map Prod.fst, r < u.numVars := by
    intro r hr1; obtain ⟨e, he, rfl⟩ := List.mem_map.mp hr1; exact hr e he
  have hlen : (fx.map Prod.fst).length ≤ u.numVars :=
    sorted_length_le hs' (a := 0) (k := u.numVars) (by simp) (by simpa using hr')
  rw [List.length_map] at hlen
  have hn : u.numVars = (u.numVars - fx.length) + (fx.map Prod.fst).length := by rw [List.length_map]; omega
  have hdim : (Lsq.reserveOpt (Vec.create u.numRes 0 : Vec K) u.residNnz).clear.dim = u.numRes := by
    cases u.residNnz <;> rfl
  have hcap : cr ≤ (Lsq.reserveOpt (Vec.create u.numRes 0 : Vec K) u.residNnz).clear.cap := by
    cases hq : u.residNnz with
    | none => rw [hq] at hres; exact hres
    | some k =>
      rw [hq] at hres
      show cr ≤ max 0 k
      simpa using hres
  refine ⟨?_, ?_, ?_⟩
  · rintro p dest ⟨x, hx, hok⟩ h1 h2 h3
    replace h1 : dest.dim = u.numRes := h1
    obtain ⟨v, v1, v2⟩ := h.resid x _ hok hdim rfl hcap
    have v3 : v.dim = u.numRes := v2.dim.trans hdim
    obtain ⟨w, w1, w2, w3⟩ := copy_spec (v := v) (t := dest) ⟨v2.wf, v3⟩ h1
    refine ⟨w, ?_, w2.1, w2.2.trans h1.symm, copy_cap_le w1, fun i hi => ?_⟩
    · show (fixedPoint u.numVars fx p).bind _ = _
      rw [hx]
      simp only [Option.bind_some]
      rw [v1]; exact w1
    · rw [hx]
      show _ = r x i
      rw [← v2.val i (by rw [v3, ← w2.2]; exact hi)]
      unfold Vec.value; rw [w3]
  · rintro p d dest ⟨x, hx, hok⟩ hd1 hd2 h1 h2 h3
    replace hd2 : d.dim = u.numVars - fx.length := hd2
    obtain ⟨d', e1, e2, e3, e4, e5⟩ := C07_add_zero d (Vec.create u.numVars u.numVars) (fx.map Prod.fst) hd1 hs'
      (by rw [hd2]; exact hn.symm)
    obtain ⟨v, v1, v2⟩ := h.fwd x d' dest.clear hok e2 e3 h1 rfl h3
    refine ⟨v, ?_, v2.wf, v2.dim, v2.cap, fun i hi => ?_⟩
    · show (fixedPoint u.numVars fx p).bind _ = _
      rw [hx]
      simp only [Option.bind_some]
      rw [e1]; exact v1
    · rw [v2.val i hi, hx]
      show _ = ∑ j ∈ range (u.numVars - fx.length), J x i (oldIdx (fx.map Prod.fst) j) * d.value j
      rw [sum_oldIdx hs' hr' hn (fun k hk => by rw [e4 k hk, mul_zero])]
      apply Finset.sum_congr rfl
      intro k _
      rw [e5]
  · rintro p y dest ⟨x, hx, hok⟩ hy1 hy2 h1 h2 h3
    replace h1 : dest.dim = u.numVars - fx.length := h1
    obtain ⟨v, v1, v2⟩ := h.adj x y (Vec.create u.numVars u.numVars).clear hok hy1 hy2 rfl rfl ha
    have v3 : v.dim = u.numVars := v2.dim
    obtain ⟨w, r1, r2, r3, r4⟩ := C07_remove v dest (fx.map Prod.fst) v2.wf hs' (by rw [v3]; exact hr') (by rw [v3, h1]; exact hn)
    refine ⟨w, ?_, r2, r3, removeEntries_cap r1, fun i hi => ?_⟩
    · show (fixedPoint u.numVars fx p).bind _ = _
      rw [hx]
      simp only [Option.bind_some]
      rw [v1]; exact r1
    · rw [hx]
      have := oldIdx_le (fx.map Prod.fst) i
      show _ = ∑ k ∈ range u.numRes, J x k (oldIdx (fx.map Prod.fst) i) * y.value k
      rw [← v2.val (oldIdx (fx.map Prod.fst) i) (by rw [v3]; rw [r3, h1] at hi; omega)]
      exact valAt_congr (r4 i)

/-- one constraint `c(x) = x_0 + x_1`, whose count of Jacobian entries is not specified -/
def demoFunc : FuncUser (Vec ℚ) ℚ where
  numVars := 2
  numCons := 1
  objVal p := some (p.value 0 * p.value 1)
  objGrad p dest := (dest.push 0 (p.value 1)).bind fun v => v.push 1 (p.value 0)
  consVal p dest := dest.push 0 (p.value 0 + p.value 1)
  consJac _ dest := dest.clear.assembleFrom 0 [[(0, 1)], [(0, 1)]]
  hessProd _ d _ dest := (dest.push 0 (d.value 1)).bind fun v => v.push 1 (d.value 0)
  gradNnz := none
  consValNnz := none
  consJacNnz := none
  hessProdNnz := none

/-- C35: for least-squares functions which do not specify the number of Jacobian entries (`SLEQP_NONE`), no
room is reserved for the Jacobian of the original function: filling it fails, whereas it succeeds for a regular
function. -/
theorem C35_lsq_jacobian_violated (p : Vec ℚ) (hp : fixedPoint 2 [(0, (3 : ℚ))] p ≠ none) :
    fixedConsJac demoFunc [(0, 3)] (demoFunc.jacCacheLsq (fun _ => 0) fun _ => 0) p (Mat.create 1 1 1 (fun _ => 0) fun _ => 0) = none ∧
    ∃ m, fixedConsJac demoFunc [(0, 3)] (demoFunc.jacCache (fun _ => 0) fun _ => 0) p (Mat.create 1 1 1 (fun _ => 0) fun _ => 0) = some m := by
  obtain ⟨x, hx⟩ := Option.ne_none_iff_exists'.mp hp
  unfold fixedConsJac
  rw [show fixedPoint demoFunc.numVars [(0, (3 : ℚ))] p = some x from hx]
  exact ⟨rfl, _, rfl⟩

/-- C35: transforming a restored point gives the point back, and restoring a transformed point with the fixed values at the
fixed variables gives that point back. -/
theorem C35_roundtrip {n : Nat} {fx : List (Nat × K)} (hs : Srt fx) (hr : ∀ e ∈ fx, e.1 < n) :
    (∀ p : Vec K, p.WF → p.dim + fx.length = n → ∀ t : Vec K, t.dim = p.dim →
      ∃ x r, fixedPoint n fx p = some x ∧ x.removeEntries t (fx.map Prod.fst) = some r ∧ r.dim = p.dim ∧ r.ents = p.ents) ∧
    (∀ x : Vec K, VOk n x → (∀ e ∈ fx, x.value e.1 = e.2) → ∀ t : Vec K, n = t.dim + fx.length →
      ∃ p y, x.removeEntries t (fx.map Prod.fst) = some p ∧ fixedPoint n fx p = some y ∧ VOk n y ∧
        ∀ k, y.value k = x.value k) := by
  refine ⟨fun p hp hd t ht => ?_, fun x hx hv t ht => ?_⟩
  · exact C07_remove_merge p (Vec.create n n) t fx hp hs hr hd ht
  · obtain ⟨p, y, h1, h2, h3, h4, h5⟩ := C07_merge_remove x t (Vec.create n n) fx hx.1 hs (by rw [hx.2]; exact hr) hv
      (by rw [hx.2]; exact ht) hx.2.symm
    exact ⟨p, y, h1, h2, ⟨h3, h4.trans hx.2⟩, h5⟩

theorem fills1 {dest : Vec ℚ} {f : Nat → ℚ} (h1 : dest.dim = 1) (h2 : dest.ents = []) (h3 : 1 ≤ dest.cap) :
    ∃ v, dest.push 0 (f 0) = some v ∧ Fills dest f v := by
  obtain ⟨w, w1, w2, w3⟩ : ∃ w, dest.pushAll [(0, f 0)] = some w ∧ w.dim = dest.dim ∧ w.ents = [(0, f 0)] :=
    ⟨⟨dest.dim, dest.cap, [(0, f 0)]⟩, by
      rw [Vec.pushAll_ok _ _ (by rw [h2]; simp [Srt]) (by simp [h1]) (by rw [h2]; simpa using h3), h2]; rfl, rfl, rfl⟩
  have hc := pushAll_cap_eq w1
  refine ⟨w, by simpa [Vec.pushAll] using w1, ⟨by rw [w3]; simp [Srt], by rw [w3, w2, h1]; simp, by rw [w3, hc]; simpa using h3⟩,
    w2, hc.ge, fun i hi => ?_⟩
  rw [w2, h1] at hi
  have : i = 0 := by omega
  subst this
  unfold Vec.value; rw [w3]
  exact valAt_of_mem (l := [(0, f 0)]) (by simp [Srt]) (e := (0, f 0)) (by simp)

theorem fills2 {dest : Vec ℚ} {f : Nat → ℚ} (h1 : dest.dim = 2) (h2 : dest.ents = []) (h3 : 2 ≤ dest.cap) :
    ∃ v, ((dest.push 0 (f 0)).bind fun v => v.push 1 (f 1)) = some v ∧ Fills dest f v := by
  obtain ⟨w, w1, w2, w3⟩ : ∃ w, dest.pushAll [(0, f 0), (1, f 1)] = some w ∧ w.dim = dest.dim ∧ w.ents = [(0, f 0), (1, f 1)] :=
    ⟨⟨dest.dim, dest.cap, [(0, f 0), (1, f 1)]⟩, by
      rw [Vec.pushAll_ok _ _ (by rw [h2]; simp [Srt]) (by simp [h1]) (by rw [h2]; simpa using h3), h2]; rfl, rfl, rfl⟩
  have hc := pushAll_cap_eq w1
  refine ⟨w, by simpa [Vec.pushAll] using w1, ⟨by rw [w3]; simp [Srt], by rw [w3, w2, h1]; simp, by rw [w3, hc]; simpa using h3⟩,
    w2, hc.ge, fun i hi => ?_⟩
  rw [w2, h1] at hi
  have : i = 0 ∨ i = 1 := by omega
  unfold Vec.value; rw [w3]
  rcases this with rfl | rfl
  · exact valAt_of_mem (l := [(0, f 0), (1, f 1)]) (by simp [Srt]) (e := (0, f 0)) (by simp)
  · exact valAt_of_mem (l := [(0, f 0), (1, f 1)]) (by simp [Srt]) (e := (1, f 1)) (by simp)

theorem demoFunc_spec : FuncSpec demoFunc (VOk 2) (fun p => p.value 0 * p.value 1)
    (fun p i => if i = 0 then p.value 1 else p.value 0) (fun p _ => p.value 0 + p.value 1) (fun _ _ _ => 1)
    (fun _ _ j k => if j = k then 0 else 1) 2 1 2 2 := by
  refine ⟨fun _ _ => rfl, ?_, ?_, ?_, ?_⟩
  · intro p dest _ h1 h2 h3
    exact fills2 (f := fun i => if i = 0 then p.value 1 else p.value 0) h1 h2 h3
  · intro p dest _ h1 h2 h3
    exact fills1 (f := fun _ => p.value 0 + p.value 1) h1 h2 h3
  · intro p dest _ h0 h1 h2 h3 h4
    replace h1 : dest.numRows = 1 := h1
    replace h2 : dest.numCols = 2 := h2
    obtain ⟨m, m1, m2, m3, m4, m5⟩ := C09_assemble dest [[(0, (1 : ℚ))], [(0, 1)]] h2.symm (by simp [Srt]) (by simp [h1]) (by simpa using h4)
    refine ⟨m, m1, m2, m3, m4, fun i hi j hj => ?_⟩
    have hi0 : i = 0 := by omega
    subst hi0
    have hj' : j < 2 := by omega
    have : m.at? 0 j = some 1 := by
      rw [m5 j hj' 0 1]
      have : j = 0 ∨ j = 1 := by omega
      rcases this with rfl | rfl <;> simp
    show (m.at? 0 j).getD 0 = 1
    rw [this]; rfl
  · intro p d y dest _ _ _ _ _ h1 h2 h3
    obtain ⟨v, v1, v2⟩ := fills2 (f := fun j => ∑ k ∈ range demoFunc.numVars, (if j = k then 0 else 1) * d.value k) h1 h2 h3
    refine ⟨v, ?_, v2⟩
    rw [← v1]
    simp [demoFunc, Finset.sum_range_succ]

/-- non-vacuity: `demoFunc` with the first variable fixed to 3: `3 x`, gradient 3 -/
example : ∃ f g c J H, FuncSpec (fixedFunc demoFunc [(0, 3)] (fun _ => 0) fun _ => 0)
      (fun p => ∃ x, fixedPoint 2 [(0, 3)] p = some x ∧ VOk 2 x) f g c J H 0 1 0 0 ∧
    ∃ p : Vec ℚ, (∃ x, fixedPoint 2 [(0, (3 : ℚ))] p = some x ∧ VOk 2 x) ∧ f p = 15 ∧ g p 0 = 3 := by
  refine ⟨_, _, _, _, _, C35_func demoFunc_spec (fx := [(0, 3)]) (by simp [Srt]) (by simp [demoFunc]) (by decide) (by decide) (by decide) _ _, ?_⟩
  obtain ⟨x, h1, h2, h3, h4⟩ := C35_point (n := 2) (fx := [(0, (3 : ℚ))]) (by simp [Srt]) (by simp)
    (p := ⟨1, 1, [(0, 5)]⟩) ⟨by simp [Srt], by simp, by simp⟩ rfl
  have e0 : x.value 0 = 3 := h3 (0, 3) (by simp)
  have e1 : x.value 1 = 5 := h4 0
  have h1' : fixedPoint demoFunc.numVars [(0, (3 : ℚ))] ⟨1, 1, [(0, 5)]⟩ = some x := h1
  refine ⟨⟨1, 1, [(0, 5)]⟩, ⟨x, h1, h2⟩, ?_, ?_⟩
  · simp only [h1', Option.elim]
    rw [e0, e1]; norm_num
  · simp only [h1', Option.elim]
    rw [if_neg (by decide), e0]

/-- non-vacuity: `C35_lsq` with the variable of `demoResidual` fixed to 2 -/
example : ∃ r J, LsqSpec (fixedLsq demoResidual [(0, 2)]) (fun p => ∃ x, fixedPoint 1 [(0, 2)] p = some x ∧ VOk 1 x) r J 0 1 0 :=
  ⟨_, _, C35_lsq demoResidual_spec (by simp [Srt]) (by simp [demoResidual]) (by decide) (by decide)⟩

end Sleqp
