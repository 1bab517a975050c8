import Verif.Lemmas.QnVec
import Verif.Lemmas.BfgsMat

/-! The ring buffer computations of a BFGS block compute the matrix recursion. -/

namespace Sleqp
open Matrix

variable {K : Type*} [Field K] [LinearOrder K] [IsStrictOrderedRing K]

theorem cdiv_ok {a b : K} (h : b ≠ 0) : cdiv a b = some (a / b) := by unfold cdiv; rw [if_neg h]

/-- the slots of a processed prefix carry the data of the recursion -/
inductive BfgsDone (n : Nat) (damped ol : Bool) (c : K) :
    List (BfgsSlot K) → Matrix (Fin n) (Fin n) K × Option (K × K × K) → Prop
  | nil : BfgsDone n damped ol c [] (c • (1 : Matrix (Fin n) (Fin n) K), none)
  | snoc {l : List (BfgsSlot K)} {st : Matrix (Fin n) (Fin n) K × Option (K × K × K)} {sl : BfgsSlot K}
      (h : BfgsDone n damped ol c l st) (hs : VOk n sl.s) (hy : VOk n sl.y) (hp : VOk n sl.p) (hr : VOk n sl.r)
      (ep : dense n sl.p = st.1 *ᵥ dense n sl.s)
      (eb : sl.bidir = dense n sl.s ⬝ᵥ st.1 *ᵥ dense n sl.s) (pb : 0 < sl.bidir)
      (er : dense n sl.r = powell damped st.1 (dense n sl.s) (dense n sl.y))
      (ers : sl.rs = dense n sl.r ⬝ᵥ dense n sl.s) (prs : 0 < sl.rs)
      (esz : sl.sizing = olSizing ol st.2 st.1 (dense n sl.s) (dense n sl.y))
      (eol : ol = true → sl.ys = dense n sl.y ⬝ᵥ dense n sl.s ∧ sl.ss = dense n sl.s ⬝ᵥ dense n sl.s) :
      BfgsDone n damped ol c (l ++ [sl]) (bfgsStep damped ol st (dense n sl.s, dense n sl.y))

variable {n : Nat} {damped ol : Bool} {c : K}

/-- the product loop over a processed prefix multiplies by the matrix -/
theorem bfgsDone_prod {l : List (BfgsSlot K)} {st : Matrix (Fin n) (Fin n) K × Option (K × K × K)}
    (h : BfgsDone n damped ol c l st) {d p0 : Vec K} (hd : VOk n d) (hp : VOk n p0) (he : p0.ents = d.ents) :
    ∃ q, l.foldlM (BfgsBlock.prodStep 0 n d) (p0.scale c) = some q ∧ VOk n q ∧
      dense n q = st.1 *ᵥ dense n d := by
  induction h with
  | nil =>
    obtain ⟨h1, h2⟩ := scale_dense hp c
    refine ⟨_, rfl, h1, ?_⟩
    rw [h2, smul_mulVec, one_mulVec, dense_of_ents he]
  | @snoc l st sl h hs hy hp' hr ep eb pb er ers prs esz eol ih =>
    obtain ⟨q, q1, q2, q3⟩ := ih
    rw [List.foldlM_append, q1]
    simp only [Option.bind_eq_bind, Option.bind_some, List.foldlM_cons, List.foldlM_nil, Option.pure_def]
    unfold BfgsBlock.prodStep
    rw [dot_dense hp' hd, Option.bind_some, dot_dense hr hd, Option.bind_some, cdiv_ok (ne_of_gt pb),
      Option.bind_some]
    obtain ⟨u, u1, u2, u3⟩ := addScaled_dense (r0 := Vec.create n 0) 1
      (-1 * (dense n sl.p ⬝ᵥ dense n d) / sl.bidir) q2 hp'
    rw [u1, Option.bind_some, cdiv_ok (ne_of_gt prs), Option.bind_some]
    obtain ⟨w, w1, w2, w3⟩ := addScaled_dense (r0 := Vec.create n 0) sl.sizing
      ((dense n sl.r ⬝ᵥ dense n d) / sl.rs) u2 hr
    refine ⟨w, by rw [w1]; rfl, w2, ?_⟩
    unfold bfgsStep
    simp only
    rw [bfgsUpdate_mulVec, w3, u3, q3, ← er, ← esz, ← ers, ep, ← eb]
    congr 2
    rw [one_smul, neg_one_mul, neg_div, neg_smul, sub_eq_add_neg]

theorem bfgsStep_snd (st : Matrix (Fin n) (Fin n) K × Option (K × K × K)) (p : (Fin n → K) × (Fin n → K)) :
    (bfgsStep damped ol st p).2 =
      some (p.2 ⬝ᵥ p.1, p.1 ⬝ᵥ p.1, powell damped st.1 p.1 p.2 ⬝ᵥ p.1) := rfl

/-- the sizing factor computed by the code -/
theorem sizing_spec {l : List (BfgsSlot K)} {st : Matrix (Fin n) (Fin n) K × Option (K × K × K)}
    (h : BfgsDone n damped true c l st) (hn : ∀ sl ∈ l, dense n sl.s ≠ 0) (sl : BfgsSlot K)
    (eb : sl.bidir = dense n sl.s ⬝ᵥ st.1 *ᵥ dense n sl.s) (pb : 0 < sl.bidir) (hs0 : dense n sl.s ≠ 0)
    (e1 : sl.ys = dense n sl.y ⬝ᵥ dense n sl.s) (e2 : sl.ss = dense n sl.s ⬝ᵥ dense n sl.s) :
    BfgsBlock.sizingFactor l.getLast? sl =
      some (olSizing true st.2 st.1 (dense n sl.s) (dense n sl.y)) := by
  cases h with
  | nil => rfl
  | @snoc l st' pr h hs hy hp' hr ep eb' pb' er ers prs esz eol =>
    obtain ⟨e3, e4⟩ := eol rfl
    have hpr := dot_self_pos (hn pr (by simp))
    have hcur := dot_self_pos hs0
    rw [List.getLast?_append]
    simp only [List.getLast?_singleton, Option.or_some, Option.some_or]
    unfold BfgsBlock.sizingFactor olSizing
    rw [bfgsStep_snd]
    simp only
    rw [← eb, ← e1, ← e2, ← e3, ← e4, ← er, ← ers]
    rw [← e4] at hpr
    rw [← e2] at hcur
    have hden : 1 / 2 * pr.rs / pr.ss + 1 / 2 * sl.bidir ≠ 0 := by positivity
    have hh : (1 : K) - 1 / 2 = 1 / 2 := by norm_num
    rw [hh, cdiv_ok hpr.ne', Option.bind_some, cdiv_ok hcur.ne', Option.bind_some, cdiv_ok hpr.ne', Option.bind_some,
      cdiv_ok hden, Option.map_some]

/-- the damping branch computes `powell` -/
theorem dampedDiff_spec {sl : BfgsSlot K} {product : Vec K} {B : Matrix (Fin n) (Fin n) K} (hs : VOk n sl.s)
    (hy : VOk n sl.y) (hp : VOk n product) (ep : dense n product = B *ᵥ dense n sl.s) {bidir ys : K}
    (eb : bidir = dense n sl.s ⬝ᵥ B *ᵥ dense n sl.s) (pb : 0 < bidir)
    (ey : ys = dense n sl.y ⬝ᵥ dense n sl.s) :
    ∃ r, BfgsBlock.dampedDiff 0 n damped sl product bidir ys = some (r, dense n r ⬝ᵥ dense n sl.s) ∧ VOk n r ∧
      dense n r = powell damped B (dense n sl.s) (dense n sl.y) := by
  unfold BfgsBlock.dampedDiff powell
  rw [← eb, ← ey]
  by_cases hd : damped = true ∧ ys < 1 / 5 * bidir
  · have hne : bidir - ys ≠ 0 := by have := hd.2; intro h; linarith
    rw [if_pos hd, if_pos hd, cdiv_ok hne, Option.bind_some]
    obtain ⟨r, r1, r2, r3⟩ := addScaled_dense (r0 := Vec.create n 0) ((1 - 1 / 5) * bidir / (bidir - ys))
      (1 - (1 - 1 / 5) * bidir / (bidir - ys)) hy hp
    refine ⟨r, by rw [r1, Option.bind_some, dot_dense r2 hs, Option.map_some], r2, ?_⟩
    rw [r3, ep]
    have hh : (1 : K) - 1 / 5 = 4 / 5 := by norm_num
    simp only [hh]
  · rw [if_neg hd, if_neg hd]
    obtain ⟨r, r1, r2, r3⟩ := copy_spec (t := Vec.create n 0) hy rfl
    have : dense n r = dense n sl.y := dense_of_ents r3
    exact ⟨r, by rw [r1, Option.map_some, this, ← ey], r2, this⟩

/-- data of a slot as stored by `push` -/
structure SlotIn (n : Nat) (damped ol : Bool) (sl : BfgsSlot K) : Prop where
  hs : VOk n sl.s
  hy : VOk n sl.y
  ok : PairOk damped (dense n sl.s, dense n sl.y)
  olv : ol = true → sl.ys = dense n sl.y ⬝ᵥ dense n sl.s ∧ sl.ss = dense n sl.s ⬝ᵥ dense n sl.s
  szv : ol = false → sl.sizing = 1

theorem processSlot_spec {b : BfgsBlock K} (hd : b.dim = n) (hr : b.ring.Inv) {k : Nat} (hk : k < b.ring.len)
    {st : Matrix (Fin n) (Fin n) K × Option (K × K × K)}
    (hdone : BfgsDone n b.damped b.ol b.scale (b.ring.window k) st) (hst : SymPos st.1)
    (hin : ∀ sl ∈ b.ring.window k, dense n sl.s ≠ 0)
    (hsl : SlotIn n b.damped b.ol (b.ring.arr (b.ring.slotAt k))) :
    ∃ sl', b.processSlot 0 k = some { b with ring := b.ring.setSlot k sl' } ∧
      SlotIn n b.damped b.ol sl' ∧ sl'.s = (b.ring.arr (b.ring.slotAt k)).s ∧
      sl'.y = (b.ring.arr (b.ring.slotAt k)).y ∧
      BfgsDone n b.damped b.ol b.scale (b.ring.window k ++ [sl'])
        (bfgsStep b.damped b.ol st (dense n sl'.s, dense n sl'.y)) := by
  obtain ⟨sl, hsle⟩ : ∃ sl, sl = b.ring.arr (b.ring.slotAt k) := ⟨_, rfl⟩
  rw [← hsle] at hsl ⊢
  obtain ⟨hs, hy, ok, olv, szv⟩ := hsl
  obtain ⟨p0, c1, c2, c3⟩ := copy_spec (t := Vec.create b.dim 0) hs hd
  obtain ⟨q, q1, q2, q3⟩ := bfgsDone_prod hdone hs c2 c3
  have hprod : b.hessProdRange 0 sl.s k = some q := by
    unfold BfgsBlock.hessProdRange
    rw [c1, Option.bind_some, hd, q1]
  have hbid : dense n q ⬝ᵥ dense n sl.s = dense n sl.s ⬝ᵥ st.1 *ᵥ dense n sl.s := by
    rw [q3, dotProduct_comm]
  have hbpos : 0 < dense n q ⬝ᵥ dense n sl.s := by rw [hbid]; exact hst.2 _ ok.1
  obtain ⟨r, r1, r2, r3⟩ := dampedDiff_spec (damped := b.damped) hs hy q2 q3 hbid hbpos rfl
  have hrs : 0 < dense n r ⬝ᵥ dense n sl.s := by
    rw [r3]; exact powell_pos _ _ _ (hst.2 _ ok.1) ok.2
  unfold BfgsBlock.processSlot
  simp only []
  rw [← hsle, hprod, Option.bind_some, dot_dense q2 hs, Option.bind_some, if_pos hbpos, dot_dense hy hs,
    Option.bind_some, hd, r1, Option.bind_some, if_pos hrs]
  rcases hol : b.ol with _ | _
  · rw [if_neg (by simp)]
    refine ⟨_, rfl, ⟨hs, hy, ok, by simp, fun _ => szv hol⟩, rfl, rfl, ?_⟩
    refine BfgsDone.snoc (hol ▸ hdone) hs hy q2 r2 q3 hbid hbpos r3 rfl hrs ?_ (by simp)
    simp only [szv hol]
    unfold olSizing
    rfl
  · rw [if_pos rfl]
    have hsz := sizing_spec (hol ▸ hdone) hin
      { sl with r := r, rs := dense n r ⬝ᵥ dense n sl.s, p := q, bidir := dense n q ⬝ᵥ dense n sl.s } hbid hbpos ok.1 (olv hol).1 (olv hol).2
    rw [hsz, Option.map_some]
    refine ⟨_, rfl, ⟨hs, hy, ok, fun _ => olv hol, by simp⟩, rfl, rfl, ?_⟩
    exact BfgsDone.snoc (hol ▸ hdone) hs hy q2 r2 q3 hbid hbpos r3 rfl hrs rfl (fun _ => olv hol)

/-- coordinates of the pair stored in a slot -/
def slotPair (n : Nat) (sl : BfgsSlot K) : (Fin n → K) × (Fin n → K) := (dense n sl.s, dense n sl.y)

theorem processLoop_spec (b : BfgsBlock K) (hd : b.dim = n) (hr : b.ring.Inv) (hsc : 0 < b.scale)
    (hin : ∀ i < b.ring.len, SlotIn n b.damped b.ol (b.ring.arr (b.ring.slotAt i))) :
    ∀ k ≤ b.ring.len, ∃ b', (List.range k).foldlM (BfgsBlock.processSlot 0) b = some b' ∧
      b'.dim = n ∧ b'.damped = b.damped ∧ b'.ol = b.ol ∧ b'.scale = b.scale ∧ b'.ring.Inv ∧
      b'.ring.len = b.ring.len ∧ b'.ring.num = b.ring.num ∧
      (∀ i < b.ring.len, SlotIn n b.damped b.ol (b'.ring.arr (b'.ring.slotAt i)) ∧
        slotPair n (b'.ring.arr (b'.ring.slotAt i)) = slotPair n (b.ring.arr (b.ring.slotAt i))) ∧
      (b.ol = false → (∀ i, (b.ring.arr i).sizing = 1) → ∀ i, (b'.ring.arr i).sizing = 1) ∧
      BfgsDone n b.damped b.ol b.scale (b'.ring.window k)
        (bfgsFold b.damped b.ol b.scale ((b.ring.window k).map (slotPair n))) := by
  intro k
  induction k with
  | zero =>
    intro _
    exact ⟨b, rfl, hd, rfl, rfl, rfl, hr, rfl, rfl, fun i hi => ⟨hin i hi, rfl⟩, fun _ h => h, BfgsDone.nil⟩
  | succ k ih =>
    intro hk
    obtain ⟨b1, a1, a2, a3, a4, a5, a6, a7, a8, a9, a11, a10⟩ := ih (by omega)
    have hok : ∀ p ∈ (b.ring.window k).map (slotPair n), PairOk b.damped p := by
      intro p hp
      obtain ⟨sl, hsl, rfl⟩ := List.mem_map.mp hp
      obtain ⟨i, hi, rfl⟩ := List.mem_map.mp hsl
      have : i < k := List.mem_range.mp hi
      exact (hin i (by omega)).ok
    have hst := bfgsFold_symPos b.damped b.ol hsc _ hok
    obtain ⟨sl', s1, s2, s3, s4, s5⟩ := processSlot_spec (b := b1) a2 a6 (k := k) (by omega)
      (st := bfgsFold b.damped b.ol b.scale ((b.ring.window k).map (slotPair n)))
      (by rw [a3, a4, a5]; exact a10) hst
      (by
        intro sl hsl
        obtain ⟨i, hi, rfl⟩ := List.mem_map.mp hsl
        have : i < k := List.mem_range.mp hi
        exact (a9 i (by omega)).1.ok.1)
      (by rw [a3, a4]; exact (a9 k (by omega)).1)
    have hpair : slotPair n sl' = slotPair n (b.ring.arr (b.ring.slotAt k)) := by
      rw [← (a9 k (by omega)).2]; unfold slotPair; rw [s3, s4]
    refine ⟨{ b1 with ring := b1.ring.setSlot k sl' }, ?_, a2, a3, a4, a5, Ring.setSlot_inv _ a6 _ _, a7, a8,
      ?_, ?_, ?_⟩
    · rw [List.range_succ, List.foldlM_append, a1]
      simp only [Option.bind_eq_bind, Option.bind_some, List.foldlM_cons, List.foldlM_nil, Option.pure_def]
      rw [s1]; rfl
    · intro i hi
      rw [Ring.setSlot_slotAt, Ring.setSlot_arr _ a6 _ (by omega) (by omega)]
      split
      · rename_i h; subst h
        exact ⟨by rw [← a3, ← a4]; exact s2, hpair⟩
      · exact a9 i hi
    · intro h1 h2 i
      show (if i = b1.ring.slotAt k then sl' else b1.ring.arr i).sizing = 1
      split
      · exact s2.szv (a4.trans h1)
      · exact a11 h1 h2 i
    · rw [Ring.setSlot_window_succ _ a6 _ (by omega), Ring.window_succ, List.map_append]
      unfold bfgsFold at s5 ⊢
      rw [List.foldl_append]
      rw [a3, a4, a5] at s5
      simp only [List.map_cons, List.map_nil, List.foldl_cons, List.foldl_nil]
      rw [← hpair]
      exact s5

theorem initialScale_spec {s y : Vec K} (hs : VOk n s) (hy : VOk n y) :
    BfgsBlock.initialScale damped s y = some (bfgsScale damped (dense n s) (dense n y)) := by
  unfold BfgsBlock.initialScale bfgsScale
  rw [dot_dense hy hs, Option.bind_some]
  by_cases h : dense n y ⬝ᵥ dense n s = 0
  · rw [if_pos h, if_pos h]
  · rw [if_neg h, if_neg h, cdiv_ok h, Option.map_some, normSq_dense hs]

end Sleqp
