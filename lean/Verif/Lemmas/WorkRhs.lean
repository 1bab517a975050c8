import Verif.Model.WorkStep
import Verif.Spec.Soc
import Verif.Lemmas.Cursor
import Verif.Props.WorkingSet
import Verif.Props.DualEstimation
import Verif.Props.Cauchy
import Verif.Props.MatRemove
import Verif.Props.Cmp

/-! Vectors assembled by pushing values at the positions of active entries. -/

namespace Sleqp

/-- position of a combined index (constraints behind the variables) -/
def posOf (w : WSet) (c : Nat) : Option Nat := if c < w.numVars then w.varIdx c else w.consIdx (c - w.numVars)

theorem posOf_iff {n m : Nat} {w : WSet} {l : List WEntry} (h : WRep n m w l) {c : Nat} (hc : c < n + m) {k : Nat} :
    posOf w c = some k ↔ k < l.length ∧ w.content k = c := by
  obtain ⟨q1, q2, q3, -⟩ := C30_queries h
  unfold posOf
  rw [h.nv, ← q1]
  split
  · rename_i hlt; exact q2 c hlt k
  · rename_i hge
    rw [q3 (c - n) (by omega) k]
    constructor <;> intro ⟨a, b⟩ <;> exact ⟨a, by omega⟩

section List
variable {K : Type*} [Field K] [LinearOrder K]

/-- the entries pushed for the combined indices `cs` -/
def rhsList (w : WSet) (f : Nat → Option K) (cs : List Nat) : List (Nat × K) :=
  cs.filterMap fun c => (posOf w c).bind fun k => (f c).map fun v => (k, v)

omit [Field K] [LinearOrder K] in
theorem mem_rhsList {w : WSet} {f : Nat → Option K} {cs : List Nat} {k : Nat} {v : K} :
    (k, v) ∈ rhsList w f cs ↔ ∃ c ∈ cs, posOf w c = some k ∧ f c = some v := by
  unfold rhsList
  rw [List.mem_filterMap]
  constructor
  · rintro ⟨c, hc, he⟩
    obtain ⟨k', h1, h2⟩ := Option.bind_eq_some_iff.mp he
    obtain ⟨v', h3, h4⟩ := Option.map_eq_some_iff.mp h2
    simp only [Prod.mk.injEq] at h4
    exact ⟨c, hc, by rw [h1, h4.1], by rw [h3, h4.2]⟩
  · rintro ⟨c, hc, h1, h2⟩
    exact ⟨c, hc, by rw [h1, h2]; rfl⟩

omit [Field K] [LinearOrder K] in
theorem rhsList_srt {n m : Nat} {w : WSet} {l : List WEntry} (h : WRep n m w l) (ho : w.Ordered) (f : Nat → Option K)
    {cs : List Nat} (hs : cs.Pairwise (· < ·)) (hlt : ∀ c ∈ cs, c < n + m) : Srt (rhsList w f cs) := by
  have hsz := h.size
  unfold rhsList Srt
  rw [List.pairwise_filterMap]
  refine List.Pairwise.imp_of_mem ?_ hs
  intro c c' hc hc' hcc e he e' he'
  obtain ⟨k, h1, h2⟩ := Option.bind_eq_some_iff.mp he
  obtain ⟨k', h1', h2'⟩ := Option.bind_eq_some_iff.mp he'
  obtain ⟨v, -, rfl⟩ := Option.map_eq_some_iff.mp h2
  obtain ⟨v', -, rfl⟩ := Option.map_eq_some_iff.mp h2'
  obtain ⟨a1, a2⟩ := (posOf_iff h (hlt c hc)).mp h1
  obtain ⟨b1, b2⟩ := (posOf_iff h (hlt c' hc')).mp h1'
  show k < k'
  rcases Nat.lt_trichotomy k k' with hk | hk | hk
  · exact hk
  · subst hk; omega
  · have := ho k' k hk (by omega); omega

omit [Field K] [LinearOrder K] in
theorem rhsList_lt {n m : Nat} {w : WSet} {l : List WEntry} (h : WRep n m w l) (f : Nat → Option K)
    {cs : List Nat} (hlt : ∀ c ∈ cs, c < n + m) : ∀ e ∈ rhsList w f cs, e.1 < l.length := by
  rintro ⟨k, v⟩ he
  obtain ⟨c, hc, h1, -⟩ := mem_rhsList.mp he
  exact ((posOf_iff h (hlt c hc)).mp h1).1

omit [Field K] [LinearOrder K] in
theorem rhsList_length {n m : Nat} {w : WSet} {l : List WEntry} (h : WRep n m w l) (ho : w.Ordered) (f : Nat → Option K)
    {cs : List Nat} (hs : cs.Pairwise (· < ·)) (hlt : ∀ c ∈ cs, c < n + m) : (rhsList w f cs).length ≤ l.length := by
  have h1 := rhsList_srt h ho f hs hlt
  have h2 := rhsList_lt h f hlt
  have h3 : ((rhsList w f cs).map Prod.fst).Pairwise (· < ·) := by rw [List.pairwise_map]; exact h1
  have := sorted_length_le h3 (a := 0) (k := l.length) (by simp) (by
    intro r hr
    obtain ⟨e, he, rfl⟩ := List.mem_map.mp hr
    have := h2 e he; omega)
  simpa using this

theorem rhsList_value {n m : Nat} {w : WSet} {l : List WEntry} (h : WRep n m w l) (ho : w.Ordered) (f : Nat → Option K)
    {cs : List Nat} (hs : cs.Pairwise (· < ·)) (hlt : ∀ c ∈ cs, c < n + m) {k : Nat} (hk : k < l.length) :
    valAt (rhsList w f cs) k = if w.content k ∈ cs then (f (w.content k)).getD 0 else 0 := by
  have h1 := rhsList_srt h ho f hs hlt
  have hnone : (∀ e ∈ rhsList w f cs, e.1 ≠ k) → valAt (rhsList w f cs) k = 0 := fun hh => by
    unfold valAt; rw [at?_none_of_forall hh]; rfl
  split
  · rename_i hm
    rcases hf : f (w.content k) with _ | v
    · refine hnone ?_
      rintro ⟨k', v⟩ he rfl
      obtain ⟨c, hc, a1, a2⟩ := mem_rhsList.mp he
      obtain ⟨-, a3⟩ := (posOf_iff h (hlt c hc)).mp a1
      rw [a3, a2] at hf
      exact absurd hf (by simp)
    · have : (k, v) ∈ rhsList w f cs := mem_rhsList.mpr ⟨w.content k, hm, (posOf_iff h (hlt _ hm)).mpr ⟨hk, rfl⟩, hf⟩
      exact valAt_of_mem h1 this
  · rename_i hm
    refine hnone ?_
    rintro ⟨k', v⟩ he rfl
    obtain ⟨c, hc, a1, a2⟩ := mem_rhsList.mp he
    obtain ⟨-, a3⟩ := (posOf_iff h (hlt c hc)).mp a1
    exact hm (a3 ▸ hc)

omit [Field K] [LinearOrder K] in
/-- the list for variables and constraints, from the two parts -/
theorem rhsList_parts {n m : Nat} {w : WSet} {l : List WEntry} (h : WRep n m w l) (fv fc : Nat → Option K) {vs cs : List Nat}
    (hv : ∀ c ∈ vs, c < n) :
    rhsList w (fun c => if c < n then fv c else fc (c - n)) (vs ++ cs.map fun i => n + i) =
      vs.filterMap (fun i => (w.varIdx i).bind fun k => (fv i).map fun v => (k, v)) ++
      cs.filterMap (fun i => (w.consIdx i).bind fun k => (fc i).map fun v => (k, v)) := by
  unfold rhsList
  rw [List.filterMap_append, List.filterMap_map]
  congr 1
  · apply List.filterMap_congr
    intro i hi
    have hlt := hv i hi
    simp only [posOf, h.nv, if_pos hlt]
  · apply List.filterMap_congr
    intro i _
    have hlt : ¬ n + i < n := by omega
    simp only [Function.comp, posOf, h.nv, if_neg hlt, Nat.add_sub_cancel_left]

/-- the vector after all pushes -/
theorem rhs_pushed {n m : Nat} {w : WSet} {l : List WEntry} (h : WRep n m w l) (ho : w.Ordered) (f : Nat → Option K)
    {cs : List Nat} (hs : cs.Pairwise (· < ·)) (hlt : ∀ c ∈ cs, c < n + m) {r0 : Vec K} (he : r0.ents = [])
    (hd : r0.dim = l.length) (hc : l.length ≤ r0.cap) :
    ∃ r, r0.pushAll (rhsList w f cs) = some r ∧ r.WF ∧ r.dim = l.length ∧
      ∀ k < l.length, r.value k = if w.content k ∈ cs then (f (w.content k)).getD 0 else 0 := by
  have h1 := rhsList_srt h ho f hs hlt
  have h2 := rhsList_lt h f hlt
  have h3 := rhsList_length h ho f hs hlt
  refine ⟨_, Vec.pushAll_ok r0 _ (by rw [he]; exact h1) (fun e hm => by rw [hd]; exact h2 e hm) (by rw [he]; simp; omega), ?_, hd, ?_⟩
  · refine ⟨by simp only [he, List.nil_append]; exact h1, ?_, ?_⟩
    · simp only [he, List.nil_append]; intro e hm; rw [hd]; exact h2 e hm
    · simp only [he, List.nil_append]; omega
  · intro k hk
    show valAt (r0.ents ++ _) k = _
    rw [he, List.nil_append]
    exact rhsList_value h ho f hs hlt hk

omit [Field K] [LinearOrder K] in
theorem pushAll_append (v : Vec K) (a b : List (Nat × K)) : v.pushAll (a ++ b) = (v.pushAll a).bind fun u => u.pushAll b := by
  unfold Vec.pushAll; rw [List.foldlM_append]; rfl

omit [Field K] [LinearOrder K] in
/-- a loop of optional pushes -/
theorem foldlM_opt_push {τ : Type*} (g : τ → Option (Nat × K)) (body : Vec K → τ → Option (Vec K)) (ts : List τ)
    (hb : ∀ t ∈ ts, ∀ r, body r t = r.pushAll (g t).toList) (v : Vec K) :
    ts.foldlM body v = v.pushAll (ts.filterMap g) := by
  induction ts generalizing v with
  | nil => rfl
  | cons t ts ih =>
    rw [List.foldlM_cons, hb t (by simp) v]
    have e : (t :: ts).filterMap g = (g t).toList ++ ts.filterMap g := by
      rw [List.filterMap_cons]; cases g t <;> rfl
    rw [e, pushAll_append]
    show Option.bind _ _ = _
    congr 1
    funext u
    exact ih (fun t ht => hb t (by simp [ht])) u

omit [Field K] [LinearOrder K] in
theorem pushAt_some (r : Vec K) (k : Nat) (v : K) : pushAt r (some k) v = r.pushAll [(k, v)] := by
  unfold pushAt Vec.pushAll
  rw [Option.bind_some, List.foldlM_cons]
  cases r.push k v <;> rfl

end List
end Sleqp
