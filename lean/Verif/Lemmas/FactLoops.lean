import Verif.Lemmas.FactBackendsSparse

/-! The loops of MA27 and MA57 which enlarge the work arrays. -/

namespace Sleqp
open Finset
variable {K : Type*} [Field K] [LinearOrder K] {H : Type*}

theorem Hsl.system_congr {h : Hsl K} {a a' : Buf K} {sys sys' : CoordSys K} (e : h.system a = some sys) (e' : h.system a' = some sys')
    (w : ∀ k < h.nnz, a.get k = a'.get k) : sys = sys' := by
  unfold Hsl.system at e e'
  split at e
  · split at e'
    · cases e; cases e'
      congr 1
      exact List.map_congr_left fun k hk => by rw [w k (List.mem_range.mp hk)]
    · cases e'
  · cases e

theorem Ma27.loop_ends {L : Ma27Lib H K} (hF : L.Frugal) {M : Mat K} {sys : CoordSys K} {need : Nat}
    (hneed : ∀ la liw, need ≤ la → (L.factor sys la liw).1 ≠ -4) :
    ∀ (d : Nat) (s : Ma27 H K), need - s.factorSize ≤ d → s.hsl.Holds M → s.hsl.system s.hsl.data = some sys →
      s.factor.size = s.factorSize → M.nnz ≤ s.factorSize → Ends fun fuel => Ma27.loop L fuel s := by
  intro d
  induction d with
  | zero =>
    intro s hd hh hsys hf hn
    refine ⟨1, fun fuel hfuel => ?_⟩
    obtain ⟨fuel, rfl⟩ : ∃ f, fuel = f + 1 := ⟨fuel - 1, by omega⟩
    show Ma27.loop L (fuel + 1) s ≠ .endless
    unfold Ma27.loop
    obtain ⟨a, e, z, w⟩ := writeRange_spec s.factor s.hsl.nnz s.hsl.data.get (by rw [hh.nnz]; omega)
    obtain ⟨sys', e1, -, -⟩ := hh.sys a (fun k hk => by rw [w k (by rw [hh.nnz]; exact hk), hh.dat k hk]) (by omega)
    have hsame := Hsl.system_congr hsys e1 fun k hk => (w k hk).symm
    subst hsame
    rw [e]
    simp only
    rw [e1]
    simp only
    rw [if_pos (by omega), if_neg (hneed _ _ (by omega))]
    split <;> exact fun h => by cases h
  | succ d ih =>
    intro s hd hh hsys hf hn
    obtain ⟨a, e, z, w⟩ := writeRange_spec s.factor s.hsl.nnz s.hsl.data.get (by rw [hh.nnz]; omega)
    obtain ⟨sys', e1, -, -⟩ := hh.sys a (fun k hk => by rw [w k (by rw [hh.nnz]; exact hk), hh.dat k hk]) (by omega)
    have hsame := Hsl.system_congr hsys e1 fun k hk => (w k hk).symm
    subst hsame
    by_cases h4 : (L.factor sys s.factorSize s.iw).1 = -4
    · have hg := hF.grows _ _ _ h4
      have hrs := Ma27.reserve_spec { s with factor := a } (max (L.factor sys s.factorSize s.iw).2.1 (size20 s.factorSize))
        (by show a.size = s.factorSize; omega)
      obtain ⟨n, hn'⟩ := ih (Ma27.reserve { s with factor := a } (max (L.factor sys s.factorSize s.iw).2.1 (size20 s.factorSize)))
        (by have := hrs.2.2.1; omega) (by rw [hrs.2.2.2.1]; exact hh) (by rw [hrs.2.2.2.1]; exact hsys) hrs.1 (le_trans hn hrs.2.1)
      refine ⟨n + 1, fun fuel hfuel => ?_⟩
      obtain ⟨fuel, rfl⟩ : ∃ f, fuel = f + 1 := ⟨fuel - 1, by omega⟩
      show Ma27.loop L (fuel + 1) s ≠ .endless
      unfold Ma27.loop
      rw [e]
      simp only
      rw [e1]
      simp only
      rw [if_pos (by omega), if_pos h4]
      exact hn' fuel (by omega)
    · refine ⟨1, fun fuel hfuel => ?_⟩
      obtain ⟨fuel, rfl⟩ : ∃ f, fuel = f + 1 := ⟨fuel - 1, by omega⟩
      show Ma27.loop L (fuel + 1) s ≠ .endless
      unfold Ma27.loop
      rw [e]
      simp only
      rw [e1]
      simp only
      rw [if_pos (by omega), if_neg h4]
      split <;> exact fun h => by cases h

theorem Ma57.loop_ends {L : Ma57Lib H K} {M : Mat K} {sys : CoordSys K} {nr ni : Nat}
    (hr : ∀ la lia, nr ≤ la → (L.factor sys la lia).1 ≠ -3) (hi : ∀ la lia, ni ≤ lia → (L.factor sys la lia).1 ≠ -4) :
    ∀ (d : Nat) (s : Ma57 H K), (nr - s.factorSize) + (ni - s.ifactorSize) ≤ d → s.hsl.Holds M →
      s.hsl.system s.hsl.data = some sys → 5 ≤ s.factorSize → 5 ≤ s.ifactorSize → Ends fun fuel => Ma57.loop L fuel s := by
  intro d
  induction d with
  | zero =>
    intro s hd hh hsys _ _
    refine ⟨1, fun fuel hfuel => ?_⟩
    obtain ⟨fuel, rfl⟩ : ∃ f, fuel = f + 1 := ⟨fuel - 1, by omega⟩
    show Ma57.loop L (fuel + 1) s ≠ .endless
    unfold Ma57.loop
    rw [hsys]
    simp only
    rw [if_neg (hr _ _ (by omega)), if_neg (hi _ _ (by omega))]
    split <;> exact fun h => by cases h
  | succ d ih =>
    intro s hd hh hsys hf hg
    have hf' := size20_lt hf
    have hg' := size20_lt hg
    by_cases h3 : (L.factor sys s.factorSize s.ifactorSize).1 = -3
    · have hlt : s.factorSize < nr := by
        by_contra hcon
        exact hr _ _ (not_lt.mp hcon) h3
      obtain ⟨n, hn⟩ := ih { s with factorSize := size20 s.factorSize } (by simp only; omega) hh hsys (by simp only; omega) hg
      refine ⟨n + 1, fun fuel hfuel => ?_⟩
      obtain ⟨fuel, rfl⟩ : ∃ f, fuel = f + 1 := ⟨fuel - 1, by omega⟩
      show Ma57.loop L (fuel + 1) s ≠ .endless
      unfold Ma57.loop
      rw [hsys]
      simp only
      rw [if_pos h3, if_pos hf']
      split
      · exact fun h => by cases h
      · exact hn fuel (by omega)
    · by_cases h4 : (L.factor sys s.factorSize s.ifactorSize).1 = -4
      · have hlt : s.ifactorSize < ni := by
          by_contra hcon
          exact hi _ _ (not_lt.mp hcon) h4
        obtain ⟨n, hn⟩ := ih { s with ifactorSize := size20 s.ifactorSize } (by simp only; omega) hh hsys hf (by simp only; omega)
        refine ⟨n + 1, fun fuel hfuel => ?_⟩
        obtain ⟨fuel, rfl⟩ : ∃ f, fuel = f + 1 := ⟨fuel - 1, by omega⟩
        show Ma57.loop L (fuel + 1) s ≠ .endless
        unfold Ma57.loop
        rw [hsys]
        simp only
        rw [if_neg h3, if_pos h4, if_pos hg']
        split
        · exact fun h => by cases h
        · exact hn fuel (by omega)
      · refine ⟨1, fun fuel hfuel => ?_⟩
        obtain ⟨fuel, rfl⟩ : ∃ f, fuel = f + 1 := ⟨fuel - 1, by omega⟩
        show Ma57.loop L (fuel + 1) s ≠ .endless
        unfold Ma57.loop
        rw [hsys]
        simp only
        rw [if_neg h3, if_neg h4]
        split <;> exact fun h => by cases h

end Sleqp
