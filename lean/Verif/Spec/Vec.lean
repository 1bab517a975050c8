import Verif.Model.Vec

/-! Specification vocabulary for sparse vectors. -/

namespace Sleqp

/-- strictly increasing indices -/
def Srt {α : Type*} (l : List (Nat × α)) : Prop := l.Pairwise fun a b => a.1 < b.1

/-- A well formed sparse vector: strictly increasing indices, all within the
dimension, no more entries than the capacity. -/
structure Vec.WF {K : Type*} (v : Vec K) : Prop where
  srt : Srt v.ents
  lt_dim : ∀ e ∈ v.ents, e.1 < v.dim
  le_cap : v.ents.length ≤ v.cap

end Sleqp
