import Verif.Model.Threads

/-! What threads see when they are alone. -/

namespace Sleqp

/-- what concerns a thread: its error, what it has seen, counts and existence of objects -/
structure TView (ο : Type) where
  err : Option ℕ
  seen : List Seen
  rc : ο → Int
  freed : ο → Bool

variable {ι ο : Type} [DecidableEq ι] [DecidableEq ο]

/-- a call performed without interruption -/
def TView.call (v : TView ο) : TCall ο → TView ο
  | .setError e => { v with err := some e }
  | .readError => { v with seen := v.seen ++ [.error v.err] }
  | .capture o => { v with rc := fun x => if x = o then v.rc o + 1 else v.rc x }
  | .release o =>
    { v with rc := fun x => if x = o then v.rc o - 1 else v.rc x, freed := fun x => v.freed x || (x == o && v.rc o == 1) }
  | .use o => { v with seen := v.seen ++ [.exists? (!v.freed o)] }
  | .log t => { v with seen := v.seen ++ [.time t] }

/-- calls performed one after the other by a thread which is alone -/
def TView.calls (v : TView ο) (cs : List (TCall ο)) : TView ο := cs.foldl TView.call v

/-- the objects a call touches -/
def TCall.touches : TCall ο → Option ο
  | .capture o => some o
  | .release o => some o
  | .use o => some o
  | _ => none

/-- no object is touched by another thread than its owner -/
def Owned (own : ο → ι) (p : ι → List (TCall ο)) : Prop := ∀ i, ∀ c ∈ p i, ∀ o, c.touches = some o → own o = i

/-- the processor time used by the thread `i` itself -/
def Work.own (i : ι) (w : Work ι) : ℕ := ((w.filter fun x => x.1 = i).map Prod.snd).sum

end Sleqp
