import Verif.Model.Log

/-!
Which messages are wanted.
-/

namespace Sleqp

/-- the level in force after a history which started with level `v` -/
def levelAfter {H : Type*} (v : Int) (ops : List (LogOp H)) : Int :=
  ops.foldl (fun v o => match o with
    | .setLevel w => w
    | _ => v) v

/-- the handler in force after a history which started with handler `h` -/
def handlerAfter {H : Type*} (h : H) (ops : List (LogOp H)) : H :=
  ops.foldl (fun h o => match o with
    | .setHandler g => g
    | _ => h) h

/-- the levels of the `logging` module of Python -/
def pyStandard : List Int := [0, 10, 20, 30, 40, 50]

end Sleqp
