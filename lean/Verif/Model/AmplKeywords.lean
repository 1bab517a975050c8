import Verif.Model.Cmp

/-! Model of the options of the AMPL interface, `/repo/bindings/ampl/ampl_keywords.c`. -/

namespace Sleqp

/-- Kinds of keywords, bindings/ampl/ampl_keywords.c:281-423: options of the solver by their position among all of them (enum, int, bool and
real settings), the two names of the iteration limit, the time limit, the two names of the log level, stopping on errors. (`wantsol` is left to
the AMPL library.) -/
inductive AmplKey
  | setting (pos : Nat)
  | maxIter | maxIt
  | timeLimit
  | printLevel | outLev
  | haltOnError
  deriving DecidableEq

/-- `SleqpAmplKeywords`, bindings/ampl/ampl_keywords.c:40-50, with the settings and the log level. `info k` is the pointer kept with the keyword:
`true` if it points to its callback data, `false` if it points to a variable which is gone. `bad` counts the invalid options (`badopt_ASL`). Values
are numbers; yes and no are 1 and 0. -/
structure AmplOptions (K : Type*) where
  info : AmplKey → Bool
  settings : Nat → K
  iterLimit : K
  timeLimit : K
  logLevel : K
  haltOnError : Bool
  bad : Nat

variable {K : Type*} [Field K] [LinearOrder K]

namespace AmplOptions

/-- `sleqp_ampl_keywords_create`, bindings/ampl/ampl_keywords.c:425-445: `SLEQP_NONE` is -1. -/
def create (settings : Nat → K) (level : K) : AmplOptions K := ⟨fun _ => true, settings, -1, -1, level, false, 0⟩

/-- the pointer of keyword `k` is set to a local variable -/
def dangle (s : AmplOptions K) (k : AmplKey) : AmplOptions K := { s with info := fun j => if j = k then false else s.info j }

/-- One option: `kwdfunc_enum`, bindings/ampl/ampl_keywords.c:52-77, `kwdfunc_int`, bindings/ampl/ampl_keywords.c:79-104, `kwdfunc_bool`,
bindings/ampl/ampl_keywords.c:106-136, `kwdfunc_param`, bindings/ampl/ampl_keywords.c:138-162 (`accepts` tells whether the setting takes the value),
`kwdfunc_iterlimit`, bindings/ampl/ampl_keywords.c:164-189, `kwdfunc_timelimit`, bindings/ampl/ampl_keywords.c:191-216, `kwdfunc_log_level`,
bindings/ampl/ampl_keywords.c:218-241 (levels from `lo` to `hi`), `kwdfunc_haltonerror`, bindings/ampl/ampl_keywords.c:243-273. The value was parsed
by the library. `none` stands for the use of a pointer to a variable which is gone. -/
def apply (accepts : Nat → K → Bool) (lo hi : K) (s : AmplOptions K) (k : AmplKey) (v : K) : Option (AmplOptions K) :=
  let t := s.dangle k
  match k with
  | .setting pos =>
    if s.info k then
      if accepts pos v then some { t with settings := fun p => if p = pos then v else s.settings p } else some { t with bad := s.bad + 1 }
    else none
  | .maxIter | .maxIt =>
    if v ≠ -1 then
      if s.info k then some { t with iterLimit := v, bad := if v < 0 then s.bad + 1 else s.bad } else none
    else some t
  | .timeLimit =>
    if v ≠ -1 then
      if s.info k then some { t with timeLimit := v, bad := if v < 0 then s.bad + 1 else s.bad } else none
    else some t
  | .printLevel | .outLev =>
    if v ≠ -1 then some { t with logLevel := v, bad := if v < lo ∨ hi < v then s.bad + 1 else s.bad }
    else some t
  | .haltOnError =>
    if v = 1 then (if s.info k then some { t with haltOnError := true } else none)
    else if v = 0 then (if s.info k then some { t with haltOnError := false } else none)
    else some { t with bad := s.bad + 1 }

/-- all options, first those of the environment, then those of the command line -/
def run (accepts : Nat → K → Bool) (lo hi : K) (s : AmplOptions K) (os : List (AmplKey × K)) : Option (AmplOptions K) :=
  os.foldlM (fun (s : AmplOptions K) o => s.apply accepts lo hi o.1 o.2) s

end AmplOptions
end Sleqp
