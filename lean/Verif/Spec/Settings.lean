import Verif.Model.Settings

/-!
What is meant by "the last successfully written value" of a setting, by a legal value of an enumeration setting, and by the
updates a settings file asks for.
-/

namespace Sleqp

/-- legal values of an enumeration setting: the first few naturals (any combination of five flags for the derivative check), and
anything for the two settings of floating point flags -/
def LegalEnum (i : Fin 13) (v : Nat) : Prop :=
  match (![some 32, some 4, some 3, none, none, some 2, some 4, some 3, some 3, some 2, some 3, some 2, some 4] : Fin 13 → Option Nat) i with
  | none => True
  | some n => v < n

instance (i : Fin 13) (v : Nat) : Decidable (LegalEnum i v) := by
  unfold LegalEnum; split <;> infer_instance

/-- documented names of the values of the enumeration settings, in order -/
def docNames : Fin 13 → List String :=
  ![["Skip", "FirstObj", "FirstCons", "SecondSimple", "SecondObj", "SecondCons"],
    ["Exact", "SR1", "SimpleBFGS", "DampedBFGS"],
    ["LP", "LSQ", "Mixed"],
    [],
    [],
    ["None", "CenteredOL"],
    ["Trlib", "CG", "LSQR", "Auto"],
    ["None", "ZeroDual", "Inactive"],
    ["Direct", "Window", "Minstep"],
    ["Exact", "Approx"],
    ["Disabled", "Coarse", "Fine"],
    ["Narrow", "Wide"],
    ["Auto", "Standard", "Reduced", "Direct"]]

/-- the value of a name: its position, except for the derivative checks where names denote the empty set and single bits -/
def namedValue (i : Fin 13) (name : List Char) : Option Nat :=
  ((docNames i).findIdx? (fun s => s.toList = name)).map
    (fun p => if i = 0 then (if p = 0 then 0 else 2 ^ (p - 1)) else p)

/-- default values of the settings by name, as documented by the macros settings.c:21-63; enumerations by the name of the value -/
def docInts : List (String × Int) := [("num_quasi_newton_iterates", 5), ("max_newton_iterations", 100), ("num_threads", -1)]

def docBools : List (String × Bool) :=
  [("perform_newton_step", true), ("global_penalty_resets", true), ("perform_soc", true), ("use_quadratic_model", true),
    ("always_warm_start_lp", true), ("enable_preprocessor", false), ("enable_restoration_phase", true), ("lp_resolves", true)]

def docReals : List (String × ℚ) :=
  [("zero_eps", 1 / 10 ^ 20), ("eps", 1 / 10 ^ 10), ("obj_lower", -10 ^ 20), ("deriv_perturbation", 1 / 10 ^ 8),
    ("deriv_tol", 1 / 10 ^ 4), ("cauchy_tau", 1 / 2), ("cauchy_eta", 1 / 10), ("linesearch_tau", 1 / 2),
    ("linesearch_eta", 1 / 10 ^ 4), ("linesearch_cutoff", 1 / 10 ^ 6), ("feas_tol", 1 / 10 ^ 6), ("slack_tol", 1 / 10 ^ 6),
    ("stat_tol", 1 / 10 ^ 6), ("accepted_reduction", 1 / 10 ^ 8), ("deadpoint_bound", 1 / 10 ^ 12)]

def docEnums : List (String × String) :=
  [("deriv_check", "Skip"), ("hess_eval", "Exact"), ("dual_estimation_type", "LSQ"), ("bfgs_sizing", "CenteredOL"),
    ("tr_solver", "Auto"), ("polishing_type", "ZeroDual"), ("step_rule", "Direct"), ("linesearch", "Approx"),
    ("parametric_cauchy", "Disabled"), ("initial_tr_choice", "Narrow"), ("augmented Jacobian method", "Auto")]

/-- updates that are to be accepted -/
def Acceptable : Upd → Prop
  | .real k _ => 0 ≤ k ∧ k < 15
  | .enum k v => ∃ i : Fin 13, k = i.val ∧ LegalEnum i v
  | .enumStr k n => ∃ i : Fin 13, k = i.val ∧ (namedValue i n).isSome
  | .int k _ => 0 ≤ k ∧ k < 3
  | .bool k _ => 0 ≤ k ∧ k < 8

/-- a real setting after one more update -/
def realAfter (i : Fin 15) (old : Ext ℚ) : Upd → Ext ℚ
  | .real k v => if k = i.val then v else old
  | _ => old

/-- an integer setting after one more update -/
def intAfter (i : Fin 3) (old : Int) : Upd → Int
  | .int k v => if k = i.val then v else old
  | _ => old

/-- a Boolean setting after one more update -/
def boolAfter (i : Fin 8) (old : Bool) : Upd → Bool
  | .bool k v => if k = i.val then v else old
  | _ => old

/-- an enumeration setting after one more update: legal values and known names only -/
def enumAfter (i : Fin 13) (old : Nat) : Upd → Nat
  | .enum k v => if k = i.val ∧ LegalEnum i v then v else old
  | .enumStr k n => if k = i.val then (namedValue i n).getD old else old
  | _ => old

/-- the meaning of a Boolean value in a file -/
def meantBool (value : List Char) : Option Bool :=
  ([("1", true), ("true", true), ("0", false), ("false", false)].find? (fun e => e.1.toList = value)).map Prod.snd

/-- the update a pair of key and value in a file asks for; `none` if there is none -/
def askedUpd (p : Parsers) (key value : List Char) : Option Upd :=
  match (List.finRange 3).find? (fun i => intName i = key) with
  | some i => if (p.int value).2 then some (.int i.val (p.int value).1) else none
  | none =>
    match (List.finRange 15).find? (fun i => realName i = key) with
    | some i => if (p.real value).2 then some (.real i.val (p.real value).1) else none
    | none =>
      match (List.finRange 8).find? (fun i => boolName i = key) with
      | some i => (meantBool value).map (.bool i.val)
      | none =>
        match (List.finRange 13).find? (fun i => enumName i = key) with
        | some i => if (namedValue i value).isSome then some (.enumStr i.val value) else none
        | none => none

/-- a line "key value": a key that is not a comment and has no white space, white space, a value without white space, and
possibly white space at the end -/
structure PairLine (line key value : List Char) : Prop where
  split : ∃ ws tl, line = key ++ ws ++ value ++ tl ∧ ws ≠ [] ∧ (∀ c ∈ ws, isSpace c = true) ∧ (∀ c ∈ tl, isSpace c = true)
  key_ne : key ≠ []
  value_ne : value ≠ []
  key_word : ∀ c ∈ key, isSpace c = false
  value_word : ∀ c ∈ value, isSpace c = false
  no_comment : key.head? ≠ some '#'

/-- a comment or empty line -/
inductive BlankLine : List Char → Prop
  | empty (l : List Char) : (∀ c ∈ l, isSpace c = true) → BlankLine l
  | comment (l : List Char) : BlankLine ('#' :: l)

/-- a file all of whose lines are comments, empty or pairs asking for an update, with the updates it asks for -/
inductive WellFormed (p : Parsers) : List (List Char) → List Upd → Prop
  | nil : WellFormed p [] []
  | blank (l : List Char) (ls : List (List Char)) (us : List Upd) : BlankLine l → WellFormed p ls us → WellFormed p (l :: ls) us
  | pair (l key value : List Char) (ls : List (List Char)) (u : Upd) (us : List Upd) :
      PairLine l key value → askedUpd p key value = some u → WellFormed p ls us → WellFormed p (l :: ls) (u :: us)

end Sleqp
