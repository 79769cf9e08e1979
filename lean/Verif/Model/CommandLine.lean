import Verif.Model.Program

/-!
# The command line

`Args` and `Args::parse` (`src/main.rs` 10-24, 29).  The parser is generated by clap 4.5 (`Cargo.toml`), whose source is not in
the repository: its rules for options that take one value (`model`) or one or more values (`variables`, `steps`), long and short
names, `--help` and `--version` are written down here from its documentation.  Arguments that are not UTF-8 are not modelled.
-/

namespace Verif.CommandLine

/-- The options that take values (`src/main.rs` 13-23). -/
inductive Opt where
  | model
  | variables
  | steps
  deriving DecidableEq, Repr

/-- The long name: the name of the field (`#[arg(long)]`). -/
def Opt.long : Opt → Text
  | .model => "model".toList
  | .variables => "variables".toList
  | .steps => "steps".toList

/-- The short name: the first letter of the field (`#[arg(short)]`). -/
def Opt.short : Opt → Char
  | .model => 'm'
  | .variables => 'v'
  | .steps => 's'

/-- `Args` (`src/main.rs` 12-24). -/
structure Args where
  model : Text
  vars : List Text
  steps : List Nat
  deriving DecidableEq, Repr

/-- What clap returns: the arguments, a message for `--help` or `--version` (exit status 0), or an error (exit status 2). -/
inductive Parsed where
  | args (a : Args)
  | info
  | error
  deriving DecidableEq, Repr

/-- What an argument is: the end of the options, an option with or without attached value, a request for help or version,
something unknown, or a plain value. -/
inductive Kind where
  | escape
  | option (o : Opt) (attached : Option Text)
  | info
  | unknown
  | value
  deriving DecidableEq, Repr

/-- The option with a long name. -/
def longOpt (name : Text) : Option Opt :=
  if name = Opt.model.long then some .model
  else if name = Opt.variables.long then some .variables
  else if name = Opt.steps.long then some .steps
  else none

/-- The option with a short name. -/
def shortOpt (c : Char) : Option Opt :=
  if c = 'm' then some .model else if c = 'v' then some .variables else if c = 's' then some .steps else none

/-- The value attached to a short option: `-sVALUE` or `-s=VALUE`. -/
def shortValue : Text → Option Text
  | [] => none
  | '=' :: v => some v
  | v => some v

/-- The name in front of the first `=`, and the value behind it. -/
def splitEq : Text → Text × Option Text
  | [] => ([], none)
  | '=' :: v => ([], some v)
  | c :: t => (c :: (splitEq t).1, (splitEq t).2)

/-- The kinds of arguments. -/
def kind : Text → Kind
  | ['-', '-'] => .escape
  | '-' :: '-' :: t =>
    match longOpt (splitEq t).1 with
    | some o => .option o (splitEq t).2
    | none =>
      if (splitEq t).1 = "help".toList ∨ (splitEq t).1 = "version".toList then
        if (splitEq t).2 = none then .info else .unknown
      else .unknown
  | '-' :: c :: t =>
    match shortOpt c with
    | some o => .option o (shortValue t)
    | none => if c = 'h' ∨ c = 'V' then .info else .unknown
  | _ => .value

/-- `str::parse::<usize>` on a 64-bit target: an optional plus sign and decimal digits. -/
def parseUSize (t : Text) : Option Nat :=
  let digits := stripPlus t
  if digits ≠ [] ∧ digits.all Char.isDigit then
    let v := digits.foldl (fun v c => 10 * v + digitValue c) 0
    if v < 2 ^ 64 then some v else none
  else none

/-- What has been given so far. -/
structure Seen where
  model : Option Text := none
  vars : List Text := []
  steps : List Nat := []
  deriving DecidableEq, Repr

/-- An option with its values: there must be at least one; `model` must not have been given before; the others are
appended; steps must be numbers. -/
def store (o : Opt) (vals : List Text) (s : Seen) : Option Seen :=
  match o, vals with
  | _, [] => none
  | .model, v :: _ => if s.model.isSome then none else some { s with model := some v }
  | .variables, vs => some { s with vars := s.vars ++ vs }
  | .steps, vs => (vs.mapM parseUSize).map fun ns => { s with steps := s.steps ++ ns }

/-- The option whose values are being collected is finished. -/
def flush : Option (Opt × List Text) → Seen → Option Seen
  | none, s => some s
  | some (o, vals), s => store o vals s

/-- The end of the arguments: the model is required. -/
def finish (p : Option (Opt × List Text)) (s : Seen) : Parsed :=
  match flush p s with
  | none => .error
  | some s =>
    match s.model with
    | none => .error
    | some m => .args ⟨m, s.vars, s.steps⟩

/-- The arguments from left to right. -/
def parse : Option (Opt × List Text) → Seen → List Text → Parsed
  | p, s, [] => finish p s
  | p, s, t :: ts =>
    match kind t with
    | .escape => if ts = [] then finish p s else .error
    | .unknown => .error
    | .info => if (flush p s).isSome then .info else .error
    | .option o (some v) =>
      match (flush p s).bind (store o [v]) with
      | some s => parse none s ts
      | none => .error
    | .option o none =>
      match flush p s with
      | some s => parse (some (o, [])) s ts
      | none => .error
    | .value =>
      match p with
      | none => .error
      | some (o, vals) => if o = .model ∧ vals ≠ [] then .error else parse (some (o, vals ++ [t])) s ts

/-- `Args::parse()` (`src/main.rs` 29). -/
def parseArgs (ts : List Text) : Parsed := parse none {} ts

/-- The whole program (`src/main.rs` 27-57): what a call with these arguments may write, and how it ends. -/
def call (e : Environment) (ts : List Text) : Effect :=
  match parseArgs ts with
  | .args a => mainEffect e a.model a.vars a.steps
  | _ => fun tr o => tr = [] ∧ o = .done

/-- The exit status of a call. -/
def callStatus (ts : List Text) (o : MapTileRenderer.Outcome) : Nat :=
  match parseArgs ts with
  | .args _ => exitStatus o
  | .info => 0
  | .error => 2

end Verif.CommandLine
