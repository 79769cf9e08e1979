import Verif.Model.CommandLine

/-!
# What a call prints

`src/main.rs` 27-57.  Printed lines are modelled up to the text of the error, which follows the beginning of the line given here.
Messages of panics and of wrong arguments go to the standard error stream and are told by the exit status; log messages
(`env_logger`) go there too.
-/

namespace Verif

open MapTileRenderer (Outcome)

/-- The beginning of the line that `main` prints for a model and a result, if it prints one (`src/main.rs` 31-56): an error of
rendering (`or_else(|e| { println!(..); Err(e) })`), or the name of an unknown model. -/
def mainPrints (model : Text) (o : Outcome) : Option Text :=
  if model = "icon-ch1".toList then
    match o with
    | .failed => some "error while rendering icon-ch1 forecast: ".toList
    | _ => none
  else if model = "icon-d2".toList then
    match o with
    | .failed => some "error while rendering icon-d2 forecast: ".toList
    | _ => none
  else if model = "icon-eu".toList then
    match o with
    | .failed => some "error while rendering icon-eu forecast: ".toList
    | _ => none
  else some ("unknown model: ".toList ++ model)

namespace CommandLine

/-- The standard output of a call: nothing, the answer to `--help` or `--version`, or a line with this beginning. -/
inductive Stdout where
  | nothing
  | info
  | line (beginning : Text)
  deriving DecidableEq, Repr

/-- What a call prints (`src/main.rs` 27-57; clap prints help and version on the standard output, errors elsewhere). -/
def callPrints (ts : List Text) (o : Outcome) : Stdout :=
  match parseArgs ts with
  | .args a =>
    match mainPrints a.model o with
    | some t => .line t
    | none => .nothing
  | .info => .info
  | .error => .nothing

end CommandLine

end Verif
