import Verif.Model.Text
import Verif.Model.Strconv

/-!
Runs the model of `FromJSON` (`fromJSONText`) and of `json.Marshal` of an object (`marshalAny`) on
files.  Not a model of any code of /repo and used by no theorem; started by `tools/conform.py`, which
compares with what the tests of /repo expect.
-/

namespace Stix.Conform

/-- How a call of `FromJSON` ended. -/
def outcome : Res (Coll (Any Empty)) → String
  | .ok _ => "ok"
  | .err _ => "err"
  | .panic => "panic"

/-- Bytes as a string to print. -/
def text (s : Str) : String := (String.fromUTF8? ⟨s.toArray⟩).getD "??"

/-- First argument `drop` for `DropCustomOption`, then the files.  Prints for each file the outcome
and the objects of the collection as they are written, `!` for those that are not. -/
def run (args : List String) : IO Unit := do
  let opts : List (CollOption Empty) := if args.head? == some "drop" then [.dropCustom] else []
  for f in args.tail do
    let r := fromJSONText (U := Empty) strconv opts (← IO.FS.readBinFile f).toList
    IO.println s!"@{f} {outcome r}"
    match r with
    | .ok c =>
      for b in c.objects do
        for o in b.2 do
          match marshalAny strconv o.2 with
          | some j => IO.println (text j.raw)
          | none => IO.println "!"
    | _ => pure ()

end Stix.Conform
