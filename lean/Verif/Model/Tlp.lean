import Verif.Model.Process

/-!
# The predefined TLP markings

The four package variables `TLPWhite`, `TLPGreen`, `TLPAmber` and `TLPRed`, which `init` fills in from
JSON text.  The texts are given here as the JSON values they are; reading JSON text is the work of
`encoding/json`.
-/

namespace Stix

/-- The markings. -/
inductive Tlp
  | white
  | green
  | amber
  | red
deriving DecidableEq

/-- A JSON string without escapes. -/
def plainStr (s : Str) : Json := .str s s

/-- The JSON of one marking. -/
def tlpJson (id name level : Str) : Json := .obj
  [(b!"type", plainStr (b!"marking-definition")), (b!"spec_version", plainStr (b!"2.1")),
   (b!"id", plainStr id), (b!"created", plainStr (b!"2017-01-20T00:00:00.000Z")),
   (b!"definition_type", plainStr (b!"tlp")), (b!"name", plainStr name),
   (b!"definition", .obj [(b!"tlp", plainStr level)])]

/-- `tlpWhiteJSON`, `tlpGreenJSON`, `tlpAmberJSON`, `tlpRedJSON` (meta.go:393-448) -/
def tlpDoc : Tlp → Json
  | .white => tlpJson (b!"marking-definition--613f2e26-407d-48c7-9eca-b8e91df99dc9")
      (b!"TLP:WHITE") (b!"white")
  | .green => tlpJson (b!"marking-definition--34098fce-860f-48ae-8e50-ebd3cc5e41da")
      (b!"TLP:GREEN") (b!"green")
  | .amber => tlpJson (b!"marking-definition--f88d31f6-486f-44da-b317-01333bde0b82")
      (b!"TLP:AMBER") (b!"amber")
  | .red => tlpJson (b!"marking-definition--5e57c739-391a-4eb3-b6be-7d15ca92d5ed")
      (b!"TLP:RED") (b!"red")

/-- `mustParseTLP` (meta.go:386-391): panics on any error. -/
def mustParseTLP (F : Canon.FloatFmt) (j : Json) : Res Obj :=
  match decObj F (zeroObj .MarkingDefinition) j with
  | .ok o false => .ok o
  | _ => .panic

/-- The value of the package variable after `init` (meta.go:379-384). -/
def tlpVar (F : Canon.FloatFmt) (l : Tlp) : Res Obj := mustParseTLP F (tlpDoc l)

end Stix
