import Verif.Model.Codec

/-!
# External references and kill chain phases

`data-types.go`.  A hash map argument is given by its canonical form.
-/

namespace Stix

/-- `*ExternalReference` -/
def tyExternalReference : Ty := .ptr (.struct (b!"ExternalReference") fieldsExternalReference)

/-- `NewExternalReference` (data-types.go:103-117) -/
def newExternalReference (name description url externalID : Str) (hashes : Option (List (Str × Str))) :
    Res GV :=
  if name = [] then .err .propertyMissing
  else if description = [] ∧ url = [] ∧ externalID = [] then .err .propertyMissing
  else .ok (.ptr (some (.struct fun x =>
    if x = b!"Name" then .str name
    else if x = b!"Description" then .str description
    else if x = b!"URL" then .str url
    else if x = b!"Hashes" then .map (hashes.map fun m => m.map fun e => (e.1, .str e.2))
    else if x = b!"ExternalID" then .str externalID
    else default)))

/-- `ParseExternalReference` (data-types.go:121-125) -/
def parseExternalReference (F : Canon.FloatFmt) (data : Json) : Res GV :=
  (dec F tyExternalReference (.ptr none) data).res

/-- `*KillChainPhase` -/
def tyKillChainPhase : Ty := .ptr (.struct (b!"KillChainPhase") fieldsKillChainPhase)

/-- `NewKillChainPhase` (data-types.go:418-423) -/
def newKillChainPhase (name phase : Str) : Res GV :=
  if name = [] ∨ phase = [] then .err .propertyMissing
  else .ok (.ptr (some (.struct fun x =>
    if x = b!"Name" then .str name
    else if x = b!"Phase" then .str phase
    else default)))

/-- `ParseKillChainPhase` (data-types.go:426-430) -/
def parseKillChainPhase (F : Canon.FloatFmt) (data : Json) : Res GV :=
  (dec F tyKillChainPhase (.ptr none) data).res

end Stix
