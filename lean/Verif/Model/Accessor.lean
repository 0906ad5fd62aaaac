import Verif.Model.Ctor

/-!
# The time accessors of the library's objects
-/

namespace Stix

/-- `return &o.F.Time`: dereferencing the field panics when it is nil. -/
def Obj.timeUnchecked (o : Obj) (field : Str) : Res (Option GoTime) :=
  match o.val field with
  | .ptr (some (.time t)) => .ok (some t)
  | _ => .panic

/-- `GetCreated`; `none` is nil (`if o.Created == nil { return nil }; return &o.Created.Time` but in the
observables and `ExtensionDefinition`; object.go:136-141, 299-304, 392-394, meta.go:161-166, 297-302,
extension.go:209-211). -/
def Obj.getCreated (o : Obj) : Res (Option GoTime) :=
  match baseOf o.sid with
  | .sro => .ok (o.getTime (b!"Created"))
  | .sdo => .ok (o.getTime (b!"Created"))
  | .sco => .ok none
  | .none =>
    if o.sid = .ExtensionDefinition then o.timeUnchecked (b!"Created")
    else .ok (o.getTime (b!"Created"))

/-- `GetModified`; `none` is nil (object.go:145-150, 308-313, 398-400, meta.go:170-175, 306-308,
extension.go:215-217). -/
def Obj.getModified (o : Obj) : Res (Option GoTime) :=
  match baseOf o.sid with
  | .sro => .ok (o.getTime (b!"Modified"))
  | .sdo => .ok (o.getTime (b!"Modified"))
  | .sco => .ok none
  | .none =>
    if o.sid = .ExtensionDefinition then o.timeUnchecked (b!"Modified")
    else if o.sid = .MarkingDefinition then .ok none
    else .ok (o.getTime (b!"Modified"))

end Stix
