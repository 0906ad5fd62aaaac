import Verif.Model.Option
import Verif.Model.Codec

/-!
# Serialisation of objects

`marshalToJSONHelper` and `valueToMap`, by which all object kinds but `ExtensionDefinition` are
written.
-/

namespace Stix

/-- `reflect.Value.IsZero` of a value that is no struct; in particular an empty non-nil slice or map
is not zero, and negative zero is not (it is since Go 1.22). -/
def isZeroValue : GV → Bool
  | .str s => s = []
  | .bool b => b = false
  | .int i => i = 0
  | .flt f => f = 0
  | .enum n => n = 0
  | .bin b => b.isNone
  | .slice l => l.isNone
  | .map m => m.isNone
  | .ptr p => p.isNone
  | .dyn .nil => true
  | _ => false

mutual
/-- `reflect.Value.IsZero` of a value of the given type: of a struct, that of all its fields. -/
def isZeroOf : Ty → GV → Bool
  | .struct _ fs, v => match v with
    | .struct f => isZeroFields fs f
    | _ => false
  | _, v => isZeroValue v

/-- Every field is zero. -/
def isZeroFields : Fields → (Str → GV) → Bool
  | .nil, _ => true
  | .cons n _ _ t rest, f => isZeroOf t (f n) && isZeroFields rest f
end

/-- What `valueToMap` puts into the map: a field with its type, or an extended property. -/
inductive MV where
  | typed (t : Ty) (v : GV)
  | extra (d : Dyn)

/-- `fv.Kind() != reflect.Bool && fv.IsZero()` -/
def isUnset (t : Ty) (v : GV) : Bool := t.kind ≠ .bool && isZeroOf t v

/-- The loop of `valueToMap` (stix.go:1187-1218) over fields other than an embedded struct; `none`
is the error about a required property.  (Every field of the tables has a JSON tag; the unexported
field has none and is skipped.) -/
def fieldsToMap (val : Str → GV) :
    List FieldInfo → List (Str × MV) → Option (List (Str × MV))
  | [], m => some m
  | f :: fs, m =>
    if isUnset f.ty (val f.name) then
      if f.omitE then fieldsToMap val fs m else none
    else fieldsToMap val fs (smInsert f.key (.typed f.ty (val f.name)) m)

/-- Adding the extended properties (stix.go:1221-1255). -/
def addExtra (extra : Option (List (Str × Dyn))) (m : List (Str × MV)) : List (Str × MV) :=
  (extra.getD []).foldl (fun m e => smInsert e.1 (.extra e.2) m) m

/-- `objectToMap` (stix.go:1164-1168, 1170-1257) of a pointer to an object struct.  The embedded
struct comes first, with its extended properties at its end; the two kinds without one have
theirs at the end. -/
def objectToMap (o : Obj) : Option (List (Str × MV)) :=
  match baseOf o.sid with
  | .none =>
    (fieldsToMap o.val (ownFields o.sid).toList []).map fun m =>
      if o.sid = .MarkingDefinition ∨ o.sid = .LanguageContent then addExtra o.extra m else m
  | b =>
    (fieldsToMap o.val (baseFields b).toList []).bind fun m =>
      fieldsToMap o.val (ownFields o.sid).toList (addExtra o.extra m)

/-- `json.Marshal` of what is in the map. -/
def encMV (F : Canon.FloatFmt) : MV → Option Json
  | .typed t v => enc F t v
  | .extra d => encDyn F d

/-- `json.Marshal` of an object: `marshalToJSONHelper` (object.go:424-432) where the struct has a
`MarshalJSON` method that calls it, the standard encoding of a struct otherwise
(`ExtensionDefinition`). -/
def marshalObj (F : Canon.FloatFmt) (o : Obj) : Option Json :=
  if hasMarshalHelper o.sid then
    (objectToMap o).bind fun m => (encEntries (encMV F) m).map .obj
  else
    (encFields F (ownFields o.sid) o.val).map .obj

end Stix
