import Verif.Gen.Enums
import Verif.Model.Time
import Verif.Model.Base64

/-!
# Go types and values

The library's structs are described by tables (`Verif.Gen.Structs`, generated from the
sources); this file has the language of those tables and the values of the types they
describe.  Reflection (`reflect`) and `encoding/json` are interpreted over them in
`Verif.Model.Codec` and `Verif.Model.Option`.
-/

namespace Stix

mutual
/-- The Go types that occur in the library's structs.  The names keep apart defined types with
the same underlying type, which `reflect.Value.Set` distinguishes. -/
inductive Ty where
  /-- kind string: `string`, `Identifier`, `STIXType`, `Hex`, … -/
  | str (name : Str)
  | bool
  /-- `int` (64 bits wide here) or `int64` -/
  | int (name : Str)
  /-- `float64` -/
  | flt
  | enum (e : EnumId)
  /-- `Binary` -/
  | bin
  /-- `Timestamp` -/
  | time
  | slice (t : Ty)
  /-- `map[key]t`, or a defined type `name` over it; the kind of `key` is string -/
  | map (name key : Str) (t : Ty)
  | ptr (t : Ty)
  | struct (name : Str) (fs : Fields)
  /-- `interface{}` -/
  | dyn
  /-- `Extensions`, with the structs its decoder knows -/
  | ext (ks : Known)
  /-- `json.RawMessage` -/
  | raw

/-- The exported fields of a struct: Go name, JSON name, `omitempty`, type. -/
inductive Fields where
  | nil
  | cons (name key : Str) (omitE : Bool) (t : Ty) (rest : Fields)

/-- The extension keys with a struct of their own: key, Go name, fields. -/
inductive Known where
  | nil
  | cons (key name : Str) (fs : Fields) (rest : Known)
end

/-- One row of a struct table. -/
structure FieldInfo where
  name : Str
  key : Str
  omitE : Bool
  ty : Ty

/-- The table as a `Fields`. -/
def mkFields : List FieldInfo → Fields
  | [] => .nil
  | f :: fs => .cons f.name f.key f.omitE f.ty (mkFields fs)

/-- The rows of a table. -/
def Fields.toList : Fields → List FieldInfo
  | .nil => []
  | .cons n k o t r => ⟨n, k, o, t⟩ :: r.toList

@[simp] theorem toList_mkFields (l : List FieldInfo) : (mkFields l).toList = l := by
  induction l with
  | nil => rfl
  | cons f fs ih => simp [mkFields, Fields.toList, ih]

/-- `Known` from a list. -/
def mkKnown : List (Str × Str × Fields) → Known
  | [] => .nil
  | (k, n, fs) :: r => .cons k n fs (mkKnown r)

/-- An IEEE 754 double, as its bits. -/
abbrev F64 := UInt64

/-- What an `interface{}` holds: what `encoding/json` puts there (nil, bool, float64, string,
`[]interface{}`, `map[string]interface{}`), and two more that user code puts there and the
accessors of `CustomObject` look for (int64, []string).  Maps are listed by ascending key. -/
inductive Dyn where
  | nil
  | bool (b : Bool)
  | num (f : F64)
  | int (i : Int)
  | str (s : Str)
  | strs (l : List Str)
  | arr (l : List Dyn)
  | obj (m : List (Str × Dyn))

/-- A Go value; which Go type it has is said by a `Ty` beside it.  Maps are listed by ascending
key (a canonical form: a Go map has no order).  `struct` gives the value of each field by name.
`iface tag v` is an `interface{}` holding a pointer to the extension struct of key `tag`, or a
`*CustomObject` when the tag is empty. -/
inductive GV where
  | str (s : Str)
  | bool (b : Bool)
  | int (i : Int)
  | flt (f : F64)
  | enum (n : UInt8)
  | bin (b : Option Str)
  | time (t : GoTime)
  | slice (l : Option (List GV))
  | map (m : Option (List (Str × GV)))
  | ptr (p : Option GV)
  | struct (f : Str → GV)
  | dyn (d : Dyn)
  | iface (tag : Str) (v : GV)
  | raw (j : Json)

instance : Inhabited GV := ⟨.str []⟩

mutual
/-- The zero value of a type. -/
def zero : Ty → GV
  | .str _ => .str []
  | .bool => .bool false
  | .int _ => .int 0
  | .flt => .flt 0
  | .enum _ => .enum 0
  | .bin => .bin none
  | .time => .time ⟨yearStart 1 * 86400000000000, 0⟩
  | .slice _ => .slice none
  | .map _ _ _ => .map none
  | .ptr _ => .ptr none
  | .struct _ fs => .struct (zeroFields fs)
  | .dyn => .dyn .nil
  | .ext _ => .map none
  | .raw => .raw .null

/-- The zero values of the fields of a struct (names that are not fields are mapped to the
default value, so that two structs are equal when their fields are). -/
def zeroFields : Fields → Str → GV
  | .nil, _ => default
  | .cons n _ _ t rest, x => if x = n then zero t else zeroFields rest x
end

/-- `reflect.Kind`, the ones that occur. -/
inductive Kind where
  | string | bool | int | int64 | float64 | uint8 | slice | map | ptr | struct | interface
  deriving DecidableEq, Repr

/-- `reflect.Type.Kind` -/
def Ty.kind : Ty → Kind
  | .str _ => .string
  | .bool => .bool
  | .int n => if n = b!"int" then .int else .int64
  | .flt => .float64
  | .enum _ => .uint8
  | .bin => .slice
  | .time => .struct
  | .slice _ => .slice
  | .map _ _ _ => .map
  | .ptr _ => .ptr
  | .struct _ _ => .struct
  | .dyn => .interface
  | .ext _ => .map
  | .raw => .slice

/-- Identical Go types. Structs are compared by name. -/
def Ty.same : Ty → Ty → Bool
  | .str n, .str m => n = m
  | .bool, .bool => true
  | .int n, .int m => n = m
  | .flt, .flt => true
  | .enum e, .enum f => e = f
  | .bin, .bin => true
  | .time, .time => true
  | .slice t, .slice u => t.same u
  | .map n k t, .map m l u => n = m && k = l && t.same u
  | .ptr t, .ptr u => t.same u
  | .struct n _, .struct m _ => n = m
  | .dyn, .dyn => true
  | .ext _, .ext _ => true
  | .raw, .raw => true
  | _, _ => false

/-- `Type.Name() != ""`: predeclared and defined types are named, type literals are not. -/
def Ty.named : Ty → Bool
  | .slice _ => false
  | .map n _ _ => n ≠ []
  | .ptr _ => false
  | .dyn => false
  | _ => true

/-- Identical underlying types, for types whose underlying types can coincide with that of a type
literal; `Extensions` is a `map[string]interface{}`, `Binary` and `json.RawMessage` are `[]byte`
(which no field has, so they only agree with each other). -/
def Ty.sameUnder : Ty → Ty → Bool
  | .map _ k t, .map _ l u => k = l && t.same u
  | .ext _, .map _ l u => l = b!"string" && u.same .dyn
  | .map _ k t, .ext _ => k = b!"string" && t.same .dyn
  | .bin, .raw => true
  | .raw, .bin => true
  | .str _, .str _ => true
  | .int n, .int m => n = m
  | .enum _, .enum _ => true
  | t, u => t.same u

/-- Assignability of a value of type `v` to a location of type `f` (Go specification,
"Assignability"): identical types, or identical underlying types of which at least one is not a
named type.  `reflect.Value.Set` panics when it fails. -/
def Ty.assignable (v f : Ty) : Bool :=
  v.same f || (v.sameUnder f && !(v.named && f.named))

end Stix
