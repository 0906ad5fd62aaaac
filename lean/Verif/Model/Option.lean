import Verif.Gen.Options
import Verif.Model.SortedMap

/-!
# Objects and options

A library object is a pointer to one of the 42 structs.  Its exported fields, its own and those
promoted from the embedded struct, are given by name: no name occurs twice
(`objFields_names_nodup`), so Go's promotion rule is never needed to choose between two.
-/

namespace Stix

/-- A pointer to one of the library's object structs.  `extra` is the unexported field
`toplevelProperties` (object.go:117, 256, 349, meta.go:132, 268): `none` is nil.  (The types
without that field have `none` there.) -/
structure Obj where
  sid : SId
  val : Str → GV
  extra : Option (List (Str × Dyn)) := none

/-- All exported fields of an object struct: those of the embedded struct first, as it is the
first field of every struct that has one. -/
def objFields (s : SId) : List FieldInfo := (baseFields (baseOf s)).toList ++ (ownFields s).toList

/-- The zero values of the listed fields. -/
def zeroVal : List FieldInfo → Str → GV
  | [], _ => default
  | f :: fs, x => if x = f.name then zero f.ty else zeroVal fs x

/-- `&T{}` -/
def zeroObj (s : SId) : Obj := { sid := s, val := zeroVal (objFields s) }

/-- Assignment to one field. -/
def setVal (f : Str → GV) (n : Str) (v : GV) : Str → GV := fun x => if x = n then v else f x

/-- Assignment to one field of an object. -/
def Obj.set (o : Obj) (n : Str) (v : GV) : Obj := { o with val := setVal o.val n v }

/-- The row of a field name. -/
def findField (n : Str) : List FieldInfo → Option FieldInfo
  | [] => none
  | f :: fs => if f.name = n then some f else findField n fs

/-- `reflect.Value.FieldByName` on an object struct: own fields, then promoted ones. -/
def fieldByName (s : SId) (n : Str) : Option FieldInfo :=
  (findField n (ownFields s).toList).orElse fun _ => findField n (baseFields (baseOf s)).toList

/-- `getFieldFromBaseStruct` (option.go:1499-1526).  `baseStructs` has the embedded structs of
observables and domain objects only; fields of the relationship base are found by promotion.
(All fields of the tables are exported, so `IsValid` implies `CanSet`.) -/
def getFieldFromBaseStruct (s : SId) (n : Str) : Option FieldInfo :=
  let inBase :=
    match baseOf s with
    | .sco => findField n fieldsSTIXCyberObservableObject.toList
    | .sdo => findField n fieldsSTIXDomainObject.toList
    | _ => none
  inBase.orElse fun _ => fieldByName s n

/-- `setField` (option.go:1462-1479) on a pointer to a struct (for others `reflectValue`,
option.go:1481-1497, is an error and nothing happens): the object afterwards and the outcome.  `ty` is the static type of the option's parameter, hence the dynamic type of `value`. -/
def setField (o : Obj) (field : Str) (ty : Ty) (value : GV) (kind : Kind) : Obj × Res Unit :=
  match getFieldFromBaseStruct o.sid field with
  | none => (o, .err .other)
  | some f =>
    if f.ty.kind ≠ kind then (o, .err .other)
    else if ty.assignable f.ty = false then (o, .panic)
    else (o.set f.name value, .ok ())

/-- `findFieldForExtension` (option.go:176-210): the last embedded struct found wins (there is
at most one), otherwise the struct itself. -/
def findFieldForExtension (s : SId) : Option FieldInfo :=
  let sub :=
    match baseOf s with
    | .none => (ownFields s).toList
    | b => (baseFields b).toList
  match findField (b!"Extensions") sub with
  | some f => if f.ty.kind = .map then some f else none
  | none => none

/-- `OptionExtension(name, value)` applied to an object (option.go:147-174).  The map is changed
in place and assigned; a nil map is replaced by an empty one first. -/
def optionExtension (name : Str) (value : GV) (o : Obj) : Obj × Res Unit :=
  match findFieldForExtension o.sid with
  | none => (o, .err .other)
  | some f =>
    match f.ty with
    | .ext _ =>
      let m := match o.val f.name with
        | .map (some m) => m
        | _ => []
      (o.set f.name (.map (some (smInsert name value m))), .ok ())
    -- `ev.Interface().(Extensions)` panics on any other type
    | _ => (o, .panic)

/-- What a program's own option does with the object it is given: new contents, and what it returns.
It has a pointer to the struct, so it can set every field, but the pointer and the Go type stay. -/
abbrev UserOpt := Obj → (Str → GV) × Option (List (Str × Dyn)) × Res Unit

/-- A `STIXOption`: a call of one of the library's option functions, or, as the type is a function
type (option.go:11-13), a function of the program.  (Such a function may do something else each time
it is called; then it stands in the list as different functions.) -/
inductive Opt where
  | field (row : OptRow) (value : GV)
  | extension (name : Str) (value : GV)
  | user (f : UserOpt)

/-- Applying an option to an object. -/
def Opt.apply : Opt → Obj → Obj × Res Unit
  | .field row v, o => setField o row.field row.ty v row.kind
  | .extension n v, o => optionExtension n v o
  | .user f, o => ({ o with val := (f o).1, extra := (f o).2.1 }, (f o).2.2)

/-- `applyOptions` (option.go:1450-1460); `none` is a nil option. -/
def applyOptions (o : Obj) : List (Option Opt) → Obj × Res Unit
  | [] => (o, .ok ())
  | none :: opts => applyOptions o opts
  | some opt :: opts =>
    match opt.apply o with
    | (o', .ok ()) => applyOptions o' opts
    | r => r

end Stix
