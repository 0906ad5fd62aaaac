import Verif.Model.Ctor
import Verif.Model.Marshal

/-!
# Parsing documents

`FromJSON` and `processObjects` (stix.go:953-1162), with the collection options.  A document is a
JSON value, or `none` when the bytes are not JSON.  Objects are taken as they are when they are
added; later changes through a retained pointer are in `Verif.Model.Heap`.
-/

namespace Stix

/-- What the library needs of a user's type behind a pointer, for objects that a user's parser
returns: `GetID` and `GetType` (and whether calling them panics), `json.Unmarshal` into the object,
the JSON names of its fields if it is a struct, whether it has `addCustomProperties` (it can only
have that by embedding a struct of the library), and `json.Marshal` given what that has set. -/
class UserType (U : Type) where
  getID : U → Str
  getType : U → Str
  panics : U → Bool
  decode : U → Json → D U
  keys : U → List Str
  canExtend : U → Bool
  marshal : U → Option (List (Str × Dyn)) → Option Json

/-- No user types. -/
instance : UserType Empty := ⟨nofun, nofun, nofun, nofun, nofun, nofun, nofun⟩

/-- A non-nil `STIXObject`: a pointer to an object of the library, to a `CustomObject` (nil map or
not), or to an object of a user's type, with the extended properties of the struct it embeds. -/
inductive Any (U : Type) where
  | lib (o : Obj)
  | custom (m : Option (List (Str × Dyn)))
  | user (u : U) (extra : Option (List (Str × Dyn)))

variable {U : Type} [UserType U]

/-- `val, ok := (*c)[key]; if !ok { return "" }; return val.(string)` (extension.go:337-353): the
assertion panics when there is something else. -/
def customText (m : Option (List (Str × Dyn))) (key : Str) : Res Str :=
  match amLookup key (m.getD []) with
  | none => .ok []
  | some (.str s) => .ok s
  | some _ => .panic

/-- `HasValidIdentifier` (data-types.go:182-195) panics: in `GetID`, or, if there are two parts, in
`GetType`. -/
def Any.panics : Any U → Bool
  | .lib _ => false
  | .custom m => match customText m (b!"id") with
    | .ok id => (splitDD id).length = 2 ∧ customText m (b!"type") = .panic
    | _ => true
  | .user u _ => UserType.panics u

instance : StixObject (Any U) where
  getID
    | .lib o => StixObject.getID o
    | .custom m => match customText m (b!"id") with
      | .ok s => s
      | _ => []
    | .user u _ => UserType.getID u
  getType
    | .lib o => StixObject.getType o
    | .custom m => match customText m (b!"type") with
      | .ok s => s
      | _ => []
    | .user u _ => UserType.getType u

/-- `GetExtendedTopLevelProperties` (object.go:154-156, 265-267, 358-360, meta.go:145-147, 281-283;
nil for an extension definition, extension.go:221-223; the object itself for a custom object,
extension.go:382-384; a user's type is taken to inherit it from the struct it embeds). -/
def Any.extended : Any U → Option (List (Str × Dyn))
  | .lib o => if o.sid = .ExtensionDefinition then none else o.extra
  | .custom m => some (m.getD [])
  | .user _ extra => extra

/-- A user's parser.  `none` is a nil interface, a nil pointer or a value that is no pointer. -/
abbrev Handler (U : Type) := Json → Res (Option (Any U))

/-- `CollectionOption` (stix.go:38-62) -/
inductive CollOption (U : Type) where
  | noSort
  | dropCustom
  | parser (typ : Str) (h : Option (Handler U))

/-- The fields of a collection that options set (stix.go:80-84). -/
structure Config (U : Type) where
  noSort : Bool := false
  dropCustom : Bool := false
  handlers : Str → Option (Handler U) := fun _ => none

/-- One option (stix.go:41-62). -/
def Config.apply (c : Config U) : CollOption U → Config U
  | .noSort => { c with noSort := true }
  | .dropCustom => { c with dropCustom := true }
  | .parser t h => { c with handlers := fun x => if x = t then h else c.handlers x }

/-- `New` (stix.go:65-73) -/
def Config.new (opts : List (CollOption U)) : Config U := opts.foldl Config.apply {}

/-- `json.Unmarshal` into an object of the library: members go to the fields of the struct and of
the embedded struct. -/
def decObj (F : Canon.FloatFmt) (o : Obj) : Json → D Obj
  | .obj ms =>
    (decStruct (objFields o.sid) (decField F (mkFields (objFields o.sid))) o.val ms).bind fun f =>
      .ok { o with val := f } false
  | .null => .ok o false
  | _ => .ok o true

/-- The keys `filterOutNonCustom` (stix.go:1134-1162) deletes for an object of the library: the JSON
names of its fields; the unexported field has an empty name. -/
def libKeys (s : SId) : List Str :=
  (objFields s).map FieldInfo.key ++ if canHaveExtensions s then [[]] else []

/-- `json.Unmarshal(data, &obj)` (stix.go:1104) when `obj` holds a pointer, or nothing usable:
then `obj` becomes whatever the value is as an `interface{}`, which is not a `STIXObject`. -/
def decAny (F : Canon.FloatFmt) (j : Json) : Option (Any U) → D (Option (Any U))
  | some (.lib o) => (decObj F o j).bind fun o => .ok (some (.lib o)) false
  | some (.custom m) => (decCustom F m j).bind fun m => .ok (some (.custom m)) false
  | some (.user u x) => (UserType.decode u j).bind fun u => .ok (some (.user u x)) false
  | none => (decDyn F j).bind fun _ => .ok none false

/-- `delete` of the listed keys. -/
def deleteKeys (ks : List Str) (m : List (Str × Dyn)) : List (Str × Dyn) :=
  m.filter fun e => !ks.contains e.1

/-- The variable `peak` (stix.go:985). -/
abbrev Peak := Option (List (Str × Dyn))

/-- Extended properties (stix.go:1109-1124): what becomes of `peak`, and of the object.  For an
object whose type has no `addCustomProperties` only `peak` changes. -/
def extend (a : Option (Any U)) (peak : Peak) : Peak × Option (Any U) :=
  match a with
  | some (.lib o) =>
    let rest := deleteKeys (libKeys o.sid) (peak.getD [])
    (peak.map fun _ => rest,
      some (.lib (if rest ≠ [] ∧ canHaveExtensions o.sid then { o with extra := some rest } else o)))
  | some (.user u x) =>
    let rest := deleteKeys (UserType.keys u) (peak.getD [])
    (peak.map fun _ => rest,
      some (.user u (if rest ≠ [] ∧ UserType.canExtend u then some rest else x)))
  | a => (peak, a)

/-- The object to decode into (stix.go:999-1102): what the user's parser returns, a new struct, a
new `CustomObject`; or nothing, for an object that is dropped. -/
def newObject (cfg : Config U) (typ : Str) (data : Json) : Res (Option (Option (Any U))) :=
  match cfg.handlers typ with
  | some h => (h data).bind fun a => .ok (some a)
  | none =>
    match amLookup typ dispatchTable with
    | some s => .ok (some (some (.lib (zeroObj s))))
    | none => if cfg.dropCustom then .ok none else .ok (some (some (.custom (some []))))

/-- One round of the loop of `processObjects` (stix.go:987-1124) up to `collection.Add`: `peak`
afterwards, and the object to add, if any. -/
def parseOne (F : Canon.FloatFmt) (cfg : Config U) (peak : Peak) (data : Json) :
    Res (Peak × Option (Any U)) :=
  (decCustom F peak data).res.bind fun peak =>
    match amLookup (b!"type") (peak.getD []) with
    | none => .ok (peak, none)
    | some (.str typ) =>
      (newObject cfg typ data).bind fun
        | none => .ok (peak, none)
        | some a =>
          (decAny F data a).res.bind fun a =>
            let r := if cfg.dropCustom then (peak, a) else extend a peak
            match r.2 with
            | none => .panic
            | some a => .ok (r.1, some a)
    | some _ => .panic

/-- `collection.Add(obj.(STIXObject))` (stix.go:1126-1129) -/
def addOne (c : Coll (Any U)) : Option (Any U) → Res (Coll (Any U))
  | none => .ok c
  | some a => if a.panics then .panic else if (c.add a).2 then .err .other else .ok (c.add a).1

/-- `processObjects` (stix.go:984-1132) -/
def processObjects (F : Canon.FloatFmt) (cfg : Config U) :
    Peak → Coll (Any U) → List Json → Res (Coll (Any U))
  | _, c, [] => .ok c
  | peak, c, data :: rest =>
    (parseOne F cfg peak data).bind fun r => (addOne c r.2).bind fun c =>
      processObjects F cfg r.1 c rest

/-- The elements of a `[]json.RawMessage`. -/
def rawList : GV → List Json
  | .slice (some l) => l.filterMap fun
    | .raw j => some j
    | _ => none
  | _ => []

/-- The type `Bundle` (bundle.go:15-25) -/
def tyBundle : Ty := .struct (b!"Bundle") fieldsBundle

/-- `FromJSON` (stix.go:953-978) with `processBundle` (stix.go:980-982).  A nil collection comes
with every error. -/
def fromJSON (F : Canon.FloatFmt) (opts : List (CollOption U)) (doc : Option Json) :
    Res (Coll (Any U)) :=
  let cfg := Config.new opts
  let c : Coll (Any U) := Coll.new cfg.noSort
  match doc with
  | none => .err .other
  | some j =>
    match (dec F tyBundle (zero tyBundle) j).res with
    | .ok (.struct f) => processObjects F cfg none c (rawList (f (b!"Objects")))
    | .panic => .panic
    | _ =>
      match (dec F (.slice .raw) (.slice none) j).res with
      | .ok v => processObjects F cfg none c (rawList v)
      | .panic => .panic
      | .err _ => .err .other

/-! ### Typed getters -/

/-- `obj.(*T)` for one of the library's structs. -/
def assertLib (s : SId) : Any U → Res Obj
  | .lib o => if o.sid = s then .ok o else .panic
  | _ => .panic

/-- A singular getter (stix.go:183-929), given its type constant and Go type. -/
def getTyped (c : Coll (Any U)) (typ : Str) (s : SId) (id : Str) : Res (Option Obj) :=
  match c.getObject typ id with
  | none => .ok none
  | some a => (assertLib s a).bind fun o => .ok (some o)

/-- Worker of `GetAllTyped`. -/
def assertAll (s : SId) : List (Any U) → Res (List Obj)
  | [] => .ok []
  | a :: l => (assertLib s a).bind fun o => (assertAll s l).bind fun os => .ok (o :: os)

/-- A plural getter (stix.go:192-937): a possible result, for an order in which the map is
visited. -/
def GetAllTyped (c : Coll (Any U)) (typ : Str) (s : SId) (r : Res (List Obj)) : Prop :=
  ∃ vs, Coll.Iter ((amLookup typ c.objects).getD []) vs ∧ r = assertAll s (vs.map Prod.snd)

/-! ### Bundles -/

/-- `json.Marshal` of a `STIXObject`. -/
def marshalAny (F : Canon.FloatFmt) : Any U → Option Json
  | .lib o => marshalObj F o
  | .custom none => some .null
  | .custom (some m) => encDyn F (.obj m)
  | .user u x => UserType.marshal u x

/-- `GetID` panics.  (For a user's type it is not distinguished from the other methods.) -/
def Any.idPanics : Any U → Bool
  | .lib _ => false
  | .custom m => customText m (b!"id") = .panic
  | .user u _ => UserType.panics u

/-- The loop of `NewBundle` (bundle.go:31-37).  A nil object is written as `null`; after a failure
the message has the id of the object. -/
def bundleObjects (F : Canon.FloatFmt) : List (Option (Any U)) → Res (List Json)
  | [] => .ok []
  | none :: rest => (bundleObjects F rest).bind fun js => .ok (.null :: js)
  | some a :: rest =>
    match marshalAny F a with
    | some j => (bundleObjects F rest).bind fun js => .ok (j :: js)
    | none => if a.idPanics then .panic else .err .other

/-- `NewBundle` (bundle.go:28-40) -/
def newBundle (F : Canon.FloatFmt) (rnd : List UInt8) (objs : List (Option (Any U))) : Res GV :=
  (bundleObjects F objs).bind fun js => .ok (.struct fun x =>
    if x = b!"Type" then .str TypeBundle
    else if x = b!"ID" then .str (newIdentifier rnd TypeBundle)
    else if x = b!"Objects" then .slice (some (js.map .raw))
    else default)

/-- `Collection.ToBundle` (stix.go:178-181), for a possible result of `AllObjects`. -/
def toBundle (F : Canon.FloatFmt) (rnd : List UInt8) (c : Coll (Any U)) (b : Res GV) : Prop :=
  ∃ objs, c.AllObjects objs ∧ b = newBundle F rnd objs

end Stix
