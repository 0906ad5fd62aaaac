import Verif.Model.Process

/-!
# Parsing and writing, for every order in which maps are visited

Go visits a map in a different order on each run.  `Verif.Model.Codec`, `Verif.Model.Process` and
`Verif.Model.Marshal` fix one.  Here the same functions are relations: a result is possible if some
order of every `range` over a map of the library gives it, a new one each time a loop is run.  What
ranges over no map is used as it is there.  (`encoding/json` sorts the keys of maps that it
writes.)
-/

namespace Stix.Order

/-- The possible outcomes of decoding. -/
abbrev Runs (α : Type _) := D α → Prop

/-- One outcome. -/
def one {α} (d : D α) : Runs α := fun r => r = d

/-- Sequencing, as `D.bind`. -/
def Runs.bind {α β} (x : Runs α) (f : α → Runs β) : Runs β := fun r =>
  (∃ a s q, x (.ok a s) ∧ f a q ∧ r = (D.ok a s).bind fun _ => q) ∨
    (x .hard ∧ r = .hard) ∨ (x .panic ∧ r = .panic)

/-- As `decElems`. -/
def elems (d : GV → Json → Runs GV) (z : GV) : List GV → List Json → Runs (List GV)
  | _, [] => one (.ok [] false)
  | cur, j :: js => (d (cur.headD z) j).bind fun v => (elems d z cur.tail js).bind fun vs =>
      one (.ok (v :: vs) false)

/-- As `decEntries`. -/
def entries (d : Json → Runs GV) : List (Str × GV) → List (Str × Json) → Runs (List (Str × GV))
  | cur, [] => one (.ok cur false)
  | cur, (k, j) :: ms => (d j).bind fun v => entries d (smInsert k v cur) ms

/-- As `decStruct`. -/
def struct (fs : List FieldInfo) (d : Str → GV → Json → Runs GV) :
    (Str → GV) → List (Str × Json) → Runs (Str → GV)
  | cur, [] => one (.ok cur false)
  | cur, (k, j) :: ms =>
    match matchKey fs k with
    | none => struct fs d cur ms
    | some f => (d f.name (cur f.name) j).bind fun v =>
        struct fs d (fun x => if x = f.name then v else cur x) ms

/-- The loop of `Extensions.UnmarshalJSON` (extension.go:23-60) over the entries in the order in
which they are visited: the first error is returned, and the first panic ends it. -/
def extLoop (d : Str → Json → Runs GV) : List (Str × Json) → List (Str × GV) → Runs (List (Str × GV))
  | [], final => one (.ok final false)
  | (k, j) :: rest, final => fun r =>
    (∃ v, d k j (.ok v false) ∧ extLoop d rest (smInsert k v final) r) ∨
      (((∃ v, d k j (.ok v true)) ∨ d k j .hard) ∧ r = .hard) ∨ (d k j .panic ∧ r = .panic)

/-- That loop over a map. -/
def exts (d : Str → Json → Runs GV) (m : List (Str × Json)) : Runs (List (Str × GV)) := fun r =>
  ∃ visit, Coll.Iter m visit ∧ extLoop d visit [] r

/-- `UnmarshalJSON` of an enumeration (artifact.go:94-104 and the others that `enumUnmarshal`
lists). -/
def enumRuns (e : EnumId) (j : Json) : Runs UInt8 := fun r =>
  ∃ visit, Coll.Iter (enumTable e) visit ∧ r = D.ofRes (enumUnmarshal visit e j)

mutual
/-- `json.Unmarshal` into a location of the given type that holds `cur`, as `dec`. -/
def decR (F : Canon.FloatFmt) : Ty → GV → Json → Runs GV
  | .enum e, _, j => (enumRuns e j).bind fun n => one (.ok (.enum n) false)
  | .slice t, cur, j =>
    match j with
    | .null => one (.ok (.slice none) false)
    | .arr l =>
      let old := match cur with
        | .slice (some l) => l
        | _ => []
      (elems (decR F t) (zero t) old l).bind fun l => one (.ok (.slice (some l)) false)
    | j => one (decSliceOther t cur j)
  | .map _ _ t, cur, j =>
    match j with
    | .null => one (.ok (.map none) false)
    | .obj ms =>
      let old := match cur with
        | .map (some m) => m
        | _ => []
      (entries (decR F t (zero t)) old ms).bind fun m => one (.ok (.map (some m)) false)
    | _ => one (.ok cur true)
  | .ptr t, cur, j =>
    match j with
    | .null => one (.ok (.ptr none) false)
    | j =>
      let old := match cur with
        | .ptr (some v) => v
        | _ => zero t
      (decR F t old j).bind fun v => one (.ok (.ptr (some v)) false)
  | .struct _ fs, cur, j =>
    match j with
    | .obj ms =>
      let old := match cur with
        | .struct f => f
        | _ => zeroFields fs
      (struct fs.toList (decFieldR F fs) old ms).bind fun f => one (.ok (.struct f) false)
    | .null => one (.ok cur false)
    | _ => one (.ok cur true)
  | .ext ks, _, j =>
    match j with
    | .null => one (.ok (.map (some [])) false)
    | .obj ms => (exts (decExtR F ks) (smOfList ms)).bind fun m => one (.ok (.map (some m)) false)
    | _ => one .hard
  | t, cur, j => one (dec F t cur j)

/-- Into the field of that name, as `decField`. -/
def decFieldR (F : Canon.FloatFmt) : Fields → Str → GV → Json → Runs GV
  | .nil, _, cur, _ => one (.ok cur false)
  | .cons n _ _ t rest, name, cur, j => if name = n then decR F t cur j else decFieldR F rest name cur j

/-- One extension, as `decExt`. -/
def decExtR (F : Canon.FloatFmt) : Known → Str → Json → Runs GV
  | .nil, _, j => one ((decCustom F (some []) j).bind fun m => .ok (customExt m) false)
  | .cons k _ fs rest, key, j =>
    if key = k then
      match j with
      | .obj ms => (struct fs.toList (decFieldR F fs) (zeroFields fs) ms).bind fun f =>
          one (.ok (.iface k (.struct f)) false)
      | .null => one (.ok (.iface k (.struct (zeroFields fs))) false)
      | _ => one (.ok (.iface k (.struct (zeroFields fs))) true)
    else decExtR F rest key j
end

/-- `json.Unmarshal` into an object of the library, as `decObj`. -/
def decObjR (F : Canon.FloatFmt) (o : Obj) : Json → Runs Obj
  | .obj ms =>
    (struct (objFields o.sid) (decFieldR F (mkFields (objFields o.sid))) o.val ms).bind fun f =>
      one (.ok { o with val := f } false)
  | .null => one (.ok o false)
  | _ => one (.ok o true)

variable {U : Type} [UserType U]

/-- `json.Unmarshal(data, &obj)` (stix.go:1104), as `decAny`. -/
def decAnyR (F : Canon.FloatFmt) (j : Json) : Option (Any U) → Runs (Option (Any U))
  | some (.lib o) => (decObjR F o j).bind fun o => one (.ok (some (.lib o)) false)
  | a => one (decAny F j a)

/-- The loop that copies what is left in `peak` into a new `CustomObject` (stix.go:1117-1120,
`Set` in extension.go:299-301), over the entries in the order in which they are visited. -/
def copyAll : List (Str × Dyn) → List (Str × Dyn) → List (Str × Dyn)
  | [], custom => custom
  | (k, v) :: rest, custom => copyAll rest (smInsert k v custom)

/-- Extended properties (stix.go:1109-1124), as `extend`. -/
def Extends (a : Option (Any U)) (peak : Peak) (r : Peak × Option (Any U)) : Prop :=
  match a with
  | some (.lib o) =>
    let rest := deleteKeys (libKeys o.sid) (peak.getD [])
    ∃ visit, Coll.Iter rest visit ∧ r = (peak.map fun _ => rest,
      some (.lib (if rest ≠ [] ∧ canHaveExtensions o.sid then
        { o with extra := some (copyAll visit []) } else o)))
  | some (.user u x) =>
    let rest := deleteKeys (UserType.keys u) (peak.getD [])
    ∃ visit, Coll.Iter rest visit ∧ r = (peak.map fun _ => rest,
      some (.user u (if rest ≠ [] ∧ UserType.canExtend u then some (copyAll visit []) else x)))
  | a => r = (peak, a)

/-- One round of the loop of `processObjects` (stix.go:987-1124), as `parseOne`. -/
def ParsesOne (F : Canon.FloatFmt) (cfg : Config U) (peak : Peak) (data : Json)
    (r : Res (Peak × Option (Any U))) : Prop :=
  match (decCustom F peak data).res with
  | .ok peak =>
    match amLookup (b!"type") (peak.getD []) with
    | none => r = .ok (peak, none)
    | some (.str typ) =>
      match newObject cfg typ data with
      | .ok none => r = .ok (peak, none)
      | .ok (some a) => ∃ d, decAnyR F data a d ∧
        match d.res with
        | .ok a =>
          ∃ q, (if cfg.dropCustom then q = (peak, a) else Extends a peak q) ∧
            r = match q.2 with
              | none => .panic
              | some a => .ok (q.1, some a)
        | .err e => r = .err e
        | .panic => r = .panic
      | .err e => r = .err e
      | .panic => r = .panic
    | some _ => r = .panic
  | .err e => r = .err e
  | .panic => r = .panic

/-- `processObjects` (stix.go:984-1132), as the function of that name. -/
def ProcessesObjects (F : Canon.FloatFmt) (cfg : Config U) :
    Peak → Coll (Any U) → List Json → Res (Coll (Any U)) → Prop
  | _, c, [], r => r = .ok c
  | peak, c, data :: rest, r => ∃ p, ParsesOne F cfg peak data p ∧
    match p with
    | .ok q =>
      match addOne c q.2 with
      | .ok c => ProcessesObjects F cfg q.1 c rest r
      | .err e => r = .err e
      | .panic => r = .panic
    | .err e => r = .err e
    | .panic => r = .panic

/-- `FromJSON` (stix.go:953-978): the possible results. -/
def FromJSON (F : Canon.FloatFmt) (opts : List (CollOption U)) (doc : Option Json)
    (r : Res (Coll (Any U))) : Prop :=
  let cfg := Config.new opts
  let c : Coll (Any U) := Coll.new cfg.noSort
  match doc with
  | none => r = .err .other
  | some j => ∃ d, decR F tyBundle (zero tyBundle) j d ∧
    match d.res with
    | .ok (.struct f) => ProcessesObjects F cfg none c (rawList (f (b!"Objects"))) r
    | .panic => r = .panic
    | _ => ∃ d, decR F (.slice .raw) (.slice none) j d ∧
      match d.res with
      | .ok v => ProcessesObjects F cfg none c (rawList v) r
      | .panic => r = .panic
      | .err _ => r = .err .other

/-! ### Writing -/

/-- The loops that add the extended properties (stix.go:1221-1255), over the entries in the order
in which they are visited. -/
def addAllExtra : List (Str × Dyn) → List (Str × MV) → List (Str × MV)
  | [], m => m
  | (k, v) :: rest, m => addAllExtra rest (smInsert k (.extra v) m)

/-- `objectToMap` (stix.go:1164-1168, 1170-1257), as the function of that name. -/
def ObjectToMap (o : Obj) (r : Option (List (Str × MV))) : Prop :=
  ∃ visit, Coll.Iter (o.extra.getD []) visit ∧ r =
    match baseOf o.sid with
    | .none =>
      (fieldsToMap o.val (ownFields o.sid).toList []).map fun m =>
        if o.sid = .MarkingDefinition ∨ o.sid = .LanguageContent then addAllExtra visit m else m
    | b =>
      (fieldsToMap o.val (baseFields b).toList []).bind fun m =>
        fieldsToMap o.val (ownFields o.sid).toList (addAllExtra visit m)

/-- `json.Marshal` of an object, as `marshalAny`. -/
def Marshals (F : Canon.FloatFmt) (a : Any U) (r : Option Json) : Prop :=
  match a with
  | .lib o =>
    if hasMarshalHelper o.sid then
      ∃ m, ObjectToMap o m ∧ r = m.bind fun m => (encEntries (encMV F) m).map .obj
    else r = (encFields F (ownFields o.sid) o.val).map .obj
  | a => r = marshalAny F a

/-- The loop of `NewBundle` (bundle.go:31-37), as `bundleObjects`. -/
def BundleObjects (F : Canon.FloatFmt) : List (Option (Any U)) → Res (List Json) → Prop
  | [], r => r = .ok []
  | none :: rest, r => ∃ q, BundleObjects F rest q ∧ r = q.bind fun js => .ok (.null :: js)
  | some a :: rest, r => ∃ m, Marshals F a m ∧
    match m with
    | some j => ∃ q, BundleObjects F rest q ∧ r = q.bind fun js => .ok (j :: js)
    | none => r = if a.idPanics then .panic else .err .other

/-- `Collection.ToBundle` (stix.go:178-181, bundle.go:28-40), as `toBundle`. -/
def ToBundle (F : Canon.FloatFmt) (rnd : List UInt8) (c : Coll (Any U)) (b : Res GV) : Prop :=
  ∃ objs, c.AllObjects objs ∧ ∃ q, BundleObjects F objs q ∧ b = q.bind fun js => .ok (.struct fun x =>
    if x = b!"Type" then .str TypeBundle
    else if x = b!"ID" then .str (newIdentifier rnd TypeBundle)
    else if x = b!"Objects" then .slice (some (js.map .raw))
    else default)

end Stix.Order
