import Verif.Gen.Structs
import Verif.Model.SortedMap
import Verif.Model.Canon

/-!
# `encoding/json` over the type tables

What the library's objects look like after `json.Marshal` and `json.Unmarshal`, at the value
level: `enc` makes a JSON value, `dec` reads one into a Go value.  `encoding/json` is not part of
the repository; this file is the model's account of it, for the types that occur, together with
the library's own `UnmarshalJSON`/`MarshalJSON` methods, which it calls.
-/

namespace Stix

/-! ### Numbers -/

/-- Worker of `natLit`. -/
def natLitAux : Nat → Nat → Str
  | 0, _ => []
  | f + 1, n => if n < 10 then [(48 + n).toUInt8] else natLitAux f (n / 10) ++ [(48 + n % 10).toUInt8]

/-- Decimal digits of a natural number (`strconv.AppendInt`, `%d`). -/
def natLit (n : Nat) : Str := natLitAux (n.log2 + 1) n

/-- Decimal text of an integer (`strconv.AppendInt`, `%d`). -/
def intLit (i : Int) : Str := if i < 0 then 45 :: natLit i.natAbs else natLit i.natAbs

/-- The value of a digit string. -/
def litVal (l : Str) : Nat := l.foldl (fun a c => 10 * a + (c.toNat - 48)) 0

/-- `strconv.ParseInt(lit, 10, 64)` of a JSON number literal. -/
def parseInt64 (lit : Str) : Option Int :=
  let (neg, ds) := match lit with
    | 45 :: r => (true, r)
    | r => (false, r)
  if ds = [] ∨ ¬ ds.all (fun c => 48 ≤ c && c ≤ 57) then none
  else
    let v : Int := if neg then -(litVal ds : Int) else litVal ds
    if -9223372036854775808 ≤ v ∧ v ≤ 9223372036854775807 then some v else none

/-- Neither infinite nor NaN. -/
def finite (b : F64) : Bool := b &&& 0x7ff0000000000000 ≠ 0x7ff0000000000000

/-- `e-09` to `e-9` (encoding/json, `floatEncoder.encode`). -/
def cleanExp (t : Str) : Str :=
  let n := t.length
  if 4 ≤ n ∧ t[n - 4]? = some 101 ∧ t[n - 3]? = some 45 ∧ t[n - 2]? = some 48
  then t.take (n - 2) ++ t.drop (n - 1) else t

/-- Text of a finite float (encoding/json, `floatEncoder.encode`). -/
def floatLit (F : Canon.FloatFmt) (bits : F64) : Str :=
  let a := bits &&& 0x7fffffffffffffff
  let txt := if a = 0 then b!"0"
    else if a < 0x444B1AE4D6E2EF50 ∧ 0x3EB0C6F7A0B5ED8D ≤ a then F.formatF a
    else cleanExp (F.formatE a)
  if bits &&& 0x8000000000000000 ≠ 0 then 45 :: txt else txt

/-! ### Encoding -/

/-- All or nothing. -/
def allSome {α β} (f : α → Option β) : List α → Option (List β)
  | [] => some []
  | a :: l =>
    match f a, allSome f l with
    | some b, some bs => some (b :: bs)
    | _, _ => none

/-- Members of an object from the entries of a map. -/
def encEntries {α} (f : α → Option Json) : List (Str × α) → Option (List (Str × Json))
  | [] => some []
  | (k, a) :: l =>
    match f a, encEntries f l with
    | some b, some bs => some ((sanitize k, b) :: bs)
    | _, _ => none

mutual
/-- `json.Marshal` of an `interface{}`; `none` is an error. -/
def encDyn (F : Canon.FloatFmt) : Dyn → Option Json
  | .nil => some .null
  | .bool b => some (.bool b)
  | .num f => if finite f then some (.num (floatLit F f)) else none
  | .int i => some (.num (intLit i))
  | .str s => some (.ofStr s)
  | .strs l => some (.arr (l.map .ofStr))
  | .arr l => (encDynArr F l).map .arr
  | .obj m => (encDynObj F m).map .obj

/-- Elements. -/
def encDynArr (F : Canon.FloatFmt) : List Dyn → Option (List Json)
  | [] => some []
  | d :: l =>
    match encDyn F d, encDynArr F l with
    | some j, some js => some (j :: js)
    | _, _ => none

/-- Members, by ascending key. -/
def encDynObj (F : Canon.FloatFmt) : List (Str × Dyn) → Option (List (Str × Json))
  | [] => some []
  | (k, d) :: l =>
    match encDyn F d, encDynObj F l with
    | some j, some js => some ((sanitize k, j) :: js)
    | _, _ => none
end

/-- `isEmptyValue` (encoding/json): what `omitempty` leaves out of a struct. -/
def isEmptyValue : GV → Bool
  | .str s => s = []
  | .bool b => b = false
  | .int i => i = 0
  | .flt f => f &&& 0x7fffffffffffffff = 0
  | .enum n => n = 0
  | .bin b => b.getD [] = []
  | .slice l => (l.getD []).isEmpty
  | .map m => (m.getD []).isEmpty
  | .ptr p => p.isNone
  | .dyn .nil => true
  | .raw _ => false
  | _ => false

mutual
/-- `json.Marshal` of a value of the given Go type; `none` is an error (or a value that is not of
the type). -/
def enc (F : Canon.FloatFmt) : Ty → GV → Option Json
  | .str _, .str s => some (.ofStr s)
  | .bool, .bool b => some (.bool b)
  | .int _, .int i => some (.num (intLit i))
  | .flt, .flt f => if finite f then some (.num (floatLit F f)) else none
  | .enum e, .enum n => some (enumMarshal e n)
  | .bin, .bin b => some (binaryMarshal b)
  | .time, .time t => some (timestampMarshal t)
  | .slice _, .slice none => some .null
  | .slice t, .slice (some l) => (allSome (enc F t) l).map .arr
  | .map _ _ _, .map none => some .null
  | .map _ _ t, .map (some m) => (encEntries (enc F t) m).map .obj
  | .ptr _, .ptr none => some .null
  | .ptr t, .ptr (some v) => enc F t v
  | .struct _ fs, .struct f => (encFields F fs f).map .obj
  | .dyn, .dyn d => encDyn F d
  | .ext _, .map none => some .null
  | .ext ks, .map (some m) => (encEntries (encExt F ks) m).map .obj
  | .raw, .raw j => some j
  | _, _ => none

/-- The members of a struct, in field order. -/
def encFields (F : Canon.FloatFmt) : Fields → (Str → GV) → Option (List (Str × Json))
  | .nil, _ => some []
  | .cons n k o t rest, f =>
    if o && isEmptyValue (f n) then encFields F rest f
    else
      match enc F t (f n), encFields F rest f with
      | some j, some js => some ((k, j) :: js)
      | _, _ => none

/-- One extension: a pointer to an extension struct, a `*CustomObject`, or any other value. -/
def encExt (F : Canon.FloatFmt) : Known → GV → Option Json
  | .nil, .iface [] (.dyn d) => encDyn F d
  | .nil, .dyn d => encDyn F d
  | .nil, _ => none
  | .cons k _ fs rest, v =>
    match v with
    | .iface tag (.struct f) => if tag = k then (encFields F fs f).map .obj else encExt F rest v
    | _ => encExt F rest v
end

/-! ### Decoding -/

/-- Outcome of decoding.  `soft` says that a type error was recorded: decoding goes on, and
`json.Unmarshal` reports it at the end.  An error from an `UnmarshalJSON` method aborts. -/
inductive D (α : Type _) where
  | ok (a : α) (soft : Bool)
  | hard
  | panic

namespace D

/-- Sequencing; recorded errors add up. -/
def bind {α β} (x : D α) (f : α → D β) : D β :=
  match x with
  | ok a s => match f a with
    | ok b s' => ok b (s || s')
    | hard => hard
    | panic => panic
  | hard => hard
  | panic => panic

/-- The result of `json.Unmarshal`. -/
def res {α} : D α → Res α
  | ok a false => .ok a
  | ok _ true => .err .other
  | hard => .err .other
  | panic => .panic

/-- The result of an `UnmarshalJSON` method, inside another decoding. -/
def ofRes {α} : Res α → D α
  | .ok a => ok a false
  | .err _ => hard
  | .panic => panic

end D

/-- Elements of an array into a slice: the ones there are decoded into, further ones into zero
values.  (Elements between length and capacity, which some Go versions decode into, are not
modelled; a slice has such elements only when a document repeats a member.) -/
def decElems (d : GV → Json → D GV) (z : GV) : List GV → List Json → D (List GV)
  | _, [] => .ok [] false
  | cur, j :: js => (d (cur.headD z) j).bind fun v => (decElems d z cur.tail js).bind fun vs =>
      .ok (v :: vs) false

/-- Members of an object into a map: each value is decoded on its own and stored. -/
def decEntries (d : Json → D GV) : List (Str × GV) → List (Str × Json) → D (List (Str × GV))
  | cur, [] => .ok cur false
  | cur, (k, j) :: ms => (d j).bind fun v => decEntries d (smInsert k v cur) ms

/-- Case folding as far as it concerns the ASCII names of the tables: letters, and the two other
characters that fold to letters (U+017F, U+212A). -/
def foldName : Str → Str
  | [] => []
  | 0xC5 :: 0xBF :: r => 115 :: foldName r
  | 0xE2 :: 0x84 :: 0xAA :: r => 107 :: foldName r
  | c :: r => (if 65 ≤ c ∧ c ≤ 90 then c + 32 else c) :: foldName r

/-- The field a member goes to: same name, else the first field with the same name up to case
(encoding/json, `decodeState.object`). -/
def matchKey (fs : List FieldInfo) (k : Str) : Option FieldInfo :=
  (fs.find? (fun f => f.key == k)).orElse fun _ =>
    fs.find? (fun f => foldName f.key == foldName k)

/-- Members of an object into a struct; `d name` decodes into the field `name`. -/
def decStruct (fs : List FieldInfo) (d : Str → GV → Json → D GV) :
    (Str → GV) → List (Str × Json) → D (Str → GV)
  | cur, [] => .ok cur false
  | cur, (k, j) :: ms =>
    match matchKey fs k with
    | none => decStruct fs d cur ms
    | some f => (d f.name (cur f.name) j).bind fun v =>
        decStruct fs d (fun x => if x = f.name then v else cur x) ms

mutual
/-- A JSON value as an `interface{}` (encoding/json, `valueInterface`): numbers are floats, and
one that is out of range is recorded as an error. -/
def decDyn (F : Canon.FloatFmt) : Json → D Dyn
  | .null => .ok .nil false
  | .bool b => .ok (.bool b) false
  | .num lit =>
    match F.parse lit with
    | some f => .ok (.num f) false
    | none => .ok .nil true
  | .str _ dec => .ok (.str dec) false
  | .arr l => (decDynArr F l).bind fun l => .ok (.arr l) false
  | .obj m => (decDynObj F [] m).bind fun m => .ok (.obj m) false

/-- Elements. -/
def decDynArr (F : Canon.FloatFmt) : List Json → D (List Dyn)
  | [] => .ok [] false
  | j :: js => (decDyn F j).bind fun d => (decDynArr F js).bind fun ds => .ok (d :: ds) false

/-- Members into a map. -/
def decDynObj (F : Canon.FloatFmt) : List (Str × Dyn) → List (Str × Json) → D (List (Str × Dyn))
  | cur, [] => .ok cur false
  | cur, (k, j) :: ms => (decDyn F j).bind fun d => decDynObj F (smInsert k d cur) ms
end

/-- Into a `map[string]interface{}` variable (`CustomObject`, or the variable `peak` of
stix.go:985): `null` makes it nil, an object is merged into it, anything else is an error. -/
def decCustom (F : Canon.FloatFmt) (cur : Option (List (Str × Dyn))) :
    Json → D (Option (List (Str × Dyn)))
  | .null => .ok none false
  | .obj m => (decDynObj F (cur.getD []) m).bind fun m => .ok (some m) false
  | _ => .ok cur true

/-- `*CustomObject` as an extension. -/
def customExt : Option (List (Str × Dyn)) → GV
  | none => .iface [] (.dyn .nil)
  | some m => .iface [] (.dyn (.obj m))

/-- Bytes of a base64 string as the elements of a slice of a defined type of kind uint8 (only
`[]ExtensionType` is one): `SetBytes`. -/
def bytesAsSlice (b : Str) : GV := .slice (some (b.map .enum))

/-- The element type has kind uint8. -/
def Ty.isByte : Ty → Bool
  | .enum _ => true
  | _ => false

/-- A literal into a slice (encoding/json, `literalStore`): a string is base64 for a slice of
bytes. -/
def decSliceOther (t : Ty) (cur : GV) : Json → D GV
  | .str _ s =>
    if t.isByte then
      match b64Decode s with
      | some b => .ok (bytesAsSlice b) false
      | none => .ok cur true
    else .ok cur true
  | _ => .ok cur true

/-- The loop of `Extensions.UnmarshalJSON` (extension.go:23-60) over a map of raw values: any
panic, else any error, else the extensions.  (Go visits the map in a random order and stops at the
first error; when one value is an error and another a panic, either may happen in Go, and the
panic is what is kept here.) -/
def decExts (d : Str → Json → D GV) : List (Str × Json) → D (List (Str × GV))
  | [] => .ok [] false
  | (k, j) :: ms =>
    match d k j, decExts d ms with
    | .panic, _ => .panic
    | _, .panic => .panic
    | .ok v false, .ok vs false => .ok ((k, v) :: vs) false
    | _, _ => .hard

mutual
/-- `json.Unmarshal` into a location of the given type that holds `cur`. -/
def dec (F : Canon.FloatFmt) : Ty → GV → Json → D GV
  | .str _, cur, j =>
    match j with
    | .str _ s => .ok (.str s) false
    | .null => .ok cur false
    | _ => .ok cur true
  | .bool, cur, j =>
    match j with
    | .bool b => .ok (.bool b) false
    | .null => .ok cur false
    | _ => .ok cur true
  | .int _, cur, j =>
    match j with
    | .num lit =>
      match parseInt64 lit with
      | some i => .ok (.int i) false
      | none => .ok cur true
    | .null => .ok cur false
    | _ => .ok cur true
  | .flt, cur, j =>
    match j with
    | .num lit =>
      match F.parse lit with
      | some f => .ok (.flt f) false
      | none => .ok cur true
    | .null => .ok cur false
    | _ => .ok cur true
  | .enum e, _, j => (D.ofRes (enumUnmarshal (enumTable e) e j)).bind fun n => .ok (.enum n) false
  | .bin, _, j => (D.ofRes (binaryUnmarshal j)).bind fun b => .ok (.bin b) false
  | .time, _, j => (D.ofRes (timestampUnmarshal j)).bind fun t => .ok (.time t) false
  | .slice t, cur, j =>
    match j with
    | .null => .ok (.slice none) false
    | .arr l =>
      let old := match cur with
        | .slice (some l) => l
        | _ => []
      (decElems (dec F t) (zero t) old l).bind fun l => .ok (.slice (some l)) false
    | j => decSliceOther t cur j
  | .map _ _ t, cur, j =>
    match j with
    | .null => .ok (.map none) false
    | .obj ms =>
      let old := match cur with
        | .map (some m) => m
        | _ => []
      (decEntries (dec F t (zero t)) old ms).bind fun m => .ok (.map (some m)) false
    | _ => .ok cur true
  | .ptr t, cur, j =>
    match j with
    | .null => .ok (.ptr none) false
    | j =>
      let old := match cur with
        | .ptr (some v) => v
        | _ => zero t
      (dec F t old j).bind fun v => .ok (.ptr (some v)) false
  | .struct _ fs, cur, j =>
    match j with
    | .obj ms =>
      let old := match cur with
        | .struct f => f
        | _ => zeroFields fs
      (decStruct fs.toList (decField F fs) old ms).bind fun f => .ok (.struct f) false
    | .null => .ok cur false
    | _ => .ok cur true
  | .dyn, cur, j =>
    match j with
    | .num lit =>
      match F.parse lit with
      | some f => .ok (.dyn (.num f)) false
      | none => .ok cur true
    | j => (decDyn F j).bind fun d => .ok (.dyn d) false
  | .ext ks, _, j =>
    match j with
    | .null => .ok (.map (some [])) false
    | .obj ms => (decExts (decExt F ks) (smOfList ms)).bind fun m => .ok (.map (some m)) false
    | _ => .hard
  | .raw, _, j => .ok (.raw j) false

/-- Into the field of that name. -/
def decField (F : Canon.FloatFmt) : Fields → Str → GV → Json → D GV
  | .nil, _, cur, _ => .ok cur false
  | .cons n _ _ t rest, name, cur, j => if name = n then dec F t cur j else decField F rest name cur j

/-- One extension (extension.go:24-58): a new struct or `CustomObject` according to the key, and
`json.Unmarshal` into it. -/
def decExt (F : Canon.FloatFmt) : Known → Str → Json → D GV
  | .nil, _, j => (decCustom F (some []) j).bind fun m => .ok (customExt m) false
  | .cons k _ fs rest, key, j =>
    if key = k then
      match j with
      | .obj ms => (decStruct fs.toList (decField F fs) (zeroFields fs) ms).bind fun f =>
          .ok (.iface k (.struct f)) false
      | .null => .ok (.iface k (.struct (zeroFields fs))) false
      | _ => .ok (.iface k (.struct (zeroFields fs))) true
    else decExt F rest key j
end

end Stix
