import Verif.Spec.Marshal
import Verif.Spec.Stamp
import Verif.Spec.Base64
import Verif.Spec.Option

/-!
# What JSON says about a value (specification)

`Says t j v`: the JSON value `j` is a way to write the value `v` of the Go type `t`, property by
property; `SaysObj ms o`: these members are a way to write the object.  Directed by the types only;
neither the encoder nor the decoder is mentioned.  What a text says about an integer, a timestamp, a
binary or an enumeration is said by the notation of each, and these are spelled without escapes; for
floats it is left to `strconv.ParseFloat`, which is a parameter.
-/

namespace Stix.Spec
open Stix

/-- The decimal text of an integer, without leading zeros. -/
def DecimalText (l : Str) (i : Int) : Prop :=
  ∃ ds : List Nat, ds ≠ [] ∧ (∀ d ∈ ds, d ≤ 9) ∧ (ds.head? = some 0 → ds = [0]) ∧
    ((l = ds.map digit ∧ i = decimal ds) ∨ (l = 45 :: ds.map digit ∧ i = -(decimal ds : Int)))

mutual
/-- A JSON value as an `interface{}`. -/
def SaysDyn (F : Canon.FloatFmt) : Json → Dyn → Prop
  | j, .nil => j = .null
  | j, .bool b => j = .bool b
  | j, .num x => ∃ l, j = .num l ∧ F.parse l = some x
  | _, .int _ => False
  | j, .str s => ∃ raw, j = .str raw s
  | _, .strs _ => False
  | j, .arr ds => ∃ l, j = .arr l ∧ SaysDynList F l ds
  | j, .obj m => ∃ ms, j = .obj ms ∧ (amKeys ms).Nodup ∧ SortedKeys m ∧
      (∀ k ∈ amKeys ms, k ∈ amKeys m) ∧ SaysDynEntries F ms m

/-- Elements. -/
def SaysDynList (F : Canon.FloatFmt) : List Json → List Dyn → Prop
  | l, [] => l = []
  | l, d :: ds => ∃ j js, l = j :: js ∧ SaysDyn F j d ∧ SaysDynList F js ds

/-- Every entry has its member. -/
def SaysDynEntries (F : Canon.FloatFmt) : List (Str × Json) → List (Str × Dyn) → Prop
  | _, [] => True
  | ms, (k, d) :: m => (∃ j, (k, j) ∈ ms ∧ SaysDyn F j d) ∧ SaysDynEntries F ms m
end

/-- The members of an object are the entries of a map. -/
def SaysMap {α} (R : Str → Json → α → Prop) (ms : List (Str × Json)) (m : List (Str × α)) : Prop :=
  (amKeys ms).Nodup ∧ SortedKeys m ∧ (∀ k, k ∈ amKeys ms ↔ k ∈ amKeys m) ∧
    ∀ k j v, (k, j) ∈ ms → (k, v) ∈ m → R k j v

mutual
/-- The JSON value writes the value of the type. -/
def Says (F : Canon.FloatFmt) : Ty → Json → GV → Prop
  | .str _, j, v => ∃ raw s, j = .str raw s ∧ v = .str s
  | .bool, j, v => ∃ b, j = .bool b ∧ v = .bool b
  | .int _, j, v => ∃ l i, j = .num l ∧ v = .int i ∧ DecimalText l i ∧ -2 ^ 63 ≤ i ∧ i < 2 ^ 63
  | .flt, j, v => ∃ l x, j = .num l ∧ v = .flt x ∧ F.parse l = some x
  | .enum e, j, v => ∃ s n, j = .str s s ∧ v = .enum n ∧
      ((n, s) ∈ vocabulary e ∨ n = 0 ∧ ∀ m, (m, s) ∉ vocabulary e)
  | .bin, j, v => (j = .null ∧ v = .bin none) ∨
      ∃ raw b, j = .str raw (base64 b) ∧ v = .bin (some b)
  | .time, j, v => ∃ s dec, ∃ x : Stamp, x.Valid ∧ x.zone.Within 24 60 ∧ x.Loose s ∧
      j = .str s dec ∧ v = .time { ns := x.nanos, off := x.zone.seconds }
  | .slice t, j, v => (j = .null ∧ v = .slice none) ∨
      ∃ js l, j = .arr js ∧ v = .slice (some l) ∧ List.Forall₂ (fun j v => Says F t j v) js l
  | .map _ _ t, j, v => (j = .null ∧ v = .map none) ∨
      ∃ ms m, j = .obj ms ∧ v = .map (some m) ∧ SaysMap (fun _ j v => Says F t j v) ms m
  | .ptr t, j, v => (j = .null ∧ v = .ptr none) ∨
      ∃ x, j ≠ .null ∧ v = .ptr (some x) ∧ Says F t j x
  | .struct _ fs, j, v => ∃ ms f, j = .obj ms ∧ v = .struct f ∧ (amKeys ms).Nodup ∧
      (∀ k ∈ amKeys ms, ∃ r ∈ fs.toList, r.key = k) ∧
      (∀ x, (∀ r ∈ fs.toList, r.name ≠ x) → f x = default) ∧ SaysFields F fs ms f
  | .dyn, j, v => ∃ d, v = .dyn d ∧ SaysDyn F j d
  | .ext ks, j, v => (j = .null ∧ v = .map (some [])) ∨
      ∃ ms m, j = .obj ms ∧ v = .map (some m) ∧ SaysMap (fun k j v => SaysExt F ks k j v) ms m
  | .raw, j, v => v = .raw j

/-- Every field is what its member says, and zero if there is none. -/
def SaysFields (F : Canon.FloatFmt) : Fields → List (Str × Json) → (Str → GV) → Prop
  | .nil, _, _ => True
  | .cons n k _ t rest, ms, f =>
    ((∃ j, (k, j) ∈ ms ∧ Says F t j (f n)) ∨ (k ∉ amKeys ms ∧ f n = zero t)) ∧
      SaysFields F rest ms f

/-- An extension: the struct of its key, or a `CustomObject`. -/
def SaysExt (F : Canon.FloatFmt) : Known → Str → Json → GV → Prop
  | .nil, _, j, v => ∃ d, v = .iface [] (.dyn d) ∧ IsCustom d ∧ SaysDyn F j d
  | .cons k _ fs rest, key, j, v =>
    (key = k ∧ ∃ ms f, j = .obj ms ∧ v = .iface k (.struct f) ∧ (amKeys ms).Nodup ∧
      (∀ k ∈ amKeys ms, ∃ r ∈ fs.toList, r.key = k) ∧
      (∀ x, (∀ r ∈ fs.toList, r.name ≠ x) → f x = default) ∧ SaysFields F fs ms f) ∨
    (key ≠ k ∧ SaysExt F rest key j v)
end

/-- The members write the object: each property is what the member with its name says, or has its
zero value; the members that are no properties are the extended properties. -/
structure SaysObj (F : Canon.FloatFmt) (ms : List (Str × Json)) (o : Obj) : Prop where
  distinct : (amKeys ms).Nodup
  fields : ∀ r ∈ objFields o.sid, (∃ j, (r.key, j) ∈ ms ∧ Says F r.ty j (o.val r.name)) ∨
    (r.key ∉ amKeys ms ∧ o.val r.name = zero r.ty)
  noOther : ∀ x, (∀ r ∈ objFields o.sid, r.name ≠ x) → o.val x = default
  sorted : SortedKeys (extras o)
  extra : ∀ k j, (k, j) ∈ ms → (∀ r ∈ objFields o.sid, r.key ≠ k) →
    ∃ d, (k, d) ∈ extras o ∧ SaysDyn F j d
  extraOnly : ∀ k d, (k, d) ∈ extras o → k ∈ amKeys ms
  apart : ∀ e ∈ extras o, e.1 ≠ [] ∧ ∀ r ∈ objFields o.sid, ¬ SameUpToCase e.1 r.key

/-- An element of a document that describes an object of a type of the library. -/
structure Describes (F : Canon.FloatFmt) (j : Json) (o : Obj) : Prop where
  members : ∃ ms, j = .obj ms ∧ SaysObj F ms o
  type : (StixObject.getType o, o.sid) ∈ goTypes
  ident : Acceptable o

/-- An extended property that an object is given when it is read after others, the latest first: one
of its own, or one of an earlier object, unless an object in between, or itself, has a property with
that name. -/
inductive Inherits : List Obj → Str → Dyn → Prop
  | own {o : Obj} {earlier : List Obj} {k : Str} {d : Dyn} : (k, d) ∈ extras o →
      Inherits (o :: earlier) k d
  | older {o : Obj} {earlier : List Obj} {k : Str} {d : Dyn} : k ∉ amKeys (extras o) →
      k ∉ properties o.sid → Inherits earlier k d → Inherits (o :: earlier) k d

/-- How the second object is what an element says, when it says the first and comes after the earlier
ones: it has its properties, and its extended properties with the inherited ones, unless they are
dropped. -/
structure ReadAs (drop : Prop) (earlier : List Obj) (o o' : Obj) : Prop where
  sid : o'.sid = o.sid
  val : o'.val = o.val
  dropped : drop → o'.extra = none
  definition : o.sid = .ExtensionDefinition → o'.extra = none
  extra : ¬ drop → o.sid ≠ .ExtensionDefinition →
    ∀ k d, (k, d) ∈ extras o' ↔ Inherits (o :: earlier) k d
  sorted : SortedKeys (extras o')
  nonempty : o'.extra ≠ some []

/-- The same for all the objects of a list. -/
inductive ReadAllAs (drop : Prop) : List Obj → List Obj → List Obj → Prop
  | nil (earlier) : ReadAllAs drop earlier [] []
  | cons {earlier o o' l l'} : ReadAs drop earlier o o' → ReadAllAs drop (o :: earlier) l l' →
      ReadAllAs drop earlier (o :: l) (o' :: l')

/-- The second members are those of the first, which say `o`, after the object was read and written
again: each property that is not zero is there and says the same (times to the millisecond), so are
the extended properties, and nothing is new but booleans that are false. -/
structure Rewritten (F : Canon.FloatFmt) (o : Obj) (ms ms' : List (Str × Json)) : Prop where
  distinct : (amKeys ms').Nodup
  fields : ∀ r ∈ objFields o.sid, ∀ j, (r.key, j) ∈ ms → Unset r.ty (o.val r.name) ∨
    ∃ j', (r.key, j') ∈ ms' ∧ Says F r.ty j (o.val r.name) ∧
      Says F r.ty j' (settled r.ty (o.val r.name))
  extra : ∀ k j, (k, j) ∈ ms → (∀ r ∈ objFields o.sid, r.key ≠ k) →
    ∃ d j', (k, j') ∈ ms' ∧ SaysDyn F j d ∧ SaysDyn F j' d
  only : ∀ k j', (k, j') ∈ ms' → k ∈ amKeys ms ∨
    (j' = .bool false ∧ ∃ r ∈ objFields o.sid, r.key = k ∧ r.ty = .bool)

end Stix.Spec
