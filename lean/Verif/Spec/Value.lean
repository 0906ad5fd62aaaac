import Verif.Gen.Structs
import Verif.Model.SortedMap
import Verif.Spec.Enum
import Verif.Spec.Float
import Verif.Spec.Canon

/-!
# Values of the library's types (specification)

Which values a field can hold, which of those survive being written as JSON and read again, and
what they are then.  Directed by the Go types of the struct tables only; encoding and decoding are
not mentioned.
-/

namespace Stix.Spec
open Stix

mutual
/-- Every string and key in the value satisfies `S`, every float `N`; it consists of the Go types
`encoding/json` itself puts into an `interface{}` when `native` is set. -/
def DynAll (native : Bool) (S : Str → Prop) (N : UInt64 → Prop) : Dyn → Prop
  | .nil => True
  | .bool _ => True
  | .num f => N f
  | .int _ => native = false
  | .str s => S s
  | .strs l => native = false ∧ ∀ s ∈ l, S s
  | .arr l => DynAllList native S N l
  | .obj m => SortedKeys m ∧ DynAllEntries native S N m

/-- The elements. -/
def DynAllList (native : Bool) (S : Str → Prop) (N : UInt64 → Prop) : List Dyn → Prop
  | [] => True
  | d :: l => DynAll native S N d ∧ DynAllList native S N l

/-- The members. -/
def DynAllEntries (native : Bool) (S : Str → Prop) (N : UInt64 → Prop) : List (Str × Dyn) → Prop
  | [] => True
  | (k, d) :: l => (S k ∧ DynAll native S N d) ∧ DynAllEntries native S N l
end

/-- What is asked of the leaves of a value. -/
structure Leaves where
  /-- strings and map keys -/
  str : Str → Prop
  int : Int → Prop
  flt : UInt64 → Prop
  enum : EnumId → UInt8 → Prop
  time : GoTime → Prop
  /-- `interface{}` values are as `encoding/json` makes them -/
  native : Bool
  /-- an extension struct stands under its own key, other keys have a `*CustomObject` -/
  ownKey : Bool

/-- An `interface{}`. -/
def Leaves.dyn (P : Leaves) : Dyn → Prop := DynAll P.native P.str P.flt

/-- A `CustomObject`: a map, or nil. -/
def IsCustom (d : Dyn) : Prop := d = .nil ∨ ∃ m, d = .obj m

mutual
/-- The value is of the type and its leaves satisfy `P`.  Maps are in canonical form. -/
def Val (P : Leaves) : Ty → GV → Prop
  | .str _, v => ∃ s, v = .str s ∧ P.str s
  | .bool, v => ∃ b, v = .bool b
  | .int _, v => ∃ i, v = .int i ∧ P.int i
  | .flt, v => ∃ f, v = .flt f ∧ P.flt f
  | .enum e, v => ∃ n, v = .enum n ∧ P.enum e n
  | .bin, v => ∃ b, v = .bin b
  | .time, v => ∃ t, v = .time t ∧ P.time t
  | .slice t, v => v = .slice none ∨ ∃ l, v = .slice (some l) ∧ ∀ x ∈ l, Val P t x
  | .map _ _ t, v => v = .map none ∨
      ∃ m, v = .map (some m) ∧ SortedKeys m ∧ ∀ e ∈ m, P.str e.1 ∧ Val P t e.2
  | .ptr t, v => v = .ptr none ∨ ∃ x, v = .ptr (some x) ∧ Val P t x
  | .struct _ fs, v => ∃ f, v = .struct f ∧ ValFields P fs f
  | .dyn, v => ∃ d, v = .dyn d ∧ P.dyn d
  | .ext ks, v => v = .map none ∨
      ∃ m, v = .map (some m) ∧ SortedKeys m ∧ ∀ e ∈ m, P.str e.1 ∧ ValExt P ks e.1 e.2
  | .raw, v => ∃ j, v = .raw j

/-- Every field has a value of its type. -/
def ValFields (P : Leaves) : Fields → (Str → GV) → Prop
  | .nil, _ => True
  | .cons n _ _ t rest, f => Val P t (f n) ∧ ValFields P rest f

/-- An extension: a pointer to one of the extension structs, a pointer to a `CustomObject`, or, if
`P` lets it, any other value. -/
def ValExt (P : Leaves) : Known → Str → GV → Prop
  | .nil, _, v => (∃ d, v = .iface [] (.dyn d) ∧ IsCustom d ∧ P.dyn d) ∨
      (P.ownKey = false ∧ ∃ d, v = .dyn d ∧ P.dyn d)
  | .cons k _ fs rest, key, v =>
    ((P.ownKey = true → key = k) ∧ ∃ f, v = .iface k (.struct f) ∧ ValFields P fs f) ∨
      ((P.ownKey = true → key ≠ k) ∧ (∀ x, v ≠ .iface k x) ∧ ValExt P rest key v)
end

/-- Any value of the type, as long as every float is a number. -/
def typed : Leaves where
  str _ := True
  int _ := True
  flt := F64Finite
  enum _ _ := True
  time _ := True
  native := false
  ownKey := false

/-- A value of the type in which every float is a number. -/
def Typed (t : Ty) (v : GV) : Prop := Val typed t v

/-- End of the year 9999, in nanoseconds since the beginning of the year 0: 3652425 days. -/
def endOfYears : Int := 3652425 * 86400 * 1000000000

/-- What JSON can carry: Unicode text, 64-bit integers, finite floats, declared enumeration values
(or the zero value), the years 0 to 9999, `interface{}` values as the decoder makes them, and
extensions under their own keys. -/
def carriable : Leaves where
  str := Canon.Unicode
  int i := -2 ^ 63 ≤ i ∧ i < 2 ^ 63
  flt := F64Finite
  enum e n := n = 0 ∨ ∃ s, (n, s) ∈ vocabulary e
  time t := 0 ≤ t.ns ∧ t.ns < endOfYears
  native := true
  ownKey := true

/-- A value of the type that JSON can carry. -/
def Carriable (t : Ty) (v : GV) : Prop := Val carriable t v

/-! ### What becomes of a value -/

/-- A value an `omitempty` member of a nested struct does not show: false, zero, nil, and anything of
length zero. -/
def Blank : GV → Bool
  | .str s => s.isEmpty
  | .bool b => !b
  | .int i => i = 0
  | .flt f => f64Units f = 0
  | .enum n => n = 0
  | .bin b => match b with
    | none => true
    | some l => l.isEmpty
  | .slice l => match l with
    | none => true
    | some l => l.isEmpty
  | .map m => match m with
    | none => true
    | some m => m.isEmpty
  | .ptr p => p.isNone
  | .dyn .nil => true
  | _ => false

mutual
/-- The value after a round trip: times lose what is below a millisecond and their zone, blank
`omitempty` members of nested structs become their zero values, an `Extensions` map is never nil;
nothing else changes. -/
def settled : Ty → GV → GV
  | .time, v => match v with
    | .time t => .time { ns := t.ns / 1000000 * 1000000, off := 0 }
    | v => v
  | .slice t, v => match v with
    | .slice (some l) => .slice (some (l.map (settled t)))
    | v => v
  | .map _ _ t, v => match v with
    | .map (some m) => .map (some (m.map fun e => (e.1, settled t e.2)))
    | v => v
  | .ptr t, v => match v with
    | .ptr (some x) => .ptr (some (settled t x))
    | v => v
  | .struct _ fs, v => match v with
    | .struct f => .struct (settledFields fs f)
    | v => v
  | .ext ks, v => match v with
    | .map (some m) => .map (some (m.map fun e => (e.1, settledExt ks e.2)))
    | .map none => .map (some [])
    | v => v
  | _, v => v

/-- Field by field. -/
def settledFields : Fields → (Str → GV) → Str → GV
  | .nil, _, _ => default
  | .cons n _ o t rest, f, x =>
    if x = n then (if o && Blank (f n) then zero t else settled t (f n)) else settledFields rest f x

/-- The struct an extension points to. -/
def settledExt : Known → GV → GV
  | .nil, v => v
  | .cons k _ fs rest, v => match v with
    | .iface tag (.struct f) =>
      if tag = k then .iface tag (.struct (settledFields fs f)) else settledExt rest v
    | v => v
end

end Stix.Spec
