import Verif.Spec.Fate

/-!
# What a JSON value means for a Go type (specification)

`Says` is about values that are written properly.  This is about everything that the parser takes:
`null`, members in another case, repeated and unknown ones, arrays of numbers for bytes.  Where a
property of a composite type has several members, nothing is said about it.
-/

namespace Stix.Spec
open Stix

mutual
/-- A JSON value as an `interface{}`: of repeated members the last one counts. -/
def MeansDyn (F : Canon.FloatFmt) : Json → Dyn → Prop
  | j, .nil => j = .null
  | j, .bool b => j = .bool b
  | j, .num x => ∃ l, j = .num l ∧ F.parse l = some x
  | _, .int _ => False
  | j, .str s => IsText j s
  | _, .strs _ => False
  | j, .arr ds => ∃ l, j = .arr l ∧ MeansDynList F l ds
  | j, .obj m => ∃ ms, j = .obj ms ∧ SortedKeys m ∧ (∀ k ∈ amKeys ms, k ∈ amKeys m) ∧ MeansDynEntries F ms m

/-- Elements. -/
def MeansDynList (F : Canon.FloatFmt) : List Json → List Dyn → Prop
  | l, [] => l = []
  | l, d :: ds => ∃ j js, l = j :: js ∧ MeansDyn F j d ∧ MeansDynList F js ds

/-- Every entry has its member. -/
def MeansDynEntries (F : Canon.FloatFmt) : List (Str × Json) → List (Str × Dyn) → Prop
  | _, [] => True
  | ms, (k, d) :: m => (∃ j, member k ms = some j ∧ MeansDyn F j d) ∧ MeansDynEntries F ms m
end

/-- The text of an integer that an `int64` can hold, and the integer. -/
def Int64For (l : Str) (i : Int) : Prop :=
  ∃ ds : List Nat, ds ≠ [] ∧ (∀ d ∈ ds, d ≤ 9) ∧
    ((l = ds.map digit ∧ i = decimal ds) ∨ (l = 45 :: ds.map digit ∧ i = -(decimal ds : Int))) ∧
    -2 ^ 63 ≤ i ∧ i < 2 ^ 63

/-- A JSON value for a byte: `null` is zero. -/
def ByteFor (j : Json) (b : UInt8) : Prop :=
  (j = .null ∧ b = 0) ∨ ∃ ds : List Nat, ds ≠ [] ∧ (∀ d ∈ ds, d ≤ 9) ∧ decimal ds = b.toNat ∧ j = .num (ds.map digit)

/-- The value of an enumeration for a name; zero for what is no name. -/
def NameFor (e : EnumId) (s : Str) (n : UInt8) : Prop :=
  (n, s) ∈ vocabulary e ∨ (n = 0 ∧ ¬ IsName e s)

/-- The value of an enumeration for a JSON value: a name is spelled without escapes, except for
extension types; what is no string is no name. -/
def EnumFor (e : EnumId) (j : Json) (n : UInt8) : Prop :=
  (∃ raw s, j = .str raw s ∧ NameFor e (if e = .ExtensionType then s else raw) n) ∨
    (n = 0 ∧ ∀ raw s, j ≠ .str raw s)

/-- Types whose values are replaced by every value, `null` too. -/
def Replaced : Ty → Bool
  | .enum _ | .bin | .time | .dyn | .ext _ | .raw => true
  | .ptr t => match t with
    | .str _ | .bool | .int _ | .flt | .enum _ | .bin | .time => true
    | _ => false
  | _ => false

/-- Types whose values are replaced by every value but `null`. -/
def ScalarTy : Ty → Bool
  | .str _ | .bool | .int _ | .flt => true
  | _ => false

/-- The values of the members that have the name up to case. -/
noncomputable def valuesOf (k : Str) : List (Str × Json) → List Json
  | [] => []
  | (n, j) :: ms => open Classical in if SameUpToCase n k then j :: valuesOf k ms else valuesOf k ms

/-- The value that counts, of those given to a property. -/
inductive Counts (t : Ty) : List Json → Json → Prop
  | only {j} : Counts t [j] j
  | last {js j} : Replaced t = true → Counts t (js ++ [j]) j
  | given {js j n} : ScalarTy t = true → j ≠ .null → Counts t (js ++ j :: List.replicate n .null) j
  | nulls {n} : ScalarTy t = true → Counts t (List.replicate n .null) .null

mutual
/-- The JSON value means the value of the type. -/
def Means (F : Canon.FloatFmt) : Ty → Json → GV → Prop
  | .str _, j, v => (j = .null ∧ v = .str []) ∨ ∃ s, IsText j s ∧ v = .str s
  | .bool, j, v => (j = .null ∧ v = .bool false) ∨ ∃ b, j = .bool b ∧ v = .bool b
  | .int _, j, v => (j = .null ∧ v = .int 0) ∨ ∃ l i, j = .num l ∧ v = .int i ∧ Int64For l i
  | .flt, j, v => (j = .null ∧ v = .flt 0) ∨ ∃ l x, j = .num l ∧ v = .flt x ∧ F.parse l = some x
  | .enum e, j, v => ∃ n, v = .enum n ∧ EnumFor e j n
  | .bin, j, v => (j = .null ∧ v = .bin none) ∨ (∃ s b, IsText j s ∧ v = .bin (some b) ∧ Base64Text s b) ∨
      ∃ l b, j = .arr l ∧ v = .bin (some b) ∧ List.Forall₂ ByteFor l b
  | .time, j, v => ∃ raw s, ∃ x : Stamp, x.Valid ∧ x.zone.Within 24 60 ∧ x.Loose raw ∧
      j = .str raw s ∧ v = .time { ns := x.nanos, off := x.zone.seconds }
  | .slice t, j, v => (j = .null ∧ v = .slice none) ∨
      (∃ js l, j = .arr js ∧ v = .slice (some l) ∧ List.Forall₂ (fun j v => Means F t j v) js l) ∨
      ∃ s b, IsText j s ∧ (∃ e, t = .enum e) ∧ Base64Text s b ∧ v = .slice (some (b.map .enum))
  | .map _ _ t, j, v => (j = .null ∧ v = .map none) ∨
      ∃ ms m, j = .obj ms ∧ v = .map (some m) ∧ SortedKeys m ∧ (∀ k, k ∈ amKeys ms ↔ k ∈ amKeys m) ∧
        ∀ k j v, member k ms = some j → (k, v) ∈ m → Means F t j v
  | .ptr t, j, v => (j = .null ∧ v = .ptr none) ∨
      ∃ x, j ≠ .null ∧ v = .ptr (some x) ∧ Means F t j x
  | .struct n fs, j, v => (j = .null ∧ v = zero (.struct n fs)) ∨
      ∃ ms f, j = .obj ms ∧ v = .struct f ∧
      (∀ x, (∀ r ∈ fs.toList, r.name ≠ x) → f x = default) ∧ MeansFields F fs ms f
  | .dyn, j, v => ∃ d, v = .dyn d ∧ MeansDyn F j d
  | .ext ks, j, v => (j = .null ∧ v = .map (some [])) ∨
      ∃ ms m, j = .obj ms ∧ v = .map (some m) ∧ SortedKeys m ∧ (∀ k, k ∈ amKeys ms ↔ k ∈ amKeys m) ∧
        ∀ k j v, member k ms = some j → (k, v) ∈ m → MeansExt F ks k j v
  | .raw, j, v => v = .raw j

/-- Every field is what the value that counts means, and zero if there is none. -/
def MeansFields (F : Canon.FloatFmt) : Fields → List (Str × Json) → (Str → GV) → Prop
  | .nil, _, _ => True
  | .cons n k _ t rest, ms, f =>
    (valuesOf k ms = [] → f n = zero t) ∧ (∀ j, Counts t (valuesOf k ms) j → Means F t j (f n)) ∧
      MeansFields F rest ms f

/-- An extension: the struct of its key, or a `CustomObject`. -/
def MeansExt (F : Canon.FloatFmt) : Known → Str → Json → GV → Prop
  | .nil, _, j, v => ∃ d, v = .iface [] (.dyn d) ∧ IsCustom d ∧ MeansDyn F j d
  | .cons k _ fs rest, key, j, v =>
    (key = k ∧ ((j = .null ∧ v = .iface k (.struct (zeroFields fs))) ∨ ∃ ms f, j = .obj ms ∧ v = .iface k (.struct f) ∧
      (∀ x, (∀ r ∈ fs.toList, r.name ≠ x) → f x = default) ∧ MeansFields F fs ms f)) ∨
    (key ≠ k ∧ MeansExt F rest key j v)
end

/-- The members of an object mean these values of the fields of the Go type. -/
structure MeansObj (F : Canon.FloatFmt) (s : SId) (ms : List (Str × Json)) (val : Str → GV) : Prop where
  other : ∀ x, (∀ r ∈ objFields s, r.name ≠ x) → val x = default
  fields : MeansFields F (mkFields (objFields s)) ms val

mutual
/-- No object in the value has two members of the same name up to case. -/
def Unrepeated : Json → Prop
  | .arr l => UnrepeatedElems l
  | .obj ms => (ms.map fun e => foldName e.1).Nodup ∧ UnrepeatedMembers ms
  | _ => True

/-- In any element. -/
def UnrepeatedElems : List Json → Prop
  | [] => True
  | j :: l => Unrepeated j ∧ UnrepeatedElems l

/-- In any member. -/
def UnrepeatedMembers : List (Str × Json) → Prop
  | [] => True
  | (_, j) :: ms => Unrepeated j ∧ UnrepeatedMembers ms
end

end Stix.Spec
