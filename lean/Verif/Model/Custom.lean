import Verif.Gen.ExtGetters
import Verif.Model.Option
import Verif.Model.Codec

/-!
# `CustomObject` and the extension accessors
-/

namespace Stix

/-- A `CustomObject` (extension.go:287): a map, or nil.  What is in it is a `Dyn`: values of other Go
types that user code may put there are not modelled. -/
abbrev Custom := Option (List (Str × Dyn))

/-- `CustomObject.Get` (extension.go:290-296); nil is `Dyn.nil`. -/
def Custom.get (c : Custom) (key : Str) : Dyn :=
  match amLookup key (c.getD []) with
  | none => .nil
  | some v => v

/-- `CustomObject.Set` (extension.go:299-301): assignment to an entry of a nil map panics. -/
def Custom.set (c : Custom) (key : Str) (val : Dyn) : Res Custom :=
  match c with
  | none => .panic
  | some m => .ok (some (smInsert key val m))

/-- `CustomObject.GetAsString` (extension.go:304-310) -/
def Custom.getAsString (c : Custom) (key : Str) : Res Str :=
  match c.get key with
  | .nil => .ok []
  | .str s => .ok s
  | _ => .panic

/-- `CustomObject.GetAsStringSlice` (extension.go:313-319); `none` is a nil slice. -/
def Custom.getAsStringSlice (c : Custom) (key : Str) : Res (Option (List Str)) :=
  match c.get key with
  | .nil => .ok none
  | .strs l => .ok (some l)
  | _ => .panic

/-- The integer part of a finite double. -/
def f64Trunc (b : F64) : Int :=
  let e := b.toNat / 2 ^ 52 % 2048
  let m := b.toNat % 2 ^ 52
  let n : Nat := if e = 0 then m / 2 ^ 1074
    else if 1075 ≤ e then (m + 2 ^ 52) * 2 ^ (e - 1075) else (m + 2 ^ 52) / 2 ^ (1075 - e)
  if b.toNat < 2 ^ 63 then (n : Int) else -(n : Int)

/-- The conversion `int64(f)`.  What it gives when the value does not fit depends on the processor;
`other` stands for that. -/
def toInt64 (other : F64 → Int) (b : F64) : Int :=
  if finite b ∧ -(2 ^ 63) ≤ f64Trunc b ∧ f64Trunc b < 2 ^ 63 then f64Trunc b else other b

/-- `CustomObject.GetAsNumber` (extension.go:323-335) -/
def Custom.getAsNumber (other : F64 → Int) (c : Custom) (key : Str) : Res Int :=
  match c.get key with
  | .nil => .ok 0
  | .int i => .ok i
  | .num f => .ok (toInt64 other f)
  | _ => .panic

/-- `convTimeString` (extension.go:367-377), which `GetCreated` (extension.go:357-359) and
`GetModified` (extension.go:363-365) call with their key; `none` is nil. -/
def Custom.getTime (c : Custom) (key : Str) : Res (Option GoTime) :=
  match amLookup key (c.getD []) with
  | none => .ok none
  | some (.str s) => .ok (goParse s)
  | some _ => .panic

/-- The Go name of the struct behind the tag of an extension value. -/
def Known.structName : Known → Str → Option Str
  | .nil, _ => none
  | .cons k n _ rest, tag => if tag = k then some n else rest.structName tag

/-- A typed extension accessor (file.go:60-103, network.go:97-130, process.go:53-69, user.go:73-79),
given its key and the Go type it asserts: the fields of the struct, or `none` for nil. -/
def extGetter (o : Obj) (key name : Str) : Res (Option (Str → GV)) :=
  match o.val (b!"Extensions") with
  | .map (some m) =>
    match amLookup key m with
    | none => .ok none
    | some (.iface tag (.struct f)) =>
      if knownExts.structName tag = some name then .ok (some f) else .panic
    | some _ => .panic
  | .map none => .ok none
  | _ => .panic

end Stix
