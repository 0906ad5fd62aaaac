import Verif.Spec.Says

/-!
# What becomes of an element (specification)

Whether `encoding/json` and the `UnmarshalJSON` methods of the library take a JSON value for a value of
a Go type, type by type, without the values that are read.  Four things can happen: it is taken; it is
wrong, but the rest of the document is still looked at; it is refused on the spot; the program crashes.
-/

namespace Stix.Spec
open Stix

/-- What becomes of a JSON value. -/
inductive Fate
  | taken
  | wrong
  | refused
  | crash
  deriving DecidableEq

/-- The fate of a sequence: the first that is refused or crashes decides; otherwise it is wrong if
something in it is. -/
def inOrder : List Fate → Fate
  | [] => .taken
  | .taken :: l => inOrder l
  | .wrong :: l => match inOrder l with
    | .taken => .wrong
    | f => f
  | .refused :: _ => .refused
  | .crash :: _ => .crash

/-- Taken if the condition holds, and otherwise the other one. -/
noncomputable def takenIf (p : Prop) (other : Fate) : Fate :=
  open Classical in if p then .taken else other

/-- The text of an integer that an `int64` can hold. -/
def Int64Text (l : Str) : Prop :=
  ∃ (ds : List Nat) (i : Int), ds ≠ [] ∧ (∀ d ∈ ds, d ≤ 9) ∧
    ((l = ds.map digit ∧ i = decimal ds) ∨ (l = 45 :: ds.map digit ∧ i = -(decimal ds : Int))) ∧
    -2 ^ 63 ≤ i ∧ i < 2 ^ 63

/-- A JSON value for a byte: `null` or the text of a number below 256. -/
def ByteText (j : Json) : Prop :=
  j = .null ∨ ∃ ds : List Nat, ds ≠ [] ∧ (∀ d ∈ ds, d ≤ 9) ∧ decimal ds < 256 ∧ j = .num (ds.map digit)

mutual
/-- A number somewhere in the value is too large for a float. -/
def TooLarge (F : Canon.FloatFmt) : Json → Prop
  | .num l => F.parse l = none
  | .arr l => TooLargeIn F l
  | .obj ms => TooLargeMember F ms
  | _ => False

/-- In some element. -/
def TooLargeIn (F : Canon.FloatFmt) : List Json → Prop
  | [] => False
  | j :: l => TooLarge F j ∨ TooLargeIn F l

/-- In some member. -/
def TooLargeMember (F : Canon.FloatFmt) : List (Str × Json) → Prop
  | [] => False
  | (_, j) :: ms => TooLarge F j ∨ TooLargeMember F ms
end

/-- The fate of a map of extensions (whose order does not count): any that crashes, else any that is
not taken. -/
noncomputable def together (p : Fate → Prop) : Fate :=
  open Classical in
  if p .crash then .crash else if p .wrong ∨ p .refused then .refused else .taken

mutual
/-- The fate of a JSON value that is read as a value of the Go type. -/
noncomputable def fate (F : Canon.FloatFmt) : Ty → Json → Fate
  | .str _, j =>
    match j with
    | .null | .str _ _ => .taken
    | _ => .wrong
  | .bool, j =>
    match j with
    | .null | .bool _ => .taken
    | _ => .wrong
  | .int _, j =>
    match j with
    | .null => .taken
    | .num l => takenIf (Int64Text l) .wrong
    | _ => .wrong
  | .flt, j =>
    match j with
    | .null => .taken
    | .num l => takenIf (F.parse l ≠ none) .wrong
    | _ => .wrong
  | .enum e, j =>
    match e, j with
    | .EncryptionAlgorithm, .num [_] | .OpinionValue, .num [_] => .crash
    | .ExtensionType, .null | .ExtensionType, .str _ _ => .taken
    | .ExtensionType, _ => .refused
    | _, _ => .taken
  | .bin, j =>
    match j with
    | .null => .taken
    | .str _ s => takenIf (∃ b, Base64Text s b) .refused
    | .arr l => takenIf (∀ x ∈ l, ByteText x) .refused
    | _ => .refused
  | .time, j =>
    match j with
    | .str raw _ => takenIf (∃ x : Stamp, x.Valid ∧ x.zone.Within 24 60 ∧ x.Loose raw) .refused
    | .num [_] => .crash
    | _ => .refused
  | .slice t, j =>
    match j with
    | .null => .taken
    | .arr l => inOrder (l.map (fate F t))
    | .str _ s => takenIf ((∃ e, t = .enum e) ∧ ∃ b, Base64Text s b) .wrong
    | _ => .wrong
  | .map _ _ t, j =>
    match j with
    | .null => .taken
    | .obj ms => inOrder (ms.map fun e => fate F t e.2)
    | _ => .wrong
  | .ptr t, j =>
    match j with
    | .null => .taken
    | j => fate F t j
  | .struct _ fs, j =>
    match j with
    | .null => .taken
    | .obj ms => inOrder (ms.map fun e => fateMember F fs e.1 e.2)
    | _ => .wrong
  | .dyn, j => takenIf (¬ TooLarge F j) .wrong
  | .ext ks, j =>
    match j with
    | .null => .taken
    | .obj ms => together fun f => ∃ k v, member k ms = some v ∧ fateExtension F ks k v = f
    | _ => .refused
  | .raw, _ => .taken

/-- The fate of a member of a struct: that of its value for the property that has its name up to case;
others are ignored. -/
noncomputable def fateMember (F : Canon.FloatFmt) : Fields → Str → Json → Fate
  | .nil, _, _ => .taken
  | .cons _ k _ t rest, name, j =>
    open Classical in if SameUpToCase name k then fate F t j else fateMember F rest name j

/-- The fate of an extension: that of a struct if its key is known, else that of a custom object. -/
noncomputable def fateExtension (F : Canon.FloatFmt) : Known → Str → Json → Fate
  | .nil, _, j =>
    match j with
    | .null => .taken
    | .obj ms => takenIf (¬ TooLargeMember F ms) .wrong
    | _ => .wrong
  | .cons k _ fs rest, key, j =>
    if key = k then
      match j with
      | .null => .taken
      | .obj ms => inOrder (ms.map fun e => fateMember F fs e.1 e.2)
      | _ => .wrong
    else fateExtension F rest key j
end

/-- The text that a member gives to a property. -/
noncomputable def textFor (k n : Str) : Json → Option Str
  | .str _ x => open Classical in if SameUpToCase n k then some x else none
  | _ => none

/-- The text that the members give to a property: that of the last one of its name, up to case, that is a
text. -/
noncomputable def lastText (k : Str) : List (Str × Json) → Option Str
  | [] => none
  | (n, j) :: ms => (lastText k ms).or (textFor k n j)

/-- The type that objects without a type take over from those before them: that of the last object with
a type, if it is of another type than the library's or custom objects are dropped, and there is nothing
but objects after it. -/
inductive TypeLeft (drop : Prop) : List Json → Str → Prop
  | here {before ms t} : Text (.obj ms) (b!"type") t → (drop ∨ ∀ s, (t, s) ∉ goTypes) →
      TypeLeft drop (before ++ [.obj ms]) t
  | past {before ms t} : TypeLeft drop before t → member (b!"type") ms = none → TypeLeft drop (before ++ [.obj ms]) t

/-- The type by which an object is read. -/
inductive TypedAs (drop : Prop) (before : List Json) (ms : List (Str × Json)) : Str → Prop
  | own {t} : Text (.obj ms) (b!"type") t → TypedAs drop before ms t
  | left {t} : member (b!"type") ms = none → TypeLeft drop before t → TypedAs drop before ms t

/-- The element of a document is taken: null, or an object without numbers that are too large, which
is of a type of the library, with all members taken, or of another type, and is identified by its id,
unless it is dropped or has no type. -/
inductive Taken (F : Canon.FloatFmt) (drop : Prop) (before : List Json) : Json → Prop
  | null : Taken F drop before .null
  | untyped {ms} : ¬ TooLargeMember F ms → member (b!"type") ms = none → (∀ t, ¬ TypeLeft drop before t) →
      Taken F drop before (.obj ms)
  | known {ms t s t' id} : ¬ TooLargeMember F ms → TypedAs drop before ms t → (t, s) ∈ goTypes →
      inOrder (ms.map fun e => fateMember F (mkFields (objFields s)) e.1 e.2) = .taken →
      lastText (b!"type") ms = some t' → lastText (b!"id") ms = some id → Identifies t' id →
      Taken F drop before (.obj ms)
  | dropped {ms t} : ¬ TooLargeMember F ms → TypedAs drop before ms t → (∀ s, (t, s) ∉ goTypes) → drop →
      Taken F drop before (.obj ms)
  | custom {ms t id} : ¬ TooLargeMember F ms → Text (.obj ms) (b!"type") t → (∀ s, (t, s) ∉ goTypes) → ¬ drop →
      Text (.obj ms) (b!"id") id → Identifies t id → Taken F drop before (.obj ms)

/-- The element makes the program crash: it has no numbers that are too large, and its type is no text;
or the first of its members that is not just wrong crashes; or it is of another type, is not dropped, and
has an id that is no text. -/
inductive Crashing (F : Canon.FloatFmt) (drop : Prop) (before : List Json) : Json → Prop
  | type {ms v} : ¬ TooLargeMember F ms → member (b!"type") ms = some v → (∀ t, ¬ IsText v t) →
      Crashing F drop before (.obj ms)
  | known {ms t s} : ¬ TooLargeMember F ms → TypedAs drop before ms t → (t, s) ∈ goTypes →
      inOrder (ms.map fun e => fateMember F (mkFields (objFields s)) e.1 e.2) = .crash →
      Crashing F drop before (.obj ms)
  | custom {ms t v} : ¬ TooLargeMember F ms → TypedAs drop before ms t → (∀ s, (t, s) ∉ goTypes) → ¬ drop →
      member (b!"id") ms = some v → (∀ i, ¬ IsText v i) → Crashing F drop before (.obj ms)

/-- All elements are taken. -/
def AllTaken (F : Canon.FloatFmt) (drop : Prop) (l : List Json) : Prop :=
  ∀ before j after, l = before ++ j :: after → Taken F drop before j

end Stix.Spec
