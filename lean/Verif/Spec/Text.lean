import Verif.Spec.Canon

/-!
# JSON texts (specification)

The grammar of RFC 8259, on the concrete syntax trees of `Verif.Spec.Canon`, and what the texts
denote.  Beyond the RFC, as in Go, bytes in strings that are not UTF-8 and escapes that are not
Unicode characters stand for U+FFFD.
-/

namespace Stix.Spec.Text
open Stix Stix.Spec.Canon

/-- One digit or more. -/
def Digits (t : Str) : Prop := t ≠ [] ∧ ∀ c ∈ t, IsDigit c

/-- An integer without superfluous zeros. -/
def IntPart (t : Str) : Prop := t = b!"0" ∨ (Digits t ∧ t.head? ≠ some 48)

/-- Nothing, or a point and digits. -/
def FracPart (t : Str) : Prop := t = [] ∨ ∃ ds, t = 46 :: ds ∧ Digits ds

/-- Nothing, or the letter e, a sign or none, and digits. -/
def ExpPart (t : Str) : Prop :=
  t = [] ∨ ∃ e sgn ds, t = e :: (sgn ++ ds) ∧ (e = 101 ∨ e = 69) ∧
    (sgn = [] ∨ sgn = b!"+" ∨ sgn = b!"-") ∧ Digits ds

/-- A JSON number (RFC 8259, 6). -/
def Number (t : Str) : Prop :=
  ∃ sgn i f e, t = sgn ++ (i ++ f ++ e) ∧ (sgn = [] ∨ sgn = b!"-") ∧ IntPart i ∧ FracPart f ∧
    ExpPart e

/-- U+FFFD -/
def replacement : Str := String.utf8EncodeChar '�'

/-- `Reads body s`: the bytes `body` between two quotes denote the string `s`. -/
inductive Reads : Str → Str → Prop
  | nil : Reads [] []
  | ascii {c body s} : 32 ≤ c → c < 128 → c ≠ 34 → c ≠ 92 → Reads body s → Reads (c :: body) (c :: s)
  | char {c : Char} {body s} : 128 ≤ c.toNat → Reads body s →
      Reads (String.utf8EncodeChar c ++ body) (String.utf8EncodeChar c ++ s)
  | byte {c body s} : 128 ≤ c → (∀ (x : Char) r, c :: body ≠ String.utf8EncodeChar x ++ r) →
      Reads body s → Reads (c :: body) (replacement ++ s)
  | short {l x body s} : (l, x) ∈ shortEscapes → Reads body s → Reads (92 :: l :: body) (x :: s)
  | hex {h body s} {c : Char} : c.toNat < 0x10000 → IsHex4 h c.toNat → Reads body s →
      Reads (b!"\\u" ++ h ++ body) (String.utf8EncodeChar c ++ s)
  | pair {h l body s a b} {c : Char} : units c = [a, b] → IsHex4 h a → IsHex4 l b → Reads body s →
      Reads (b!"\\u" ++ h ++ (b!"\\u" ++ l ++ body)) (String.utf8EncodeChar c ++ s)
  | half {h body s n} : IsHex4 h n → 0xD800 ≤ n → n < 0xE000 →
      (∀ l r b (c : Char), body = b!"\\u" ++ l ++ r → IsHex4 l b → units c ≠ [n, b]) →
      Reads body s → Reads (b!"\\u" ++ h ++ body) (replacement ++ s)

mutual
/-- White space is white, strings can be read, literals and numbers are ones. -/
def Valid : Syn → Prop
  | .lit t => t = b!"true" ∨ t = b!"false" ∨ t = b!"null"
  | .num t => Number t
  | .str body dec => Reads body dec
  | .arr w es => White w ∧ ValidElems es
  | .obj w ms => White w ∧ ValidMembers ms

/-- Elements. -/
def ValidElems : Elems → Prop
  | .nil => True
  | .cons w₁ v w₂ r => White w₁ ∧ Valid v ∧ White w₂ ∧ ValidElems r

/-- Members. -/
def ValidMembers : Members → Prop
  | .nil => True
  | .cons w₁ body dec w₂ w₃ v w₄ r =>
    White w₁ ∧ Reads body dec ∧ White w₂ ∧ White w₃ ∧ Valid v ∧ White w₄ ∧ ValidMembers r
end

mutual
/-- How deep arrays and objects are nested. -/
def depth : Syn → Nat
  | .arr _ es => depthElems es + 1
  | .obj _ ms => depthMembers ms + 1
  | _ => 0

/-- The deepest element. -/
def depthElems : Elems → Nat
  | .nil => 0
  | .cons _ v _ r => max (depth v) (depthElems r)

/-- The deepest member. -/
def depthMembers : Members → Nat
  | .nil => 0
  | .cons _ _ _ _ _ v _ r => max (depth v) (depthMembers r)
end

mutual
/-- The value: strings with their spelling, members in document order. -/
def tree : Syn → Json
  | .lit t => if t = b!"true" then .bool true else if t = b!"false" then .bool false else .null
  | .num t => .num t
  | .str body dec => .str body dec
  | .arr _ es => .arr (treeElems es)
  | .obj _ ms => .obj (treeMembers ms)

/-- The values of the elements. -/
def treeElems : Elems → List Json
  | .nil => []
  | .cons _ v _ r => tree v :: treeElems r

/-- The names and values of the members. -/
def treeMembers : Members → List (Str × Json)
  | .nil => []
  | .cons _ _ dec _ _ v _ r => (dec, tree v) :: treeMembers r
end

/-- `text` is a JSON document with the value `j`, nested no deeper than `d`. -/
def IsText (d : Nat) (text : Str) (j : Json) : Prop :=
  ∃ (w w' : Str) (s : Syn), White w ∧ White w' ∧ Valid s ∧ depth s ≤ d ∧ j = tree s ∧
    text = w ++ s.text ++ w'

/-- What `IsText` and the texts of floats need of the formatting functions of `strconv`, beyond
`FloatLaws`: they write numbers of the grammar. -/
structure WritesNumbers (F : Stix.Canon.FloatFmt) : Prop where
  /-- `'f'` format -/
  f : ∀ a, PosFinite a → ∃ i r, F.formatF a = i ++ r ∧ IntPart i ∧ FracPart r
  /-- `'e'` format -/
  e : ∀ a, PosFinite a → ∃ i r sgn ds, F.formatE a = i ++ r ++ 101 :: sgn :: ds ∧ IntPart i ∧
    FracPart r ∧ sgn ∈ b!"+-" ∧ 2 ≤ ds.length ∧ ∀ c ∈ ds, IsDigit c

mutual
/-- How deep the arrays and objects of a value are nested. -/
def height : Json → Nat
  | .arr l => heightArr l + 1
  | .obj m => heightObj m + 1
  | _ => 0

/-- The deepest element. -/
def heightArr : List Json → Nat
  | [] => 0
  | j :: l => max (height j) (heightArr l)

/-- The deepest member. -/
def heightObj : List (Str × Json) → Nat
  | [] => 0
  | (_, j) :: m => max (height j) (heightObj m)
end

end Stix.Spec.Text
