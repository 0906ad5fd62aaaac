import Verif.Model.Canon

/-!
# Specification side of the canonicaliser (C42-C44)

What a JSON text is and what it denotes, stated without the parser: a *concrete syntax tree*
says which white space and which spelling of every string a text uses (`Syn.text`), and
forgetting these gives the *value* it denotes (`Syn.value`).
-/

namespace Stix.Spec.Canon
open Stix Stix.Canon

/-- UTF-8 of a Unicode string. -/
def utf8 (cs : List Char) : Str := cs.flatMap String.utf8EncodeChar

/-- UTF-16 code units of a character. -/
def units (c : Char) : List Nat :=
  if c.toNat < 0x10000 then [c.toNat]
  else [0xD800 + (c.toNat - 0x10000) / 0x400, 0xDC00 + (c.toNat - 0x10000) % 0x400]

/-- UTF-16 code units of a Unicode string. -/
def utf16Units (cs : List Char) : List Nat := cs.flatMap units

/-- JSON white space. -/
def White (w : Str) : Prop := ∀ c ∈ w, c ∈ [32, 9, 10, 13]

/-- `c` is a hexadecimal digit of value `d`, in either case. -/
def IsHex (c : UInt8) (d : Nat) : Prop :=
  (b!"0123456789abcdef")[d]? = some c ∨ (b!"0123456789ABCDEF")[d]? = some c

/-- `h` is four hexadecimal digits of value `n`. -/
def IsHex4 (h : Str) (n : Nat) : Prop :=
  ∃ a b c d w x y z, h = [a, b, c, d] ∧ IsHex a w ∧ IsHex b x ∧ IsHex c y ∧ IsHex d z ∧
    n = ((w * 16 + x) * 16 + y) * 16 + z

/-- The two-character escapes of JSON. -/
def shortEscapes : List (UInt8 × UInt8) :=
  [(34, 34), (92, 92), (47, 47), (98, 8), (102, 12), (110, 10), (114, 13), (116, 9)]

/-- `Spells body s`: the bytes `body` between two quotes denote the string `s`.  A surrogate must be
followed by another escape; if the two do not make a character, they denote U+FFFD. -/
inductive Spells : Str → Str → Prop
  | nil : Spells [] []
  | plain {c body s} : 32 ≤ c → c ≠ 34 → c ≠ 92 → Spells body s → Spells (c :: body) (c :: s)
  | short {l x body s} : (l, x) ∈ shortEscapes → Spells body s →
      Spells (92 :: l :: body) (x :: s)
  | hex {h body s} {c : Char} : c.toNat < 0x10000 → IsHex4 h c.toNat → Spells body s →
      Spells (b!"\\u" ++ h ++ body) (String.utf8EncodeChar c ++ s)
  | pair {h l body s a b} {c : Char} : units c = [a, b] → IsHex4 h a → IsHex4 l b → Spells body s →
      Spells (b!"\\u" ++ h ++ b!"\\u" ++ l ++ body) (String.utf8EncodeChar c ++ s)
  | broken {h l body s a b} : 0xD800 ≤ a → a < 0xE000 → (∀ c, units c ≠ [a, b]) → IsHex4 h a →
      IsHex4 l b → Spells body s →
      Spells (b!"\\u" ++ h ++ b!"\\u" ++ l ++ body) (String.utf8EncodeChar '\uFFFD' ++ s)

/-- The three literals. -/
def Literal (t : Str) : Prop := t = b!"true" ∨ t = b!"false" ∨ t = b!"null"

/-- A token that can stand for a number: ASCII without white space and delimiters, and not another
kind of value.  Which of these are numbers is up to `strconv` (`FiniteNumber`). -/
def NumToken (t : Str) : Prop :=
  t.headD 34 ∉ b!"\"[{" ∧ ¬ Literal t ∧ ∀ c ∈ t, c < 128 ∧ c ∉ b!" \t\n\x0d,]}"

/-- JSON values: literals, number tokens, decoded strings, arrays and objects with their
members in document order. -/
inductive JV where
  | lit (t : Str)
  | num (t : Str)
  | str (s : Str)
  | arr (l : List JV)
  | obj (m : List (Str × JV))

mutual
/-- JSON texts with everything that is insignificant recorded. -/
inductive Syn where
  | lit (t : Str)
  | num (t : Str)
  | str (body dec : Str)
  | arr (w : Str) (es : Elems)
  | obj (w : Str) (ms : Members)

/-- Array elements with the white space around each. -/
inductive Elems where
  | nil
  | cons (w₁ : Str) (v : Syn) (w₂ : Str) (rest : Elems)

/-- Object members with the spelling of the name and the white space around each part. -/
inductive Members where
  | nil
  | cons (w₁ body dec w₂ w₃ : Str) (v : Syn) (w₄ : Str) (rest : Members)
end

mutual
/-- The text. -/
def Syn.text : Syn → Str
  | .lit t => t
  | .num t => t
  | .str body _ => b!"\"" ++ body ++ b!"\""
  | .arr w es => b!"[" ++ w ++ (b!",").intercalate es.texts ++ b!"]"
  | .obj w ms => b!"{" ++ w ++ (b!",").intercalate ms.texts ++ b!"}"

/-- The texts of the elements. -/
def Elems.texts : Elems → List Str
  | .nil => []
  | .cons w₁ v w₂ r => (w₁ ++ v.text ++ w₂) :: r.texts

/-- The texts of the members. -/
def Members.texts : Members → List Str
  | .nil => []
  | .cons w₁ body _ w₂ w₃ v w₄ r =>
    (w₁ ++ b!"\"" ++ body ++ b!"\"" ++ w₂ ++ b!":" ++ w₃ ++ v.text ++ w₄) :: r.texts
end

mutual
/-- The value denoted. -/
def Syn.value : Syn → JV
  | .lit t => .lit t
  | .num t => .num t
  | .str _ dec => .str dec
  | .arr _ es => .arr es.values
  | .obj _ ms => .obj ms.values

/-- The values of the elements. -/
def Elems.values : Elems → List JV
  | .nil => []
  | .cons _ v _ r => v.value :: r.values

/-- The names and values of the members. -/
def Members.values : Members → List (Str × JV)
  | .nil => []
  | .cons _ _ dec _ _ v _ r => (dec, v.value) :: r.values
end

mutual
/-- White space is white, spellings spell, literals and numbers are ones. -/
def Syn.WF : Syn → Prop
  | .lit t => Literal t
  | .num t => NumToken t
  | .str body dec => Spells body dec
  | .arr w es => White w ∧ es.WF
  | .obj w ms => White w ∧ ms.WF

/-- Well-formed elements. -/
def Elems.WF : Elems → Prop
  | .nil => True
  | .cons w₁ v w₂ r => White w₁ ∧ v.WF ∧ White w₂ ∧ r.WF

/-- Well-formed members. -/
def Members.WF : Members → Prop
  | .nil => True
  | .cons w₁ body dec w₂ w₃ v w₄ r =>
    White w₁ ∧ Spells body dec ∧ White w₂ ∧ White w₃ ∧ v.WF ∧ White w₄ ∧ r.WF
end

/-- A JSON document with an array or an object at the top. -/
def Syn.Composite : Syn → Prop
  | .arr .. => True
  | .obj .. => True
  | _ => False

/-- `text` is a JSON document denoting `v`. -/
def Denotes (text : Str) (v : JV) : Prop :=
  ∃ (w w' : Str) (s : Syn), White w ∧ White w' ∧ s.WF ∧ s.Composite ∧ v = s.value ∧
    text = w ++ s.text ++ w'

mutual
/-- Two values are the same up to the order of members, at every level; `num` says when two
number tokens are the same number. -/
inductive Same (num : Str → Str → Prop) : JV → JV → Prop
  | lit {t} : Same num (.lit t) (.lit t)
  | num {t u} : num t u → Same num (.num t) (.num u)
  | str {s} : Same num (.str s) (.str s)
  | arr {l m} : SameList num l m → Same num (.arr l) (.arr m)
  | obj {l m} : SameMembers num l m → Same num (.obj l) (.obj m)

/-- Arrays are compared position by position. -/
inductive SameList (num : Str → Str → Prop) : List JV → List JV → Prop
  | nil : SameList num [] []
  | cons {v w vs ws} : Same num v w → SameList num vs ws → SameList num (v :: vs) (w :: ws)

/-- Objects are compared up to a permutation. -/
inductive SameMembers (num : Str → Str → Prop) : List (Str × JV) → List (Str × JV) → Prop
  | nil : SameMembers num [] []
  | cons {k v w vs ws} : Same num v w → SameMembers num vs ws →
      SameMembers num ((k, v) :: vs) ((k, w) :: ws)
  | perm {l m} : l.Perm m → SameMembers num l m
  | trans {l m n} : SameMembers num l m → SameMembers num m n → SameMembers num l n
end

mutual
/-- No object in the value has two members of the same name. -/
def JV.NoDup : JV → Prop
  | .arr l => listNoDup l
  | .obj m => (m.map Prod.fst).Nodup ∧ membersNoDup m
  | _ => True

/-- `NoDup` of every element. -/
def listNoDup : List JV → Prop
  | [] => True
  | v :: vs => v.NoDup ∧ listNoDup vs

/-- `NoDup` of every member value. -/
def membersNoDup : List (Str × JV) → Prop
  | [] => True
  | (_, v) :: ms => v.NoDup ∧ membersNoDup ms
end

mutual
/-- A predicate on the number tokens in a value. -/
def JV.Nums (P : Str → Prop) : JV → Prop
  | .num t => P t
  | .arr l => listNums P l
  | .obj m => membersNums P m
  | _ => True

/-- `Nums` of every element. -/
def listNums (P : Str → Prop) : List JV → Prop
  | [] => True
  | v :: vs => v.Nums P ∧ listNums P vs

/-- `Nums` of every member value. -/
def membersNums (P : Str → Prop) : List (Str × JV) → Prop
  | [] => True
  | (_, v) :: ms => v.Nums P ∧ membersNums P ms
end

mutual
/-- A predicate on the member names in a value. -/
def JV.Names (P : Str → Prop) : JV → Prop
  | .arr l => listNames P l
  | .obj m => membersNames P m
  | _ => True

/-- `Names` of every element. -/
def listNames (P : Str → Prop) : List JV → Prop
  | [] => True
  | v :: vs => v.Names P ∧ listNames P vs

/-- `Names` of every member value, and the names themselves. -/
def membersNames (P : Str → Prop) : List (Str × JV) → Prop
  | [] => True
  | (k, v) :: ms => P k ∧ v.Names P ∧ membersNames P ms
end

/-- The string is Unicode text. -/
def Unicode (s : Str) : Prop := ∃ cs, s = utf8 cs

/-- One byte of a string as RFC 8785 writes it: the two-character escape if JSON has one
other than `\/`, `\u00hh` for the other control characters, itself otherwise. -/
def escapeByte (c : UInt8) : Str :=
  if c = 34 then b!"\\\"" else if c = 92 then b!"\\\\"
  else if c = 8 then b!"\\b" else if c = 9 then b!"\\t" else if c = 10 then b!"\\n"
  else if c = 12 then b!"\\f" else if c = 13 then b!"\\r"
  else if c < 32 then
    b!"\\u00" ++ [if c < 16 then 48 else 49, (b!"0123456789abcdef").getD (c.toNat % 16) 0]
  else [c]

mutual
/-- The text without any white space, members in the order they have. -/
def JV.print : JV → Str
  | .lit t => t
  | .num t => t
  | .str s => b!"\"" ++ s.flatMap escapeByte ++ b!"\""
  | .arr l => b!"[" ++ (b!",").intercalate (printList l) ++ b!"]"
  | .obj m => b!"{" ++ (b!",").intercalate (printMembers m) ++ b!"}"

/-- Texts of the elements. -/
def printList : List JV → List Str
  | [] => []
  | v :: vs => v.print :: printList vs

/-- Texts of the members. -/
def printMembers : List (Str × JV) → List Str
  | [] => []
  | (k, v) :: ms => (b!"\"" ++ k.flatMap escapeByte ++ b!"\":" ++ v.print) :: printMembers ms
end

/-- Names in ascending order of their UTF-16 code units. -/
def NamesAscend (m : List (Str × JV)) : Prop :=
  m.Pairwise (fun a b => ∀ x y, a.1 = utf8 x → b.1 = utf8 y → utf16Units x < utf16Units y)

mutual
/-- Every object in the value has its members in ascending order of names. -/
def JV.Sorted : JV → Prop
  | .arr l => listSorted l
  | .obj m => NamesAscend m ∧ membersSorted m
  | _ => True

/-- `Sorted` of every element. -/
def listSorted : List JV → Prop
  | [] => True
  | v :: vs => v.Sorted ∧ listSorted vs

/-- `Sorted` of every member value. -/
def membersSorted : List (Str × JV) → Prop
  | [] => True
  | (_, v) :: ms => v.Sorted ∧ membersSorted ms
end

end Stix.Spec.Canon

namespace Stix.Spec.Canon
open Stix Stix.Canon

/-- The bits of a finite positive float. -/
def PosFinite (a : UInt64) : Prop := 0 < a ∧ a < 0x7ff0000000000000

/-- Facts about Go's `strconv` the canonicaliser relies on.  They are hypotheses of the
theorems that need them, because `strconv` is not part of the repository. -/
structure FloatLaws (F : FloatFmt) : Prop where
  /-- "0" is positive zero. -/
  zero : F.parse (b!"0") = some 0
  /-- `'f'` format is made of digits and a point … -/
  fShape : ∀ a, PosFinite a → F.formatF a ≠ [] ∧ IsDigit ((F.formatF a).headD 0) ∧
    ∀ c ∈ F.formatF a, c ∈ b!"0123456789."
  /-- … and is read back as the same float. -/
  fParse : ∀ a, PosFinite a → F.parse (F.formatF a) = some a
  /-- `'e'` format has an exponent with a sign and at least two digits … -/
  eShape : ∀ a, PosFinite a → ∃ m sgn ds, F.formatE a = m ++ 101 :: sgn :: ds ∧
    m ≠ [] ∧ IsDigit (m.headD 0) ∧ (∀ c ∈ m, c ∈ b!"0123456789.") ∧ sgn ∈ b!"+-" ∧ 2 ≤ ds.length ∧
    ∀ c ∈ ds, c ∈ b!"0123456789"
  /-- … and is read back as the same float. -/
  eParse : ∀ a, PosFinite a → F.parse (F.formatE a) = some a
  /-- A leading zero of the exponent means nothing. -/
  expZero : ∀ m sgn ds, (∀ c ∈ m, c ∈ b!"0123456789.") → sgn ∈ b!"+-" → ds ≠ [] →
    (∀ c ∈ ds, c ∈ b!"0123456789") →
    F.parse (m ++ 101 :: sgn :: 48 :: ds) = F.parse (m ++ 101 :: sgn :: ds)
  /-- A minus sign sets the sign bit. -/
  neg : ∀ t a, PosFinite a → IsDigit (t.headD 0) → F.parse t = some a →
    F.parse (45 :: t) = some (a ||| 0x8000000000000000)
  /-- "-0" is negative zero. -/
  negZero : F.parse (b!"-0") = some 0x8000000000000000

/-- Two number tokens are the same number: they denote the same float, or both denote zero. -/
def SameNumber (F : FloatFmt) (t u : Str) : Prop :=
  ∃ x y, F.parse t = some x ∧ F.parse u = some y ∧
    (x = y ∨ (x &&& 0x7fffffffffffffff = 0 ∧ y &&& 0x7fffffffffffffff = 0))

/-- The token is a number a float can hold. -/
def FiniteNumber (F : FloatFmt) (t : Str) : Prop :=
  ∃ x, F.parse t = some x ∧ x &&& 0x7ff0000000000000 ≠ 0x7ff0000000000000

end Stix.Spec.Canon
