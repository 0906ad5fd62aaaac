import Verif.Spec.CustomTrip
import Verif.Spec.Es6

/-!
# Values that a program stores in custom objects, and what arrives of them (specification)
-/

namespace Stix.Spec
open Stix

mutual
/-- A value that a program may store in a custom object and send: nil, a boolean, a finite float64, an int64,
UTF-8 text, a list of texts, and lists and maps of such values. -/
def Storable : Dyn → Prop
  | .nil => True
  | .bool _ => True
  | .num f => F64Finite f
  | .int i => -(2 ^ 63) ≤ i ∧ i < 2 ^ 63
  | .str s => Canon.Unicode s
  | .strs l => ∀ s ∈ l, Canon.Unicode s
  | .arr l => StorableList l
  | .obj m => SortedKeys m ∧ StorableEntries m

/-- The elements. -/
def StorableList : List Dyn → Prop
  | [] => True
  | d :: l => Storable d ∧ StorableList l

/-- The members. -/
def StorableEntries : List (Str × Dyn) → Prop
  | [] => True
  | (k, d) :: l => (Canon.Unicode k ∧ Storable d) ∧ StorableEntries l
end

/-- The double nearest to an integer. -/
def Rounded (i : Int) (f : F64) : Prop :=
  ∃ b, Es6.NumberFor (i.natAbs : ℚ) b ∧ f = if i < 0 then b ||| 0x8000000000000000 else b

mutual
/-- What a value is for the receiver: JSON has neither integers nor lists of texts of their own. -/
inductive Comes : Dyn → Dyn → Prop
  | nil : Comes .nil .nil
  | bool (b : Bool) : Comes (.bool b) (.bool b)
  | num (f : F64) : Comes (.num f) (.num f)
  | int {i : Int} {f : F64} : Rounded i f → Comes (.int i) (.num f)
  | str (s : Str) : Comes (.str s) (.str s)
  | strs (l : List Str) : Comes (.strs l) (.arr (l.map .str))
  | arr {l l' : List Dyn} : ComesList l l' → Comes (.arr l) (.arr l')
  | obj {m m' : List (Str × Dyn)} : ComesEntries m m' → Comes (.obj m) (.obj m')

/-- The elements. -/
inductive ComesList : List Dyn → List Dyn → Prop
  | nil : ComesList [] []
  | cons {d d' : Dyn} {l l' : List Dyn} : Comes d d' → ComesList l l' → ComesList (d :: l) (d' :: l')

/-- The members. -/
inductive ComesEntries : List (Str × Dyn) → List (Str × Dyn) → Prop
  | nil : ComesEntries [] []
  | cons {k : Str} {d d' : Dyn} {m m' : List (Str × Dyn)} : Comes d d' → ComesEntries m m' →
      ComesEntries ((k, d) :: m) ((k, d') :: m')
end

/-- A custom object that a program made and can send. -/
structure StoredCustom (m : List (Str × Dyn)) : Prop where
  sorted : SortedKeys m
  members : StorableEntries m
  ident : ∃ t id, (b!"type", Dyn.str t) ∈ m ∧ (b!"id", Dyn.str id) ∈ m ∧ Identifies t id ∧ ∀ s, (t, s) ∉ goTypes

end Stix.Spec
