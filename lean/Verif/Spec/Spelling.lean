import Verif.Model.Json
import Verif.Spec.Enum
import Verif.Spec.Stamp

/-!
# The spelling of strings (specification)
-/

namespace Stix.Spec
open Stix

mutual
/-- The value, with every string spelled as its own bytes: what is left when the spelling is
forgotten. -/
def unspelled : Json → Json
  | .str _ dec => .str dec dec
  | .arr l => .arr (unspelledArr l)
  | .obj m => .obj (unspelledObj m)
  | j => j

/-- Elements. -/
def unspelledArr : List Json → List Json
  | [] => []
  | j :: l => unspelled j :: unspelledArr l

/-- Members. -/
def unspelledObj : List (Str × Json) → List (Str × Json)
  | [] => []
  | (k, j) :: m => (k, unspelled j) :: unspelledObj m
end

mutual
/-- Every string value in it, with its spelling, is so. -/
def AllStrings (P : Str → Str → Prop) : Json → Prop
  | .str raw dec => P raw dec
  | .arr l => AllStringsArr P l
  | .obj m => AllStringsObj P m
  | _ => True

/-- In every element. -/
def AllStringsArr (P : Str → Str → Prop) : List Json → Prop
  | [] => True
  | j :: l => AllStrings P j ∧ AllStringsArr P l

/-- In the value of every member. -/
def AllStringsObj (P : Str → Str → Prop) : List (Str × Json) → Prop
  | [] => True
  | (_, j) :: m => AllStrings P j ∧ AllStringsObj P m
end

/-- A name of an enumeration, or a timestamp. -/
def Special (s : Str) : Prop :=
  (∃ e, IsName e s) ∨ ∃ x : Stamp, x.Valid ∧ x.zone.Within 24 60 ∧ x.Loose s

/-- No name of an enumeration and no timestamp is written with escapes. -/
def SpecialsPlain (j : Json) : Prop := AllStrings (fun raw dec => Special dec → raw = dec) j

end Stix.Spec
