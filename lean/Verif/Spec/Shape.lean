import Verif.Spec.Doc

/-!
# Shapes of documents (specification)
-/

namespace Stix.Spec
open Stix

/-- The ways a byte of an ASCII name may be spelled in a member that stands for it: as it is, in the
other letter case, and for `s` and `k` also as U+017F and U+212A. -/
def spellings (c : UInt8) : List Str :=
  [[c]] ++ (if 97 ≤ c ∧ c ≤ 122 then [[c - 32]] else []) ++ (if 65 ≤ c ∧ c ≤ 90 then [[c + 32]] else []) ++
    (if c = 115 ∨ c = 83 then [[0xC5, 0xBF]] else []) ++ (if c = 107 ∨ c = 75 then [[0xE2, 0x84, 0xAA]] else [])

/-- The name is a spelling of the ASCII name. -/
def SpelledAs (name key : Str) : Prop :=
  ∃ parts : List Str, name = parts.flatten ∧ List.Forall₂ (fun p c => p ∈ spellings c) parts key

/-- The list of objects of a bundle is that of the last member for it; `null` and no such member are
the empty list. -/
def LastObjects (ms : List (Str × Json)) (l : List Json) : Prop :=
  ((∀ e ∈ ms, ¬ SpelledAs e.1 (b!"objects")) ∧ l = []) ∨
  ∃ before name v after, ms = before ++ (name, v) :: after ∧ SpelledAs name (b!"objects") ∧
    (∀ e ∈ after, ¬ SpelledAs e.1 (b!"objects")) ∧ (v = .arr l ∨ v = .null ∧ l = [])

/-- The documents that hold a list of objects: the array of them; an object whose members for type and
id are texts or null, and whose members for the objects are arrays or null; and null. -/
inductive Holds : Json → List Json → Prop
  | array (l) : Holds (.arr l) l
  | null : Holds .null []
  | bundle (ms l) :
      (∀ e ∈ ms, SpelledAs e.1 (b!"type") ∨ SpelledAs e.1 (b!"id") → e.2 = .null ∨ ∃ s, IsText e.2 s) →
      (∀ e ∈ ms, SpelledAs e.1 (b!"objects") → e.2 = .null ∨ ∃ l, e.2 = .arr l) →
      LastObjects ms l → Holds (.obj ms) l

end Stix.Spec
