import Verif.Model.Basic

/-!
# What an identifier is (specification)

Written from the STIX identifier format and the accepted UUID spellings, without
reference to the model's functions.
-/

namespace Stix.Spec

/-- `s` contains two consecutive dashes. -/
def HasDD (s : Str) : Prop := b!"--" <:+: s

/-- A hexadecimal digit, either case. -/
def IsHex (c : UInt8) : Prop :=
  (48 ≤ c ∧ c ≤ 57) ∨ (97 ≤ c ∧ c ≤ 102) ∨ (65 ≤ c ∧ c ≤ 70)

instance (c : UInt8) : Decidable (IsHex c) := by unfold IsHex; infer_instance

/-- `n` hexadecimal digits. -/
def HexRun (n : Nat) (s : Str) : Prop := s.length = n ∧ ∀ c ∈ s, IsHex c

/-- The 8-4-4-4-12 spelling. -/
def UUIDCanon (s : Str) : Prop :=
  ∃ a b c d e, HexRun 8 a ∧ HexRun 4 b ∧ HexRun 4 c ∧ HexRun 4 d ∧ HexRun 12 e ∧
    s = a ++ b!"-" ++ b ++ b!"-" ++ c ++ b!"-" ++ d ++ b!"-" ++ e

/-- Equal to the `urn:uuid:` prefix up to ASCII case. -/
def UrnPrefix (p : Str) : Prop :=
  p.map (fun c => if 65 ≤ c ∧ c ≤ 90 then c + 32 else c) = b!"urn:uuid:"

/-- The four spellings of a UUID the library accepts: canonical; with a `urn:uuid:`
prefix; with one arbitrary byte on each side (meant for braces); 32 hex digits. -/
def UUIDText (s : Str) : Prop :=
  UUIDCanon s ∨ (∃ p r, UrnPrefix p ∧ UUIDCanon r ∧ s = p ++ r) ∨
  (∃ x y r, UUIDCanon r ∧ s = x :: r ++ [y]) ∨ HexRun 32 s

/-- `t` can be the type part of an identifier: cutting `t--u` at the first `--`
gives `t` back. -/
def TypePart (t : Str) : Prop := ¬ HasDD (t ++ b!"-")

/-- `id` identifies an object of type `t`. -/
def Identifies (t id : Str) : Prop :=
  t ≠ [] ∧ TypePart t ∧ ∃ u, UUIDText u ∧ id = t ++ b!"--" ++ u

end Stix.Spec
