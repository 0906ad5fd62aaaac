import Verif.Lemmas.Spelling
import Verif.Props.Text
import Verif.Props.Accessor

/-!
# The spelling of strings (C56)
-/

namespace Stix
open Spec StixObject
open Props.Canon (toy)

variable {F : Canon.FloatFmt} {U : Type} [UserType U]

mutual
theorem mild_tree : ∀ s : Spec.Canon.Syn, Text.Valid s → SpecialsPlain (Text.tree s) →
    AllStrings Mild (Text.tree s)
  | .lit t, h, _ => by rcases h with rfl | rfl | rfl <;> trivial
  | .num _, _, _ => trivial
  | .str _ _, h, hs => mild_of h hs
  | .arr _ es, h, hs => mild_elems es h.2 hs
  | .obj _ ms, h, hs => mild_members ms h.2 hs

theorem mild_elems : ∀ es : Spec.Canon.Elems, Text.ValidElems es →
    AllStringsArr (fun raw dec => Special dec → raw = dec) (Text.treeElems es) →
    AllStringsArr Mild (Text.treeElems es)
  | .nil, _, _ => trivial
  | .cons _ v _ r, h, hs => ⟨mild_tree v h.2.1 hs.1, mild_elems r h.2.2.2 hs.2⟩

theorem mild_members : ∀ ms : Spec.Canon.Members, Text.ValidMembers ms →
    AllStringsObj (fun raw dec => Special dec → raw = dec) (Text.treeMembers ms) →
    AllStringsObj Mild (Text.treeMembers ms)
  | .nil, _, _ => trivial
  | .cons _ _ _ _ _ v _ r, h, hs =>
    ⟨mild_tree v h.2.2.2.2.1 hs.1, mild_members r h.2.2.2.2.2.2 hs.2⟩
end

/-- **C56.** Two JSON texts that denote the same value, however their strings are spelled, give the
same result, if neither writes a name of an enumeration or a timestamp with escapes.

Missing: names and timestamps written with escapes (`c56_timestamp`, `c56_name`). -/
theorem c56_spelling_partial (opts : List (CollOption U)) (hn : NoParsers opts) {text text' : Str}
    {j j' : Json} (h : Spec.Text.IsText 10000 text j) (h' : Spec.Text.IsText 10000 text' j')
    (he : unspelled j = unspelled j') (hs : SpecialsPlain j) (hs' : SpecialsPlain j') :
    fromJSONText F opts text = fromJSONText F opts text' := by
  rw [c52_value opts h, c52_value opts h']
  obtain ⟨_, _, s, _, _, hv, _, rfl, _⟩ := h
  obtain ⟨_, _, s', _, _, hv', _, rfl, _⟩ := h'
  rw [← fromJSON_unspelled opts hn _ (mild_tree s hv hs), he,
    fromJSON_unspelled opts hn _ (mild_tree s' hv' hs')]

/-- A tool, with the rest of the text open. -/
def exSpelled (name rest : Str) : Str :=
  b!"[{\"type\":\"tool\",\"id\":\"tool--00000000-0000-4000-8000-000000000000\",\"name\":\"" ++ name ++
    b!"\"" ++ rest ++ b!"}]"

def exSpelledJson (name : Str) : Json :=
  .arr [.obj [(b!"type", .str (b!"tool") (b!"tool")),
    (b!"id", .str (b!"tool--00000000-0000-4000-8000-000000000000")
      (b!"tool--00000000-0000-4000-8000-000000000000")),
    (b!"name", .str name (b!"a/é"))]]

set_option maxRecDepth 100000 in
/-- C56: the name `a/é` in two spellings. -/
example : Spec.Text.IsText 10000 (exSpelled (b!"a/é") []) (exSpelledJson (b!"a/é")) ∧
    Spec.Text.IsText 10000 (exSpelled (b!"\\u0061\\/\\u00E9") []) (exSpelledJson (b!"\\u0061\\/\\u00E9")) ∧
    unspelled (exSpelledJson (b!"a/é")) = unspelled (exSpelledJson (b!"\\u0061\\/\\u00E9")) ∧
    SpecialsPlain (exSpelledJson (b!"a/é")) ∧ SpecialsPlain (exSpelledJson (b!"\\u0061\\/\\u00E9")) := by
  have hs : ∀ name, SpecialsPlain (exSpelledJson name) := by
    intro name
    refine ⟨⟨fun _ => rfl, fun _ => rfl, fun h => ?_, trivial⟩, trivial⟩
    exact absurd (special_plain h) (by unfold Text.Plain; decide)
  exact ⟨(Text.parse_iff _ _).1 rfl, (Text.parse_iff _ _).1 rfl, rfl, hs _, hs _⟩

set_option maxRecDepth 100000 in
/-- **C56 is false of the code**: a document is refused only because a timestamp in it is written
with an escape. -/
theorem c56_timestamp : ∃ j j' : Json, unspelled j = unspelled j' ∧
    Spec.Text.IsText 10000 (exSpelled (b!"t") (b!",\"created\":\"2020-01-01T00:00:00Z\"")) j ∧
    Spec.Text.IsText 10000 (exSpelled (b!"t") (b!",\"created\":\"2020-01-01T00:00:00\\u005A\"")) j' ∧
    (∃ c : Coll (Any Empty), fromJSONText toy []
      (exSpelled (b!"t") (b!",\"created\":\"2020-01-01T00:00:00Z\"")) = .ok c) ∧
    fromJSONText (U := Empty) toy []
      (exSpelled (b!"t") (b!",\"created\":\"2020-01-01T00:00:00\\u005A\"")) = .err .other := by
  refine ⟨_, _, ?_, (Text.parse_iff _ _).1 rfl, (Text.parse_iff _ _).1 rfl, ⟨_, rfl⟩, rfl⟩
  rfl

/-- An opinion, as a text. -/
def exOpinionText (value : Str) : Str :=
  b!"[{\"type\":\"opinion\",\"id\":\"opinion--00000000-0000-4000-8000-000000000000\",\"opinion\":\"" ++
    value ++ b!"\"}]"

set_option maxRecDepth 100000 in
/-- **C56 is false of the code**: an opinion is silently lost because it is written with an
escape. -/
theorem c56_name : ∃ j j' : Json, unspelled j = unspelled j' ∧
    Spec.Text.IsText 10000 (exOpinionText (b!"agree")) j ∧
    Spec.Text.IsText 10000 (exOpinionText (b!"\\u0061gree")) j' ∧
    ∃ (c c' : Coll (Any Empty)) (o o' : Obj),
      fromJSONText toy [] (exOpinionText (b!"agree")) = .ok c ∧
      fromJSONText toy [] (exOpinionText (b!"\\u0061gree")) = .ok c' ∧
      c.get (b!"opinion--00000000-0000-4000-8000-000000000000") = some (.lib o) ∧
      c'.get (b!"opinion--00000000-0000-4000-8000-000000000000") = some (.lib o') ∧
      o.val (b!"Value") = .enum 4 ∧ o'.val (b!"Value") = .enum 0 := by
  refine ⟨_, _, ?_, (Text.parse_iff _ _).1 rfl, (Text.parse_iff _ _).1 rfl,
    _, _, _, _, rfl, rfl, rfl, rfl, rfl, rfl⟩
  rfl

end Stix
