import Verif.Props.Leftover

/-!
# What the values of properties mean (C78)
-/

namespace Stix
open Spec StixObject Stix.Canon Stix.Props.Canon

variable {F : Canon.FloatFmt} {U : Type} [UserType U]

/-- **C78** (one object).  Whatever the text that `json.Unmarshal` takes for a new object of the library,
each field has the value its members mean, and the others are zero. -/
theorem c78_object (s : SId) (depth : Nat) (text : Str) (j : Json) (ht : Spec.Text.IsText depth text j) (o : Obj)
    (h : decObj F (zeroObj s) j = .ok o false) :
    o.sid = s ∧ o.extra = none ∧ ((j = .null ∧ o = zeroObj s) ∨ ∃ ms, j = .obj ms ∧ MeansObj F s ms o.val) := by
  obtain ⟨e1, e2⟩ := decObj_ok h
  refine ⟨e1, e2, ?_⟩
  cases j with
  | null => cases h; exact .inl ⟨rfl, rfl⟩
  | obj ms => exact .inr ⟨ms, rfl, decObj_means (written_text ht) h⟩
  | _ => cases h

/-- **C78** (documents).  The same holds of all objects of an import, whatever the elements before them;
of the rest, `Becomes` says what it is. -/
theorem c78_document (opts : List (CollOption U)) (hn : NoParsers opts) (text : Str) (doc : Json) (l : List Json)
    (ht : Spec.Text.IsText 10000 text doc) (hl : Holds doc l) (c : Coll (Any U)) (hc : fromJSONText F opts text = .ok c) :
    ∃ as : List (Option (Any U)), as.length = l.length ∧
      (∀ i j a, l[i]? = some j → as[i]? = some a → Becomes F (CollOption.dropCustom ∈ opts) (l.take i) j a ∧
        ∀ o, a = some (.lib o) → ∃ ms, j = .obj ms ∧ MeansObj F o.sid ms o.val) ∧
      ∀ ident a, c.get ident = some a ↔ Latest (as.filterMap id) ident a := by
  rw [c52_value opts ht, (c75_shape opts doc).1 l hl, fromJSON_arr, processObjects_ok] at hc
  obtain ⟨as, p', hst, rfl⟩ := hc
  obtain ⟨h1, h2⟩ := becomes_steps hn peakHas_none hst
  simp only [dropCustom_iff, List.nil_append] at h2
  refine ⟨as, h1, fun i j a hj ha => ⟨(h2 i j a hj ha).1, (h2 i j a hj ha).2.2 ?_⟩, fun ident a => c01_get_latest _ _ _ _⟩
  exact written_held (written_text ht) hl j (List.mem_of_getElem? hj)

/-- **C78** (meaning).  Members whose names differ, and all that is within them, mean one value of every
field. -/
theorem c78_one_meaning (s : SId) (ms : List (Str × Json)) (hu : Unrepeated (.obj ms)) (f f' : Str → GV)
    (h : MeansObj F s ms f) (h' : MeansObj F s ms f') : f = f' :=
  fields_one hu (fun r hr j v v' => meansRow_one (mkFields (objFields s)) r j v v' hr)
    (by rw [mkFields_toList]; exact h.other) h.fields (by rw [mkFields_toList]; exact h'.other) h'.fields

/-- **C78** (custom values).  Every value means at most one as an `interface{}`. -/
theorem c78_one_custom (j : Json) (d d' : Dyn) (h : MeansDyn F j d) (h' : MeansDyn F j d') : d = d' :=
  meansDyn_one d j d' h h'

/-- An artifact with bytes as numbers, its URL in two members, and a null. -/
def exOddArtifact : List (Str × Json) :=
  [(b!"type", exText (b!"artifact")), (b!"id", exText (b!"artifact--00000000-0000-4000-8000-000000000000")),
    (b!"payload_bin", .arr [.num (b!"7"), .null, .num (b!"255")]), (b!"URL", exText (b!"x")), (b!"url", .null),
    (b!"mime_type", .null)]

def exOddText : Str :=
  b!"[{\"type\":\"artifact\",\"id\":\"artifact--00000000-0000-4000-8000-000000000000\",\"payload_bin\":[7,null,255],\"URL\":\"x\",\"url\":null,\"mime_type\":null}]"

set_option maxRecDepth 100000 in
/-- C78: the artifact is imported; its bytes are 7, 0 and 255, and the URL that counts is the first. -/
example : Spec.Text.IsText 10000 exOddText (.arr [.obj exOddArtifact]) ∧
    Holds (.arr [.obj exOddArtifact]) [.obj exOddArtifact] ∧
    (∃ c, fromJSONText (U := Empty) toy [] exOddText = .ok c) ∧
    Means toy .bin (.arr [.num (b!"7"), .null, .num (b!"255")]) (.bin (some [7, 0, 255])) ∧
    Counts (.str (b!"string")) (valuesOf (b!"url") exOddArtifact) (exText (b!"x")) := by
  refine ⟨(Text.parse_iff _ _).1 rfl, .array _, ⟨_, rfl⟩, ?_, ?_⟩
  · refine .inr (.inr ⟨_, _, rfl, rfl, .cons (.inr ⟨[7], by simp, by simp, rfl, rfl⟩) (.cons (.inl ⟨rfl, rfl⟩)
      (.cons (.inr ⟨[2, 5, 5], by simp, by simp, rfl, rfl⟩) .nil))⟩)
  · have : ¬ SameUpToCase (b!"type") (b!"url") ∧ ¬ SameUpToCase (b!"id") (b!"url") ∧
        ¬ SameUpToCase (b!"payload_bin") (b!"url") ∧ SameUpToCase (b!"URL") (b!"url") ∧ SameUpToCase (b!"url") (b!"url") ∧
        ¬ SameUpToCase (b!"mime_type") (b!"url") := by
      unfold SameUpToCase
      decide
    simp only [valuesOf, exOddArtifact, this, if_true, if_false]
    exact .given (js := []) (n := 1) rfl (by simp [exText])

/-- C78: a value in which no names are repeated. -/
example : Unrepeated (.obj [(b!"type", exText (b!"tool")), (b!"Name", .null), (b!"x", .obj [(b!"type", .null)])]) := by
  refine ⟨by decide, trivial, trivial, ⟨by decide, trivial, trivial⟩, trivial⟩

end Stix
