import Verif.Lemmas.TextEnc
import Verif.Props.Bundle
import Verif.Props.NoPanic

/-!
# Documents as bytes: C52, C53, and C29, C33, C36 on bytes
-/

namespace Stix
open Spec StixObject
open Props.Canon (toy)
open Spec.Text (WritesNumbers height)

variable {F : Canon.FloatFmt} {U : Type} [UserType U]

/-! ## C52 -/

/-- A JSON text is read as the value it denotes. -/
theorem c52_value (opts : List (CollOption U)) {text : Str} {j : Json}
    (h : Spec.Text.IsText 10000 text j) : fromJSONText F opts text = fromJSON F opts (some j) := by
  rw [fromJSONText, (Text.parse_iff text j).2 h]

/-- **C52.** Two JSON texts with the same values, strings in them spelled alike, give the same
result: neither white space between the tokens nor the spelling of member names matters. -/
theorem c52_layout (opts : List (CollOption U)) {text text' : Str} {j : Json}
    (h : Spec.Text.IsText 10000 text j) (h' : Spec.Text.IsText 10000 text' j) :
    fromJSONText F opts text = fromJSONText F opts text' := by
  rw [c52_value opts h, c52_value opts h']

set_option maxRecDepth 100000 in
/-- C52: white space, and an escape in a name. -/
example : Spec.Text.IsText 10000 (b!"[{\"type\":\"tool\"}]")
      (.arr [.obj [(b!"type", .str (b!"tool") (b!"tool"))]]) ∧
    Spec.Text.IsText 10000 (b!" [ {\"t\\u0079pe\"\t: \"tool\" }\n]\r\n")
      (.arr [.obj [(b!"type", .str (b!"tool") (b!"tool"))]]) := by
  refine ⟨(Text.parse_iff _ _).1 ?_, (Text.parse_iff _ _).1 ?_⟩ <;> rfl

/-! ## C53 -/

/-- **C53.** Bytes that are not a JSON text are refused with an error. -/
theorem c53_refused (opts : List (CollOption U)) {text : Str}
    (h : ¬ ∃ j, Spec.Text.IsText 10000 text j) : fromJSONText F opts text = .err .other := by
  rw [fromJSONText]
  cases hp : Text.parse text with
  | none => rfl
  | some j => exact absurd ⟨j, (Text.parse_iff text j).1 hp⟩ h

theorem fromJSON_num (opts : List (CollOption U)) (l : Str) :
    fromJSON F opts (some (.num l)) = .err .other := rfl

/-- **C53** (truncation).  What is left of a JSON text when its end is cut off is refused with an
error, if more than white space was cut. -/
theorem c53_truncated (opts : List (CollOption U)) {p q : Str} {j : Json}
    (h : Spec.Text.IsText 10000 (p ++ q) j) (hq : ¬ Spec.Canon.White q) :
    fromJSONText F opts p = .err .other := by
  by_cases hp : ∃ j', Spec.Text.IsText 10000 p j'
  · obtain ⟨j', hj'⟩ := hp
    by_cases hn : ∃ l, j' = .num l
    · obtain ⟨l, rfl⟩ := hn
      rw [c52_value opts hj', fromJSON_num]
    · exact absurd (Text.isText_append hj' h fun l e => hn ⟨l, e⟩).2 hq
  · exact c53_refused opts hp

/-- **C53** (trailing data).  A JSON text followed by anything but white space is refused with an
error. -/
theorem c53_trailing (opts : List (CollOption U)) {p q : Str} {j : Json}
    (h : Spec.Text.IsText 10000 p j) (hq : ¬ Spec.Canon.White q) :
    fromJSONText F opts (p ++ q) = .err .other := by
  by_cases hp : ∃ j', Spec.Text.IsText 10000 (p ++ q) j'
  · obtain ⟨j', hj'⟩ := hp
    by_cases hn : ∃ l, j = .num l
    · obtain ⟨l, rfl⟩ := hn
      obtain ⟨l', rfl⟩ := Text.isText_num h hj'
      rw [c52_value opts hj', fromJSON_num]
    · exact absurd (Text.isText_append h hj' fun l e => hn ⟨l, e⟩).2 hq
  · exact c53_refused opts hp

/-- C53: a cut, and trailing data. -/
example : Spec.Text.IsText 10000 (b!"[{\"type\":" ++ b!"\"tool\"}]")
      (.arr [.obj [(b!"type", .str (b!"tool") (b!"tool"))]]) ∧
    ¬ Spec.Canon.White (b!"\"tool\"}]") ∧ ¬ Spec.Canon.White (b!"[]") := by
  refine ⟨(Text.parse_iff _ _).1 rfl, ?_, ?_⟩ <;> (unfold Spec.Canon.White; decide)

/-- C53: a document of one object whose list has no end. -/
example : ¬ ∃ j, Spec.Text.IsText 10000 (b!"[{\"type\":\"tool\"}") j := by
  rintro ⟨j, h⟩
  have := (Text.parse_iff _ _).2 h
  have e : Text.parse (b!"[{\"type\":\"tool\"}") = none := rfl
  rw [e] at this
  cases this

/-! ## C33 -/

/-- **C33.** No bytes make `FromJSON` panic, unless they are a JSON text with an element that is
not `SafeElement`.

Missing: the documents that do panic (`c33_text_panics`). -/
theorem c33_text_partial (opts : List (CollOption U)) (hn : NoParsers opts) (text : Str)
    (h : ∀ d j, Spec.Text.IsText 10000 text d → Element d j → SafeElement j) :
    fromJSONText F opts text ≠ .panic :=
  c33_no_panic_partial opts hn _ fun d j hd hj => h d j ((Text.parse_iff text d).1 hd) hj

/-- **C33 is false**: bytes that panic. -/
theorem c33_text_panics : fromJSONText (U := Empty) toy [] (b!"[{\"type\":5}]") = .panic := by
  apply Res.isPanic_iff.1
  decide +kernel

/-! ## C29 -/

theorem toy_writes : WritesNumbers toy := by
  have hint : ∀ n, Spec.Text.IntPart (List.replicate (n + 1) (49 : UInt8)) := by
    intro n
    refine .inr ⟨⟨by simp, fun c hc => ?_⟩, by simp [List.replicate_succ]⟩
    rw [List.eq_of_mem_replicate hc]
    decide
  constructor
  · intro a _
    exact ⟨_, [], (List.append_nil _).symm, hint _, .inl rfl⟩
  · intro a _
    exact ⟨List.replicate (a.toNat + 1) 49, [], 43, b!"21", by simp [toy], hint _, .inl rfl, by simp, by simp, by decide⟩

/-- **C29.** On bytes: an array with just the JSON text of an object that can be sent is accepted,
and gives a collection with that object; see `c29_round_trip_partial`.

Missing: as there, and objects nested almost as deep as `encoding/json` goes. -/
theorem c29_text_partial (L : Canon.FloatLaws F) (W : WritesNumbers F) (hI : IntegersParse F) (o : Obj)
    (h : Sound o) (hh : ∀ j, marshalObj F o = some j → height j < 10000)
    (opts : List (CollOption U)) (hp : NoParser opts (getType o)) :
    ∃ j, marshalObj F o = some j ∧ Spec.Text.IsText (height j) j.raw j ∧
      ∃ c o', fromJSONText F opts (b!"[" ++ j.raw ++ b!"]") = .ok c ∧
      (∀ id a, c.get id = some a ↔ id = getID o ∧ a = .lib o') ∧ Survives o o' ∧
      (CollOption.dropCustom ∉ opts → o.sid ≠ .ExtensionDefinition → extras o' = extras o) ∧
      (CollOption.dropCustom ∈ opts ∨ o.sid = .ExtensionDefinition ∨ extras o = [] →
        o'.extra = none) := by
  obtain ⟨j, hj, c, o', h1, h2⟩ := c29_round_trip_partial L hI o h opts hp
  have hpr := Text.marshalObj_printable W hj
  refine ⟨j, hj, Text.isText_raw hpr le_rfl, c, o', ?_, h2⟩
  rw [← h1]
  have hd := hh j hj
  have := Text.isText_raw (j := .arr [j]) (d := 10000) ⟨hpr, trivial⟩ (by
    simp only [height, Spec.Text.heightArr]; omega)
  exact c52_value opts this

/-! ## C36 -/

theorem printable_bundle (rnd : List UInt8) (js : List Json) (h : ∀ j ∈ js, Text.Printable j) :
    Text.Printable (bundleDoc rnd js) := by
  have hk : ValidUTF8 (b!"type") ∧ ValidUTF8 (b!"id") ∧ ValidUTF8 (b!"objects") := by decide +kernel
  unfold bundleDoc
  show Text.PrintableObj _
  rw [Text.printableObj_iff]
  intro e he
  rcases List.mem_append.1 he with he | he
  · simp only [List.mem_cons, List.not_mem_nil, or_false] at he
    rcases he with rfl | rfl
    · exact ⟨hk.1, Text.printable_ofStr _⟩
    · exact ⟨hk.2.1, Text.printable_ofStr _⟩
  · split at he
    · simp at he
    · simp only [List.mem_singleton] at he
      subst he
      exact ⟨hk.2.2, Text.printableArr_iff.2 h⟩

/-- **C36.** On bytes: the JSON text of the bundle is accepted, and gives what
`c36_round_trip_partial` says.

Missing: as there, and objects nested almost as deep as `encoding/json` goes. -/
theorem c36_text_partial (L : Canon.FloatLaws F) (W : WritesNumbers F) (hI : IntegersParse F)
    (ns : Bool) (h : List (Any U))
    (hs : ∀ id a, ((Coll.new ns).addAll h).get id = some a → ∃ o, a = .lib o ∧ Sound o)
    (rnd : List UInt8) (hr : rnd.length = 16) (b : Res GV)
    (hb : toBundle F rnd ((Coll.new ns).addAll h) b)
    (hh : ∀ v doc, b = .ok v → enc F tyBundle v = some doc → height doc ≤ 10000)
    (opts : List (CollOption U)) (hn : NoParsers opts) :
    ∃ v doc c os os', b = .ok v ∧ enc F tyBundle v = some doc ∧
      Spec.Text.IsText 10000 doc.raw doc ∧ fromJSONText F opts doc.raw = .ok c ∧
      ((Coll.new ns).addAll h).AllObjects (os.map fun o => some (.lib o)) ∧
      CarriedAll (CollOption.dropCustom ∈ opts) [] os os' ∧
      os'.map getID = os.map getID ∧
      (∀ id a, c.get id = some a ↔ ∃ o' ∈ os', a = .lib o' ∧ getID o' = id) ∧
      (CollOption.noSort ∉ opts → ∀ out, c.AllObjects out ↔ out = os'.map fun o => some (.lib o)) := by
  obtain ⟨v, doc, c, os, os', rfl, h1, h2, h3⟩ := c36_round_trip_partial L hI ns h hs rnd hr b hb opts hn
  have hpr : Text.Printable doc := by
    obtain ⟨objs, ho, hb⟩ := hb
    obtain ⟨as, rfl, -, g2⟩ := allObjects_spec ns h objs ho
    rw [newBundle_eq] at hb
    obtain ⟨js, hj, hv⟩ := Res.bind_ok_iff.1 hb.symm
    simp only [Res.ok.injEq] at hv
    subst hv
    rw [enc_bundle] at h1
    obtain rfl := Option.some.inj h1
    refine printable_bundle rnd js fun j hj' => ?_
    obtain ⟨oa, hoa, hm⟩ := forall₂_mem_right ((bundleObjects_ok _ _).1 hj) hj'
    obtain ⟨a, ha, rfl⟩ := List.mem_map.1 hoa
    rcases hm with ⟨e, -⟩ | ⟨a', e, hm⟩
    · simp at e
    · obtain rfl := Option.some.inj e
      obtain ⟨o, rfl, -⟩ := hs _ a ((g2 _ a).2 ⟨ha, rfl⟩)
      exact Text.marshalObj_printable W hm
  have ht := Text.isText_raw hpr (hh v doc rfl h1)
  exact ⟨v, doc, c, os, os', rfl, h1, ht, by rw [c52_value opts ht]; exact h2, h3⟩

/-- C29: the malware of the other examples, on bytes. -/
example : ∃ j, marshalObj toy exSample = some j ∧ ∃ c : Coll (Any Empty),
    fromJSONText toy [] (b!"[" ++ j.raw ++ b!"]") = .ok c := by
  obtain ⟨j, h1, -, c, o', h2, -⟩ := c29_text_partial (U := Empty) Props.Canon.toy_laws toy_writes
    toy_integers exSample exSample_sound (by
      have : (marshalObj toy exSample).all (fun j => decide (height j < 10000)) = true := by
        decide +kernel
      intro j hj
      rw [hj] at this
      simpa using this) [] (by rintro f ⟨l, r, h, -⟩; simp at h)
  exact ⟨j, h1, c, h2⟩

/-- C36: the collection of the other examples, on bytes. -/
example : ∃ b, toBundle toy (List.replicate 16 0) ((Coll.new false).addAll exColl) b ∧
    ∃ v doc, b = .ok v ∧ enc toy tyBundle v = some doc ∧ ∃ c : Coll (Any Empty),
      fromJSONText toy [] doc.raw = .ok c := by
  have hb : toBundle toy (List.replicate 16 0) ((Coll.new false).addAll exColl)
      (newBundle toy (List.replicate 16 0) (exColl.map some)) :=
    ⟨_, (allObjects_self _ exColl_acceptable exColl_nodup _).2 rfl, rfl⟩
  have hh : (newBundle (U := Empty) toy (List.replicate 16 0) (exColl.map some)).okWith (fun v =>
      (enc toy tyBundle v).all fun doc => decide (height doc ≤ 10000)) = true := by decide +kernel
  obtain ⟨v, doc, c, os, os', h1, h2, -, h3, -⟩ := c36_text_partial Props.Canon.toy_laws toy_writes
    toy_integers false exColl exColl_sound (List.replicate 16 0) rfl _ hb (fun v doc e1 e2 => by
      obtain ⟨v', e, h⟩ := Res.okWith_iff.1 hh
      rw [e] at e1
      cases e1
      rw [e2] at h
      simpa using h) [] (by rintro o ho; simp at ho)
  exact ⟨_, hb, v, doc, h1, h2, c, h3⟩

end Stix
