import Verif.Props.Parse
import Verif.Props.Bundle
import Verif.Props.Parser

/-!
# Results exist, collections that were parsed, and the names of the getters

`AllObjects`, `GetAll` and the plural getters are relations in the model, because they visit Go maps
in an order that is not fixed.  The theorems about them speak of every possible result; here we show
that there always is one.  A collection that `FromJSON` returned has a history like one that was
filled with `Add`, so that the theorems about histories apply to it, also after further additions.
Last, the typed getters: their names go with the types of the standard, and for every history it is
said exactly when they panic.
-/

namespace Stix

open Spec Stix.Canon Stix.Props.Canon

/-! ## Results exist -/

section
variable {α : Type} [StixObject α]

omit [StixObject α] in
theorem reach_forall₂ (bs : List (Str × List (Str × α))) :
    List.Forall₂ (fun b v => Coll.Iter b.2 v) bs (bs.map Prod.snd) := by
  induction bs with
  | nil => exact .nil
  | cons b bs ih => exact .cons (List.Perm.refl _) ih

omit [StixObject α] in
/-- **C03.** `AllObjects` and `GetAll` have a result in every state. -/
theorem c03_returns (c : Coll α) (typ : Str) :
    (∃ out, c.AllObjects out) ∧ ∃ out, c.GetAll typ out := by
  constructor
  · unfold Coll.AllObjects
    split
    · exact ⟨_, rfl⟩
    · exact ⟨_, c.objects, List.Perm.refl _, _, reach_forall₂ _, rfl⟩
  · unfold Coll.GetAll
    split
    · exact ⟨_, rfl⟩
    · exact ⟨_, _, List.Perm.refl _, rfl⟩

end

variable {U : Type} [UserType U] {F : Canon.FloatFmt}

/-- **C35.** `ToBundle` has a result in every state. -/
theorem c35_returns (rnd : List UInt8) (c : Coll (Any U)) : ∃ b, toBundle F rnd c b := by
  obtain ⟨objs, h⟩ := (c03_returns c []).1
  exact ⟨_, objs, h, rfl⟩

/-- What the standard library writes for an object that is given to `NewBundle`: nil and a nil map
as `null`, a map as an object with its members in its order, and what the object writes of itself
otherwise. -/
def Spec.Written (F : Canon.FloatFmt) : Option (Any U) → Json → Prop
  | none, j => j = .null
  | some (.lib o), j => marshalObj F o = some j
  | some (.custom none), j => j = .null
  | some (.custom (some m)), j => ∃ ms, j = .obj ms ∧
      List.Forall₂ (fun e e' => e'.1 = sanitize e.1 ∧ encDyn F e.2 = some e'.2) m ms
  | some (.user u x), j => UserType.marshal u x = some j

theorem encDynObj_forall₂ (m : List (Str × Dyn)) (ms : List (Str × Json)) :
    encDynObj F m = some ms ↔
      List.Forall₂ (fun e e' => e'.1 = sanitize e.1 ∧ encDyn F e.2 = some e'.2) m ms := by
  induction m generalizing ms with
  | nil => simp [encDynObj, eq_comm]
  | cons e m ih =>
    obtain ⟨k, d⟩ := e
    simp only [encDynObj]
    constructor
    · intro h
      split at h
      · rename_i j js h1 h2
        simp only [Option.some.injEq] at h
        subst h
        exact .cons ⟨rfl, h1⟩ ((ih _).1 h2)
      · simp at h
    · intro h
      cases h with
      | @cons _ e' _ ms h1 h2 =>
        obtain ⟨k', j⟩ := e'
        obtain ⟨rfl, h3⟩ := h1
        simp only at h3
        simp only [h3, (ih _).2 h2]

theorem marshalAny_written (o : Option (Any U)) (j : Json) :
    ((o = none ∧ j = .null) ∨ ∃ a, o = some a ∧ marshalAny F a = some j) ↔ Written F o j := by
  cases o with
  | none => simp [Written]
  | some a =>
    cases a with
    | lib o => simp [Written, marshalAny]
    | user u x => simp [Written, marshalAny]
    | custom m =>
      cases m with
      | none => simp [Written, marshalAny, eq_comm]
      | some m =>
        simp only [reduceCtorEq, false_and, Option.some.injEq, exists_eq_left', marshalAny, encDyn,
          Option.map_eq_some_iff, Written, encDynObj_forall₂, false_or]
        exact ⟨fun ⟨ms, h1, h2⟩ => ⟨ms, h2.symm, h1⟩, fun ⟨ms, h1, h2⟩ => ⟨ms, h2, h1.symm⟩⟩

/-- **C35** (`NewBundle` of any objects, nil among them).  If it succeeds, the bundle says `bundle`,
has a valid id and lists what is written for each object, in order; it succeeds exactly when
something can be written for each. -/
theorem c35_new_bundle (objs : List (Option (Any U))) (rnd : List UInt8) (hr : rnd.length = 16) :
    ((∃ v, newBundle F rnd objs = .ok v) ↔ ∃ js, List.Forall₂ (Written F) objs js) ∧
    ∀ v, newBundle F rnd objs = .ok v → ∃ js doc, List.Forall₂ (Written F) objs js ∧
      enc F tyBundle v = some doc ∧ Text doc (b!"type") (b!"bundle") ∧
      (∃ id, Text doc (b!"id") id ∧ Identifies (b!"bundle") id) ∧
      (js ≠ [] → IsBundle doc js) ∧ (js = [] → ∀ j, ¬ Member doc (b!"objects") j) := by
  have key : ∀ js, bundleObjects F objs = .ok js ↔ List.Forall₂ (Written F) objs js := fun js => by
    rw [bundleObjects_ok]
    unfold Encodings
    exact ⟨fun h => h.imp fun o j h => (marshalAny_written o j).1 h,
      fun h => h.imp fun o j h => (marshalAny_written o j).2 h⟩
  rw [newBundle_eq]
  refine ⟨⟨?_, ?_⟩, ?_⟩
  · rintro ⟨v, hv⟩
    obtain ⟨js, hj, -⟩ := Res.bind_ok_iff.1 hv
    exact ⟨js, (key js).1 hj⟩
  · rintro ⟨js, hj⟩
    exact ⟨_, Res.bind_ok_iff.2 ⟨js, (key js).2 hj, rfl⟩⟩
  · intro v hv
    obtain ⟨js, hj, hv⟩ := Res.bind_ok_iff.1 hv
    simp only [Res.ok.injEq] at hv
    subst hv
    exact ⟨js, bundleDoc rnd js, (key js).1 hj, enc_bundle rnd js, bundleDoc_spec rnd hr js⟩

/-! ## Collections that were parsed -/

theorem reach_steps {cfg : Config U} {p p' : Peak} {l : List Json} {as : List (Option (Any U))}
    (h : Steps F cfg p l as p') : ∀ a ∈ as.filterMap id, a.panics = false ∧ Acceptable a := by
  induction h with
  | nil => simp
  | cons h1 h2 h3 ih =>
    intro a ha
    obtain ⟨b, hb, hba⟩ := List.mem_filterMap.1 ha
    simp only [id] at hba
    rcases List.mem_cons.1 hb with rfl | hb
    · exact h2 a hba
    · exact ih a (List.mem_filterMap.2 ⟨b, hb, hba⟩)

/-- **C01** (after parsing).  A collection that `FromJSON` returned behaves as one that was filled
by a history of accepted additions, and goes on doing so when more is added: `Get` returns the
latest object of the two histories.  Every theorem about histories applies to it. -/
theorem c01_parsed (opts : List (CollOption U)) (doc : Option Json) (c : Coll (Any U))
    (h : fromJSON F opts doc = .ok c) :
    ∃ (ns : Bool) (h₀ : List (Any U)), (ns = true ↔ CollOption.noSort ∈ opts) ∧
      (∀ a ∈ h₀, a.panics = false ∧ Acceptable a) ∧
      (∀ more, c.addAll more = (Coll.new ns).addAll (h₀ ++ more)) ∧
      ∀ more id a, (c.addAll more).get id = some a ↔ Latest (h₀ ++ more) id a := by
  obtain ⟨l, h⟩ := fromJSON_ok h
  obtain ⟨as, p', hst, rfl⟩ := processObjects_ok.1 h
  have key : ∀ more, ((Coll.new (Config.new opts).noSort).addAll (as.filterMap id)).addAll more =
      (Coll.new (Config.new opts).noSort).addAll (as.filterMap id ++ more) := fun more => by
    simp only [Coll.addAll, List.foldl_append]
  refine ⟨(Config.new opts).noSort, as.filterMap id, noSort_iff _, reach_steps hst, key,
    fun more id a => ?_⟩
  rw [key, c01_get_latest]

/-! ## The typed getters -/

omit [UserType U] in
/-- **C06.** A plural getter has a result in every state. -/
theorem c06_returns (c : Coll (Any U)) (typ : Str) (s : SId) : ∃ r, GetAllTyped c typ s r :=
  ⟨_, _, List.Perm.refl _, rfl⟩

/-- The object is a pointer to the Go type. -/
def Spec.Points (s : SId) (a : Any U) : Prop := ∃ o, a = .lib o ∧ o.sid = s

omit [UserType U] in
theorem assertLib_cases (s : SId) (a : Any U) :
    (∃ o, a = .lib o ∧ o.sid = s ∧ assertLib s a = .ok o) ∨
      (¬ Points s a ∧ assertLib s a = .panic) := by
  cases a with
  | lib o =>
    by_cases h : o.sid = s
    · exact .inl ⟨o, rfl, h, by simp [assertLib, h]⟩
    · exact .inr ⟨fun ⟨o', e, h'⟩ => h (by cases e; exact h'), by simp [assertLib, h]⟩
  | custom m => exact .inr ⟨fun ⟨o', e, h'⟩ => (by cases e), rfl⟩
  | user u e => exact .inr ⟨fun ⟨o', e, h'⟩ => (by cases e), rfl⟩

/-- **C06** (exactly when; singular getters).  After any history of additions, of whatever objects:
the getter panics exactly when the object with the id has the getter's type but is not a pointer to
the getter's Go type; it returns an object exactly when that is the latest one with the id, and has
the type and the Go type; it returns nil when there is no object with this id and type. -/
theorem c06_singular_exact (ns : Bool) (h : List (Any U)) (typ : Str) (s : SId) (id : Str) :
    (getTyped ((Coll.new ns).addAll h) typ s id = .panic ↔
      ∃ a, Latest h id a ∧ StixObject.getType a = typ ∧ ¬ Points s a) ∧
    (∀ o, getTyped ((Coll.new ns).addAll h) typ s id = .ok (some o) ↔
      Latest h id (.lib o) ∧ StixObject.getType (Any.lib (U := U) o) = typ ∧ o.sid = s) ∧
    (getTyped ((Coll.new ns).addAll h) typ s id = .ok none ↔
      ∀ a, Latest h id a → StixObject.getType a ≠ typ) := by
  have inv := collInv_addAll ns h
  have hl := inv.lookup typ id
  simp only [getTyped]
  cases hobj : Coll.getObject ((Coll.new ns).addAll h) typ id with
  | none =>
    rw [hobj] at hl
    have hn : ∀ a, Latest h id a → StixObject.getType a ≠ typ := fun a h1 h2 => by
      simpa using (hl a).2 ⟨h1, h2⟩
    refine ⟨⟨by simp, ?_⟩, fun o => ⟨by simp, ?_⟩, by simpa using hn⟩
    · rintro ⟨a, h1, h2, _⟩; exact absurd h2 (hn a h1)
    · rintro ⟨h1, h2, _⟩; exact absurd h2 (hn _ h1)
  | some a =>
    rw [hobj] at hl
    obtain ⟨h1, h2⟩ := (hl a).1 rfl
    have hu : ∀ a', Latest h id a' → a' = a := fun a' h' => latest_unique h' h1
    rcases assertLib_cases s a with ⟨o, rfl, ho, he⟩ | ⟨hp, he⟩
    · simp only [he, Res.bind]
      refine ⟨⟨by simp, ?_⟩, fun o' => ⟨?_, ?_⟩, ⟨by simp, fun H => absurd h2 (H _ h1)⟩⟩
      · rintro ⟨a, h3, _, h5⟩; rw [hu _ h3] at h5; exact absurd ⟨o, rfl, ho⟩ h5
      · intro e; simp only [Res.ok.injEq, Option.some.injEq] at e; subst e; exact ⟨h1, h2, ho⟩
      · rintro ⟨h3, _, _⟩; have := hu _ h3; simp only [Any.lib.injEq] at this; rw [this]
    · simp only [he, Res.bind]
      refine ⟨⟨fun _ => ⟨a, h1, h2, hp⟩, fun _ => trivial⟩, fun o' => ⟨by simp, ?_⟩,
        ⟨by simp, fun H => absurd h2 (H _ h1)⟩⟩
      rintro ⟨h3, _, h5⟩
      exact absurd ⟨o', (hu _ h3).symm, h5⟩ hp

omit [UserType U] in
theorem assertAll_cases (s : SId) (l : List (Any U)) :
    (∃ os, assertAll s l = .ok os ∧ os.map Any.lib = l ∧ ∀ a ∈ l, Points s a) ∨
      ((∃ a ∈ l, ¬ Points s a) ∧ assertAll s l = .panic) := by
  induction l with
  | nil => exact .inl ⟨[], rfl, rfl, by simp⟩
  | cons a l ih =>
    rcases assertLib_cases s a with ⟨o, rfl, ho, he⟩ | ⟨hp, he⟩
    · rcases ih with ⟨os, h1, h2, h3⟩ | ⟨⟨b, hb, hb'⟩, h2⟩
      · refine .inl ⟨o :: os, by simp [assertAll, he, h1, Res.bind], by simp [h2], ?_⟩
        intro b hb
        rcases List.mem_cons.1 hb with rfl | hb
        · exact ⟨o, rfl, ho⟩
        · exact h3 b hb
      · exact .inr ⟨⟨b, by simp [hb], hb'⟩, by simp [assertAll, he, h2, Res.bind]⟩
    · exact .inr ⟨⟨a, by simp, hp⟩, by simp [assertAll, he, Res.bind]⟩

/-- **C06** (exactly when; plural getters).  After any history of additions, of whatever objects:
the getter panics exactly when some stored object of the getter's type is not a pointer to its Go
type, and else returns all stored objects of the type, each once. -/
theorem c06_plural_exact (ns : Bool) (h : List (Any U)) (typ : Str) (s : SId) (r : Res (List Obj))
    (hr : GetAllTyped ((Coll.new ns).addAll h) typ s r) :
    (r = .panic ↔ ∃ id a, Latest h id a ∧ StixObject.getType a = typ ∧ ¬ Points s a) ∧
    (r ≠ .panic → ∃ os, r = .ok os ∧ (os.map fun o => StixObject.getID (Any.lib (U := U) o)).Nodup ∧
      ∀ o, o ∈ os ↔ Latest h (StixObject.getID (Any.lib (U := U) o)) (.lib o) ∧
        StixObject.getType (Any.lib (U := U) o) = typ) := by
  obtain ⟨vs, hvs, rfl⟩ := hr
  have hall : ∃ all, ((Coll.new ns).addAll h).GetAll typ all ∧ vs.map Prod.snd = all.getD [] := by
    unfold Coll.GetAll
    cases hb : amLookup typ ((Coll.new ns).addAll h).objects with
    | none =>
      rw [hb] at hvs
      have : vs = [] := by simpa [Coll.Iter] using hvs
      exact ⟨none, rfl, by simp [this]⟩
    | some b => rw [hb] at hvs; exact ⟨_, ⟨vs, hvs, rfl⟩, rfl⟩
  obtain ⟨all, hall, hvall⟩ := hall
  have h5 := c05_getAll ns h typ all hall
  have hmem : ∀ a, a ∈ all.getD [] ↔
      Latest h (StixObject.getID a) a ∧ StixObject.getType a = typ := by
    intro a
    cases all with
    | none =>
      simp only [Option.getD_none, List.not_mem_nil, false_iff]
      rintro ⟨h1, h2⟩
      exact h5.1.1 rfl ⟨_, a, h1, h2⟩
    | some l => exact (h5.2 l rfl).2 a
  have hnd : ((all.getD []).map StixObject.getID).Nodup := by
    cases all with
    | none => simp
    | some l => exact (h5.2 l rfl).1
  rw [hvall]
  rcases assertAll_cases s (all.getD []) with ⟨os, h1, h2, h3⟩ | ⟨⟨a, ha, hp⟩, h2⟩
  · rw [h1]
    refine ⟨⟨by simp, ?_⟩, fun _ => ⟨os, rfl, ?_, fun o => ?_⟩⟩
    · rintro ⟨id, a, h4, h6, h7⟩
      have hid : StixObject.getID a = id := by
        obtain ⟨_, _, _, _, e, _⟩ := h4
        exact e
      exact absurd (h3 a ((hmem a).2 ⟨hid ▸ h4, h6⟩)) h7
    · rw [← h2, List.map_map] at hnd
      exact hnd
    · rw [← hmem, ← h2]
      simp
  · rw [h2]
    exact ⟨⟨fun _ => ⟨_, a, ((hmem a).1 ha).1, ((hmem a).1 ha).2, hp⟩, fun _ => rfl⟩,
      fun h => absurd rfl h⟩

/-- **C06** (collections filled with `Add`).  If every object that was added and whose type is one
of the standard's is a pointer to the Go type for it, as objects from the constructors are, then no
getter panics. -/
theorem c06_added (ns : Bool) (h : List (Any U))
    (ht : ∀ a ∈ h, ∀ s, (StixObject.getType a, s) ∈ goTypes → Points s a) (name typ : Str) (s : SId) :
    ((name, typ, s) ∈ singularGetters →
      ∀ id, getTyped ((Coll.new ns).addAll h) typ s id ≠ .panic) ∧
    ((name, typ, s) ∈ pluralGetters →
      ∀ r, GetAllTyped ((Coll.new ns).addAll h) typ s r → r ≠ .panic) := by
  have h1 : ∀ e ∈ singularGetters, (e.2.1, e.2.2) ∈ goTypes := by decide +kernel
  have h2 : ∀ e ∈ pluralGetters, (e.2.1, e.2.2) ∈ goTypes := by decide +kernel
  constructor
  · intro hg id e
    obtain ⟨a, h3, h4, h5⟩ := (c06_singular_exact ns h typ s id).1.1 e
    exact h5 (ht a (latest_acceptable h3).2.2 s (h4 ▸ h1 _ hg))
  · intro hg r hr e
    obtain ⟨id, a, h3, h4, h5⟩ := (c06_plural_exact ns h typ s r hr).1.1 e
    exact h5 (ht a (latest_acceptable h3).2.2 s (h4 ▸ h2 _ hg))

/-- The getters a reader of the package's documentation expects, for each type of the standard: the
name of the singular one, of the plural one, and the type. -/
def Spec.getterNames : List (Str × Str × Str) :=
  [(b!"AS", b!"ASs", b!"autonomous-system"),
   (b!"Artifact", b!"Artifacts", b!"artifact"),
   (b!"AttackPattern", b!"AttackPatterns", b!"attack-pattern"),
   (b!"Campaign", b!"Campaigns", b!"campaign"),
   (b!"CourseOfAction", b!"CourseOfActions", b!"course-of-action"),
   (b!"Directory", b!"Directories", b!"directory"),
   (b!"DomainName", b!"DomainNames", b!"domain-name"),
   (b!"EmailAddress", b!"EmailAddresses", b!"email-addr"),
   (b!"EmailMessage", b!"EmailMessages", b!"email-message"),
   (b!"ExtensionDefinition", b!"ExtensionDefinitions", b!"extension-definition"),
   (b!"File", b!"Files", b!"file"),
   (b!"Group", b!"Groups", b!"grouping"),
   (b!"IPv4Address", b!"IPv4Addresses", b!"ipv4-addr"),
   (b!"IPv6Address", b!"IPv6Addresses", b!"ipv6-addr"),
   (b!"Identity", b!"Identities", b!"identity"),
   (b!"Indicator", b!"Indicators", b!"indicator"),
   (b!"Infrastructure", b!"Infrastructures", b!"infrastructure"),
   (b!"IntrusionSet", b!"IntrusionSets", b!"intrusion-set"),
   (b!"LanguageContent", b!"LanguageContents", b!"language-content"),
   (b!"Location", b!"Locations", b!"location"),
   (b!"MAC", b!"MACs", b!"mac-addr"),
   (b!"Malware", b!"AllMalware", b!"malware"),
   (b!"MalwareAnalysis", b!"MalwareAnalyses", b!"malware-analysis"),
   (b!"MarkingDefinition", b!"MarkingDefinitions", b!"marking-definition"),
   (b!"Mutex", b!"Mutexes", b!"mutex"),
   (b!"NetworkTraffic", b!"AllNetworkTraffic", b!"network-traffic"),
   (b!"Note", b!"Notes", b!"note"),
   (b!"ObservedData", b!"AllObservedData", b!"observed-data"),
   (b!"Opinion", b!"Opinions", b!"opinion"),
   (b!"Process", b!"Processes", b!"process"),
   (b!"RegistryKey", b!"RegistryKeys", b!"windows-registry-key"),
   (b!"Relationship", b!"Relationships", b!"relationship"),
   (b!"Report", b!"Reports", b!"report"),
   (b!"Sighting", b!"Sightings", b!"sighting"),
   (b!"Software", b!"AllSoftware", b!"software"),
   (b!"ThreatActor", b!"ThreatActors", b!"threat-actor"),
   (b!"Tool", b!"Tools", b!"tool"),
   (b!"URL", b!"URLs", b!"url"),
   (b!"UserAccount", b!"UserAccounts", b!"user-account"),
   (b!"Vulnerability", b!"Vulnerabilities", b!"vulnerability"),
   (b!"X509Certificate", b!"X509Certificates", b!"x509-certificate"),
   (b!"Incident", b!"Incidents", b!"incident")]

/-- **C06** (names).  The getters are those of the list, each for the type it is named after and the
Go type of that type; every type of the standard has one pair. -/
theorem c06_named :
    (∀ name typ s, (name, typ, s) ∈ singularGetters ↔
      ∃ plural, (name, plural, typ) ∈ getterNames ∧ (typ, s) ∈ goTypes) ∧
    (∀ name typ s, (name, typ, s) ∈ pluralGetters ↔
      ∃ singular, (singular, name, typ) ∈ getterNames ∧ (typ, s) ∈ goTypes) ∧
    (∀ typ, (∃ singular plural, (singular, plural, typ) ∈ getterNames) ↔ ∃ s, (typ, s) ∈ goTypes) := by
  have a1 : ∀ e ∈ singularGetters, (∃ g ∈ getterNames, g.1 = e.1 ∧ g.2.2 = e.2.1) ∧
      (e.2.1, e.2.2) ∈ goTypes := by decide +kernel
  have a2 : ∀ g ∈ getterNames, ∀ t ∈ goTypes, g.2.2 = t.1 → (g.1, t.1, t.2) ∈ singularGetters := by
    decide +kernel
  have b1 : ∀ e ∈ pluralGetters, (∃ g ∈ getterNames, g.2.1 = e.1 ∧ g.2.2 = e.2.1) ∧
      (e.2.1, e.2.2) ∈ goTypes := by decide +kernel
  have b2 : ∀ g ∈ getterNames, ∀ t ∈ goTypes, g.2.2 = t.1 → (g.2.1, t.1, t.2) ∈ pluralGetters := by
    decide +kernel
  have c1 : ∀ g ∈ getterNames, ∃ t ∈ goTypes, t.1 = g.2.2 := by decide +kernel
  have c2 : ∀ t ∈ goTypes, ∃ g ∈ getterNames, g.2.2 = t.1 := by decide +kernel
  refine ⟨fun name typ s => ⟨fun h => ?_, ?_⟩, fun name typ s => ⟨fun h => ?_, ?_⟩,
    fun typ => ⟨?_, ?_⟩⟩
  · obtain ⟨⟨⟨x, y, z⟩, hg, rfl, rfl⟩, ht⟩ := a1 _ h
    exact ⟨y, hg, ht⟩
  · rintro ⟨y, hg, ht⟩
    exact a2 _ hg _ ht rfl
  · obtain ⟨⟨⟨x, y, z⟩, hg, rfl, rfl⟩, ht⟩ := b1 _ h
    exact ⟨x, hg, ht⟩
  · rintro ⟨y, hg, ht⟩
    exact b2 _ hg _ ht rfl
  · rintro ⟨x, y, hg⟩
    obtain ⟨⟨t, s⟩, ht, rfl⟩ := c1 _ hg
    exact ⟨s, ht⟩
  · rintro ⟨s, ht⟩
    obtain ⟨⟨x, y, z⟩, hg, rfl⟩ := c2 _ ht
    exact ⟨x, y, hg⟩

/-! ## The hypotheses can be met -/

/-- An object of the Go type with the type `tool` and the identifier of a tool. -/
def exReach (s : SId) : Any Empty :=
  .lib ⟨s, fun f => if f = b!"Type" then .str (b!"tool") else .str (exId (b!"tool")), none⟩

/-- `c06_added`: a `Tool` with the type `tool`. -/
example : ∀ a ∈ [exReach .Tool], ∀ s, (StixObject.getType a, s) ∈ goTypes → Points s a := by
  have h : ∀ s, (b!"tool", s) ∈ goTypes → s = .Tool := by
    have : ∀ t ∈ goTypes, t.1 = b!"tool" → t.2 = .Tool := by decide +kernel
    exact fun s hs => this _ hs rfl
  intro a ha s hs
  simp only [List.mem_singleton] at ha
  subst ha
  exact ⟨_, rfl, (h s hs).symm⟩

/-- `c06_singular_exact`: the getter finds the tool, finds nothing among malware, and panics when a
`Malware` was given the type `tool`. -/
example :
    (getTyped ((Coll.new false).addAll [exReach .Tool]) (b!"tool") .Tool (exId (b!"tool"))).isPanic =
      false ∧
    (getTyped ((Coll.new false).addAll [exReach .Malware]) (b!"tool") .Tool
      (exId (b!"tool"))).isPanic = true := by decide +kernel

/-- `c35_new_bundle`: nil, a nil map and a map. -/
example : (newBundle (U := Empty) toy (List.replicate 16 0) [none, some (.custom none),
    some (.custom (some [(b!"id", .str (b!"x")), (b!"n", .int 3)]))]).okWith (fun _ => true) = true := by
  decide +kernel

/-- `c01_parsed`: a document with a tool, to which another is added. -/
example : (fromJSON (U := Empty) toy [.noSort] (some (.arr exObjects))).okWith (fun c =>
    ((c.addAll [exReach .Tool]).get (exId (b!"tool"))).isSome &&
      ((c.addAll [exReach .Tool]).get (exId (b!"malware"))).isSome) = true := by decide +kernel

end Stix
