import Verif.Lemmas.Order
import Verif.Props.Bundle

/-!
# The order in which maps are visited (C80)
-/

namespace Stix
open Spec StixObject Coll Stix.Order Stix.Canon Stix.Props.Canon
variable {F : Canon.FloatFmt} {U : Type} [UserType U]

/-- **C80** (reading).  Two runs of `FromJSON` on the same document: if one returns a collection the
other returns the same one, and if one reports an error the other reports it too or crashes.  Every
run ends. -/
theorem c80_import (opts : List (CollOption U)) (doc : Option Json) :
    (∃ r, FromJSON F opts doc r) ∧ ∀ r r', FromJSON F opts doc r → FromJSON F opts doc r' →
      (∀ c, r = .ok c → r' = .ok c) ∧ (∀ e, r = .err e → r' = .err e ∨ r' = .panic) ∧
      (r = .panic → r' = .panic ∨ r' = .err .other) := by
  obtain ⟨h1, h2⟩ := close_fromJSON (F := F) opts doc
  refine ⟨⟨_, h1⟩, fun r r' hr hr' => ?_⟩
  rcases h2 r hr with rfl | ⟨e, rfl⟩ <;> rcases h2 r' hr' with e' | ⟨e', rfl⟩
  · rw [e']
    exact ⟨fun _ h => h, fun _ h => .inl h, fun h => .inl h⟩
  · rw [e']
    exact ⟨nofun, nofun, fun _ => .inr rfl⟩
  · rw [e', e]
    exact ⟨nofun, fun _ _ => .inr rfl, nofun⟩
  · exact ⟨nofun, fun _ h => .inl h, nofun⟩

/-- **C80** (the other theorems).  The result that the model gives is a possible one, it is the only
one unless it is a crash, and then the only other one is an error.  So what is said elsewhere of
documents that are imported or refused holds of every run, and a document crashes in some run exactly
when it crashes in the model. -/
theorem c80_model (opts : List (CollOption U)) (doc : Option Json) :
    (fromJSON F opts doc ≠ .panic → ∀ r, FromJSON F opts doc r ↔ r = fromJSON F opts doc) ∧
    (FromJSON F opts doc .panic ↔ fromJSON F opts doc = .panic) ∧
    (∀ c, FromJSON F opts doc (.ok c) ↔ fromJSON F opts doc = .ok c) := by
  obtain ⟨h1, h2⟩ := close_fromJSON (F := F) opts doc
  refine ⟨fun hp r => ⟨fun hr => ?_, ?_⟩, ⟨fun hr => ?_, ?_⟩, fun c => ⟨fun hr => ?_, ?_⟩⟩
  · rcases h2 r hr with e | ⟨e, -⟩
    · exact e
    · exact absurd e hp
  · rintro rfl; exact h1
  · rcases h2 _ hr with e | ⟨-, e⟩
    · exact e.symm
    · cases e
  · intro e; rw [← e]; exact h1
  · rcases h2 _ hr with e | ⟨-, e⟩
    · exact e.symm
    · cases e
  · intro e; rw [← e]; exact h1

/-- An object whose extended properties are a map. -/
def Spec.HasMap (a : Any U) : Prop := ∀ o, a = .lib o → SortedKeys (o.extra.getD [])

/-- **C80** (writing).  `json.Marshal` of an object gives one result. -/
theorem c80_marshal (a : Any U) (h : HasMap a) (r : Option Json) :
    Marshals F a r ↔ r = marshalAny F a := marshals_iff h r

theorem toBundle_runs (ns : Bool) (h : List (Any U)) (hm : ∀ a ∈ h, HasMap a) (rnd : List UInt8)
    (b : Res GV) : ToBundle F rnd ((Coll.new ns).addAll h) b ↔ toBundle F rnd ((Coll.new ns).addAll h) b := by
  unfold ToBundle toBundle
  refine exists_congr fun objs => and_congr_right fun ho => ?_
  obtain ⟨as, rfl, -, h2⟩ := allObjects_spec ns h objs ho
  have hx : ∀ o, some (Any.lib o) ∈ as.map some → SortedKeys (o.extra.getD []) := by
    intro o hmem
    obtain ⟨a, ha, e⟩ := List.mem_map.1 hmem
    cases e
    have hl := (h2 _ (.lib o)).2 ⟨ha, rfl⟩
    exact hm _ (latest_acceptable ((c01_get_latest ..).1 hl)).2.2 o rfl
  simp only [bundleObjects_iff _ hx, exists_eq_left]
  rfl

/-- **C80** (exporting).  Two runs of `ToBundle` on a collection that keeps order, with the same
random bytes for the identifier of the bundle, give the same bundle or both fail alike. -/
theorem c80_export (h : List (Any U)) (hm : ∀ a ∈ h, HasMap a) (rnd : List UInt8) (b b' : Res GV)
    (h1 : ToBundle F rnd ((Coll.new false).addAll h) b)
    (h2 : ToBundle F rnd ((Coll.new false).addAll h) b') : b = b' := by
  rw [toBundle_runs false h hm] at h1 h2
  obtain ⟨o1, a1, rfl⟩ := h1
  obtain ⟨o2, a2, rfl⟩ := h2
  obtain ⟨o, -, hu⟩ := c02_allObjects_deterministic h
  rw [hu o1 a1, hu o2 a2]

/-- What is imported without parsers of the user's has maps for extended properties. -/
theorem processObjects_hasMap {cfg : Config U} (hn : ∀ t, cfg.handlers t = none) {l : List Json} :
    ∀ {peak : Peak} {c c' : Coll (Any U)}, SortedKeys (peak.getD []) →
      processObjects F cfg peak c l = .ok c' → ∃ h, c' = c.addAll h ∧ ∀ a ∈ h, HasMap a := by
  induction l with
  | nil =>
    intro peak c c' _ h
    cases h
    exact ⟨[], rfl, by simp⟩
  | cons j l ih =>
    intro peak c c' hs h
    unfold processObjects at h
    cases hp : parseOne F cfg peak j with
    | err e => rw [hp] at h; cases h
    | panic => rw [hp] at h; cases h
    | ok q =>
      rw [hp] at h
      simp only [Res.bind] at h
      have hq := parseOne_peak_sorted cfg hs hp
      have hobj : ∀ a, q.2 = some a → HasMap a := by
        rintro a ha o rfl
        unfold parseOne at hp
        cases hd : (decCustom F peak j).res with
        | err e => rw [hd] at hp; cases hp
        | panic => rw [hd] at hp; cases hp
        | ok p =>
          have hps := decCustom_peak_sorted hs hd
          rw [hd] at hp
          simp only [Res.bind] at hp
          split at hp
          · cases hp; cases ha
          · rename_i typ _
            unfold newObject at hp
            rw [hn] at hp
            have lib : ∀ s, ∀ x, (decAny F j (some (Any.lib (U := U) (zeroObj s)))).res = .ok x →
                ∃ o', x = some (.lib o') ∧ o'.extra = none := by
              intro s x hx
              rw [D.res_ok_iff] at hx
              simp only [decAny, D.bind_ok_iff, D.ok.injEq, and_true] at hx
              obtain ⟨o', h1, rfl⟩ := hx
              refine ⟨o', rfl, ?_⟩
              cases j with
              | obj ms =>
                simp only [decObj, D.bind_ok_iff, D.ok.injEq, and_true] at h1
                obtain ⟨f, -, rfl⟩ := h1
                rfl
              | null => cases h1; rfl
              | _ => cases h1
            have cust : ∀ x, (decAny F j (some (Any.custom (U := U) (some [])))).res = .ok x →
                ∃ m, x = some (.custom m) := by
              intro x hx
              rw [D.res_ok_iff] at hx
              simp only [decAny, D.bind_ok_iff, D.ok.injEq, and_true] at hx
              obtain ⟨m, -, rfl⟩ := hx
              exact ⟨m, rfl⟩
            cases ht : amLookup typ dispatchTable with
            | some s =>
              rw [ht] at hp
              simp only at hp
              cases hx : (decAny F j (some (Any.lib (U := U) (zeroObj s)))).res with
              | err e => rw [hx] at hp; cases hp
              | panic => rw [hx] at hp; cases hp
              | ok x =>
                obtain ⟨o', rfl, he⟩ := lib s x hx
                rw [hx] at hp
                by_cases hdc : cfg.dropCustom = true
                · simp only [hdc, if_true] at hp
                  cases hp
                  cases ha
                  rw [he]
                  exact sortedKeys_nil
                · simp only [hdc] at hp
                  simp only [extend] at hp
                  cases hp
                  cases ha
                  split
                  · exact hps.filter _
                  · rw [he]; exact sortedKeys_nil
            | none =>
              rw [ht] at hp
              by_cases hdc : cfg.dropCustom = true
              · simp only [hdc, if_true] at hp
                cases hp
                cases ha
              · simp only [hdc] at hp
                simp only [Bool.false_eq_true, if_false] at hp
                cases hx : (decAny F j (some (Any.custom (U := U) (some [])))).res with
                | err e => rw [hx] at hp; cases hp
                | panic => rw [hx] at hp; cases hp
                | ok x =>
                  obtain ⟨m, rfl⟩ := cust x hx
                  rw [hx] at hp
                  simp only [extend] at hp
                  cases hp
                  cases ha
          · cases hp
      cases ha : addOne c q.2 with
      | err e => rw [ha] at h; cases h
      | panic => rw [ha] at h; cases h
      | ok c1 =>
        rw [ha] at h
        obtain ⟨hh, rfl, h3⟩ := ih hq h
        have hc1 : c1 = c.addAll q.2.toList := by
          cases hq2 : q.2 with
          | none => rw [hq2] at ha; cases ha; rfl
          | some x =>
            rw [hq2] at ha
            simp only [addOne] at ha
            split at ha
            · cases ha
            · split at ha
              · cases ha
              · cases ha; rfl
        refine ⟨q.2.toList ++ hh, ?_, ?_⟩
        · rw [hc1]; simp [Coll.addAll, List.foldl_append]
        · intro a ham
          rcases List.mem_append.1 ham with hm | hm
          · exact hobj a (by simpa using hm)
          · exact h3 a hm

/-- What `FromJSON` gives without parsers of the user's. -/
theorem fromJSON_hasMap {opts : List (CollOption U)} (hn : NoParsers opts) {doc : Option Json} {c : Coll (Any U)}
    (h : fromJSON F opts doc = .ok c) :
    ∃ h, c = (Coll.new (Config.new opts).noSort).addAll h ∧ ∀ a ∈ h, HasMap a := by
  have hs : SortedKeys ((none : Peak).getD []) := sortedKeys_nil
  have hh := handlers_none hn
  unfold fromJSON at h
  cases doc with
  | none => cases h
  | some j =>
    simp only at h
    split at h
    · exact processObjects_hasMap hh hs h
    · cases h
    · split at h
      · exact processObjects_hasMap hh hs h
      · cases h
      · cases h

/-- **C80** (importing and exporting).  Import a document twice and export each of the collections:
the bundles are the same, unless the option gives up the order. -/
theorem c80_reexport (opts : List (CollOption U)) (hn : NoParsers opts) (ho : CollOption.noSort ∉ opts)
    (doc : Option Json) (c c' : Coll (Any U)) (h : FromJSON F opts doc (.ok c))
    (h' : FromJSON F opts doc (.ok c')) (rnd : List UInt8) (b b' : Res GV) (hb : ToBundle F rnd c b)
    (hb' : ToBundle F rnd c' b') : c = c' ∧ b = b' := by
  have e := ((c80_model opts doc).2.2 c).1 h
  have e' := ((c80_model opts doc).2.2 c').1 h'
  rw [e] at e'
  cases e'
  obtain ⟨l, rfl, hm⟩ := fromJSON_hasMap hn e
  have hns : (Config.new opts).noSort = false := by
    rw [Bool.eq_false_iff, ne_eq, noSort_iff]
    exact ho
  rw [hns] at hb hb'
  exact ⟨rfl, c80_export l hm rnd b b' hb hb'⟩

/-- The objects of a bundle. -/
def Spec.Bundles (v : GV) (js : List Json) : Prop :=
  ∃ f, v = .struct f ∧ f (b!"Objects") = .slice (some (js.map .raw))

/-- **C80** (exporting without order).  Two runs of `ToBundle` on a collection made with
`NoSortOption`: if one gives a bundle so does the other, with the same objects, written the same
way, in some order. -/
theorem c80_export_nosort (h : List (Any U)) (hm : ∀ a ∈ h, HasMap a) (rnd rnd' : List UInt8)
    (b b' : Res GV) (h1 : ToBundle F rnd ((Coll.new true).addAll h) b)
    (h2 : ToBundle F rnd' ((Coll.new true).addAll h) b') (v : GV) (hv : b = .ok v) :
    ∃ v' js js', b' = .ok v' ∧ Bundles v js ∧ Bundles v' js' ∧ js.Perm js' := by
  rw [toBundle_runs true h hm] at h1 h2
  obtain ⟨o1, a1, e1⟩ := h1
  obtain ⟨o2, a2, e2⟩ := h2
  obtain ⟨o, ho, -⟩ := c02_allObjects_deterministic h
  have hp : o1.Perm o2 :=
    (c03_nosort_permutation h o1 o a1 ho).trans (c03_nosort_permutation h o2 o a2 ho).symm
  rw [hv, newBundle_eq] at e1
  cases hj : bundleObjects F o1 with
  | err e => rw [hj] at e1; cases e1
  | panic => rw [hj] at e1; cases e1
  | ok js =>
    rw [hj] at e1
    simp only [Res.bind, Res.ok.injEq] at e1
    have key : ∀ {l l' : List (Option (Any U))}, l.Perm l' → ∀ js, bundleObjects F l = .ok js →
        ∃ js', bundleObjects F l' = .ok js' ∧ js.Perm js' := by
      intro l l' hp
      induction hp with
      | nil => exact fun js h => ⟨js, h, .refl _⟩
      | cons x _ ih =>
        intro js h
        rw [bundleObjects_ok] at h
        unfold Encodings at h
        cases h with
        | cons hx hr =>
          obtain ⟨js', h3, h4⟩ := ih _ ((bundleObjects_ok _ _).2 hr)
          exact ⟨_ :: js', (bundleObjects_ok _ _).2 (.cons hx ((bundleObjects_ok _ _).1 h3)), h4.cons _⟩
      | swap x y l =>
        intro js h
        rw [bundleObjects_ok] at h
        unfold Encodings at h
        cases h with
        | cons hy hr => cases hr with
          | cons hx hr => exact ⟨_ :: _ :: _, (bundleObjects_ok _ _).2 (.cons hx (.cons hy hr)), .swap _ _ _⟩
      | trans _ _ ih1 ih2 =>
        intro js h
        obtain ⟨js1, h3, h4⟩ := ih1 js h
        obtain ⟨js2, h5, h6⟩ := ih2 js1 h3
        exact ⟨js2, h5, h4.trans h6⟩
    obtain ⟨js', hj', hpj⟩ := key hp js hj
    rw [newBundle_eq, hj'] at e2
    exact ⟨_, js, js', e2, ⟨_, e1, rfl⟩, ⟨_, rfl, rfl⟩, hpj⟩

/-! ### A document that is refused in one run and crashes in another -/

/-- The extensions: one that is a number, and one with a number for a time. -/
def exBoth : List (Str × Json) :=
  [(b!"pdf-ext", .num (b!"5")), (b!"windows-pebinary-ext", .obj [(b!"time_date_stamp", .num (b!"5"))])]

/-- **C80** (the exception).  A document for which `FromJSON` reports an error in one run and crashes
in another: one extension of the file cannot be read and the other one crashes. -/
theorem c80_either : ∃ doc : Json, FromJSON (U := Empty) toy [] (some doc) (.err .other) ∧
    FromJSON (U := Empty) toy [] (some doc) .panic := by
  refine ⟨.arr [.obj [(b!"extensions", .obj exBoth), (b!"type", exText (b!"file"))]], ?_, ?_⟩
  · have hs : smOfList exBoth = exBoth := smOfList_sorted (by unfold exBoth SortedKeys; decide)
    have he : ∀ cur, decR toy (.ext knownExts) cur (.obj exBoth) .hard := by
      intro cur
      unfold decR
      refine .inr (.inl ⟨?_, rfl⟩)
      rw [hs]
      refine ⟨_, .refl _, .inr (.inl ⟨.inl ⟨_, (close_decExt (F := toy) knownExts _ _).1⟩, rfl⟩)⟩
    have ho : decObjR toy (zeroObj .File) (.obj [(b!"extensions", .obj exBoth), (b!"type", exText (b!"file"))])
        .hard :=
      .inr (.inl ⟨.inr (.inl ⟨he ((zeroObj .File).val (b!"Extensions")), rfl⟩), rfl⟩)
    refine ⟨_, (close_dec (F := toy) _ _ _).1, ?_⟩
    refine ⟨_, (close_dec (F := toy) _ _ _).1, ?_⟩
    refine ⟨.err .other, ⟨_, .inr (.inl ⟨ho, rfl⟩), rfl⟩, rfl⟩
  · rw [(c80_model _ _).2.1]
    apply Res.isPanic_iff.1
    decide +kernel

/-! ### Cases -/

/-- A document with a tool that has two extended properties and two extensions. -/
def exOrdered : Json := .arr [.obj [(b!"type", exText (b!"file")), (b!"id", exText (exId (b!"file"))),
  (b!"x_b", .bool true), (b!"x_a", .null),
  (b!"extensions", .obj [(b!"pdf-ext", .obj []), (b!"ntfs-ext", .obj [])])]]

/-- The entries of a map may be visited backwards. -/
example : Coll.Iter exBoth exBoth.reverse := by
  unfold Coll.Iter
  exact (List.reverse_perm _).symm

example : ∃ c, FromJSON (U := Empty) toy [] (some exOrdered) (.ok c) := by
  cases h : fromJSON (U := Empty) toy [] (some exOrdered) with
  | ok c => exact ⟨c, ((c80_model _ _).2.2 c).2 h⟩
  | err e =>
    have : (match fromJSON (U := Empty) toy [] (some exOrdered) with | .ok _ => true | _ => false) = true := by
      decide +kernel
    rw [h] at this
    cases this
  | panic =>
    have : (match fromJSON (U := Empty) toy [] (some exOrdered) with | .ok _ => true | _ => false) = true := by
      decide +kernel
    rw [h] at this
    cases this

example : NoParsers ([] : List (CollOption Empty)) ∧ CollOption.noSort ∉ ([] : List (CollOption Empty)) := by
  refine ⟨?_, by simp⟩
  unfold NoParsers
  simp

/-- Properties kept as a map, which any two orders of visiting write the same way. -/
example : HasMap (U := Empty)
    (.lib { zeroObj .Tool with extra := some [(b!"x_a", .nil), (b!"x_b", .bool true)] }) := by
  rintro o ⟨⟩
  unfold SortedKeys
  decide

/-- The loop in two orders. -/
example : copyAll [(b!"x_b", .bool true), (b!"x_a", .nil)] [] =
    copyAll [(b!"x_a", .nil), (b!"x_b", .bool true)] [] := rfl

end Stix
