import Verif.Spec.PassedOn
import Verif.Props.CustomTrip
import Verif.Props.Stable
import Verif.Props.Merge
import Verif.Props.Reach

/-!
# However often a bundle is passed on, its objects stay the same (C89)
-/

namespace Stix
open Spec StixObject
open Canon Props.Canon
open Spec.Text (WritesNumbers height heightArr heightObj)

variable {F : Canon.FloatFmt} {U : Type} [UserType U]

theorem steps_stay_sorted (L : Canon.FloatLaws F) (hI : IntegersParse F) {opts : List (CollOption U)} (hn : NoParsers opts)
    {as : List (Any U)} {js : List Json} {outs : List (Option (Any U))} {p p' : Peak}
    (h : Steps F (Config.new opts) p js outs p') (hm : List.Forall₂ (fun a j => marshalAny F a = some j) as js)
    (hs : ∀ a ∈ as, SoundAny a) (hp : SortedKeys (p.getD [])) : SortedKeys (p'.getD []) := by
  induction h generalizing as with
  | nil => exact hp
  | cons h1 _ _ ih =>
    cases hm with
    | @cons a _ as _ m1 m2 =>
      obtain ⟨q, out, g1, g2, -⟩ := parseOne_any L hI hn (hs a (by simp)) m1 _ hp
      rw [h1] at g1
      simp only [Res.ok.injEq, Prod.mk.injEq] at g1
      rw [← g1.1] at g2
      exact ih m2 (fun x hx => hs x (by simp [hx])) g2

/-- What is sent when this is the list of objects. -/
theorem bundle_made (rnd : List UInt8) {as : List (Any U)} {js : List Json}
    (h : List.Forall₂ (fun a j => marshalAny F a = some j) as js) :
    newBundle F rnd (as.map some) = .ok (.struct (bundleFields rnd js)) := by
  have hE : bundleObjects F (as.map some) = .ok js := by
    rw [bundleObjects_ok, Encodings, List.forall₂_map_left_iff]
    exact h.imp fun a j hj => .inr ⟨_, rfl, hj⟩
  rw [newBundle_eq, hE]; rfl

theorem height_bundleDoc (rnd rnd' : List UInt8) (js : List Json) :
    height (bundleDoc rnd js) = height (bundleDoc rnd' js) := by
  unfold bundleDoc
  split <;> simp [height, heightObj, Json.ofStr]

theorem member_bundleDoc (rnd : List UInt8) (js : List Json) (j : Json) :
    Member (bundleDoc rnd js) (b!"objects") j ↔ js ≠ [] ∧ j = .arr js := by
  unfold bundleDoc Member
  by_cases h : js = []
  · simp [h, member]
  · simp only [h, if_false, Json.obj.injEq, exists_eq_left', ne_eq, not_false_eq_true, true_and]
    simp [member, eq_comm]

theorem objects_bundleDoc (rnd rnd' : List UInt8) (js : List Json) (j : Json) :
    Member (bundleDoc rnd js) (b!"objects") j ↔ Member (bundleDoc rnd' js) (b!"objects") j := by
  rw [member_bundleDoc, member_bundleDoc]

theorem fromJSON_bundleDoc (opts : List (CollOption U)) (rnd : List UInt8) (hr : rnd.length = 16) (js : List Json) :
    fromJSON F opts (some (bundleDoc rnd js)) =
      processObjects F (Config.new opts) none (Coll.new (Config.new opts).noSort) js := by
  obtain ⟨-, -, hne, -⟩ := bundleDoc_spec rnd hr js
  by_cases hj : js = []
  · subst hj
    rw [← fromJSON_arr]
    refine c31_no_objects opts _ ?_ ?_
    · simp only [if_true, List.append_nil, amKeys, List.map, SameUpToCase]
      decide +kernel
    · intro k v hk _
      simp only [if_true, List.append_nil, List.mem_cons, Prod.mk.injEq, List.not_mem_nil, or_false] at hk
      rcases hk with ⟨-, rfl⟩ | ⟨-, rfl⟩ <;> exact ⟨_, _, rfl⟩
  · exact fromJSON_bundle opts (hne hj)

/-- What is sent, and what has been kept of it by a program that reads it. -/
structure ReadsKept (F : Canon.FloatFmt) (opts : List (CollOption U)) (as : List (Any U)) (js : List Json) : Prop where
  steps : ∃ outs p', Steps F (Config.new opts) none js (outs.map some) p' ∧
    List.Forall₂ (fun a x => Remains a x ∧ Acceptable x ∧ getID x = getID a) as outs ∧
    List.Forall₂ (fun a j => marshalAny F a = some j) outs js

theorem one_hop {opts : List (CollOption U)} {as : List (Any U)} {js : List Json} (h : ReadsKept F opts as js)
    (hsort : CollOption.noSort ∉ opts) (hnd : (as.map getID).Nodup) (hpr : ∀ j ∈ js, Text.Printable j) (rnd : List UInt8) (hr : rnd.length = 16)
    (hh : height (bundleDoc rnd js) ≤ 10000) :
    ∃ c outs, fromJSONText F opts (bundleDoc rnd js).raw = .ok c ∧ (∀ l, c.AllObjects l ↔ l = outs.map some) ∧
      List.Forall₂ (fun a x => Remains a x ∧ getID x = getID a) as outs ∧
      ∀ rnd' b, toBundle F rnd' c b → ∃ v, b = .ok v ∧ enc F tyBundle v = some (bundleDoc rnd' js) := by
  obtain ⟨outs, p', g1, g2, g3⟩ := h.steps
  have hf : (Config.new opts).noSort = false := by
    rw [← Bool.not_eq_true, noSort_iff]; exact hsort
  have hids : outs.map getID = as.map getID := by
    clear g1 g3 hnd h
    induction g2 with
    | nil => rfl
    | cons h _ ih => simp [h.2.2, ih]
  have hacc : ∀ x ∈ outs, Acceptable x := fun x hx => by
    obtain ⟨a, -, h⟩ := forall₂_mem_right g2 hx
    exact h.2.1
  have hall := allObjects_self outs hacc (by rw [hids]; exact hnd)
  refine ⟨(Coll.new false).addAll outs, outs, ?_, hall, g2.imp fun _ _ h => ⟨h.1, h.2.2⟩, ?_⟩
  · rw [c52_value opts (Text.isText_raw (printable_bundle rnd js hpr) hh), fromJSON_bundleDoc opts rnd hr, hf,
      processObjects_ok]
    refine ⟨_, p', g1, ?_⟩
    congr 1
    simp
  · rintro rnd' b ⟨l, hl, rfl⟩
    obtain rfl := (hall l).1 hl
    exact ⟨_, bundle_made rnd' g3, enc_bundle rnd' js⟩

theorem many_hops {hops : List (List (CollOption U))} {as : List (Any U)} {js : List Json}
    (h : ∀ opts ∈ hops, ReadsKept F opts as js ∧ CollOption.noSort ∉ opts)
    (hnd : (as.map getID).Nodup) (hpr : ∀ j ∈ js, Text.Printable j) (rnd : List UInt8) (hr : rnd.length = 16)
    (hh : height (bundleDoc rnd js) ≤ 10000) :
    (∃ doc, PassedOn F hops (bundleDoc rnd js) doc) ∧
      ∀ doc, PassedOn F hops (bundleDoc rnd js) doc → ∃ rnd', rnd'.length = 16 ∧ doc = bundleDoc rnd' js := by
  induction hops generalizing rnd with
  | nil =>
    refine ⟨⟨_, .done _⟩, fun doc h => ?_⟩
    cases h
    exact ⟨rnd, hr, rfl⟩
  | cons opts hops ih =>
    obtain ⟨c, outs, h1, h2, -, h4⟩ := one_hop (h opts (by simp)).1 (h opts (by simp)).2 hnd hpr rnd hr hh
    have ih := fun rnd hr hh => ih (fun o ho => h o (by simp [ho])) rnd hr hh
    constructor
    · have hb : toBundle F (List.replicate 16 0) c (newBundle F (List.replicate 16 0) (outs.map some)) :=
        ⟨_, (h2 _).2 rfl, rfl⟩
      obtain ⟨v, e1, e2⟩ := h4 _ _ hb
      rw [e1] at hb
      obtain ⟨⟨doc, hd⟩, -⟩ := ih (List.replicate 16 0) rfl (by rw [height_bundleDoc _ rnd]; exact hh)
      exact ⟨doc, .next h1 rfl hb e2 hd⟩
    · intro doc hd
      cases hd with
      | next g1 g2 g3 g4 g5 =>
        rw [h1] at g1
        cases g1
        obtain ⟨v, e1, e2⟩ := h4 _ _ g3
        cases e1
        rw [g4] at e2
        cases e2
        exact (ih _ g2 (by rw [height_bundleDoc _ rnd]; exact hh)).2 doc g5

theorem lib_marshals {os : List Obj} (h : ∀ o ∈ os, Sound o) :
    ∃ js, List.Forall₂ (fun o j => marshalObj F o = some j) os js := by
  induction os with
  | nil => exact ⟨[], .nil⟩
  | cons o os ih =>
    obtain ⟨js, hj⟩ := ih fun o ho => h o (by simp [ho])
    obtain ⟨ms, hm, -⟩ := marshal_spec (F := F) (h o (by simp))
    exact ⟨_ :: js, .cons hm hj⟩

theorem custom_marshals (L : Canon.FloatLaws F) {ms : List (List (Str × Dyn))} (h : ∀ m ∈ ms, SoundCustom m) :
    ∃ js, List.Forall₂ (fun m j => marshalAny (U := U) F (.custom (some m)) = some j) ms js := by
  induction ms with
  | nil => exact ⟨[], .nil⟩
  | cons m ms ih =>
    obtain ⟨js, hj⟩ := ih fun o ho => h o (by simp [ho])
    obtain ⟨_, hm, -⟩ := marshal_custom (U := U) L (h m (by simp))
    exact ⟨_ :: js, .cons hm hj⟩

theorem both_parts {α β : Type _} {R : α → β → Prop} {a c : List α} {b d : List β} (h : List.Forall₂ R a b)
    (h' : List.Forall₂ R c d) : List.Forall₂ R (a ++ c) (b ++ d) := by
  induction h with
  | nil => exact h'
  | cons h _ ih => exact .cons h ih

/-- The objects of the library of a list, and then custom ones. -/
def Spec.customLast (os : List Obj) (ms : List (List (Str × Dyn))) : List (Any U) :=
  os.map .lib ++ ms.map fun m => .custom (some m)

theorem carried_same {drop : Prop} {os os' : List Obj} (h : CarriedAll drop [] os os') (hs : ∀ o ∈ os, Sound o)
    (hx : Unextended os ∨ (¬ drop ∧ (∀ o ∈ os, o.sid ≠ .ExtensionDefinition) ∧ os.IsChain Passes)) :
    List.Forall₂ (fun o o' => Survives o o' ∧ (o.sid ≠ .ExtensionDefinition → extras o' = extras o)) os os' := by
  rcases hx with hx | ⟨hd, hx, hc⟩
  · have := c36_no_extended h (.inr hx)
    clear h hs
    induction this with
    | nil => exact .nil
    | @cons o o' _ _ h1 _ ih =>
      refine .cons ⟨h1.1, fun hsid => ?_⟩ (ih fun o ho => hx o (by simp [ho]))
      rcases hx o (by simp) with h | h
      · exact absurd h hsid
      · rw [h, extras, h1.2]; rfl
  · have h1 := (carried_chain hd h (fun o ho => ⟨(hs o ho).sorted, hx o ho⟩) [] (.inl ⟨rfl, rfl⟩)).2 hc
    clear hc hs hx
    have key : ∀ {earlier : List Obj}, CarriedAll drop earlier os os' → List.Forall₂ (fun o o' =>
        Survives o o' ∧ (o.sid ≠ .ExtensionDefinition → extras o' = extras o)) os os' := by
      intro earlier h
      clear ‹CarriedAll drop [] os os'›
      induction h with
      | nil => exact .nil
      | cons h2 _ ih =>
        cases h1 with
        | cons g1 g2 => exact .cons ⟨h2.survives, fun _ => g1⟩ (ih g2)
    exact key h

/-- A program that keeps the order and what there is to keep reads the objects as they were sent. -/
theorem reads_customLast (L : Canon.FloatLaws F) (hI : IntegersParse F) {opts : List (CollOption U)} (hn : NoParsers opts)
    {os : List Obj} {ms : List (List (Str × Dyn))} (ho : ∀ o ∈ os, Sound o)
    (hm : ∀ m ∈ ms, SoundCustom m)
    (hx : Unextended os ∨ ((∀ o ∈ os, o.sid ≠ .ExtensionDefinition) ∧ os.IsChain Passes))
    (hd : CollOption.dropCustom ∈ opts → Unextended os ∧ ms = [])
    {js1 js2 : List Json} (h1 : List.Forall₂ (fun o j => marshalObj F o = some j) os js1)
    (h2 : List.Forall₂ (fun m j => marshalAny (U := U) F (.custom (some m)) = some j) ms js2) :
    ReadsKept F opts (customLast os ms) (js1 ++ js2) := by
  refine ⟨?_⟩
  obtain ⟨os', p', g1, g2⟩ := steps_marshal L hI opts os js1 h1
    (fun o h => ⟨ho o h, (noParser_iff opts _).2 (handlers_none hn _)⟩) none [] sortedKeys_nil (by simp [Leaks])
  have hx' : Unextended os ∨ (¬ CollOption.dropCustom ∈ opts ∧ (∀ o ∈ os, o.sid ≠ .ExtensionDefinition) ∧ os.IsChain Passes) := by
    by_cases h : CollOption.dropCustom ∈ opts
    · exact .inl (hd h).1
    · exact hx.imp_right fun hx => ⟨h, hx⟩
  have g3 := carried_same g2 ho hx'
  have hp : SortedKeys (p'.getD []) := steps_stay_sorted (as := os.map .lib) L hI hn g1
    (by rw [List.forall₂_map_left_iff]; exact h1)
    (fun a ha => by obtain ⟨o, h, rfl⟩ := List.mem_map.1 ha; exact .inl ⟨o, rfl, ho o h⟩) sortedKeys_nil
  have hc : ∃ p'', Steps F (Config.new opts) p' js2 (ms.map fun m => some (.custom (some m))) p'' := by
    by_cases h : CollOption.dropCustom ∈ opts
    · obtain ⟨-, rfl⟩ := hd h
      cases h2
      exact ⟨p', .nil _⟩
    · clear g1 g2 g3
      induction h2 generalizing p' with
      | nil => exact ⟨p', .nil _⟩
      | @cons m j ms js e1 _ ih =>
        obtain ⟨q, out, k1, k2, k3⟩ := parseOne_custom L hn (hm m (by simp)) e1 p' hp
        cases k3 with
        | dropped e => exact absurd e h
        | custom _ =>
          obtain ⟨p'', k4⟩ := ih (fun m hmm => hm m (by simp [hmm])) (fun e => absurd e h) q k2
          refine ⟨p'', .cons k1 (fun x e => ?_) k4⟩
          cases e
          exact soundCustom_accepted (hm m (by simp))
  obtain ⟨p'', hc⟩ := hc
  refine ⟨customLast os' ms, p'', ?_, ?_, ?_⟩
  · have := steps_append g1 hc
    simpa [customLast, Function.comp_def] using this
  · refine both_parts ?_ ?_
    · rw [List.forall₂_map_left_iff, List.forall₂_map_right_iff]
      clear h1 g1 g2 hx hx' hd hp hc
      induction g3 with
      | nil => exact .nil
      | @cons o o' _ _ h _ ih =>
        have hso := ho o (by simp)
        obtain ⟨e2, e1⟩ := identity_survives hso h.1
        refine .cons ⟨.lib h.1 h.2, ?_, e1⟩ (ih fun o h => ho o (by simp [h]))
        show Identifies _ _
        have : Identifies (getType o') (getID o') := by rw [e1, e2]; exact hso.ident
        exact this
    · rw [List.forall₂_map_left_iff, List.forall₂_map_right_iff, List.forall₂_same]
      exact fun m h => ⟨.custom _, (soundCustom_accepted (hm m h)).2, rfl⟩
  · refine both_parts ?_ ?_
    · rw [List.forall₂_map_left_iff]
      clear g1 g2 hx hx' hd hp hc
      induction h1 generalizing os' with
      | nil => cases g3; exact .nil
      | @cons o j os js e1 _ ih =>
        cases g3 with
        | cons k1 k2 =>
          refine .cons ?_ (ih (fun o h => ho o (by simp [h])) _ k2)
          rw [← e1]
          exact marshal_survives (ho o (by simp)) k1.1 k1.2
    · rw [List.forall₂_map_left_iff]
      exact h2

/-- **C89.** A bundle of objects that can be sent, with different ids, custom ones last, and such that no
extended property of an object is foreign to the next one, is made.  If its JSON is passed on by any number of
programs, each of which keeps the order and does not drop what there is to keep, then no step can fail, and
the last one gets, and sends, the very JSON of the objects that the first one sent; what it reads are the
objects that were put in the first bundle, as far as JSON carries them. -/
theorem c89_passed_on (L : Canon.FloatLaws F) (W : WritesNumbers F) (hI : IntegersParse F) (os : List Obj)
    (ms : List (List (Str × Dyn))) (ho : ∀ o ∈ os, Sound o) (hm : ∀ m ∈ ms, SoundCustom m)
    (hnd : ((customLast os ms : List (Any U)).map getID).Nodup)
    (hx : Unextended os ∨ ((∀ o ∈ os, o.sid ≠ .ExtensionDefinition) ∧ os.IsChain Passes))
    (rnd : List UInt8) (hr : rnd.length = 16)
    (hh : ∀ v doc, newBundle F rnd ((customLast os ms : List (Any U)).map some) = .ok v → enc F tyBundle v = some doc →
      height doc ≤ 10000)
    (hops : List (List (CollOption U)))
    (hn : ∀ opts ∈ hops, NoParsers opts ∧ CollOption.noSort ∉ opts ∧ (CollOption.dropCustom ∈ opts → Unextended os ∧ ms = [])) :
    ∃ v doc, newBundle F rnd ((customLast os ms : List (Any U)).map some) = .ok v ∧ enc F tyBundle v = some doc ∧
      (∃ doc', PassedOn F hops doc doc') ∧
      ∀ doc', PassedOn F hops doc doc' →
        (∀ j, Member doc' (b!"objects") j ↔ Member doc (b!"objects") j) ∧
        ∀ opts ∈ hops, ∃ c as, fromJSONText F opts doc'.raw = .ok c ∧ (∀ l, c.AllObjects l ↔ l = as.map some) ∧
          List.Forall₂ (fun a x => Remains a x ∧ getID x = getID a) (customLast os ms) as ∧
          ∀ rnd b, toBundle F rnd c b → ∃ v doc'', b = .ok v ∧ enc F tyBundle v = some doc'' ∧
            ∀ j, Member doc'' (b!"objects") j ↔ Member doc (b!"objects") j := by
  obtain ⟨js1, h1⟩ := lib_marshals (F := F) ho
  obtain ⟨js2, h2⟩ := custom_marshals (U := U) L hm
  have hsound : ∀ a ∈ (customLast os ms : List (Any U)), SoundAny a := by
    intro a ha
    rcases List.mem_append.1 ha with ha | ha
    · obtain ⟨o, h, rfl⟩ := List.mem_map.1 ha; exact .inl ⟨o, rfl, ho o h⟩
    · obtain ⟨m, h, rfl⟩ := List.mem_map.1 ha; exact .inr ⟨m, rfl, hm m h⟩
  have hall : List.Forall₂ (fun a j => marshalAny (U := U) F a = some j) (customLast os ms) (js1 ++ js2) :=
    both_parts (by rw [List.forall₂_map_left_iff]; exact h1) (by rw [List.forall₂_map_left_iff]; exact h2)
  have hpr : ∀ j ∈ js1 ++ js2, Text.Printable j := fun j hj => by
    obtain ⟨a, ha, e⟩ := forall₂_mem_right hall hj
    exact printable_any W (hsound a ha) e
  have hh' := hh _ _ (bundle_made rnd hall) (enc_bundle rnd _)
  have hrd : ∀ opts ∈ hops, ReadsKept F opts (customLast os ms) (js1 ++ js2) ∧ CollOption.noSort ∉ opts := fun opts h => ⟨
    reads_customLast L hI (hn opts h).1 ho hm hx (hn opts h).2.2 h1 h2, (hn opts h).2.1⟩
  obtain ⟨k1, k2⟩ := many_hops hrd hnd hpr rnd hr hh'
  refine ⟨_, _, bundle_made rnd hall, enc_bundle rnd _, k1, fun doc' hd => ?_⟩
  obtain ⟨rnd', hr', rfl⟩ := k2 doc' hd
  refine ⟨objects_bundleDoc rnd' rnd _, fun opts h => ?_⟩
  obtain ⟨c, outs, q1, q2, q3, q4⟩ := one_hop (hrd opts h).1 (hrd opts h).2 hnd hpr rnd' hr' (by rw [height_bundleDoc _ rnd]; exact hh')
  refine ⟨c, outs, q1, q2, q3, fun r b hb => ?_⟩
  obtain ⟨v, e1, e2⟩ := q4 r b hb
  exact ⟨v, _, e1, e2, objects_bundleDoc r rnd _⟩

/-- **C89.** The same for a collection of objects of the library without extended properties, with the number
formats of Go: the bundle that `ToBundle` makes is passed on by any programs that keep the order, whether they
drop custom properties or not. -/
theorem c89_strconv (ns : Bool) (h : List (Any U))
    (hs : ∀ id a, ((Coll.new ns).addAll h).get id = some a →
      ∃ o, a = .lib o ∧ Sound o ∧ (o.sid = .ExtensionDefinition ∨ extras o = []))
    (rnd : List UInt8) (hr : rnd.length = 16) (b : Res GV) (hb : toBundle strconv rnd ((Coll.new ns).addAll h) b)
    (hh : ∀ v doc, b = .ok v → enc strconv tyBundle v = some doc → height doc ≤ 10000)
    (hops : List (List (CollOption U))) (hn : ∀ opts ∈ hops, NoParsers opts ∧ CollOption.noSort ∉ opts) :
    ∃ v doc, b = .ok v ∧ enc strconv tyBundle v = some doc ∧ (∃ doc', PassedOn strconv hops doc doc') ∧
      ∀ doc', PassedOn strconv hops doc doc' → ∀ j, Member doc' (b!"objects") j ↔ Member doc (b!"objects") j := by
  obtain ⟨objs, ho, rfl⟩ := hb
  obtain ⟨as, rfl, h1, h2⟩ := allObjects_spec ns h objs ho
  have hos : ∃ os : List Obj, as = customLast os [] ∧ ∀ o ∈ os, Sound o ∧ (o.sid = .ExtensionDefinition ∨ extras o = []) := by
    have : ∀ a ∈ as, ∃ o, a = .lib o ∧ Sound o ∧ (o.sid = .ExtensionDefinition ∨ extras o = []) :=
      fun a ha => hs _ a ((h2 _ a).2 ⟨ha, rfl⟩)
    clear h1 h2 ho hh
    induction as with
    | nil => exact ⟨[], rfl, by simp⟩
    | cons a as ih =>
      obtain ⟨o, rfl, hso⟩ := this a (by simp)
      obtain ⟨os, rfl, g⟩ := ih fun a ha => this a (by simp [ha])
      refine ⟨o :: os, rfl, fun x hx => ?_⟩
      rcases List.mem_cons.1 hx with rfl | hx
      · exact hso
      · exact g x hx
  obtain ⟨os, rfl, hos⟩ := hos
  obtain ⟨v, doc, g1, g2, g3, g4⟩ := c89_passed_on Strconv.strconv_laws Strconv.strconv_writes Strconv.strconv_integers
    os [] (fun o h => (hos o h).1) (by simp) h1 (.inl fun o h => (hos o h).2) rnd hr hh hops
    (fun opts h => ⟨(hn opts h).1, (hn opts h).2, fun _ => ⟨fun o h => (hos o h).2, rfl⟩⟩)
  exact ⟨v, doc, g1, g2, g3, fun doc' h => (g4 doc' h).1⟩

/-! ### Programs that do not keep the order -/

theorem heightArr_perm {l l' : List Json} (h : l.Perm l') : heightArr l = heightArr l' := by
  induction h with
  | nil => rfl
  | cons _ _ ih => simp [heightArr, ih]
  | swap => simp only [heightArr]; omega
  | trans _ _ ih ih' => exact ih.trans ih'

theorem height_bundleDoc_perm (rnd rnd' : List UInt8) {js js' : List Json} (h : js.Perm js') :
    height (bundleDoc rnd js) = height (bundleDoc rnd' js') := by
  have : js = [] ↔ js' = [] := ⟨fun e => by subst e; exact h.nil_eq.symm, fun e => by subst e; exact h.eq_nil⟩
  unfold bundleDoc
  simp only [this]
  split <;> simp [height, heightObj, Json.ofStr, heightArr_perm h]

theorem any_hop {opts : List (CollOption U)} {as : List (Any U)} {js : List Json} (h : ReadsKept F opts as js)
    (hnd : (as.map getID).Nodup) (hpr : ∀ j ∈ js, Text.Printable j) (rnd : List UInt8) (hr : rnd.length = 16)
    (hh : height (bundleDoc rnd js) ≤ 10000) :
    ∃ c, fromJSONText F opts (bundleDoc rnd js).raw = .ok c ∧
      ∀ rnd' b, toBundle F rnd' c b → ∃ v js', b = .ok v ∧ enc F tyBundle v = some (bundleDoc rnd' js') ∧ js'.Perm js := by
  obtain ⟨outs, p', g1, g2, g3⟩ := h.steps
  have hids : outs.map getID = as.map getID := by
    clear g1 g3 hnd h
    induction g2 with
    | nil => rfl
    | cons h _ ih => simp [h.2.2, ih]
  have hacc : ∀ x ∈ outs, Acceptable x := fun x hx => by
    obtain ⟨a, -, h⟩ := forall₂_mem_right g2 hx
    exact h.2.1
  rw [← hids] at hnd
  refine ⟨(Coll.new (Config.new opts).noSort).addAll outs, ?_, ?_⟩
  · rw [c52_value opts (Text.isText_raw (printable_bundle rnd js hpr) hh), fromJSON_bundleDoc opts rnd hr,
      processObjects_ok]
    refine ⟨_, p', g1, ?_⟩
    congr 1
    simp
  · rintro rnd' b ⟨l, hl, rfl⟩
    obtain ⟨as', rfl, k1, k2⟩ := allObjects_spec _ _ _ hl
    have hp : as'.Perm outs := by
      refine (List.perm_ext_iff_of_nodup (List.Nodup.of_map _ k1) (List.Nodup.of_map _ hnd)).2 fun a => ?_
      have := (k2 (getID a) a).symm.trans (get_self _ _ hacc hnd (getID a) a)
      simpa using this
    obtain ⟨js', k3, k4⟩ := List.perm_comp_forall₂ hp g3
    exact ⟨_, js', bundle_made rnd' k3, enc_bundle rnd' js', k4⟩

/-- **C89.** Objects of the library without extended properties may be passed on by programs with any options
of the library, those that do not keep the order among them: no step can fail, and the objects of the last
bundle are those of the first, each with the same JSON, in some order. -/
theorem c89_any_order (L : Canon.FloatLaws F) (W : WritesNumbers F) (hI : IntegersParse F) (os : List Obj)
    (ho : ∀ o ∈ os, Sound o) (hx : Unextended os) (hnd : (os.map getID).Nodup)
    (rnd : List UInt8) (hr : rnd.length = 16)
    (hh : ∀ v doc, newBundle F rnd (os.map fun o => some (Any.lib (U := U) o)) = .ok v → enc F tyBundle v = some doc →
      height doc ≤ 10000)
    (hops : List (List (CollOption U))) (hn : ∀ opts ∈ hops, NoParsers opts) :
    ∃ v doc, newBundle F rnd (os.map fun o => some (Any.lib (U := U) o)) = .ok v ∧ enc F tyBundle v = some doc ∧
      (∃ doc', PassedOn F hops doc doc') ∧
      ∀ doc', PassedOn F hops doc doc' →
        (∀ l, Member doc (b!"objects") (.arr l) → ∃ l', Member doc' (b!"objects") (.arr l') ∧ l'.Perm l) ∧
        (∀ j, Member doc' (b!"objects") j → ∃ l l', j = .arr l' ∧ Member doc (b!"objects") (.arr l) ∧ l'.Perm l) := by
  obtain ⟨js, h1⟩ := lib_marshals (F := F) ho
  have hmade : ∀ {os : List Obj} {js : List Json}, List.Forall₂ (fun o j => marshalObj F o = some j) os js →
      List.Forall₂ (fun a j => marshalAny (U := U) F a = some j) (os.map .lib) js := fun h => by
    rw [List.forall₂_map_left_iff]; exact h
  have hb := bundle_made rnd (hmade h1)
  rw [List.map_map] at hb
  have hht := hh _ _ hb (enc_bundle rnd _)
  have key : ∀ (hops : List (List (CollOption U))), (∀ opts ∈ hops, NoParsers opts) → ∀ (rnd : List UInt8) (js' : List Json),
      rnd.length = 16 → js'.Perm js → (∃ doc', PassedOn F hops (bundleDoc rnd js') doc') ∧
      ∀ doc', PassedOn F hops (bundleDoc rnd js') doc' → ∃ rnd'' js'', doc' = bundleDoc rnd'' js'' ∧ js''.Perm js := by
    intro hops
    induction hops with
    | nil =>
      intro _ rnd js' _ hp
      refine ⟨⟨_, .done _⟩, fun doc h => ?_⟩
      cases h
      exact ⟨rnd, js', rfl, hp⟩
    | cons opts hops ih =>
      intro hn rnd' js' hr' hp
      have ih := ih fun o h => hn o (by simp [h])
      obtain ⟨os', q1, q2⟩ := List.perm_comp_forall₂ hp h1.flip
      have q1 : List.Forall₂ (fun o j => marshalObj F o = some j) os' js' := q1.flip
      have ho' : ∀ o ∈ os', Sound o := fun o h => ho o (q2.mem_iff.1 h)
      have hx' : Unextended os' := fun o h => hx o (q2.mem_iff.1 h)
      have hnd' : ((customLast os' [] : List (Any U)).map getID).Nodup := by
        have := ((q2.map getID).nodup_iff).2 hnd
        simpa [customLast, Function.comp_def, getID] using this
      have hrd := reads_customLast (F := F) (js2 := []) L hI (hn opts (by simp)) ho' (ms := []) (by simp) (.inl hx')
        (fun _ => ⟨hx', rfl⟩) q1 .nil
      rw [List.append_nil] at hrd
      have hpr : ∀ j ∈ js', Text.Printable j := fun j hj => by
        obtain ⟨o, hm, e⟩ := forall₂_mem_right q1 hj
        exact Text.marshalObj_printable W e
      obtain ⟨c, r1, r2⟩ := any_hop hrd hnd' hpr rnd' hr' (by rw [height_bundleDoc_perm rnd' rnd hp]; exact hht)
      constructor
      · obtain ⟨l, hl⟩ := (c03_returns c []).1
        have hb : toBundle F (List.replicate 16 0) c (newBundle F (List.replicate 16 0) l) := ⟨_, hl, rfl⟩
        obtain ⟨v, js'', e1, e2, e3⟩ := r2 _ _ hb
        rw [e1] at hb
        obtain ⟨⟨doc, hd⟩, -⟩ := ih (List.replicate 16 0) js'' rfl (e3.trans hp)
        exact ⟨doc, .next r1 rfl hb e2 hd⟩
      · intro doc hd
        cases hd with
        | next g1 g2 g3 g4 g5 =>
          rw [r1] at g1
          cases g1
          obtain ⟨v, js'', e1, e2, e3⟩ := r2 _ _ g3
          cases e1
          rw [g4] at e2
          cases e2
          exact (ih _ js'' g2 (e3.trans hp)).2 doc g5
  obtain ⟨k1, k2⟩ := key hops hn rnd js hr (.refl _)
  refine ⟨_, _, hb, enc_bundle rnd _, k1, fun doc' hd => ?_⟩
  obtain ⟨rnd'', js'', rfl, hp⟩ := k2 doc' hd
  have hne : js = [] ↔ js'' = [] := ⟨fun e => by subst e; exact hp.eq_nil, fun e => by subst e; exact hp.nil_eq.symm⟩
  constructor
  · intro l hl
    obtain ⟨g1, g2⟩ := (member_bundleDoc _ _ _).1 hl
    cases g2
    exact ⟨js'', (member_bundleDoc _ _ _).2 ⟨fun e => g1 (hne.2 e), rfl⟩, hp⟩
  · intro j hj
    obtain ⟨g1, rfl⟩ := (member_bundleDoc _ _ _).1 hj
    exact ⟨js, js'', rfl, (member_bundleDoc _ _ _).2 ⟨fun e => g1 (hne.1 e), rfl⟩, hp⟩

/-! ### A case -/

/-- C89: a domain name and a custom object, passed on twice. -/
example : ∃ (v : GV) (doc : Json),
    newBundle toy (List.replicate 16 0) ((customLast [exDomain] [exThing] : List (Any Empty)).map some) = .ok v ∧
      enc toy tyBundle v = some doc ∧ (∃ doc', PassedOn (U := Empty) toy [[], []] doc doc') ∧
      ∀ doc', PassedOn (U := Empty) toy [[], []] doc doc' →
        ∀ j, Member doc' (b!"objects") j ↔ Member doc (b!"objects") j := by
  have hh : (newBundle (U := Empty) toy (List.replicate 16 0)
      ((customLast [exDomain] [exThing] : List (Any Empty)).map some)).okWith (fun v =>
        (enc toy tyBundle v).all fun doc => decide (height doc ≤ 10000)) = true := by decide +kernel
  obtain ⟨v, doc, h1, h2, h3, h4⟩ := c89_passed_on (U := Empty) Props.Canon.toy_laws toy_writes toy_integers
    [exDomain] [exThing]
    (by
      intro o ho
      obtain rfl := List.mem_singleton.1 ho
      exact (c64_sound _ (makes_built exDomain_makes.1 exDomain_makes.2)).1)
    (by
      intro m hm
      obtain rfl := List.mem_singleton.1 hm
      exact exThing_sound)
    (by decide +kernel)
    (.inr ⟨by decide +kernel, by simp⟩)
    (List.replicate 16 0) rfl (fun v doc e1 e2 => by
      obtain ⟨v', e, h⟩ := Res.okWith_iff.1 hh
      rw [e] at e1
      cases e1
      rw [e2] at h
      simpa using h) [[], []] (by
      intro opts h
      obtain rfl : opts = [] := by simpa using h
      exact ⟨fun o ho => by simp at ho, by simp, by simp⟩)
  exact ⟨v, doc, h1, h2, h3, fun doc' h => (h4 doc' h).1⟩

/-- C89: a domain name, passed on by a program that does not keep the order and one that drops custom
properties. -/
example : ∃ (v : GV) (doc : Json),
    newBundle toy (List.replicate 16 0) [some (Any.lib (U := Empty) exDomain)] = .ok v ∧
      enc toy tyBundle v = some doc ∧ ∃ doc', PassedOn (U := Empty) toy [[.noSort], [.dropCustom]] doc doc' := by
  have hh : (newBundle (U := Empty) toy (List.replicate 16 0) [some (Any.lib exDomain)]).okWith (fun v =>
        (enc toy tyBundle v).all fun doc => decide (height doc ≤ 10000)) = true := by decide +kernel
  obtain ⟨v, doc, h1, h2, h3, -⟩ := c89_any_order (U := Empty) Props.Canon.toy_laws toy_writes toy_integers
    [exDomain]
    (by
      intro o ho
      obtain rfl := List.mem_singleton.1 ho
      exact (c64_sound _ (makes_built exDomain_makes.1 exDomain_makes.2)).1)
    (by
      intro o ho
      obtain rfl := List.mem_singleton.1 ho
      exact .inr rfl)
    (by simp)
    (List.replicate 16 0) rfl (fun v doc e1 e2 => by
      obtain ⟨v', e, h⟩ := Res.okWith_iff.1 hh
      rw [List.map_singleton, e] at e1
      cases e1
      rw [e2] at h
      simpa using h) [[.noSort], [.dropCustom]] (by
      intro opts h o ho
      simp only [List.mem_cons, List.not_mem_nil, or_false] at h
      rcases h with rfl | rfl <;> (simp only [List.mem_singleton] at ho; subst ho; simp))
  exact ⟨v, doc, h1, h2, h3⟩

end Stix
