import Verif.Lemmas.ObjTrip
import Verif.Props.Collection

/-!
# Bundles (lemmas)
-/

namespace Stix
open Spec StixObject

section
variable {α : Type _} [StixObject α]

/-- What `AllObjects` returns, in any mode: the objects `Get` returns, each once. -/
theorem allObjects_spec (ns : Bool) (h : List α) (out : List (Option α))
    (ho : ((Coll.new ns).addAll h).AllObjects out) :
    ∃ as : List α, out = as.map some ∧ (as.map getID).Nodup ∧
      ∀ id a, ((Coll.new ns).addAll h).get id = some a ↔ a ∈ as ∧ getID a = id := by
  cases ns with
  | false =>
    obtain ⟨ids, h1, h2, h3, h4⟩ := c02_allObjects_order h out ho
    have : ∃ as : List α, out = as.map some ∧ List.Forall₂ (fun id a => Latest h id a) ids as := by
      clear h1 h2 h3 ho
      induction h4 with
      | nil => exact ⟨[], rfl, .nil⟩
      | cons e _ ih =>
        obtain ⟨o, rfl, hl⟩ := e
        obtain ⟨as, rfl, g⟩ := ih
        exact ⟨o :: as, rfl, .cons hl g⟩
    obtain ⟨as, rfl, hf⟩ := this
    have hids : as.map getID = ids := by
      clear h1 h2 h3 h4 ho
      induction hf with
      | nil => rfl
      | cons e _ ih => rw [List.map_cons, ih, (latest_acceptable e).2.1]
    refine ⟨as, rfl, by rw [hids]; exact h1, fun id a => ?_⟩
    rw [c01_get_latest]
    constructor
    · intro hl
      obtain ⟨g1, g2, g3⟩ := latest_acceptable hl
      obtain ⟨b, hb, hl'⟩ := forall₂_mem_left hf ((h3 id).2 ⟨a, g3, g1, g2⟩)
      rw [latest_unique hl hl']
      exact ⟨hb, (latest_acceptable hl').2.1⟩
    · rintro ⟨ha, rfl⟩
      obtain ⟨id, hid, hl⟩ := forall₂_mem_right hf ha
      rw [(latest_acceptable hl).2.1]
      exact hl
  | true =>
    obtain ⟨l, rfl, h1, h2⟩ := allObjects_nosort h out ho
    have hids : (l.map Prod.snd).map getID = amKeys l := by
      rw [amKeys, List.map_map]
      refine List.map_congr_left fun e he => ?_
      exact (latest_acceptable ((h2 e.1 e.2).1 he)).2.1
    refine ⟨l.map Prod.snd, by rw [List.map_map]; rfl, by rw [hids]; exact h1, fun id a => ?_⟩
    rw [c01_get_latest, ← h2]
    constructor
    · intro hm
      exact ⟨List.mem_map.2 ⟨_, hm, rfl⟩, (latest_acceptable ((h2 _ _).1 hm)).2.1⟩
    · rintro ⟨ha, rfl⟩
      obtain ⟨⟨k, a'⟩, he, rfl⟩ := List.mem_map.1 ha
      have := (latest_acceptable ((h2 _ _).1 he)).2.1
      simp only at this ⊢
      rw [this]
      exact he

/-- A history of acceptable objects with distinct ids is its own listing. -/
theorem listing_self (h : List α) (ha : ∀ a ∈ h, Acceptable a) (hn : (h.map getID).Nodup) :
    Listing h (h.map getID) (h.map some) where
  nodup := hn
  ordered := by
    have key : ∀ l pre : List α, h = pre ++ l → (l.map getID).Pairwise (FirstBefore h) := by
      intro l
      induction l with
      | nil => intro pre _; exact .nil
      | cons a l ih =>
        intro pre e
        rw [List.map_cons, List.pairwise_cons]
        refine ⟨?_, ih (pre ++ [a]) (by rw [e]; simp)⟩
        intro id hid
        obtain ⟨b, hb, rfl⟩ := List.mem_map.1 hid
        refine ⟨pre ++ [a], l, by rw [e]; simp, ⟨a, by simp, ha a (by rw [e]; simp), rfl⟩, ?_,
          b, hb, ha b (by rw [e]; simp [hb]), rfl⟩
        intro o ho _ heq
        have e' : h = (pre ++ [a]) ++ l := by rw [e]; simp
        rw [e', List.map_append, List.nodup_append] at hn
        exact hn.2.2 _ (List.mem_map_of_mem ho) _ (List.mem_map_of_mem hb) heq
    exact key h [] rfl
  complete := by
    intro id
    simp only [List.mem_map]
    exact ⟨fun ⟨a, h1, h2⟩ => ⟨a, h1, ha a h1, h2⟩, fun ⟨a, h1, _, h2⟩ => ⟨a, h1, h2⟩⟩
  entries := by
    rw [List.forall₂_map_left_iff, List.forall₂_map_right_iff, List.forall₂_same]
    intro a hm
    refine ⟨a, rfl, ?_⟩
    obtain ⟨b, c, rfl⟩ := List.append_of_mem hm
    refine ⟨b, c, rfl, ha a hm, rfl, fun p hp e => ?_⟩
    rw [List.map_append, List.map_cons, List.nodup_append, List.nodup_cons] at hn
    exact absurd (List.mem_map.2 ⟨p, hp, e⟩) hn.2.1.1

/-- `Get` on a collection of acceptable objects with distinct ids. -/
theorem get_self (ns : Bool) (h : List α) (ha : ∀ a ∈ h, Acceptable a) (hn : (h.map getID).Nodup)
    (id : Str) (a : α) : ((Coll.new ns).addAll h).get id = some a ↔ a ∈ h ∧ getID a = id := by
  rw [c01_get_latest]
  constructor
  · intro hl
    obtain ⟨-, h1, h2⟩ := latest_acceptable hl
    exact ⟨h2, h1⟩
  · rintro ⟨hm, rfl⟩
    obtain ⟨b, c, rfl⟩ := List.append_of_mem hm
    refine ⟨b, c, rfl, ha a hm, rfl, fun p hp e => ?_⟩
    rw [List.map_append, List.map_cons, List.nodup_append, List.nodup_cons] at hn
    exact absurd (List.mem_map.2 ⟨p, hp, e⟩) hn.2.1.1

end

variable {F : Canon.FloatFmt} {U : Type} [UserType U]

omit [UserType U] in
theorem noSort_iff (opts : List (CollOption U)) :
    (Config.new opts).noSort = true ↔ .noSort ∈ opts := by
  induction opts using List.reverseRecOn with
  | nil => simp [Config.new]
  | append_singleton opts o ih =>
    rw [Config.new_snoc]
    cases o <;> simp [Config.apply, ih]

/-- The encodings of the objects, in order; nil is written as `null`. -/
def Encodings (F : Canon.FloatFmt) (objs : List (Option (Any U))) (js : List Json) : Prop :=
  List.Forall₂ (fun o j => o = none ∧ j = .null ∨ ∃ a, o = some a ∧ marshalAny F a = some j) objs js

theorem bundleObjects_ok (objs : List (Option (Any U))) (js : List Json) :
    bundleObjects F objs = .ok js ↔ Encodings F objs js := by
  unfold Encodings
  induction objs generalizing js with
  | nil =>
    simp only [bundleObjects, Res.ok.injEq]
    constructor
    · rintro rfl; exact .nil
    · intro h; cases h; rfl
  | cons o objs ih =>
    cases o with
    | none =>
      simp only [bundleObjects, Res.bind_ok_iff, Res.ok.injEq]
      constructor
      · rintro ⟨js', h, rfl⟩
        exact .cons (.inl ⟨rfl, rfl⟩) ((ih _).1 h)
      · intro h
        cases h with
        | cons h1 h2 =>
          rcases h1 with ⟨-, rfl⟩ | ⟨a, h, -⟩
          · exact ⟨_, (ih _).2 h2, rfl⟩
          · simp at h
    | some a =>
      simp only [bundleObjects]
      cases hm : marshalAny F a with
      | none =>
        simp only
        constructor
        · intro h; split at h <;> simp at h
        · intro h
          cases h with
          | cons h1 h2 =>
            rcases h1 with ⟨h, -⟩ | ⟨a', h, h'⟩
            · simp at h
            · obtain rfl := Option.some.inj h
              rw [hm] at h'
              simp at h'
      | some j =>
        simp only [Res.bind_ok_iff, Res.ok.injEq]
        constructor
        · rintro ⟨js', h, rfl⟩
          exact .cons (.inr ⟨a, rfl, hm⟩) ((ih _).1 h)
        · intro h
          cases h with
          | cons h1 h2 =>
            rcases h1 with ⟨h, -⟩ | ⟨a', h, h'⟩
            · simp at h
            · obtain rfl := Option.some.inj h
              rw [hm] at h'
              obtain rfl := Option.some.inj h'
              exact ⟨_, (ih _).2 h2, rfl⟩

theorem bundleObjects_total (objs : List (Option (Any U)))
    (h : ∀ a, some a ∈ objs → (marshalAny F a).isSome = true) : ∃ js, bundleObjects F objs = .ok js := by
  induction objs with
  | nil => exact ⟨[], rfl⟩
  | cons o objs ih =>
    obtain ⟨js, hj⟩ := ih fun a ha => h a (by simp [ha])
    cases o with
    | none => exact ⟨.null :: js, by simp [bundleObjects, hj, Res.bind]⟩
    | some a =>
      obtain ⟨j, h1⟩ := Option.isSome_iff_exists.1 (h a (by simp))
      exact ⟨j :: js, by simp [bundleObjects, h1, hj, Res.bind]⟩

theorem bundleObjects_noPanic (objs : List (Option (Any U)))
    (h : ∀ a, some a ∈ objs → a.idPanics = false) : bundleObjects F objs ≠ .panic := by
  induction objs with
  | nil => simp [bundleObjects]
  | cons o objs ih =>
    have := ih fun a ha => h a (by simp [ha])
    cases o with
    | none =>
      simp only [bundleObjects]
      cases hb : bundleObjects F objs <;> simp_all [Res.bind]
    | some a =>
      simp only [bundleObjects]
      cases marshalAny F a with
      | none => simp [h a (by simp)]
      | some j =>
        simp only
        cases hb : bundleObjects F objs <;> simp_all [Res.bind]

theorem idPanics_of (a : Any U) (h : a.panics = false) : a.idPanics = false := by
  cases a with
  | lib o => rfl
  | custom m =>
    simp only [Any.panics, Any.idPanics] at *
    cases hc : customText m (b!"id") <;> simp_all
  | user u x => exact h

/-- The fields of a bundle. -/
def bundleFields (rnd : List UInt8) (js : List Json) : Str → GV := fun x =>
  if x = b!"Type" then .str TypeBundle
  else if x = b!"ID" then .str (newIdentifier rnd TypeBundle)
  else if x = b!"Objects" then .slice (some (js.map .raw))
  else default

theorem newBundle_eq (rnd : List UInt8) (objs : List (Option (Any U))) :
    newBundle F rnd objs = (bundleObjects F objs).bind fun js => .ok (.struct (bundleFields rnd js)) :=
  rfl

/-- The JSON of a bundle. -/
def bundleDoc (rnd : List UInt8) (js : List Json) : Json :=
  .obj ([(b!"type", .ofStr TypeBundle), (b!"id", .ofStr (newIdentifier rnd TypeBundle))] ++
    if js = [] then [] else [(b!"objects", .arr js)])

theorem allSome_raw (js : List Json) : allSome (enc F .raw) (js.map .raw) = some js := by
  induction js with
  | nil => rfl
  | cons j js ih => simp [allSome, enc, ih]

theorem enc_bundle (rnd : List UInt8) (js : List Json) :
    enc F tyBundle (.struct (bundleFields rnd js)) = some (bundleDoc rnd js) := by
  have e1 : bundleFields rnd js (b!"Type") = .str TypeBundle := rfl
  have e2 : bundleFields rnd js (b!"ID") = .str (newIdentifier rnd TypeBundle) := rfl
  have e3 : bundleFields rnd js (b!"Objects") = .slice (some (js.map .raw)) := rfl
  have hf : fieldsBundle = .cons (b!"Type") (b!"type") false (.str (b!"STIXType"))
    (.cons (b!"ID") (b!"id") false (.str (b!"Identifier"))
      (.cons (b!"Objects") (b!"objects") true (.slice .raw) .nil)) := rfl
  rw [tyBundle, hf]
  simp only [enc, encFields, e1, e2, e3, bundleDoc, allSome_raw]
  cases js <;> simp [isEmptyValue]

end Stix
