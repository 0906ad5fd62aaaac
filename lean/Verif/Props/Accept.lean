import Verif.Lemmas.Accept
import Verif.Props.Leftover

/-!
# What STIX 2.1 allows is accepted (C84)
-/

namespace Stix
open Spec StixObject Stix.Canon Stix.Props.Canon

variable {F : Canon.FloatFmt} {U : Type} [UserType U]

theorem own_value {ms : List (Str × Json)} (hn : (amKeys ms).Nodup) {k : Str} {v : Json} (h : member k ms = some v)
    {e : Str × Json} (he : e ∈ ms) (hk : e.1 = k) : e.2 = v := by
  have hm := mem_of_member h
  subst hk
  exact (List.pairwise_iff_getElem.1 (List.nodup_iff_pairwise_ne.1 hn) |> fun hp => by
    obtain ⟨i, hi, e1⟩ := List.mem_iff_getElem.1 he
    obtain ⟨i', hi', e2⟩ := List.mem_iff_getElem.1 hm
    have hl : ∀ x, x < ms.length → x < (amKeys ms).length := fun x hx => by simpa [amKeys] using hx
    rcases Nat.lt_trichotomy i i' with hlt | heq | hlt
    · exact absurd (by simp [amKeys, e1, e2]) (hp i i' (hl i hi) (hl i' hi') hlt)
    · subst heq; rw [e1] at e2; rw [e2]
    · exact absurd (by simp [amKeys, e1, e2]) (hp i' i (hl i' hi') (hl i hi) hlt))

theorem no_member_named : ∀ {ms : List (Str × Json)} {k : Str}, member k ms = none → ∀ e ∈ ms, e.1 ≠ k
  | (k', j) :: ms, k, h, e, he => by
    rw [member] at h
    split at h
    · cases h
    · next hn =>
      split at h
      · cases h
      · next hne =>
        rcases List.mem_cons.1 he with rfl | he
        · exact hne
        · exact no_member_named hn e he

theorem spelled_plain {a k : Str} (ha : ∀ c ∈ a, NameChar c) (hk : ∀ c ∈ k, NameChar c ∧ c < 0x80) (h : SpelledAs a k) : a = k :=
  same_plain ha (fun c hc => (hk c hc).1) ((c75_names a k fun c hc => (hk c hc).2).2 h)

theorem holds_of_stix {doc : Json} {l : List Json} (h : StixDocument doc l) : Holds doc l := by
  have text : ∀ {ms id}, (∀ e ∈ ms, ∀ c ∈ e.1, NameChar c) → (amKeys ms).Nodup → Text (.obj ms) (b!"type") (b!"bundle") →
      Text (.obj ms) (b!"id") id →
      ∀ e ∈ ms, SpelledAs e.1 (b!"type") ∨ SpelledAs e.1 (b!"id") → e.2 = .null ∨ ∃ s, IsText e.2 s := by
    rintro ms id h1 h2 ⟨v, ⟨_, e1, hv⟩, ht⟩ ⟨v', ⟨_, e2, hv'⟩, ht'⟩ e he (hs | hs)
    · cases e1
      rw [own_value h2 hv he (spelled_plain (h1 e he) (by decide) hs)]
      exact .inr ⟨_, ht⟩
    · cases e2
      rw [own_value h2 hv' he (spelled_plain (h1 e he) (by decide) hs)]
      exact .inr ⟨_, ht'⟩
  cases h with
  | array l => exact .array l
  | @bundle ms id l h1 h2 h3 h4 h5 =>
    have hobj : ∀ e ∈ ms, SpelledAs e.1 (b!"objects") → e.2 = .arr l := fun e he hs =>
      own_value h2 h5 he (spelled_plain (h1 e he) (by decide) hs)
    refine .bundle _ _ (text h1 h2 h3 h4) (fun e he hs => .inr ⟨l, hobj e he hs⟩) (.inr ?_)
    obtain ⟨b, a, e⟩ := List.append_of_mem (mem_of_member h5)
    refine ⟨b, _, _, a, e, (c75_names _ _ (by decide)).1 rfl, fun x hx hs => ?_, .inl rfl⟩
    rw [e, amKeys, List.map_append, List.map_cons, List.nodup_append, List.nodup_cons] at h2
    refine h2.2.1.1 ?_
    have := spelled_plain (h1 x (by rw [e]; simp [hx])) (by decide) hs
    simp only
    rw [← this]
    exact List.mem_map_of_mem hx
  | @empty ms id h1 h2 h3 h4 h5 =>
    have hobj : ∀ e ∈ ms, ¬ SpelledAs e.1 (b!"objects") := fun e he hs =>
      no_member_named h5 e he (spelled_plain (h1 e he) (by decide) hs)
    exact .bundle _ _ (text h1 h2 h3 h4) (fun e he hs => absurd hs (hobj e he)) (.inl ⟨hobj, rfl⟩)

/-- **C84** (all but leap seconds and escapes in timestamps).  A JSON text of a bundle or a list of
objects as STIX 2.1 allows them, no number in which is too large for a double, is accepted; and every
object in it is then found by its identifier and has its type, but for those of other types than the
standard's if these are dropped.

Missing: the same for all timestamps, see `c84_false`. -/
theorem c84_accepted_partial (opts : List (CollOption U)) (hn : NoParsers opts) (text : Str) (doc : Json) (l : List Json)
    (ht : Spec.Text.IsText 10000 text doc) (hl : StixDocument doc l)
    (he : ∀ j ∈ l, (∃ t id, StixElement PlainTimestamp t id j) ∧ ¬ TooLarge F j) :
    ∃ c, fromJSONText F opts text = .ok c ∧ ∀ j ∈ l, ∀ t id, StixElement PlainTimestamp t id j →
      (t ∈ amKeys standard ∨ CollOption.dropCustom ∉ opts) → ∃ a, c.get id = some a ∧ getID a = id ∧ getType a = t := by
  have hl' := holds_of_stix hl
  obtain ⟨c, hc⟩ := (c76_accepted (F := F) opts hn text doc l ht hl').2 fun before j after e => by
    obtain ⟨⟨t, id, h⟩, h'⟩ := he j (by simp [e])
    exact element_taken h h'
  refine ⟨c, hc, fun j hj t id hs hd => ?_⟩
  rw [c52_value opts ht] at hc
  obtain ⟨as, h1, h2, h3, h4⟩ := c77_entries opts hn doc l hl' c hc
  obtain ⟨i, hi, e⟩ := List.mem_iff_getElem.1 hj
  have hi' : i < as.length := by omega
  have hb := (h2 i j as[i] (by rw [List.getElem?_eq_getElem hi, e]) (List.getElem?_eq_getElem hi')).1
  have hid : Identifies t id := by
    cases hs with
    | known hps _ _ _ _ hu e' =>
      obtain ⟨k1, k2, -⟩ := standard_types _ hps
      exact ⟨k1, k2, _, .inl hu, e'⟩
    | custom _ k1 k2 _ _ _ hu e' => exact ⟨k1, k2, _, .inl hu, e'⟩
  have hex : ∃ x, as[i] = some x ∧ getID x = id := by
    have htext : ∃ ms raw raw', j = .obj ms ∧ member (b!"type") ms = some (.str raw t) ∧
        member (b!"id") ms = some (.str raw' id) ∧
        ((∀ e ∈ ms, ∀ c ∈ e.1, NameChar c) ∧ (amKeys ms).Nodup ∨ ∀ s, (t, s) ∉ goTypes) := by
      cases hs with
      | known hps hst hnd ht hid _ _ =>
        obtain ⟨v, ⟨_, e1, hv⟩, raw, rfl⟩ := ht
        obtain ⟨v', ⟨_, e2, hv'⟩, raw', rfl⟩ := hid
        cases e1
        cases e2
        cases hst with
        | object _ _ k1 _ _ => exact ⟨_, _, _, rfl, hv, hv', .inl ⟨k1, hnd⟩⟩
      | custom hns _ _ _ ht hid _ _ =>
        obtain ⟨v, ⟨_, e1, hv⟩, raw, rfl⟩ := ht
        obtain ⟨v', ⟨_, e2, hv'⟩, raw', rfl⟩ := hid
        cases e1
        cases e2
        exact ⟨_, _, _, rfl, hv, hv', .inr fun s hs => hns (goTypes_standard _ hs)⟩
    obtain ⟨ms, raw, raw', rfl, hty, hidm, hor⟩ := htext
    have typed : ∀ {t'}, TypedAs (CollOption.dropCustom ∈ opts) (l.take i) ms t' → t' = t := by
      rintro t' (⟨v, ⟨_, e1, hv⟩, raw, rfl⟩ | ⟨hno, -⟩)
      · cases e1
        rw [hty] at hv
        cases hv
        rfl
      · rw [hty] at hno
        cases hno
    generalize as[i] = a at hb
    cases hb with
    | untyped hno _ => rw [hty] at hno; cases hno
    | dropped h5 h6 h7 =>
      obtain rfl := typed h5
      rcases hd with hd | hd
      · obtain ⟨e, he, e'⟩ := List.mem_map.1 hd
        obtain ⟨-, -, g, hg, eg⟩ := standard_types e he
        obtain ⟨gt, gs⟩ := g
        simp only at eg e'
        subst e'
        subst eg
        exact absurd hg (h6 gs)
      · exact absurd h7 hd
    | @custom _ _ m h5 h6 h7 h8 =>
      have := (h8 (b!"id") (.str id)).2 ⟨_, hidm, _, rfl⟩
      refine ⟨_, rfl, ?_⟩
      simp [getID, customText, this]
    | @object _ _ o h5 h6 h7 h8 =>
      obtain rfl := typed h5
      rcases hor with ⟨k1, k2⟩ | hor
      · refine ⟨_, rfl, ?_⟩
        rw [lastText_own (by decide) k1 k2 hidm] at h7
        exact h7
      · exact absurd h6 (hor _)
  obtain ⟨x, ex, hx⟩ := hex
  have hmem : x ∈ as.filterMap fun a => a :=
    List.mem_filterMap.2 ⟨_, List.getElem_mem hi', ex⟩
  obtain ⟨a, ha⟩ := (exists_latest_iff (as.filterMap fun a => a) id).2 ⟨x, hmem, h4 x hmem, hx⟩
  obtain ⟨g1, g2, -⟩ := latest_acceptable ha
  refine ⟨a, (h3 id a).2 ha, g2, identifies_unique (id := id) ?_ hid⟩
  rw [Acceptable, g2] at g1
  exact g1

/-- A directory with a leap second. -/
def exLeapText : Str :=
  b!"[{\"type\":\"directory\",\"id\":\"directory--00000000-0000-4000-8000-000000000000\",\"path\":\"C\",\"ctime\":\"2016-12-31T23:59:60Z\"}]"

/-- A directory with a time that has an escape in it. -/
def exEscapedText : Str :=
  b!"[{\"type\":\"directory\",\"id\":\"directory--00000000-0000-4000-8000-000000000000\",\"path\":\"C\",\"ctime\":\"2016-12-31T23:59:5\\u0039Z\"}]"

/-- Both, by the spelling and value of the time. -/
def exDirectory (raw dec : Str) : Json :=
  .obj [(b!"type", exText (b!"directory")), (b!"id", exText (b!"directory--00000000-0000-4000-8000-000000000000")),
    (b!"path", exText (b!"C")), (b!"ctime", .str raw dec)]

theorem canonZeros : UUIDCanon (b!"00000000-0000-4000-8000-000000000000") :=
  ⟨b!"00000000", b!"0000", b!"4000", b!"8000", b!"000000000000", ⟨rfl, by decide⟩, ⟨rfl, by decide⟩, ⟨rfl, by decide⟩,
    ⟨rfl, by decide⟩, ⟨rfl, by decide⟩, rfl⟩

set_option maxRecDepth 8000 in
theorem exDirectory_element (T : Str → Str → Prop) (raw dec : Str) (h : T raw dec) :
    StixElement T (b!"directory") (b!"directory--00000000-0000-4000-8000-000000000000") (exDirectory raw dec) := by
  obtain ⟨ps, hps, h1, h2, h3, h4, h5⟩ : ∃ ps, amLookup (b!"directory") standard = some ps ∧
      amLookup (b!"type") ps = some (true, .text) ∧ amLookup (b!"id") ps = some (true, .text) ∧
      amLookup (b!"path") ps = some (true, .text) ∧ amLookup (b!"ctime") ps = some (false, .time) ∧
      ∀ p ∈ ps, p.2.1 = true → p.1 ∈ [b!"type", b!"id", b!"path"] :=
    ⟨_, rfl, rfl, rfl, rfl, rfl, by decide⟩
  refine .known (u := b!"00000000-0000-4000-8000-000000000000") (mem_of_amLookup _ _ _ hps) (.object _ _ ?_ ?_ ?_) ?_
    ⟨_, ⟨_, rfl, rfl⟩, _, rfl⟩ ⟨_, ⟨_, rfl, rfl⟩, _, rfl⟩ canonZeros rfl
  · simp only [List.forall_mem_cons, List.not_mem_nil, false_imp_iff, implies_true, and_true]
    decide
  · simp only [List.forall_mem_cons, List.not_mem_nil, false_imp_iff, implies_true, and_true, h1, h2, h3, h4,
      Option.some.injEq, forall_eq']
    exact ⟨.text _ _, .text _ _, .text _ _, .time _ _ h⟩
  · intro p hp hr
    have := h5 p hp hr
    simp only [List.mem_cons, List.not_mem_nil, or_false] at this
    rcases this with e | e | e <;> simp [amKeys, e]
  · simp only [amKeys, List.map_cons, List.map_nil]
    decide

set_option maxRecDepth 20000 in
/-- **C84** is false: a JSON text of objects as STIX 2.1 allows them is refused if a timestamp in it is a
leap second, and also if one is spelled with an escape. -/
theorem c84_false :
    (∃ l, Spec.Text.IsText 10000 exLeapText (.arr l) ∧ StixDocument (.arr l) l ∧
      (∀ j ∈ l, (∃ t id, StixElement Timestamp t id j) ∧ ¬ TooLarge toy j) ∧
      fromJSONText (U := Empty) toy [] exLeapText = .err .other) ∧
    ∃ l, Spec.Text.IsText 10000 exEscapedText (.arr l) ∧ StixDocument (.arr l) l ∧
      (∀ j ∈ l, (∃ t id, StixElement Timestamp t id j) ∧ ¬ TooLarge toy j) ∧
      fromJSONText (U := Empty) toy [] exEscapedText = .err .other := by
  constructor
  · refine ⟨[exDirectory (b!"2016-12-31T23:59:60Z") (b!"2016-12-31T23:59:60Z")], (Text.parse_iff _ _).1 rfl, .array _, ?_, rfl⟩
    simp only [List.mem_singleton, forall_eq]
    refine ⟨⟨_, _, exDirectory_element _ _ _ ⟨⟨2016, 12, 31, 23, 59, 60, [], .utc⟩, ?_, rfl⟩⟩, ?_⟩
    · constructor <;> first | rfl | decide
    · simp [exDirectory, TooLarge, TooLargeMember, exText]
  · refine ⟨[exDirectory (b!"2016-12-31T23:59:5\\u0039Z") (b!"2016-12-31T23:59:59Z")], (Text.parse_iff _ _).1 rfl, .array _, ?_, rfl⟩
    simp only [List.mem_singleton, forall_eq]
    refine ⟨⟨_, _, exDirectory_element _ _ _ ⟨⟨2016, 12, 31, 23, 59, 59, [], .utc⟩, ?_, rfl⟩⟩, ?_⟩
    · constructor <;> first | rfl | decide
    · simp [exDirectory, TooLarge, TooLargeMember, exText]

/-- A bundle of a directory and an object of another type. -/
def exBundleText : Str :=
  b!"{\"type\":\"bundle\",\"id\":\"bundle--00000000-0000-4000-8000-000000000000\",\"objects\":[{\"type\":\"directory\",\"id\":\"directory--00000000-0000-4000-8000-000000000000\",\"path\":\"C\",\"ctime\":\"2016-12-31T23:59:59.25Z\"},{\"type\":\"x-y\",\"id\":\"x-y--00000000-0000-4000-8000-000000000000\",\"n\":[1,null]}]}"

/-- The object of another type. -/
def exOtherObject : Json :=
  .obj [(b!"type", exText (b!"x-y")), (b!"id", exText (b!"x-y--00000000-0000-4000-8000-000000000000")),
    (b!"n", .arr [.num (b!"1"), .null])]

set_option maxRecDepth 8000 in
/-- The hypotheses of `c84_accepted_partial` are met by a bundle of both. -/
example : ∃ doc l, Spec.Text.IsText 10000 exBundleText doc ∧ StixDocument doc l ∧ l.length = 2 ∧
    ∀ j ∈ l, (∃ t id, StixElement PlainTimestamp t id j) ∧ ¬ TooLarge toy j := by
  refine ⟨.obj [(b!"type", exText (b!"bundle")), (b!"id", exText (b!"bundle--00000000-0000-4000-8000-000000000000")),
      (b!"objects", .arr [exDirectory (b!"2016-12-31T23:59:59.25Z") (b!"2016-12-31T23:59:59.25Z"), exOtherObject])],
    _, (Text.parse_iff _ _).1 rfl, .bundle (id := b!"bundle--00000000-0000-4000-8000-000000000000") ?_ (by decide)
      ⟨_, ⟨_, rfl, rfl⟩, _, rfl⟩ ⟨_, ⟨_, rfl, rfl⟩, _, rfl⟩ rfl, rfl, ?_⟩
  · simp only [List.forall_mem_cons, List.not_mem_nil, false_imp_iff, implies_true, and_true]
    decide
  · simp only [List.forall_mem_cons, List.not_mem_nil, false_imp_iff, implies_true, and_true]
    refine ⟨⟨⟨_, _, exDirectory_element _ _ _ ⟨rfl, ⟨2016, 12, 31, 23, 59, 59, [2, 5], .utc⟩, ?_, by decide, rfl⟩⟩, ?_⟩, ⟨b!"x-y",
      b!"x-y--00000000-0000-4000-8000-000000000000", ?_⟩, ?_⟩
    · constructor <;> first | rfl | decide
    · simp [exDirectory, TooLarge, TooLargeMember, exText]
    · refine .custom (u := b!"00000000-0000-4000-8000-000000000000") (by decide +kernel) (by decide) ?_ (by decide)
        ⟨_, ⟨_, rfl, rfl⟩, _, rfl⟩ ⟨_, ⟨_, rfl, rfl⟩, _, rfl⟩ canonZeros rfl
      unfold TypePart HasDD
      decide
    · simp only [exOtherObject, TooLarge, TooLargeMember, TooLargeIn, exText]
      decide

end Stix
