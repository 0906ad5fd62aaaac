import Verif.Spec.Accept
import Verif.Lemmas.Fate
import Verif.Lemmas.Standard

/-!
# What the standard allows is taken
-/

namespace Stix
open Stix.Spec

variable {F : Canon.FloatFmt}

mutual
/-- What the standard says is read as a value of the Go type. -/
def accepts : Ty → STy → Bool
  | .str _, .text | .bool, .boolean | .int _, .integer | .flt, .number | .enum _, .text | .bin, .binary
  | .time, .time => true
  | .slice t, .list u => accepts t u
  | .map _ _ t, .dict u => accepts t u
  | .ptr t, u => accepts t u
  | .struct _ fs, .object ps => acceptsFields fs ps
  | .dyn, _ => true
  | .ext ks, .exts es => acceptsKnown ks es
  | .raw, _ => true
  | _, _ => false

/-- Every field of the struct. -/
def acceptsFields : Fields → Props → Bool
  | .nil, _ => true
  | .cons _ k _ t rest, ps => decide (∀ c ∈ k, NameChar c) &&
    (match amLookup k ps with
    | some p => accepts t p.2
    | none => false) && acceptsFields rest ps

/-- Every extension. -/
def acceptsKnown : Known → List (Str × Props) → Bool
  | .nil, _ => true
  | .cons k _ fs rest, es =>
    (match amLookup k es with
    | some ps => acceptsFields fs ps
    | none => false) && acceptsKnown rest es
end

theorem foldName_plain : ∀ {k : Str}, (∀ c ∈ k, NameChar c) → foldName k = k
  | [], _ => rfl
  | c :: r, h => by
    have hc := h c (by simp)
    have hr : foldName r = r := foldName_plain fun x hx => h x (by simp [hx])
    unfold NameChar at hc
    unfold foldName
    split
    · next e => cases e
    · next e => cases e; exact absurd hc (by decide)
    · next e => cases e; exact absurd hc (by decide)
    · next e =>
      cases e
      rw [hr, if_neg]
      intro ⟨h1, h2⟩
      simp only [UInt8.le_iff_toNat_le] at *
      rcases hc with hc | hc | hc
      · simp at *; omega
      · simp at *; omega
      · subst hc; revert h2; decide

theorem same_plain {a b : Str} (ha : ∀ c ∈ a, NameChar c) (hb : ∀ c ∈ b, NameChar c) (h : SameUpToCase a b) :
    a = b := by
  rw [SameUpToCase, foldName_plain ha, foldName_plain hb] at h
  exact h

theorem inOrder_taken : ∀ {l : List Fate}, (∀ f ∈ l, f = .taken) → inOrder l = .taken
  | [], _ => rfl
  | f :: l, h => by
    rw [h f (by simp), inOrder]
    exact inOrder_taken fun g hg => h g (by simp [hg])

theorem inOrder_map_taken {α} {l : List α} {φ : α → Fate} (h : ∀ x ∈ l, φ x = .taken) :
    inOrder (l.map φ) = .taken :=
  inOrder_taken fun f hf => by
    obtain ⟨x, hx, rfl⟩ := List.mem_map.1 hf
    exact h x hx

theorem tooLarge_elem : ∀ {l : List Json} {j : Json}, j ∈ l → TooLarge F j → TooLargeIn F l
  | x :: l, j, hj, h => by
    rcases List.mem_cons.1 hj with rfl | hj
    · exact .inl h
    · exact .inr (tooLarge_elem hj h)

theorem tooLarge_value : ∀ {l : List (Str × Json)} {e : Str × Json}, e ∈ l → TooLarge F e.2 → TooLargeMember F l
  | (_, _) :: l, e, hj, h => by
    rcases List.mem_cons.1 hj with rfl | hj
    · exact .inl h
    · exact .inr (tooLarge_value hj h)

theorem mem_of_member : ∀ {ms : List (Str × Json)} {k : Str} {v : Json}, member k ms = some v → (k, v) ∈ ms
  | [], _, _, h => by cases h
  | (k', j) :: ms, k, v, h => by
    rw [member] at h
    split at h
    · next e => cases h; exact List.mem_cons_of_mem _ (mem_of_member e)
    · split at h
      · next e => cases h; subst e; simp
      · cases h

theorem base64Text_base64 (b : Str) : Base64Text (base64 b) b := by
  refine (c26_reads_base64 (base64 b) _ b).1 ?_
  rw [← (c26_standard_base64 b).1]
  exact c26_round_trip _

theorem int64_of_safe {s : Str} (h : SafeInteger s) : Int64Text s := by
  obtain ⟨ds, i, h1, h2, h3, h4, h5⟩ := h
  exact ⟨ds, i, h1, h2, h3, by omega, by omega⟩

theorem valid_of_plain {raw dec : Str} (h : PlainTimestamp raw dec) :
    ∃ x : Stamp, x.Valid ∧ x.zone.Within 24 60 ∧ x.Loose raw := by
  obtain ⟨rfl, x, hx, hs, e⟩ := h
  refine ⟨x, ⟨hx.year, hx.month, hx.day, hx.hour, hx.minute, hs, hx.fraction⟩, ?_, two x.hour, 46, .inl rfl, .inl rfl, e⟩
  rw [hx.zone]
  trivial

mutual
theorem takes_taken : ∀ {t : Ty} {u : STy} {j : Json}, accepts t u = true → Stated PlainTimestamp u j →
    ¬ TooLarge F j → fate F t j = .taken
  | .str _, u, j, ht, hs, hl => by
    cases u <;> simp only [accepts, Bool.false_eq_true] at ht
    cases hs; rfl
  | .bool, u, j, ht, hs, hl => by
    cases u <;> simp only [accepts, Bool.false_eq_true] at ht
    cases hs; rfl
  | .int _, u, j, ht, hs, hl => by
    cases u <;> simp only [accepts, Bool.false_eq_true] at ht
    cases hs with | integer s h => exact takenIf_true (int64_of_safe h)
  | .flt, u, j, ht, hs, hl => by
    cases u <;> simp only [accepts, Bool.false_eq_true] at ht
    cases hs with | number s => exact takenIf_true hl
  | .enum e, u, j, ht, hs, hl => by
    cases u <;> simp only [accepts, Bool.false_eq_true] at ht
    cases hs; cases e <;> rfl
  | .bin, u, j, ht, hs, hl => by
    cases u <;> simp only [accepts, Bool.false_eq_true] at ht
    cases hs; exact takenIf_true ⟨_, base64Text_base64 _⟩
  | .time, u, j, ht, hs, hl => by
    cases u <;> simp only [accepts, Bool.false_eq_true] at ht
    cases hs with | time raw dec h => exact takenIf_true (valid_of_plain h)
  | .slice t, u, j, ht, hs, hl => by
    cases u <;> simp only [accepts, Bool.false_eq_true] at ht
    cases hs with
    | list _ l h =>
      rw [fate]
      exact inOrder_map_taken fun x hx => takes_taken ht (h x hx) fun hh => hl (tooLarge_elem hx hh)
  | .map _ _ t, u, j, ht, hs, hl => by
    cases u <;> simp only [accepts, Bool.false_eq_true] at ht
    cases hs with
    | dict _ m h =>
      rw [fate]
      exact inOrder_map_taken fun x hx => takes_taken ht (h x hx) fun hh => hl (tooLarge_value hx hh)
  | .ptr t, u, j, ht, hs, hl => by
    rw [accepts] at ht
    cases j <;> first | rfl | (rw [fate]; exact takes_taken ht hs hl; simp)
  | .struct _ fs, u, j, ht, hs, hl => by
    cases u <;> simp only [accepts, Bool.false_eq_true] at ht
    cases hs with
    | object ps m h1 h2 h3 =>
      rw [fate]
      exact inOrder_map_taken fun x hx => takesFields_taken ht (h1 x hx) (fun p hp => h2 x hx p hp)
        fun hh => hl (tooLarge_value hx hh)
  | .dyn, u, j, ht, hs, hl => by rw [fate]; exact takenIf_true hl
  | .ext ks, u, j, ht, hs, hl => by
    cases u <;> simp only [accepts, Bool.false_eq_true] at ht
    cases hs with
    | exts es m h1 h2 =>
      have hk : ∀ k v, member k m = some v → fateExtension F ks k v = .taken := fun k v h => by
        have hm := mem_of_member h
        exact takesKnown_taken ht (h1 _ hm) (h2 _ hm) fun hh => hl (tooLarge_value hm hh)
      have hne : ∀ f, f ≠ .taken → ¬ ∃ k v, member k m = some v ∧ fateExtension F ks k v = f := by
        rintro f hf ⟨k, v, h, rfl⟩
        exact hf (hk k v h)
      rw [fate, together, if_neg (hne _ (by simp)), if_neg]
      rintro (h | h)
      · exact hne _ (by simp) h
      · exact hne _ (by simp) h
  | .raw, u, j, ht, hs, hl => by rw [fate]

theorem takesFields_taken : ∀ {fs : Fields} {ps : Props} {k : Str} {j : Json}, acceptsFields fs ps = true →
    (∀ c ∈ k, NameChar c) → (∀ p, amLookup k ps = some p → Stated PlainTimestamp p.2 j) → ¬ TooLarge F j →
    fateMember F fs k j = .taken
  | .nil, _, _, _, _, _, _, _ => rfl
  | .cons _ k' _ t rest, ps, k, j, ht, hk, hs, hl => by
    rw [acceptsFields, Bool.and_eq_true, Bool.and_eq_true, decide_eq_true_eq] at ht
    obtain ⟨⟨h1, h2⟩, h3⟩ := ht
    rw [fateMember]
    by_cases h : SameUpToCase k k'
    · rw [if_pos h]
      obtain rfl := same_plain hk h1 h
      split at h2
      · next p hp => exact takes_taken h2 (hs p hp) hl
      · cases h2
    · rw [if_neg h]
      exact takesFields_taken h3 hk hs hl

theorem takesKnown_taken : ∀ {ks : Known} {es : List (Str × Props)} {k : Str} {j : Json}, acceptsKnown ks es = true →
    (∃ ms, j = .obj ms) → (∀ ps, amLookup k es = some ps → Stated PlainTimestamp (.object ps) j) → ¬ TooLarge F j →
    fateExtension F ks k j = .taken
  | .nil, _, _, _, _, ⟨ms, e⟩, _, hl => by
    subst e
    rw [fateExtension]
    exact takenIf_true hl
  | .cons k' _ fs rest, es, k, j, ht, ⟨ms, e⟩, hs, hl => by
    rw [acceptsKnown, Bool.and_eq_true] at ht
    obtain ⟨h2, h3⟩ := ht
    subst e
    rw [fateExtension]
    by_cases h : k = k'
    · rw [if_pos h]
      subst h
      split at h2
      · next ps hp =>
        cases hs ps hp with
        | object ps m h1 h2' h3 =>
          exact inOrder_map_taken fun x hx => takesFields_taken h2 (h1 x hx) (fun p hp => h2' x hx p hp)
            fun hh => hl (tooLarge_value hx hh)
      · cases h2
    · rw [if_neg h]
      exact takesKnown_taken h3 ⟨ms, rfl⟩ hs hl
end

theorem standard_takes : ∀ e ∈ standard, ∀ g ∈ goTypes, g.1 = e.1 →
    acceptsFields (mkFields (objFields g.2)) e.2 = true := by decide +kernel

theorem standard_types : ∀ e ∈ standard, e.1 ≠ [] ∧ (¬ HasDD (e.1 ++ b!"-")) ∧ ∃ g ∈ goTypes, g.1 = e.1 := by
  unfold HasDD
  decide +kernel

theorem goTypes_standard : ∀ g ∈ goTypes, g.1 ∈ amKeys standard := by decide +kernel

theorem textFor_none {k n : Str} {j : Json} (h : ¬ SameUpToCase n k) : textFor k n j = none := by
  cases j <;> simp [textFor, h]

theorem lastText_none {k : Str} : ∀ {ms : List (Str × Json)}, (∀ e ∈ ms, ¬ SameUpToCase e.1 k) → lastText k ms = none
  | [], _ => rfl
  | (n, j) :: ms, h => by
    rw [lastText, lastText_none fun e he => h e (by simp [he]), textFor_none (h (n, j) (by simp))]
    rfl

theorem lastText_own {k : Str} (hk : ∀ c ∈ k, NameChar c) {x raw : Str} : ∀ {ms : List (Str × Json)}, (∀ e ∈ ms, ∀ c ∈ e.1, NameChar c) →
    (amKeys ms).Nodup → member k ms = some (.str raw x) → lastText k ms = some x
  | [], _, _, h => by cases h
  | (n, j) :: ms, h1, h2, h => by
    simp only [amKeys, List.map_cons, List.nodup_cons] at h2
    have h1' : ∀ e ∈ ms, ∀ c ∈ e.1, NameChar c := fun e he => h1 e (by simp [he])
    rw [member] at h
    rw [lastText]
    split at h
    · next e =>
      cases h
      rw [lastText_own hk h1' h2.2 e]
      rfl
    · split at h
      · next e =>
        cases h
        subst e
        rw [lastText_none fun e he hs => h2.1 ?_]
        · simp [textFor, SameUpToCase]
        · rw [← same_plain (h1' e he) hk hs]
          exact List.mem_map_of_mem he
      · cases h

theorem element_taken {t id : Str} {j : Json} {drop : Prop} {before : List Json} (h : StixElement PlainTimestamp t id j)
    (hl : ¬ TooLarge F j) : Taken F drop before j := by
  cases h with
  | @known ps ms u hps hs hn ht hid hu e =>
    obtain ⟨h1, h2, ⟨t', s⟩, hg, e'⟩ := standard_types _ hps
    simp only at e'
    subst e'
    cases hs with
    | object _ _ k1 k2 k3 =>
      obtain ⟨v, ⟨_, e1, hv⟩, raw, rfl⟩ := ht
      obtain ⟨v', ⟨_, e2, hv'⟩, raw', rfl⟩ := hid
      cases e1
      cases e2
      refine .known hl (.own ⟨_, ⟨_, rfl, hv⟩, raw, rfl⟩) hg (inOrder_map_taken fun x hx =>
        takesFields_taken (standard_takes _ hps _ hg rfl) (k1 x hx) (fun p hp => k2 x hx p hp)
          fun hh => hl (tooLarge_value hx hh)) (lastText_own (by decide) k1 hn hv) (lastText_own (by decide) k1 hn hv') ?_
      exact ⟨h1, h2, u, .inl hu, e⟩
  | @custom ms u hns hne htp hn ht hid hu e =>
    have hg : ∀ s, (t, s) ∉ goTypes := fun s hs => hns (goTypes_standard _ hs)
    by_cases hd : drop
    · exact .dropped hl (.own ht) hg hd
    · exact .custom hl ht hg hd hid ⟨hne, htp, u, .inl hu, e⟩

end Stix
