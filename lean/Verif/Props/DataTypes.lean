import Verif.Model.DataTypes
import Verif.Lemmas.Codec

/-!
# External references and kill chain phases (C48)
-/

namespace Stix
open Spec Spec.Canon Canon

/-- Field of a struct behind a pointer. -/
def fieldOf (v : GV) (name : Str) : GV :=
  match v with
  | .ptr (some (.struct f)) => f name
  | _ => default

/-- **C48.** `NewExternalReference` succeeds exactly when there is a name and one of description,
URL and external id. -/
theorem c48_reference_ok_iff (name description url externalID : Str)
    (hashes : Option (List (Str × Str))) :
    (∃ v, newExternalReference name description url externalID hashes = .ok v) ↔
      name ≠ [] ∧ (description ≠ [] ∨ url ≠ [] ∨ externalID ≠ []) := by
  unfold newExternalReference
  by_cases h1 : name = []
  · simp [h1]
  · by_cases h2 : description = [] ∧ url = [] ∧ externalID = []
    · simp [h1, h2]
    · rw [if_neg h1, if_neg h2]
      simp only [Res.ok.injEq, exists_eq', true_iff]
      refine ⟨h1, ?_⟩
      by_contra hc
      push Not at hc
      exact h2 hc

/-- **C48.** Otherwise it reports a missing property. -/
theorem c48_reference_error (name description url externalID : Str)
    (hashes : Option (List (Str × Str)))
    (h : ¬ (name ≠ [] ∧ (description ≠ [] ∨ url ≠ [] ∨ externalID ≠ []))) :
    newExternalReference name description url externalID hashes = .err .propertyMissing := by
  rw [← c48_reference_ok_iff name description url externalID hashes] at h
  unfold newExternalReference at h ⊢
  split
  · rfl
  · split
    · rfl
    · next h1 h2 => rw [if_neg h1, if_neg h2] at h; exact absurd ⟨_, rfl⟩ h

/-- **C48.** On success the reference has exactly the arguments. -/
theorem c48_reference_carries (name description url externalID : Str)
    (hashes : Option (List (Str × Str))) (v : GV)
    (h : newExternalReference name description url externalID hashes = .ok v) :
    fieldOf v (b!"Name") = .str name ∧ fieldOf v (b!"Description") = .str description ∧
      fieldOf v (b!"URL") = .str url ∧ fieldOf v (b!"ExternalID") = .str externalID ∧
      fieldOf v (b!"Hashes") = .map (hashes.map fun m => m.map fun e => (e.1, .str e.2)) := by
  unfold newExternalReference at h
  split at h
  · simp at h
  · split at h
    · simp at h
    · simp only [Res.ok.injEq] at h
      subst h
      exact ⟨rfl, rfl, rfl, rfl, rfl⟩

/-- **C48.** `NewKillChainPhase` succeeds exactly when both arguments are non-empty, with exactly
them. -/
theorem c48_phase (name phase : Str) :
    (name ≠ [] ∧ phase ≠ [] → ∃ v, newKillChainPhase name phase = .ok v ∧
      fieldOf v (b!"Name") = .str name ∧ fieldOf v (b!"Phase") = .str phase) ∧
    (¬ (name ≠ [] ∧ phase ≠ []) → newKillChainPhase name phase = .err .propertyMissing) := by
  constructor
  · rintro ⟨h1, h2⟩
    refine ⟨_, if_neg (by simp [h1, h2]), rfl, rfl⟩
  · intro h
    unfold newKillChainPhase
    rw [if_pos]
    by_contra hc
    push Not at hc
    exact h hc

/-- A carriable value that a round trip leaves alone. -/
theorem res_ok_of {F : FloatFmt} {t : Ty} {v : GV} (hs : t.sane = true) (L : FloatLaws F)
    (h : Carriable t v) (hv : settled t v = v) :
    ∃ j, enc F t v = some j ∧ (dec F t (zero t) j).res = .ok v := by
  obtain ⟨j, h1, h2⟩ := codec_round_trip L t v hs h
  exact ⟨j, h1, by rw [h2, hv]; rfl⟩

/-- **C48 (what holds).** A reference whose strings are Unicode text, and whose hashes are absent
or non-empty, is written as JSON that is parsed back to the same reference. -/
theorem c48_reference_round_trip_partial {F : FloatFmt} (L : FloatLaws F)
    (name description url externalID : Str) (hashes : Option (List (Str × Str))) (v : GV)
    (h : newExternalReference name description url externalID hashes = .ok v)
    (hu : Unicode name ∧ Unicode description ∧ Unicode url ∧ Unicode externalID)
    (hh : hashes ≠ some []) (hm : ∀ m, hashes = some m → SortedKeys m ∧ ∀ e ∈ m, Unicode e.1 ∧ Unicode e.2) :
    ∃ j, enc F tyExternalReference v = some j ∧ parseExternalReference F j = .ok v := by
  have hc := h
  unfold newExternalReference at h
  split at h
  · simp at h
  · split at h
    · simp at h
    · simp only [Res.ok.injEq] at h
      subst h
      refine res_ok_of (by decide +kernel) L ?_ ?_
      · simp only [Carriable, tyExternalReference, Val]
        refine Or.inr ⟨_, rfl, _, rfl, ?_⟩
        rw [valFields_iff]
        simp only [fieldsExternalReference, toList_mkFields, List.mem_cons, List.not_mem_nil, or_false,
          forall_eq_or_imp, forall_eq]
        refine ⟨?_, ?_, ?_, ?_, ?_⟩
        · simp only [Val]; exact ⟨name, rfl, hu.1⟩
        · simp only [Val]; exact ⟨description, rfl, hu.2.1⟩
        · simp only [Val]; exact ⟨url, rfl, hu.2.2.1⟩
        · simp only [Val]
          cases hashes with
          | none => exact Or.inl rfl
          | some m =>
            obtain ⟨hs, he⟩ := hm m rfl
            refine Or.inr ⟨_, rfl, ?_, ?_⟩
            · exact List.pairwise_map.2 hs
            · intro e hmem
              obtain ⟨e', he', rfl⟩ := List.mem_map.1 hmem
              exact ⟨(he e' he').1, _, rfl, (he e' he').2⟩
        · simp only [Val]; exact ⟨externalID, rfl, hu.2.2.2⟩
      · simp only [tyExternalReference, settled, fieldsExternalReference, mkFields]
        congr 3
        funext x
        simp only [settledFields, settled, Blank, zero]
        by_cases h1 : x = b!"Name"
        · simp [h1]
        · by_cases h2 : x = b!"Description"
          · subst h2
            cases description <;> simp
          · by_cases h3 : x = b!"URL"
            · subst h3
              cases url <;> simp
            · by_cases h4 : x = b!"Hashes"
              · subst h4
                match hashes, hh with
                | none, _ => simp
                | some [], hh => exact absurd rfl hh
                | some (e :: m), _ => simp
              · by_cases h5 : x = b!"ExternalID"
                · subst h5
                  cases externalID <;> simp
                · simp [h1, h2, h3, h4, h5]

/-- **C48 (what holds).** A kill chain phase of Unicode text is written as JSON that is parsed back
to the same phase. -/
theorem c48_phase_round_trip_partial {F : FloatFmt} (L : FloatLaws F) (name phase : Str) (v : GV)
    (h : newKillChainPhase name phase = .ok v) (hn : Unicode name) (hp : Unicode phase) :
    ∃ j, enc F tyKillChainPhase v = some j ∧ parseKillChainPhase F j = .ok v := by
  unfold newKillChainPhase at h
  split at h
  · simp at h
  · simp only [Res.ok.injEq] at h
    subst h
    refine res_ok_of (by decide +kernel) L ?_ ?_
    · simp only [Carriable, tyKillChainPhase, Val]
      refine Or.inr ⟨_, rfl, _, rfl, ?_⟩
      rw [valFields_iff]
      simp only [fieldsKillChainPhase, toList_mkFields, List.mem_cons, List.not_mem_nil, or_false,
        forall_eq_or_imp, forall_eq]
      refine ⟨?_, ?_⟩
      · simp only [Val]; exact ⟨name, rfl, hn⟩
      · simp only [Val]; exact ⟨phase, rfl, hp⟩
    · simp only [tyKillChainPhase, settled, fieldsKillChainPhase, mkFields]
      congr 3

/-- **C48 fails as stated.** A name that is not Unicode text is changed: the byte FF comes back as
U+FFFD. -/
theorem c48_not_text (F : FloatFmt) : ∃ v j, newKillChainPhase [0xFF] (b!"x") = .ok v ∧
    enc F tyKillChainPhase v = some j ∧ ∃ w, parseKillChainPhase F j = .ok w ∧
    fieldOf w (b!"Name") = .str [0xEF, 0xBF, 0xBD] ∧ fieldOf v (b!"Name") = .str [0xFF] :=
  ⟨_, .obj [(b!"kill_chain_name", .ofStr [0xFF]), (b!"phase_name", .ofStr (b!"x"))],
    rfl, rfl, _, rfl, rfl, rfl⟩

/-- **C48 fails as stated.** Empty hashes that are not nil come back nil. -/
theorem c48_empty_hashes (F : FloatFmt) : ∃ v j,
    newExternalReference (b!"n") (b!"d") [] [] (some []) = .ok v ∧
    enc F tyExternalReference v = some j ∧ ∃ w, parseExternalReference F j = .ok w ∧
    fieldOf w (b!"Hashes") = .map none ∧ fieldOf v (b!"Hashes") = .map (some []) :=
  ⟨_, .obj [(b!"source_name", .ofStr (b!"n")), (b!"description", .ofStr (b!"d"))],
    rfl, rfl, _, rfl, rfl, rfl⟩

/-- Non-vacuity for C48. -/
example : ∃ v, newExternalReference (b!"veris") [] (b!"https://x.example/") [] (some [(b!"SHA-256", b!"00")]) = .ok v ∧
    Unicode (b!"veris") ∧ SortedKeys [(b!"SHA-256", b!"00")] :=
  ⟨_, rfl, ⟨['v', 'e', 'r', 'i', 's'], by decide⟩, by simp [SortedKeys]⟩

end Stix
