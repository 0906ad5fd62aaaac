import Verif.Lemmas.GoFloatRead
import Verif.Lemmas.TextParse

/-!
# Documents that are JSON but for their numbers (lemmas)
-/

namespace Stix.Text
open Stix Spec Spec.Canon Spec.Text

theorem scans_of_spells {body s : Str} (h : Spells body s) : Scans body := by
  induction h with
  | nil => exact .nil
  | plain h1 h2 h3 _ ih => exact .plain h1 h2 h3 ih
  | short h1 _ ih => exact .short h1 ih
  | hex _ h1 _ ih => exact .hex h1 ih
  | @pair h l body s a b c _ h1 h2 _ ih =>
    have := Scans.hex h1 (Scans.hex h2 ih)
    simpa using this
  | @broken h l body s a b _ _ _ h1 h2 _ ih =>
    have := Scans.hex h1 (Scans.hex h2 ih)
    simpa using this

mutual
theorem valid_of_wf : ∀ s : Syn, s.WF → s.value.Nums Number → ∃ s', Valid s' ∧ s'.text = s.text
  | .lit t, h, _ => ⟨.lit t, h, rfl⟩
  | .num t, _, hn => ⟨.num t, hn, rfl⟩
  | .str body dec, h, _ => ⟨.str body _, reads_unquote (scans_of_spells h), rfl⟩
  | .arr w es, h, hn => by
    obtain ⟨es', h1, h2⟩ := validElems_of_wf es h.2 hn
    exact ⟨.arr w es', ⟨h.1, h1⟩, by simp only [Syn.text, h2]⟩
  | .obj w ms, h, hn => by
    obtain ⟨ms', h1, h2⟩ := validMembers_of_wf ms h.2 hn
    exact ⟨.obj w ms', ⟨h.1, h1⟩, by simp only [Syn.text, h2]⟩

theorem validElems_of_wf : ∀ es : Elems, es.WF → listNums Number es.values →
    ∃ es', ValidElems es' ∧ es'.texts = es.texts
  | .nil, _, _ => ⟨.nil, trivial, rfl⟩
  | .cons w₁ v w₂ r, h, hn => by
    obtain ⟨v', h1, h2⟩ := valid_of_wf v h.2.1 hn.1
    obtain ⟨r', g1, g2⟩ := validElems_of_wf r h.2.2.2 hn.2
    exact ⟨.cons w₁ v' w₂ r', ⟨h.1, h1, h.2.2.1, g1⟩, by simp only [Elems.texts, h2, g2]⟩

theorem validMembers_of_wf : ∀ ms : Members, ms.WF → membersNums Number ms.values →
    ∃ ms', ValidMembers ms' ∧ ms'.texts = ms.texts
  | .nil, _, _ => ⟨.nil, trivial, rfl⟩
  | .cons w₁ body dec w₂ w₃ v w₄ r, h, hn => by
    obtain ⟨v', h1, h2⟩ := valid_of_wf v h.2.2.2.2.1 hn.1
    obtain ⟨r', g1, g2⟩ := validMembers_of_wf r h.2.2.2.2.2.2 hn.2
    exact ⟨.cons w₁ body _ w₂ w₃ v' w₄ r',
      ⟨h.1, reads_unquote (scans_of_spells h.2.1), h.2.2.1, h.2.2.2.1, h1, h.2.2.2.2.2.1, g1⟩,
      by simp only [Members.texts, h2, g2]⟩
end

theorem intercalate_le (x : Str) (l : List Str) : x.length ≤ ((b!",").intercalate (x :: l)).length ∧
    ((b!",").intercalate l).length ≤ ((b!",").intercalate (x :: l)).length := by
  cases l with
  | nil => simp [List.intercalate]
  | cons y l => 
    rw [List.intercalate_cons_cons]
    simp only [List.length_append]
    omega

mutual
theorem depth_le : ∀ s : Syn, depth s ≤ s.text.length
  | .lit _ => Nat.zero_le _
  | .num _ => Nat.zero_le _
  | .str _ _ => Nat.zero_le _
  | .arr w es => by
    have := depthElems_le es
    simp only [depth, Syn.text, List.length_append, List.length_cons, List.length_nil]
    omega
  | .obj w ms => by
    have := depthMembers_le ms
    simp only [depth, Syn.text, List.length_append, List.length_cons, List.length_nil]
    omega

theorem depthElems_le : ∀ es : Elems, depthElems es ≤ ((b!",").intercalate es.texts).length
  | .nil => Nat.zero_le _
  | .cons w₁ v w₂ r => by
    have h1 := depth_le v
    have h2 := depthElems_le r
    obtain ⟨h3, h4⟩ := intercalate_le (w₁ ++ v.text ++ w₂) r.texts
    simp only [List.length_append] at h3
    simp only [depthElems, Elems.texts]
    omega

theorem depthMembers_le : ∀ ms : Members, depthMembers ms ≤ ((b!",").intercalate ms.texts).length
  | .nil => Nat.zero_le _
  | .cons w₁ body dec w₂ w₃ v w₄ r => by
    have h1 := depth_le v
    have h2 := depthMembers_le r
    obtain ⟨h3, h4⟩ := intercalate_le (w₁ ++ b!"\"" ++ body ++ b!"\"" ++ w₂ ++ b!":" ++ w₃ ++ v.text ++ w₄) r.texts
    simp only [List.length_append] at h3
    simp only [depthMembers, Members.texts]
    omega
end

/-- A short text the scanner refuses is no JSON. -/
theorem not_text {text : Str} (hl : text.length ≤ maxDepth) (h : parse text = none) (d : Nat) (j : Json) :
    ¬ IsText d text j := by
  rintro ⟨w, w', s, hw, hw', hs, -, rfl, rfl⟩
  have hd := depth_le s
  simp only [List.length_append] at hl
  have := (parse_iff (w ++ s.text ++ w') (tree s)).2 ⟨w, w', s, hw, hw', hs, by omega, rfl, rfl⟩
  rw [h] at this
  cases this

end Stix.Text
