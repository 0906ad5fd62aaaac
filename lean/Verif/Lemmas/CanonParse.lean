import Verif.Lemmas.CanonStr

/-!
# Lemmas about the canonicaliser: parsing a document gives the canonical text of its value
-/

namespace Stix.Canon
open Stix Stix.Spec.Canon

/-- What the canonicaliser writes for a number token. -/
def numText (F : FloatFmt) (t : Str) : Option Str := (F.parse t).bind (numberToJSON F)

mutual
/-- What the canonicaliser writes for a value. -/
def canonV (F : FloatFmt) : JV → Option Str
  | .lit t => some t
  | .num t => numText F t
  | .str s => some (decorate s)
  | .arr l => (canonEs F l).map arrayText
  | .obj m => ((canonMs F m).bind (insertAll · [])).map objectText

/-- Texts of elements. -/
def canonEs (F : FloatFmt) : List JV → Option (List Str)
  | [] => some []
  | v :: vs => (canonV F v).bind fun x => (canonEs F vs).map (x :: ·)

/-- Members with the texts of their values. -/
def canonMs (F : FloatFmt) : List (Str × JV) → Option (List NameValue)
  | [] => some []
  | (k, v) :: ms => (canonV F v).bind fun x => (canonMs F ms).map (⟨k, sortKey k, x⟩ :: ·)
end

/-- The rest of a comma separated list. -/
def tails (l : List Str) : Str := l.flatMap (fun x => 44 :: x)

theorem intercalate_cons (x : Str) (xs : List Str) :
    (b!",").intercalate (x :: xs) = x ++ tails xs := by
  induction xs generalizing x with
  | nil => simp [tails]
  | cons y ys ih =>
    rw [List.intercalate_cons_cons, ih]
    simp [tails]

theorem commaSep_cons (x : Str) (xs : List Str) : commaSep (x :: xs) = x ++ tails xs := by
  induction xs generalizing x with
  | nil => simp [commaSep, tails]
  | cons y ys ih =>
    simp only [commaSep, ih]
    simp [tails]

theorem commaSep_eq (l : List Str) : commaSep l = (b!",").intercalate l := by
  cases l with
  | nil => rfl
  | cons x xs => rw [commaSep_cons, intercalate_cons]

theorem stop_tails (l : List Str) {c : UInt8} {r : Str} (h : c = 93 ∨ c = 125) :
    Stop (tails l ++ c :: r) := by
  cases l with
  | nil => exact stop_cons (Or.inr h)
  | cons x xs => exact stop_cons (Or.inl rfl)

theorem scan93 (r : Str) : scan (93 :: r) = some (93, r) := scan_cons (by decide) (by decide) r
theorem scan125 (r : Str) : scan (125 :: r) = some (125, r) := scan_cons (by decide) (by decide) r
theorem scan44 (r : Str) : scan (44 :: r) = some (44, r) := scan_cons (by decide) (by decide) r
theorem scan34 (r : Str) : scan (34 :: r) = some (34, r) := scan_cons (by decide) (by decide) r
theorem scan91 (r : Str) : scan (91 :: r) = some (91, r) := scan_cons (by decide) (by decide) r
theorem scan123 (r : Str) : scan (123 :: r) = some (123, r) := scan_cons (by decide) (by decide) r
theorem scanFor44 (r : Str) : scanFor 44 (44 :: r) = some r := scanFor_cons (by decide) (by decide) r
theorem scanFor34 (r : Str) : scanFor 34 (34 :: r) = some r := scanFor_cons (by decide) (by decide) r
theorem scanFor58 (r : Str) : scanFor 58 (58 :: r) = some r := scanFor_cons (by decide) (by decide) r

/-- First byte of a value's text. -/
theorem text_head (s : Syn) (h : s.WF) : ∃ c r, s.text = c :: r ∧ isWS c = false ∧ ¬ c > 0x7f ∧
    c ≠ 93 ∧ c ≠ 125 ∧ c ≠ 44 := by
  cases s with
  | lit t =>
    rcases h with rfl | rfl | rfl <;> exact ⟨_, _, rfl, by decide⟩
  | num t =>
    cases t with
    | nil => exact absurd rfl (numToken_ne h)
    | cons c r =>
      obtain ⟨a, b, c1, d, e⟩ := numToken_tok h c List.mem_cons_self
      exact ⟨c, r, rfl, a, b, d, e, c1⟩
  | str body dec => exact ⟨34, _, rfl, by decide⟩
  | arr w es => exact ⟨91, _, rfl, by decide⟩
  | obj w ms => exact ⟨123, _, rfl, by decide⟩

theorem parseSimple_lit {F : FloatFmt} {t s : Str}
    (h : t = b!"true" ∨ t = b!"false" ∨ t = b!"null") (hs : Stop s) :
    parseSimple F (t ++ s) = some (t, s) := by
  have ht : ∀ c ∈ t, TokByte c := by
    unfold TokByte
    rcases h with rfl | rfl | rfl <;> decide
  have hne : t ≠ [] := by rcases h with rfl | rfl | rfl <;> simp
  simp [parseSimple, token_stop ht hs, hne, h]

theorem parseSimple_num {F : FloatFmt} {t s : Str} (h : NumToken t) (hs : Stop s) :
    parseSimple F (t ++ s) = (numText F t).map (·, s) := by
  have hl : ¬ (t = b!"true" ∨ t = b!"false" ∨ t = b!"null") := h.2.1
  simp only [parseSimple, token_stop (numToken_tok h) hs, Option.bind_eq_bind, Option.bind_some,
    if_neg (numToken_ne h), if_neg hl, numText, Option.pure_def]
  cases F.parse t with
  | none => rfl
  | some bits => simp only [Option.bind_some]; cases numberToJSON F bits <;> rfl

mutual
theorem parseElement_syn (F : FloatFmt) : ∀ (s : Syn) (n : Nat) (w rest : Str), s.WF → White w →
    Stop rest → 2 * (w ++ s.text ++ rest).length < n →
    parseElement F n (w ++ s.text ++ rest) = (canonV F s.value).map (·, rest)
  | .lit t, n, w, rest, hs, hw, hr, hn => by
    cases n with
    | zero => omega
    | succ n =>
      obtain ⟨c, r, he, hws, ha, _⟩ := text_head _ hs
      have hc : c ≠ 123 ∧ c ≠ 34 ∧ c ≠ 91 := by
        simp only [Syn.text] at he
        rcases hs with rfl | rfl | rfl <;> cases he <;> decide
      unfold parseElement
      rw [List.append_assoc, scan_white hw, he, List.cons_append, scan_cons hws ha]
      simp only [if_neg hc.1, if_neg hc.2.1, if_neg hc.2.2]
      rw [← List.cons_append, ← he]
      exact parseSimple_lit hs hr
  | .num t, n, w, rest, hs, hw, hr, hn => by
    cases n with
    | zero => omega
    | succ n =>
      obtain ⟨c, r, he, hws, ha, _⟩ := text_head _ hs
      have hc : c ≠ 123 ∧ c ≠ 34 ∧ c ≠ 91 := by
        simp only [Syn.text] at he
        subst he
        have := hs.1
        simp only [List.headD_cons, List.mem_cons, List.not_mem_nil, or_false, not_or] at this
        exact ⟨this.2.2, this.1, this.2.1⟩
      unfold parseElement
      rw [List.append_assoc, scan_white hw, he, List.cons_append, scan_cons hws ha]
      simp only [if_neg hc.1, if_neg hc.2.1, if_neg hc.2.2]
      rw [← List.cons_append, ← he]
      exact parseSimple_num hs hr
  | .str body dec, n, w, rest, hs, hw, hr, hn => by
    cases n with
    | zero => omega
    | succ n =>
      have e : Syn.text (.str body dec) ++ rest = 34 :: (body ++ 34 :: rest) := by
        simp [Syn.text]
      unfold parseElement
      rw [List.append_assoc, scan_white hw, e, scan34]
      have := parseQuoted_spells hs ((body ++ 34 :: rest).length + 1) rest (by simp; omega)
      simp only [if_neg (show ¬ (34 : UInt8) = 123 by decide), if_true, this]
      rfl
  | .arr v es, n, w, rest, hs, hw, hr, hn => by
    cases n with
    | zero => omega
    | succ n =>
      have e : Syn.text (.arr v es) ++ rest
          = 91 :: (v ++ (b!",").intercalate es.texts ++ 93 :: rest) := by
        simp [Syn.text]
      have hlen : 2 * (v ++ (b!",").intercalate es.texts ++ 93 :: rest).length + 1 < n := by
        rw [List.append_assoc, e] at hn; simp only [List.length_append, List.length_cons] at hn ⊢; omega
      unfold parseElement
      rw [List.append_assoc, scan_white hw, e, scan91]
      simp only [if_neg (show ¬ (91 : UInt8) = 123 by decide),
        if_neg (show ¬ (91 : UInt8) = 34 by decide), if_true, Option.bind_eq_bind]
      rw [arrLoop_first F es n v rest hs.2 hs.1 hlen]
      simp only [Syn.value, canonV]
      cases canonEs F es.values <;> rfl
  | .obj v ms, n, w, rest, hs, hw, hr, hn => by
    cases n with
    | zero => omega
    | succ n =>
      have e : Syn.text (.obj v ms) ++ rest
          = 123 :: (v ++ (b!",").intercalate ms.texts ++ 125 :: rest) := by
        simp [Syn.text]
      have hlen : 2 * (v ++ (b!",").intercalate ms.texts ++ 125 :: rest).length + 1 < n := by
        rw [List.append_assoc, e] at hn; simp only [List.length_append, List.length_cons] at hn ⊢; omega
      unfold parseElement
      rw [List.append_assoc, scan_white hw, e, scan123]
      simp only [if_true, Option.bind_eq_bind]
      rw [objLoop_first F ms n v rest hs.2 hs.1 hlen]
      simp only [Syn.value, canonV]
      cases (canonMs F ms.values).bind (insertAll · []) <;> rfl

theorem arrLoop_first (F : FloatFmt) : ∀ (es : Elems) (n : Nat) (w rest : Str), es.WF → White w →
    2 * (w ++ (b!",").intercalate es.texts ++ 93 :: rest).length + 1 < n →
    arrLoop F n false (w ++ (b!",").intercalate es.texts ++ 93 :: rest)
      = (canonEs F es.values).map (·, rest)
  | .nil, n, w, rest, hs, hw, hn => by
    cases n with
    | zero => omega
    | succ n =>
      unfold arrLoop
      rw [List.append_assoc, scan_white hw]
      simp [Elems.texts, scan93, Elems.values, canonEs]
  | .cons w₁ v w₂ r, n, w, rest, hs, hw, hn => by
    cases n with
    | zero => omega
    | succ n =>
      obtain ⟨h1, hv, h2, hr⟩ := hs
      have e : w ++ (b!",").intercalate (Elems.cons w₁ v w₂ r).texts ++ 93 :: rest
          = (w ++ w₁) ++ v.text ++ (w₂ ++ tails r.texts ++ 93 :: rest) := by
        simp [Elems.texts, intercalate_cons]
      rw [e] at hn ⊢
      obtain ⟨c, t, ht, hws, ha, h93, _⟩ := text_head v hv
      have hsc : scan ((w ++ w₁) ++ v.text ++ (w₂ ++ tails r.texts ++ 93 :: rest))
          = some (c, t ++ (w₂ ++ tails r.texts ++ 93 :: rest)) := by
        rw [List.append_assoc, scan_white (white_append hw h1), ht, List.cons_append,
          scan_cons hws ha]
      have hstop : Stop (w₂ ++ tails r.texts ++ 93 :: rest) := by
        rw [List.append_assoc]; exact stop_white h2 (stop_tails _ (Or.inl rfl))
      unfold arrLoop
      rw [hsc]
      simp only [if_neg h93, Bool.false_eq_true, if_false, Option.bind_eq_bind, Option.bind_some]
      rw [parseElement_syn F v n (w ++ w₁) _ hv (white_append hw h1) hstop (by omega)]
      have htl : 0 < v.text.length := by rw [ht]; simp
      have := arrLoop_next F r n w₂ rest hr h2
        (by simp only [List.length_append, List.length_cons] at hn ⊢; omega)
      simp only [Elems.values, canonEs]
      cases canonV F v.value with
      | none => rfl
      | some x =>
        simp only [Option.map_some, Option.bind_some, this]
        cases canonEs F r.values <;> rfl

theorem arrLoop_next (F : FloatFmt) : ∀ (es : Elems) (n : Nat) (w rest : Str), es.WF → White w →
    2 * (w ++ tails es.texts ++ 93 :: rest).length + 1 < n →
    arrLoop F n true (w ++ tails es.texts ++ 93 :: rest)
      = (canonEs F es.values).map (·, rest)
  | .nil, n, w, rest, hs, hw, hn => by
    cases n with
    | zero => omega
    | succ n =>
      unfold arrLoop
      rw [List.append_assoc, scan_white hw]
      simp [Elems.texts, tails, scan93, Elems.values, canonEs]
  | .cons w₁ v w₂ r, n, w, rest, hs, hw, hn => by
    cases n with
    | zero => omega
    | succ n =>
      obtain ⟨h1, hv, h2, hr⟩ := hs
      have e : w ++ tails (Elems.cons w₁ v w₂ r).texts ++ 93 :: rest
          = w ++ 44 :: (w₁ ++ v.text ++ (w₂ ++ tails r.texts ++ 93 :: rest)) := by
        simp [Elems.texts, tails]
      rw [e] at hn ⊢
      have hstop : Stop (w₂ ++ tails r.texts ++ 93 :: rest) := by
        rw [List.append_assoc]; exact stop_white h2 (stop_tails _ (Or.inl rfl))
      unfold arrLoop
      rw [scan_white hw, scan44]
      simp only [if_neg (show ¬ (44 : UInt8) = 93 by decide), if_true, Option.bind_eq_bind]
      rw [scanFor_white hw, scanFor44, Option.bind_some,
        parseElement_syn F v n w₁ _ hv h1 hstop (by simp at hn ⊢; omega)]
      have := arrLoop_next F r n w₂ rest hr h2 (by simp at hn ⊢; omega)
      simp only [Elems.values, canonEs]
      cases canonV F v.value with
      | none => rfl
      | some x =>
        simp only [Option.map_some, Option.bind_some, this]
        cases canonEs F r.values <;> rfl

theorem objLoop_first (F : FloatFmt) : ∀ (ms : Members) (n : Nat) (w rest : Str), ms.WF → White w →
    2 * (w ++ (b!",").intercalate ms.texts ++ 125 :: rest).length + 1 < n →
    objLoop F n false [] (w ++ (b!",").intercalate ms.texts ++ 125 :: rest)
      = ((canonMs F ms.values).bind (insertAll · [])).map (·, rest)
  | .nil, n, w, rest, hs, hw, hn => by
    cases n with
    | zero => omega
    | succ n =>
      unfold objLoop
      rw [List.append_assoc, scan_white hw]
      simp [Members.texts, scan125, Members.values, canonMs, insertAll]
  | .cons w₁ body dec w₂ w₃ v w₄ r, n, w, rest, hs, hw, hn => by
    cases n with
    | zero => omega
    | succ n =>
      obtain ⟨h1, hk, h2, h3, hv, h4, hr⟩ := hs
      have e : w ++ (b!",").intercalate (Members.cons w₁ body dec w₂ w₃ v w₄ r).texts ++ 125 :: rest
          = (w ++ w₁) ++ 34 :: (body ++ 34 :: (w₂ ++ 58 :: (w₃ ++ v.text ++
              (w₄ ++ tails r.texts ++ 125 :: rest)))) := by
        simp [Members.texts, intercalate_cons]
      rw [e] at hn ⊢
      have hstop : Stop (w₄ ++ tails r.texts ++ 125 :: rest) := by
        rw [List.append_assoc]; exact stop_white h4 (stop_tails _ (Or.inr rfl))
      have hq := parseQuoted_spells hk ((body ++ 34 :: (w₂ ++ 58 :: (w₃ ++ v.text ++
              (w₄ ++ tails r.texts ++ 125 :: rest)))).length + 1) (w₂ ++ 58 :: (w₃ ++ v.text ++
              (w₄ ++ tails r.texts ++ 125 :: rest))) (by simp only [List.length_append]; omega)
      unfold objLoop
      rw [scan_white (white_append hw h1), scan34]
      simp only [if_neg (show ¬ (34 : UInt8) = 125 by decide), Bool.false_eq_true, if_false,
        Option.bind_eq_bind, Option.bind_some]
      rw [scanFor_white (white_append hw h1), scanFor34, Option.bind_some, hq, Option.bind_some,
        scanFor_white h2, scanFor58, Option.bind_some,
        parseElement_syn F v n w₃ _ hv h3 hstop
          (by simp only [List.length_append, List.length_cons] at hn ⊢; omega)]
      simp only [Members.values, canonMs]
      cases canonV F v.value with
      | none => rfl
      | some x =>
        have := fun acc => objLoop_next F r n w₄ rest acc hr h4
          (by simp only [List.length_append, List.length_cons] at hn ⊢; omega)
        simp only [Option.map_some, Option.bind_some, insert, this]
        cases canonMs F r.values <;> simp [insertAll, insert]

theorem objLoop_next (F : FloatFmt) : ∀ (ms : Members) (n : Nat) (w rest : Str)
    (acc : List NameValue), ms.WF → White w →
    2 * (w ++ tails ms.texts ++ 125 :: rest).length + 1 < n →
    objLoop F n true acc (w ++ tails ms.texts ++ 125 :: rest)
      = ((canonMs F ms.values).bind (insertAll · acc)).map (·, rest)
  | .nil, n, w, rest, acc, hs, hw, hn => by
    cases n with
    | zero => omega
    | succ n =>
      unfold objLoop
      rw [List.append_assoc, scan_white hw]
      simp [Members.texts, tails, scan125, Members.values, canonMs, insertAll]
  | .cons w₁ body dec w₂ w₃ v w₄ r, n, w, rest, acc, hs, hw, hn => by
    cases n with
    | zero => omega
    | succ n =>
      obtain ⟨h1, hk, h2, h3, hv, h4, hr⟩ := hs
      have e : w ++ tails (Members.cons w₁ body dec w₂ w₃ v w₄ r).texts ++ 125 :: rest
          = w ++ 44 :: (w₁ ++ 34 :: (body ++ 34 :: (w₂ ++ 58 :: (w₃ ++ v.text ++
              (w₄ ++ tails r.texts ++ 125 :: rest))))) := by
        simp [Members.texts, tails]
      rw [e] at hn ⊢
      have hstop : Stop (w₄ ++ tails r.texts ++ 125 :: rest) := by
        rw [List.append_assoc]; exact stop_white h4 (stop_tails _ (Or.inr rfl))
      have hq := parseQuoted_spells hk ((body ++ 34 :: (w₂ ++ 58 :: (w₃ ++ v.text ++
              (w₄ ++ tails r.texts ++ 125 :: rest)))).length + 1) (w₂ ++ 58 :: (w₃ ++ v.text ++
              (w₄ ++ tails r.texts ++ 125 :: rest))) (by simp only [List.length_append]; omega)
      unfold objLoop
      rw [scan_white hw, scan44]
      simp only [if_neg (show ¬ (44 : UInt8) = 125 by decide), if_true, Option.bind_eq_bind]
      rw [scanFor_white hw, scanFor44, Option.bind_some, scanFor_white h1, scanFor34,
        Option.bind_some, hq, Option.bind_some,
        scanFor_white h2, scanFor58, Option.bind_some,
        parseElement_syn F v n w₃ _ hv h3 hstop
          (by simp only [List.length_append, List.length_cons] at hn ⊢; omega)]
      simp only [Members.values, canonMs]
      cases canonV F v.value with
      | none => rfl
      | some x =>
        have := fun acc => objLoop_next F r n w₄ rest acc hr h4
          (by simp only [List.length_append, List.length_cons] at hn ⊢; omega)
        simp only [Option.map_some, Option.bind_some]
        cases hm : canonMs F r.values with
        | none =>
          rw [hm] at this
          cases insert ⟨dec, sortKey dec, x⟩ acc with
          | none => rfl
          | some a => simp only [Option.bind_some, this a]; rfl
        | some l =>
          rw [hm] at this
          cases hi : insert ⟨dec, sortKey dec, x⟩ acc with
          | none => simp [insertAll, hi]
          | some a => simp only [Option.bind_some, Option.map_some, this a, insertAll, hi]
end

/-- `Transform` of a document is the canonical text of the value it denotes. -/
theorem transform_denotes {F : FloatFmt} {text : Str} {v : JV} (h : Denotes text v) :
    transform F text = canonV F v := by
  obtain ⟨w, w', s, hw, hw', hs, hc, rfl, rfl⟩ := h
  have hskip : skipWS w' = [] := by
    have := skipWS_white hw' []
    simpa [skipWS] using this
  cases s with
  | arr u es =>
    have e : w ++ Syn.text (.arr u es) ++ w'
        = w ++ 91 :: (u ++ (b!",").intercalate es.texts ++ 93 :: w') := by simp [Syn.text]
    have hloop := arrLoop_first F es (2 * (w ++ Syn.text (.arr u es) ++ w').length + 2) u w'
      hs.2 hs.1 (by rw [e]; simp only [List.length_append, List.length_cons]; omega)
    unfold transform
    rw [e] at hloop ⊢
    rw [scan_white hw, scan91]
    simp only [if_true, hloop, Syn.value, canonV]
    cases canonEs F es.values with
    | none => rfl
    | some l => simp [hskip]
  | obj u ms =>
    have e : w ++ Syn.text (.obj u ms) ++ w'
        = w ++ 123 :: (u ++ (b!",").intercalate ms.texts ++ 125 :: w') := by simp [Syn.text]
    have hloop := objLoop_first F ms (2 * (w ++ Syn.text (.obj u ms) ++ w').length + 2) u w'
      hs.2 hs.1 (by rw [e]; simp only [List.length_append, List.length_cons]; omega)
    unfold transform
    rw [e] at hloop ⊢
    rw [scan_white hw, scan123]
    simp only [if_neg (show ¬ (123 : UInt8) = 91 by decide), if_true, hloop, Syn.value, canonV]
    cases (canonMs F ms.values).bind (insertAll · []) with
    | none => rfl
    | some l => simp [hskip]
  | lit t => exact absurd hc (by simp [Syn.Composite])
  | num t => exact absurd hc (by simp [Syn.Composite])
  | str t d => exact absurd hc (by simp [Syn.Composite])

end Stix.Canon
