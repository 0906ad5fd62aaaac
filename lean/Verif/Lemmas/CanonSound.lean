import Verif.Lemmas.CanonSame
import Verif.Lemmas.AssocMap

/-!
# Lemmas about the canonicaliser: what it accepts is a document
-/

namespace Stix.Canon
open Stix Stix.Spec.Canon

theorem isHex_hexVal {c : UInt8} {d : Nat} (h : hexVal c = some d) : IsHex c d := by
  have key : ∀ n : Fin 256, ((hexVal (UInt8.ofNat n)).all fun d =>
      ((b!"0123456789abcdef")[d]? == some (UInt8.ofNat n)) ||
        (b!"0123456789ABCDEF")[d]? == some (UInt8.ofNat n)) = true := by decide +kernel
  have := key ⟨c.toNat, c.toNat_lt⟩
  simp only [UInt8.ofNat_toNat, h, Option.all_some, Bool.or_eq_true, beq_iff_eq] at this
  exact this

theorem getUEscape_sound {s r : Str} {n : Nat} (h : getUEscape s = some (n, r)) :
    ∃ x, IsHex4 x n ∧ s = x ++ r := by
  unfold getUEscape at h
  split at h
  · next a b c d r' =>
    simp only [Option.bind_eq_bind, Option.bind_eq_some_iff, Option.pure_def, Option.some.injEq,
      Prod.mk.injEq] at h
    obtain ⟨w, hw, x, hx, y, hy, z, hz, rfl, rfl⟩ := h
    exact ⟨[a, b, c, d], ⟨a, b, c, d, w, x, y, z, rfl, isHex_hexVal hw, isHex_hexVal hx,
      isHex_hexVal hy, isHex_hexVal hz, by omega⟩, rfl⟩
  · simp at h

theorem nextChar_sound {s r : Str} {c : UInt8} (h : nextChar s = some (c, r)) :
    s = c :: r ∧ ¬ c > 0x7f := by
  cases s with
  | nil => simp [nextChar] at h
  | cons x s =>
    simp only [nextChar] at h
    split_ifs at h with hx
    simp at h
    obtain ⟨rfl, rfl⟩ := h
    exact ⟨rfl, hx⟩

theorem hex4_lt {h : Str} {n : Nat} (hh : IsHex4 h n) : n < 0x10000 := by
  obtain ⟨a, b, c, d, w, x, y, z, rfl, ha, hb, hc, hd, rfl⟩ := hh
  have lt : ∀ {c : UInt8} {d : Nat}, IsHex c d → d < 16 := by
    intro c d h
    rcases h with h | h <;> exact (List.getElem?_eq_some_iff.1 h).1
  have := lt ha; have := lt hb; have := lt hc; have := lt hd
  omega

theorem char_of_unit {n : Nat} (h : n < 0x10000) (hs : isSurrogate n = false) :
    ∃ c : Char, c.toNat = n := by
  have hv : n.isValidChar := by
    unfold Nat.isValidChar
    simp only [isSurrogate, Bool.and_eq_false_iff, decide_eq_false_iff_not] at hs
    omega
  exact ⟨Char.ofNatAux n hv, rfl⟩

theorem parseQuoted_sound : ∀ (n : Nat) (s t r : Str), parseQuoted n s = some (t, r) →
    ∃ body, Spells body t ∧ s = body ++ 34 :: r
  | 0, s, t, r, h => by simp [parseQuoted] at h
  | n + 1, [], t, r, h => by simp [parseQuoted] at h
  | n + 1, c :: s, t, r, h => by
    unfold parseQuoted at h
    split_ifs at h with h1 h2 h3
    · simp at h; obtain ⟨rfl, rfl⟩ := h; exact ⟨[], .nil, by simp [h1]⟩
    · subst h3
      simp only [Option.bind_eq_bind, Option.bind_eq_some_iff, Prod.exists] at h
      obtain ⟨e, s1, he, h⟩ := h
      obtain ⟨rfl, ha⟩ := nextChar_sound he
      split_ifs at h with h4 h5
      · subst h4
        simp only [Option.bind_eq_some_iff, Prod.exists] at h
        obtain ⟨u, s2, hu, h⟩ := h
        obtain ⟨x, hx, rfl⟩ := getUEscape_sound hu
        split_ifs at h with h6
        · simp only [Option.bind_eq_some_iff, Prod.exists] at h
          obtain ⟨y1, s3, hy1, h⟩ := h
          obtain ⟨rfl, -⟩ := nextChar_sound hy1
          split_ifs at h with h7
          simp only [Option.bind_eq_some_iff, Prod.exists] at h
          obtain ⟨y2, s4, hy2, h⟩ := h
          obtain ⟨rfl, -⟩ := nextChar_sound hy2
          split_ifs at h with h8
          simp only [ne_eq, Decidable.not_not] at h7 h8
          subst h7 h8
          simp only [Option.bind_eq_some_iff, Prod.exists, Option.pure_def, Option.some.injEq,
            Prod.mk.injEq] at h
          obtain ⟨v, s5, hv, t', r', hq, rfl, rfl⟩ := h
          obtain ⟨z, hz, rfl⟩ := getUEscape_sound hv
          obtain ⟨body, hb, rfl⟩ := parseQuoted_sound n _ _ _ hq
          refine ⟨b!"\\u" ++ x ++ b!"\\u" ++ z ++ body, ?_, by simp⟩
          by_cases hc : ∃ c, units c = [u, v]
          · obtain ⟨c, hc⟩ := hc
            rw [(units_pair hc).2, encodeRune_char]
            exact .pair hc hx hz hb
          · rw [not_exists] at hc
            rw [decodePair_broken hc, encodeRune_char]
            simp only [isSurrogate, Bool.and_eq_true, decide_eq_true_eq] at h6
            exact .broken h6.1 h6.2 hc hx hz hb
        · simp only [Option.bind_eq_some_iff, Prod.exists, Option.pure_def, Option.some.injEq,
            Prod.mk.injEq] at h
          obtain ⟨t', r', hq, rfl, rfl⟩ := h
          obtain ⟨body, hb, rfl⟩ := parseQuoted_sound n _ _ _ hq
          obtain ⟨c, rfl⟩ := char_of_unit (hex4_lt hx) (by simpa using h6)
          refine ⟨b!"\\u" ++ x ++ body, ?_, by simp⟩
          rw [encodeRune_char]
          exact .hex (hex4_lt hx) hx hb
      · subst h5
        simp only [Option.bind_eq_some_iff, Prod.exists, Option.pure_def, Option.some.injEq,
            Prod.mk.injEq] at h
        obtain ⟨t', r', hq, rfl, rfl⟩ := h
        obtain ⟨body, hb, rfl⟩ := parseQuoted_sound n _ _ _ hq
        exact ⟨92 :: 47 :: body, .short (by decide) hb, rfl⟩
      · split at h
        · simp at h
        · next x hx =>
          simp only [Option.bind_eq_some_iff, Prod.exists, Option.pure_def, Option.some.injEq,
            Prod.mk.injEq] at h
          obtain ⟨t', r', hq, rfl, rfl⟩ := h
          obtain ⟨body, hb, rfl⟩ := parseQuoted_sound n _ _ _ hq
          refine ⟨92 :: e :: body, .short ?_ hb, rfl⟩
          have hx' := mem_of_amLookup _ _ _ hx
          have key : ∀ p ∈ escapes, p ∈ shortEscapes := by decide
          exact key _ hx'
    · simp only [Option.bind_eq_bind, Option.bind_eq_some_iff, Prod.exists, Option.pure_def,
        Option.some.injEq, Prod.mk.injEq] at h
      obtain ⟨t', r', hq, rfl, rfl⟩ := h
      obtain ⟨body, hb, rfl⟩ := parseQuoted_sound n _ _ _ hq
      refine ⟨c :: body, .plain ?_ h1 h3 hb, rfl⟩
      rw [UInt8.le_iff_toNat_le]; rw [UInt8.lt_iff_toNat_lt] at h2; simpa using h2

theorem skipWS_sound (s : Str) : ∃ w, White w ∧ s = w ++ skipWS s := by
  induction s with
  | nil => exact ⟨[], by simp [White], rfl⟩
  | cons c s ih =>
    obtain ⟨w, hw, e⟩ := ih
    unfold skipWS
    split_ifs with h
    · refine ⟨c :: w, ?_, by rw [List.cons_append, ← e]⟩
      intro x hx
      rcases List.mem_cons.1 hx with rfl | hx
      · exact (isWS_iff _).1 h
      · exact hw x hx
    · exact ⟨[], by simp [White], rfl⟩

theorem skipWS_head {s : Str} {c : UInt8} {r : Str} (h : skipWS s = c :: r) : isWS c = false := by
  induction s with
  | nil => simp [skipWS] at h
  | cons x s ih =>
    unfold skipWS at h
    split_ifs at h with hx
    · exact ih h
    · simp at h; rw [← h.1]; simpa using hx

theorem scan_sound {s r : Str} {c : UInt8} (h : scan s = some (c, r)) :
    isWS c = false ∧ ¬ c > 0x7f ∧ ∃ w, White w ∧ s = w ++ c :: r := by
  obtain ⟨h1, h2⟩ := nextChar_sound h
  obtain ⟨w, hw, e⟩ := skipWS_sound s
  exact ⟨skipWS_head h1, h2, w, hw, by rw [← h1]; exact e⟩

theorem scanFor_sound {s r : Str} {c : UInt8} (h : scanFor c s = some r) :
    ∃ w, White w ∧ s = w ++ c :: r := by
  unfold scanFor at h
  split at h
  · simp at h
  · next x r' hx =>
    split_ifs at h with hc
    simp at h
    subst hc h
    exact (scan_sound hx).2.2

/-- A token is followed by at most one byte of white space that is lost. -/
theorem token_sound : ∀ (s t r : Str), token s = some (t, r) →
    (∀ c ∈ t, TokByte c) ∧ ∃ w, White w ∧ s = t ++ (w ++ r)
  | [], t, r, h => by simp [token] at h
  | c :: s, t, r, h => by
    unfold token at h
    split at h
    · simp at h
    · next p hp =>
      split_ifs at h with h1 h2 h3
      · simp at h; obtain ⟨rfl, rfl⟩ := h
        exact ⟨by simp, [], by simp [White], rfl⟩
      · simp at h; obtain ⟨rfl, rfl⟩ := h
        exact ⟨by simp, [c], by simpa [White] using (isWS_iff c).1 h3, rfl⟩
      · split at h
        · simp at h
        · next t' r' ht =>
          simp at h; obtain ⟨rfl, rfl⟩ := h
          obtain ⟨h4, w, hw, e⟩ := token_sound s t' _ ht
          refine ⟨?_, w, hw, by rw [e]; rfl⟩
          intro x hx
          rcases List.mem_cons.1 hx with rfl | hx
          · have h3' : isWS x = false := by simpa using h3
            rw [peek, scan_cons h3' h2] at hp
            simp at hp; subst hp
            simp only [not_or] at h1
            exact ⟨h3', h2, h1⟩
          · exact h4 x hx

theorem parseSimple_sound {F : FloatFmt} {s out r : Str} (h : parseSimple F s = some (out, r))
    (hs : s.headD 34 ∉ b!"\"[{") : ∃ (y : Syn) (w : Str), y.WF ∧ White w ∧ s = y.text ++ (w ++ r) ∧
      canonV F y.value = some out := by
  unfold parseSimple at h
  simp only [Option.bind_eq_bind, Option.bind_eq_some_iff, Prod.exists] at h
  obtain ⟨t, r', ht, h⟩ := h
  obtain ⟨h1, w, hw, e⟩ := token_sound _ _ _ ht
  split_ifs at h with h0 hl
  · simp at h; obtain ⟨rfl, rfl⟩ := h
    exact ⟨.lit t, w, hl, hw, e, rfl⟩
  · simp only [Option.bind_eq_some_iff, Option.pure_def, Option.some.injEq, Prod.mk.injEq] at h
    obtain ⟨bits, hb, o, ho, rfl, rfl⟩ := h
    refine ⟨.num t, w, numToken_iff.2 ⟨?_, hl, h1⟩, hw, e, ?_⟩
    · cases t with
      | nil => exact absurd rfl h0
      | cons c t => rw [e] at hs; exact hs
    · simp only [Syn.value, canonV, numText, hb, Option.bind_some, ho]

mutual
theorem parseElement_sound (F : FloatFmt) : ∀ (n : Nat) (s out r : Str),
    parseElement F n s = some (out, r) → ∃ (w : Str) (y : Syn) (w' : Str), White w ∧ y.WF ∧
      White w' ∧ s = w ++ y.text ++ (w' ++ r) ∧ canonV F y.value = some out
  | 0, s, out, r, h => by simp [parseElement] at h
  | n + 1, s, out, r, h => by
    unfold parseElement at h
    split at h
    · simp at h
    · next c r1 hc =>
      obtain ⟨-, -, w, hw, rfl⟩ := scan_sound hc
      split_ifs at h with h1 h2 h3
      · subst h1
        simp only [Option.bind_eq_bind, Option.bind_eq_some_iff, Prod.exists, Option.pure_def,
          Option.some.injEq, Prod.mk.injEq] at h
        obtain ⟨ms, r2, hl, rfl, rfl⟩ := h
        obtain ⟨u, y, l, hu, hy, rfl, hl, hi⟩ := objLoop_first_sound F n _ _ _ hl
        refine ⟨w, .obj u y, [], hw, ⟨hu, hy⟩, by simp [White], by simp [Syn.text], ?_⟩
        simp [Syn.value, canonV, hl, hi]
      · subst h2
        simp only [Option.bind_eq_bind, Option.bind_eq_some_iff, Prod.exists, Option.pure_def,
          Option.some.injEq, Prod.mk.injEq] at h
        obtain ⟨t, r2, hq, rfl, rfl⟩ := h
        obtain ⟨body, hb, rfl⟩ := parseQuoted_sound _ _ _ _ hq
        exact ⟨w, .str body t, [], hw, hb, by simp [White], by simp [Syn.text], rfl⟩
      · subst h3
        simp only [Option.bind_eq_bind, Option.bind_eq_some_iff, Prod.exists, Option.pure_def,
          Option.some.injEq, Prod.mk.injEq] at h
        obtain ⟨vs, r2, hl, rfl, rfl⟩ := h
        obtain ⟨u, y, hu, hy, rfl, hl'⟩ := arrLoop_first_sound F n _ _ _ hl
        refine ⟨w, .arr u y, [], hw, ⟨hu, hy⟩, by simp [White], by simp [Syn.text], ?_⟩
        simp [Syn.value, canonV, hl']
      · obtain ⟨y, w', hy, hw', e, hv⟩ := parseSimple_sound h (by simp [h1, h2, h3])
        exact ⟨w, y, w', hw, hy, hw', by rw [e]; simp, hv⟩

theorem arrLoop_first_sound (F : FloatFmt) : ∀ (n : Nat) (s : Str) (vs : List Str) (r : Str),
    arrLoop F n false s = some (vs, r) → ∃ (w : Str) (es : Elems), White w ∧ es.WF ∧
      s = w ++ (b!",").intercalate es.texts ++ 93 :: r ∧ canonEs F es.values = some vs
  | 0, s, out, r, h => by simp [arrLoop] at h
  | n + 1, s, vs, r, h => by
    unfold arrLoop at h
    split at h
    · simp at h
    · next c r1 hc =>
      obtain ⟨-, -, w, hw, e⟩ := scan_sound hc
      by_cases h1 : c = 93
      · rw [if_pos h1] at h
        simp at h; obtain ⟨rfl, rfl⟩ := h; subst h1
        exact ⟨w, .nil, hw, trivial, by simpa [Elems.texts] using e, rfl⟩
      · rw [if_neg h1] at h
        simp only [Bool.false_eq_true, if_false, Option.bind_eq_bind, Option.bind_some,
          Option.bind_eq_some_iff, Prod.exists, Option.pure_def, Option.some.injEq,
          Prod.mk.injEq] at h
        obtain ⟨v, s1, hv, vs', r', hvs, rfl, rfl⟩ := h
        obtain ⟨w1, y, w2, hw1, hy, hw2, rfl, hcv⟩ := parseElement_sound F n _ _ _ hv
        obtain ⟨w3, es, hw3, hes, rfl, hce⟩ := arrLoop_next_sound F n _ _ _ hvs
        refine ⟨w1, .cons [] y (w2 ++ w3) es, hw1, ⟨by simp [White], hy, white_append hw2 hw3, hes⟩,
          by simp [Elems.texts, intercalate_cons], ?_⟩
        simp [Elems.values, canonEs, hcv, hce]

theorem arrLoop_next_sound (F : FloatFmt) : ∀ (n : Nat) (s : Str) (vs : List Str) (r : Str),
    arrLoop F n true s = some (vs, r) → ∃ (w : Str) (es : Elems), White w ∧ es.WF ∧
      s = w ++ tails es.texts ++ 93 :: r ∧ canonEs F es.values = some vs
  | 0, s, out, r, h => by simp [arrLoop] at h
  | n + 1, s, vs, r, h => by
    unfold arrLoop at h
    split at h
    · simp at h
    · next c r1 hc =>
      obtain ⟨-, -, w, hw, e⟩ := scan_sound hc
      by_cases h1 : c = 93
      · rw [if_pos h1] at h
        simp at h; obtain ⟨rfl, rfl⟩ := h; subst h1
        exact ⟨w, .nil, hw, trivial, by simpa [Elems.texts, tails] using e, rfl⟩
      · rw [if_neg h1] at h
        simp only [if_true, Option.bind_eq_bind,
          Option.bind_eq_some_iff, Prod.exists, Option.pure_def, Option.some.injEq,
          Prod.mk.injEq] at h
        obtain ⟨s0, hs0, v, s1, hv, vs', r', hvs, rfl, rfl⟩ := h
        obtain ⟨w0, hw0, rfl⟩ := scanFor_sound hs0
        obtain ⟨w1, y, w2, hw1, hy, hw2, rfl, hcv⟩ := parseElement_sound F n _ _ _ hv
        obtain ⟨w3, es, hw3, hes, rfl, hce⟩ := arrLoop_next_sound F n _ _ _ hvs
        refine ⟨w0, .cons w1 y (w2 ++ w3) es, hw0, ⟨hw1, hy, white_append hw2 hw3, hes⟩,
          by simp [Elems.texts, tails], ?_⟩
        simp [Elems.values, canonEs, hcv, hce]

theorem objLoop_first_sound (F : FloatFmt) : ∀ (n : Nat) (s : Str) (ms : List NameValue) (r : Str),
    objLoop F n false [] s = some (ms, r) → ∃ (w : Str) (es : Members) (l : List NameValue),
      White w ∧ es.WF ∧ s = w ++ (b!",").intercalate es.texts ++ 125 :: r ∧
      canonMs F es.values = some l ∧ insertAll l [] = some ms
  | 0, s, out, r, h => by simp [objLoop] at h
  | n + 1, s, ms, r, h => by
    unfold objLoop at h
    split at h
    · simp at h
    · next c r1 hc =>
      obtain ⟨-, -, w, hw, e⟩ := scan_sound hc
      by_cases h1 : c = 125
      · rw [if_pos h1] at h
        simp at h; obtain ⟨rfl, rfl⟩ := h; subst h1
        exact ⟨w, .nil, [], hw, trivial, by simpa [Members.texts] using e, rfl, rfl⟩
      · rw [if_neg h1] at h
        simp only [Bool.false_eq_true, if_false, Option.bind_eq_bind, Option.bind_some,
          Option.bind_eq_some_iff, Prod.exists] at h
        obtain ⟨s1, hs1, name, s2, hn, s3, hs3, v, s4, hv, acc, ha, hl⟩ := h
        obtain ⟨w1, hw1, rfl⟩ := scanFor_sound hs1
        obtain ⟨body, hb, rfl⟩ := parseQuoted_sound _ _ _ _ hn
        obtain ⟨w2, hw2, rfl⟩ := scanFor_sound hs3
        obtain ⟨w3, y, w4, hw3, hy, hw4, rfl, hcv⟩ := parseElement_sound F n _ _ _ hv
        obtain ⟨w5, es, l, hw5, hes, rfl, hce, hi⟩ := objLoop_next_sound F n _ _ _ _ hl
        refine ⟨w1, .cons [] body name w2 w3 y (w4 ++ w5) es, ⟨name, sortKey name, v⟩ :: l, hw1,
          ⟨by simp [White], hb, hw2, hw3, hy, white_append hw4 hw5, hes⟩,
          by simp [Members.texts, intercalate_cons], ?_, ?_⟩
        · simp [Members.values, canonMs, hcv, hce]
        · simp [insertAll, ha, hi]

theorem objLoop_next_sound (F : FloatFmt) : ∀ (n : Nat) (acc : List NameValue) (s : Str)
    (ms : List NameValue) (r : Str),
    objLoop F n true acc s = some (ms, r) → ∃ (w : Str) (es : Members) (l : List NameValue),
      White w ∧ es.WF ∧ s = w ++ tails es.texts ++ 125 :: r ∧
      canonMs F es.values = some l ∧ insertAll l acc = some ms
  | 0, acc, s, out, r, h => by simp [objLoop] at h
  | n + 1, acc0, s, ms, r, h => by
    unfold objLoop at h
    split at h
    · simp at h
    · next c r1 hc =>
      obtain ⟨-, -, w, hw, e⟩ := scan_sound hc
      by_cases h1 : c = 125
      · rw [if_pos h1] at h
        simp at h; obtain ⟨rfl, rfl⟩ := h; subst h1
        exact ⟨w, .nil, [], hw, trivial, by simpa [Members.texts, tails] using e, rfl, rfl⟩
      · rw [if_neg h1] at h
        simp only [if_true, Option.bind_eq_bind,
          Option.bind_eq_some_iff, Prod.exists] at h
        obtain ⟨s0, hs0, s1, hs1, name, s2, hn, s3, hs3, v, s4, hv, acc, ha, hl⟩ := h
        obtain ⟨w0, hw0, rfl⟩ := scanFor_sound hs0
        obtain ⟨w1, hw1, rfl⟩ := scanFor_sound hs1
        obtain ⟨body, hb, rfl⟩ := parseQuoted_sound _ _ _ _ hn
        obtain ⟨w2, hw2, rfl⟩ := scanFor_sound hs3
        obtain ⟨w3, y, w4, hw3, hy, hw4, rfl, hcv⟩ := parseElement_sound F n _ _ _ hv
        obtain ⟨w5, es, l, hw5, hes, rfl, hce, hi⟩ := objLoop_next_sound F n _ _ _ _ hl
        refine ⟨w0, .cons w1 body name w2 w3 y (w4 ++ w5) es, ⟨name, sortKey name, v⟩ :: l, hw0,
          ⟨hw1, hb, hw2, hw3, hy, white_append hw4 hw5, hes⟩,
          by simp [Members.texts, tails], ?_, ?_⟩
        · simp [Members.values, canonMs, hcv, hce]
        · simp [insertAll, ha, hi]
end

/-- What is accepted is a document, and the result is its canonical text. -/
theorem transform_sound {F : FloatFmt} {text out : Str} (h : transform F text = some out) :
    ∃ v, Denotes text v ∧ canonV F v = some out := by
  unfold transform at h
  split at h
  · simp at h
  · next c r hc =>
    obtain ⟨-, -, w, hw, rfl⟩ := scan_sound hc
    by_cases h1 : c = 91
    · subst h1
      simp only [if_true] at h
      split at h
      · simp at h
      · next o r' hr =>
        split_ifs at h with he
        simp at h; subst h
        obtain ⟨w', hw', e'⟩ := skipWS_sound r'
        rw [he, List.append_nil] at e'
        subst e'
        simp only [Option.map_eq_some_iff, Prod.exists, Prod.mk.injEq] at hr
        obtain ⟨vs, r2, hl, rfl, rfl⟩ := hr
        obtain ⟨u, y, hu, hy, rfl, hl'⟩ := arrLoop_first_sound F _ _ _ _ hl
        exact ⟨_, ⟨w, _, .arr u y, hw, hw', ⟨hu, hy⟩, trivial, rfl, by simp [Syn.text]⟩,
          by simp [Syn.value, canonV, hl']⟩
    by_cases h2 : c = 123
    · subst h2
      simp only [if_neg h1, if_true] at h
      split at h
      · simp at h
      · next o r' hr =>
        split_ifs at h with he
        simp at h; subst h
        obtain ⟨w', hw', e'⟩ := skipWS_sound r'
        rw [he, List.append_nil] at e'
        subst e'
        simp only [Option.map_eq_some_iff, Prod.exists, Prod.mk.injEq] at hr
        obtain ⟨vs, r2, hl, rfl, rfl⟩ := hr
        obtain ⟨u, y, l, hu, hy, rfl, hl', hi⟩ := objLoop_first_sound F _ _ _ _ hl
        exact ⟨_, ⟨w, _, .obj u y, hw, hw', ⟨hu, hy⟩, trivial, rfl, by simp [Syn.text]⟩,
          by simp [Syn.value, canonV, hl', hi]⟩
    · simp only [if_neg h1, if_neg h2] at h
      simp at h

mutual
theorem canonV_nums (F : FloatFmt) : ∀ (v : JV) (out : Str), canonV F v = some out →
    v.Nums (FiniteNumber F)
  | .lit _, _, _ => trivial
  | .num _, out, h => numText_finite.1 ⟨out, h⟩
  | .str _, _, _ => trivial
  | .arr l, out, h => by
    simp only [canonV, Option.map_eq_some_iff] at h
    obtain ⟨x, hx, -⟩ := h
    exact canonEs_nums F l x hx
  | .obj m, out, h => by
    simp only [canonV, Option.map_eq_some_iff, Option.bind_eq_some_iff] at h
    obtain ⟨x, ⟨y, hy, -⟩, -⟩ := h
    exact canonMs_nums F m y hy

theorem canonEs_nums (F : FloatFmt) : ∀ (l : List JV) (x : List Str), canonEs F l = some x →
    listNums (FiniteNumber F) l
  | [], _, _ => trivial
  | v :: vs, x, h => by
    simp only [canonEs, Option.map_eq_some_iff, Option.bind_eq_some_iff] at h
    obtain ⟨a, ha, b, hb, -⟩ := h
    exact ⟨canonV_nums F v a ha, canonEs_nums F vs b hb⟩

theorem canonMs_nums (F : FloatFmt) : ∀ (m : List (Str × JV)) (x : List NameValue),
    canonMs F m = some x → membersNums (FiniteNumber F) m
  | [], _, _ => trivial
  | (k, v) :: ms, x, h => by
    simp only [canonMs, Option.map_eq_some_iff, Option.bind_eq_some_iff] at h
    obtain ⟨a, ha, b, hb, -⟩ := h
    exact ⟨canonV_nums F v a ha, canonMs_nums F ms b hb⟩
end

end Stix.Canon
