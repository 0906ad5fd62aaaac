import Verif.Lemmas.Canon

/-!
# Lemmas about the canonicaliser: strings, white space, tokens and insertion
-/

namespace Stix.Canon
open Stix Stix.Spec.Canon

theorem hexVal_isHex {c : UInt8} {d : Nat} (h : IsHex c d) : hexVal c = some d := by
  have hd : d < 16 := by
    rcases h with h | h <;> exact (List.getElem?_eq_some_iff.1 h).1
  interval_cases d <;> rcases h with h | h <;> simp [List.getElem?_eq_some_iff] at h <;>
    subst h <;> decide

theorem getUEscape_isHex4 {h : Str} {n : Nat} (hh : IsHex4 h n) (r : Str) :
    getUEscape (h ++ r) = some (n, r) := by
  obtain ⟨a, b, c, d, w, x, y, z, rfl, ha, hb, hc, hd, rfl⟩ := hh
  simp only [getUEscape, List.cons_append, List.nil_append, hexVal_isHex ha, hexVal_isHex hb,
    hexVal_isHex hc, hexVal_isHex hd, Option.bind_eq_bind, Option.bind_some, Option.pure_def]
  congr 2; omega

theorem isHex4_length {h : Str} {n : Nat} (hh : IsHex4 h n) : h.length = 4 := by
  obtain ⟨a, b, c, d, w, x, y, z, rfl, _⟩ := hh
  rfl

theorem isSurrogate_char (c : Char) : isSurrogate c.toNat = false := by
  have := char_valid c
  simp only [isSurrogate, Bool.and_eq_false_iff, decide_eq_false_iff_not]; omega

theorem units_pair {c : Char} {a b : Nat} (h : units c = [a, b]) :
    isSurrogate a = true ∧ decodePair a b = c.toNat := by
  have := char_valid c
  unfold units at h
  split_ifs at h with h1
  · simp at h
  simp only [List.cons.injEq, and_true] at h
  obtain ⟨rfl, rfl⟩ := h
  constructor
  · simp only [isSurrogate, Bool.and_eq_true, decide_eq_true_eq]; omega
  · unfold decodePair; rw [if_pos (by omega)]; omega

theorem pair_units {a b : Nat} (h : 0xD800 ≤ a ∧ a < 0xDC00 ∧ 0xDC00 ≤ b ∧ b < 0xE000) :
    ∃ c : Char, units c = [a, b] := by
  have hv : ((a - 0xD800) * 1024 + (b - 0xDC00) + 0x10000).isValidChar := by
    unfold Nat.isValidChar; omega
  refine ⟨Char.ofNatAux _ hv, ?_⟩
  have e : (Char.ofNatAux _ hv).toNat = (a - 0xD800) * 1024 + (b - 0xDC00) + 0x10000 := by rfl
  unfold units
  rw [e, if_neg (by omega)]
  simp only [List.cons.injEq, and_true]
  omega

theorem decodePair_broken {a b : Nat} (h : ∀ c, units c ≠ [a, b]) :
    decodePair a b = ('\uFFFD').toNat := by
  unfold decodePair
  rw [if_neg]
  · rfl
  · intro hh
    obtain ⟨c, hc⟩ := pair_units hh
    exact h c hc

theorem unescape_short {l x : UInt8} (h : (l, x) ∈ shortEscapes) :
    (l = 47 ∧ x = 47) ∨ (l ≠ 47 ∧ unescape l = some x) := by
  simp [shortEscapes] at h
  rcases h with h | h | h | h | h | h | h | h <;> obtain ⟨rfl, rfl⟩ := h <;> decide

theorem short_ascii {l x : UInt8} (h : (l, x) ∈ shortEscapes) : ¬ l > 0x7f ∧ l ≠ 117 := by
  simp [shortEscapes] at h
  rcases h with h | h | h | h | h | h | h | h <;> obtain ⟨rfl, rfl⟩ := h <;> decide

/-- Every spelling of a string is read back as the string. -/
theorem parseQuoted_spells {body s : Str} (h : Spells body s) : ∀ (n : Nat) (r : Str),
    body.length < n → parseQuoted n (body ++ 34 :: r) = some (s, r) := by
  induction h with
  | nil => intro n r hn; cases n with
    | zero => omega
    | succ n => simp [parseQuoted]
  | @plain c body s h1 h2 h3 _ ih =>
    intro n r hn
    cases n with
    | zero => omega
    | succ n =>
      have : ¬ c < 0x20 := by rw [UInt8.lt_iff_toNat_lt]; rw [UInt8.le_iff_toNat_le] at h1; simpa using h1
      simp [parseQuoted, h2, h3, this, ih n r (by simp at hn; omega)]
  | @short l x body s h1 _ ih =>
    intro n r hn
    cases n with
    | zero => omega
    | succ n =>
      have hr := ih n r (by simp at hn; omega)
      obtain ⟨ha, hu⟩ := short_ascii h1
      rw [List.cons_append, List.cons_append]
      unfold parseQuoted
      rw [if_neg (by decide), if_neg (by decide), if_pos rfl]
      simp only [nextChar, if_neg ha, Option.bind_eq_bind, Option.bind_some, if_neg hu]
      rcases unescape_short h1 with ⟨rfl, rfl⟩ | ⟨hne, hx⟩
      · simp [hr]
      · simp [hne, hx, hr]
  | @hex h body s c h1 h2 _ ih =>
    intro n r hn
    cases n with
    | zero => omega
    | succ n =>
      have hr := ih n r (by simp at hn; omega)
      change parseQuoted (n + 1) (92 :: 117 :: ((h ++ body) ++ 34 :: r)) = _
      rw [List.append_assoc]
      unfold parseQuoted
      rw [if_neg (by decide), if_neg (by decide), if_pos rfl]
      simp only [nextChar, if_neg (show ¬ (117 : UInt8) > 0x7f by decide), Option.bind_eq_bind,
        Option.bind_some, if_true, getUEscape_isHex4 h2, isSurrogate_char, Bool.false_eq_true,
        if_false, hr, encodeRune_char, Option.pure_def]
  | @pair h l body s a b c h1 h2 h3 _ ih =>
    intro n r hn
    cases n with
    | zero => omega
    | succ n =>
      have hr := ih n r (by simp at hn; omega)
      obtain ⟨hs, hd⟩ := units_pair h1
      have e : (b!"\\u" ++ h ++ b!"\\u" ++ l ++ body) ++ 34 :: r
          = 92 :: 117 :: (h ++ (92 :: 117 :: (l ++ (body ++ 34 :: r)))) := by simp
      rw [e]
      unfold parseQuoted
      rw [if_neg (by decide), if_neg (by decide), if_pos rfl]
      simp only [nextChar, if_neg (show ¬ (117 : UInt8) > 0x7f by decide),
        if_neg (show ¬ (92 : UInt8) > 0x7f by decide), Option.bind_eq_bind,
        Option.bind_some, if_true, getUEscape_isHex4 h2, hs,
        ne_eq, not_true, if_false, getUEscape_isHex4 h3, hd, hr, encodeRune_char, Option.pure_def]

  | @broken h l body s a b ha hb hu h2 h3 _ ih =>
    intro n r hn
    cases n with
    | zero => omega
    | succ n =>
      have hr := ih n r (by simp at hn; omega)
      have hs : isSurrogate a = true := by
        simp only [isSurrogate, Bool.and_eq_true, decide_eq_true_eq]; omega
      have hd : decodePair a b = ('\uFFFD').toNat := decodePair_broken hu
      have e : (b!"\\u" ++ h ++ b!"\\u" ++ l ++ body) ++ 34 :: r
          = 92 :: 117 :: (h ++ (92 :: 117 :: (l ++ (body ++ 34 :: r)))) := by simp
      rw [e]
      unfold parseQuoted
      rw [if_neg (by decide), if_neg (by decide), if_pos rfl]
      simp only [nextChar, if_neg (show ¬ (117 : UInt8) > 0x7f by decide),
        if_neg (show ¬ (92 : UInt8) > 0x7f by decide), Option.bind_eq_bind,
        Option.bind_some, if_true, getUEscape_isHex4 h2, hs,
        ne_eq, not_true, if_false, getUEscape_isHex4 h3, hd, hr, encodeRune_char, Option.pure_def]

theorem decorateByte_fin : ∀ n : Fin 256, decorateByte (UInt8.ofNat n) = escapeByte (UInt8.ofNat n) := by
  decide +kernel

theorem decorateByte_all (c : UInt8) : decorateByte c = escapeByte c := by
  have := decorateByte_fin ⟨c.toNat, c.toNat_lt⟩
  simpa using this

theorem decorate_eq (s : Str) : decorate s = b!"\"" ++ s.flatMap escapeByte ++ b!"\"" := by
  unfold decorate
  rw [List.flatMap_congr (fun c _ => decorateByte_all c)]

/-- How `escapeByte` can look: itself, a short escape, or a `\u00hh` of a control character. -/
theorem escapeByte_spells (c : UInt8) {body s : Str} (h : Spells body s) :
    Spells (escapeByte c ++ body) (c :: s) := by
  have hshort : ∀ l, (l, c) ∈ shortEscapes → escapeByte c = [92, l] →
      Spells (escapeByte c ++ body) (c :: s) := by
    intro l hl he; rw [he]; exact Spells.short hl h
  have hplain : 32 ≤ c → c ≠ 34 → c ≠ 92 → escapeByte c = [c] →
      Spells (escapeByte c ++ body) (c :: s) := by
    intro h1 h2 h3 he; rw [he]; exact Spells.plain h1 h2 h3 h
  have hhex : ∀ (d : Char) (u v : Nat), d.toNat = u * 16 + v → String.utf8EncodeChar d = [c] →
      (∃ x y, escapeByte c = b!"\\u" ++ [48, 48, x, y] ∧ IsHex x u ∧ IsHex y v) →
      u < 2 → v < 16 →
      Spells (escapeByte c ++ body) (c :: s) := by
    rintro d u v hd he ⟨x, y, hxy, hx, hy⟩ hu hv
    have := Spells.hex (h := [48, 48, x, y]) (c := d) (by omega)
      ⟨48, 48, x, y, 0, 0, u, v, rfl, by unfold IsHex; decide, by unfold IsHex; decide, hx, hy, by omega⟩ h
    rw [he] at this
    rw [hxy]
    exact this
  by_cases h1 : c < 32
  · have hc : c.toNat < 32 := by rw [UInt8.lt_iff_toNat_lt] at h1; simpa using h1
    have e : c = UInt8.ofNat c.toNat := by simp
    generalize c.toNat = n at hc e
    have hx : ∀ m, m < 32 →
      (∃ l, (l, UInt8.ofNat m) ∈ shortEscapes ∧ escapeByte (UInt8.ofNat m) = [92, l]) ∨
      ((Char.ofNat m).toNat = m / 16 * 16 + m % 16 ∧ String.utf8EncodeChar (Char.ofNat m) = [UInt8.ofNat m] ∧
        ∃ x ∈ b!"01", ∃ y ∈ b!"0123456789abcdef", escapeByte (UInt8.ofNat m) = b!"\\u" ++ [48, 48, x, y] ∧
          (b!"0123456789abcdef")[m / 16]? = some x ∧ (b!"0123456789abcdef")[m % 16]? = some y) := by
      intro m hm
      interval_cases m <;> first
        | (right; refine ⟨by decide, by decide, _, ?_, _, ?_, rfl, rfl, rfl⟩ <;> decide)
        | (left; exact ⟨_, by decide, rfl⟩)
    rcases hx n hc with ⟨l, hl, he⟩ | ⟨hd, hu, x, _, y, _, hxy, hx, hy⟩
    · rw [← e] at hl he; exact hshort l hl he
    · rw [← e] at hu hxy
      exact hhex _ _ _ hd hu ⟨x, y, hxy, Or.inl hx, Or.inl hy⟩ (by omega) (by omega)
  · by_cases h2 : c = 34
    · subst h2; exact hshort 34 (by decide) rfl
    by_cases h3 : c = 92
    · subst h3; exact hshort 92 (by decide) rfl
    have h1' : 32 ≤ c := by rw [UInt8.le_iff_toNat_le]; rw [UInt8.lt_iff_toNat_lt] at h1; simpa using h1
    refine hplain h1' h2 h3 ?_
    have a : ∀ k : UInt8, k < 32 → ¬ c = k := by
      intro k hk e; exact h1 (by rw [e]; exact hk)
    simp [escapeByte, h2, h3, a 8 (by decide), a 9 (by decide), a 10 (by decide), a 12 (by decide),
      a 13 (by decide), h1]

theorem escape_spells (s : Str) : Spells (s.flatMap escapeByte) s := by
  induction s with
  | nil => exact Spells.nil
  | cons c s ih => rw [List.flatMap_cons]; exact escapeByte_spells c ih

/-! ## White space -/

theorem isWS_iff (c : UInt8) : isWS c = true ↔ c ∈ [(32 : UInt8), 9, 10, 13] := by
  simp [isWS]; tauto

theorem skipWS_white {w : Str} (h : White w) (s : Str) : skipWS (w ++ s) = skipWS s := by
  induction w with
  | nil => rfl
  | cons c w ih =>
    simp only [List.cons_append, skipWS, (isWS_iff c).2 (h c List.mem_cons_self), if_true]
    exact ih (fun x hx => h x (List.mem_cons_of_mem _ hx))

theorem scan_white {w : Str} (h : White w) (s : Str) : scan (w ++ s) = scan s := by
  unfold scan; rw [skipWS_white h]

theorem scanFor_white {w : Str} (h : White w) (e : UInt8) (s : Str) :
    scanFor e (w ++ s) = scanFor e s := by
  unfold scanFor; rw [scan_white h]

theorem scan_cons {c : UInt8} (h1 : isWS c = false) (h2 : ¬ c > 0x7f) (r : Str) :
    scan (c :: r) = some (c, r) := by
  simp [scan, skipWS, h1, nextChar, h2]

theorem scanFor_cons {c : UInt8} (h1 : isWS c = false) (h2 : ¬ c > 0x7f) (r : Str) :
    scanFor c (c :: r) = some r := by
  simp [scanFor, scan_cons h1 h2]

theorem white_append {a b : Str} (ha : White a) (hb : White b) : White (a ++ b) := by
  intro c hc
  rcases List.mem_append.1 hc with h | h
  · exact ha c h
  · exact hb c h

/-- The input goes on with a delimiter. -/
def Stop (s : Str) : Prop := ∃ w c r, White w ∧ (c = 44 ∨ c = 93 ∨ c = 125) ∧ s = w ++ c :: r

theorem stop_white {w s : Str} (h : White w) (hs : Stop s) : Stop (w ++ s) := by
  obtain ⟨w', c, r, hw, hc, rfl⟩ := hs
  exact ⟨w ++ w', c, r, white_append h hw, hc, by simp⟩

theorem stop_cons {c : UInt8} {r : Str} (h : c = 44 ∨ c = 93 ∨ c = 125) : Stop (c :: r) :=
  ⟨[], c, r, by intro x hx; simp at hx, h, rfl⟩

theorem peek_stop {s : Str} (h : Stop s) : ∃ c, peek s = some c ∧ (c = 44 ∨ c = 93 ∨ c = 125) := by
  obtain ⟨w, c, r, hw, hc, rfl⟩ := h
  refine ⟨c, ?_, hc⟩
  unfold peek
  rw [scan_white hw, scan_cons]
  · rfl
  · rcases hc with rfl | rfl | rfl <;> decide
  · rcases hc with rfl | rfl | rfl <;> decide

/-- The bytes simple tokens are made of. -/
def TokByte (c : UInt8) : Prop :=
  isWS c = false ∧ ¬ c > 0x7f ∧ c ≠ 44 ∧ c ≠ 93 ∧ c ≠ 125

theorem token_stop {t s : Str} (ht : ∀ c ∈ t, TokByte c) (hs : Stop s) :
    token (t ++ s) = some (t, s) := by
  induction t with
  | nil =>
    obtain ⟨p, hp, hc⟩ := peek_stop hs
    cases s with
    | nil => obtain ⟨w, c, r, _, _, e⟩ := hs; simp at e
    | cons x r => simp only [List.nil_append, token, hp, if_pos hc]
  | cons c t ih =>
    obtain ⟨h1, h2, h3, h4, h5⟩ := ht c List.mem_cons_self
    have := ih (fun x hx => ht x (List.mem_cons_of_mem _ hx))
    simp only [List.cons_append, token, peek, scan_cons h1 h2, Option.map_some, if_neg h2, h1,
      this, if_neg (show ¬ (c = 44 ∨ c = 93 ∨ c = 125) by simp [h3, h4, h5]), Bool.false_eq_true, if_false]

theorem numToken_iff {t : Str} : NumToken t ↔ t.headD 34 ∉ b!"\"[{" ∧ ¬ Literal t ∧
    ∀ c ∈ t, TokByte c := by
  unfold NumToken
  have key : ∀ c : UInt8, (c < 128 ∧ c ∉ b!" \t\n\x0d,]}") ↔ TokByte c := by
    intro c
    have hlt : c < 128 ↔ ¬ c > 0x7f := by
      rw [gt_iff_lt, UInt8.lt_iff_toNat_lt, UInt8.lt_iff_toNat_lt]; simp; omega
    rw [hlt]
    simp only [TokByte, isWS, List.mem_cons, List.not_mem_nil, or_false, not_or]
    simp
    tauto
  simp only [key]

theorem numToken_tok {t : Str} (h : NumToken t) : ∀ c ∈ t, TokByte c := (numToken_iff.1 h).2.2

theorem numToken_ne {t : Str} (h : NumToken t) : t ≠ [] := by
  rintro rfl; exact h.1 (by decide)

theorem numToken_chars {t : Str} (h0 : t ≠ []) (h : ∀ c ∈ t, c ∈ b!"0123456789+-.eE") :
    NumToken t := by
  have key : ∀ c ∈ (b!"0123456789+-.eE"), (c ∉ b!"\"[{") ∧ c < 128 ∧ c ∉ b!" \t\n\x0d,]}" := by decide
  refine ⟨?_, ?_, fun c hc => (key c (h c hc)).2⟩
  · cases t with
    | nil => exact absurd rfl h0
    | cons c t => exact (key c (h c List.mem_cons_self)).1
  · rintro (rfl | rfl | rfl) <;> exact absurd h (by decide)

/-! ## Insertion -/

/-- Ascending sort keys. -/
def Asc (l : List NameValue) : Prop := l.Pairwise (fun a b => a.key < b.key)

theorem insert_perm {m : NameValue} {l l' : List NameValue} (h : insert m l = some l') :
    l'.Perm (m :: l) := by
  induction l generalizing l' with
  | nil => simp [insert] at h; subst h; exact List.Perm.refl _
  | cons e es ih =>
    simp only [insert] at h
    split at h
    · simp at h; subst h; exact List.Perm.refl _
    · simp at h
    · split at h
      · simp at h
      · rename_i es' he
        simp at h; subst h
        exact ((ih he).cons e).trans (List.Perm.swap m e es)

theorem insert_asc {m : NameValue} {l l' : List NameValue} (hl : Asc l) (h : insert m l = some l') :
    Asc l' := by
  induction l generalizing l' with
  | nil => simp [insert] at h; subst h; exact List.pairwise_singleton _ _
  | cons e es ih =>
    obtain ⟨he, hes⟩ := List.pairwise_cons.1 hl
    simp only [insert] at h
    split at h
    · rename_i hc
      rw [cmpKeys_lt] at hc
      simp at h; subst h
      refine List.pairwise_cons.2 ⟨?_, hl⟩
      intro x hx
      rcases List.mem_cons.1 hx with rfl | hx
      · exact hc
      · exact List.lt_trans hc (he x hx)
    · simp at h
    · rename_i hc
      rw [cmpKeys_gt] at hc
      split at h
      · simp at h
      · rename_i es' hins
        simp at h; subst h
        refine List.pairwise_cons.2 ⟨?_, ih hes hins⟩
        intro x hx
        rcases List.mem_cons.1 ((insert_perm hins).mem_iff.1 hx) with rfl | hx
        · exact hc
        · exact he x hx

theorem insert_none {m : NameValue} {l : List NameValue} (hl : Asc l) :
    insert m l = none ↔ ∃ e ∈ l, e.key = m.key := by
  induction l with
  | nil => simp [insert]
  | cons e es ih =>
    obtain ⟨he, hes⟩ := List.pairwise_cons.1 hl
    simp only [insert]
    split
    · rename_i hc
      rw [cmpKeys_lt] at hc
      simp only [reduceCtorEq, false_iff]
      rintro ⟨x, hx, hk⟩
      rcases List.mem_cons.1 hx with rfl | hx
      · rw [hk] at hc; exact List.lt_irrefl _ hc
      · have := List.lt_trans hc (he x hx); rw [hk] at this; exact List.lt_irrefl _ this
    · rename_i hc
      rw [cmpKeys_eq] at hc
      simp only [true_iff]
      exact ⟨e, List.mem_cons_self, hc.symm⟩
    · rename_i hc
      rw [cmpKeys_gt] at hc
      have := ih hes
      split
      · rename_i hn
        simp only [true_iff]
        obtain ⟨x, hx, hk⟩ := this.1 hn
        exact ⟨x, List.mem_cons_of_mem _ hx, hk⟩
      · rename_i l' hn
        simp only [reduceCtorEq, false_iff]
        rintro ⟨x, hx, hk⟩
        rcases List.mem_cons.1 hx with rfl | hx
        · rw [hk] at hc; exact List.lt_irrefl _ hc
        · have := this.2 ⟨x, hx, hk⟩; rw [hn] at this; simp at this

/-- Insertion of a list of members, left to right. -/
def insertAll : List NameValue → List NameValue → Option (List NameValue)
  | [], acc => some acc
  | m :: ms, acc => (insert m acc).bind (insertAll ms)

theorem insertAll_some {ms acc l : List NameValue} (hacc : Asc acc) (h : insertAll ms acc = some l) :
    Asc l ∧ l.Perm (ms ++ acc) := by
  induction ms generalizing acc with
  | nil => simp [insertAll] at h; subst h; exact ⟨hacc, List.Perm.refl _⟩
  | cons m ms ih =>
    simp only [insertAll, Option.bind_eq_some_iff] at h
    obtain ⟨a, ha, h⟩ := h
    obtain ⟨h1, h2⟩ := ih (insert_asc hacc ha) h
    refine ⟨h1, h2.trans ?_⟩
    exact (List.Perm.append_left ms (insert_perm ha)).trans List.perm_middle

theorem insertAll_none {ms acc : List NameValue} (hacc : Asc acc) (h : insertAll ms acc = none) :
    ¬ ((ms ++ acc).map NameValue.key).Nodup := by
  induction ms generalizing acc with
  | nil => simp [insertAll] at h
  | cons m ms ih =>
    simp only [insertAll, Option.bind_eq_none_iff] at h
    cases ha : insert m acc with
    | none =>
      obtain ⟨e, he, hk⟩ := (insert_none hacc).1 ha
      intro hn
      simp only [List.cons_append, List.map_cons, List.nodup_cons] at hn
      exact hn.1 (List.mem_map.2 ⟨e, by simp [he], hk⟩)
    | some a =>
      have := ih (insert_asc hacc ha) (h a ha)
      intro hn
      apply this
      have hp : (ms ++ a).Perm (m :: ms ++ acc) :=
        (List.Perm.append_left ms (insert_perm ha)).trans List.perm_middle
      exact (hp.map NameValue.key).nodup_iff.2 hn

theorem asc_nodup {l : List NameValue} (h : Asc l) : (l.map NameValue.key).Nodup := by
  refine List.Pairwise.map _ ?_ h
  intro a b hab e
  rw [e] at hab; exact List.lt_irrefl _ hab

/-- The sorted list of a set of members is unique. -/
theorem asc_unique {l l' : List NameValue} (h : Asc l) (h' : Asc l') (hp : l.Perm l') : l = l' := by
  refine List.Perm.eq_of_pairwise ?_ h h' hp
  intro a b _ _ hab hba
  exact absurd (List.lt_trans hab hba) (List.lt_irrefl _)

theorem insertAll_isSome {ms : List NameValue} :
    (∃ l, insertAll ms [] = some l) ↔ (ms.map NameValue.key).Nodup := by
  constructor
  · rintro ⟨l, hl⟩
    obtain ⟨h1, h2⟩ := insertAll_some (List.Pairwise.nil) hl
    rw [List.append_nil] at h2
    exact (h2.map NameValue.key).nodup_iff.1 (asc_nodup h1)
  · intro h
    cases hh : insertAll ms [] with
    | some l => exact ⟨l, rfl⟩
    | none => exact absurd (by simpa using h) (insertAll_none List.Pairwise.nil hh)

/-- Inserting the members in another order gives the same. -/
theorem insertAll_perm {ms ns : List NameValue} (h : ms.Perm ns) :
    insertAll ms [] = insertAll ns [] := by
  cases hm : insertAll ms [] with
  | some l =>
    obtain ⟨h1, h2⟩ := insertAll_some (List.Pairwise.nil) hm
    obtain ⟨l', hl'⟩ := insertAll_isSome.2 ((h.map NameValue.key).nodup_iff.1 (insertAll_isSome.1 ⟨l, hm⟩))
    obtain ⟨h1', h2'⟩ := insertAll_some (List.Pairwise.nil) hl'
    rw [hl']
    rw [List.append_nil] at h2 h2'
    rw [asc_unique h1 h1' (h2.trans (h.trans h2'.symm))]
  | none =>
    cases hn : insertAll ns [] with
    | none => rfl
    | some l =>
      obtain ⟨l', hl'⟩ := insertAll_isSome.2 ((h.map NameValue.key).nodup_iff.2 (insertAll_isSome.1 ⟨l, hn⟩))
      rw [hm] at hl'; simp at hl'

/-- Members already in order stay as they are. -/
theorem insertAll_asc {ms : List NameValue} (h : Asc ms) : insertAll ms [] = some ms := by
  obtain ⟨l, hl⟩ := insertAll_isSome.2 (asc_nodup h)
  obtain ⟨h1, h2⟩ := insertAll_some (List.Pairwise.nil) hl
  rw [List.append_nil] at h2
  rw [hl, asc_unique h1 h h2]

end Stix.Canon
