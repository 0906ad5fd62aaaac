import Verif.Lemmas.Utf8
import Verif.Model.Text
import Verif.Spec.Text

/-!
# Lemmas about JSON texts: strings
-/

namespace Stix.Text
open Stix Stix.Spec.Canon Stix.Spec.Text
open Stix.Canon (isWS skipWS hexVal getUEscape isSurrogate decodePair encodeRune)

theorem hexVal_some_fin : ∀ n : Fin 256,
    (hexVal (UInt8.ofNat n)).all (fun d =>
      (b!"0123456789abcdef")[d]? == some (UInt8.ofNat n) ||
      (b!"0123456789ABCDEF")[d]? == some (UInt8.ofNat n)) = true := by
  decide +kernel

theorem hexVal_some {c : UInt8} {d : Nat} (h : hexVal c = some d) : IsHex c d := by
  have := hexVal_some_fin ⟨c.toNat, c.toNat_lt⟩
  simp only [UInt8.ofNat_toNat, h, Option.all_some, Bool.or_eq_true, beq_iff_eq] at this
  exact this

theorem isHex4_of {a b c d : UInt8} (ha : (hexVal a).isSome) (hb : (hexVal b).isSome)
    (hc : (hexVal c).isSome) (hd : (hexVal d).isSome) : ∃ n, IsHex4 [a, b, c, d] n := by
  obtain ⟨w, hw⟩ := Option.isSome_iff_exists.1 ha
  obtain ⟨x, hx⟩ := Option.isSome_iff_exists.1 hb
  obtain ⟨y, hy⟩ := Option.isSome_iff_exists.1 hc
  obtain ⟨z, hz⟩ := Option.isSome_iff_exists.1 hd
  exact ⟨_, a, b, c, d, w, x, y, z, rfl, hexVal_some hw, hexVal_some hx, hexVal_some hy,
    hexVal_some hz, rfl⟩

theorem isHex_lt {c : UInt8} {d : Nat} (h : IsHex c d) : d < 16 := by
  rcases h with h | h <;> exact (List.getElem?_eq_some_iff.1 h).1

theorem isHex4_lt {h : Str} {n : Nat} (hh : IsHex4 h n) : n < 0x10000 := by
  obtain ⟨a, b, c, d, w, x, y, z, rfl, ha, hb, hc, hd, rfl⟩ := hh
  have := isHex_lt ha
  have := isHex_lt hb
  have := isHex_lt hc
  have := isHex_lt hd
  omega

theorem isHex4_inj {h : Str} {n m : Nat} (hh : IsHex4 h n) (hm : IsHex4 h m) : n = m := by
  have a := Canon.getUEscape_isHex4 hh []
  rw [Canon.getUEscape_isHex4 hm []] at a
  simpa using a.symm

/-- What the scanner passes between two quotes. -/
inductive Scans : Str → Prop
  | nil : Scans []
  | plain {c body} : 32 ≤ c → c ≠ 34 → c ≠ 92 → Scans body → Scans (c :: body)
  | short {l x body} : (l, x) ∈ shortEscapes → Scans body → Scans (92 :: l :: body)
  | hex {h n body} : IsHex4 h n → Scans body → Scans (b!"\\u" ++ h ++ body)

theorem isEscape_iff (e : UInt8) : isEscape e = true ↔ ∃ x, (e, x) ∈ shortEscapes := by
  constructor
  · intro h
    simp only [isEscape, List.contains_iff_mem] at h
    have : ∀ e ∈ (b!"bfnrt\\/\""), (e, escaped e) ∈ shortEscapes := by decide
    exact ⟨_, this e h⟩
  · rintro ⟨x, hx⟩
    simp [shortEscapes] at hx
    rcases hx with h | h | h | h | h | h | h | h <;> obtain ⟨rfl, rfl⟩ := h <;> decide

theorem strBody_scans {body : Str} (h : Scans body) (r : Str) :
    strBody (body ++ 34 :: r) = some (body, r) := by
  induction h with
  | nil => rw [List.nil_append]; unfold strBody; rfl
  | @plain c body h1 h2 h3 _ ih =>
    have : ¬ c < 0x20 := by rw [UInt8.not_lt]; exact h1
    rw [List.cons_append]
    unfold strBody
    rw [if_neg h2, if_neg h3, if_neg this, ih]; rfl
  | @short l x body h1 _ ih =>
    rw [List.cons_append, List.cons_append]
    unfold strBody
    rw [if_neg (by decide), if_pos rfl]
    simp only [(isEscape_iff l).2 ⟨x, h1⟩, if_true, ih]; rfl
  | @hex h n body h1 _ ih =>
    obtain ⟨a, b, c, d, w, x, y, z, rfl, ha, hb, hc, hd, rfl⟩ := h1
    have e : (b!"\\u" ++ [a, b, c, d] ++ body) ++ 34 :: r
        = 92 :: 117 :: a :: b :: c :: d :: (body ++ 34 :: r) := by simp
    rw [e]
    unfold strBody
    rw [if_neg (by decide), if_pos rfl]
    simp only [show isEscape 117 = false by decide, Bool.false_eq_true, if_false, if_true,
      Canon.hexVal_isHex ha, Canon.hexVal_isHex hb, Canon.hexVal_isHex hc, Canon.hexVal_isHex hd,
      Option.isSome_some, Bool.and_self, ih]
    rfl

theorem strBody_len : ∀ (n : Nat) (t body r : Str), t.length ≤ n → strBody t = some (body, r) →
    Scans body ∧ t = body ++ 34 :: r
  | _, [], _, _, _, h => by simp [strBody] at h
  | 0, _ :: _, _, _, hn, _ => by simp at hn
  | n + 1, c :: t, body, r, hn, h => by
    unfold strBody at h
    split at h
    · rename_i h1
      cases h
      exact ⟨.nil, by rw [h1]; rfl⟩
    split at h
    · rename_i h1 h2
      cases t with
      | nil => simp at h
      | cons e t =>
        dsimp only at h
        split at h
        · rename_i h3
          obtain ⟨⟨b', r'⟩, hb, he⟩ := Option.map_eq_some_iff.1 h
          cases he
          obtain ⟨i1, i2⟩ := strBody_len n t b' r' (by simp at hn; omega) hb
          obtain ⟨x, hx⟩ := (isEscape_iff e).1 h3
          exact ⟨.short hx i1, by rw [h2, i2]; rfl⟩
        split at h
        · rename_i h3 h4
          split at h
          · rename_i r0 a b c d t
            split at h
            · rename_i h5
              simp only [Bool.and_eq_true] at h5
              obtain ⟨⟨b', r'⟩, hb, he⟩ := Option.map_eq_some_iff.1 h
              cases he
              obtain ⟨i1, i2⟩ := strBody_len n t b' r' (by simp at hn; omega) hb
              obtain ⟨m, hm⟩ := isHex4_of h5.1.1.1 h5.1.1.2 h5.1.2 h5.2
              exact ⟨.hex hm i1, by rw [h2, h4, i2]; rfl⟩
            · cases h
          · cases h
        · cases h
    split at h
    · cases h
    · rename_i h1 h2 h3
      obtain ⟨⟨b', r'⟩, hb, he⟩ := Option.map_eq_some_iff.1 h
      cases he
      obtain ⟨i1, i2⟩ := strBody_len n t b' r' (by simpa using hn) hb
      exact ⟨.plain (by rw [UInt8.not_lt] at h3; exact h3) h1 h2 i1, by rw [i2]; rfl⟩

theorem strBody_some {t body r : Str} (h : strBody t = some (body, r)) :
    Scans body ∧ t = body ++ 34 :: r := strBody_len _ t body r le_rfl h

theorem encode_high {c : Char} (h : 128 ≤ c.toNat) : ∀ b ∈ String.utf8EncodeChar c, 128 ≤ b := by
  have hv := Canon.char_valid c
  rw [← Canon.encodeRune_char]
  unfold encodeRune
  have h3 : ¬ ((isSurrogate c.toNat || decide (0x10FFFF < c.toNat)) = true) := by
    simp only [isSurrogate, Bool.or_eq_true, Bool.and_eq_true, decide_eq_true_eq]; omega
  rw [if_neg (show ¬ c.toNat < 0x80 by omega), if_neg h3]
  split_ifs
  all_goals
    intro b hb
    simp only [List.mem_cons, List.not_mem_nil, or_false, Nat.toUInt8] at hb
    rw [UInt8.le_iff_toNat_le]
    rcases hb with rfl | hb
    · rw [Canon.toNat_ofNat (by omega)]; simp; try omega
    rcases hb with rfl | hb
    · rw [Canon.toNat_ofNat (by omega)]; simp; try omega
    all_goals
      rcases hb with rfl | hb
      · rw [Canon.toNat_ofNat (by omega)]; simp; try omega
      try (rw [hb, Canon.toNat_ofNat (by omega)]; simp)

theorem scans_drop {l t : Str} (h : ∀ b ∈ l, (128 : UInt8) ≤ b) (hs : Scans (l ++ t)) : Scans t := by
  induction l with
  | nil => exact hs
  | cons b l ih =>
    have hb : 128 ≤ b := h b List.mem_cons_self
    have hne : b ≠ 92 := by rintro rfl; exact absurd hb (by decide)
    generalize he : (b :: l) ++ t = x at hs
    cases hs with
    | nil => cases he
    | plain _ _ _ hs => cases he; exact ih (fun b hb => h b (List.mem_cons_of_mem _ hb)) hs
    | short => exact absurd (List.cons.inj he).1 hne
    | hex => exact absurd (List.cons.inj he).1 hne

theorem scans_char {c : Char} {body : Str} (h : 128 ≤ c.toNat) (hs : Scans body) :
    Scans (String.utf8EncodeChar c ++ body) := by
  have := encode_high h
  generalize String.utf8EncodeChar c = l at *
  induction l with
  | nil => exact hs
  | cons b l ih =>
    have hb : 128 ≤ b := this b List.mem_cons_self
    refine .plain (UInt8.le_trans (show (32 : UInt8) ≤ 128 by decide) hb) ?_ ?_ (ih fun b hb => this b (List.mem_cons_of_mem _ hb))
    · rintro rfl; exact absurd hb (by decide)
    · rintro rfl; exact absurd hb (by decide)

/-- What can be read is passed. -/
theorem scans_of_reads {body s : Str} (h : Reads body s) : Scans body := by
  induction h with
  | nil => exact .nil
  | ascii h1 _ h3 h4 _ ih => exact .plain h1 h3 h4 ih
  | char h1 _ ih => exact scans_char h1 ih
  | @byte c body s h1 _ _ ih =>
    refine .plain (UInt8.le_trans (show (32 : UInt8) ≤ 128 by decide) h1) ?_ ?_ ih
    · rintro rfl; exact absurd h1 (by decide)
    · rintro rfl; exact absurd h1 (by decide)
  | short h1 _ ih => exact .short h1 ih
  | hex _ h2 _ ih => exact .hex h2 ih
  | pair _ h2 h3 _ ih => exact .hex h2 (.hex h3 ih)
  | half h1 _ _ _ _ ih => exact .hex h1 ih

theorem scans_hex {h body : Str} {n : Nat} (hh : IsHex4 h n) (hs : Scans (b!"\\u" ++ h ++ body)) :
    Scans body := by
  obtain ⟨a, b, c, d, w, x, y, z, rfl, -⟩ := hh
  generalize he : b!"\\u" ++ [a, b, c, d] ++ body = t at hs
  cases hs with
  | nil => cases he
  | plain _ _ h3 _ => cases he; exact absurd rfl h3
  | short h1 _ => cases he; exact absurd h1 (by simp [shortEscapes])
  | hex h1 hs =>
    obtain ⟨a', b', c', d', _, _, _, _, rfl, -⟩ := h1
    cases he
    exact hs

theorem surrogate_char {a b : Nat} (ha : 0xD800 ≤ a ∧ a < 0xDC00) (hb : 0xDC00 ≤ b ∧ b < 0xE000) :
    ∃ c : Char, units c = [a, b] := by
  obtain ⟨c, hc⟩ := Canon.char_of (n := (a - 0xD800) * 1024 + (b - 0xDC00) + 0x10000) (by omega)
  refine ⟨c, ?_⟩
  unfold units
  rw [hc, if_neg (by omega)]
  rw [show 0xD800 + ((a - 0xD800) * 1024 + (b - 0xDC00) + 0x10000 - 0x10000) / 0x400 = a by omega,
    show 0xDC00 + ((a - 0xD800) * 1024 + (b - 0xDC00) + 0x10000 - 0x10000) % 0x400 = b by omega]

/-- What is passed can be read. -/
theorem reads_of_scans : ∀ (n : Nat) (body : Str), body.length ≤ n → Scans body → ∃ s, Reads body s
  | _, [], _, _ => ⟨[], .nil⟩
  | 0, _ :: _, hn, _ => by simp at hn
  | n + 1, x :: t, hn, hs => by
    generalize he : x :: t = body at hs
    cases hs with
    | nil => cases he
    | @plain c body h1 h2 h3 hs =>
      cases he
      by_cases hc : x < 128
      · obtain ⟨s, h⟩ := reads_of_scans n t (by simpa using hn) hs
        exact ⟨_, .ascii h1 hc h2 h3 h⟩
      · have hc : 128 ≤ x := by rw [UInt8.not_lt] at hc; exact hc
        cases hu : utf8Tail x t with
        | none =>
          obtain ⟨s, h⟩ := reads_of_scans n t (by simpa using hn) hs
          exact ⟨_, .byte hc (Canon.utf8Tail_none hu) h⟩
        | some k =>
          obtain ⟨c, h4, h5⟩ := Canon.utf8Tail_some hu
          have hb : ∀ b ∈ String.utf8EncodeChar c, (128 : UInt8) ≤ b := by
            apply encode_high
            by_contra hlt
            have : c.toNat < 128 := by omega
            have e := Canon.encodeRune_char c
            unfold encodeRune at e
            rw [if_pos this, ← h4] at e
            have e1 := (List.cons.inj e).1
            rw [← e1, UInt8.le_iff_toNat_le] at hc
            simp only [Nat.toUInt8] at hc
            rw [Canon.toNat_ofNat (by omega)] at hc
            simp at hc
            omega
          have hge : 128 ≤ c.toNat := by
            by_contra hlt
            have : c.toNat < 128 := by omega
            have e := Canon.encodeRune_char c
            unfold encodeRune at e
            rw [if_pos this] at e
            have := hb _ (by rw [← e]; exact List.mem_cons_self)
            rw [UInt8.le_iff_toNat_le] at this
            simp only [Nat.toUInt8] at this
            rw [Canon.toNat_ofNat (by omega)] at this
            simp at this
            omega
          have e : x :: t = String.utf8EncodeChar c ++ t.drop k := by
            rw [← h4, List.cons_append, List.take_append_drop]
          have hs' : Scans (String.utf8EncodeChar c ++ t.drop k) := by
            rw [← e]; exact .plain h1 h2 h3 hs
          obtain ⟨s, h⟩ := reads_of_scans n (t.drop k) (by simp at hn ⊢; omega) (scans_drop hb hs')
          exact ⟨_, by rw [e]; exact .char hge h⟩
    | @short l y body h1 hs =>
      cases he
      obtain ⟨s, h⟩ := reads_of_scans n body (by simp at hn; omega) hs
      exact ⟨_, .short h1 h⟩
    | @hex h m body h1 hs =>
      have hlen : body.length + 5 ≤ n := by
        have := congrArg List.length he
        simp [Canon.isHex4_length h1] at this hn
        omega
      by_cases hsur : 0xD800 ≤ m ∧ m < 0xE000
      · by_cases hp : ∃ l r b, ∃ c : Char, body = b!"\\u" ++ l ++ r ∧ IsHex4 l b ∧ units c = [m, b]
        · obtain ⟨l, r, b, c, rfl, h2, h3⟩ := hp
          obtain ⟨s, h4⟩ := reads_of_scans n r (by simp at hlen; omega) (scans_hex h2 hs)
          exact ⟨_, .pair h3 h1 h2 h4⟩
        · obtain ⟨s, h4⟩ := reads_of_scans n body (by omega) hs
          refine ⟨_, .half h1 hsur.1 hsur.2 ?_ h4⟩
          intro l r b c e1 e2 e3
          exact hp ⟨l, r, b, c, e1, e2, e3⟩
      · have hm := isHex4_lt h1
        obtain ⟨c, hc⟩ := Canon.char_of (n := m) (by omega)
        obtain ⟨s, h4⟩ := reads_of_scans n body (by omega) hs
        exact ⟨_, .hex (c := c) (by omega) (by rw [hc]; exact h1) h4⟩

theorem getu4_hex {h : Str} {n : Nat} (hh : IsHex4 h n) (r : Str) :
    getu4 (b!"\\u" ++ h ++ r) = some (n, r) := by
  show getUEscape (h ++ r) = _
  exact Canon.getUEscape_isHex4 hh r

theorem getu4_some {t r : Str} {n : Nat} (h : getu4 t = some (n, r)) :
    ∃ h, t = b!"\\u" ++ h ++ r ∧ IsHex4 h n := by
  unfold getu4 at h
  split at h
  · unfold getUEscape at h
    split at h
    · rename_i a b c d r'
      simp only [Option.bind_eq_bind, Option.bind_eq_some_iff, Option.pure_def, Option.some.injEq,
        Prod.mk.injEq] at h
      obtain ⟨w, hw, x, hx, y, hy, z, hz, rfl, rfl⟩ := h
      exact ⟨[a, b, c, d], rfl, a, b, c, d, w, x, y, z, rfl, hexVal_some hw, hexVal_some hx,
        hexVal_some hy, hexVal_some hz, by omega⟩
    · cases h
  · cases h

/-- A string is decoded to what it denotes. -/
theorem unquoteAux_reads {body s : Str} (h : Reads body s) : ∀ n, body.length ≤ n →
    unquoteAux n body = s := by
  induction h with
  | nil => intro n _; cases n <;> rfl
  | @ascii c body s h1 h2 h3 h4 _ ih =>
    intro n hn
    cases n with
    | zero => simp at hn
    | succ n =>
      unfold unquoteAux
      rw [if_neg h4, if_pos h2, ih n (by simpa using hn)]
  | @char c body s h1 _ ih =>
    intro n hn
    obtain ⟨b, tl, he, ht, _⟩ := Canon.utf8Tail_char c body
    have hb : 128 ≤ b := encode_high h1 b (by rw [he]; exact List.mem_cons_self)
    rw [he] at hn ⊢
    cases n with
    | zero => simp at hn
    | succ n =>
      rw [List.cons_append]
      unfold unquoteAux
      rw [if_neg (by rintro rfl; exact absurd hb (by decide)), if_neg (by rw [UInt8.not_lt]; exact hb),
        ht]
      dsimp only
      rw [List.take_left' rfl, List.drop_left' rfl, ih n (by simp at hn; omega)]
  | @byte c body s h1 h2 _ ih =>
    intro n hn
    cases n with
    | zero => simp at hn
    | succ n =>
      have hu : utf8Tail c body = none := by
        cases hu : utf8Tail c body with
        | none => rfl
        | some k =>
          obtain ⟨x, hx, _⟩ := Canon.utf8Tail_some hu
          exact absurd (by rw [← hx, List.cons_append, List.take_append_drop]) (h2 x (body.drop k))
      unfold unquoteAux
      rw [if_neg (by rintro rfl; exact absurd h1 (by decide)), if_neg (by rw [UInt8.not_lt]; exact h1),
        hu, ih n (by simpa using hn)]
      rfl
  | @short l x body s h1 _ ih =>
    intro n hn
    cases n with
    | zero => simp at hn
    | succ n =>
      have hu : getu4 (92 :: l :: body) = none := by
        unfold getu4
        split
        · rename_i e; cases e; exact absurd h1 (by simp [shortEscapes])
        · rfl
      have hx : escaped l = x := by
        simp [shortEscapes] at h1
        rcases h1 with h | h | h | h | h | h | h | h <;> obtain ⟨rfl, rfl⟩ := h <;> decide
      unfold unquoteAux
      rw [if_pos rfl, hu]
      dsimp only
      rw [hx, ih n (by simp at hn; omega)]
  | @hex h body s c h1 h2 _ ih =>
    intro n hn
    cases n with
    | zero => simp at hn
    | succ n =>
      show unquoteAux (n + 1) (92 :: 117 :: (h ++ body)) = _
      unfold unquoteAux
      rw [if_pos rfl, show getu4 (92 :: 117 :: (h ++ body)) = _ from getu4_hex h2 body]
      dsimp only
      rw [Canon.isSurrogate_char, if_neg (by simp), Canon.encodeRune_char,
        ih n (by simp at hn; omega)]
  | @pair h l body s a b c h1 h2 h3 _ ih =>
    intro n hn
    cases n with
    | zero => simp at hn
    | succ n =>
      obtain ⟨hs, hd⟩ := Canon.units_pair h1
      show unquoteAux (n + 1) (92 :: 117 :: (h ++ (b!"\\u" ++ l ++ body))) = _
      unfold unquoteAux
      rw [if_pos rfl, show getu4 (92 :: 117 :: (h ++ (b!"\\u" ++ l ++ body))) = _ from getu4_hex h2 _]
      dsimp only
      rw [if_pos hs, getu4_hex h3]
      dsimp only
      have hne : decodePair a b ≠ 0xFFFD := by
        rw [hd]
        intro e
        unfold units at h1
        rw [if_pos (by omega)] at h1
        simp at h1
      rw [if_pos hne, hd, Canon.encodeRune_char, ih n (by simp at hn; omega)]
  | @half h body s m h1 h2 h3 h4 _ ih =>
    intro n hn
    cases n with
    | zero => simp at hn
    | succ n =>
      have hlt : body.length ≤ n := by simp at hn; omega
      show unquoteAux (n + 1) (92 :: 117 :: (h ++ body)) = _
      unfold unquoteAux
      rw [if_pos rfl, show getu4 (92 :: 117 :: (h ++ body)) = _ from getu4_hex h1 body]
      dsimp only
      rw [if_pos (by simp only [isSurrogate, Bool.and_eq_true, decide_eq_true_eq]; omega)]
      have hrep : encodeRune 0xFFFD = replacement := rfl
      cases hu : getu4 body with
      | none => dsimp only; rw [hrep, ih n hlt]
      | some p =>
        obtain ⟨v, r⟩ := p
        dsimp only
        obtain ⟨l, hl1, hl2⟩ := getu4_some hu
        rw [if_neg, hrep, ih n hlt]
        intro hne
        unfold decodePair at hne
        split at hne
        · rename_i hp
          obtain ⟨c, hc⟩ := surrogate_char (a := m) (b := v) (by omega) (by omega)
          exact h4 l r v c hl1 hl2 hc
        · exact hne rfl

theorem unquote_reads {body s : Str} (h : Reads body s) : unquote body = s :=
  unquoteAux_reads h _ le_rfl

theorem reads_unquote {body : Str} (h : Scans body) : Reads body (unquote body) := by
  obtain ⟨s, hs⟩ := reads_of_scans _ body le_rfl h
  rw [unquote_reads hs]
  exact hs

theorem strBody_reads {body s : Str} (h : Reads body s) (r : Str) :
    strBody (body ++ 34 :: r) = some (body, r) := strBody_scans (scans_of_reads h) r

end Stix.Text
