import Verif.Model.Base64
import Verif.Spec.Base64
import Mathlib.Tactic.IntervalCases

/-!
# Binary properties: C26
-/

namespace Stix
open Spec

theorem b64Char_eq (n : Nat) (h : n < 64) : b64Char n = alphabetChar n := by
  have : ∀ n < 64, b64Char n = alphabetChar n := by decide +kernel
  exact this n h

theorem b64Val_char (n : Nat) (h : n < 64) : b64Val (b64Char n) = some n := by
  have : ∀ n < 64, b64Val (b64Char n) = some n := by decide +kernel
  exact this n h

theorem b64Char_plain (n : Nat) (h : n < 64) :
    b64Char n ≠ 10 ∧ b64Char n ≠ 13 ∧ b64Char n ≠ 61 := by
  have : ∀ n < 64, b64Char n ≠ 10 ∧ b64Char n ≠ 13 ∧ b64Char n ≠ 61 := by decide +kernel
  exact this n h

theorem b64Encode_filter (s : Str) :
    (b64Encode s).filter (fun c => c ≠ 10 ∧ c ≠ 13) = b64Encode s := by
  rw [List.filter_eq_self]
  fun_induction b64Encode s with
  | case1 => simp
  | case2 a =>
    have ha := a.toNat_lt
    have h1 := b64Char_plain (a.toNat / 4) (by omega)
    have h2 := b64Char_plain (a.toNat % 4 * 16) (by omega)
    simp [h1, h2]
  | case3 a b =>
    have ha := a.toNat_lt
    have hb := b.toNat_lt
    have h1 := b64Char_plain (a.toNat / 4) (by omega)
    have h2 := b64Char_plain (a.toNat % 4 * 16 + b.toNat / 16) (by omega)
    have h3 := b64Char_plain (b.toNat % 16 * 4) (by omega)
    simp [h1, h2, h3]
  | case4 a b c rest ih =>
    have ha := a.toNat_lt
    have hb := b.toNat_lt
    have hc := c.toNat_lt
    have h1 := b64Char_plain (a.toNat / 4) (by omega)
    have h2 := b64Char_plain (a.toNat % 4 * 16 + b.toNat / 16) (by omega)
    have h3 := b64Char_plain (b.toNat % 16 * 4 + c.toNat / 64) (by omega)
    have h4 := b64Char_plain (c.toNat % 64) (by omega)
    intro x hx
    simp only [List.mem_cons] at hx
    rcases hx with rfl | rfl | rfl | rfl | hx
    · simp [h1]
    · simp [h2]
    · simp [h3]
    · simp [h4]
    · exact ih x hx

theorem toUInt8_eq (a : UInt8) (n : Nat) (h : n = a.toNat) : n.toUInt8 = a := by
  subst h; simp [Nat.toUInt8]

theorem b64_roundtrip (s : Str) : b64DecodeGo (b64Encode s) = some s := by
  fun_induction b64Encode s with
  | case1 => rfl
  | case2 a =>
    have ha := a.toNat_lt
    simp only [b64DecodeGo, b64Val_char (a.toNat / 4) (by omega),
      b64Val_char (a.toNat % 4 * 16) (by omega), Option.bind_eq_bind, Option.bind_some,
      Option.pure_def, and_self, if_true]
    rw [toUInt8_eq a _ (by omega)]
  | case3 a b =>
    have ha := a.toNat_lt
    have hb := b.toNat_lt
    simp only [b64DecodeGo, b64Val_char (a.toNat / 4) (by omega),
      b64Val_char (a.toNat % 4 * 16 + b.toNat / 16) (by omega),
      b64Val_char (b.toNat % 16 * 4) (by omega), (b64Char_plain (b.toNat % 16 * 4) (by omega)).2.2,
      Option.bind_eq_bind, Option.bind_some, Option.pure_def, and_self, if_true, if_false]
    rw [toUInt8_eq a _ (by omega), toUInt8_eq b _ (by omega)]
  | case4 a b c rest ih =>
    have ha := a.toNat_lt
    have hb := b.toNat_lt
    have hc := c.toNat_lt
    simp only [b64DecodeGo, b64Val_char (a.toNat / 4) (by omega),
      b64Val_char (a.toNat % 4 * 16 + b.toNat / 16) (by omega),
      b64Val_char (b.toNat % 16 * 4 + c.toNat / 64) (by omega), b64Val_char (c.toNat % 64) (by omega),
      (b64Char_plain (c.toNat % 64) (by omega)).2.2, ih,
      Option.bind_eq_bind, Option.bind_some, Option.pure_def, false_and, if_false]
    rw [toUInt8_eq a _ (by omega), toUInt8_eq b _ (by omega), toUInt8_eq c _ (by omega)]

/-- **C26.** Decoding the JSON form of binary data gives the same bytes back, a nil slice
included. -/
theorem c26_round_trip (b : Option Str) : binaryUnmarshal (binaryMarshal b) = .ok b := by
  cases b with
  | none => rfl
  | some s =>
    have h : b64Decode (b64Encode s) = some s := by
      unfold b64Decode; rw [b64Encode_filter, b64_roundtrip]
    simp only [binaryMarshal, binaryUnmarshal, h]

theorem sextets_cons3 (a b c : UInt8) (rest : List Nat) :
    sextets (bitsOfByte a ++ (bitsOfByte b ++ (bitsOfByte c ++ rest))) =
      (a.toNat / 4) :: (a.toNat % 4 * 16 + b.toNat / 16) :: (b.toNat % 16 * 4 + c.toNat / 64) ::
        (c.toNat % 64) :: sextets rest := by
  have ha := a.toNat_lt
  have hb := b.toNat_lt
  have hc := c.toNat_lt
  simp only [bitsOfByte, List.cons_append, List.nil_append, sextets, valueOfBits, List.foldl_cons,
    List.foldl_nil, List.cons.injEq, and_true]
  refine ⟨?_, ?_, ?_, ?_⟩ <;> omega

theorem b64Encode_eq_spec (s : Str) : b64Encode s = base64 s := by
  fun_induction b64Encode s with
  | case1 => rfl
  | case2 a =>
    have ha := a.toNat_lt
    have h1 : valueOfBits [a.toNat / 128 % 2, a.toNat / 64 % 2, a.toNat / 32 % 2, a.toNat / 16 % 2,
        a.toNat / 8 % 2, a.toNat / 4 % 2] = a.toNat / 4 := by
      simp only [valueOfBits, List.foldl_cons, List.foldl_nil]; omega
    have h2 : valueOfBits [a.toNat / 2 % 2, a.toNat % 2, 0, 0, 0, 0] = a.toNat % 4 * 16 := by
      simp only [valueOfBits, List.foldl_cons, List.foldl_nil]; omega
    rw [b64Char_eq _ (by omega), b64Char_eq _ (by omega)]
    simp [base64, bitsOfByte, sextets, h1, h2]
  | case3 a b =>
    have ha := a.toNat_lt
    have hb := b.toNat_lt
    have h1 : valueOfBits [a.toNat / 128 % 2, a.toNat / 64 % 2, a.toNat / 32 % 2, a.toNat / 16 % 2,
        a.toNat / 8 % 2, a.toNat / 4 % 2] = a.toNat / 4 := by
      simp only [valueOfBits, List.foldl_cons, List.foldl_nil]; omega
    have h2 : valueOfBits [a.toNat / 2 % 2, a.toNat % 2, b.toNat / 128 % 2, b.toNat / 64 % 2,
        b.toNat / 32 % 2, b.toNat / 16 % 2] = a.toNat % 4 * 16 + b.toNat / 16 := by
      simp only [valueOfBits, List.foldl_cons, List.foldl_nil]; omega
    have h3 : valueOfBits [b.toNat / 8 % 2, b.toNat / 4 % 2, b.toNat / 2 % 2, b.toNat % 2, 0, 0] =
        b.toNat % 16 * 4 := by
      simp only [valueOfBits, List.foldl_cons, List.foldl_nil]; omega
    rw [b64Char_eq _ (by omega), b64Char_eq _ (by omega), b64Char_eq _ (by omega)]
    simp [base64, bitsOfByte, sextets, h1, h2, h3]
  | case4 a b c rest ih =>
    have ha := a.toNat_lt
    have hb := b.toNat_lt
    have hc := c.toNat_lt
    rw [b64Char_eq _ (by omega), b64Char_eq _ (by omega), b64Char_eq _ (by omega),
      b64Char_eq _ (by omega), ih]
    simp only [base64, List.flatMap_cons, sextets_cons3, List.map_cons, List.length_cons,
      List.cons_append, List.cons.injEq, true_and]
    have e : ∀ n : Nat, (n + 1 + 1 + 1 + 1) % 4 = n % 4 := by intro n; omega
    simp only [e]

/-- **C26.** The JSON form of non-nil binary data is a string holding the RFC 4648 base64 text
of the bytes; no byte of it needs escaping. -/
theorem c26_standard_base64 (b : Str) :
    binaryMarshal (some b) = .str (base64 b) (base64 b) ∧ binaryString (some b) = base64 b := by
  simp [binaryMarshal, binaryString, b64Encode_eq_spec]

/-- **C26.** Decoding any JSON value as binary returns a value or an error. -/
theorem c26_no_panic (j : Json) : (binaryUnmarshal j).NoPanic := by
  cases j <;> simp only [binaryUnmarshal] <;> (try split) <;> simp [Res.NoPanic]

theorem b64Val_some {c : UInt8} {v : Nat} (h : b64Val c = some v) : v < 64 ∧ alphabetChar v = c := by
  have key : ∀ n < 256, ∀ v ∈ b64Val n.toUInt8, v < 64 ∧ alphabetChar v = n.toUInt8 := by
    decide +kernel
  have e : c.toNat.toUInt8 = c := by simp [Nat.toUInt8]
  have := key c.toNat c.toNat_lt v (by rw [e, h]; rfl)
  rwa [e] at this

theorem alphabetChar_val (v : Nat) (h : v < 64) : b64Val (alphabetChar v) = some v := by
  rw [← b64Char_eq v h, b64Val_char v h]

theorem alphabetChar_ne (v : Nat) (h : v < 64) : alphabetChar v ≠ 61 := by
  rw [← b64Char_eq v h]; exact (b64Char_plain v h).2.2

theorem bitsOfByte_ofNat (n : Nat) (h : n < 256) : bitsOfByte n.toUInt8 =
    [n / 128 % 2, n / 64 % 2, n / 32 % 2, n / 16 % 2, n / 8 % 2, n / 4 % 2, n / 2 % 2, n % 2] := by
  have : (n.toUInt8).toNat = n := by simp [Nat.toUInt8, Nat.mod_eq_of_lt h]
  simp [bitsOfByte, this]

theorem three_bits (a b c d : Nat) (ha : a < 64) (hb : b < 64) (hc : c < 64) (hd : d < 64) :
    bitsOfByte (a * 4 + b / 16).toUInt8 ++ bitsOfByte (b % 16 * 16 + c / 4).toUInt8 ++
      bitsOfByte (c % 4 * 64 + d).toUInt8 =
    bitsOfSextet a ++ bitsOfSextet b ++ bitsOfSextet c ++ bitsOfSextet d := by
  rw [bitsOfByte_ofNat _ (by omega), bitsOfByte_ofNat _ (by omega), bitsOfByte_ofNat _ (by omega)]
  simp only [bitsOfSextet, List.cons_append, List.nil_append, List.cons.injEq, and_true]
  refine ⟨?_, ?_, ?_, ?_, ?_, ?_, ?_, ?_, ?_, ?_, ?_, ?_, ?_, ?_, ?_, ?_, ?_, ?_, ?_, ?_, ?_, ?_, ?_, ?_⟩ <;> omega

theorem two_bits (a b c : Nat) (ha : a < 64) (hb : b < 64) (hc : c < 64) :
    bitsOfByte (a * 4 + b / 16).toUInt8 ++ bitsOfByte (b % 16 * 16 + c / 4).toUInt8 =
    (bitsOfSextet a ++ bitsOfSextet b ++ bitsOfSextet c).take 16 := by
  rw [bitsOfByte_ofNat _ (by omega), bitsOfByte_ofNat _ (by omega)]
  simp only [bitsOfSextet, List.cons_append, List.nil_append, List.take_succ_cons, List.take_zero,
    List.cons.injEq, and_true]
  refine ⟨?_, ?_, ?_, ?_, ?_, ?_, ?_, ?_, ?_, ?_, ?_, ?_, ?_, ?_, ?_, ?_⟩ <;> omega

theorem one_bits (a b : Nat) (ha : a < 64) (hb : b < 64) :
    bitsOfByte (a * 4 + b / 16).toUInt8 = (bitsOfSextet a ++ bitsOfSextet b).take 8 := by
  rw [bitsOfByte_ofNat _ (by omega)]
  simp only [bitsOfSextet, List.cons_append, List.nil_append, List.take_succ_cons, List.take_zero,
    List.cons.injEq, and_true]
  refine ⟨?_, ?_, ?_, ?_, ?_, ?_, ?_, ?_⟩ <;> omega

/-- The relation of `Base64Text` on text without line breaks. -/
def B64Rel (t data : Str) : Prop :=
  ∃ (vs : List Nat) (pad : Nat), (∀ v ∈ vs, v < 64) ∧ pad ≤ 2 ∧ (vs.length + pad) % 4 = 0 ∧
    t = vs.map alphabetChar ++ List.replicate pad 61 ∧
    data.length = 6 * vs.length / 8 ∧
    data.flatMap bitsOfByte = (vs.flatMap bitsOfSextet).take (8 * data.length)


theorem bitsOfByte_inj {a b : UInt8} (h : bitsOfByte a = bitsOfByte b) : a = b := by
  have ha := a.toNat_lt
  have hb := b.toNat_lt
  simp only [bitsOfByte, List.cons.injEq, and_true] at h
  obtain ⟨h1, h2, h3, h4, h5, h6, h7, h8⟩ := h
  apply UInt8.toNat_inj.1
  omega

theorem bitsOfByte_length (a : UInt8) : (bitsOfByte a).length = 8 := rfl
theorem bitsOfSextet_length (a : Nat) : (bitsOfSextet a).length = 6 := rfl

theorem b64_sound : ∀ (t b : Str), b64DecodeGo t = some b → B64Rel t b
  | [], b, h => by
    simp only [b64DecodeGo, Option.some.injEq] at h
    subst h
    exact ⟨[], 0, by simp, by simp, by simp, by simp, by simp, by simp⟩
  | [_], _, h => by simp [b64DecodeGo] at h
  | [_, _], _, h => by simp [b64DecodeGo] at h
  | [_, _, _], _, h => by simp [b64DecodeGo] at h
  | a :: b :: c :: d :: rest, out, h => by
    simp only [b64DecodeGo, Option.bind_eq_bind, Option.bind_eq_some_iff, Option.pure_def] at h
    obtain ⟨va, hva, vb, hvb, h⟩ := h
    obtain ⟨la, ea⟩ := b64Val_some hva
    obtain ⟨lb, eb⟩ := b64Val_some hvb
    by_cases hd : d = 61 ∧ rest = []
    · rw [if_pos hd] at h
      by_cases hc : c = 61
      · rw [if_pos hc, Option.some.injEq] at h
        subst h
        refine ⟨[va, vb], 2, ?_, by simp, by simp, ?_, by simp, ?_⟩
        · simp [la, lb]
        · simp [ea, eb, hc, hd]
        · have := one_bits va vb la lb
          simpa using this
      · rw [if_neg hc] at h
        simp only [Option.bind_eq_some_iff, Option.some.injEq] at h
        obtain ⟨vc, hvc, h⟩ := h
        obtain ⟨lc, ec⟩ := b64Val_some hvc
        subst h
        refine ⟨[va, vb, vc], 1, ?_, by simp, by simp, ?_, by simp, ?_⟩
        · simp [la, lb, lc]
        · simp [ea, eb, ec, hd]
        · have := two_bits va vb vc la lb lc
          simpa using this
    · rw [if_neg hd] at h
      simp only [Option.bind_eq_some_iff, Option.some.injEq] at h
      obtain ⟨vc, hvc, vd, hvd, r, hr, h⟩ := h
      obtain ⟨lc, ec⟩ := b64Val_some hvc
      obtain ⟨ld, ed⟩ := b64Val_some hvd
      obtain ⟨vs, pad, h1, h2, h3, h4, h5, h6⟩ := b64_sound rest r hr
      subst h
      refine ⟨va :: vb :: vc :: vd :: vs, pad, ?_, h2, ?_, ?_, ?_, ?_⟩
      · simpa [la, lb, lc, ld] using h1
      · simp only [List.length_cons]; omega
      · simp [ea, eb, ec, ed, h4]
      · simp only [List.length_cons]; omega
      · have := three_bits va vb vc vd la lb lc ld
        simp only [List.flatMap_cons, ← List.append_assoc, this, List.length_cons, h6]
        rw [show 8 * (r.length + 1 + 1 + 1) = (bitsOfSextet va ++ bitsOfSextet vb ++ bitsOfSextet vc ++
          bitsOfSextet vd).length + 8 * r.length by
            simp only [List.length_append, bitsOfSextet_length]; omega,
          List.take_length_add_append]

theorem b64_complete : ∀ (vs : List Nat) (pad : Nat) (b : Str), (∀ v ∈ vs, v < 64) → pad ≤ 2 →
    (vs.length + pad) % 4 = 0 → b.length = 6 * vs.length / 8 →
    b.flatMap bitsOfByte = (vs.flatMap bitsOfSextet).take (8 * b.length) →
    b64DecodeGo (vs.map alphabetChar ++ List.replicate pad 61) = some b
  | [], pad, b, _, hp, hm, hl, _ => by
    simp only [List.length_nil] at hm hl
    obtain rfl : pad = 0 := by omega
    obtain rfl : b = [] := List.eq_nil_of_length_eq_zero (by omega)
    rfl
  | [_], pad, _, _, hp, hm, _, _ => by
    simp only [List.length_cons, List.length_nil] at hm; omega
  | [u, v], pad, b, hv, hp, hm, hl, hb => by
    simp only [List.length_cons, List.length_nil] at hm hl
    obtain rfl : pad = 2 := by omega
    obtain ⟨x, rfl⟩ := List.length_eq_one_iff.1 hl
    have lu := hv u (by simp)
    have lv := hv v (by simp)
    have e : x = (u * 4 + v / 16).toUInt8 := by
      apply bitsOfByte_inj
      rw [one_bits u v lu lv]
      simpa using hb
    simp [b64DecodeGo, alphabetChar_val u lu, alphabetChar_val v lv, e]
  | [u, v, w], pad, b, hv, hp, hm, hl, hb => by
    simp only [List.length_cons, List.length_nil] at hm hl
    obtain rfl : pad = 1 := by omega
    obtain ⟨x, b, rfl⟩ := List.exists_cons_of_length_pos (l := b) (by omega)
    simp only [List.length_cons] at hl
    obtain ⟨y, rfl⟩ := List.length_eq_one_iff.1 (show b.length = 1 by omega)
    have lu := hv u (by simp)
    have lv := hv v (by simp)
    have lw := hv w (by simp)
    have e := two_bits u v w lu lv lw
    have hb' : bitsOfByte x ++ bitsOfByte y = (bitsOfSextet u ++ bitsOfSextet v ++ bitsOfSextet w).take 16 := by
      simpa using hb
    rw [← e] at hb'
    obtain ⟨e1, e2⟩ := List.append_inj hb' rfl
    simp [b64DecodeGo, alphabetChar_val u lu, alphabetChar_val v lv, alphabetChar_val w lw,
      alphabetChar_ne w lw, bitsOfByte_inj e1, bitsOfByte_inj e2]
  | u :: v :: w :: z :: vs, pad, b, hv, hp, hm, hl, hb => by
    simp only [List.length_cons] at hm hl
    have lu := hv u (by simp)
    have lv := hv v (by simp)
    have lw := hv w (by simp)
    have lz := hv z (by simp)
    obtain ⟨x, b, rfl⟩ := List.exists_cons_of_length_pos (l := b) (by omega)
    simp only [List.length_cons] at hl
    obtain ⟨y, b, rfl⟩ := List.exists_cons_of_length_pos (l := b) (by omega)
    simp only [List.length_cons] at hl
    obtain ⟨q, b, rfl⟩ := List.exists_cons_of_length_pos (l := b) (by omega)
    simp only [List.length_cons] at hl
    have e := three_bits u v w z lu lv lw lz
    simp only [List.flatMap_cons, List.length_cons, ← List.append_assoc] at hb
    rw [show 8 * (b.length + 1 + 1 + 1) = (bitsOfSextet u ++ bitsOfSextet v ++ bitsOfSextet w ++
          bitsOfSextet z).length + 8 * b.length by
            simp only [List.length_append, bitsOfSextet_length]; omega,
          List.take_length_add_append, ← e] at hb
    obtain ⟨e0, e4⟩ := List.append_inj hb rfl
    obtain ⟨e0, e3⟩ := List.append_inj e0 rfl
    obtain ⟨e1, e2⟩ := List.append_inj e0 rfl
    have ih := b64_complete vs pad b (fun v h => hv v (by simp [h])) hp (by omega) (by omega) e4
    simp only [List.map_cons, List.cons_append, b64DecodeGo, alphabetChar_val u lu, alphabetChar_val v lv,
      alphabetChar_val w lw, alphabetChar_val z lz, alphabetChar_ne z lz, ih, false_and, if_false,
      Option.bind_eq_bind, Option.bind_some, Option.pure_def, bitsOfByte_inj e1, bitsOfByte_inj e2,
      bitsOfByte_inj e3]

/-- **C26.** A JSON string is decoded to some bytes exactly when it is base64 text of these bytes. -/
theorem c26_reads_base64 (raw t b : Str) :
    binaryUnmarshal (.str raw t) = .ok (some b) ↔ Base64Text t b := by
  have key : b64Decode t = some b ↔ Base64Text t b := by
    constructor
    · intro h; exact b64_sound _ _ h
    · rintro ⟨vs, pad, h1, h2, h3, h4, h5, h6⟩
      unfold b64Decode
      rw [h4]
      exact b64_complete vs pad b h1 h2 h3 h5 h6
  rw [← key]
  simp only [binaryUnmarshal]
  cases b64Decode t <;> simp

/-- **C26.** A JSON string that is not base64 text is an error. -/
theorem c26_rejects (raw t : Str) (h : ∀ b, ¬ Base64Text t b) :
    ∃ e, binaryUnmarshal (.str raw t) = .err e := by
  have h' := fun b => mt (c26_reads_base64 raw t b).1 (h b)
  simp only [binaryUnmarshal] at h' ⊢
  cases hd : b64Decode t with
  | some b => exact absurd (by rw [hd]) (h' b)
  | none => exact ⟨_, rfl⟩

/-- Non-vacuity for C26: padding with unused bits set, and a text that is not base64. -/
example : Base64Text (b!"SGVs\r\nbG9=") (b!"Hello") ∧ ∀ b, ¬ Base64Text (b!"SGVsbG8") b := by
  refine ⟨?_, fun b h => ?_⟩
  · rw [← c26_reads_base64 []]; decide +kernel
  · rw [← c26_reads_base64 []] at h
    revert h; simp [binaryUnmarshal, show b64Decode (b!"SGVsbG8") = none by decide +kernel]

/-- Non-vacuity for C26. -/
example : binaryMarshal (some (b!"Hello")) = .str (b!"SGVsbG8=") (b!"SGVsbG8=") := rfl

end Stix
