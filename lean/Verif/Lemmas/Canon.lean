import Verif.Spec.Canon
import Mathlib.Data.List.Sort
import Mathlib.Tactic.IntervalCases

/-!
# Lemmas about the canonicaliser: characters and strings
-/

namespace Stix.Canon
open Stix Stix.Spec.Canon

theorem char_valid (c : Char) : c.toNat < 55296 ∨ (57343 < c.toNat ∧ c.toNat < 1114112) := c.valid

theorem ofNat_eq (n : Nat) : n.toUInt8 = UInt8.ofNat n := rfl

theorem encodeRune_char (c : Char) : encodeRune c.toNat = String.utf8EncodeChar c := by
  have hv := char_valid c
  unfold encodeRune String.utf8EncodeChar isSurrogate
  have hval : c.val.toNat = c.toNat := rfl
  simp only [Nat.toUInt8, hval]
  have h3 : ¬ ((decide (0xD800 ≤ c.toNat) && decide (c.toNat < 0xE000) || decide (0x10FFFF < c.toNat)) = true) := by
    simp only [Bool.or_eq_true, Bool.and_eq_true, decide_eq_true_eq]; omega
  rw [if_neg h3]
  clear h3 hval
  generalize c.toNat = n at *
  by_cases h1 : n < 0x80
  · rw [if_pos h1, if_pos (show n ≤ 127 by omega)]
  rw [if_neg h1, if_neg (show ¬ n ≤ 127 by omega)]
  by_cases h2 : n < 0x800
  · rw [if_pos h2, if_pos (show n ≤ 2047 by omega)]
    have : n / 64 % 32 = n / 64 := by omega
    rw [this, Nat.add_comm, Nat.add_comm 128]
  rw [if_neg h2, if_neg (show ¬ n ≤ 2047 by omega)]
  by_cases h4 : n < 0x10000
  · rw [if_pos h4, if_pos (show n ≤ 65535 by omega)]
    have : n / 4096 % 16 = n / 4096 := by omega
    rw [this, Nat.add_comm, Nat.add_comm 128, Nat.add_comm 128]
  · rw [if_neg h4, if_neg (show ¬ n ≤ 65535 by omega)]
    have : n / 262144 % 8 = n / 262144 := by omega
    rw [this, Nat.add_comm, Nat.add_comm 128, Nat.add_comm 128, Nat.add_comm 128]

theorem utf16_char (c : Char) : utf16 c.toNat = units c := rfl

theorem toNat_ofNat {n : Nat} (h : n < 256) : (UInt8.ofNat n).toNat = n := by
  rw [UInt8.toNat_ofNat']; omega

theorem le_ofNat {a n : Nat} (ha : a < 256) (hn : n < 256) :
    (UInt8.ofNat a ≤ UInt8.ofNat n) ↔ a ≤ n := by
  rw [UInt8.le_iff_toNat_le, toNat_ofNat ha, toNat_ofNat hn]

theorem eq_ofNat {a n : Nat} (ha : a < 256) (hn : n < 256) :
    (UInt8.ofNat n = UInt8.ofNat a) ↔ n = a := by
  rw [← UInt8.toNat_inj, toNat_ofNat ha, toNat_ofNat hn]

theorem rng_true {lo hi x : UInt8} (h : lo.toNat ≤ x.toNat ∧ x.toNat ≤ hi.toNat) :
    (decide (lo ≤ x) && decide (x ≤ hi)) = true := by
  simp only [Bool.and_eq_true, decide_eq_true_eq, UInt8.le_iff_toNat_le]; exact h

theorem rng_false {lo hi x : UInt8} (h : x.toNat < lo.toNat ∨ hi.toNat < x.toNat) :
    (decide (lo ≤ x) && decide (x ≤ hi)) = false := by
  rw [Bool.eq_false_iff]
  simp only [ne_eq, Bool.and_eq_true, decide_eq_true_eq, UInt8.le_iff_toNat_le]; omega

theorem ne_of_toNat {x y : UInt8} (h : x.toNat ≠ y.toNat) : ¬ x = y := fun e => h (by rw [e])

theorem utf8Tail_four {B X Y Z : UInt8} {rest : Str} (hB : 0xF0 ≤ B.toNat ∧ B.toNat ≤ 0xF4)
    (hX : 0x80 ≤ X.toNat ∧ X.toNat ≤ 0xBF) (hY : 0x80 ≤ Y.toNat ∧ Y.toNat ≤ 0xBF)
    (hZ : 0x80 ≤ Z.toNat ∧ Z.toNat ≤ 0xBF) (h0 : B.toNat = 0xF0 → 0x90 ≤ X.toNat)
    (h4 : B.toNat = 0xF4 → X.toNat ≤ 0x8F) :
    utf8Tail B (X :: Y :: Z :: rest) = some 3 := by
  have a1 : ¬ B < 0x80 := by rw [UInt8.lt_iff_toNat_lt]; simp; omega
  have a2 : (decide (0xC2 ≤ B) && decide (B ≤ 0xDF)) = false := rng_false (by simp; omega)
  have a3 : ¬ B = 0xE0 := ne_of_toNat (by simp; omega)
  have a4 : ¬ B = 0xED := ne_of_toNat (by simp; omega)
  have a5 : (decide (0xE1 ≤ B) && decide (B ≤ 0xEF)) = false := rng_false (by simp; omega)
  have cY : (decide (0x80 ≤ Y) && decide (Y ≤ 0xBF)) = true := rng_true (by simpa using hY)
  have cZ : (decide (0x80 ≤ Z) && decide (Z ≤ 0xBF)) = true := rng_true (by simpa using hZ)
  have cX : (decide (0x80 ≤ X) && decide (X ≤ 0xBF)) = true := rng_true (by simpa using hX)
  simp only [utf8Tail, a1, a2, a3, a4, a5, if_false, cY, cZ, cX, Bool.and_true, if_true,
    Bool.false_eq_true]
  by_cases e0 : B = 0xF0
  · have h := h0 (by rw [e0]; rfl)
    have c0 : (decide (0x90 ≤ X) && decide (X ≤ 0xBF)) = true := rng_true (by simp; omega)
    simp only [e0, if_true, c0]
  rw [if_neg e0]
  have e0' : B.toNat ≠ 0xF0 := fun h => e0 (UInt8.toNat_inj.1 h)
  by_cases e4 : B = 0xF4
  · have h := h4 (by rw [e4]; rfl)
    have c0 : (decide (0x80 ≤ X) && decide (X ≤ 0x8F)) = true := rng_true (by simp; omega)
    simp only [e4, if_true, c0]
  rw [if_neg e4]
  have e4' : B.toNat ≠ 0xF4 := fun h => e4 (UInt8.toNat_inj.1 h)
  have c1 : (decide (0xF1 ≤ B) && decide (B ≤ 0xF3)) = true := rng_true (by simp; omega)
  simp only [c1, if_true]

/-- Decoding a well-formed sequence gives the character back. -/
theorem utf8Tail_char (c : Char) (rest : Str) :
    ∃ b tl, String.utf8EncodeChar c = b :: tl ∧ utf8Tail b (tl ++ rest) = some tl.length ∧
      runeOf b tl = c.toNat := by
  have hv := char_valid c
  rw [← encodeRune_char]
  unfold encodeRune isSurrogate
  simp only [Nat.toUInt8]
  have h3 : ¬ ((decide (0xD800 ≤ c.toNat) && decide (c.toNat < 0xE000) || decide (0x10FFFF < c.toNat)) = true) := by
    simp only [Bool.or_eq_true, Bool.and_eq_true, decide_eq_true_eq]; omega
  generalize c.toNat = n at *
  by_cases h1 : n < 0x80
  · rw [if_pos h1]
    refine ⟨_, _, rfl, ?_, ?_⟩
    · have hb : UInt8.ofNat n < 0x80 := by
        rw [UInt8.lt_iff_toNat_lt, toNat_ofNat (by omega)]; exact h1
      simp [utf8Tail, hb]
    · simp only [runeOf]; exact toNat_ofNat (by omega)
  rw [if_neg h1]
  by_cases h2 : n < 0x800
  · rw [if_pos h2]
    refine ⟨_, _, rfl, ?_, ?_⟩
    · have hb : ¬ UInt8.ofNat (0xC0 + n / 64) < 0x80 := by
        rw [UInt8.lt_iff_toNat_lt, toNat_ofNat (by omega)]; simp; omega
      simp only [utf8Tail, hb, if_false, List.cons_append, List.nil_append]
      have e1 : (decide (0xC2 ≤ UInt8.ofNat (0xC0 + n / 64)) && decide (UInt8.ofNat (0xC0 + n / 64) ≤ 0xDF)) = true := by
        simp only [Bool.and_eq_true, decide_eq_true_eq, UInt8.le_iff_toNat_le, toNat_ofNat (show 0xC0 + n / 64 < 256 by omega)]
        simp; omega
      have e2 : (decide (0x80 ≤ UInt8.ofNat (0x80 + n % 64)) && decide (UInt8.ofNat (0x80 + n % 64) ≤ 0xBF)) = true := by
        simp only [Bool.and_eq_true, decide_eq_true_eq, UInt8.le_iff_toNat_le, toNat_ofNat (show 0x80 + n % 64 < 256 by omega)]
        simp; omega
      simp only [e1, e2, if_true]; rfl
    · simp only [runeOf]
      rw [toNat_ofNat (by omega), toNat_ofNat (by omega)]; omega
  rw [if_neg h2, if_neg h3]
  by_cases h4 : n < 0x10000
  · rw [if_pos h4]
    refine ⟨_, _, rfl, ?_, ?_⟩
    · have hb0 : 0xE0 + n / 4096 < 256 := by omega
      have hx0 : 0x80 + n / 64 % 64 < 256 := by omega
      have hy0 : 0x80 + n % 64 < 256 := by omega
      generalize hB : UInt8.ofNat (0xE0 + n / 4096) = B
      generalize hX : UInt8.ofNat (0x80 + n / 64 % 64) = X
      generalize hY : UInt8.ofNat (0x80 + n % 64) = Y
      have hBn : B.toNat = 0xE0 + n / 4096 := by rw [← hB, toNat_ofNat hb0]
      have hXn : X.toNat = 0x80 + n / 64 % 64 := by rw [← hX, toNat_ofNat hx0]
      have hYn : Y.toNat = 0x80 + n % 64 := by rw [← hY, toNat_ofNat hy0]
      simp only [utf8Tail, List.cons_append, List.nil_append, List.length_cons, List.length_nil,
        UInt8.lt_iff_toNat_lt, UInt8.le_iff_toNat_le, ← UInt8.toNat_inj, hBn, hXn, hYn,
        Bool.and_eq_true, decide_eq_true_eq, UInt8.toNat_ofNat]
      norm_num
      split_ifs <;> first | rfl | omega
    · simp only [runeOf]
      rw [toNat_ofNat (by omega), toNat_ofNat (by omega), toNat_ofNat (by omega)]; omega
  · rw [if_neg h4]
    refine ⟨_, _, rfl, ?_, ?_⟩
    · have hb0 : 0xF0 + n / 262144 < 256 := by omega
      have hx0 : 0x80 + n / 4096 % 64 < 256 := by omega
      have hy0 : 0x80 + n / 64 % 64 < 256 := by omega
      have hz0 : 0x80 + n % 64 < 256 := by omega
      refine utf8Tail_four ?_ ?_ ?_ ?_ ?_ ?_ <;>
        simp only [toNat_ofNat hb0, toNat_ofNat hx0, toNat_ofNat hy0, toNat_ofNat hz0] <;> omega
    · simp only [runeOf]
      rw [toNat_ofNat (by omega), toNat_ofNat (by omega), toNat_ofNat (by omega), toNat_ofNat (by omega)]
      omega

theorem runesAux_utf8 (cs : List Char) : ∀ n, (utf8 cs).length ≤ n →
    runesAux n (utf8 cs) = cs.map Char.toNat := by
  induction cs with
  | nil => intro n _; cases n <;> rfl
  | cons c cs ih =>
    intro n hn
    obtain ⟨b, tl, he, ht, hr⟩ := utf8Tail_char c (utf8 cs)
    have hu : utf8 (c :: cs) = b :: (tl ++ utf8 cs) := by simp [utf8, he]
    rw [hu] at hn ⊢
    cases n with
    | zero => simp at hn
    | succ n =>
      simp only [runesAux, ht, List.map_cons]
      rw [List.take_left' rfl, hr, List.drop_left' rfl, ih n (by simp at hn; omega)]

theorem sortKey_utf8 (cs : List Char) : sortKey (utf8 cs) = utf16Units cs := by
  unfold sortKey runes
  rw [runesAux_utf8 cs _ le_rfl, List.flatMap_map]
  rfl

theorem units_nonempty (c : Char) : ∃ a l, units c = a :: l := by
  unfold units; split_ifs <;> exact ⟨_, _, rfl⟩

/-- The units of a character tell it from any other, whatever follows. -/
theorem units_prefix {c d : Char} {x y : List Nat} (h : units c ++ x = units d ++ y) :
    c = d ∧ x = y := by
  have hc := char_valid c
  have hd := char_valid d
  have key : c.toNat = d.toNat ∧ x = y := by
    unfold units at h
    split_ifs at h with h1 h2 h2 <;>
      simp only [List.cons_append, List.nil_append, List.cons.injEq] at h
    · exact h
    · omega
    · omega
    · exact ⟨by omega, h.2.2⟩
  refine ⟨?_, key.2⟩
  exact Char.ext (UInt32.toNat_inj.1 key.1)

theorem utf16Units_inj {a b : List Char} (h : utf16Units a = utf16Units b) : a = b := by
  induction a generalizing b with
  | nil =>
    cases b with
    | nil => rfl
    | cons d ds =>
      obtain ⟨x, l, hx⟩ := units_nonempty d
      simp [utf16Units, hx] at h
  | cons c cs ih =>
    cases b with
    | nil =>
      obtain ⟨x, l, hx⟩ := units_nonempty c
      simp [utf16Units, hx] at h
    | cons d ds =>
      simp only [utf16Units, List.flatMap_cons] at h
      obtain ⟨rfl, h2⟩ := units_prefix h
      rw [ih h2]

theorem sortKey_inj {s t : Str} (hs : Unicode s) (ht : Unicode t) (h : sortKey s = sortKey t) :
    s = t := by
  obtain ⟨x, rfl⟩ := hs
  obtain ⟨y, rfl⟩ := ht
  rw [sortKey_utf8, sortKey_utf8] at h
  rw [utf16Units_inj h]

set_option linter.unusedSimpArgs false

theorem cmpKeys_lt (a b : List Nat) : cmpKeys a b = .lt ↔ a < b := by
  induction a generalizing b with
  | nil => cases b <;> simp [cmpKeys]
  | cons x xs ih =>
    cases b with
    | nil => simp [cmpKeys]
    | cons y ys =>
      simp only [cmpKeys, List.cons_lt_cons_iff]
      rw [← ih]
      rcases Nat.lt_trichotomy x y with h | h | h
      · simp [h, Nat.lt_asymm h, Nat.ne_of_lt h, Nat.ne_of_gt h]
      · simp [h]
      · simp [h, Nat.lt_asymm h, Nat.ne_of_lt h, Nat.ne_of_gt h]

theorem cmpKeys_eq (a b : List Nat) : cmpKeys a b = .eq ↔ a = b := by
  induction a generalizing b with
  | nil => cases b <;> simp [cmpKeys]
  | cons x xs ih =>
    cases b with
    | nil => simp [cmpKeys]
    | cons y ys =>
      simp only [cmpKeys, List.cons.injEq]
      rw [← ih]
      rcases Nat.lt_trichotomy x y with h | h | h
      · simp [h, Nat.lt_asymm h, Nat.ne_of_lt h, Nat.ne_of_gt h]
      · simp [h]
      · simp [h, Nat.lt_asymm h, Nat.ne_of_lt h, Nat.ne_of_gt h]

theorem cmpKeys_gt (a b : List Nat) : cmpKeys a b = .gt ↔ b < a := by
  induction a generalizing b with
  | nil => cases b <;> simp [cmpKeys]
  | cons x xs ih =>
    cases b with
    | nil => simp [cmpKeys]
    | cons y ys =>
      simp only [cmpKeys, List.cons_lt_cons_iff]
      rw [← ih]
      rcases Nat.lt_trichotomy x y with h | h | h
      · simp [h, Nat.lt_asymm h, Nat.ne_of_lt h, Nat.ne_of_gt h]
      · simp [h]
      · simp [h, Nat.lt_asymm h, Nat.ne_of_lt h, Nat.ne_of_gt h]

end Stix.Canon
