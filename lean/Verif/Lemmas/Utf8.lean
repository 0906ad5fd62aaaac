import Verif.Lemmas.CanonStr

/-!
# Lemmas about UTF-8
-/

namespace Stix.Canon
open Stix Stix.Spec.Canon

theorem char_of {n : Nat} (h : n < 55296 ∨ (57343 < n ∧ n < 1114112)) : ∃ c : Char, c.toNat = n :=
  ⟨Char.ofNatAux n h, rfl⟩

theorem byte_eq {x : UInt8} {n : Nat} (h : x.toNat = n) : x = n.toUInt8 := by
  subst h; simp [Nat.toUInt8]

/-- A well-formed sequence is a character. -/
theorem utf8Tail_some {b : UInt8} {rest : Str} {k : Nat} (h : utf8Tail b rest = some k) :
    ∃ c : Char, b :: rest.take k = String.utf8EncodeChar c ∧ k ≤ rest.length := by
  unfold utf8Tail at h
  dsimp only at h
  simp only [UInt8.lt_iff_toNat_lt, UInt8.le_iff_toNat_le, ← UInt8.toNat_inj, Bool.and_eq_true,
    decide_eq_true_eq, UInt8.toNat_ofNat] at h
  norm_num at h
  have hb := b.toNat_lt
  split at h
  · cases h
    obtain ⟨c, hc⟩ := char_of (n := b.toNat) (by omega)
    refine ⟨c, ?_, by simp⟩
    rw [← encodeRune_char, hc]
    unfold encodeRune
    rw [if_pos (by omega), ← byte_eq rfl]; rfl
  · rename_i h1
    cases rest with
    | nil => simp at h
    | cons x r1 =>
      have hx := x.toNat_lt
      dsimp only at h
      split at h
      · rename_i h2
        split at h
        · rename_i h3
          cases h
          obtain ⟨c, hc⟩ := char_of (n := (b.toNat % 32) * 64 + x.toNat % 64) (by omega)
          refine ⟨c, ?_, by simp⟩
          rw [← encodeRune_char, hc]
          unfold encodeRune
          rw [if_neg (by omega), if_pos (by omega), ← byte_eq (x := b) (by omega),
            ← byte_eq (x := x) (by omega)]; rfl
        · cases h
      · rename_i h2
        cases r1 with
        | nil => simp at h
        | cons y r2 =>
          have hy := y.toNat_lt
          dsimp only at h
          have key : (0xE0 ≤ b.toNat ∧ b.toNat < 0xF0) → (0x80 ≤ x.toNat ∧ x.toNat ≤ 0xBF) →
              (0x80 ≤ y.toNat ∧ y.toNat ≤ 0xBF) → (b.toNat = 0xE0 → 0xA0 ≤ x.toNat) →
              (b.toNat = 0xED → x.toNat ≤ 0x9F) → k = 2 →
              ∃ c : Char, b :: (x :: y :: r2).take k = String.utf8EncodeChar c ∧
                k ≤ (x :: y :: r2).length := by
            intro p1 p2 p3 p4 p5 p6
            subst p6
            obtain ⟨c, hc⟩ := char_of (n := (b.toNat % 16) * 4096 + x.toNat % 64 * 64 + y.toNat % 64)
              (by omega)
            refine ⟨c, ?_, by simp⟩
            rw [← encodeRune_char, hc]
            unfold encodeRune isSurrogate
            rw [if_neg (by omega), if_neg (by omega), if_neg (by
              simp only [Bool.or_eq_true, Bool.and_eq_true, decide_eq_true_eq]; omega),
              if_pos (by omega), ← byte_eq (x := b) (by omega), ← byte_eq (x := x) (by omega),
              ← byte_eq (x := y) (by omega)]; rfl
          split at h
          · split at h
            · cases h; exact key (by omega) (by omega) (by omega) (by omega) (by omega) rfl
            · cases h
          split at h
          · split at h
            · cases h; exact key (by omega) (by omega) (by omega) (by omega) (by omega) rfl
            · cases h
          split at h
          · split at h
            · cases h; exact key (by omega) (by omega) (by omega) (by omega) (by omega) rfl
            · cases h
          cases r2 with
          | nil => simp at h
          | cons z r3 =>
            have hz := z.toNat_lt
            dsimp only at h
            have key : (0xF0 ≤ b.toNat ∧ b.toNat ≤ 0xF4) → (0x80 ≤ x.toNat ∧ x.toNat ≤ 0xBF) →
                (0x80 ≤ y.toNat ∧ y.toNat ≤ 0xBF) → (0x80 ≤ z.toNat ∧ z.toNat ≤ 0xBF) →
                (b.toNat = 0xF0 → 0x90 ≤ x.toNat) →
                (b.toNat = 0xF4 → x.toNat ≤ 0x8F) → k = 3 →
                ∃ c : Char, b :: (x :: y :: z :: r3).take k = String.utf8EncodeChar c ∧
                  k ≤ (x :: y :: z :: r3).length := by
              intro p1 p2 p3 p3' p4 p5 p6
              subst p6
              obtain ⟨c, hc⟩ := char_of
                (n := (b.toNat % 8) * 262144 + x.toNat % 64 * 4096 + y.toNat % 64 * 64 + z.toNat % 64)
                (by omega)
              refine ⟨c, ?_, by simp⟩
              rw [← encodeRune_char, hc]
              unfold encodeRune isSurrogate
              rw [if_neg (by omega), if_neg (by omega), if_neg (by
                simp only [Bool.or_eq_true, Bool.and_eq_true, decide_eq_true_eq]; omega),
                if_neg (by omega), ← byte_eq (x := b) (by omega), ← byte_eq (x := x) (by omega),
                ← byte_eq (x := y) (by omega), ← byte_eq (x := z) (by omega)]; rfl
            split at h
            · split at h
              · cases h
                exact key (by omega) (by omega) (by omega) (by omega) (by omega) (by omega) rfl
              · cases h
            split at h
            · split at h
              · cases h
                exact key (by omega) (by omega) (by omega) (by omega) (by omega) (by omega) rfl
              · cases h
            split at h
            · split at h
              · cases h
                exact key (by omega) (by omega) (by omega) (by omega) (by omega) (by omega) rfl
              · cases h
            · cases h

/-- A sequence that is not well formed is no character. -/
theorem utf8Tail_none {b : UInt8} {rest : Str} (h : utf8Tail b rest = none) (c : Char) (r : Str) :
    b :: rest ≠ String.utf8EncodeChar c ++ r := by
  intro e
  obtain ⟨b', tl, he, ht, _⟩ := utf8Tail_char c r
  rw [he, List.cons_append] at e
  obtain ⟨rfl, rfl⟩ := List.cons.inj e
  rw [h] at ht
  cases ht

theorem sanitizeAux_chars (cs : List Char) : ∀ n, (utf8 cs).length ≤ n →
    sanitizeAux n (utf8 cs) = utf8 cs := by
  induction cs with
  | nil => intro n _; cases n <;> rfl
  | cons c cs ih =>
    intro n hn
    obtain ⟨b, tl, he, ht, hr⟩ := utf8Tail_char c (utf8 cs)
    have hu : utf8 (c :: cs) = b :: (tl ++ utf8 cs) := by simp [utf8, he]
    rw [hu] at hn ⊢
    cases n with
    | zero => simp at hn
    | succ n =>
      simp only [sanitizeAux, ht]
      rw [List.take_left' rfl, List.drop_left' rfl, ih n (by simp at hn; omega)]
      rfl

theorem sanitizeAux_unicode : ∀ (n : Nat) (s : Str), s.length ≤ n → Unicode (sanitizeAux n s)
  | 0, s, h => ⟨[], rfl⟩
  | n + 1, [], _ => ⟨[], rfl⟩
  | n + 1, b :: rest, h => by
    unfold sanitizeAux
    split
    · rename_i k hk
      obtain ⟨c, hc, hle⟩ := utf8Tail_some hk
      obtain ⟨cs, hcs⟩ := sanitizeAux_unicode n (rest.drop k) (by simp at h ⊢; omega)
      exact ⟨c :: cs, by rw [hcs, hc]; rfl⟩
    · obtain ⟨cs, hcs⟩ := sanitizeAux_unicode n rest (by simpa using h)
      exact ⟨'�' :: cs, by rw [hcs]; rfl⟩

/-- Text that `json.Marshal` leaves alone is Unicode text, and conversely. -/
theorem validUTF8_iff (s : Str) : ValidUTF8 s ↔ Unicode s := by
  constructor
  · intro h
    have := sanitizeAux_unicode s.length s le_rfl
    unfold ValidUTF8 sanitize at h
    rwa [h] at this
  · rintro ⟨cs, rfl⟩
    exact sanitizeAux_chars cs _ le_rfl

theorem sanitize_valid (s : Str) : ValidUTF8 (sanitize s) :=
  (validUTF8_iff _).2 (sanitizeAux_unicode _ _ le_rfl)

end Stix.Canon
