import Verif.Lemmas.Time
import Mathlib.Order.Lattice

/-!
# Timestamp properties: C22 – C25

Instants are in nanoseconds since 0000-01-01T00:00:00Z; `0 ≤ ns < endOfTime` is "in the years
0 to 9999".
-/

namespace Stix
open Spec

/-- **C22.** The JSON form of every instant of the years 0 to 9999, shown in whatever zone, is
the text `YYYY-MM-DDThh:mm:ss.mmmZ` of a valid calendar date and time in UTC, which is the
instant rounded down to the millisecond. -/
theorem c22_timestamp_text (t : GoTime) (h0 : 0 ≤ t.ns) (h1 : t.ns < endOfTime) :
    ∃ c : Civil, c.Valid ∧ timestampMarshal t = .str c.text c.text ∧
      (c.millis : Int) * 1000000 ≤ t.ns ∧ t.ns < ((c.millis : Int) + 1) * 1000000 := by
  obtain ⟨hv, hm, ht⟩ := civilOf_facts t.ns h0 h1
  have hs : timestampString t = (civilOf t.ns).text := ht
  refine ⟨_, hv, by simp only [timestampMarshal, hs], ?_, ?_⟩ <;> rw [hm] <;> omega

/-- **C22.** The text is 24 bytes long and does not depend on the zone. -/
theorem c22_length_and_zone (t : GoTime) (h0 : 0 ≤ t.ns) (h1 : t.ns < endOfTime) (off : Int) :
    (timestampString t).length = 24 ∧ timestampString { t with off := off } = timestampString t := by
  obtain ⟨_, _, ht⟩ := civilOf_facts t.ns h0 h1
  have hs : timestampString t = (civilOf t.ns).text := ht
  exact ⟨by rw [hs]; rfl, rfl⟩

/-- Outside these years the text has another shape (the year is not four digits). -/
theorem c22_year_10000 : timestampString { ns := endOfTime } = b!"10000-01-01T00:00:00.000Z" := by
  decide +kernel

/-- Non-vacuity for C22. -/
example : (0 : Int) ≤ 63750234599123456789 ∧ (63750234599123456789 : Int) < endOfTime ∧
    timestampString { ns := 63750234599123456789, off := 5400 } = b!"2020-02-29T22:29:59.123Z" := by
  decide +kernel

/-- **C23.** Decoding the JSON form gives the instant truncated to the millisecond. -/
theorem c23_round_trip (t : GoTime) (h0 : 0 ≤ t.ns) (h1 : t.ns < endOfTime) :
    timestampUnmarshal (timestampMarshal t) = .ok { ns := t.ns / 1000000 * 1000000, off := 0 } := by
  obtain ⟨hv, hm, ht⟩ := civilOf_facts t.ns h0 h1
  have hs : timestampString t = (civilOf t.ns).text := ht
  simp only [timestampUnmarshal, timestampMarshal, goMiddle_str, Res.bind_ok, hs, goParse_text _ hv,
    hm]
where
  /-- The middle of a JSON string is its raw text. -/
  goMiddle_str (raw dec : Str) : goMiddle (Json.raw (.str raw dec)) = .ok raw := by
    simp [goMiddle, Json.raw]

/-- **C23.** A second round trip changes nothing. -/
theorem c23_second_round_trip (t : GoTime) (h0 : 0 ≤ t.ns) (h1 : t.ns < endOfTime) (u : GoTime)
    (hu : timestampUnmarshal (timestampMarshal t) = .ok u) :
    timestampMarshal u = timestampMarshal t ∧ timestampUnmarshal (timestampMarshal u) = .ok u := by
  rw [c23_round_trip t h0 h1] at hu
  simp only [Res.ok.injEq] at hu
  subst hu
  have g0 : 0 ≤ t.ns / 1000000 * 1000000 := by omega
  have g1 : t.ns / 1000000 * 1000000 < endOfTime := by omega
  have h := c23_round_trip { ns := t.ns / 1000000 * 1000000, off := 0 } g0 g1
  have e : t.ns / 1000000 * 1000000 / 1000000 * 1000000 = t.ns / 1000000 * 1000000 := by omega
  simp only [e] at h
  refine ⟨?_, h⟩
  obtain ⟨_, _, ht⟩ := civilOf_facts t.ns h0 h1
  obtain ⟨_, _, ht'⟩ := civilOf_facts _ g0 g1
  have hs : timestampString t = (civilOf t.ns).text := ht
  simp only [timestampMarshal, hs, ht']
  have hc : civilOf (t.ns / 1000000 * 1000000) = civilOf t.ns := by
    unfold civilOf
    have e1 : t.ns / 1000000 * 1000000 / 1000000000 = t.ns / 1000000000 := by omega
    have e2 : (t.ns / 1000000 * 1000000 % 1000000000).toNat / 1000000 =
        (t.ns % 1000000000).toNat / 1000000 := by omega
    simp only [e1, e2]
  rw [hc]

/-- **C23.** The restriction to four-digit years is needed: a later instant does not decode. -/
theorem c23_year_10000_fails :
    timestampUnmarshal (timestampMarshal { ns := endOfTime }) = .err .other := by
  decide +kernel

/-- Non-vacuity for C23: sub-millisecond digits are dropped, nothing else. -/
example : timestampUnmarshal (timestampMarshal { ns := 63750234599123456789 }) =
    .ok { ns := 63750234599123000000 } := c23_round_trip _ (by decide) (by decide)

/-! ### C24 -/

theorem digit_lt {a b : Nat} (h : a < b) (hb : b < 10) : digit a < digit b := by
  interval_cases b <;> interval_cases a <;> decide

/-- Byte order on texts. -/
abbrev StrLt (a b : Str) : Prop := List.Lex (· < ·) a b

theorem lex2 {n m : Nat} (h : n < m) (hm : m < 100) (x y : Str) :
    StrLt (digit (n / 10) :: digit (n % 10) :: x) (digit (m / 10) :: digit (m % 10) :: y) := by
  by_cases h1 : n / 10 = m / 10
  · rw [h1]; exact .cons (.rel (digit_lt (by omega) (by omega)))
  · exact .rel (digit_lt (by omega) (by omega))

theorem lex3 {n m : Nat} (h : n < m) (hm : m < 1000) (x y : Str) :
    StrLt (digit (n / 100) :: digit (n / 10 % 10) :: digit (n % 10) :: x)
      (digit (m / 100) :: digit (m / 10 % 10) :: digit (m % 10) :: y) := by
  by_cases h1 : n / 100 = m / 100
  · rw [h1]; refine .cons ?_
    by_cases h2 : n / 10 % 10 = m / 10 % 10
    · rw [h2]; exact .cons (.rel (digit_lt (by omega) (by omega)))
    · exact .rel (digit_lt (by omega) (by omega))
  · exact .rel (digit_lt (by omega) (by omega))

theorem lex4 {n m : Nat} (h : n < m) (hm : m < 10000) (x y : Str) :
    StrLt (digit (n / 1000) :: digit (n / 100 % 10) :: digit (n / 10 % 10) :: digit (n % 10) :: x)
      (digit (m / 1000) :: digit (m / 100 % 10) :: digit (m / 10 % 10) :: digit (m % 10) :: y) := by
  by_cases h0 : n / 1000 = m / 1000
  · rw [h0]; refine .cons ?_
    by_cases h1 : n / 100 % 10 = m / 100 % 10
    · rw [h1]; refine .cons ?_
      by_cases h2 : n / 10 % 10 = m / 10 % 10
      · rw [h2]; exact .cons (.rel (digit_lt (by omega) (by omega)))
      · exact .rel (digit_lt (by omega) (by omega))
    · exact .rel (digit_lt (by omega) (by omega))
  · exact .rel (digit_lt (by omega) (by omega))

theorem daysBeforeYear_lt {y z : Nat} (h : y < z) :
    daysBeforeYear y + (if LeapYear y then 366 else 365) ≤ daysBeforeYear z := by
  induction z with
  | zero => omega
  | succ z ih =>
    simp only [daysBeforeYear]
    by_cases hz : y = z
    · subst hz; omega
    · have := ih (by omega); omega

theorem daysBeforeMonth_lt (y : Nat) {m n : Nat} (h0 : 1 ≤ m) (h : m < n) :
    daysBeforeMonth y m + daysInMonth y m ≤ daysBeforeMonth y n := by
  induction n with
  | zero => omega
  | succ n ih =>
    match n, h with
    | 0, h => omega
    | n + 1, h =>
      simp only [daysBeforeMonth]
      by_cases hz : m = n + 1
      · subst hz; omega
      · have := ih (by omega); omega

theorem dayOfYear_bound (y m d : Nat) (h : 1 ≤ m ∧ m ≤ 12) (hd : 1 ≤ d ∧ d ≤ daysInMonth y m) :
    daysBeforeMonth y m + (d - 1) < (if LeapYear y then 366 else 365) := by
  obtain ⟨h1, h2⟩ := h
  by_cases hl : LeapYear y <;> simp only [hl, if_true, if_false] <;>
  interval_cases m <;> simp [daysBeforeMonth, daysInMonth, hl] at hd ⊢ <;> omega

theorem text_lt (a b : Civil) (ha : a.Valid) (hb : b.Valid) (h : a.millis < b.millis) :
    StrLt a.text b.text := by
  obtain ⟨y, mo, d, hh, mi, s, ms⟩ := a
  obtain ⟨y', mo', d', hh', mi', s', ms'⟩ := b
  obtain ⟨a1, a2, a3, a4, a5, a6, a7⟩ := ha
  obtain ⟨b1, b2, b3, b4, b5, b6, b7⟩ := hb
  simp only at *
  have ba := dayOfYear_bound y mo d a2 a3
  have bb := dayOfYear_bound y' mo' d' b2 b3
  have hdm : daysInMonth y' mo' ≤ 31 := by
    unfold daysInMonth; split <;> (try split) <;> omega
  simp only [Civil.millis] at h
  unfold Civil.text
  dsimp only
  rcases lt_trichotomy y y' with hy | rfl | hy
  · exact lex4 hy (by omega) _ _
  · refine .cons (.cons (.cons (.cons (.cons ?_))))
    rcases lt_trichotomy mo mo' with hmo | rfl | hmo
    · exact lex2 hmo (by omega) _ _
    · refine .cons (.cons (.cons ?_))
      rcases lt_trichotomy d d' with hd | rfl | hd
      · exact lex2 hd (by omega) _ _
      · refine .cons (.cons (.cons ?_))
        rcases lt_trichotomy hh hh' with hx | rfl | hx
        · exact lex2 hx (by omega) _ _
        · refine .cons (.cons (.cons ?_))
          rcases lt_trichotomy mi mi' with hx | rfl | hx
          · exact lex2 hx (by omega) _ _
          · refine .cons (.cons (.cons ?_))
            rcases lt_trichotomy s s' with hx | rfl | hx
            · exact lex2 hx (by omega) _ _
            · refine .cons (.cons (.cons ?_))
              exact lex3 (by omega) (by omega) _ _
            · omega
          · omega
        · omega
      · omega
    · have := daysBeforeMonth_lt y b2.1 hmo
      omega
  · have := daysBeforeYear_lt hy
    omega

/-- **C24.** If one instant is not after another, its JSON text is not after the other's in
byte order: it is equal or comes first. -/
theorem c24_order_preserved (t u : GoTime) (ht0 : 0 ≤ t.ns) (hu1 : u.ns < endOfTime)
    (h : t.ns ≤ u.ns) :
    timestampString t = timestampString u ∨ StrLt (timestampString t) (timestampString u) := by
  obtain ⟨hv, hm, hs⟩ := civilOf_facts t.ns ht0 (by omega)
  obtain ⟨hv', hm', hs'⟩ := civilOf_facts u.ns (by omega) hu1
  have e : timestampString t = (civilOf t.ns).text := hs
  have e' : timestampString u = (civilOf u.ns).text := hs'
  rw [e, e']
  by_cases hms : (civilOf t.ns).millis = (civilOf u.ns).millis
  · left
    have hc : civilOf t.ns = civilOf u.ns := by
      unfold civilOf
      have e1 : t.ns / 1000000000 = u.ns / 1000000000 := by omega
      have e2 : (t.ns % 1000000000).toNat / 1000000 = (u.ns % 1000000000).toNat / 1000000 := by omega
      simp only [e1, e2]
    rw [hc]
  · right
    exact text_lt _ _ hv hv' (by omega)

/-- **C24.** The texts are equal only within one millisecond, so byte order decides the order
of instants that differ by a millisecond or more. -/
theorem c24_order_reflected (t u : GoTime) (ht0 : 0 ≤ t.ns) (ht1 : t.ns < endOfTime)
    (hu0 : 0 ≤ u.ns) (hu1 : u.ns < endOfTime) :
    StrLt (timestampString t) (timestampString u) ↔ t.ns / 1000000 < u.ns / 1000000 := by
  constructor
  · intro h
    by_contra hc
    have hirr : ∀ a b : Str, StrLt a b → ¬ StrLt b a ∧ a ≠ b := by
      intro a b hab
      induction hab with
      | nil => exact ⟨by rintro ⟨⟩, by simp⟩
      | cons _ ih =>
        refine ⟨?_, by simpa using ih.2⟩
        intro h
        rcases h with _ | h | h
        · exact absurd h (by simp)
        · exact ih.1 h
      | rel hr =>
        refine ⟨?_, ?_⟩
        · intro h
          rcases h with _ | h | h
          · exact absurd (UInt8.lt_trans hr h) (by simp)
          · exact absurd hr (by simp)
        · intro he
          simp only [List.cons.injEq] at he
          rw [he.1] at hr; exact absurd hr (by simp)
    -- u truncated is at most t truncated
    have hut : u.ns / 1000000 * 1000000 ≤ t.ns / 1000000 * 1000000 := by omega
    have et := (c23_second_round_trip t ht0 ht1 _ (c23_round_trip t ht0 ht1)).1
    have eu := (c23_second_round_trip u hu0 hu1 _ (c23_round_trip u hu0 hu1)).1
    simp only [timestampMarshal, Json.str.injEq, and_self] at et eu
    rw [← et, ← eu] at h
    rcases c24_order_preserved { ns := u.ns / 1000000 * 1000000, off := 0 }
      { ns := t.ns / 1000000 * 1000000, off := 0 } (by simp only; omega) (by simp only; omega) hut with h' | h'
    · exact (hirr _ _ h).2 h'.symm
    · exact (hirr _ _ h).1 h'
  · intro h
    rcases c24_order_preserved t u ht0 hu1 (by omega) with h' | h'
    · exfalso
      have a := c23_round_trip t ht0 ht1
      have b := c23_round_trip u hu0 hu1
      simp only [timestampMarshal, h'] at a b
      rw [a] at b
      simp only [Res.ok.injEq, GoTime.mk.injEq, and_true] at b
      omega
    · exact h'

/-- Non-vacuity for C24. -/
example : StrLt (timestampString { ns := 999999 }) (timestampString { ns := 1000000 }) :=
  (c24_order_reflected _ _ (by decide) (by decide) (by decide) (by decide)).2 (by decide)

/-! ### C25 -/

/-- **C25 is false of the code**: a one-digit number panics. -/
theorem c25_decode_panics : ¬ ∀ j : Json, (timestampUnmarshal j).NoPanic := by
  intro h
  have := h (.num (b!"1"))
  revert this
  decide +kernel

/-- **C25 (what holds).** Decoding a JSON value as a timestamp panics exactly for numbers
written with one character; every other value gives a timestamp or an error. -/
theorem c25_decode_panic_iff_partial (j : Json) (hj : j ≠ .num []) :
    timestampUnmarshal j = .panic ↔ ∃ d, j = .num [d] := by
  have hlen : j.raw.length < 2 ↔ ∃ d, j = .num [d] := by
    cases j with
    | null => simp [Json.raw]
    | bool b => cases b <;> simp [Json.raw]
    | num lit =>
      match lit, hj with
      | [], h => exact absurd rfl h
      | [d], _ => simp [Json.raw]
      | _ :: _ :: _, _ => simp [Json.raw]
    | str raw dec => simp [Json.raw]
    | arr l => simp [Json.raw]
    | obj m => simp [Json.raw]
  rw [← hlen]
  unfold timestampUnmarshal goMiddle
  constructor
  · intro h
    by_contra hc
    rw [if_neg hc] at h
    simp only [Res.bind_ok] at h
    split at h <;> simp at h
  · intro h; simp [h]

/-- Non-vacuity for C25. -/
example : timestampUnmarshal (.num (b!"12")) = .err .other ∧
    timestampUnmarshal .null = .err .other ∧
    timestampUnmarshal (.str (b!"2020-01-01T00:00:00Z") (b!"2020-01-01T00:00:00Z")) =
      .ok { ns := 63745056000000000000 } := by decide +kernel

end Stix
