import Verif.Lemmas.Es6Read
import Verif.Spec.GoFloat

/-!
# Which texts are floats (lemmas)
-/

namespace Stix.Strconv
open Stix Spec Spec.Canon Spec.Es6 Spec.GoFloat

attribute [local irreducible] roundPow exact val shortest

theorem u8_forall {P : UInt8 → Prop} (h : ∀ n : Fin 256, P (UInt8.ofNat n.val)) (c : UInt8) : P c := by
  have := h ⟨c.toNat, c.toNat_lt⟩
  simpa only [UInt8.ofNat_toNat] using this

instance (c : UInt8) (d : Nat) : Decidable (Canon.IsHex c d) := by unfold Canon.IsHex; infer_instance

theorem isHex_lt {c : UInt8} {d : Nat} (h : Canon.IsHex c d) : d < 16 := by
  rcases h with h | h <;> exact (List.getElem?_eq_some_iff.1 h).1

theorem digitVal_iff (hex : Bool) (c : UInt8) (d : Nat) :
    digitVal hex c = some d ↔ Canon.IsHex c d ∧ d < base hex := by
  have key : ∀ hex : Bool, ∀ c : Fin 256, ∀ d : Fin 16, digitVal hex (UInt8.ofNat c.val) = some d.val ↔
      Canon.IsHex (UInt8.ofNat c.val) d.val ∧ d.val < base hex := by decide +kernel
  have low : ∀ hex : Bool, ∀ c : Fin 256, ∀ d ∈ digitVal hex (UInt8.ofNat c.val), d < 16 := by decide +kernel
  have k2 := fun d => u8_forall (P := fun c => ∀ d : Fin 16, digitVal hex c = some d.val ↔ Canon.IsHex c d.val ∧ d.val < base hex)
    (fun n => key hex n) c d
  constructor
  · intro h
    have := u8_forall (P := fun c => ∀ d ∈ digitVal hex c, d < 16) (fun n => low hex n) c d h
    exact (k2 ⟨d, this⟩).1 h
  · intro h
    exact (k2 ⟨d, isHex_lt h.1⟩).2 h

theorem digit_iff (hex : Bool) (c : UInt8) : Digit hex c ↔ (digitVal hex c).isSome = true := by
  rw [Option.isSome_iff_exists]
  exact exists_congr fun d => (digitVal_iff hex c d).symm

theorem not_digit (hex : Bool) {c : UInt8} (h : digitVal hex c = none) : ¬ Digit hex c := by
  rw [digit_iff, h]; simp

theorem not_digit95 (hex : Bool) : ¬ Digit hex 95 := not_digit hex (by cases hex <;> rfl)
theorem not_digit43 (hex : Bool) : ¬ Digit hex 43 := not_digit hex (by cases hex <;> rfl)
theorem not_digit45 (hex : Bool) : ¬ Digit hex 45 := not_digit hex (by cases hex <;> rfl)
theorem not_digit46 (hex : Bool) : ¬ Digit hex 46 := not_digit hex (by cases hex <;> rfl)

/-! ### Underscores -/

theorem underscoreLoop_iff (hex : Bool) (s : Str) : ∀ saw, underscoreLoop hex saw s = true ↔
    (saw = 95 → ∃ c r, s = c :: r ∧ Digit hex c) ∧
    ∀ a b, s = a ++ 95 :: b → ((a = [] ∧ saw = 48) ∨ ∃ a' c, a = a' ++ [c] ∧ Digit hex c) ∧
      ∃ c b', b = c :: b' ∧ Digit hex c := by
  induction s with
  | nil =>
    intro saw
    simp [underscoreLoop]
  | cons x s ih =>
    intro saw
    have hsplit : (∀ a b, x :: s = a ++ 95 :: b → ((a = [] ∧ saw = 48) ∨ ∃ a' c, a = a' ++ [c] ∧ Digit hex c) ∧
        ∃ c b', b = c :: b' ∧ Digit hex c) ↔
        (x = 95 → saw = 48 ∧ ∃ c b', s = c :: b' ∧ Digit hex c) ∧
        ∀ a b, s = a ++ 95 :: b → ((a = [] ∧ Digit hex x) ∨ ∃ a' c, a = a' ++ [c] ∧ Digit hex c) ∧
          ∃ c b', b = c :: b' ∧ Digit hex c := by
      constructor
      · intro h
        constructor
        · rintro rfl
          obtain ⟨h1, h2⟩ := h [] s rfl
          refine ⟨?_, h2⟩
          rcases h1 with h1 | ⟨a', c, e, -⟩
          · exact h1.2
          · simp at e
        · intro a b e
          obtain ⟨h1, h2⟩ := h (x :: a) b (by rw [e]; rfl)
          refine ⟨?_, h2⟩
          rcases h1 with h1 | ⟨a', c, e, hc⟩
          · simp at h1
          · cases a' with
            | nil =>
              simp only [List.nil_append, List.cons.injEq] at e
              exact .inl ⟨e.2, e.1 ▸ hc⟩
            | cons y a' =>
              simp only [List.cons_append, List.cons.injEq] at e
              exact .inr ⟨a', c, e.2, hc⟩
      · rintro ⟨h1, h2⟩ a b e
        cases a with
        | nil =>
          simp only [List.nil_append, List.cons.injEq] at e
          obtain ⟨g1, g2⟩ := h1 e.1
          exact ⟨.inl ⟨rfl, g1⟩, e.2 ▸ g2⟩
        | cons y a =>
          simp only [List.cons_append, List.cons.injEq] at e
          obtain ⟨rfl, e⟩ := e
          obtain ⟨g1, g2⟩ := h2 a b e
          refine ⟨.inr ?_, g2⟩
          rcases g1 with ⟨rfl, hx⟩ | ⟨a', c, rfl, hc⟩
          · exact ⟨[], x, rfl, hx⟩
          · exact ⟨x :: a', c, rfl, hc⟩
    rw [hsplit, underscoreLoop]
    have hd := digit_iff hex x
    by_cases h1 : (digitVal hex x).isSome = true
    · have hx := hd.2 h1
      rw [if_pos h1, ih]
      have h95 : x ≠ 95 := by rintro rfl; exact not_digit95 hex hx
      constructor
      · rintro ⟨-, g⟩
        refine ⟨fun _ => ⟨x, s, rfl, hx⟩, fun e => absurd e h95, fun a b e => ?_⟩
        obtain ⟨g1, g2⟩ := g a b e
        exact ⟨g1.imp_left fun g => ⟨g.1, hx⟩, g2⟩
      · rintro ⟨-, -, g⟩
        refine ⟨fun e => absurd e (by decide), fun a b e => ?_⟩
        obtain ⟨g1, g2⟩ := g a b e
        exact ⟨g1.imp_left fun g => ⟨g.1, rfl⟩, g2⟩
    · have hx : ¬ Digit hex x := fun h => h1 (hd.1 h)
      rw [if_neg h1]
      by_cases h2 : x = 95
      · rw [if_pos h2]
        by_cases h3 : saw = 48
        · rw [if_neg (by simpa using h3), ih]
          constructor
          · rintro ⟨g1, g⟩
            refine ⟨fun e => absurd (h3.symm.trans e) (by decide), fun _ => ⟨h3, g1 rfl⟩, fun a b e => ?_⟩
            obtain ⟨g2, g3⟩ := g a b e
            refine ⟨?_, g3⟩
            rcases g2 with ⟨-, e⟩ | g2
            · exact absurd e (by decide)
            · exact .inr g2
          · rintro ⟨-, g1, g⟩
            refine ⟨fun _ => (g1 h2).2, fun a b e => ?_⟩
            obtain ⟨g2, g3⟩ := g a b e
            refine ⟨?_, g3⟩
            rcases g2 with ⟨-, e⟩ | g2
            · exact absurd e hx
            · exact .inr g2
        · rw [if_pos h3]
          simp only [Bool.false_eq_true, false_iff]
          rintro ⟨-, g, -⟩
          exact h3 (g h2).1
      · rw [if_neg h2]
        by_cases h3 : saw = 95
        · rw [if_pos h3]
          simp only [Bool.false_eq_true, false_iff]
          rintro ⟨g, -⟩
          obtain ⟨c, r, e, hc⟩ := g h3
          simp only [List.cons.injEq] at e
          exact hx (e.1 ▸ hc)
        · rw [if_neg h3, ih]
          constructor
          · rintro ⟨-, g⟩
            refine ⟨fun e => absurd e h3, fun e => absurd e h2, fun a b e => ?_⟩
            obtain ⟨g2, g3⟩ := g a b e
            refine ⟨?_, g3⟩
            rcases g2 with ⟨-, e⟩ | g2
            · exact absurd e (by decide)
            · exact .inr g2
          · rintro ⟨-, -, g⟩
            refine ⟨fun e => absurd e (by decide), fun a b e => ?_⟩
            obtain ⟨g2, g3⟩ := g a b e
            refine ⟨?_, g3⟩
            rcases g2 with ⟨-, e⟩ | g2
            · exact absurd e hx
            · exact .inr g2

/-! ### Signs and prefixes -/

theorem takeSign_spec (t : Str) : ∃ s, t = s ++ (takeSign t).2 ∧ Sign s (takeSign t).1 ∧
    (s = [] → ∀ c r, t = c :: r → c ≠ 43 ∧ c ≠ 45) := by
  unfold takeSign
  split
  · exact ⟨b!"+", rfl, .inl ⟨rfl, .inr rfl⟩, fun h => absurd h (by decide)⟩
  · exact ⟨b!"-", rfl, .inr ⟨rfl, rfl⟩, fun h => absurd h (by decide)⟩
  · next h1 h2 =>
    refine ⟨[], rfl, .inl ⟨rfl, .inl rfl⟩, ?_⟩
    rintro - c r e
    constructor
    · rintro rfl; exact h1 _ e
    · rintro rfl; exact h2 _ e

theorem takeSign_of {s r : Str} {neg : Bool} (h : Sign s neg) (hr : s = [] → ∀ c r', r = c :: r' → c ≠ 43 ∧ c ≠ 45) :
    takeSign (s ++ r) = (neg, r) := by
  rcases h with ⟨rfl, rfl | rfl⟩ | ⟨rfl, rfl⟩
  · rw [List.nil_append]
    unfold takeSign
    split
    · exact absurd rfl (hr rfl _ _ rfl).1
    · exact absurd rfl (hr rfl _ _ rfl).2
    · rfl
  · rfl
  · rfl

/-- Nothing of a sign is an underscore or a digit. -/
theorem sign_mem {s : Str} {neg : Bool} (h : Sign s neg) : ∀ c ∈ s, c = 43 ∨ c = 45 := by
  rcases h with ⟨rfl, rfl | rfl⟩ | ⟨rfl, rfl⟩
  · simp
  · intro c hc; exact .inl (by simpa using hc)
  · intro c hc; exact .inr (by simpa using hc)

theorem lower_x (x : UInt8) : lower x = 120 ↔ x = 120 ∨ x = 88 :=
  u8_forall (P := fun x => lower x = 120 ↔ x = 120 ∨ x = 88) (by decide +kernel) x
theorem lower_e (x : UInt8) : lower x = 101 ↔ x = 101 ∨ x = 69 :=
  u8_forall (P := fun x => lower x = 101 ↔ x = 101 ∨ x = 69) (by decide +kernel) x
theorem lower_p (x : UInt8) : lower x = 112 ↔ x = 112 ∨ x = 80 :=
  u8_forall (P := fun x => lower x = 112 ↔ x = 112 ∨ x = 80) (by decide +kernel) x

/-- Splitting before an underscore, after characters that are none. -/
theorem split95 {p r a b : Str} (hp : ∀ c ∈ p, c ≠ 95) (e : p ++ r = a ++ 95 :: b) :
    ∃ a', a = p ++ a' ∧ r = a' ++ 95 :: b := by
  induction p generalizing a with
  | nil => exact ⟨a, rfl, e⟩
  | cons x p ih =>
    cases a with
    | nil =>
      simp only [List.cons_append, List.nil_append, List.cons.injEq] at e
      exact absurd e.1 (hp x (by simp))
    | cons y a =>
      simp only [List.cons_append, List.cons.injEq] at e
      obtain ⟨rfl, e⟩ := e
      obtain ⟨a', rfl, h⟩ := ih (fun c hc => hp c (by simp [hc])) e
      exact ⟨a', rfl, h⟩

theorem sign_no95 {s : Str} {neg : Bool} (h : Sign s neg) : ∀ c ∈ s, c ≠ 95 := by
  intro c hc
  rcases sign_mem h c hc with rfl | rfl <;> decide

theorem sign_last {s a' : Str} {neg : Bool} {c : UInt8} (h : Sign s neg) (e : s = a' ++ [c]) (hex : Bool) : ¬ Digit hex c := by
  rcases sign_mem h c (by rw [e]; simp) with rfl | rfl
  · exact not_digit43 hex
  · exact not_digit45 hex

/-- The end of what an underscore follows. -/
theorem append_last {p a a' : Str} {c : UInt8} (h : a ≠ []) : p ++ a = a' ++ [c] ↔ ∃ a'', a = a'' ++ [c] ∧ a' = p ++ a'' := by
  constructor
  · intro e
    rcases List.eq_nil_or_concat a with rfl | ⟨l, y, rfl⟩
    · exact absurd rfl h
    · rw [List.concat_eq_append] at *
      rw [← List.append_assoc] at e
      obtain ⟨e1, e2⟩ := List.append_inj' e rfl
      exact ⟨l, by rw [e2], e1.symm⟩
  · rintro ⟨a'', rfl, rfl⟩
    rw [List.append_assoc]

theorem underscoreOK_dec {s r : Str} {neg : Bool} (hs : Sign s neg)
    (hr : s = [] → ∀ c r', r = c :: r' → c ≠ 43 ∧ c ≠ 45)
    (hp : ∀ x r', r = 48 :: x :: r' → ¬ (lower x = 98 ∨ lower x = 111 ∨ lower x = 120)) :
    underscoreOK (s ++ r) = true ↔ Separated false (s ++ r) := by
  have h1 : underscoreOK (s ++ r) = underscoreLoop false 94 r := by
    unfold underscoreOK
    rw [takeSign_of hs hr]
    simp only
    split
    · next x r' => rw [if_neg (hp x r' rfl)]
    · rfl
  rw [h1, underscoreLoop_iff]
  constructor
  · rintro ⟨-, g⟩ a b e
    obtain ⟨a', rfl, e'⟩ := split95 (sign_no95 hs) e
    obtain ⟨g1, g2⟩ := g a' b e'
    refine ⟨.inl ?_, g2⟩
    rcases g1 with ⟨-, h⟩ | ⟨a'', c, rfl, hc⟩
    · exact absurd h (by decide)
    · exact ⟨s ++ a'', c, by simp, hc⟩
  · intro g
    refine ⟨fun h => absurd h (by decide), fun a b e => ?_⟩
    obtain ⟨g1, g2⟩ := g (s ++ a) b (by rw [e]; simp)
    refine ⟨.inr ?_, g2⟩
    rcases g1 with ⟨a', c, e1, hc⟩ | ⟨h, -⟩
    · by_cases ha : a = []
      · subst ha
        rw [List.append_nil] at e1
        exact absurd hc (sign_last hs e1 false)
      · obtain ⟨a'', h1, -⟩ := (append_last ha).1 e1
        exact ⟨a'', c, h1, hc⟩
    · exact absurd h (by decide)

theorem underscoreOK_hex {s r : Str} {neg : Bool} {x : UInt8} (hs : Sign s neg) (hx : x = 120 ∨ x = 88) :
    underscoreOK (s ++ 48 :: x :: r) = true ↔ Separated true (s ++ 48 :: x :: r) := by
  have hlx := (lower_x x).2 hx
  have h1 : underscoreOK (s ++ 48 :: x :: r) = underscoreLoop true 48 r := by
    unfold underscoreOK
    rw [takeSign_of hs (by
      rintro - c r' e
      simp only [List.cons.injEq] at e
      rw [← e.1]; decide)]
    simp only
    rw [if_pos (.inr (.inr hlx)), hlx]
    rfl
  have hp : ∀ c ∈ s ++ [48, x], c ≠ 95 := by
    intro c hc
    rw [List.mem_append] at hc
    rcases hc with hc | hc
    · exact sign_no95 hs c hc
    · simp only [List.mem_cons, List.not_mem_nil, or_false] at hc
      rcases hc with rfl | rfl
      · decide
      · rcases hx with rfl | rfl <;> decide
  have hnx : ¬ Digit true x := by
    rcases hx with rfl | rfl <;> exact not_digit true rfl
  rw [h1, underscoreLoop_iff]
  constructor
  · rintro ⟨-, g⟩ a b e
    obtain ⟨a', rfl, e'⟩ := split95 hp (by rw [← e]; simp : (s ++ [48, x]) ++ r = a ++ 95 :: b)
    obtain ⟨g1, g2⟩ := g a' b e'
    refine ⟨?_, g2⟩
    rcases g1 with ⟨rfl, -⟩ | ⟨a'', c, rfl, hc⟩
    · refine .inr ⟨rfl, s, neg, hs, ?_⟩
      rw [List.append_nil]
      rcases hx with rfl | rfl
      · exact .inl rfl
      · exact .inr rfl
    · exact .inl ⟨s ++ [48, x] ++ a'', c, by simp, hc⟩
  · intro g
    refine ⟨fun h => absurd h (by decide), fun a b e => ?_⟩
    obtain ⟨g1, g2⟩ := g ((s ++ [48, x]) ++ a) b (by rw [e]; simp)
    refine ⟨?_, g2⟩
    by_cases ha : a = []
    · exact .inl ⟨ha, rfl⟩
    right
    rcases g1 with ⟨a', c, e1, hc⟩ | ⟨-, s', neg', hs', e1⟩
    · obtain ⟨a'', h1, -⟩ := (append_last ha).1 e1
      exact ⟨a'', c, h1, hc⟩
    · exfalso
      have hl : (s ++ [48, x] ++ a).length ≤ 3 ∧ ∃ x', s ++ [48, x] ++ a = s' ++ [48, x'] := by
        rcases hs' with ⟨-, rfl | rfl⟩ | ⟨-, rfl⟩ <;> rcases e1 with e1 | e1 <;> rw [e1] <;>
          exact ⟨by decide, _, rfl⟩
      obtain ⟨hl, x', e2⟩ := hl
      have ha' : 0 < a.length := List.length_pos_iff.2 ha
      simp only [List.length_append, List.length_cons, List.length_nil] at hl
      have hs0 : s = [] := List.eq_nil_of_length_eq_zero (by omega)
      subst hs0
      rw [List.nil_append] at e2
      have hlen := congrArg List.length e2
      simp only [List.length_append, List.length_cons, List.length_nil] at hlen
      rcases hs' with ⟨-, rfl | rfl⟩ | ⟨-, rfl⟩
      · simp only [List.length_nil] at hlen; omega
      · exact absurd (List.cons.inj e2).1 (by decide)
      · exact absurd (List.cons.inj e2).1 (by decide)

/-! ### Without the underscores -/

theorem bare_cons95 (r : Str) : bare (95 :: r) = bare r := rfl
theorem bare_cons {c : UInt8} (h : c ≠ 95) (r : Str) : bare (c :: r) = c :: bare r := by
  unfold bare
  rw [List.filter_cons_of_pos (by simpa using h)]
theorem bare_append (a b : Str) : bare (a ++ b) = bare a ++ bare b := List.filter_append ..
theorem bare_of {a : Str} (h : ∀ c ∈ a, c ≠ 95) : bare a = a :=
  List.filter_eq_self.2 fun c hc => by simpa using h c hc
theorem bare_no95 (a : Str) : ∀ c ∈ bare a, c ≠ 95 := fun c hc => by simpa using (List.mem_filter.1 hc).2

theorem mantissa_bare (hex : Bool) (s : Str) : ∀ st,
    mantissa hex st (bare s) = ((mantissa hex st s).1, bare (mantissa hex st s).2) := by
  induction s with
  | nil => intro st; rfl
  | cons c s ih =>
    intro st
    by_cases h : c = 95
    · subst h
      rw [bare_cons95, ih]
      rw [mantissa.eq_2 hex st 95 s, if_pos rfl]
    · rw [bare_cons h, mantissa, mantissa, if_neg h, if_neg h]
      split
      · split
        · rw [bare_cons h]
        · rw [ih]
      · split
        · rw [ih]
        · rw [bare_cons h]

theorem exponentLoop_bare (s : Str) : ∀ e, exponentLoop e (bare s) = ((exponentLoop e s).1, bare (exponentLoop e s).2) := by
  induction s with
  | nil => intro e; rfl
  | cons c s ih =>
    intro e
    by_cases h : c = 95
    · subst h
      rw [bare_cons95, ih, exponentLoop.eq_2 e 95 s, if_pos rfl]
    · rw [bare_cons h, exponentLoop, exponentLoop, if_neg h, if_neg h]
      split
      · rw [ih]
      · rw [bare_cons h]

/-- Where the mantissa ends. -/
theorem mantissa_rest (hex : Bool) (s : Str) : ∀ st, (∃ u, s = u ++ (mantissa hex st s).2) ∧
    ∀ c r, (mantissa hex st s).2 = c :: r → c ≠ 95 := by
  induction s with
  | nil => intro st; exact ⟨⟨[], rfl⟩, fun c r e => by simp [mantissa] at e⟩
  | cons c s ih =>
    intro st
    rw [mantissa]
    split
    · obtain ⟨⟨u, h1⟩, h2⟩ := ih st
      exact ⟨⟨c :: u, by rw [List.cons_append, ← h1]⟩, h2⟩
    · next h95 =>
      have stop : ∀ st : Mant, (∃ u, c :: s = u ++ (st, c :: s).2) ∧ ∀ c' r, (st, c :: s).2 = c' :: r → c' ≠ 95 :=
        fun st => ⟨⟨[], rfl⟩, fun c' r e => by simp only [List.cons.injEq] at e; rw [← e.1]; exact h95⟩
      split
      · split
        · exact stop st
        · obtain ⟨⟨u, h1⟩, h2⟩ := ih { st with dot := true }
          exact ⟨⟨c :: u, by rw [List.cons_append, ← h1]⟩, h2⟩
      · split
        · obtain ⟨⟨u, h1⟩, h2⟩ := ih _
          exact ⟨⟨c :: u, by rw [List.cons_append, ← h1]⟩, h2⟩
        · exact stop st

/-- What is done after sign and prefix. -/
def tailMag (hex : Bool) (st : Mant) : Str → Option Nat
  | [] => if hex then none else some (roundPow 10 st.val (-(st.frac : Int)))
  | c :: e =>
    if lower c = (if hex then 112 else 101) then
      match exponent e with
      | some e => some (if hex then roundPow 2 st.val (e - 4 * st.frac) else roundPow 10 st.val (e - st.frac))
      | none => none
    else none

/-- What is done after sign and prefix. -/
def bodyMag (hex : Bool) (r : Str) : Option Nat :=
  if (mantissa hex {} r).1.digit = false then none else tailMag hex (mantissa hex {} r).1 (mantissa hex {} r).2

theorem magnitude_eq (s : Str) : magnitude s = if s.contains 95 ∧ underscoreOK s = false then none
    else bodyMag (takeHex (takeSign s).2).1 (takeHex (takeSign s).2).2 := by
  unfold magnitude bodyMag
  simp only
  split
  · split <;> rfl
  · split
    · rfl
    · generalize (mantissa (takeHex (takeSign s).2).1 {} (takeHex (takeSign s).2).2).2 = rest
      cases rest <;> rfl

theorem bare_eq_nil_sep {hex : Bool} {p r : Str} (h : Separated hex (p ++ r)) (hr : bare r = []) : r = [] := by
  cases r with
  | nil => rfl
  | cons c r =>
    by_cases hc : c = 95
    · subst hc
      obtain ⟨-, c, b', rfl, hd⟩ := h p r rfl
      rw [bare_cons95, bare_cons (by rintro rfl; exact not_digit95 hex hd)] at hr
      simp at hr
    · rw [bare_cons hc] at hr; simp at hr

/-- The exponent does not begin with an underscore. -/
theorem exponent_bare {hex : Bool} {p e : Str} {c : UInt8} (h : Separated hex (p ++ c :: e))
    (hc : lower c = (if hex then 112 else 101)) : exponent (bare e) = exponent e := by
  have hcd : ¬ Digit hex c ∧ c ≠ 120 ∧ c ≠ 88 := by
    cases hex
    · rcases (lower_e c).1 hc with rfl | rfl <;> exact ⟨not_digit false rfl, by decide, by decide⟩
    · rcases (lower_p c).1 hc with rfl | rfl <;> exact ⟨not_digit true rfl, by decide, by decide⟩
  have before : ∀ (q : Str) (y : UInt8) (b : Str), p ++ c :: e = q ++ y :: 95 :: b → ¬ Digit hex y → y ≠ 120 → y ≠ 88 → False := by
    intro q y b e1 h1 h2 h3
    obtain ⟨g, -⟩ := h (q ++ [y]) b (by rw [e1]; simp)
    rcases g with ⟨a', c', e2, hd⟩ | ⟨-, s, neg, -, e2⟩
    · obtain ⟨-, e3⟩ := List.append_inj' e2 rfl
      rw [List.singleton_inj] at e3
      exact h1 (e3 ▸ hd)
    · rcases e2 with e2 | e2
      · rw [show s ++ b!"0x" = (s ++ [48]) ++ [120] by simp] at e2
        obtain ⟨-, e3⟩ := List.append_inj' e2 rfl
        rw [List.singleton_inj] at e3
        exact h2 e3
      · rw [show s ++ b!"0X" = (s ++ [48]) ++ [88] by simp] at e2
        obtain ⟨-, e3⟩ := List.append_inj' e2 rfl
        rw [List.singleton_inj] at e3
        exact h3 e3
  obtain ⟨s, hes, hs, hhead⟩ := takeSign_spec e
  generalize hneg : (takeSign e).1 = neg at hs
  generalize hr : (takeSign e).2 = r at hes
  have hr95 : ∀ b, r ≠ 95 :: b := by
    rintro b rfl
    rcases hs with ⟨-, rfl | rfl⟩ | ⟨-, rfl⟩
    · rw [List.nil_append] at hes
      exact before p c b (by rw [hes]) hcd.1 hcd.2.1 hcd.2.2
    · exact before (p ++ [c]) 43 b (by rw [hes]; simp) (not_digit43 hex) (by decide) (by decide)
    · exact before (p ++ [c]) 45 b (by rw [hes]; simp) (not_digit45 hex) (by decide) (by decide)
  have hts : takeSign (bare e) = (neg, bare r) := by
    have : bare e = s ++ bare r := by
      conv_lhs => rw [hes]
      rw [bare_append, bare_of (sign_no95 hs)]
    rw [this]
    refine takeSign_of hs fun h0 c' r' e1 => ?_
    subst h0
    rw [List.nil_append] at hes
    cases r with
    | nil => simp [bare] at e1
    | cons y r =>
      have hy : y ≠ 95 := by rintro rfl; exact hr95 _ rfl
      rw [bare_cons hy] at e1
      simp only [List.cons.injEq] at e1
      rw [← e1.1]
      exact hhead rfl y r hes
  unfold exponent
  rw [hts, show takeSign e = (neg, r) from Prod.ext hneg hr]
  simp only
  cases r with
  | nil => rfl
  | cons y r =>
    have hy : y ≠ 95 := by rintro rfl; exact hr95 _ rfl
    rw [bare_cons hy]
    simp only
    split
    · rw [← bare_cons hy, exponentLoop_bare]
      simp only
      have : bare (exponentLoop 0 (y :: r)).2 = [] ↔ (exponentLoop 0 (y :: r)).2 = [] := by
        have key : ∀ (l : Str) (e : Nat), ∀ c r', (exponentLoop e l).2 = c :: r' → c ≠ 95 := by
          intro l
          induction l with
          | nil => intro e c r' h; simp [exponentLoop] at h
          | cons z l ih =>
            intro e c r' h
            rw [exponentLoop] at h
            split at h
            · exact ih _ _ _ h
            · next h95 =>
              split at h
              · exact ih _ _ _ h
              · simp only [List.cons.injEq] at h
                rw [← h.1]; exact h95
        constructor
        · intro h0
          cases hl : (exponentLoop 0 (y :: r)).2 with
          | nil => rfl
          | cons z l =>
            rw [hl, bare_cons (key _ _ _ _ hl)] at h0
            simp at h0
        · intro h0; rw [h0]; rfl
      simp only [this]
    · rfl

theorem bodyMag_bare {hex : Bool} {p r : Str} (h : Separated hex (p ++ r)) : bodyMag hex (bare r) = bodyMag hex r := by
  unfold bodyMag
  rw [mantissa_bare]
  simp only
  split
  · rfl
  · obtain ⟨⟨u, hu⟩, h95⟩ := mantissa_rest hex r {}
    generalize (mantissa hex {} r).1 = st at *
    generalize (mantissa hex {} r).2 = rest at *
    cases rest with
    | nil => rfl
    | cons c e =>
      rw [bare_cons (h95 c e rfl)]
      unfold tailMag
      simp only
      by_cases hc : lower c = (if hex then 112 else 101)
      · rw [exponent_bare (p := p ++ u) (by rw [hu] at h; rw [List.append_assoc]; exact h) hc]
      · rw [if_neg hc, if_neg hc]

end Stix.Strconv
