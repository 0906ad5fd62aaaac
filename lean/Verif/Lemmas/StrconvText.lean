import Verif.Lemmas.Shortest
import Verif.Lemmas.TextPrint

/-!
# Texts of floats (lemmas)
-/

namespace Stix.Strconv
open Stix Spec Spec.Canon

attribute [local irreducible] roundPow exact val shortest

/-! ### Reading -/

theorem digit_facts (c : UInt8) (h : 48 ≤ c ∧ c ≤ 57) :
    c ≠ 95 ∧ c ≠ 46 ∧ lower c ≠ 120 ∧ lower c ≠ 101 ∧ c ≠ 43 ∧ c ≠ 45 ∧
    (if 65 ≤ c && c ≤ 90 then c + 32 else c) = c ∧ c ≠ 105 ∧ c ≠ 110 ∧
    digitVal false c = some (c.toNat - 48) := by
  have key : ∀ n : Fin 256, 48 ≤ UInt8.ofNat n.val ∧ UInt8.ofNat n.val ≤ 57 →
      UInt8.ofNat n.val ≠ 95 ∧ UInt8.ofNat n.val ≠ 46 ∧ lower (UInt8.ofNat n.val) ≠ 120 ∧
      lower (UInt8.ofNat n.val) ≠ 101 ∧ UInt8.ofNat n.val ≠ 43 ∧ UInt8.ofNat n.val ≠ 45 ∧
      (if 65 ≤ UInt8.ofNat n.val && UInt8.ofNat n.val ≤ 90 then UInt8.ofNat n.val + 32
        else UInt8.ofNat n.val) = UInt8.ofNat n.val ∧
      UInt8.ofNat n.val ≠ 105 ∧ UInt8.ofNat n.val ≠ 110 ∧
      digitVal false (UInt8.ofNat n.val) = some ((UInt8.ofNat n.val).toNat - 48) := by decide +kernel
  have := key ⟨c.toNat, c.toNat_lt⟩
  simp only [UInt8.ofNat_toNat] at this
  exact this h

theorem takeSign_digit {c : UInt8} {r : Str} (h : 48 ≤ c ∧ c ≤ 57) : takeSign (c :: r) = (false, c :: r) := by
  obtain ⟨-, -, -, -, h1, h2, -⟩ := digit_facts c h
  unfold takeSign
  split
  · next h3 => exact absurd (List.cons.inj h3).1 h1
  · next h3 => exact absurd (List.cons.inj h3).1 h2
  · rfl

theorem special_digit {c : UInt8} {r : Str} (h : 48 ≤ c ∧ c ≤ 57) : special (c :: r) = none := by
  obtain ⟨-, -, -, -, -, -, h3, h4, h5, -⟩ := digit_facts c h
  unfold special
  simp only [List.map_cons, h3]
  rw [takeSign_digit h]
  rw [if_neg, if_neg]
  · intro e; exact h5 (List.cons.inj e).1
  · rintro (e | e) <;> exact h4 (List.cons.inj e).1

theorem special_minus {c : UInt8} {r : Str} (h : 48 ≤ c ∧ c ≤ 57) : special (45 :: c :: r) = none := by
  obtain ⟨-, -, -, -, -, -, h3, h4, h5, -⟩ := digit_facts c h
  unfold special
  simp only [List.map_cons, h3]
  rw [show (if (65 : UInt8) ≤ 45 && (45 : UInt8) ≤ 90 then (45 : UInt8) + 32 else 45) = 45 by decide]
  simp only [takeSign]
  rw [if_neg, if_neg]
  · intro e; exact absurd (List.cons.inj e).1 (by decide)
  · rintro (e | e) <;> exact h4 (List.cons.inj e).1

/-- A minus sign does not change the magnitude. -/
theorem magnitude_minus {c : UInt8} {r : Str} (h : 48 ≤ c ∧ c ≤ 57) :
    magnitude (45 :: c :: r) = magnitude (c :: r) := by
  unfold magnitude underscoreOK
  rw [takeSign_digit h]
  simp only [takeSign, List.contains_cons]
  rw [show ((95 : UInt8) == 45) = false by decide, Bool.false_or]

theorem parse_digit {c : UInt8} {r : Str} (h : 48 ≤ c ∧ c ≤ 57) :
    parse (c :: r) = match magnitude (c :: r) with
      | none => none
      | some k => if k < 0x7ff0000000000000 then some (UInt64.ofNat k) else none := by
  unfold parse
  rw [special_digit h, takeSign_digit h]
  cases magnitude (c :: r) <;> simp

theorem parse_minus {c : UInt8} {r : Str} (h : 48 ≤ c ∧ c ≤ 57) :
    parse (45 :: c :: r) = match magnitude (c :: r) with
      | none => none
      | some k => if k < 0x7ff0000000000000 then some (UInt64.ofNat k ||| 0x8000000000000000) else none := by
  unfold parse
  rw [special_minus h, magnitude_minus h]
  cases magnitude (c :: r) <;> simp [takeSign]

/-- Characters of JSON numbers. -/
def Plain (c : UInt8) : Prop := c ≠ 95 ∧ lower c ≠ 120

theorem takeHex_plain {r : Str} (h : ∀ c ∈ r, Plain c) : takeHex r = (false, r) := by
  unfold takeHex
  split
  · next x c r' =>
    rw [if_neg (h x (by simp)).2]
  · rfl

/-- Without underscores and without a prefix. -/
theorem magnitude_plain {c : UInt8} {r : Str} (h : 48 ≤ c ∧ c ≤ 57) (hp : ∀ x ∈ c :: r, Plain x) :
    magnitude (c :: r) =
      if (mantissa false {} (c :: r)).1.digit = false then none
      else match (mantissa false {} (c :: r)).2 with
        | [] => some (roundPow 10 (mantissa false {} (c :: r)).1.val (-((mantissa false {} (c :: r)).1.frac : Int)))
        | x :: e => if lower x = 101 then (exponent e).map fun e =>
            roundPow 10 (mantissa false {} (c :: r)).1.val (e - (mantissa false {} (c :: r)).1.frac) else none := by
  unfold magnitude
  rw [takeSign_digit h]
  simp only [takeHex_plain hp]
  have h95 : (c :: r).contains 95 = false := by
    rw [← Bool.not_eq_true, List.contains_iff_mem]
    exact fun hm => (hp 95 hm).1 rfl
  simp only [h95, Bool.false_eq_true, false_and, if_false]
  cases (mantissa false {} (c :: r)).1.digit
  · rfl
  · simp only [Bool.true_eq_false, if_false]
    cases (mantissa false {} (c :: r)).2 with
    | nil => rfl
    | cons x e =>
      simp only
      split
      · cases exponent e <;> rfl
      · rfl

/-- The value of digits after others. -/
theorem litVal_from (a : Nat) (l : Str) :
    l.foldl (fun a c => 10 * a + (c.toNat - 48)) a = a * 10 ^ l.length + litVal l := by
  unfold litVal
  induction l generalizing a with
  | nil => simp
  | cons c l ih =>
    simp only [List.foldl_cons, List.length_cons]
    rw [ih, ih (10 * 0 + _), pow_succ]
    ring

theorem litVal_app (l m : Str) : litVal (l ++ m) = litVal l * 10 ^ m.length + litVal m := by
  rw [← litVal_from]
  unfold litVal
  rw [List.foldl_append]

/-- What digits do to the mantissa. -/
def Mant.eat (st : Mant) (ds : Str) : Mant :=
  { st with
    digit := st.digit || !ds.isEmpty
    val := st.val * 10 ^ ds.length + litVal ds
    frac := if st.dot then st.frac + ds.length else st.frac }

theorem mantissa_digits (ds : Str) : ∀ (st : Mant) (r : Str), (∀ c ∈ ds, 48 ≤ c ∧ c ≤ 57) →
    mantissa false st (ds ++ r) = mantissa false (st.eat ds) r := by
  induction ds with
  | nil =>
    intro st r _
    simp [Mant.eat, litVal]
  | cons c ds ih =>
    intro st r h
    obtain ⟨h1, h2, -, -, -, -, -, -, -, h3⟩ := digit_facts c (h c (by simp))
    rw [List.cons_append, mantissa, if_neg h1, if_neg h2, h3]
    simp only
    rw [ih _ _ (fun x hx => h x (by simp [hx]))]
    congr 1
    unfold Mant.eat
    have e := litVal_from (c.toNat - 48) ds
    have e2 : litVal (c :: ds) = (c.toNat - 48) * 10 ^ ds.length + litVal ds := by
      rw [← e]; simp [litVal]
    simp only [List.isEmpty_cons, Bool.not_false, Bool.or_true, Bool.true_or, List.length_cons, e2,
      Bool.false_eq_true, if_false, pow_succ]
    congr 1
    · ring
    · split <;> omega

theorem exponentLoop_digits (ds : Str) : ∀ e, (∀ c ∈ ds, 48 ≤ c ∧ c ≤ 57) →
    (exponentLoop e ds).2 = [] ∧
    (e * 10 ^ ds.length + litVal ds < 100000 → (exponentLoop e ds).1 = e * 10 ^ ds.length + litVal ds) := by
  induction ds with
  | nil => intro e _; simp [exponentLoop, litVal]
  | cons c ds ih =>
    intro e h
    have hc := h c (by simp)
    rw [exponentLoop, if_neg (digit_facts c hc).1, if_pos hc]
    obtain ⟨a, b⟩ := ih (if e < 10000 then e * 10 + (c.toNat - 48) else e) (fun x hx => h x (by simp [hx]))
    refine ⟨a, fun hlt => ?_⟩
    have e2 : litVal (c :: ds) = (c.toNat - 48) * 10 ^ ds.length + litVal ds := by
      rw [← litVal_from (c.toNat - 48) ds]; simp [litVal]
    rw [e2, List.length_cons, pow_succ] at hlt ⊢
    have hp : 1 ≤ 10 ^ ds.length := Nat.one_le_pow _ _ (by omega)
    have key : e * (10 ^ ds.length * 10) + ((c.toNat - 48) * 10 ^ ds.length + litVal ds) =
        (e * 10 + (c.toNat - 48)) * 10 ^ ds.length + litVal ds := by ring
    rw [key] at hlt ⊢
    have he : e < 10000 := by
      by_contra hc
      have : 100000 * 1 ≤ (e * 10 + (c.toNat - 48)) * 10 ^ ds.length := Nat.mul_le_mul (by omega) hp
      omega
    rw [if_pos he] at b ⊢
    exact b hlt

/-- Digits with a sign or none. -/
theorem exponent_digits {sgn ds : Str} (hs : sgn = [] ∨ sgn = b!"+" ∨ sgn = b!"-") (hd : ds ≠ [])
    (h : ∀ c ∈ ds, 48 ≤ c ∧ c ≤ 57) :
    exponent (sgn ++ ds) = some (if sgn = b!"-" then -((exponentLoop 0 ds).1 : Int) else (exponentLoop 0 ds).1) := by
  obtain ⟨c, r, rfl⟩ : ∃ c r, ds = c :: r := by
    cases ds with
    | nil => exact absurd rfl hd
    | cons c r => exact ⟨c, r, rfl⟩
  have hc := h c (by simp)
  have hl := (exponentLoop_digits (c :: r) 0 h).1
  unfold exponent
  rcases hs with rfl | rfl | rfl
  · rw [List.nil_append, takeSign_digit hc]
    simp only [if_pos hc, hl, if_true]
    rfl
  · rw [show (b!"+" ++ c :: r : Str) = 43 :: c :: r from rfl, show takeSign (43 :: c :: r) = (false, c :: r) from rfl]
    simp only [if_pos hc, hl, if_true]
    rfl
  · rw [show (b!"-" ++ c :: r : Str) = 45 :: c :: r from rfl, show takeSign (45 :: c :: r) = (true, c :: r) from rfl]
    simp only [if_pos hc, hl, if_true]

/-- Reading a number: digits, perhaps a point and digits, perhaps an exponent. -/
theorem magnitude_number {i f fd e sgn ds : Str} {ec : UInt8} (hi : i ≠ []) (di : ∀ c ∈ i, 48 ≤ c ∧ c ≤ 57)
    (df : ∀ c ∈ fd, 48 ≤ c ∧ c ≤ 57) (hf : (f = [] ∧ fd = []) ∨ f = 46 :: fd)
    (he : (e = [] ∧ ds = []) ∨ (e = ec :: (sgn ++ ds) ∧ (ec = 101 ∨ ec = 69) ∧
      (sgn = [] ∨ sgn = b!"+" ∨ sgn = b!"-") ∧ ds ≠ [] ∧ ∀ c ∈ ds, 48 ≤ c ∧ c ≤ 57)) :
    magnitude (i ++ f ++ e) = some (roundPow 10 (litVal (i ++ fd))
      ((if sgn = b!"-" then -((exponentLoop 0 ds).1 : Int) else (exponentLoop 0 ds).1) - fd.length)) := by
  obtain ⟨c, r, rfl⟩ : ∃ c r, i = c :: r := by
    cases i with
    | nil => exact absurd rfl hi
    | cons c r => exact ⟨c, r, rfl⟩
  have hc := di c (by simp)
  have dp : ∀ x : UInt8, 48 ≤ x ∧ x ≤ 57 → Plain x := fun x hx => ⟨(digit_facts x hx).1, (digit_facts x hx).2.2.1⟩
  have hplain : ∀ x ∈ c :: (r ++ f ++ e), Plain x := by
    intro x hx
    rw [List.mem_cons, List.mem_append, List.mem_append] at hx
    rcases hx with rfl | ((hx | hx) | hx)
    · exact dp _ hc
    · exact dp _ (di x (by simp [hx]))
    · rcases hf with ⟨rfl, -⟩ | rfl
      · simp at hx
      · rcases List.mem_cons.1 hx with rfl | hx
        · unfold Plain; decide
        · exact dp _ (df x hx)
    · rcases he with ⟨rfl, -⟩ | ⟨rfl, h1, h2, h3, h4⟩
      · simp at hx
      · rw [List.mem_cons, List.mem_append] at hx
        rcases hx with rfl | hx | hx
        · rcases h1 with rfl | rfl <;> (unfold Plain; decide)
        · rcases h2 with rfl | rfl | rfl
          · simp at hx
          · rw [List.mem_singleton] at hx; subst hx; unfold Plain; decide
          · rw [List.mem_singleton] at hx; subst hx; unfold Plain; decide
        · exact dp _ (h4 x hx)
  have hm : mantissa false {} (c :: (r ++ f ++ e)) =
      ({ dot := !f.isEmpty, digit := true, val := litVal ((c :: r) ++ fd), frac := fd.length }, e) := by
    have hstop : ∀ st, mantissa false st e = (st, e) := by
      intro st
      rcases he with ⟨rfl, -⟩ | ⟨rfl, h1, -⟩
      · rfl
      · rcases h1 with rfl | rfl <;> rfl
    have h1 := mantissa_digits (c :: r) {} (f ++ e) di
    rw [show c :: (r ++ f ++ e) = (c :: r) ++ (f ++ e) by simp, h1]
    rcases hf with ⟨rfl, rfl⟩ | rfl
    · rw [List.nil_append, hstop]
      simp [Mant.eat]
    · rw [List.cons_append, mantissa, if_neg (by decide), if_pos rfl]
      rw [show (Mant.eat {} (c :: r)).dot = false from rfl]
      simp only [Bool.false_eq_true, if_false]
      rw [mantissa_digits fd _ e df, hstop]
      rw [litVal_app]
      simp [Mant.eat]
  rw [show c :: r ++ f ++ e = c :: (r ++ f ++ e) by simp, magnitude_plain hc hplain, hm]
  simp only [Bool.true_eq_false, if_false]
  rcases he with ⟨rfl, rfl⟩ | ⟨rfl, h1, h2, h3, h4⟩
  · simp [exponentLoop]
  · simp only
    rw [if_pos (by rcases h1 with rfl | rfl <;> decide), exponent_digits h2 h3 h4, Option.map_some]

/-! ### Writing -/

theorem litVal_replicate (n : Nat) : litVal (List.replicate n 48) = 0 := by
  induction n with
  | zero => rfl
  | succ n ih => rw [List.replicate_succ', litVal_append, ih]; rfl

theorem digits_replicate (n : Nat) : ∀ c ∈ List.replicate n (48 : UInt8), 48 ≤ c ∧ c ≤ 57 := by
  intro c hc
  rw [List.eq_of_mem_replicate hc]; decide

theorem natLit_head48 {n : Nat} (h : 0 < n) : (natLit n).head? ≠ some 48 :=
  Text.natLitAux_head _ _ Nat.lt_log2_self h

/-- Decimal exponents of doubles. -/
theorem exp_bounds {k m : Nat} {p : Int} {j : Nat} (hk : 0 < k) (hk2 : k < 0x7ff0000000000000)
    (h : roundPow 10 m p = k) (h1 : 10 ^ j ≤ m) (h2 : m < 10 ^ (j + 1)) : -400 < p + j ∧ p + j < 400 := by
  have a1 : (10 : ℚ) ^ (p + j) ≤ m * 10 ^ p := by
    rw [add_comm, t_add, t_nat]
    exact mul_le_mul_of_nonneg_right (by exact_mod_cast h1) (t_pos _).le
  have a2 : (m : ℚ) * 10 ^ p ≤ 10 ^ (p + j + 1) := by
    rw [add_assoc, add_comm, t_add, show (j : Int) + 1 = ((j + 1 : Nat) : Int) by omega, t_nat]
    exact mul_le_mul_of_nonneg_right (by exact_mod_cast h2.le) (t_pos _).le
  constructor
  · by_contra hc
    have := roundPow_mono (m := m) (e := p) (m' := 1) (e' := -399)
      (a2.trans (by rw [Nat.cast_one, one_mul]; exact t_le (by omega)))
    rw [h, show roundPow 10 1 (-399) = 0 by decide +kernel] at this
    omega
  · by_contra hc
    have := roundPow_mono (m := 1) (e := 400) (m' := m) (e' := p)
      (le_trans (by rw [Nat.cast_one, one_mul]; exact t_le (by omega)) a1)
    rw [h] at this
    have h3 : ¬ (roundPow 10 1 400 < 0x7ff0000000000000) := by decide +kernel
    omega

/-- Digits and where their point is, with what is needed to read them. -/
structure Pieces (a : UInt64) (m : Nat) (p : Int) (ds : Str) (j : Nat) : Prop where
  short : Shortest a.toNat m p
  lit : ds = natLit m
  len : ds.length = j + 1
  digits : ∀ c ∈ ds, 48 ≤ c ∧ c ≤ 57
  val : litVal ds = m
  head : ds.head? ≠ some 48
  lo : 10 ^ j ≤ m
  hi : m < 10 ^ (j + 1)
  bound : -400 < p + j ∧ p + j < 400

theorem pieces {a : UInt64} (h : PosFinite a) : ∃ m p ds j, Pieces a m p ds j ∧ shortest a.toNat = (m, p) := by
  have hk : 0 < a.toNat := by have := h.1; rwa [UInt64.lt_iff_toNat_lt] at this
  have hk2 : a.toNat < 0x7ff0000000000000 := by have := h.2; rwa [UInt64.lt_iff_toNat_lt] at this
  have hs := shortest_spec hk
  obtain ⟨m, p, hsp⟩ : ∃ m p, shortest a.toNat = (m, p) := ⟨_, _, Prod.mk.eta.symm⟩
  rw [hsp] at hs
  obtain ⟨j, e1, e2, e3⟩ := natLit_len m
  obtain ⟨n1, n2, n3⟩ := natLit_spec m
  have lo := e3 hs.pos
  exact ⟨m, p, natLit m, j, ⟨hs, rfl, e1, n2, n3, natLit_head48 hs.pos, lo, e2, exp_bounds hk hk2 hs.fits lo e2⟩, hsp⟩

/-- The text of `formatF`, in parts. -/
theorem formatF_parts {a : UInt64} {m : Nat} {p : Int} {ds : Str} {j : Nat} (h : Pieces a m p ds j)
    (hs : shortest a.toNat = (m, p)) : ∃ i fd f, formatF a = i ++ f ∧ i ≠ [] ∧ (∀ c ∈ i, 48 ≤ c ∧ c ≤ 57) ∧
      (∀ c ∈ fd, 48 ≤ c ∧ c ≤ 57) ∧ ((f = [] ∧ fd = []) ∨ (f = 46 :: fd ∧ fd ≠ [])) ∧
      (i = b!"0" ∨ i.head? ≠ some 48) ∧
      (litVal (i ++ fd) : ℚ) * 10 ^ (-(fd.length : Int)) = m * 10 ^ p := by
  unfold formatF
  rw [hs]
  unfold positional
  simp only [← h.lit]
  have hne : ds ≠ [] := by
    intro e
    have := h.len
    rw [e] at this
    simp at this
  split_ifs with h1 h2
  · obtain ⟨q, rfl⟩ := Int.eq_ofNat_of_zero_le h1
    refine ⟨ds ++ List.replicate q 48, [], [], by simp, by simp [hne], ?_, by simp, .inl ⟨rfl, rfl⟩, .inr ?_, ?_⟩
    · intro c hc
      rcases List.mem_append.1 hc with hc | hc
      · exact h.digits c hc
      · exact digits_replicate q c hc
    · rw [List.head?_append_of_ne_nil _ hne]; exact h.head
    · rw [List.append_nil, litVal_app, h.val, litVal_replicate]
      simp
  · obtain ⟨n, hn⟩ := Int.eq_ofNat_of_zero_le h2.le
    have hlen := h.len
    rw [hn]
    have hn1 : 0 < n := by omega
    have hn2 : n < ds.length := by omega
    have hlit : (natLit m).length = ds.length := by rw [h.lit]
    refine ⟨ds.take n, ds.drop n, 46 :: ds.drop n, rfl, ?_, ?_, ?_, .inr ⟨rfl, ?_⟩, .inr ?_, ?_⟩
    · simp [hne]; omega
    · exact fun c hc => h.digits c (List.mem_of_mem_take hc)
    · exact fun c hc => h.digits c (List.mem_of_mem_drop hc)
    · simp; omega
    · cases hd : ds with
      | nil => exact absurd hd hne
      | cons x r =>
        obtain ⟨n', rfl⟩ : ∃ n', n = n' + 1 := ⟨n - 1, by omega⟩
        have := h.head
        rw [hd] at this
        simpa using this
    · rw [List.take_append_drop, h.val, List.length_drop]
      congr 2
      omega
  · refine ⟨b!"0", List.replicate (-(p + ds.length)).toNat 48 ++ ds,
      46 :: (List.replicate (-(p + ds.length)).toNat 48 ++ ds), rfl, by decide, by decide, ?_, .inr ⟨rfl, by simp [hne]⟩,
      .inl rfl, ?_⟩
    · intro c hc
      rcases List.mem_append.1 hc with hc | hc
      · exact digits_replicate _ c hc
      · exact h.digits c hc
    · rw [litVal_app, litVal_app, h.val, litVal_replicate]
      rw [show litVal (b!"0") = 0 from rfl]
      simp only [Nat.zero_mul, Nat.zero_add, List.length_append, List.length_replicate]
      congr 2
      omega

theorem twoDigits_spec (n : Nat) : (∀ c ∈ twoDigits n, 48 ≤ c ∧ c ≤ 57) ∧ litVal (twoDigits n) = n ∧
    2 ≤ (twoDigits n).length := by
  obtain ⟨n1, n2, n3⟩ := natLit_spec n
  unfold twoDigits
  split
  · next h =>
    refine ⟨fun c hc => ?_, ?_, ?_⟩
    · rcases List.mem_cons.1 hc with rfl | hc
      · decide
      · exact n2 c hc
    · rw [show (48 :: natLit n : Str) = b!"0" ++ natLit n from rfl, litVal_app, n3]
      simp [litVal]
    · cases hd : natLit n with
      | nil => exact absurd hd n1
      | cons x r => simp
  · next h =>
    refine ⟨n2, n3, ?_⟩
    obtain ⟨j, e1, e2, -⟩ := natLit_len n
    rw [e1]
    by_contra hc
    have : j = 0 := by omega
    subst this
    simp at e2
    omega

/-- The text of `formatE`, in parts. -/
theorem formatE_parts {a : UInt64} {m : Nat} {p : Int} {ds : Str} {j : Nat} (h : Pieces a m p ds j)
    (hs : shortest a.toNat = (m, p)) : ∃ d fd f sgn, formatE a = [d] ++ f ++ 101 :: sgn :: twoDigits (p + j).natAbs ∧
      ds = d :: fd ∧ (∀ c ∈ fd, 48 ≤ c ∧ c ≤ 57) ∧ (48 ≤ d ∧ d ≤ 57) ∧ d ≠ 48 ∧
      ((f = [] ∧ fd = []) ∨ (f = 46 :: fd ∧ fd ≠ [])) ∧ sgn = (if p + j < 0 then 45 else 43) := by
  unfold formatE
  rw [hs]
  unfold scientific
  simp only [← h.lit]
  have hlen := h.len
  obtain ⟨d, fd, hd⟩ : ∃ d fd, ds = d :: fd := by
    cases ds with
    | nil => simp at hlen
    | cons d fd => exact ⟨d, fd, rfl⟩
  have hx : p + (ds.length : Int) - 1 = p + j := by omega
  rw [hx]
  subst hd
  refine ⟨d, fd, if fd.length = 0 then [] else 46 :: fd, _, ?_, rfl, fun c hc => h.digits c (by simp [hc]),
    h.digits d (by simp), ?_, ?_, rfl⟩
  · simp
  · have := h.head
    simpa using this
  · cases fd with
    | nil => exact .inl ⟨rfl, rfl⟩
    | cons x r => exact .inr ⟨rfl, by simp⟩

/-! ### The laws -/

theorem posFinite_toNat {a : UInt64} (h : PosFinite a) : 0 < a.toNat ∧ a.toNat < 0x7ff0000000000000 := by
  have h1 := h.1
  have h2 := h.2
  rw [UInt64.lt_iff_toNat_lt] at h1 h2
  exact ⟨h1, h2⟩

theorem parse_of_magnitude {c : UInt8} {r : Str} {a : UInt64} (h : PosFinite a) (hc : 48 ≤ c ∧ c ≤ 57)
    (hm : magnitude (c :: r) = some a.toNat) : parse (c :: r) = some a := by
  rw [parse_digit hc, hm]
  simp only
  rw [if_pos (posFinite_toNat h).2]
  simp

theorem isDigit_mem {c : UInt8} (h : 48 ≤ c ∧ c ≤ 57) : c ∈ b!"0123456789" ∧ c ∈ b!"0123456789." := by
  have key : ∀ n : Fin 256, 48 ≤ UInt8.ofNat n.val ∧ UInt8.ofNat n.val ≤ 57 →
      UInt8.ofNat n.val ∈ b!"0123456789" ∧ UInt8.ofNat n.val ∈ b!"0123456789." := by decide +kernel
  have := key ⟨c.toNat, c.toNat_lt⟩
  simp only [UInt8.ofNat_toNat] at this
  exact this h

theorem mem_isDigit {c : UInt8} (h : c ∈ b!"0123456789") : 48 ≤ c ∧ c ≤ 57 := by
  have : ∀ c ∈ b!"0123456789", (48 : UInt8) ≤ c ∧ c ≤ 57 := by decide
  exact this c h

theorem parse_formatF {a : UInt64} (h : PosFinite a) : parse (formatF a) = some a := by
  obtain ⟨m, p, ds, j, hp, hs⟩ := pieces h
  obtain ⟨i, fd, f, e, hi, di, df, hf, -, hv⟩ := formatF_parts hp hs
  have hm := magnitude_number (e := []) (sgn := []) (ds := []) (ec := 101) hi di df
    (hf.imp_right And.left) (.inl ⟨rfl, rfl⟩)
  rw [List.append_nil, ← e] at hm
  have hr : roundPow 10 (litVal (i ++ fd)) (-(fd.length : Int)) = a.toNat := by
    rw [roundPow_congr hv]; exact hp.short.fits
  simp only [exponentLoop] at hm
  rw [if_neg (by decide), show ((0 : Nat) : Int) - (fd.length : Int) = -(fd.length : Int) by omega, hr] at hm
  obtain ⟨c, r, hcr⟩ : ∃ c r, formatF a = c :: r ∧ 48 ≤ c ∧ c ≤ 57 := by
    cases i with
    | nil => exact absurd rfl hi
    | cons c r => exact ⟨c, r ++ f, by rw [e]; rfl, di c (by simp)⟩
  rw [hcr.1] at hm ⊢
  exact parse_of_magnitude h hcr.2 hm

theorem parse_formatE {a : UInt64} (h : PosFinite a) : parse (formatE a) = some a := by
  obtain ⟨m, p, ds, j, hp, hs⟩ := pieces h
  obtain ⟨d, fd, f, sgn, e, hds, df, dd, -, hf, hsgn⟩ := formatE_parts hp hs
  obtain ⟨t1, t2, t3⟩ := twoDigits_spec (p + j).natAbs
  have hb := hp.bound
  have hne : twoDigits (p + j).natAbs ≠ [] := by intro hc; rw [hc] at t3; simp at t3
  have hm := magnitude_number (i := [d]) (e := 101 :: ([sgn] ++ twoDigits (p + j).natAbs)) (sgn := [sgn])
    (ds := twoDigits (p + j).natAbs) (ec := 101) (by simp) (by simpa using dd) df (hf.imp_right And.left)
    (.inr ⟨rfl, .inl rfl, by rw [hsgn]; split <;> simp, hne, t1⟩)
  rw [List.singleton_append (x := sgn), ← e] at hm
  have hx := (exponentLoop_digits _ 0 t1).2 (by rw [t2]; omega)
  rw [hx, t2, List.singleton_append, ← hds, hp.val] at hm
  have hlen := hp.len
  rw [hds, List.length_cons] at hlen
  have hexp : (if [sgn] = (b!"-" : Str) then -((0 * 10 ^ (twoDigits (p + j).natAbs).length + (p + j).natAbs : Nat) : Int)
      else ((0 * 10 ^ (twoDigits (p + j).natAbs).length + (p + j).natAbs : Nat) : Int)) - fd.length = p := by
    rw [hsgn]
    split_ifs with h1 h2 h2
    · omega
    · exact absurd rfl h2
    · exact absurd h2 (by decide)
    · omega
  rw [hexp, hp.short.fits] at hm
  rw [e] at hm ⊢
  exact parse_of_magnitude h dd hm

end Stix.Strconv
