import Verif.Lemmas.StrconvText
import Verif.Spec.Marshal

/-!
# `strconv` meets the laws (lemmas)
-/

namespace Stix.Strconv
open Stix Spec Spec.Canon

attribute [local irreducible] roundPow exact val shortest

/-- A text of digits and points before an `e`: the mantissa ends at the `e`, whatever follows, or at a
second point. -/
theorem mantissa_points (m : Str) : ∀ (st : Mant), (∀ c ∈ m, c ∈ b!"0123456789.") →
    ∃ st', (∀ r : Str, mantissa false st (m ++ 101 :: r) = (st', 101 :: r)) ∨
      ∃ m', ∀ r : Str, mantissa false st (m ++ 101 :: r) = (st', 46 :: (m' ++ 101 :: r)) := by
  induction m with
  | nil => intro st _; exact ⟨st, .inl fun r => rfl⟩
  | cons c m ih =>
    intro st h
    have hc := h c (by simp)
    by_cases h46 : c = 46
    · subst h46
      by_cases hd : st.dot = true
      · refine ⟨st, .inr ⟨m, fun r => ?_⟩⟩
        rw [List.cons_append, mantissa, if_neg (by decide), if_pos rfl, if_pos hd]
      · obtain ⟨st', h1⟩ := ih { st with dot := true } (fun x hx => h x (by simp [hx]))
        refine ⟨st', h1.imp (fun h1 r => ?_) (fun ⟨m', h1⟩ => ⟨m', fun r => ?_⟩)⟩ <;>
          rw [List.cons_append, mantissa, if_neg (by decide), if_pos rfl, if_neg hd, h1]
    · have hdig : 48 ≤ c ∧ c ≤ 57 := by
        have key : ∀ c ∈ b!"0123456789.", c ≠ 46 → (48 : UInt8) ≤ c ∧ c ≤ 57 := by decide
        exact key c hc h46
      obtain ⟨h95, -, -, -, -, -, -, -, -, hv⟩ := digit_facts c hdig
      obtain ⟨st', h1⟩ := ih ⟨st.dot, true, st.val * 10 + (c.toNat - 48),
        if st.dot then st.frac + 1 else st.frac⟩ (fun x hx => h x (by simp [hx]))
      refine ⟨st', h1.imp (fun h1 r => ?_) (fun ⟨m', h1⟩ => ⟨m', fun r => ?_⟩)⟩ <;>
        rw [List.cons_append, mantissa, if_neg h95, if_neg h46, hv] <;> exact h1 r

theorem exponent_zero {sgn : UInt8} {ds : Str} (hs : sgn ∈ b!"+-") (hd : ds ≠ [])
    (h : ∀ c ∈ ds, c ∈ b!"0123456789") : exponent (sgn :: 48 :: ds) = exponent (sgn :: ds) := by
  have hs' : [sgn] = [] ∨ [sgn] = b!"+" ∨ [sgn] = b!"-" := by
    have key : ∀ x ∈ b!"+-", ([x] : Str) = b!"+" ∨ ([x] : Str) = b!"-" := by decide
    exact .inr (key sgn hs)
  have d1 : ∀ c ∈ ds, 48 ≤ c ∧ c ≤ 57 := fun c hc => mem_isDigit (h c hc)
  have d2 : ∀ c ∈ (48 :: ds : Str), 48 ≤ c ∧ c ≤ 57 := by
    intro c hc
    rcases List.mem_cons.1 hc with rfl | hc
    · decide
    · exact d1 c hc
  have e1 := exponent_digits hs' hd d1
  have e2 := exponent_digits hs' (by simp) d2
  rw [List.singleton_append] at e1 e2
  rw [e1, e2]
  rfl

theorem head_points {m : Str} (h : ∀ c ∈ m, c ∈ b!"0123456789.") (r : Str) :
    ∃ c t, m ++ 101 :: r = c :: t ∧ c ∈ b!"0123456789.e" := by
  cases m with
  | nil => exact ⟨101, r, rfl, by decide⟩
  | cons c m =>
    refine ⟨c, m ++ 101 :: r, rfl, ?_⟩
    have key : ∀ c ∈ b!"0123456789.", c ∈ b!"0123456789.e" := by decide
    exact key c (h c (by simp))

theorem parse_points {m : Str} (hm : ∀ c ∈ m, c ∈ b!"0123456789.") {sgn : UInt8} {ds : Str} (hs : sgn ∈ b!"+-")
    (hd : ∀ c ∈ ds, c ∈ b!"0123456789") :
    parse (m ++ 101 :: sgn :: ds) =
      match (if (mantissa false {} (m ++ 101 :: sgn :: ds)).1.digit = false then none
        else match (mantissa false {} (m ++ 101 :: sgn :: ds)).2 with
        | [] => some (roundPow 10 (mantissa false {} (m ++ 101 :: sgn :: ds)).1.val
            (-((mantissa false {} (m ++ 101 :: sgn :: ds)).1.frac : Int)))
        | x :: e => if lower x = 101 then (exponent e).map fun e =>
            roundPow 10 (mantissa false {} (m ++ 101 :: sgn :: ds)).1.val
              (e - (mantissa false {} (m ++ 101 :: sgn :: ds)).1.frac) else none) with
      | none => none
      | some k => if k < 0x7ff0000000000000 then some (UInt64.ofNat k) else none := by
  obtain ⟨c, t, hct, hc⟩ := head_points hm (sgn :: ds)
  have hplain : ∀ x ∈ m ++ 101 :: sgn :: ds, Plain x := by
    have key : ∀ x ∈ b!"0123456789.e+-", x ≠ 95 ∧ lower x ≠ 120 := by decide
    have k1 : ∀ x ∈ b!"0123456789.", x ∈ b!"0123456789.e+-" := by decide
    have k2 : ∀ x ∈ b!"+-", x ∈ b!"0123456789.e+-" := by decide
    have k3 : ∀ x ∈ b!"0123456789", x ∈ b!"0123456789.e+-" := by decide
    intro x hx
    rw [List.mem_append, List.mem_cons, List.mem_cons] at hx
    rcases hx with hx | rfl | rfl | hx
    · exact key x (k1 x (hm x hx))
    · exact key 101 (by decide)
    · exact key x (k2 x hs)
    · exact key x (k3 x (hd x hx))
  have hcf : (if 65 ≤ c && c ≤ 90 then c + 32 else c) = c ∧ c ≠ 105 ∧ c ≠ 110 ∧ c ≠ 43 ∧ c ≠ 45 := by
    have key : ∀ c ∈ b!"0123456789.e", (if 65 ≤ c && c ≤ 90 then c + 32 else c) = c ∧ c ≠ 105 ∧ c ≠ 110 ∧
      c ≠ 43 ∧ c ≠ 45 := by decide
    exact key c hc
  have hsign : ∀ t, takeSign (c :: t) = (false, c :: t) := by
    intro t
    unfold takeSign
    split
    · next h3 => exact absurd (List.cons.inj h3).1 hcf.2.2.2.1
    · next h3 => exact absurd (List.cons.inj h3).1 hcf.2.2.2.2
    · rfl
  have hspecial : special (c :: t) = none := by
    unfold special
    simp only [List.map_cons, hcf.1]
    rw [hsign, if_neg, if_neg]
    · intro e; exact hcf.2.2.1 (List.cons.inj e).1
    · rintro (e | e) <;> exact hcf.2.1 (List.cons.inj e).1
  rw [hct] at hplain ⊢
  unfold parse
  rw [hspecial]
  have h95 : (c :: t).contains 95 = false := by
    rw [← Bool.not_eq_true, List.contains_iff_mem]
    exact fun hm => (hplain 95 hm).1 rfl
  have hmag : magnitude (c :: t) =
      (if (mantissa false {} (c :: t)).1.digit = false then none
        else match (mantissa false {} (c :: t)).2 with
        | [] => some (roundPow 10 (mantissa false {} (c :: t)).1.val
            (-((mantissa false {} (c :: t)).1.frac : Int)))
        | x :: e => if lower x = 101 then (exponent e).map fun e =>
            roundPow 10 (mantissa false {} (c :: t)).1.val
              (e - (mantissa false {} (c :: t)).1.frac) else none) := by
    unfold magnitude
    rw [hsign]
    simp only [takeHex_plain hplain, h95, Bool.false_eq_true, false_and, if_false]
    cases (mantissa false {} (c :: t)).1.digit
    · rfl
    · simp only [Bool.true_eq_false, if_false]
      cases (mantissa false {} (c :: t)).2 with
      | nil => rfl
      | cons x e =>
        simp only
        split
        · cases exponent e <;> rfl
        · rfl
  rw [hmag, hsign]
  generalize (if (mantissa false {} (c :: t)).1.digit = false then none else _ : Option Nat) = o
  cases o <;> simp

/-- **`strconv`** as modelled has the properties the other theorems assume. -/
theorem strconv_laws : FloatLaws strconv where
  zero := by decide +kernel
  fShape a h := by
    obtain ⟨m, p, ds, j, hp, hs⟩ := pieces h
    obtain ⟨i, fd, f, e, hi, di, df, hf, -, -⟩ := formatF_parts hp hs
    show formatF a ≠ [] ∧ IsDigit ((formatF a).headD 0) ∧ ∀ c ∈ formatF a, c ∈ b!"0123456789."
    rw [e]
    refine ⟨by simp [hi], ?_, ?_⟩
    · cases i with
      | nil => exact absurd rfl hi
      | cons c r => exact di c (by simp)
    · intro c hc
      rcases List.mem_append.1 hc with hc | hc
      · exact (isDigit_mem (di c hc)).2
      · rcases hf with ⟨rfl, -⟩ | ⟨rfl, -⟩
        · simp at hc
        · rcases List.mem_cons.1 hc with rfl | hc
          · decide
          · exact (isDigit_mem (df c hc)).2
  fParse a h := parse_formatF h
  eShape a h := by
    obtain ⟨m, p, ds, j, hp, hs⟩ := pieces h
    obtain ⟨d, fd, f, sgn, e, hds, df, dd, -, hf, hsgn⟩ := formatE_parts hp hs
    obtain ⟨t1, t2, t3⟩ := twoDigits_spec (p + j).natAbs
    refine ⟨[d] ++ f, sgn, twoDigits (p + j).natAbs, e, by simp, dd, ?_, ?_, t3, fun c hc => (isDigit_mem (t1 c hc)).1⟩
    · intro c hc
      rcases List.mem_append.1 hc with hc | hc
      · rw [List.mem_singleton] at hc; subst hc; exact (isDigit_mem dd).2
      · rcases hf with ⟨rfl, -⟩ | ⟨rfl, -⟩
        · simp at hc
        · rcases List.mem_cons.1 hc with rfl | hc
          · decide
          · exact (isDigit_mem (df c hc)).2
    · rw [hsgn]; split <;> decide
  eParse a h := parse_formatE h
  expZero m sgn ds hm hs hd hdd := by
    show parse _ = parse _
    have hdd' : ∀ c ∈ (48 :: ds : Str), c ∈ b!"0123456789" := by
      intro c hc
      rcases List.mem_cons.1 hc with rfl | hc
      · decide
      · exact hdd c hc
    rw [parse_points hm hs hdd, parse_points hm hs hdd']
    obtain ⟨st, h | ⟨m', h⟩⟩ := mantissa_points m {} hm
    · rw [h, h]
      simp only
      rw [exponent_zero hs hd hdd]
    · rw [h, h]
      simp only
      rw [if_neg (show ¬ lower 46 = 101 by decide), if_neg (show ¬ lower 46 = 101 by decide)]
  neg t a h hd hp := by
    obtain ⟨c, r, rfl⟩ : ∃ c r, t = c :: r := by
      cases t with
      | nil => exact absurd hd (by decide)
      | cons c r => exact ⟨c, r, rfl⟩
    have hc : 48 ≤ c ∧ c ≤ 57 := hd
    have hp : parse (c :: r) = some a := hp
    show parse (45 :: c :: r) = _
    rw [parse_digit hc] at hp
    rw [parse_minus hc]
    cases hm : magnitude (c :: r) with
    | none => rw [hm] at hp; simp at hp
    | some k =>
      rw [hm] at hp
      simp only at hp ⊢
      split_ifs at hp with hk
      rw [if_pos hk]
      simp only [Option.some.injEq] at hp
      rw [hp]
  negZero := by decide +kernel

theorem strconv_integers : IntegersParse strconv := by
  intro t h1 h2 h3
  have hm := magnitude_number (f := []) (fd := []) (e := []) (sgn := []) (ds := []) (ec := 101) h1 h3
    (by simp) (.inl ⟨rfl, rfl⟩) (.inl ⟨rfl, rfl⟩)
  simp only [List.append_nil, exponentLoop, List.length_nil] at hm
  have hlt : litVal t < 10 ^ t.length := by
    clear h1 h2 hm
    induction t using List.reverseRecOn with
    | nil => simp [litVal]
    | append_singleton l d ih =>
      rw [litVal_append, List.length_append, List.length_singleton, pow_succ]
      have := ih (fun c hc => h3 c (by simp [hc]))
      have hd := (h3 d (by simp)).2
      rw [UInt8.le_iff_toNat_le] at hd
      have : d.toNat ≤ 57 := hd
      omega
  have hle : 10 ^ t.length ≤ 10 ^ 19 := Nat.pow_le_pow_right (by omega) h2
  have hb : roundPow 10 (litVal t) 0 < 0x7ff0000000000000 := by
    have h4 := roundPow_mono (m := litVal t) (e := 0) (m' := 1) (e' := 19) (by
      have : (litVal t : ℚ) ≤ ((10 ^ 19 : Nat) : ℚ) := by exact_mod_cast (hlt.trans_le hle).le
      rw [zpow_zero, mul_one, Nat.cast_one, one_mul, show (19 : Int) = ((19 : Nat) : Int) from rfl, t_nat]
      exact this)
    have h5 : roundPow 10 1 19 < 0x7ff0000000000000 := by decide +kernel
    omega
  have hz : (if ([] : Str) = b!"-" then -((0 : Nat) : Int) else ((0 : Nat) : Int)) - ((0 : Nat) : Int) = 0 := by decide
  rw [hz] at hm
  obtain ⟨c, r, rfl⟩ : ∃ c r, t = c :: r := by
    cases t with
    | nil => exact absurd rfl h1
    | cons c r => exact ⟨c, r, rfl⟩
  have hc := h3 c (by simp)
  show (parse (c :: r)).isSome = true ∧ (parse (45 :: c :: r)).isSome = true
  rw [parse_digit hc, parse_minus hc, hm]
  simp only
  rw [if_pos hb, if_pos hb]
  exact ⟨rfl, rfl⟩

theorem strconv_writes : Spec.Text.WritesNumbers strconv where
  f a h := by
    obtain ⟨m, p, ds, j, hp, hs⟩ := pieces h
    obtain ⟨i, fd, f, e, hi, di, df, hf, hh, -⟩ := formatF_parts hp hs
    refine ⟨i, f, e, ?_, ?_⟩
    · exact hh.imp_right fun h => ⟨⟨hi, di⟩, h⟩
    · rcases hf with ⟨rfl, -⟩ | ⟨rfl, hne⟩
      · exact .inl rfl
      · exact .inr ⟨fd, rfl, hne, df⟩
  e a h := by
    obtain ⟨m, p, ds, j, hp, hs⟩ := pieces h
    obtain ⟨d, fd, f, sgn, e, hds, df, dd, d0, hf, hsgn⟩ := formatE_parts hp hs
    obtain ⟨t1, t2, t3⟩ := twoDigits_spec (p + j).natAbs
    refine ⟨[d], f, sgn, twoDigits (p + j).natAbs, e, .inr ⟨⟨by simp, fun c hc => by rw [List.mem_singleton.1 hc]; exact dd⟩, by simpa using d0⟩, ?_, ?_, t3,
      fun c hc => t1 c hc⟩
    · rcases hf with ⟨rfl, -⟩ | ⟨rfl, hne⟩
      · exact .inl rfl
      · exact .inr ⟨fd, rfl, hne, df⟩
    · rw [hsgn]; split <;> decide

end Stix.Strconv
