import Verif.Lemmas.Es6Unique

/-!
# Reading and writing numbers (lemmas)
-/

namespace Stix.Strconv
open Stix Spec Spec.Canon Spec.Es6

attribute [local irreducible] roundPow exact val shortest

/-! ### The Number value -/

/-- The bits, or those of the infinity. -/
def capped (k : Nat) : UInt64 := if k < 0x7ff0000000000000 then UInt64.ofNat k else 0x7ff0000000000000

theorem numberFor_capped (m : Nat) (e : Int) : NumberFor ((m : ℚ) * 10 ^ e) (capped (roundPow 10 m e)) := by
  unfold capped
  have hn := roundPow_near (b := 10) (by omega) m e
  have hn : Nearest ((m : ℚ) * 10 ^ e * 2 ^ 1074) (roundPow 10 m e) := by simpa using hn
  split
  · next h =>
    have ht : (UInt64.ofNat (roundPow 10 m e)).toNat = roundPow 10 m e :=
      UInt64.toNat_ofNat_of_lt' (by unfold UInt64.size; omega)
    rw [numberFor_iff (by rw [UInt64.lt_iff_toNat_lt, ht]; exact h), ht]
  · next h =>
    generalize roundPow 10 m e = k at *
    generalize (m : ℚ) * 10 ^ e = x at *
    by_cases hk : k = 0x7ff0000000000000
    · exact numberFor_of_nearest (UInt64.le_refl _) (by rw [hk] at hn; exact hn)
    refine ⟨UInt64.le_refl _, fun c hc => ?_⟩
    by_cases hce : c = 0x7ff0000000000000
    · subst hce; exact ⟨le_rfl, fun _ h => absurd rfl h⟩
    have hcn : c.toNat < 0x7ff0000000000000 := by
      rw [UInt64.le_iff_toNat_le] at hc
      have hc : c.toNat ≤ 0x7ff0000000000000 := hc
      have : c.toNat ≠ 0x7ff0000000000000 := fun e => hce (UInt64.toNat_inj.1 e)
      omega
    have u1 := units_ltQ hcn
    have u2 := units_ltQ (show 0x7ff0000000000000 < k by omega)
    have h1 := (hn 0x7ff0000000000000).1
    rw [dist_units (UInt64.le_refl _), dist_units hc, div_le_div_iff_of_pos_right two_pos, div_left_inj' two_pos.ne']
    have ht : (0x7ff0000000000000 : UInt64).toNat = 0x7ff0000000000000 := rfl
    rw [ht]
    generalize x * 2 ^ 1074 = y at *
    have : |(units 0x7ff0000000000000 : ℚ) - y| < |(units c.toNat : ℚ) - y| := by
      rcases abs_cases ((units k : ℚ) - y) with h3 | h3 <;>
      rcases abs_cases ((units 0x7ff0000000000000 : ℚ) - y) with h4 | h4 <;>
      rcases abs_cases ((units c.toNat : ℚ) - y) with h5 | h5 <;> linarith
    exact ⟨this.le, fun e => absurd e this.ne⟩

theorem numberFor_lt {x : ℚ} {b c : UInt64} (hb : NumberFor x b) (hc : NumberFor x c) (h : b < c) : False := by
  have hn : b.toNat < c.toNat := by rwa [UInt64.lt_iff_toNat_lt] at h
  have hcap : c.toNat ≤ 0x7ff0000000000000 := by have := hc.1; rwa [UInt64.le_iff_toNat_le] at this
  have e : |f64Val b - x| = |f64Val c - x| := le_antisymm (hb.2 c hc.1).1 (hc.2 b hb.1).1
  have hne : c ≠ b := by rintro rfl; exact UInt64.lt_irrefl _ h
  have p1 := (hb.2 c hc.1).2 e hne
  have p2 := (hc.2 b hb.1).2 e.symm hne.symm
  rw [frac_even] at p1 p2
  have ht : (UInt64.ofNat (b.toNat + 1)).toNat = b.toNat + 1 :=
    UInt64.toNat_ofNat_of_lt' (by unfold UInt64.size; omega)
  have hd : UInt64.ofNat (b.toNat + 1) ≤ 0x7ff0000000000000 := by
    rw [UInt64.le_iff_toNat_le, ht]
    show b.toNat + 1 ≤ 0x7ff0000000000000
    omega
  have h1 := (hb.2 _ hd).1
  rw [dist_units hb.1, dist_units hd, div_le_div_iff_of_pos_right two_pos, ht] at h1
  rw [dist_units hb.1, dist_units hc.1, div_left_inj' two_pos.ne'] at e
  have u1 := units_ltQ (Nat.lt_succ_self b.toNat)
  have u2 := units_ltQ (show b.toNat + 1 < c.toNat by omega)
  rw [Nat.succ_eq_add_one] at u1
  generalize x * 2 ^ 1074 = y at *
  rcases abs_cases ((units b.toNat : ℚ) - y) with h3 | h3 <;>
  rcases abs_cases ((units (b.toNat + 1) : ℚ) - y) with h4 | h4 <;>
  rcases abs_cases ((units c.toNat : ℚ) - y) with h5 | h5 <;> linarith

theorem numberFor_unique {x : ℚ} {b c : UInt64} (hb : NumberFor x b) (hc : NumberFor x c) : b = c := by
  rcases UInt64.lt_or_lt_of_ne (a := b) (b := c) |> fun f => (Classical.em (b = c)).imp_right f with h | h | h
  · exact h
  · exact (numberFor_lt hb hc h).elim
  · exact (numberFor_lt hc hb h).elim

/-! ### Exponents of any size -/

theorem exponentLoop_stay (ds : Str) : ∀ e, (∀ c ∈ ds, 48 ≤ c ∧ c ≤ 57) → 10000 ≤ e → (exponentLoop e ds).1 = e := by
  induction ds with
  | nil => intro e _ _; rfl
  | cons c ds ih =>
    intro e h he
    have hc := h c (by simp)
    rw [exponentLoop, if_neg (digit_facts c hc).1, if_pos hc, if_neg (by omega)]
    exact ih e (fun x hx => h x (by simp [hx])) he

theorem exponentLoop_large (ds : Str) : ∀ e, (∀ c ∈ ds, 48 ≤ c ∧ c ≤ 57) →
    10000 ≤ e * 10 ^ ds.length + litVal ds → 10000 ≤ (exponentLoop e ds).1 := by
  induction ds with
  | nil => intro e _ h; simpa [exponentLoop, litVal] using h
  | cons c ds ih =>
    intro e h hv
    by_cases he : 10000 ≤ e
    · rw [exponentLoop_stay (c :: ds) e h he]; exact he
    · have hc := h c (by simp)
      rw [exponentLoop, if_neg (digit_facts c hc).1, if_pos hc, if_pos (by omega)]
      refine ih _ (fun x hx => h x (by simp [hx])) ?_
      have h1 : litVal (c :: ds) = (c.toNat - 48) * 10 ^ ds.length + litVal ds := by
        rw [show (c :: ds : Str) = [c] ++ ds from rfl, litVal_app]
        simp [litVal]
      rw [h1, List.length_cons, pow_succ] at hv
      have : (e * 10 + (c.toNat - 48)) * 10 ^ ds.length = e * (10 ^ ds.length * 10) + (c.toNat - 48) * 10 ^ ds.length := by
        ring
      rw [this]
      omega

theorem round_tiny {m : Nat} {e : Int} {l : Nat} (hm : m < 10 ^ l) (h : e + l ≤ -400) : roundPow 10 m e = 0 := by
  have h1 := roundPow_mono (m := m) (e := e) (m' := 1) (e' := -400) (by
    rw [Nat.cast_one, one_mul]
    have : (m : ℚ) * 10 ^ e ≤ 10 ^ ((l : Int) + e) := by
      rw [t_add, t_nat]
      exact mul_le_mul_of_nonneg_right (by exact_mod_cast hm.le) (t_pos _).le
    exact this.trans (t_le (by omega)))
  have h2 : roundPow 10 1 (-400) = 0 := by decide +kernel
  omega

theorem round_huge {m : Nat} {e : Int} (hm : 0 < m) (h : 400 ≤ e) : 0x7ff0000000000000 ≤ roundPow 10 m e := by
  have h1 := roundPow_mono (m := 1) (e := 400) (m' := m) (e' := e) (by
    have : ((1 : Nat) : ℚ) ≤ m := by exact_mod_cast hm
    exact mul_le_mul this (t_le h) (t_pos _).le (by positivity))
  have h2 : 0x7ff0000000000000 ≤ roundPow 10 1 400 := by decide +kernel
  omega

/-- Exponents that are both out of reach give the same. -/
theorem capped_large {m l f : Nat} {x y : Nat} (hm : m < 10 ^ l) (hf : f ≤ 9000) (hl : l ≤ 9000 + f) (hx : 10000 ≤ x) (hy : 10000 ≤ y) :
    capped (roundPow 10 m ((x : Int) - f)) = capped (roundPow 10 m ((y : Int) - f)) ∧
    capped (roundPow 10 m (-(x : Int) - f)) = capped (roundPow 10 m (-(y : Int) - f)) := by
  constructor
  · rcases Nat.eq_zero_or_pos m with rfl | h0
    · have : roundPow 10 0 ((x : Int) - f) = roundPow 10 0 ((y : Int) - f) := roundPow_congr (by simp)
      rw [this]
    · have h1 := round_huge h0 (show 400 ≤ (x : Int) - f by omega)
      have h2 := round_huge h0 (show 400 ≤ (y : Int) - f by omega)
      unfold capped
      rw [if_neg (by omega), if_neg (by omega)]
  · rw [round_tiny hm (by omega), round_tiny hm (by omega)]

/-! ### Reading -/

theorem chars_append (a b : List Nat) : chars (a ++ b) = chars a ++ chars b := by simp [chars]

theorem litVal_chars {ds : List Nat} (h : ∀ d ∈ ds, d ≤ 9) : litVal (chars ds) = decimal ds := litVal_digits ds h

/-- What a number of JSON is read as. -/
theorem parse_written {t : Str} {neg : Bool} {e : Int} {x : ℚ} (h : Written t neg e x)
    (hs : -100000 < e ∧ e < 100000 ∨ t.length ≤ 9000) : ∃ k, NumberFor x (capped k) ∧
      parse t = if k < 0x7ff0000000000000 then
        some (if neg then UInt64.ofNat k ||| 0x8000000000000000 else UInt64.ofNat k) else none := by
  obtain ⟨ip, fp, ep, f, es, hip, di, df, dp, hf, he, rfl, rfl⟩ := h
  obtain ⟨c, r, hcr⟩ : ∃ c r, chars ip = c :: r := by
    cases ip with
    | nil => exact absurd rfl hip
    | cons d l => exact ⟨digit d, chars l, rfl⟩
  have dall : ∀ d ∈ ip ++ fp, d ≤ 9 := by
    intro d hd
    rcases List.mem_append.1 hd with hd | hd
    · exact di d hd
    · exact df d hd
  have hlv : litVal (chars ip ++ chars fp) = decimal (ip ++ fp) := by rw [← chars_append, litVal_chars dall]
  have hfl : (chars fp).length = fp.length := by simp [chars]
  -- the exponent as it is read
  obtain ⟨k, hmag, hk⟩ : ∃ k, magnitude (chars ip ++ f ++ es) = some k ∧
      NumberFor ((decimal (ip ++ fp) : ℚ) * 10 ^ (e - fp.length)) (capped k) := by
    have hf' : (f = [] ∧ chars fp = []) ∨ f = 46 :: chars fp := by
      rcases hf with ⟨h1, h2⟩ | ⟨h1, -⟩
      · exact .inl ⟨h1, by rw [h2]; rfl⟩
      · exact .inr h1
    have dig : ∀ l : List Nat, (∀ d ∈ l, d ≤ 9) → ∀ c ∈ chars l, 48 ≤ c ∧ c ≤ 57 := fun l hl => chars_no_e hl
    have hne : chars ip ≠ [] := by rw [hcr]; simp
    have hdl : decimal (ip ++ fp) < 10 ^ (ip ++ fp).length := decimal_lt _ dall
    have hlenI : (chars ip).length = ip.length := by simp [chars]
    rcases he with ⟨rfl, rfl⟩ | he
    · refine ⟨_, magnitude_number (ec := 101) (sgn := []) (ds := []) (fd := chars fp) hne (dig ip di) (dig fp df) hf' (.inl ⟨rfl, rfl⟩), ?_⟩
      rw [hlv, hfl]
      have hz : (if ([] : Str) = b!"-" then -((exponentLoop 0 ([] : Str)).1 : Int) else ((exponentLoop 0 ([] : Str)).1 : Int)) = 0 := by decide
      rw [hz]
      exact numberFor_capped _ _
    · obtain ⟨ec, sgn, hes, hec, hsgn, hep, hev⟩ : ∃ (ec : UInt8) (sgn : Str), es = ec :: (sgn ++ chars ep) ∧
          (ec = 101 ∨ ec = 69) ∧ (sgn = [] ∨ sgn = b!"+" ∨ sgn = b!"-") ∧ ep ≠ [] ∧
          e = if sgn = b!"-" then -(decimal ep : Int) else decimal ep := by
        rcases he with ⟨h1 | h1 | h1 | h1, h2, h3⟩ | ⟨h1 | h1, h2, h3⟩
        · exact ⟨101, [], by rw [h1]; rfl, .inl rfl, .inl rfl, h2, by rw [h3, if_neg (by decide)]⟩
        · exact ⟨69, [], by rw [h1]; rfl, .inr rfl, .inl rfl, h2, by rw [h3, if_neg (by decide)]⟩
        · exact ⟨101, b!"+", by rw [h1]; rfl, .inl rfl, .inr (.inl rfl), h2, by rw [h3, if_neg (by decide)]⟩
        · exact ⟨69, b!"+", by rw [h1]; rfl, .inr rfl, .inr (.inl rfl), h2, by rw [h3, if_neg (by decide)]⟩
        · exact ⟨101, b!"-", by rw [h1]; rfl, .inl rfl, .inr (.inr rfl), h2, by rw [h3, if_pos rfl]⟩
        · exact ⟨69, b!"-", by rw [h1]; rfl, .inr rfl, .inr (.inr rfl), h2, by rw [h3, if_pos rfl]⟩
      have hcep : chars ep ≠ [] := by cases ep with
        | nil => exact absurd rfl hep
        | cons d l => simp [chars]
      refine ⟨_, magnitude_number hne (dig ip di) (dig fp df) hf' (.inr ⟨hes, hec, hsgn, hcep, dig ep dp⟩), ?_⟩
      rw [hlv, hfl]
      have hloop := (exponentLoop_digits (chars ep) 0 (dig ep dp)).2
      have hbig := exponentLoop_large (chars ep) 0 (dig ep dp)
      rw [litVal_chars dp, Nat.zero_mul, Nat.zero_add] at hloop hbig
      have hn := numberFor_capped (decimal (ip ++ fp)) (e - fp.length)
      by_cases hsmall : decimal ep < 100000
      · rw [hloop hsmall, ← hev]; exact hn
      · have hlarge := hbig (by omega)
        have hlen : fp.length ≤ 9000 ∧ (ip ++ fp).length ≤ 9000 + fp.length := by
          rcases hs with hs | hs
          · exfalso
            split_ifs at hev <;> omega
          · have : (chars ip).length + f.length ≤ 9000 := by
              simp only [List.length_append] at hs
              omega
            have hff : fp.length ≤ f.length := by
              rcases hf with ⟨-, h2⟩ | ⟨h1, -⟩
              · rw [h2]; simp
              · rw [h1]; simp [chars]
            rw [List.length_append]
            omega
        obtain ⟨g1, g2⟩ := capped_large hdl hlen.1 hlen.2 hlarge (show 10000 ≤ decimal ep by omega)
        split_ifs at hev ⊢
        · rw [g2, ← hev]; exact hn
        · rw [g1, ← hev]; exact hn
  rw [hcr] at hmag
  have hc : 48 ≤ c ∧ c ≤ 57 := chars_no_e di c (by rw [hcr]; simp)
  refine ⟨k, hk, ?_⟩
  cases neg
  · have : parse ((if false = true then b!"-" else []) ++ chars ip ++ f ++ es) = parse (c :: (r ++ f ++ es)) := by
      rw [hcr]; simp
    rw [this, parse_digit hc]
    rw [show c :: (r ++ f ++ es) = c :: r ++ f ++ es by simp, hmag]
    rfl
  · have : parse ((if true = true then b!"-" else []) ++ chars ip ++ f ++ es) = parse (45 :: c :: (r ++ f ++ es)) := by
      rw [hcr]; simp
    rw [this, parse_minus hc]
    rw [show c :: (r ++ f ++ es) = c :: r ++ f ++ es by simp, hmag]
    rfl

/-! ### Writing -/

theorem numberText_pos {x : UInt64} (h1 : x &&& 0x7ff0000000000000 ≠ 0x7ff0000000000000)
    (h2 : x &&& 0x7fffffffffffffff ≠ 0) : PosFinite (unsigned x) ∧ f64Val x ≠ 0 := by
  have := Canon.posFinite_and h1 h2
  rw [abs_bits] at this
  refine ⟨this, fun h => h2 ?_⟩
  rw [f64Val_zero] at h
  apply UInt64.toNat_inj.1
  rw [toNat_mag, h]; rfl

theorem zero_val {x : UInt64} (h : x &&& 0x7fffffffffffffff = 0) : f64Val x = 0 := by
  rw [f64Val_zero, ← toNat_mag, h]; rfl

theorem nonfinite_iff (x : UInt64) : x &&& 0x7ff0000000000000 = 0x7ff0000000000000 ↔ ¬ F64Finite x := by
  rw [← finite_iff]
  unfold finite
  simp

theorem numberText_unique {x : UInt64} {t u : Str} (hx : F64Finite x) (ht : NumberText x t) (hu : NumberText x u) :
    t = u := by
  unfold NumberText at ht hu
  by_cases hz : f64Val x = 0
  · rw [if_pos hz] at ht hu; rw [ht, hu]
  · rw [if_neg hz] at ht hu
    obtain ⟨ds, n, w, c1, l1, rfl⟩ := ht
    obtain ⟨ds', n', w', c2, l2, rfl⟩ := hu
    have h1 : ¬ x &&& 0x7ff0000000000000 = 0x7ff0000000000000 := by rw [nonfinite_iff]; exact not_not.2 hx
    have h2 : ¬ x &&& 0x7fffffffffffffff = 0 := fun h => hz (zero_val h)
    obtain ⟨hp, -⟩ := numberText_pos h1 h2
    obtain ⟨rfl, rfl⟩ := chosen_unique hp c1 c2
    rw [laid_unique l1 l2]

theorem no_e_text {a : UInt64} (ha : PosFinite a) : ∀ c ∈ formatF a, c ≠ 101 := by
  intro c hc
  have := (strconv_laws.fShape a ha).2.2 c hc
  rintro rfl
  exact absurd this (by decide)

theorem numberToJSON_text {x : UInt64} (hx : F64Finite x) : ∃ t, Canon.numberToJSON strconv x = some t ∧ NumberText x t := by
  have h1 : ¬ x &&& 0x7ff0000000000000 = 0x7ff0000000000000 := by rw [nonfinite_iff]; exact not_not.2 hx
  unfold Canon.numberToJSON
  rw [if_neg h1]
  by_cases h2 : x &&& 0x7fffffffffffffff = 0
  · rw [if_pos h2]
    exact ⟨_, rfl, by rw [NumberText, if_pos (zero_val h2)]⟩
  · rw [if_neg h2]
    obtain ⟨hp, hz⟩ := numberText_pos h1 h2
    obtain ⟨ds, n, u, hc, hl, hu, -⟩ := text_spec hp
    refine ⟨_, rfl, ?_⟩
    rw [NumberText, if_neg hz]
    refine ⟨ds, n, u, hc, hl, ?_⟩
    simp only [sign_iff, abs_bits]
    have e1 : strconv.formatF (unsigned x) = formatF (unsigned x) := rfl
    have e2 : strconv.formatE (unsigned x) = formatE (unsigned x) := rfl
    rw [e1, e2]
    congr 1
    split_ifs at hu ⊢ with hr
    · rw [Canon.indexE_none (no_e_text hp), hu]
    · obtain ⟨M, s, k, g1, g2, g3, g4, g5, g6⟩ := hu
      rw [g1, g2]
      exact indexE_clean g4 g3

theorem floatLit_text {x : UInt64} (hx : F64Finite x) (hz : x ≠ 0x8000000000000000) : NumberText x (floatLit strconv x) := by
  have h1 : ¬ x &&& 0x7ff0000000000000 = 0x7ff0000000000000 := by rw [nonfinite_iff]; exact not_not.2 hx
  unfold floatLit
  by_cases h2 : x &&& 0x7fffffffffffffff = 0
  · have hneg : ¬ (x &&& 0x8000000000000000 ≠ 0) := by
      intro h
      have := Canon.sign_split h
      rw [h2] at this
      exact hz (this.symm.trans (by decide))
    rw [NumberText, if_pos (zero_val h2)]
    simp only [h2, if_true]
    rw [if_neg hneg]
  · obtain ⟨hp, hv⟩ := numberText_pos h1 h2
    obtain ⟨ds, n, u, hc, hl, hu, -⟩ := text_spec hp
    rw [NumberText, if_neg hv]
    refine ⟨ds, n, u, hc, hl, ?_⟩
    simp only [sign_iff, h2, if_false]
    have e1 : strconv.formatF (unsigned x) = formatF (unsigned x) := rfl
    have e2 : strconv.formatE (unsigned x) = formatE (unsigned x) := rfl
    rw [abs_bits, e1, e2]
    have ht : (if unsigned x < 0x444B1AE4D6E2EF50 ∧ 0x3EB0C6F7A0B5ED8D ≤ unsigned x then formatF (unsigned x)
        else cleanExp (formatE (unsigned x))) = u := by
      split_ifs at hu ⊢ with hr
      · exact hu
      · obtain ⟨M, s, k, g1, g2, g3, g4, g5, g6⟩ := hu
        rw [g1, g2]
        exact cleanExp_clean g5 g6
    rw [ht]
    split <;> simp

end Stix.Strconv
