import Verif.Lemmas.GoFloat

/-!
# Reading literals of Go (lemmas)
-/

namespace Stix.Strconv
open Stix Spec Spec.Canon Spec.Es6 Spec.GoFloat

attribute [local irreducible] roundPow exact val shortest

/-! ### Digits -/

theorem digits_head {hex : Bool} {c : UInt8} {d : Nat} (h : Canon.IsHex c d ∧ d < base hex) : c ≠ 95 ∧ c ≠ 46 := by
  constructor
  · rintro rfl; exact not_digit95 hex ⟨d, h⟩
  · rintro rfl; exact not_digit46 hex ⟨d, h⟩

/-- What digits do to the mantissa. -/
def feed (hex : Bool) (st : Mant) (ds : List Nat) : Mant :=
  { st with
    digit := st.digit || !ds.isEmpty
    val := ds.foldl (fun n d => n * base hex + d) st.val
    frac := if st.dot then st.frac + ds.length else st.frac }

theorem mant_digits {hex : Bool} {t : Str} {ds : List Nat} (h : Digits hex t ds) (r : Str) : ∀ st,
    mantissa hex st (t ++ r) = mantissa hex (feed hex st ds) r := by
  induction h with
  | nil => intro st; simp [feed]
  | @cons c d t ds h1 h2 ih =>
    intro st
    obtain ⟨n1, n2⟩ := digits_head h1
    rw [List.cons_append, mantissa, if_neg n1, if_neg n2, (digitVal_iff hex c d).2 h1]
    simp only
    rw [ih]
    congr 1
    unfold feed
    simp only [List.foldl_cons, List.length_cons, List.isEmpty_cons, Bool.not_false, Bool.or_true, Bool.true_or]
    congr 1
    split <;> omega

theorem span_digits (hex : Bool) (s : Str) : ∃ t ds r, s = t ++ r ∧ Digits hex t ds ∧ ∀ c r', r = c :: r' → ¬ Digit hex c := by
  induction s with
  | nil => exact ⟨[], [], [], rfl, .nil, fun c r' e => by simp at e⟩
  | cons c s ih =>
    by_cases h : Digit hex c
    · obtain ⟨t, ds, r, rfl, h1, h2⟩ := ih
      obtain ⟨d, hd⟩ := h
      exact ⟨c :: t, d :: ds, r, rfl, .cons hd h1, h2⟩
    · exact ⟨[], [], c :: s, rfl, .nil, fun c' r' e => by simp only [List.cons.injEq] at e; rw [← e.1]; exact h⟩

theorem mant_stop {hex : Bool} {st : Mant} {r : Str}
    (h : ∀ c r', r = c :: r' → ¬ Digit hex c ∧ c ≠ 95 ∧ (c = 46 → st.dot = true)) : mantissa hex st r = (st, r) := by
  cases r with
  | nil => rfl
  | cons c r =>
    obtain ⟨h1, h2, h3⟩ := h c r rfl
    have hv : digitVal hex c = none := by
      rw [digit_iff] at h1
      simpa using h1
    rw [mantissa, if_neg h2]
    split
    · next h46 => rw [if_pos (h3 h46)]
    · rw [hv]

theorem mant_point {hex : Bool} {st : Mant} (r : Str) (h : st.dot = false) :
    mantissa hex st (46 :: r) = mantissa hex { st with dot := true } r := by
  rw [mantissa, if_neg (by decide), if_pos rfl, h]
  rfl

/-- What the mantissa loop makes of a literal. -/
theorem mant_literal {hex : Bool} {i pt f ex : Str} {is fs : List Nat} (hi : Digits hex i is) (hf : Digits hex f fs)
    (hpt : pt = b!"." ∨ (pt = [] ∧ f = []))
    (hex' : ∀ c r', ex = c :: r' → ¬ Digit hex c ∧ c ≠ 95 ∧ c ≠ 46) :
    ∃ dot, mantissa hex {} (i ++ (pt ++ (f ++ ex))) =
      ({ dot := dot, digit := !(is ++ fs).isEmpty, val := number hex (is ++ fs), frac := fs.length }, ex) := by
  rw [mant_digits hi]
  rcases hpt with rfl | ⟨rfl, rfl⟩
  · refine ⟨true, ?_⟩
    rw [show (b!"." ++ (f ++ ex) : Str) = 46 :: (f ++ ex) from rfl, mant_point _ rfl, mant_digits hf, mant_stop]
    · unfold feed number
      rw [List.foldl_append]
      cases is <;> simp
    · intro c r' e
      obtain ⟨h1, h2, h3⟩ := hex' c r' e
      exact ⟨h1, h2, fun h => absurd h h3⟩
  · cases hf
    refine ⟨false, ?_⟩
    rw [List.nil_append, List.nil_append, mant_stop]
    · unfold feed number
      simp
    · intro c r' e
      obtain ⟨h1, h2, h3⟩ := hex' c r' e
      exact ⟨h1, h2, fun h => absurd h h3⟩

/-- Every mantissa is that of a literal. -/
theorem mant_split (hex : Bool) (s : Str) (h95 : ∀ c ∈ s, c ≠ 95) : ∃ (i pt f : Str) (is fs : List Nat),
    s = i ++ (pt ++ (f ++ (mantissa hex {} s).2)) ∧ Digits hex i is ∧ Digits hex f fs ∧
    (pt = b!"." ∨ (pt = [] ∧ f = [])) ∧ (mantissa hex {} s).1.digit = !(is ++ fs).isEmpty ∧
    (mantissa hex {} s).1.val = number hex (is ++ fs) ∧ (mantissa hex {} s).1.frac = fs.length := by
  obtain ⟨i, is, r, rfl, hi, hr⟩ := span_digits hex s
  by_cases hp : ∃ r', r = 46 :: r'
  · obtain ⟨r', rfl⟩ := hp
    obtain ⟨f, fs, ex, rfl, hf, hex'⟩ := span_digits hex r'
    have e : mantissa hex {} (i ++ 46 :: (f ++ ex)) = (feed hex { feed hex {} is with dot := true } fs, ex) := by
      rw [mant_digits hi, mant_point _ rfl, mant_digits hf, mant_stop]
      intro c r' e
      exact ⟨hex' c r' e, h95 c (by rw [e]; simp), fun _ => rfl⟩
    refine ⟨i, b!".", f, is, fs, ?_, hi, hf, .inl rfl, ?_⟩
    · rw [e]; rfl
    · rw [e]
      unfold feed number
      rw [List.foldl_append]
      cases is <;> simp
  · have e : mantissa hex {} (i ++ r) = (feed hex {} is, r) := by
      rw [mant_digits hi, mant_stop]
      rintro c r' rfl
      exact ⟨hr c r' rfl, h95 c (by simp), fun h => absurd ⟨r', by rw [h]⟩ hp⟩
    refine ⟨i, [], [], is, [], ?_, hi, .nil, .inr ⟨rfl, rfl⟩, ?_⟩
    · rw [e]; rfl
    · rw [e]
      unfold feed number
      simp

/-! ### Exponents -/

theorem digits_range {t : Str} {ds : List Nat} (h : Digits false t ds) : ∀ c ∈ t, 48 ≤ c ∧ c ≤ 57 := by
  induction h with
  | nil => simp
  | @cons c d t ds h1 h2 ih =>
    intro x hx
    rcases List.mem_cons.1 hx with rfl | hx
    · have h := (digitVal_iff false x d).2 h1
      unfold digitVal at h
      split at h
      · assumption
      · simp at h
    · exact ih x hx

theorem digits_of_range {t : Str} (h : ∀ c ∈ t, 48 ≤ c ∧ c ≤ 57) : ∃ ds, Digits false t ds := by
  induction t with
  | nil => exact ⟨[], .nil⟩
  | cons c t ih =>
    obtain ⟨ds, hd⟩ := ih fun x hx => h x (by simp [hx])
    obtain ⟨-, -, -, -, -, -, -, -, -, hv⟩ := digit_facts c (h c (by simp))
    exact ⟨_ :: ds, .cons ((digitVal_iff false c _).1 hv) hd⟩

theorem litVal_number {t : Str} {ds : List Nat} (h : Digits false t ds) : litVal t = number false ds := by
  unfold litVal number
  generalize 0 = a
  induction h generalizing a with
  | nil => rfl
  | @cons c d t ds h1 h2 ih =>
    rw [List.foldl_cons, List.foldl_cons, ih]
    have hr := digits_range (.cons h1 h2) c (by simp)
    obtain ⟨-, -, -, -, -, -, -, -, -, hv⟩ := digit_facts c hr
    rw [(digitVal_iff false c d).2 h1] at hv
    rw [Option.some.inj hv]
    congr 1
    unfold base
    simp only [Bool.false_eq_true, if_false]
    omega

theorem exponentLoop_all (s : Str) : ∀ e, (∀ c ∈ s, c ≠ 95) → (exponentLoop e s).2 = [] → ∀ c ∈ s, 48 ≤ c ∧ c ≤ 57 := by
  induction s with
  | nil => intro e _ _; simp
  | cons x s ih =>
    intro e h95 h c hc
    rw [exponentLoop, if_neg (h95 x (by simp))] at h
    split at h
    · next hx =>
      rcases List.mem_cons.1 hc with rfl | hc
      · exact hx
      · exact ih _ (fun y hy => h95 y (by simp [hy])) h c hc
    · simp at h

theorem exponent_split {s : Str} {v : Int} (h95 : ∀ c ∈ s, c ≠ 95) (h : exponent s = some v) :
    ∃ (sg ds : Str) (neg : Bool) (es : List Nat), s = sg ++ ds ∧ Sign sg neg ∧ Digits false ds es ∧ es ≠ [] := by
  obtain ⟨sg, hs, hsg, -⟩ := takeSign_spec s
  unfold exponent at h
  simp only at h
  generalize (takeSign s).2 = r at *
  split at h
  · next c r' =>
    split at h
    · split at h
      · next hl =>
        obtain ⟨ds, hd⟩ := digits_of_range (exponentLoop_all (c :: r') 0 (fun x hx => h95 x (by rw [hs]; exact List.mem_append_right _ hx)) hl)
        exact ⟨sg, c :: r', _, ds, hs, hsg, hd, by rintro rfl; cases hd⟩
      · simp at h
    · simp at h
  · simp at h

theorem exponent_read {sg ds : Str} {neg : Bool} {es : List Nat} (hs : Sign sg neg) (hd : Digits false ds es)
    (hne : es ≠ []) (hb : number false es < 100000) :
    exponent (sg ++ ds) = some (if neg then -(number false es : Int) else number false es) := by
  have hl := (exponentLoop_digits ds 0 (digits_range hd)).2 (by rw [litVal_number hd]; omega)
  rw [litVal_number hd, Nat.zero_mul, Nat.zero_add] at hl
  have hds : ds ≠ [] := by rintro rfl; cases hd; exact hne rfl
  rw [exponent_digits (by rcases hs with ⟨-, h | h⟩ | ⟨-, h⟩ <;> simp [h]) hds (digits_range hd), hl]
  rcases hs with ⟨rfl, rfl | rfl⟩ | ⟨rfl, rfl⟩
  · rw [if_neg (by decide)]; rfl
  · rw [if_neg (by decide)]; rfl
  · rw [if_pos rfl]; rfl

/-! ### Literals -/

theorem capped_nearest {x : ℚ} {k : Nat} (hn : Nearest (x * 2 ^ 1074) k) : NumberFor x (capped k) := by
  unfold capped
  split
  · next h =>
    have ht : (UInt64.ofNat k).toNat = k := UInt64.toNat_ofNat_of_lt' (by unfold UInt64.size; omega)
    refine numberFor_of_nearest ?_ (by rw [ht]; exact hn)
    rw [UInt64.le_iff_toNat_le, ht]
    exact h.le
  · next h =>
    by_cases hk : k = 0x7ff0000000000000
    · exact numberFor_of_nearest (UInt64.le_refl _) (by rw [hk] at hn; exact hn)
    refine ⟨UInt64.le_refl _, fun c hc => ?_⟩
    by_cases hce : c = 0x7ff0000000000000
    · subst hce; exact ⟨le_rfl, fun _ h => absurd rfl h⟩
    have hcn : c.toNat < 0x7ff0000000000000 := by
      rw [UInt64.le_iff_toNat_le] at hc
      have hc : c.toNat ≤ 0x7ff0000000000000 := hc
      have : c.toNat ≠ 0x7ff0000000000000 := fun e => hce (UInt64.toNat_inj.1 e)
      omega
    have u1 := units_ltQ hcn
    have u2 := units_ltQ (show 0x7ff0000000000000 < k by omega)
    have h1 := (hn 0x7ff0000000000000).1
    rw [dist_units (UInt64.le_refl _), dist_units hc, div_le_div_iff_of_pos_right two_pos, div_left_inj' two_pos.ne']
    have ht : (0x7ff0000000000000 : UInt64).toNat = 0x7ff0000000000000 := rfl
    rw [ht]
    generalize x * 2 ^ 1074 = y at *
    have : |(units 0x7ff0000000000000 : ℚ) - y| < |(units c.toNat : ℚ) - y| := by
      rcases abs_cases ((units k : ℚ) - y) with h3 | h3 <;>
      rcases abs_cases ((units 0x7ff0000000000000 : ℚ) - y) with h4 | h4 <;>
      rcases abs_cases ((units c.toNat : ℚ) - y) with h5 | h5 <;> linarith
    exact ⟨this.le, fun e => absurd e this.ne⟩

/-- A literal after its sign and prefix. -/
def Body (hex : Bool) (r : Str) (e : Int) (x : ℚ) : Prop :=
  ∃ (i pt f ex : Str) (is fs : List Nat), r = i ++ (pt ++ (f ++ ex)) ∧
    Digits hex i is ∧ Digits hex f fs ∧ is ++ fs ≠ [] ∧ (pt = b!"." ∨ (pt = [] ∧ f = [])) ∧ Exponent hex ex e ∧
    x = (number hex (is ++ fs) : ℚ) * (if hex then 2 ^ (e - 4 * fs.length) else 10 ^ (e - fs.length))

theorem exponent_head {hex : Bool} {ex : Str} {e : Int} (h : Exponent hex ex e) :
    ∀ c r', ex = c :: r' → ¬ Digit hex c ∧ c ≠ 95 ∧ c ≠ 46 := by
  rintro c r' rfl
  rcases h with ⟨-, h, -⟩ | ⟨c', s, ds, neg, es, h, hc, -⟩
  · simp at h
  · simp only [List.cons.injEq] at h
    rw [← h.1] at hc
    cases hex
    · have : c = 101 ∨ c = 69 := by simpa using hc
      rcases this with rfl | rfl <;> exact ⟨not_digit false rfl, by decide, by decide⟩
    · have : c = 112 ∨ c = 80 := by simpa using hc
      rcases this with rfl | rfl <;> exact ⟨not_digit true rfl, by decide, by decide⟩

theorem body_read {hex : Bool} {r : Str} {e : Int} {x : ℚ} (h : Body hex r e x) (he : -100000 < e ∧ e < 100000) :
    ∃ k, bodyMag hex r = some k ∧ NumberFor x (capped k) := by
  obtain ⟨i, pt, f, ex, is, fs, rfl, hi, hf, hne, hpt, hexp, rfl⟩ := h
  obtain ⟨dot, hm⟩ := mant_literal hi hf hpt (exponent_head hexp)
  unfold bodyMag
  rw [hm]
  have hd : (!(is ++ fs).isEmpty) = true := by
    cases h : is ++ fs with
    | nil => exact absurd h hne
    | cons a b => rfl
  simp only [hd, Bool.true_eq_false, if_false]
  rcases hexp with ⟨rfl, rfl, rfl⟩ | ⟨c, s, ds, neg, es, rfl, hc, hs, hds, hes, rfl⟩
  · refine ⟨_, rfl, ?_⟩
    simp only [Bool.false_eq_true, if_false, Int.zero_sub]
    exact capped_nearest (by simpa using roundPow_near (b := 10) (by omega) (number false (is ++ fs)) (-(fs.length : Int)))
  · have hb : number false es < 100000 := by
      cases neg <;> simp only [Bool.false_eq_true, if_false, if_true] at he <;> omega
    generalize hv : (if neg = true then -(number false es : Int) else number false es) = v
    have hx := exponent_read hs hds hes hb
    rw [hv] at hx
    cases hex
    · have hc' : lower c = 101 := (lower_e c).2 (by simpa using hc)
      unfold tailMag
      simp only [Bool.false_eq_true, if_false, hc', if_true, hx]
      exact ⟨_, rfl, capped_nearest (by simpa using roundPow_near (b := 10) (by omega) (number false (is ++ fs)) (v - fs.length))⟩
    · have hc' : lower c = 112 := (lower_p c).2 (by simpa using hc)
      unfold tailMag
      simp only [if_true, hc', hx]
      exact ⟨_, rfl, capped_nearest (by simpa using roundPow_near (b := 2) (by omega) (number true (is ++ fs)) (v - 4 * fs.length))⟩

theorem body_only {hex : Bool} {r : Str} {k : Nat} (h95 : ∀ c ∈ r, c ≠ 95) (h : bodyMag hex r = some k) :
    ∃ e x, Body hex r e x := by
  obtain ⟨i, pt, f, is, fs, hr, hi, hf, hpt, hdig, hval, hfrac⟩ := mant_split hex r h95
  unfold bodyMag at h
  split at h
  · simp at h
  next hd =>
  have hne : is ++ fs ≠ [] := by
    intro h0
    rw [hdig, h0] at hd
    exact hd rfl
  have h95' : ∀ c ∈ (mantissa hex {} r).2, c ≠ 95 := by
    intro c hc
    exact h95 c (by rw [hr]; simp [hc])
  generalize (mantissa hex {} r).2 = ex at *
  suffices ∃ e, Exponent hex ex e by
    obtain ⟨e, he⟩ := this
    exact ⟨e, _, i, pt, f, ex, is, fs, hr, hi, hf, hne, hpt, he, rfl⟩
  cases ex with
  | nil =>
    cases hex
    · exact ⟨0, .inl ⟨rfl, rfl, rfl⟩⟩
    · simp [tailMag] at h
  | cons c e =>
    unfold tailMag at h
    simp only at h
    by_cases hc : lower c = (if hex then 112 else 101)
    · rw [if_pos hc] at h
      cases hv : exponent e with
      | none => rw [hv] at h; simp at h
      | some v =>
        obtain ⟨sg, ds, neg, es, rfl, h1, h2, h3⟩ := exponent_split (fun x hx => h95' x (by simp [hx])) hv
        refine ⟨_, .inr ⟨c, sg, ds, neg, es, rfl, ?_, h1, h2, h3, rfl⟩⟩
        cases hex
        · have := (lower_e c).1 hc
          simpa using this
        · have := (lower_p c).1 hc
          simpa using this
    · rw [if_neg hc] at h
      simp at h

/-! ### Whole texts -/

/-- The characters of a decimal literal. -/
theorem body_chars {r : Str} {e : Int} {x : ℚ} (h : Body false r e x) :
    ∀ c ∈ r, lower c ≠ 98 ∧ lower c ≠ 111 ∧ lower c ≠ 120 := by
  obtain ⟨i, pt, f, ex, is, fs, rfl, hi, hf, hne, hpt, hexp, rfl⟩ := h
  have dig : ∀ c : UInt8, 48 ≤ c ∧ c ≤ 57 → lower c ≠ 98 ∧ lower c ≠ 111 ∧ lower c ≠ 120 :=
    u8_forall (by decide +kernel)
  intro c hc
  simp only [List.mem_append] at hc
  rcases hc with hc | hc | hc | hc
  · exact dig c (digits_range hi c hc)
  · rcases hpt with rfl | ⟨rfl, -⟩
    · rw [List.mem_singleton] at hc; subst hc; decide
    · simp at hc
  · exact dig c (digits_range hf c hc)
  · rcases hexp with ⟨-, rfl, -⟩ | ⟨c', s, ds, neg, es, rfl, hc', hs, hd, -⟩
    · simp at hc
    · simp only [List.mem_cons, List.mem_append] at hc
      rcases hc with rfl | hc | hc
      · have : c = 101 ∨ c = 69 := by simpa using hc'
        rcases this with rfl | rfl <;> decide
      · rcases sign_mem hs c hc with rfl | rfl <;> decide
      · exact dig c (digits_range hd c hc)

/-- How a literal begins. -/
theorem body_head {hex : Bool} {r : Str} {e : Int} {x : ℚ} (h : Body hex r e x) :
    ∃ c r', r = c :: r' ∧ (Digit hex c ∨ c = 46) := by
  obtain ⟨i, pt, f, ex, is, fs, rfl, hi, hf, hne, hpt, hexp, rfl⟩ := h
  cases hi with
  | @cons c d i is h1 h2 => exact ⟨c, _, rfl, .inl ⟨d, h1⟩⟩
  | nil =>
    rcases hpt with rfl | ⟨rfl, rfl⟩
    · exact ⟨46, _, rfl, .inr rfl⟩
    · cases hf
      exact absurd rfl hne

/-- Nothing but digits and prefixes come before underscores. -/
theorem sep_head {hex : Bool} {s t : Str} {neg : Bool} (hs : Sign s neg) (h : Separated hex (s ++ t)) : ∀ b, t ≠ 95 :: b := by
  rintro b rfl
  obtain ⟨g, -⟩ := h s b rfl
  rcases g with ⟨a', c, e, hc⟩ | ⟨-, s', neg', hs', e⟩
  · exact sign_last hs e hex hc
  · have h48 : (48 : UInt8) ∈ s := by rcases e with e | e <;> rw [e] <;> simp
    rcases sign_mem hs 48 h48 with h | h <;> exact absurd h (by decide)

theorem bare_sign {hex : Bool} {s r t : Str} {neg : Bool} (hs : Sign s neg) (h : Separated hex t) (e : bare t = s ++ r) :
    ∃ t', t = s ++ t' ∧ bare t' = r := by
  rcases hs with ⟨-, rfl | rfl⟩ | ⟨-, rfl⟩
  · exact ⟨t, rfl, e⟩
  all_goals
    cases t with
    | nil => simp [bare] at e
    | cons c t =>
      have hc : c ≠ 95 := by
        rintro rfl
        exact sep_head (s := []) (neg := false) (.inl ⟨rfl, .inl rfl⟩) h t rfl
      rw [bare_cons hc] at e
      simp only [List.cons_append, List.nil_append, List.cons.injEq] at e
      exact ⟨t, by rw [e.1]; rfl, e.2⟩

theorem special_head {s r : Str} {neg : Bool} {c : UInt8} (hs : Sign s neg) (hc : (48 ≤ c ∧ c ≤ 57) ∨ c = 46) :
    special (s ++ c :: r) = none := by
  have key : ∀ c : UInt8, ((48 ≤ c ∧ c ≤ 57) ∨ c = 46) → (if 65 ≤ c && c ≤ 90 then c + 32 else c) = c ∧ c ≠ 105 ∧
      c ≠ 110 ∧ c ≠ 43 ∧ c ≠ 45 := u8_forall (by decide +kernel)
  obtain ⟨k1, k2, k3, k4, k5⟩ := key c hc
  unfold special
  have hm : (s ++ c :: r).map (fun c => if 65 ≤ c && c ≤ 90 then c + 32 else c) =
      s ++ c :: r.map (fun c => if 65 ≤ c && c ≤ 90 then c + 32 else c) := by
    rw [List.map_append, List.map_cons, k1]
    congr 1
    rcases hs with ⟨-, rfl | rfl⟩ | ⟨-, rfl⟩ <;> rfl
  simp only [hm]
  rw [takeSign_of hs (by
    rintro - c' r' e
    simp only [List.cons.injEq] at e
    rw [← e.1]; exact ⟨k4, k5⟩)]
  rw [if_neg, if_neg]
  · intro e
    rcases hs with ⟨-, rfl | rfl⟩ | ⟨-, rfl⟩
    · exact k3 (List.cons.inj e).1
    · exact absurd (List.cons.inj e).1 (by decide)
    · exact absurd (List.cons.inj e).1 (by decide)
  · rintro (e | e) <;> exact k2 (List.cons.inj e).1

theorem digit_false {c : UInt8} (h : Digit false c) : 48 ≤ c ∧ c ≤ 57 := by
  obtain ⟨d, hd⟩ := h
  exact digits_range (.cons hd .nil) c (by simp)

/-- A text of which sign, prefix and rest are known. -/
theorem parse_parts {s r : Str} {neg : Bool} {k : Nat} (hs : Sign s neg)
    (hr : ∃ c r', r = c :: r' ∧ ((48 ≤ c ∧ c ≤ 57) ∨ c = 46))
    (hu : underscoreOK (s ++ r) = true) (hb : bodyMag (takeHex r).1 (takeHex r).2 = some k) :
    parse (s ++ r) = if k < 0x7ff0000000000000 then
      some (if neg then UInt64.ofNat k ||| 0x8000000000000000 else UInt64.ofNat k) else none := by
  obtain ⟨c, r', rfl, hc⟩ := hr
  have hts : takeSign (s ++ c :: r') = (neg, c :: r') := by
    refine takeSign_of hs ?_
    rintro - c' r'' e
    simp only [List.cons.injEq] at e
    rw [← e.1]
    exact u8_forall (P := fun c => ((48 ≤ c ∧ c ≤ 57) ∨ c = 46) → c ≠ 43 ∧ c ≠ 45) (by decide +kernel) c hc
  unfold parse
  rw [special_head hs hc, magnitude_eq, hts, hu]
  simp only [Bool.true_eq_false, and_false, if_false, hb]

theorem read_float {t : Str} {neg : Bool} {e : Int} {x : ℚ} (h : IsFloat t neg e x) (he : -100000 < e ∧ e < 100000) :
    ∃ k, NumberFor x (capped k) ∧ parse t = if k < 0x7ff0000000000000 then
      some (if neg then UInt64.ofNat k ||| 0x8000000000000000 else UInt64.ofNat k) else none := by
  obtain ⟨hex, ⟨s, pre, i, pt, f, ex, is, fs, ht, hs, hpre, hrest⟩, hsep⟩ := h
  have hb : Body hex (i ++ (pt ++ (f ++ ex))) e x := ⟨i, pt, f, ex, is, fs, rfl, hrest⟩
  obtain ⟨k, hk, hn⟩ := body_read hb he
  obtain ⟨t1, rfl, ht1⟩ := bare_sign hs hsep ht
  refine ⟨k, hn, ?_⟩
  cases hex
  · simp only [Bool.false_eq_true, if_false] at hpre
    subst hpre
    rw [List.nil_append] at ht1
    rw [← ht1] at hb hk
    obtain ⟨c, r', e1, hc⟩ := body_head hb
    obtain ⟨c', t2, rfl⟩ : ∃ c' t2, t1 = c' :: t2 := by
      cases t1 with
      | nil => simp [bare] at e1
      | cons c' t2 => exact ⟨c', t2, rfl⟩
    have hc' : c' ≠ 95 := by rintro rfl; exact sep_head hs hsep t2 rfl
    rw [bare_cons hc'] at e1
    have hcc : (48 ≤ c' ∧ c' ≤ 57) ∨ c' = 46 := by
      simp only [List.cons.injEq] at e1
      rw [e1.1]
      exact hc.imp_left digit_false
    have hno : ∀ y r'', c' :: t2 = 48 :: y :: r'' → ¬ (lower y = 98 ∨ lower y = 111 ∨ lower y = 120) := by
      intro y r'' e2
      by_cases hy : y = 95
      · subst hy; decide
      · have := body_chars hb y (by rw [e2, bare_cons (by decide), bare_cons hy]; simp)
        rintro (h | h | h)
        · exact this.1 h
        · exact this.2.1 h
        · exact this.2.2 h
    have hhex : takeHex (c' :: t2) = (false, c' :: t2) := by
      unfold takeHex
      split
      · next y z r'' e2 =>
        rw [if_neg (fun h => hno y _ e2 (.inr (.inr h))), e2]
      · rfl
    refine parse_parts hs ⟨c', t2, rfl, hcc⟩ ?_ ?_
    · rw [underscoreOK_dec hs _ hno]
      · exact hsep
      · rintro - c'' r'' e2
        simp only [List.cons.injEq] at e2
        rw [← e2.1]
        exact u8_forall (P := fun c => ((48 ≤ c ∧ c ≤ 57) ∨ c = 46) → c ≠ 43 ∧ c ≠ 45) (by decide +kernel) c' hcc
    · rw [hhex, ← bodyMag_bare hsep]
      exact hk
  · obtain ⟨y, hy, rfl⟩ : ∃ y : UInt8, (y = 120 ∨ y = 88) ∧ pre = [48, y] := by
      simp only [if_true] at hpre
      rcases hpre with rfl | rfl
      · exact ⟨120, .inl rfl, rfl⟩
      · exact ⟨88, .inr rfl, rfl⟩
    have hyd : ¬ Digit true y := by rcases hy with rfl | rfl <;> exact not_digit true rfl
    obtain ⟨t3, rfl, ht3⟩ : ∃ t3, t1 = 48 :: y :: t3 ∧ bare t3 = i ++ (pt ++ (f ++ ex)) := by
      cases t1 with
      | nil => simp [bare] at ht1
      | cons a t2 =>
        have ha : a ≠ 95 := by rintro rfl; exact sep_head hs hsep t2 rfl
        rw [bare_cons ha] at ht1
        simp only [List.cons_append, List.nil_append, List.cons.injEq] at ht1
        obtain ⟨rfl, ht1⟩ := ht1
        cases t2 with
        | nil => simp [bare] at ht1
        | cons b t3 =>
          by_cases hb95 : b = 95
          · subst hb95
            obtain ⟨-, c, b', rfl, hc⟩ := hsep (s ++ [48]) t3 (by simp)
            rw [bare_cons95, bare_cons (by rintro rfl; exact not_digit95 true hc)] at ht1
            simp only [List.cons.injEq] at ht1
            exact absurd (ht1.1 ▸ hc) hyd
          · rw [bare_cons hb95] at ht1
            simp only [List.cons.injEq] at ht1
            exact ⟨t3, by rw [ht1.1], ht1.2⟩
    have hhex : takeHex (48 :: y :: t3) = (true, t3) := by
      cases t3 with
      | nil =>
        obtain ⟨c, r', e1, -⟩ := body_head hb
        rw [e1] at ht3
        simp [bare] at ht3
      | cons c t3 =>
        show (if lower y = 120 then _ else _) = _
        rw [if_pos ((lower_x y).2 hy)]
    refine parse_parts hs ⟨48, y :: t3, rfl, .inl (by decide)⟩ ?_ ?_
    · rw [underscoreOK_hex hs hy]
      exact hsep
    · rw [hhex, ← bodyMag_bare (p := s ++ [48, y]) (by simpa using hsep), ht3]
      exact hk

/-- Without underscores. -/
theorem sep_none {hex : Bool} {t : Str} (h : t.contains 95 = false) : Separated hex t := by
  rintro a b rfl
  simp at h

theorem special_finite {t : Str} {b : UInt64} (h : special t = some b) : ¬ F64Finite b := by
  unfold special at h
  simp only at h
  split at h
  · rw [Option.some.injEq] at h
    rw [← h]
    split <;> decide
  · split at h
    · rw [Option.some.injEq] at h
      rw [← h]; decide
    · simp at h

theorem only_float {t : Str} {b : UInt64} (h : parse t = some b) (hb : F64Finite b) :
    ∃ neg e x, IsFloat t neg e x := by
  unfold parse at h
  split at h
  · next x hx =>
    rw [Option.some.injEq] at h
    rw [h] at hx
    exact absurd hb (special_finite hx)
  split at h
  · simp at h
  next k hk =>
  clear h
  rw [magnitude_eq] at hk
  split at hk
  · simp at hk
  next hu =>
  obtain ⟨s, hts, hs, hhead⟩ := takeSign_spec t
  generalize (takeSign t).1 = neg at *
  generalize (takeSign t).2 = t1 at *
  have hhead' : s = [] → ∀ c r', t1 = c :: r' → c ≠ 43 ∧ c ≠ 45 := by
    rintro rfl c r' e
    exact hhead rfl c r' (by rw [hts, e]; rfl)
  have fin : ∀ (hex : Bool) (pre r : Str), t = s ++ (pre ++ r) → (if hex then pre = b!"0x" ∨ pre = b!"0X" else pre = []) →
      Separated hex t → bodyMag hex r = some k → ∃ neg e x, IsFloat t neg e x := by
    intro hex pre r e hpre hsep hm
    rw [← bodyMag_bare (p := s ++ pre) (by rw [e] at hsep; rw [List.append_assoc]; exact hsep)] at hm
    obtain ⟨ee, x, i, pt, f, ex, is, fs, h1, h2⟩ := body_only (bare_no95 r) hm
    refine ⟨neg, ee, x, hex, ⟨s, pre, i, pt, f, ex, is, fs, ?_, hs, hpre, h2⟩, hsep⟩
    rw [e, bare_append, bare_append, bare_of (sign_no95 hs), h1]
    congr 2
    refine bare_of ?_
    cases hex
    · simp only [Bool.false_eq_true, if_false] at hpre
      rw [hpre]; simp
    · simp only [if_true] at hpre
      rcases hpre with rfl | rfl <;> decide
  by_cases hx : ∃ y c r, t1 = 48 :: y :: c :: r ∧ lower y = 120
  · obtain ⟨y, c, r, rfl, hy⟩ := hx
    have hhex : takeHex (48 :: y :: c :: r) = (true, c :: r) := by
      show (if lower y = 120 then _ else _) = _
      rw [if_pos hy]
    rw [hhex] at hk
    have hy' := (lower_x y).1 hy
    refine fin true [48, y] (c :: r) hts ?_ ?_ hk
    · simp only [if_true]
      rcases hy' with rfl | rfl
      · exact .inl rfl
      · exact .inr rfl
    · cases h95 : t.contains 95 with
      | false => exact sep_none h95
      | true =>
        rw [hts, ← underscoreOK_hex hs hy', ← hts]
        rw [h95] at hu
        simpa using hu
  · have hhex : takeHex t1 = (false, t1) := by
      unfold takeHex
      split
      · next y c r =>
        rw [if_neg]
        exact fun h => hx ⟨y, c, r, rfl, h⟩
      · rfl
    rw [hhex] at hk
    refine fin false [] t1 hts (by simp) ?_ hk
    cases h95 : t.contains 95 with
    | false => exact sep_none h95
    | true =>
      rw [hts, ← underscoreOK_dec hs hhead' _, ← hts]
      · rw [h95] at hu
        simpa using hu
      · rintro y r rfl hy
        have hstop : ∀ y : UInt8, lower y = 98 ∨ lower y = 111 ∨ lower y = 120 →
            digitVal false y = none ∧ y ≠ 95 ∧ y ≠ 46 ∧ lower y ≠ 101 := u8_forall (by decide +kernel)
        obtain ⟨s1, s2, s3, s4⟩ := hstop y hy
        have hm : (mantissa false {} (48 :: y :: r)).2 = y :: r := by
          rw [show (48 :: y :: r : Str) = [48] ++ (y :: r) from rfl,
            mant_digits (ds := [0]) (.cons ((digitVal_iff false 48 0).1 rfl) .nil), mant_stop]
          intro c r' e
          simp only [List.cons.injEq] at e
          rw [← e.1]
          exact ⟨not_digit false s1, s2, fun h => absurd h s3⟩
        unfold bodyMag at hk
        split at hk
        · simp at hk
        · simp only [hm] at hk
          unfold tailMag at hk
          simp only [Bool.false_eq_true, if_false] at hk
          rw [if_neg s4] at hk
          simp at hk

end Stix.Strconv
