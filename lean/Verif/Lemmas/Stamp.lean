import Verif.Spec.Stamp
import Verif.Lemmas.Time

/-!
# Timestamp texts and `time.Parse`
-/

namespace Stix
open Spec

theorem digitVal_iff (c : UInt8) (d : Nat) : digitVal c = some d ↔ d ≤ 9 ∧ c = digit d := by
  constructor
  · intro h
    unfold digitVal at h
    split at h
    · next hc =>
      simp only [Option.some.injEq] at h
      obtain ⟨h1, h2⟩ := hc
      rw [UInt8.le_iff_toNat_le] at h1 h2
      simp at h1 h2
      refine ⟨by omega, ?_⟩
      subst h
      apply UInt8.toNat_inj.1
      simp only [digit, Nat.toUInt8, UInt8.toNat_ofNat']
      omega
    · simp at h
  · rintro ⟨h, rfl⟩
    exact digitVal_digit d (by omega)

theorem getnum2_iff (s : Str) (n : Nat) (r : Str) :
    getnum2 s = some (n, r) ↔ n ≤ 99 ∧ s = two n ++ r := by
  constructor
  · intro h
    match s, h with
    | a :: b :: rest, h =>
      simp only [getnum2, Option.bind_eq_bind, Option.bind_eq_some_iff, Option.pure_def,
        Option.some.injEq, Prod.mk.injEq] at h
      obtain ⟨x, hx, y, hy, rfl, rfl⟩ := h
      obtain ⟨hx, rfl⟩ := (digitVal_iff _ _).1 hx
      obtain ⟨hy, rfl⟩ := (digitVal_iff _ _).1 hy
      refine ⟨by omega, ?_⟩
      simp only [two, List.cons_append, List.nil_append]
      rw [show (10 * x + y) / 10 = x by omega, show (10 * x + y) % 10 = y by omega]
  · rintro ⟨h, rfl⟩
    exact getnum2_text n (by omega) r

theorem getnum4_iff (s : Str) (n : Nat) (r : Str) :
    getnum4 s = some (n, r) ↔ n ≤ 9999 ∧ s = two (n / 100) ++ two (n % 100) ++ r := by
  constructor
  · intro h
    match s, h with
    | a :: b :: c :: d :: rest, h =>
      simp only [getnum4, Option.bind_eq_bind, Option.bind_eq_some_iff, Option.pure_def,
        Option.some.injEq, Prod.mk.injEq] at h
      obtain ⟨w, hw, x, hx, y, hy, z, hz, rfl, rfl⟩ := h
      obtain ⟨hw, rfl⟩ := (digitVal_iff _ _).1 hw
      obtain ⟨hx, rfl⟩ := (digitVal_iff _ _).1 hx
      obtain ⟨hy, rfl⟩ := (digitVal_iff _ _).1 hy
      obtain ⟨hz, rfl⟩ := (digitVal_iff _ _).1 hz
      refine ⟨by omega, ?_⟩
      simp only [two, List.cons_append, List.nil_append]
      congr 2
      · omega
      congr 2
      · omega
      congr 2
      · omega
      congr 2
      omega
  · rintro ⟨h, rfl⟩
    have := getnum4_text n (by omega) r
    simp only [two, List.cons_append, List.nil_append]
    rw [show n / 100 / 10 = n / 1000 by omega, show n / 100 % 10 = n / 100 % 10 from rfl,
      show n % 100 / 10 = n / 10 % 10 by omega, show n % 100 % 10 = n % 10 by omega]
    exact this

theorem expect_iff (c : UInt8) (s r : Str) : expect c s = some r ↔ s = c :: r := by
  cases s with
  | nil => simp [expect]
  | cons x rest =>
    simp only [expect]
    split
    · next h => subst h; simp
    · next h => simp [h]

/-- One or two digits, before something that is not a digit. -/
theorem getnum12_iff (s : Str) (n : Nat) (c : UInt8) (r : Str) (hc : digitVal c = none) :
    getnum12 s = some (n, c :: r) ↔
      ∃ t, (n ≤ 99 ∧ t = two n ∨ n ≤ 9 ∧ t = [digit n]) ∧ s = t ++ c :: r := by
  constructor
  · intro h
    match s, h with
    | [a], h =>
      simp [getnum12, Option.bind_eq_some_iff] at h
    | a :: b :: rest, h =>
      simp only [getnum12, Option.bind_eq_bind, Option.bind_eq_some_iff] at h
      obtain ⟨x, hx0, h⟩ := h
      obtain ⟨hx, rfl⟩ := (digitVal_iff _ _).1 hx0
      cases hb : digitVal b with
      | none =>
        rw [hb] at h
        simp only [Option.pure_def, Option.some.injEq, Prod.mk.injEq] at h
        obtain ⟨rfl, h5⟩ := h
        exact ⟨_, .inr ⟨hx, rfl⟩, by rw [h5]; rfl⟩
      | some y =>
        rw [hb] at h
        simp only [Option.pure_def, Option.some.injEq, Prod.mk.injEq] at h
        obtain ⟨rfl, rfl⟩ := h
        obtain ⟨hy, rfl⟩ := (digitVal_iff _ _).1 hb
        refine ⟨_, .inl ⟨by omega, rfl⟩, ?_⟩
        simp only [two, List.cons_append, List.nil_append]
        rw [show (10 * x + y) / 10 = x by omega, show (10 * x + y) % 10 = y by omega]
  · rintro ⟨t, ⟨h, rfl⟩ | ⟨h, rfl⟩, rfl⟩
    · exact getnum12_text n (by omega) _
    · simp [getnum12, digitVal_digit n (by omega), hc]

theorem spanDigits_iff (s : Str) (ds : List Nat) (r : Str) :
    spanDigits s = (ds, r) ↔ (∀ d ∈ ds, d ≤ 9) ∧ s = ds.map digit ++ r ∧
      ∀ c r', r = c :: r' → digitVal c = none := by
  induction s generalizing ds r with
  | nil =>
    simp only [spanDigits, Prod.mk.injEq]
    constructor
    · rintro ⟨rfl, rfl⟩; simp
    · rintro ⟨-, h, -⟩
      obtain ⟨h1, h2⟩ := List.append_eq_nil_iff.1 h.symm
      simp at h1
      exact ⟨h1.symm, h2.symm⟩
  | cons c rest ih =>
    simp only [spanDigits]
    cases hc : digitVal c with
    | none =>
      simp only [Prod.mk.injEq]
      constructor
      · rintro ⟨rfl, rfl⟩
        refine ⟨by simp, rfl, ?_⟩
        intro c' r' e
        simp only [List.cons.injEq] at e
        rw [← e.1]; exact hc
      · rintro ⟨h1, h2, -⟩
        cases ds with
        | nil => exact ⟨rfl, h2⟩
        | cons d ds =>
          simp only [List.map_cons, List.cons_append, List.cons.injEq] at h2
          rw [h2.1, digitVal_digit d (by have := h1 d (by simp); omega)] at hc
          simp at hc
    | some d =>
      obtain ⟨hd, rfl⟩ := (digitVal_iff _ _).1 hc
      simp only [Prod.mk.injEq]
      constructor
      · rintro ⟨rfl, rfl⟩
        obtain ⟨i1, i2, i3⟩ := (ih _ _).1 rfl
        refine ⟨?_, ?_, i3⟩
        · intro x hx
          rcases List.mem_cons.1 hx with rfl | hx
          · exact hd
          · exact i1 x hx
        · simp only [List.map_cons, List.cons_append]; rw [← i2]
      · rintro ⟨h1, h2, h3⟩
        cases ds with
        | nil =>
          have := h3 (digit d) rest (by simpa using h2.symm)
          rw [hc] at this; simp at this
        | cons e ds =>
          simp only [List.map_cons, List.cons_append, List.cons.injEq] at h2
          have he := h1 e (by simp)
          have : d = e := by
            have h4 := digitVal_digit e (by omega)
            rw [← h2.1, hc] at h4
            simpa using h4
          subst this
          have := (ih ds r).2 ⟨fun x hx => h1 x (by simp [hx]), h2.2, h3⟩
          rw [this]
          exact ⟨rfl, rfl⟩

theorem decimal_foldl (l : List Nat) (a : Nat) :
    l.foldl (fun a d => 10 * a + d) a = a * 10 ^ l.length + decimal l := by
  induction l generalizing a with
  | nil => simp [decimal]
  | cons d l ih =>
    simp only [List.foldl_cons, ih, decimal, List.length_cons, Nat.pow_succ]
    rw [Nat.add_mul, Nat.mul_comm 10 a, Nat.mul_assoc, Nat.mul_comm 10 (10 ^ _)]
    omega

theorem decimal_lt (l : List Nat) (h : ∀ d ∈ l, d ≤ 9) : decimal l < 10 ^ l.length := by
  induction l with
  | nil => simp [decimal]
  | cons d l ih =>
    simp only [decimal, List.length_cons, Nat.pow_succ]
    have h1 := h d (by simp)
    have h2 := ih fun x hx => h x (by simp [hx])
    have : d * 10 ^ l.length ≤ 9 * 10 ^ l.length := Nat.mul_le_mul_right _ h1
    omega

theorem decimal_append (a b : List Nat) :
    decimal (a ++ b) = decimal a * 10 ^ b.length + decimal b := by
  induction a with
  | nil => simp [decimal]
  | cons d a ih =>
    simp only [List.cons_append, decimal, ih, List.length_append, Nat.pow_add, Nat.add_mul,
      Nat.mul_assoc, Nat.add_assoc]

/-- Nine digits count. -/
theorem take9 (l : List Nat) (h : ∀ d ∈ l, d ≤ 9) :
    ((l.take 9).foldl (fun a d => 10 * a + d) 0) * 10 ^ (9 - (l.take 9).length) =
      decimal l * 1000000000 / 10 ^ l.length := by
  rw [decimal_foldl, Nat.zero_mul, Nat.zero_add]
  rcases Nat.lt_or_ge l.length 10 with hl | hl
  · rw [List.take_of_length_le (by omega)]
    symm
    apply Nat.div_eq_of_eq_mul_left (by positivity)
    rw [Nat.mul_assoc, ← Nat.pow_add, show 9 - l.length + l.length = 9 by omega]
  · have h9 : (l.take 9).length = 9 := by simp; omega
    rw [h9]
    have e : decimal l = decimal (l.take 9) * 10 ^ (l.drop 9).length + decimal (l.drop 9) := by
      rw [← decimal_append, List.take_append_drop]
    have hb := decimal_lt (l.drop 9) fun x hx => h x (List.mem_of_mem_drop hx)
    have hn : l.length = (l.drop 9).length + 9 := by simp; omega
    rw [hn, Nat.pow_add, show (1000000000 : Nat) = 10 ^ 9 from rfl,
      Nat.mul_div_mul_right _ _ (by positivity), e]
    generalize 10 ^ (l.drop 9).length = p at *
    rw [Nat.add_comm, Nat.add_mul_div_right _ _ (by omega), Nat.div_eq_of_lt hb]
    simp

theorem parseZone_iff (s : Str) (off : Int) :
    parseZone s = some (off, []) ↔ ∃ z : Zone, z.Within 24 60 ∧ s = z.text ∧ off = z.seconds := by
  constructor
  · intro h
    cases s with
    | nil => simp [parseZone] at h
    | cons c rest =>
      simp only [parseZone] at h
      split at h
      · next hc =>
        simp only [Option.some.injEq, Prod.mk.injEq] at h
        obtain ⟨rfl, rfl⟩ := h
        subst hc
        exact ⟨.utc, trivial, rfl, rfl⟩
      · simp only [Option.bind_eq_bind, Option.bind_eq_some_iff, Prod.exists, getnum2_iff, expect_iff,
          Option.ite_none_left_eq_some] at h
        obtain ⟨hh, r1, ⟨h1, rfl⟩, r2, rfl, mm, r3, ⟨h2, rfl⟩, h3, h4⟩ := h
        split at h4
        · next hc =>
          simp only [Option.some.injEq, Prod.mk.injEq] at h4
          obtain ⟨rfl, rfl⟩ := h4
          subst hc
          refine ⟨.ahead hh mm, ⟨by omega, by omega⟩, by simp [Zone.text], by simp [Zone.seconds]⟩
        · split at h4
          · next hc =>
            simp only [Option.some.injEq, Prod.mk.injEq] at h4
            obtain ⟨rfl, rfl⟩ := h4
            subst hc
            refine ⟨.behind hh mm, ⟨by omega, by omega⟩, by simp [Zone.text], by simp [Zone.seconds]⟩
          · simp at h4
  · rintro ⟨z, hz, rfl, rfl⟩
    cases z with
    | utc => rfl
    | ahead h m =>
      obtain ⟨h1, h2⟩ := hz
      simp only [parseZone, Zone.text, List.cons_append, List.nil_append, List.append_assoc,
        if_neg (show ¬ (43 : UInt8) = 90 by decide), if_true, Option.bind_eq_bind,
        Option.bind_eq_some_iff, Prod.exists, getnum2_iff, expect_iff, Option.ite_none_left_eq_some]
      exact ⟨h, _, ⟨by omega, rfl⟩, _, rfl, m, [], ⟨by omega, by simp⟩, by omega, by simp [Zone.seconds]⟩
    | behind h m =>
      obtain ⟨h1, h2⟩ := hz
      simp only [parseZone, Zone.text, List.cons_append, List.nil_append, List.append_assoc,
        if_neg (show ¬ (45 : UInt8) = 90 by decide), if_neg (show ¬ (45 : UInt8) = 43 by decide),
        if_true, Option.bind_eq_bind,
        Option.bind_eq_some_iff, Prod.exists, getnum2_iff, expect_iff, Option.ite_none_left_eq_some]
      exact ⟨h, _, ⟨by omega, rfl⟩, _, rfl, m, [], ⟨by omega, by simp⟩, by omega, by simp [Zone.seconds]⟩

/-- A fraction or none, and a zone. -/
theorem fracZone_iff (s : Str) (n : Nat) (off : Int) :
    ((parseFrac s).1 = n ∧ parseZone (parseFrac s).2 = some (off, [])) ↔
      ∃ (l : List Nat) (mark : UInt8) (z : Zone), (∀ d ∈ l, d ≤ 9) ∧ (mark = 46 ∨ mark = 44) ∧
        z.Within 24 60 ∧ s = (if l = [] then [] else mark :: l.map digit) ++ z.text ∧
        n = decimal l * 1000000000 / 10 ^ l.length ∧ off = z.seconds := by
  have ztext : ∀ z : Zone, ∃ c r, z.text = c :: r ∧ digitVal c = none ∧ ¬ (c = 46 ∨ c = 44) := by
    intro z
    cases z
    · exact ⟨_, _, rfl, rfl, by decide⟩
    · exact ⟨_, _, rfl, rfl, by decide⟩
    · exact ⟨_, _, rfl, rfl, by decide⟩
  constructor
  · rintro ⟨h1, h2⟩
    obtain ⟨z, hz, h3, h4⟩ := (parseZone_iff _ _).1 h2
    obtain ⟨c, r, hc, hd, hm⟩ := ztext z
    have none_case : parseFrac s = (0, s) → ∃ (l : List Nat) (mark : UInt8) (z : Zone),
        (∀ d ∈ l, d ≤ 9) ∧ (mark = 46 ∨ mark = 44) ∧
        z.Within 24 60 ∧ s = (if l = [] then [] else mark :: l.map digit) ++ z.text ∧
        n = decimal l * 1000000000 / 10 ^ l.length ∧ off = z.seconds := by
      intro e
      rw [e] at h1 h3
      exact ⟨[], 46, z, by simp, .inl rfl, hz, by simpa using h3, by simpa [decimal] using h1.symm, h4⟩
    cases s with
    | nil => exact none_case rfl
    | cons a rest =>
      simp only [parseFrac] at h1 h3 none_case
      split at h1
      · next ha =>
        rw [if_pos ha] at h3 none_case
        cases hs : spanDigits rest with
        | mk ds r' =>
          rw [hs] at h1 h3 none_case
          cases ds with
          | nil => exact none_case rfl
          | cons d ds =>
            obtain ⟨i1, i2, i3⟩ := (spanDigits_iff _ _ _).1 hs
            dsimp only at h1 h3
            refine ⟨d :: ds, a, z, i1, ha, hz, ?_, ?_, h4⟩
            · simp only [reduceCtorEq, if_false, List.cons_append]
              rw [i2, h3]
            · rw [← h1, take9 _ i1]
      · next ha =>
        rw [if_neg ha] at none_case
        exact none_case rfl
  · rintro ⟨l, mark, z, hl, hmark, hz, rfl, rfl, rfl⟩
    obtain ⟨c, r, hc, hd, hm⟩ := ztext z
    cases l with
    | nil =>
      have : parseFrac z.text = (0, z.text) := by
        rw [hc]; simp only [parseFrac, if_neg hm]
      simp only [if_true, List.nil_append, this]
      exact ⟨by simp [decimal], (parseZone_iff _ _).2 ⟨z, hz, rfl, rfl⟩⟩
    | cons d l =>
      have hs : spanDigits ((d :: l).map digit ++ z.text) = (d :: l, z.text) := by
        refine (spanDigits_iff _ _ _).2 ⟨hl, rfl, ?_⟩
        intro c' r' e
        rw [hc] at e
        simp only [List.cons.injEq] at e
        rw [← e.1]; exact hd
      simp only [reduceCtorEq, if_false, List.cons_append, parseFrac, if_pos hmark]
      rw [hs]
      dsimp only
      exact ⟨take9 _ hl, (parseZone_iff _ _).2 ⟨z, hz, rfl, rfl⟩⟩

/-- What `time.Parse` accepts, and what it makes of it. -/
theorem goParse_iff (s : Str) (t : GoTime) : goParse s = some t ↔
    ∃ x : Stamp, x.Valid ∧ x.zone.Within 24 60 ∧ x.Loose s ∧
      t = { ns := x.nanos, off := x.zone.seconds } := by
  have hcol : digitVal 58 = none := rfl
  constructor
  · intro h
    unfold goParse at h
    simp only [Option.bind_eq_bind, Option.bind_eq_some_iff, Option.pure_def, Prod.exists,
      Option.ite_none_left_eq_some, expect_iff, getnum4_iff, getnum2_iff] at h
    obtain ⟨y, r0, ⟨hy, rfl⟩, r1, rfl, mo, r2, ⟨-, rfl⟩, hmo, r3, rfl, d, r4, ⟨-, rfl⟩, r5, rfl, hr, r6,
      hh, hhr, r7, rfl, mi, r8, ⟨-, rfl⟩, hmi, r9, rfl, sec, r10, ⟨-, rfl⟩, hsec, off, r11, hz, hnil,
      hday, ht⟩ := h
    simp only [ne_eq, Decidable.not_not] at hnil
    subst hnil
    obtain ⟨hs, hht, rfl⟩ := (getnum12_iff _ _ _ _ hcol).1 hh
    obtain ⟨l, mark, z, hl, hmark, hzw, rfl, hn, rfl⟩ := (fracZone_iff _ _ _).1 ⟨rfl, hz⟩
    rw [daysInMonth_eq _ _ (by omega) (by omega)] at hday
    refine ⟨⟨y, mo, d, hr, mi, sec, l, z⟩, ⟨hy, ⟨by dsimp only; omega, by dsimp only; omega⟩,
      ⟨by dsimp only; omega, by dsimp only; omega⟩, by dsimp only; omega, by dsimp only; omega,
      by dsimp only; omega, hl⟩, hzw, ⟨hs, mark, ?_, hmark, ?_⟩, ?_⟩
    · rcases hht with ⟨-, h⟩ | h
      · exact .inl h
      · exact .inr h
    · simp [Stamp.textWith, two]
    · rw [hn, daysBeforeMonth_eq _ _ (by omega) (by omega), yearStart_eq] at ht
      rw [← Option.some.inj ht]
      simp only [Stamp.nanos, Stamp.clock, GoTime.mk.injEq, and_true]
      push_cast
      omega
  · rintro ⟨x, ⟨h1, ⟨h2, h2'⟩, ⟨h3, h3'⟩, h4, h5, h6, h7⟩, hz, ⟨hour, mark, hh, hm, rfl⟩, rfl⟩
    have hdm : daysInMonth x.year x.month ≤ 31 := by
      unfold daysInMonth; split <;> (try split) <;> omega
    have e : x.textWith hour mark = two (x.year / 100) ++ two (x.year % 100) ++ 45 :: (two x.month ++
        45 :: (two x.day ++ 84 :: (hour ++ 58 :: (two x.minute ++ 58 :: (two x.second ++
          ((if x.fraction = [] then [] else mark :: x.fraction.map digit) ++ x.zone.text)))))) := by
      simp [Stamp.textWith, two]
    obtain ⟨f1, f2⟩ := (fracZone_iff _ _ _).2 ⟨x.fraction, mark, x.zone, h7, hm, hz, rfl, rfl, rfl⟩
    rw [e]
    unfold goParse
    simp only [Option.bind_eq_bind, Option.bind_eq_some_iff, Option.pure_def, Prod.exists,
      Option.ite_none_left_eq_some, expect_iff, getnum4_iff, getnum2_iff]
    refine ⟨x.year, _, ⟨h1, rfl⟩, _, rfl, x.month, _, ⟨by omega, rfl⟩, by omega, _, rfl, x.day, _,
      ⟨by omega, rfl⟩, _, rfl, x.hour, _, (getnum12_iff _ _ _ _ hcol).2 ⟨hour, ?_, rfl⟩, by omega, _, rfl,
      x.minute, _, ⟨by omega, rfl⟩, by omega, _, rfl, x.second, _, ⟨by omega, rfl⟩, by omega,
      x.zone.seconds, [], f2, by simp, ?_, ?_⟩
    · rcases hh with h | h
      · exact .inl ⟨by omega, h⟩
      · exact .inr h
    · rw [daysInMonth_eq _ _ h2 h2']; omega
    · rw [f1, daysBeforeMonth_eq _ _ h2 h2', yearStart_eq]
      simp only [Stamp.nanos, Stamp.clock, Option.some.injEq, GoTime.mk.injEq, and_true]
      push_cast
      omega

end Stix
