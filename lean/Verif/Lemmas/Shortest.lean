import Verif.Lemmas.Strconv

/-!
# The shortest digits of a double (lemmas)
-/

namespace Stix.Strconv
open Stix Spec

theorem natLitAux_len : ∀ f n, n < 2 ^ f → 0 < f →
    ∃ j, (natLitAux f n).length = j + 1 ∧ n < 10 ^ (j + 1) ∧ (0 < n → 10 ^ j ≤ n) := by
  intro f
  induction f with
  | zero => intro n _ h; omega
  | succ f ih =>
    intro n hn _
    rw [natLitAux]
    split
    · next h => exact ⟨0, rfl, by omega, fun h => by omega⟩
    · next h =>
      have hf : 0 < f := by
        by_contra hc
        have : f = 0 := by omega
        subst this; simp at hn; omega
      have h2 : n / 10 < 2 ^ f := by rw [pow_succ] at hn; omega
      obtain ⟨j, e1, e2, e3⟩ := ih (n / 10) h2 hf
      refine ⟨j + 1, by simp [e1], ?_, fun _ => ?_⟩
      · rw [pow_succ]; omega
      · have := e3 (by omega)
        rw [pow_succ]; omega

theorem natLit_len (n : Nat) :
    ∃ j, (natLit n).length = j + 1 ∧ n < 10 ^ (j + 1) ∧ (0 < n → 10 ^ j ≤ n) :=
  natLitAux_len _ n Nat.lt_log2_self (by omega)

/-- A number has as many digits as its text. -/
theorem natLit_len_eq {n j : Nat} (h1 : 10 ^ j ≤ n) (h2 : n < 10 ^ (j + 1)) : (natLit n).length = j + 1 := by
  obtain ⟨i, e1, e2, e3⟩ := natLit_len n
  have h0 : 0 < n := lt_of_lt_of_le (Nat.pow_pos (by omega)) h1
  have a1 : i < j + 1 := (Nat.pow_lt_pow_iff_right (by omega : 1 < 10)).1 ((e3 h0).trans_lt h2)
  have a2 : j < i + 1 := (Nat.pow_lt_pow_iff_right (by omega : 1 < 10)).1 (h1.trans_lt e2)
  omega

theorem countAux_eq : ∀ f n, countAux f n = (natLitAux f n).length := by
  intro f
  induction f with
  | zero => intro n; rfl
  | succ f ih =>
    intro n
    rw [countAux, natLitAux]
    split
    · rfl
    · rw [ih, List.length_append, List.length_singleton]

theorem count_eq (n : Nat) : count n = (natLit n).length := countAux_eq _ n

/-! ### Powers of ten -/

theorem t_pos (z : Int) : (0 : ℚ) < 10 ^ z := zpow_pos (by norm_num) z

theorem t_le {x y : Int} (h : x ≤ y) : (10 : ℚ) ^ x ≤ 10 ^ y := zpow_le_zpow_right₀ (by norm_num) h

theorem t_add (x y : Int) : (10 : ℚ) ^ (x + y) = 10 ^ x * 10 ^ y := zpow_add₀ (by norm_num) _ _

theorem t_succ (x : Int) : (10 : ℚ) ^ (x + 1) = 10 * 10 ^ x := by rw [t_add]; simp [mul_comm]

theorem t_nat (n : Nat) : (10 : ℚ) ^ (n : Int) = ((10 ^ n : Nat) : ℚ) := by push_cast; exact zpow_natCast _ _

/-! ### Neighbours -/

/-- The value of the double. -/
def val (k : Nat) : ℚ := (exact k : ℚ) * 10 ^ (-1074 : Int)

theorem val_units (k : Nat) : val k * 2 ^ 1074 = units k := exact_val k

theorem exact_pos {k : Nat} (h : 0 < k) : 0 < exact k := by
  unfold exact
  have : 0 < units k := by
    have := units_lt.2 h
    exact lt_of_le_of_lt (Nat.zero_le _) this
  exact Nat.mul_pos this (Nat.pow_pos (by omega))

theorem val_eq (k : Nat) : val k = (exact k : ℚ) * 10 ^ (-1074 : Int) := rfl

attribute [local irreducible] exact val

theorem fits_mono {k s s' : Nat} {p p' : Int} (h : roundPow 10 s p = k)
    (h1 : (s : ℚ) * 10 ^ p ≤ s' * 10 ^ p') (h2 : (s' : ℚ) * 10 ^ p' ≤ val k) : roundPow 10 s' p' = k := by
  refine le_antisymm ?_ ?_
  · have := roundPow_mono (m := s') (e := p') (m' := exact k) (e' := -1074) (by rw [← val_eq]; exact h2)
    rwa [roundPow_exact] at this
  · have := roundPow_mono h1
    rwa [h] at this

theorem fits_mono' {k s s' : Nat} {p p' : Int} (h : roundPow 10 s p = k)
    (h1 : (s' : ℚ) * 10 ^ p' ≤ s * 10 ^ p) (h2 : val k ≤ (s' : ℚ) * 10 ^ p') : roundPow 10 s' p' = k := by
  refine le_antisymm ?_ ?_
  · have := roundPow_mono h1
    rwa [h] at this
  · have := roundPow_mono (m := exact k) (e := -1074) (m' := s') (e' := p') (by rw [← val_eq]; exact h2)
    rwa [roundPow_exact] at this

/-- The greatest number of `len` digits that is at most the double. -/
structure Below (k len q : Nat) (p : Int) : Prop where
  lo : 10 ^ (len - 1) ≤ q
  hi : q < 10 ^ len
  le : (q : ℚ) * 10 ^ p ≤ val k
  lt : val k < ((q + 1 : Nat) : ℚ) * 10 ^ p

theorem below (k : Nat) (hk : 0 < k) (len : Nat) (h1 : 1 ≤ len) (h2 : len ≤ (natLit (exact k)).length) :
    Below k len (exact k / 10 ^ ((natLit (exact k)).length - len))
      (((natLit (exact k)).length - len : Nat) - 1074) := by
  obtain ⟨j, e1, e2, e3⟩ := natLit_len (exact k)
  have e3 := e3 (exact_pos hk)
  rw [e1] at h2 ⊢
  obtain ⟨d, hd⟩ : ∃ d, j + 1 = len + d := ⟨j + 1 - len, by omega⟩
  rw [show j + 1 - len = d by omega]
  have hp : 0 < 10 ^ d := Nat.pow_pos (by omega)
  obtain ⟨X, hX⟩ : ∃ X, exact k = X := ⟨_, rfl⟩
  have hv : val k = (X : ℚ) * 10 ^ (-1074 : Int) := by rw [val_eq, hX]
  rw [hX] at e2 e3 ⊢
  have hq1 : X / 10 ^ d * 10 ^ d ≤ X := Nat.div_mul_le_self _ _
  have hq2 : X < (X / 10 ^ d + 1) * 10 ^ d := (Nat.div_lt_iff_lt_mul hp).1 (Nat.lt_succ_self _)
  have hsplit : ∀ q : Nat, (q : ℚ) * 10 ^ ((d : Int) - 1074) = ((q * 10 ^ d : Nat) : ℚ) * 10 ^ (-1074 : Int) := by
    intro q
    rw [sub_eq_add_neg, t_add, t_nat]; push_cast; ring
  refine ⟨?_, ?_, ?_, ?_⟩
  · rw [Nat.le_div_iff_mul_le hp, ← pow_add, show len - 1 + d = j by omega]; exact e3
  · rw [Nat.div_lt_iff_lt_mul hp, ← pow_add, ← hd]; exact e2
  · rw [hsplit, hv]
    exact mul_le_mul_of_nonneg_right (by exact_mod_cast hq1) (t_pos _).le
  · rw [hsplit, hv]
    exact mul_lt_mul_of_pos_right (by exact_mod_cast hq2) (t_pos _)

/-- Numbers of at most as many digits are not nearer. -/
theorem Below.sides {k len q : Nat} {p : Int} (h : Below k len q p) (h1 : 1 ≤ len) {s : Nat} {p' : Int}
    (s1 : 10 ^ (len - 1) ≤ s) (s2 : s < 10 ^ len) :
    (s : ℚ) * 10 ^ p' ≤ q * 10 ^ p ∨ ((q + 1 : Nat) : ℚ) * 10 ^ p ≤ s * 10 ^ p' := by
  obtain ⟨l, rfl⟩ : ∃ l, len = l + 1 := ⟨len - 1, by omega⟩
  have a1 : (10 : ℚ) ^ (l : Int) ≤ s := by rw [t_nat]; exact_mod_cast s1
  have a2 : (s : ℚ) ≤ 10 ^ ((l : Int) + 1) := by
    rw [show (l : Int) + 1 = ((l + 1 : Nat) : Int) by omega, t_nat]; exact_mod_cast s2.le
  have b1 : (10 : ℚ) ^ (l : Int) ≤ q := by rw [t_nat]; exact_mod_cast h.lo
  have b2 : ((q + 1 : Nat) : ℚ) ≤ 10 ^ ((l : Int) + 1) := by
    rw [show (l : Int) + 1 = ((l + 1 : Nat) : Int) by omega, t_nat]
    exact_mod_cast h.hi
  rcases lt_trichotomy p' p with hp | rfl | hp
  · left
    calc (s : ℚ) * 10 ^ p' ≤ 10 ^ ((l : Int) + 1) * 10 ^ p' := mul_le_mul_of_nonneg_right a2 (t_pos _).le
      _ = 10 ^ ((l : Int) + 1 + p') := (t_add _ _).symm
      _ ≤ 10 ^ ((l : Int) + p) := t_le (by omega)
      _ = 10 ^ (l : Int) * 10 ^ p := t_add _ _
      _ ≤ q * 10 ^ p := mul_le_mul_of_nonneg_right b1 (t_pos _).le
  · rcases Nat.lt_or_ge q s with hs | hs
    · right
      exact mul_le_mul_of_nonneg_right (by exact_mod_cast hs) (t_pos _).le
    · left
      exact mul_le_mul_of_nonneg_right (by exact_mod_cast hs) (t_pos _).le
  · right
    calc ((q + 1 : Nat) : ℚ) * 10 ^ p ≤ 10 ^ ((l : Int) + 1) * 10 ^ p := mul_le_mul_of_nonneg_right b2 (t_pos _).le
      _ = 10 ^ ((l : Int) + 1 + p) := (t_add _ _).symm
      _ ≤ 10 ^ ((l : Int) + p') := t_le (by omega)
      _ = 10 ^ (l : Int) * 10 ^ p' := t_add _ _
      _ ≤ s * 10 ^ p' := mul_le_mul_of_nonneg_right a1 (t_pos _).le

/-- What `tryLen` returns. -/
structure Found (k len m : Nat) (p : Int) (q : Nat) : Prop where
  below : Below k len q p
  fits : roundPow 10 m p = k
  cases : m = q ∨ m = q + 1
  lower : m = q → roundPow 10 (q + 1) p = k →
    val k - q * 10 ^ p ≤ ((q + 1 : Nat) : ℚ) * 10 ^ p - val k ∧
    (val k - q * 10 ^ p = ((q + 1 : Nat) : ℚ) * 10 ^ p - val k → q % 2 = 0)
  upper : m = q + 1 → roundPow 10 q p = k →
    ((q + 1 : Nat) : ℚ) * 10 ^ p - val k ≤ val k - q * 10 ^ p ∧
    (val k - q * 10 ^ p = ((q + 1 : Nat) : ℚ) * 10 ^ p - val k → (q + 1) % 2 = 0)

theorem tryLen_found {k len m : Nat} {p : Int} (hk : 0 < k) (h1 : 1 ≤ len)
    (h2 : len ≤ (natLit (exact k)).length) (h : tryLen k len = some (m, p)) : ∃ q, Found k len m p q := by
  have hb := below k hk len h1 h2
  unfold tryLen at h
  rw [count_eq] at h
  simp only at h
  generalize (natLit (exact k)).length - len = d at hb h
  generalize hq : exact k / 10 ^ d = q at hb h
  have conv : ∀ n : Nat, (n : ℚ) * 10 ^ ((d : Int) - 1074) = ((n * 10 ^ d : Nat) : ℚ) * 10 ^ (-1074 : Int) := by
    intro n
    rw [sub_eq_add_neg, t_add, t_nat]; push_cast; ring
  have c1 : 2 * exact k < (2 * q + 1) * 10 ^ d ↔
      val k - q * 10 ^ ((d : Int) - 1074) < ((q + 1 : Nat) : ℚ) * 10 ^ ((d : Int) - 1074) - val k := by
    rw [conv, conv, val_eq]
    have t := t_pos (-1074)
    generalize (10 : ℚ) ^ (-1074 : Int) = T at t ⊢
    rw [show (exact k : ℚ) * T - ((q * 10 ^ d : Nat) : ℚ) * T = ((exact k : ℚ) - (q * 10 ^ d : Nat)) * T by ring,
      show (((q + 1) * 10 ^ d : Nat) : ℚ) * T - (exact k : ℚ) * T = ((((q + 1) * 10 ^ d : Nat) : ℚ) - exact k) * T by ring,
      mul_lt_mul_iff_left₀ t, sub_lt_iff_lt_add, sub_add_eq_add_sub, lt_sub_iff_add_lt,
      ← Nat.cast_add, ← Nat.cast_add, Nat.cast_lt, show (q + 1) * 10 ^ d = q * 10 ^ d + 10 ^ d by ring,
      show (2 * q + 1) * 10 ^ d = 2 * (q * 10 ^ d) + 10 ^ d by ring]
    omega
  have c2 : (2 * q + 1) * 10 ^ d < 2 * exact k ↔
      ((q + 1 : Nat) : ℚ) * 10 ^ ((d : Int) - 1074) - val k < val k - q * 10 ^ ((d : Int) - 1074) := by
    rw [conv, conv, val_eq]
    have t := t_pos (-1074)
    generalize (10 : ℚ) ^ (-1074 : Int) = T at t ⊢
    rw [show (exact k : ℚ) * T - ((q * 10 ^ d : Nat) : ℚ) * T = ((exact k : ℚ) - (q * 10 ^ d : Nat)) * T by ring,
      show (((q + 1) * 10 ^ d : Nat) : ℚ) * T - (exact k : ℚ) * T = ((((q + 1) * 10 ^ d : Nat) : ℚ) - exact k) * T by ring,
      mul_lt_mul_iff_left₀ t, sub_lt_iff_lt_add, sub_add_eq_add_sub, lt_sub_iff_add_lt,
      ← Nat.cast_add, ← Nat.cast_add, Nat.cast_lt, show (q + 1) * 10 ^ d = q * 10 ^ d + 10 ^ d by ring,
      show (2 * q + 1) * 10 ^ d = 2 * (q * 10 ^ d) + 10 ^ d by ring]
    omega
  refine ⟨q, ?_⟩
  split_ifs at h with r1 r2 l1 l2 ev r3 <;> (try rw [c1] at l1) <;> (try rw [c2] at l2) <;>
    simp only [Option.some.injEq, Prod.mk.injEq] at h <;>
    obtain ⟨rfl, rfl⟩ := h
  · exact ⟨hb, r1, .inl rfl, fun _ _ => ⟨l1.le, fun e => absurd e l1.ne⟩, fun e => by omega⟩
  · exact ⟨hb, r2, .inr rfl, fun e => by omega, fun _ _ => ⟨l2.le, fun e => absurd e.symm l2.ne⟩⟩
  · exact ⟨hb, r1, .inl rfl, fun _ _ => ⟨not_lt.1 l2, fun _ => ev⟩, fun e => by omega⟩
  · exact ⟨hb, r2, .inr rfl, fun e => by omega, fun _ _ => ⟨not_lt.1 l1, fun _ => by omega⟩⟩
  · exact ⟨hb, r1, .inl rfl, fun _ e => absurd e r2, fun e => by omega⟩
  · exact ⟨hb, r3, .inr rfl, fun e => by omega, fun _ e => absurd e r1⟩

theorem tryLen_complete {k len s : Nat} {p' : Int} (hk : 0 < k) (h1 : 1 ≤ len)
    (h2 : len ≤ (natLit (exact k)).length) (s1 : 10 ^ (len - 1) ≤ s) (s2 : s < 10 ^ len)
    (hf : roundPow 10 s p' = k) : ∃ r, tryLen k len = some r := by
  have hb := below k hk len h1 h2
  unfold tryLen
  rw [count_eq]
  simp only
  generalize (natLit (exact k)).length - len = d at hb ⊢
  generalize hq : exact k / 10 ^ d = q at hb ⊢
  rcases hb.sides h1 (p' := p') s1 s2 with hs | hs
  · have := fits_mono hf hs hb.le
    rw [if_pos this]
    split_ifs <;> exact ⟨_, rfl⟩
  · have := fits_mono' hf hs hb.lt.le
    rw [if_pos this, if_pos this]
    split_ifs <;> exact ⟨_, rfl⟩

theorem tryLen_all {k : Nat} (hk : 0 < k) : ∃ r, tryLen k (natLit (exact k)).length = some r := by
  obtain ⟨j, e1, e2, e3⟩ := natLit_len (exact k)
  refine tryLen_complete (s := exact k) (p' := -1074) hk (by omega) le_rfl ?_ ?_ (roundPow_exact k)
  · rw [e1]; exact e3 (exact_pos hk)
  · rw [e1]; exact e2

theorem search_first {α} (f : Nat → Option α) (x : α) : ∀ n i D, i + n = D + 1 → i ≤ D → (∃ r, f D = some r) →
    ∃ j, i ≤ j ∧ j ≤ D ∧ f j = some (search f x n i) ∧ ∀ l, i ≤ l → l < j → f l = none := by
  intro n
  induction n with
  | zero => intro i D h h' _; omega
  | succ n ih =>
    intro i D h h2 hall
    rw [search]
    cases ht : f i with
    | some r => exact ⟨i, le_rfl, h2, ht, fun l h3 h4 => by omega⟩
    | none =>
      have hne : i ≠ D := by
        intro e
        obtain ⟨r, hr⟩ := hall
        rw [← e, ht] at hr
        simp at hr
      obtain ⟨j, a, b, c, d⟩ := ih (i + 1) D (by omega) (by omega) hall
      refine ⟨j, by omega, b, c, fun l h3 h4 => ?_⟩
      rcases Nat.eq_or_lt_of_le h3 with rfl | h5
      · exact ht
      · exact d l h5 h4

theorem strip_spec : ∀ n m p, 0 < m → m ≤ n → ∃ j : Nat, m = (strip n (m, p)).1 * 10 ^ j ∧
    (strip n (m, p)).2 = p + (j : Int) ∧ (strip n (m, p)).1 % 10 ≠ 0 := by
  intro n
  induction n with
  | zero => intro m p h h'; omega
  | succ n ih =>
    intro m p h h'
    rw [strip]
    split
    · next h10 =>
      obtain ⟨j, a, b, c⟩ := ih (m / 10) (p + 1) (by omega) (by omega)
      refine ⟨j + 1, ?_, by rw [b]; push_cast; ring, c⟩
      rw [pow_succ, ← Nat.mul_assoc, ← a]; omega
    · next h10 => exact ⟨0, by simp, by simp, h10⟩

/-- What the shortest digits are. -/
structure Shortest (k s : Nat) (p : Int) : Prop where
  pos : 0 < s
  odd10 : s % 10 ≠ 0
  fits : roundPow 10 s p = k
  least : ∀ s' p' l, 1 ≤ l → 10 ^ (l - 1) ≤ s' → s' < 10 ^ l → roundPow 10 s' p' = k → (natLit s).length ≤ l
  near : ∀ s' p', (natLit s').length = (natLit s).length → 0 < s' → roundPow 10 s' p' = k →
    |(s : ℚ) * 10 ^ p - val k| ≤ |(s' : ℚ) * 10 ^ p' - val k|
  even : ∀ s', (natLit s').length = (natLit s).length → 0 < s' → roundPow 10 s' p = k → s' ≠ s →
    |(s : ℚ) * 10 ^ p - val k| = |(s' : ℚ) * 10 ^ p - val k| → s % 2 = 0

theorem Found.near {k len m q : Nat} {p : Int} (h : Found k len m p q) (h1 : 1 ≤ len) {s : Nat} {p' : Int}
    (s1 : 10 ^ (len - 1) ≤ s) (s2 : s < 10 ^ len) (hf : roundPow 10 s p' = k) :
    |(m : ℚ) * 10 ^ p - val k| ≤ |(s : ℚ) * 10 ^ p' - val k| ∧
    (|(m : ℚ) * 10 ^ p - val k| = |(s : ℚ) * 10 ^ p' - val k| → (s : ℚ) * 10 ^ p' ≠ m * 10 ^ p → m % 2 = 0) := by
  have lo := h.below.le
  have hi := h.below.lt
  have dq : |(q : ℚ) * 10 ^ p - val k| = val k - q * 10 ^ p := by
    rw [abs_sub_comm]; exact abs_of_nonneg (by linarith)
  have dq1 : |((q + 1 : Nat) : ℚ) * 10 ^ p - val k| = ((q + 1 : Nat) : ℚ) * 10 ^ p - val k :=
    abs_of_nonneg (by linarith)
  rcases h.below.sides h1 (p' := p') s1 s2 with hs | hs
  · have hfq := fits_mono hf hs lo
    have ds : |(s : ℚ) * 10 ^ p' - val k| = val k - s * 10 ^ p' := by
      rw [abs_sub_comm]; exact abs_of_nonneg (by linarith)
    rw [ds]
    rcases h.cases with e | e
    · subst e
      rw [dq]
      exact ⟨by linarith, fun e hne => absurd (by linarith) hne⟩
    · obtain ⟨u1, u2⟩ := h.upper e hfq
      rw [e, dq1]
      refine ⟨by linarith, fun e hne => u2 ?_⟩
      linarith
  · have hfq := fits_mono' hf hs hi.le
    have ds : |(s : ℚ) * 10 ^ p' - val k| = s * 10 ^ p' - val k := abs_of_nonneg (by linarith)
    rw [ds]
    rcases h.cases with e | e
    · obtain ⟨u1, u2⟩ := h.lower e hfq
      subst e
      rw [dq]
      refine ⟨by linarith, fun e hne => u2 ?_⟩
      linarith
    · rw [e, dq1]
      exact ⟨by linarith, fun e hne => absurd (by linarith) hne⟩

theorem shortest_spec {k : Nat} (hk : 0 < k) : Shortest k (shortest k).1 (shortest k).2 := by
  obtain ⟨j0, e1, _, _⟩ := natLit_len (exact k)
  obtain ⟨len, a, b, c, d⟩ := search_first (tryLen k) (exact k, -1074) (natLit (exact k)).length 1
    (natLit (exact k)).length (by omega) (by omega) (tryLen_all hk)
  have hsh : shortest k = strip (search (tryLen k) (exact k, -1074) (natLit (exact k)).length 1).1
      (search (tryLen k) (exact k, -1074) (natLit (exact k)).length 1) := by rw [shortest, count_eq]
  rw [hsh]
  generalize search (tryLen k) (exact k, -1074) (natLit (exact k)).length 1 = r at c ⊢
  obtain ⟨m, p⟩ := r
  obtain ⟨q, hf⟩ := tryLen_found hk a b c
  have none_of : ∀ l s' p', 1 ≤ l → l < len → 10 ^ (l - 1) ≤ s' → s' < 10 ^ l → roundPow 10 s' p' ≠ k := by
    intro l s' p' h1 h2 h3 h4 h5
    obtain ⟨r, hr⟩ := tryLen_complete hk h1 (by omega) h3 h4 h5
    rw [d l h1 h2] at hr
    simp at hr
  have mpos : 0 < m := by
    have := hf.below.lo
    have h0 : 0 < 10 ^ (len - 1) := Nat.pow_pos (by omega)
    rcases hf.cases with e | e <;> omega
  obtain ⟨j, s1, s2, s3⟩ := strip_spec m m p mpos le_rfl
  simp only
  generalize hs : (strip m (m, p)).1 = s at *
  generalize hp' : (strip m (m, p)).2 = p' at *
  have spos : 0 < s := by rcases Nat.eq_zero_or_pos s with h | h; · subst h; omega
                          · exact h
  have veq : (s : ℚ) * 10 ^ p' = m * 10 ^ p := by
    rw [s2, s1, t_add, t_nat]; push_cast; ring
  have fits : roundPow 10 s p' = k := by rw [roundPow_congr veq]; exact hf.fits
  obtain ⟨i, i1, i2, i3⟩ := natLit_len s
  have i3 := i3 spos
  have ilen : len ≤ i + 1 := by
    by_contra hc
    exact none_of (i + 1) s p' (by omega) (by omega) (by simpa using i3) i2 fits
  have least : ∀ s' p' l, 1 ≤ l → 10 ^ (l - 1) ≤ s' → s' < 10 ^ l → roundPow 10 s' p' = k → len ≤ l := by
    intro s' p' l h1 h2 h3 h4
    by_contra hc
    exact none_of l s' p' h1 (by omega) h2 h3 h4
  -- either nothing was stripped, or 10 became 1
  have hm : m ≤ 10 ^ len := by
    have := hf.below.hi
    rcases hf.cases with e | e <;> omega
  have two : j = 0 ∨ (len = 1 ∧ s = 1 ∧ j = 1 ∧ q = 9) := by
    rcases Nat.eq_zero_or_pos j with h | h
    · exact .inl h
    right
    have h2 : 10 ^ (i + j) ≤ 10 ^ len := by
      calc 10 ^ (i + j) = 10 ^ i * 10 ^ j := pow_add _ _ _
        _ ≤ s * 10 ^ j := Nat.mul_le_mul_right _ i3
        _ = m := s1.symm
        _ ≤ 10 ^ len := hm
    have h3 : i + j ≤ len := (Nat.pow_le_pow_iff_right (by omega : 1 < 10)).1 h2
    have j1 : j = 1 := by omega
    have il : len = i + 1 := by omega
    have h4 : 10 ^ len ≤ m := by
      rw [il, s1, j1, pow_succ]
      exact Nat.mul_le_mul_right _ i3
    have h5 : m = 10 ^ len := le_antisymm hm h4
    have h6 : s = 10 ^ i := by
      rw [h5, il, j1, pow_succ] at s1
      omega
    have h7 : i = 0 := by
      by_contra hc
      obtain ⟨i', rfl⟩ : ∃ i', i = i' + 1 := ⟨i - 1, by omega⟩
      rw [h6, pow_succ] at s3
      omega
    subst h7
    have := hf.below.hi
    refine ⟨il, by simpa using h6, j1, ?_⟩
    rw [il] at h5 this
    rcases hf.cases with e | e <;> omega
  have slen : (natLit s).length = len := by
    rcases two with rfl | ⟨rfl, rfl, _⟩
    · have hsm : s = m := by simpa using s1.symm
      rw [i1]
      by_contra hne
      -- then m = 10 ^ len
      have h1 : 10 ^ len ≤ s := (Nat.pow_le_pow_right (by omega) (by omega)).trans i3
      have h2 : s = 10 ^ len := le_antisymm (hsm ▸ hm) h1
      obtain ⟨l', rfl⟩ : ∃ l', len = l' + 1 := ⟨len - 1, by omega⟩
      rw [h2, pow_succ] at s3
      omega
    · rfl
  refine ⟨spos, s3, fits, ?_, ?_, ?_⟩
  · rw [slen]; exact least
  · intro t u h1 h2 h3
    rw [slen] at h1
    obtain ⟨l, l1, l2, l3⟩ := natLit_len t
    rw [veq]
    have hl : len = l + 1 := by omega
    exact (hf.near a (by rw [hl]; exact l3 h2) (by rw [hl]; exact l2) h3).1
  · intro t h1 h2 h3 h4 h5
    rw [slen] at h1
    obtain ⟨l, l1, l2, l3⟩ := natLit_len t
    have hl : len = l + 1 := by omega
    rcases two with rfl | ⟨rfl, rfl, rfl, rfl⟩
    · have hsm : s = m := by simpa using s1.symm
      have hpp : p' = p := by simpa using s2
      subst hsm; subst hpp
      refine (hf.near a (by rw [hl]; exact l3 h2) (by rw [hl]; exact l2) h3).2 h5 ?_
      intro e
      have := mul_right_cancel₀ (t_pos p').ne' e
      exact h4 (by exact_mod_cast this)
    · exfalso
      have lo := hf.below.le
      have hi := hf.below.lt
      have hpp : p' = p + 1 := by simpa using s2
      have Tp := t_pos p
      rw [hpp, t_succ] at h5
      generalize (10 : ℚ) ^ p = T at *
      have t2 : (2 : ℚ) ≤ t := by
        have : 2 ≤ t := by omega
        exact_mod_cast this
      have t3 : 2 * (10 * T) ≤ t * (10 * T) := mul_le_mul_of_nonneg_right t2 (mul_pos (by norm_num) Tp).le
      push_cast at h5 lo hi
      rw [abs_of_nonneg (by linarith), abs_of_nonneg (by linarith)] at h5
      linarith

end Stix.Strconv
