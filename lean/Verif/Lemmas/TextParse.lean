import Verif.Lemmas.TextStr
import Verif.Lemmas.CanonParse

/-!
# Lemmas about JSON texts: the scanner accepts exactly the JSON documents
-/

namespace Stix.Text
open Stix Stix.Spec.Canon Stix.Spec.Text
open Stix.Canon (isWS skipWS tails intercalate_cons isWS_iff skipWS_white)

/-! ### Numbers -/

/-- A number ends before `r`. -/
def Stop (r : Str) : Prop := ∀ c, r.head? = some c → c ∉ (b!"0123456789+-.eE")

theorem isDigit_mem {c : UInt8} (h : IsDigit c) : c ∈ (b!"0123456789+-.eE") ∧ c ≠ 46 ∧ c ≠ 101 ∧
    c ≠ 69 ∧ c ≠ 45 ∧ c ≠ 43 := by
  obtain ⟨h1, h2⟩ := h
  rw [UInt8.le_iff_toNat_le] at h1 h2
  have hc : c = UInt8.ofNat c.toNat := by simp
  simp at h1 h2
  generalize c.toNat = n at *
  subst hc
  interval_cases n <;> decide

theorem digits_append {ds r : Str} (h : ∀ c ∈ ds, IsDigit c)
    (hr : ∀ c, r.head? = some c → ¬ IsDigit c) : digits (ds ++ r) = (ds, r) := by
  induction ds with
  | nil =>
    cases r with
    | nil => rfl
    | cons c r =>
      have := hr c rfl
      simp only [List.nil_append, digits]
      exact if_neg this
  | cons c ds ih =>
    have hc := h c List.mem_cons_self
    simp only [List.cons_append, digits, ih fun c hc => h c (List.mem_cons_of_mem _ hc)]
    exact if_pos hc

theorem digits_spec (s : Str) : (∀ c ∈ (digits s).1, IsDigit c) ∧ s = (digits s).1 ++ (digits s).2 := by
  induction s with
  | nil => simp [digits]
  | cons c s ih =>
    unfold digits
    split
    · rename_i h
      refine ⟨?_, ?_⟩
      · intro x hx
        rcases List.mem_cons.1 hx with rfl | hx
        · exact h
        · exact ih.1 x hx
      · show c :: s = c :: ((digits s).1 ++ (digits s).2)
        rw [← ih.2]
    · simp

theorem intPart_append {i r : Str} (h : IntPart i) (hr : ∀ c, r.head? = some c → ¬ IsDigit c) :
    intPart (i ++ r) = some (i, r) := by
  rcases h with rfl | ⟨⟨h1, h2⟩, h3⟩
  · rfl
  · cases i with
    | nil => exact absurd rfl h1
    | cons c i =>
      unfold intPart
      split
      · rename_i e; cases e; exact absurd rfl h3
      · rw [digits_append h2 hr]; simp

theorem fracPart_append {f r : Str} (h : FracPart f) (hr : ∀ c, r.head? = some c → ¬ IsDigit c)
    (hp : r.head? ≠ some 46) : fracPart (f ++ r) = some (f, r) := by
  rcases h with rfl | ⟨ds, rfl, h1, h2⟩
  · unfold fracPart
    split
    · rename_i e; simp at e; rw [e] at hp; exact absurd rfl hp
    · rfl
  · show fracPart (46 :: (ds ++ r)) = _
    unfold fracPart
    simp only [digits_append h2 hr]
    rw [if_neg h1]

theorem expDigits_append {sgn ds r : Str} (h : sgn = [] ∨ sgn = b!"+" ∨ sgn = b!"-") (hd : Digits ds)
    (hr : ∀ c, r.head? = some c → ¬ IsDigit c) :
    expDigits (sgn ++ ds ++ r) = some (sgn ++ ds, r) := by
  obtain ⟨h1, h2⟩ := hd
  have key : expSign (sgn ++ ds ++ r) = (sgn, ds ++ r) := by
    unfold expSign
    rcases h with rfl | rfl | rfl
    · cases ds with
      | nil => exact absurd rfl h1
      | cons c ds =>
        have := isDigit_mem (h2 c List.mem_cons_self)
        split
        · rename_i e; cases e; exact absurd rfl this.2.2.2.2.2
        · rename_i e; cases e; exact absurd rfl this.2.2.2.2.1
        · rfl
    · rfl
    · rfl
  unfold expDigits
  dsimp only
  rw [key]
  dsimp only
  rw [digits_append h2 hr]
  simp [h1]

theorem expPart_append {e r : Str} (h : ExpPart e) (hr : Stop r) :
    expPart (e ++ r) = some (e, r) := by
  have hd : ∀ c, r.head? = some c → ¬ IsDigit c := fun c hc h => hr c hc (isDigit_mem h).1
  rcases h with rfl | ⟨x, sgn, ds, rfl, hx, hs, hds⟩
  · unfold expPart
    split
    · rename_i e; simp at e; subst e; exact absurd (by decide) (hr _ rfl)
    · rename_i e; simp at e; subst e; exact absurd (by decide) (hr _ rfl)
    · rfl
  · have he := expDigits_append hs hds hd
    rcases hx with rfl | rfl
    · show (expDigits (sgn ++ ds ++ r)).map _ = _
      rw [he]; rfl
    · show (expDigits (sgn ++ ds ++ r)).map _ = _
      rw [he]; rfl

theorem expPart_head {e r : Str} (h : ExpPart e) (hr : Stop r) :
    (∀ c, (e ++ r).head? = some c → ¬ IsDigit c) ∧ (e ++ r).head? ≠ some 46 := by
  rcases h with rfl | ⟨x, sgn, ds, rfl, hx, hs, hds⟩
  · exact ⟨fun c hc h => hr c hc (isDigit_mem h).1, fun hc => hr _ hc (by decide)⟩
  · simp only [List.cons_append, List.head?_cons, Option.some.injEq]
    rcases hx with rfl | rfl
    · exact ⟨by rintro c rfl; decide, by decide⟩
    · exact ⟨by rintro c rfl; decide, by decide⟩

theorem unsigned_append {i f e r : Str} (hi : IntPart i) (hf : FracPart f) (he : ExpPart e)
    (hr : Stop r) : unsigned (i ++ f ++ e ++ r) = some (i ++ f ++ e, r) := by
  obtain ⟨h1, h2⟩ := expPart_head he hr
  have h3 : ∀ c, (f ++ (e ++ r)).head? = some c → ¬ IsDigit c := by
    rcases hf with rfl | ⟨ds, rfl, hd⟩
    · exact h1
    · intro c hc; cases hc; decide
  unfold unsigned
  rw [List.append_assoc, List.append_assoc, intPart_append hi h3]
  simp only [Option.bind_some, fracPart_append hf h1 h2, expPart_append he hr, Option.map_some,
    List.append_assoc]

theorem intPart_head {i : Str} (h : IntPart i) : ∃ c t, i = c :: t ∧ IsDigit c := by
  rcases h with rfl | ⟨⟨h1, h2⟩, h3⟩
  · exact ⟨48, [], rfl, by decide⟩
  · cases i with
    | nil => exact absurd rfl h1
    | cons c i => exact ⟨c, i, rfl, h2 c List.mem_cons_self⟩

theorem number_append {t r : Str} (h : Number t) (hr : Stop r) : number (t ++ r) = some (t, r) := by
  obtain ⟨sgn, i, f, e, rfl, hs, hi, hf, he⟩ := h
  rcases hs with rfl | rfl
  · obtain ⟨c, t, rfl, hc⟩ := intPart_head hi
    have := isDigit_mem hc
    unfold number
    split
    · rename_i e; cases e; exact absurd rfl this.2.2.2.2.1
    · exact unsigned_append hi hf he hr
  · show (unsigned (i ++ f ++ e ++ r)).map _ = _
    rw [unsigned_append hi hf he hr]; rfl

theorem intPart_some {s t r : Str} (h : intPart s = some (t, r)) : IntPart t ∧ s = t ++ r := by
  unfold intPart at h
  split at h
  · cases h; exact ⟨.inl rfl, rfl⟩
  · rename_i hne
    split at h
    · cases h
    · rename_i h1
      have := digits_spec s
      have e : digits s = (t, r) := Option.some.inj h
      rw [e] at this h1
      refine ⟨.inr ⟨⟨h1, this.1⟩, ?_⟩, this.2⟩
      intro hh
      obtain ⟨x, rfl⟩ : ∃ x, t = 48 :: x := by
        cases t with
        | nil => cases hh
        | cons c x => cases hh; exact ⟨x, rfl⟩
      exact hne _ this.2

theorem fracPart_some {s t r : Str} (h : fracPart s = some (t, r)) : FracPart t ∧ s = t ++ r := by
  unfold fracPart at h
  split at h
  · rename_i r0
    split at h
    · cases h
    · rename_i h1
      have := digits_spec r0
      cases h
      exact ⟨.inr ⟨_, rfl, h1, this.1⟩, by rw [List.cons_append, ← this.2]⟩
  · cases h; exact ⟨.inl rfl, rfl⟩

theorem expDigits_some {s t r : Str} (h : expDigits s = some (t, r)) :
    ∃ sgn ds, t = sgn ++ ds ∧ (sgn = [] ∨ sgn = b!"+" ∨ sgn = b!"-") ∧ Digits ds ∧ s = t ++ r := by
  unfold expDigits at h
  dsimp only at h
  generalize hp : expSign s = p at h
  have hs : s = p.1 ++ p.2 ∧ (p.1 = [] ∨ p.1 = b!"+" ∨ p.1 = b!"-") := by
    subst hp
    unfold expSign
    split <;> simp
  split at h
  · cases h
  · rename_i h1
    have := digits_spec p.2
    cases h
    exact ⟨_, _, rfl, hs.2, ⟨h1, this.1⟩, by rw [List.append_assoc, ← this.2]; exact hs.1⟩

theorem expPart_some {s t r : Str} (h : expPart s = some (t, r)) : ExpPart t ∧ s = t ++ r := by
  unfold expPart at h
  split at h
  · obtain ⟨⟨t', r'⟩, h1, h2⟩ := Option.map_eq_some_iff.1 h
    cases h2
    obtain ⟨sgn, ds, rfl, h3, h4, h5⟩ := expDigits_some h1
    exact ⟨.inr ⟨_, sgn, ds, rfl, .inl rfl, h3, h4⟩, by rw [h5]; rfl⟩
  · obtain ⟨⟨t', r'⟩, h1, h2⟩ := Option.map_eq_some_iff.1 h
    cases h2
    obtain ⟨sgn, ds, rfl, h3, h4, h5⟩ := expDigits_some h1
    exact ⟨.inr ⟨_, sgn, ds, rfl, .inr rfl, h3, h4⟩, by rw [h5]; rfl⟩
  · cases h; exact ⟨.inl rfl, rfl⟩

theorem unsigned_some {s t r : Str} (h : unsigned s = some (t, r)) :
    ∃ i f e, t = i ++ f ++ e ∧ IntPart i ∧ FracPart f ∧ ExpPart e ∧ s = t ++ r := by
  unfold unsigned at h
  obtain ⟨⟨i, r1⟩, h1, h⟩ := Option.bind_eq_some_iff.1 h
  obtain ⟨⟨f, r2⟩, h2, h⟩ := Option.bind_eq_some_iff.1 h
  obtain ⟨⟨e, r3⟩, h3, h⟩ := Option.map_eq_some_iff.1 h
  cases h
  obtain ⟨a1, a2⟩ := intPart_some h1
  obtain ⟨b1, b2⟩ := fracPart_some h2
  obtain ⟨c1, c2⟩ := expPart_some h3
  refine ⟨i, f, e, rfl, a1, b1, c1, ?_⟩
  dsimp only at a2 b2 c2 ⊢
  rw [a2, b2, c2]; simp

theorem number_some {s t r : Str} (h : number s = some (t, r)) : Number t ∧ s = t ++ r := by
  unfold number at h
  split at h
  · obtain ⟨⟨t', r'⟩, h1, h2⟩ := Option.map_eq_some_iff.1 h
    cases h2
    obtain ⟨i, f, e, rfl, a, b, c, d⟩ := unsigned_some h1
    exact ⟨⟨_, i, f, e, rfl, .inr rfl, a, b, c⟩, by rw [d]; rfl⟩
  · obtain ⟨i, f, e, rfl, a, b, c, d⟩ := unsigned_some h
    exact ⟨⟨[], i, f, e, rfl, .inl rfl, a, b, c⟩, d⟩

/-! ### Literals -/

theorem after_append (p s : Str) : after p (p ++ s) = some s := by
  induction p with
  | nil => cases s <;> rfl
  | cons c p ih => simp [after, ih]

theorem after_some {p s r : Str} (h : after p s = some r) : s = p ++ r := by
  induction p generalizing s with
  | nil => cases s <;> (simp [after] at h; simp [h])
  | cons c p ih =>
    cases s with
    | nil => simp [after] at h
    | cons d s =>
      simp only [after] at h
      split at h
      · rename_i e; rw [e, ih h]; rfl
      · cases h

/-- First byte of a number. -/
theorem number_head {t : Str} (h : Number t) : ∃ c r, t = c :: r ∧ (c = 45 ∨ IsDigit c) := by
  obtain ⟨sgn, i, f, e, rfl, hs, hi, hf, he⟩ := h
  rcases hs with rfl | rfl
  · obtain ⟨c, t, rfl, hc⟩ := intPart_head hi
    exact ⟨c, _, rfl, .inr hc⟩
  · exact ⟨45, _, rfl, .inl rfl⟩

theorem numHead_ne {c : UInt8} (h : c = 45 ∨ IsDigit c) : isWS c = false ∧ c ≠ 34 ∧ c ≠ 91 ∧ c ≠ 93 ∧
    c ≠ 123 ∧ c ≠ 125 ∧ c ≠ 44 ∧ c ≠ 116 ∧ c ≠ 102 ∧ c ≠ 110 := by
  rcases h with rfl | ⟨h1, h2⟩
  · decide
  · rw [UInt8.le_iff_toNat_le] at h1 h2
    have hc : c = UInt8.ofNat c.toNat := by simp
    simp at h1 h2
    generalize c.toNat = n at *
    subst hc
    interval_cases n <;> decide

/-- A value starts with something that is neither white nor a closing bracket or comma. -/
theorem text_head {s : Syn} (h : Valid s) : ∃ c r, s.text = c :: r ∧ isWS c = false ∧
    c ≠ 93 ∧ c ≠ 125 ∧ c ≠ 44 := by
  cases s with
  | lit t => rcases h with rfl | rfl | rfl <;> exact ⟨_, _, rfl, by decide⟩
  | num t =>
    obtain ⟨c, r, rfl, hc⟩ := number_head h
    have := numHead_ne hc
    exact ⟨c, r, rfl, this.1, this.2.2.2.1, this.2.2.2.2.2.1, this.2.2.2.2.2.2.1⟩
  | str body dec => exact ⟨34, _, rfl, by decide⟩
  | arr w es => exact ⟨91, _, rfl, by decide⟩
  | obj w ms => exact ⟨123, _, rfl, by decide⟩

theorem simple_lit {t r : Str} (h : t = b!"true" ∨ t = b!"false" ∨ t = b!"null") :
    simple (t ++ r) = some (tree (.lit t), r) := by
  rcases h with rfl | rfl | rfl
  · rfl
  · rfl
  · rfl

theorem simple_num {t r : Str} (h : Number t) (hr : Stop r) :
    simple (t ++ r) = some (.num t, r) := by
  obtain ⟨c, x, rfl, hc⟩ := number_head h
  have hn := numHead_ne hc
  unfold simple
  split
  · rename_i e; cases e; exact absurd rfl hn.2.2.2.2.2.2.2.1
  · rename_i e; cases e; exact absurd rfl hn.2.2.2.2.2.2.2.2.1
  · rename_i e; cases e; exact absurd rfl hn.2.2.2.2.2.2.2.2.2
  · rw [number_append h hr]; rfl

theorem simple_some {s r : Str} {j : Json} (h : simple s = some (j, r)) :
    ∃ y : Syn, Valid y ∧ depth y = 0 ∧ j = tree y ∧ s = y.text ++ r := by
  unfold simple at h
  split at h
  · obtain ⟨r', h1, h2⟩ := Option.map_eq_some_iff.1 h
    cases h2
    exact ⟨.lit (b!"true"), .inl rfl, rfl, rfl, after_some h1⟩
  · obtain ⟨r', h1, h2⟩ := Option.map_eq_some_iff.1 h
    cases h2
    exact ⟨.lit (b!"false"), .inr (.inl rfl), rfl, rfl, after_some h1⟩
  · obtain ⟨r', h1, h2⟩ := Option.map_eq_some_iff.1 h
    cases h2
    exact ⟨.lit (b!"null"), .inr (.inr rfl), rfl, rfl, after_some h1⟩
  · obtain ⟨⟨t, r'⟩, h1, h2⟩ := Option.map_eq_some_iff.1 h
    cases h2
    obtain ⟨h3, h4⟩ := number_some h1
    exact ⟨.num t, h3, rfl, rfl, h4⟩

/-! ### White space -/

theorem skipWS_cons {c : UInt8} (h : isWS c = false) (r : Str) : skipWS (c :: r) = c :: r := by
  simp [skipWS, h]

theorem skipWS_split (s : Str) : ∃ w, White w ∧ s = w ++ skipWS s := by
  induction s with
  | nil => exact ⟨[], by simp [White], rfl⟩
  | cons c s ih =>
    unfold skipWS
    split
    · rename_i h
      obtain ⟨w, h1, h2⟩ := ih
      refine ⟨c :: w, ?_, by rw [List.cons_append, ← h2]⟩
      intro x hx
      rcases List.mem_cons.1 hx with rfl | hx
      · exact (isWS_iff x).1 h
      · exact h1 x hx
    · exact ⟨[], by simp [White], rfl⟩

theorem skipWS_some {s r : Str} {c : UInt8} (h : skipWS s = c :: r) :
    ∃ w, White w ∧ s = w ++ c :: r := by
  obtain ⟨w, h1, h2⟩ := skipWS_split s
  exact ⟨w, h1, by rw [← h]; exact h2⟩

theorem white_nil : White [] := by simp [White]

theorem skipWS_text {w rest : Str} {s : Syn} (hw : White w) (hs : Valid s) :
    skipWS (w ++ s.text ++ rest) = s.text ++ rest := by
  obtain ⟨c, r, he, h1, _⟩ := text_head hs
  rw [List.append_assoc, skipWS_white hw, he, List.cons_append, skipWS_cons h1]

theorem stop_cons {c : UInt8} {r : Str} (h : c = 44 ∨ c = 93 ∨ c = 125) : Stop (c :: r) := by
  intro x hx
  cases hx
  rcases h with rfl | rfl | rfl <;> decide

theorem stop_white {w r : Str} (hw : White w) (hr : Stop r) : Stop (w ++ r) := by
  cases w with
  | nil => exact hr
  | cons c w =>
    intro x hx
    cases hx
    have := hw c List.mem_cons_self
    simp only [List.mem_cons, List.not_mem_nil, or_false] at this
    rcases this with rfl | rfl | rfl | rfl <;> decide

theorem stop_tails (l : List Str) {c : UInt8} {r : Str} (h : c = 93 ∨ c = 125) :
    Stop (tails l ++ c :: r) := by
  cases l with
  | nil => exact stop_cons (.inr h)
  | cons x xs => exact stop_cons (.inl rfl)

/-! ### Values -/

mutual
theorem value_syn : ∀ (s : Syn) (n d : Nat) (w rest : Str), Valid s → depth s ≤ d → White w →
    ((∃ t, s = .num t) → Stop rest) → 2 * (w ++ s.text ++ rest).length < n →
    value n d (w ++ s.text ++ rest) = some (tree s, rest)
  | .lit t, n, d, w, rest, hs, hd, hw, hr, hn => by
    cases n with
    | zero => omega
    | succ n =>
      obtain ⟨c, r, he, h1⟩ := text_head hs
      have hc : c ≠ 34 ∧ c ≠ 91 ∧ c ≠ 123 := by
        simp only [Syn.text] at he
        rcases hs with rfl | rfl | rfl <;> cases he <;> decide
      unfold value
      rw [skipWS_text hw hs, he, List.cons_append]
      dsimp only
      rw [if_neg hc.1, if_neg hc.2.1, if_neg hc.2.2, ← List.cons_append, ← he]
      exact simple_lit hs
  | .num t, n, d, w, rest, hs, hd, hw, hr, hn => by
    cases n with
    | zero => omega
    | succ n =>
      obtain ⟨c, r, rfl, h1⟩ := number_head hs
      have hc := numHead_ne h1
      unfold value
      rw [skipWS_text hw hs]
      simp only [Syn.text, List.cons_append]
      rw [if_neg hc.2.1, if_neg hc.2.2.1, if_neg hc.2.2.2.2.1, ← List.cons_append]
      exact simple_num hs (hr ⟨_, rfl⟩)
  | .str body dec, n, d, w, rest, hs, hd, hw, hr, hn => by
    cases n with
    | zero => omega
    | succ n =>
      have e : Syn.text (.str body dec) ++ rest = 34 :: (body ++ 34 :: rest) := by simp [Syn.text]
      unfold value
      rw [skipWS_text hw hs, e]
      dsimp only
      rw [if_pos rfl, strBody_reads hs]
      simp only [Option.map_some, unquote_reads hs, tree]
  | .arr v es, n, d, w, rest, hs, hd, hw, hr, hn => by
    cases n with
    | zero => omega
    | succ n =>
      have e : Syn.text (.arr v es) ++ rest
          = 91 :: (v ++ (b!",").intercalate es.texts ++ 93 :: rest) := by simp [Syn.text]
      have hlen : 2 * (v ++ (b!",").intercalate es.texts ++ 93 :: rest).length + 1 < n := by
        rw [List.append_assoc, e] at hn; simp only [List.length_append, List.length_cons] at hn ⊢; omega
      simp only [depth] at hd
      unfold value
      rw [skipWS_text hw hs, e]
      dsimp only
      rw [if_neg (by decide), if_pos rfl, if_neg (by omega)]
      cases es with
      | nil =>
        have : skipWS (v ++ (b!",").intercalate Elems.nil.texts ++ 93 :: rest) = 93 :: rest := by
          simp only [Elems.texts, List.intercalate_nil, List.append_nil]
          rw [skipWS_white hs.1, skipWS_cons (by decide)]
        rw [this]; rfl
      | cons w₁ x w₂ r =>
        obtain ⟨c, t, he, h1, h2, h3⟩ := text_head hs.2.2.1
        have : skipWS (v ++ (b!",").intercalate (Elems.cons w₁ x w₂ r).texts ++ 93 :: rest)
            = c :: (t ++ (w₂ ++ (tails r.texts ++ 93 :: rest))) := by
          simp only [Elems.texts, intercalate_cons, List.append_assoc]
          rw [skipWS_white hs.1, skipWS_white hs.2.1, he, List.cons_append, skipWS_cons h1]
        rw [this]
        have hel := elements_syn (.cons w₁ x w₂ r) n (d - 1) v rest (by simp) hs.2
          (by omega) hs.1 hlen
        split
        · rename_i e'; cases e'; exact absurd rfl h2
        · rw [hel]; rfl
  | .obj v ms, n, d, w, rest, hs, hd, hw, hr, hn => by
    cases n with
    | zero => omega
    | succ n =>
      have e : Syn.text (.obj v ms) ++ rest
          = 123 :: (v ++ (b!",").intercalate ms.texts ++ 125 :: rest) := by simp [Syn.text]
      have hlen : 2 * (v ++ (b!",").intercalate ms.texts ++ 125 :: rest).length + 1 < n := by
        rw [List.append_assoc, e] at hn; simp only [List.length_append, List.length_cons] at hn ⊢; omega
      simp only [depth] at hd
      unfold value
      rw [skipWS_text hw hs, e]
      dsimp only
      rw [if_neg (by decide), if_neg (by decide), if_pos rfl, if_neg (by omega)]
      cases ms with
      | nil =>
        have : skipWS (v ++ (b!",").intercalate Members.nil.texts ++ 125 :: rest) = 125 :: rest := by
          simp only [Members.texts, List.intercalate_nil, List.append_nil]
          rw [skipWS_white hs.1, skipWS_cons (by decide)]
        rw [this]; rfl
      | cons w₁ body dec w₂ w₃ x w₄ r =>
        have : skipWS (v ++ (b!",").intercalate (Members.cons w₁ body dec w₂ w₃ x w₄ r).texts
              ++ 125 :: rest)
            = 34 :: (body ++ 34 :: (w₂ ++ 58 :: (w₃ ++ x.text ++ (w₄ ++ (tails r.texts ++ 125 :: rest))))) := by
          simp only [Members.texts, intercalate_cons, List.append_assoc]
          rw [skipWS_white hs.1, skipWS_white hs.2.1]
          exact skipWS_cons (by decide) _
        rw [this]
        have hel := members_syn (.cons w₁ body dec w₂ w₃ x w₄ r) n (d - 1) v rest (by simp) hs.2
          (by omega) hs.1 hlen
        split
        · rename_i e'; cases e'
        · rw [hel]; rfl

theorem elements_syn : ∀ (es : Elems) (n d : Nat) (w rest : Str), es ≠ .nil → ValidElems es →
    depthElems es ≤ d → White w →
    2 * (w ++ (b!",").intercalate es.texts ++ 93 :: rest).length + 1 < n →
    elements n d (w ++ (b!",").intercalate es.texts ++ 93 :: rest) = some (treeElems es, rest)
  | .nil, _, _, _, _, h, _, _, _, _ => absurd rfl h
  | .cons w₁ v w₂ r, n, d, w, rest, _, hs, hd, hw, hn => by
    cases n with
    | zero => omega
    | succ n =>
      obtain ⟨h1, h2, h3, h4⟩ := hs
      simp only [depthElems] at hd
      have e : w ++ (b!",").intercalate (Elems.cons w₁ v w₂ r).texts ++ 93 :: rest
          = (w ++ w₁) ++ v.text ++ (w₂ ++ (tails r.texts ++ 93 :: rest)) := by
        simp only [Elems.texts, intercalate_cons, List.append_assoc]
      rw [e] at hn ⊢
      unfold elements
      rw [value_syn v n d (w ++ w₁) _ h2 (by omega) (Canon.white_append hw h1)
        (fun _ => stop_white h3 (stop_tails _ (.inl rfl))) (by omega), Option.bind_some, skipWS_white h3]
      cases r with
      | nil =>
        rw [show tails Elems.nil.texts ++ 93 :: rest = 93 :: rest from rfl, skipWS_cons (by decide)]
        rfl
      | cons w₃ v' w₄ r' =>
        have et : tails (Elems.cons w₃ v' w₄ r').texts ++ 93 :: rest
            = 44 :: ((b!",").intercalate (Elems.cons w₃ v' w₄ r').texts ++ 93 :: rest) := by
          simp only [Elems.texts, intercalate_cons, tails, List.flatMap_cons]
          simp
        have hel := elements_syn (.cons w₃ v' w₄ r') n d [] rest (by simp) h4 (by omega) white_nil (by
          rw [et] at hn
          simp only [List.length_append, List.length_cons, List.nil_append] at hn ⊢
          omega)
        rw [et, skipWS_cons (by decide)]
        rw [List.nil_append] at hel
        show Option.map _ (elements n d _) = _
        rw [hel]
        rfl

theorem members_syn : ∀ (ms : Members) (n d : Nat) (w rest : Str), ms ≠ .nil → ValidMembers ms →
    depthMembers ms ≤ d → White w →
    2 * (w ++ (b!",").intercalate ms.texts ++ 125 :: rest).length + 1 < n →
    members n d (w ++ (b!",").intercalate ms.texts ++ 125 :: rest) = some (treeMembers ms, rest)
  | .nil, _, _, _, _, h, _, _, _, _ => absurd rfl h
  | .cons w₁ body dec w₂ w₃ v w₄ r, n, d, w, rest, _, hs, hd, hw, hn => by
    cases n with
    | zero => omega
    | succ n =>
      obtain ⟨h1, hb, h2, h3, hv, h4, h5⟩ := hs
      simp only [depthMembers] at hd
      have e : w ++ (b!",").intercalate (Members.cons w₁ body dec w₂ w₃ v w₄ r).texts ++ 125 :: rest
          = w ++ (w₁ ++ 34 :: (body ++ 34 :: (w₂ ++ 58 :: (w₃ ++ v.text ++
              (w₄ ++ (tails r.texts ++ 125 :: rest)))))) := by
        simp only [Members.texts, intercalate_cons, List.append_assoc]
        simp
      rw [e] at hn ⊢
      unfold members
      rw [skipWS_white hw, skipWS_white h1, skipWS_cons (by decide)]
      show (strBody _).bind _ = _
      rw [strBody_reads hb, Option.bind_some]
      dsimp only
      rw [skipWS_white h2, skipWS_cons (by decide)]
      show (value n d _).bind _ = _
      rw [value_syn v n d w₃ _ hv (by omega) h3
        (fun _ => stop_white h4 (stop_tails _ (.inr rfl))) (by
          simp only [List.length_append, List.length_cons] at hn ⊢
          omega), Option.bind_some, skipWS_white h4, unquote_reads hb]
      cases r with
      | nil =>
        rw [show tails Members.nil.texts ++ 125 :: rest = 125 :: rest from rfl,
          skipWS_cons (by decide)]
        rfl
      | cons x₁ body' dec' x₂ x₃ v' x₄ r' =>
        have et : tails (Members.cons x₁ body' dec' x₂ x₃ v' x₄ r').texts ++ 125 :: rest
            = 44 :: ((b!",").intercalate (Members.cons x₁ body' dec' x₂ x₃ v' x₄ r').texts
                ++ 125 :: rest) := by
          simp only [Members.texts, intercalate_cons, tails, List.flatMap_cons]
          simp
        have hel := members_syn (.cons x₁ body' dec' x₂ x₃ v' x₄ r') n d [] rest (by simp) h5
          (by omega) white_nil (by
            rw [et] at hn
            simp only [List.length_append, List.length_cons, List.nil_append] at hn ⊢
            omega)
        rw [et, skipWS_cons (by decide)]
        rw [List.nil_append] at hel
        show Option.map _ (members n d _) = _
        rw [hel]
        rfl
end

theorem value_sound : ∀ n : Nat,
    (∀ d s j r, value n d s = some (j, r) → ∃ (w : Str) (y : Syn), White w ∧ Valid y ∧ depth y ≤ d ∧
      j = tree y ∧ s = w ++ y.text ++ r) ∧
    (∀ d s l r, elements n d s = some (l, r) → ∃ es : Elems, ValidElems es ∧ depthElems es ≤ d ∧
      l = treeElems es ∧ s = (b!",").intercalate es.texts ++ 93 :: r ∧ es ≠ .nil) ∧
    (∀ d s l r, members n d s = some (l, r) → ∃ ms : Members, ValidMembers ms ∧
      depthMembers ms ≤ d ∧ l = treeMembers ms ∧ s = (b!",").intercalate ms.texts ++ 125 :: r ∧
      ms ≠ .nil) := by
  intro n
  induction n with
  | zero => exact ⟨by simp [value], by simp [elements], by simp [members]⟩
  | succ n ih =>
    obtain ⟨ihv, ihe, ihm⟩ := ih
    refine ⟨?_, ?_, ?_⟩
    · intro d s j r h
      unfold value at h
      cases hs : skipWS s with
      | nil => rw [hs] at h; cases h
      | cons c t =>
        rw [hs] at h
        dsimp only at h
        obtain ⟨w, hw, rfl⟩ := skipWS_some hs
        split at h
        · rename_i hc
          subst hc
          obtain ⟨⟨body, r'⟩, h1, h2⟩ := Option.map_eq_some_iff.1 h
          cases h2
          obtain ⟨h3, rfl⟩ := strBody_some h1
          exact ⟨w, .str body (unquote body), hw, reads_unquote h3, Nat.zero_le _, rfl, by
            simp [Syn.text]⟩
        split at h
        · rename_i hc
          subst hc
          split at h
          · cases h
          · rename_i hd
            split at h
            · rename_i r' h1
              cases h
              obtain ⟨w', hw', rfl⟩ := skipWS_some h1
              exact ⟨w, .arr w' .nil, hw, ⟨hw', trivial⟩, by simp [depth, depthElems]; omega, rfl, by
                simp [Syn.text, Elems.texts]⟩
            · obtain ⟨⟨l, r'⟩, h1, h2⟩ := Option.map_eq_some_iff.1 h
              cases h2
              obtain ⟨es, h3, h4, rfl, rfl, _⟩ := ihe _ _ _ _ h1
              exact ⟨w, .arr [] es, hw, ⟨white_nil, h3⟩, by simp only [depth]; omega, rfl, by
                simp [Syn.text]⟩
        split at h
        · rename_i hc
          subst hc
          split at h
          · cases h
          · rename_i hd
            split at h
            · rename_i r' h1
              cases h
              obtain ⟨w', hw', rfl⟩ := skipWS_some h1
              exact ⟨w, .obj w' .nil, hw, ⟨hw', trivial⟩, by simp [depth, depthMembers]; omega, rfl, by
                simp [Syn.text, Members.texts]⟩
            · obtain ⟨⟨l, r'⟩, h1, h2⟩ := Option.map_eq_some_iff.1 h
              cases h2
              obtain ⟨es, h3, h4, rfl, rfl, _⟩ := ihm _ _ _ _ h1
              exact ⟨w, .obj [] es, hw, ⟨white_nil, h3⟩, by simp only [depth]; omega, rfl, by
                simp [Syn.text]⟩
        · obtain ⟨y, h1, h2, h3, h4⟩ := simple_some h
          exact ⟨w, y, hw, h1, by omega, h3, by rw [h4, List.append_assoc]⟩
    · intro d s l r h
      unfold elements at h
      obtain ⟨⟨j, t⟩, h1, h'⟩ := Option.bind_eq_some_iff.1 h
      clear h
      dsimp only at h'
      obtain ⟨w, y, hw, hy, hd, rfl, rfl⟩ := ihv _ _ _ _ h1
      have h := h'
      split at h
      · rename_i r' h2
        obtain ⟨⟨l', r''⟩, h3, h4⟩ := Option.map_eq_some_iff.1 h
        cases h4
        obtain ⟨w', hw', rfl⟩ := skipWS_some h2
        obtain ⟨es, a1, a2, rfl, rfl, a3⟩ := ihe _ _ _ _ h3
        refine ⟨.cons w y w' es, ⟨hw, hy, hw', a1⟩, by simp only [depthElems]; omega, rfl, ?_, by simp⟩
        cases es with
        | nil => exact absurd rfl a3
        | cons _ _ _ _ =>
          simp only [Elems.texts, intercalate_cons, tails, List.flatMap_cons]
          simp
      · rename_i r' h2
        cases h
        obtain ⟨w', hw', rfl⟩ := skipWS_some h2
        exact ⟨.cons w y w' .nil, ⟨hw, hy, hw', trivial⟩, by simp only [depthElems]; omega, rfl, by
          simp [Elems.texts], by simp⟩
      · cases h
    · intro d s l r h
      unfold members at h
      split at h
      · rename_i t h0
        obtain ⟨w, hw, rfl⟩ := skipWS_some h0
        obtain ⟨⟨k, t1⟩, h1, h'⟩ := Option.bind_eq_some_iff.1 h
        clear h
        dsimp only at h'
        obtain ⟨hk, rfl⟩ := strBody_some h1
        have h := h'
        clear h'
        split at h
        · rename_i t2 h2
          obtain ⟨w2, hw2, rfl⟩ := skipWS_some h2
          obtain ⟨⟨j, t3⟩, h3, h'⟩ := Option.bind_eq_some_iff.1 h
          clear h
          dsimp only at h'
          obtain ⟨w3, y, hw3, hy, hd, rfl, rfl⟩ := ihv _ _ _ _ h3
          have h := h'
          clear h'
          split at h
          · rename_i r' h4
            obtain ⟨⟨l', r''⟩, h5, h6⟩ := Option.map_eq_some_iff.1 h
            cases h6
            obtain ⟨w', hw', rfl⟩ := skipWS_some h4
            obtain ⟨ms, a1, a2, rfl, rfl, a3⟩ := ihm _ _ _ _ h5
            refine ⟨.cons w k (unquote k) w2 w3 y w' ms,
              ⟨hw, reads_unquote hk, hw2, hw3, hy, hw', a1⟩, by simp only [depthMembers]; omega, rfl,
              ?_, by simp⟩
            cases ms with
            | nil => exact absurd rfl a3
            | cons _ _ _ _ _ _ _ _ =>
              simp only [Members.texts, intercalate_cons, tails, List.flatMap_cons]
              simp
          · rename_i r' h4
            cases h
            obtain ⟨w', hw', rfl⟩ := skipWS_some h4
            exact ⟨.cons w k (unquote k) w2 w3 y w' .nil,
              ⟨hw, reads_unquote hk, hw2, hw3, hy, hw', trivial⟩, by simp only [depthMembers]; omega,
              rfl, by simp [Members.texts], by simp⟩
          · cases h
        · cases h
      · cases h

/-- The scanner accepts exactly the JSON documents nested no deeper than allowed, and finds the
value they have. -/
theorem parse_iff (text : Str) (j : Json) : parse text = some j ↔ IsText maxDepth text j := by
  constructor
  · intro h
    unfold parse at h
    split at h
    · rename_i j' r h1
      split at h
      · rename_i h2
        cases h
        obtain ⟨w, y, hw, hy, hd, rfl, rfl⟩ := (value_sound _).1 _ _ _ _ h1
        obtain ⟨w', hw', h3⟩ := skipWS_split r
        rw [h2, List.append_nil] at h3
        exact ⟨w, r, y, hw, h3 ▸ hw', hy, hd, rfl, rfl⟩
      · cases h
    · cases h
  · rintro ⟨w, w', s, hw, hw', hs, hd, rfl, rfl⟩
    unfold parse
    have hst : Stop w' := by
      have := stop_white hw' (r := []) (by intro c hc; cases hc)
      rwa [List.append_nil] at this
    rw [value_syn s _ maxDepth w w' hs hd hw (fun _ => hst) (by omega)]
    dsimp only
    have : skipWS w' = [] := by
      have := skipWS_white hw' []
      rwa [List.append_nil] at this
    rw [if_pos this]

/-- A document has one value. -/
theorem isText_unique {text : Str} {j j' : Json} (h : IsText maxDepth text j)
    (h' : IsText maxDepth text j') : j = j' := by
  rw [← parse_iff] at h h'
  rw [h] at h'
  exact Option.some.inj h'

theorem stop_of_white {w : Str} (h : White w) : Stop w := by
  have := stop_white h (r := []) (by intro c hc; cases hc)
  rwa [List.append_nil] at this

/-- Nothing but white space can follow a document, other than a number. -/
theorem isText_append {d : Nat} {p q : Str} {j j' : Json} (h : IsText d p j)
    (h' : IsText d (p ++ q) j') (hn : ∀ l, j ≠ .num l) : j = j' ∧ White q := by
  obtain ⟨w₁, v₁, s₁, hw₁, hv₁, hs₁, hd₁, rfl, rfl⟩ := h
  obtain ⟨w, v, s, hw, hv, hs, hd, rfl, e⟩ := h'
  have e1 := value_syn s₁ (2 * (w ++ s.text ++ v).length + 1) d w₁ (v₁ ++ q) hs₁ hd₁ hw₁
    (by rintro ⟨t, rfl⟩; exact absurd rfl (hn t)) (by rw [← List.append_assoc, e]; omega)
  have e2 := value_syn s (2 * (w ++ s.text ++ v).length + 1) d w v hs hd hw
    (fun _ => stop_of_white hv) (by omega)
  rw [← List.append_assoc, e, e2] at e1
  simp only [Option.some.injEq, Prod.mk.injEq] at e1
  refine ⟨e1.1.symm, fun c hc => hv c ?_⟩
  rw [e1.2]
  exact List.mem_append_right _ hc

/-- What a document that begins with a number is. -/
theorem isText_num {d : Nat} {p q t : Str} {j : Json} (h : IsText d p (.num t))
    (h' : IsText d (p ++ q) j) : ∃ l, j = .num l := by
  obtain ⟨w₁, v₁, s₁, hw₁, hv₁, hs₁, hd₁, e₁, rfl⟩ := h
  obtain ⟨w, v, s, hw, hv, hs, hd, rfl, e⟩ := h'
  cases s₁ with
  | num t' =>
    obtain ⟨c, r, hc, h1⟩ := number_head hs₁
    have hne := numHead_ne h1
    have e3 := congrArg skipWS e
    rw [List.append_assoc (w₁ ++ _), skipWS_text hw₁ hs₁, skipWS_text hw hs] at e3
    simp only [Syn.text, hc, List.cons_append] at e3
    cases s with
    | num l => exact ⟨l, rfl⟩
    | lit l =>
      rcases hs with rfl | rfl | rfl <;> simp only [Syn.text, List.cons_append, List.cons.injEq] at e3
      · exact absurd e3.1 hne.2.2.2.2.2.2.2.1
      · exact absurd e3.1 hne.2.2.2.2.2.2.2.2.1
      · exact absurd e3.1 hne.2.2.2.2.2.2.2.2.2
    | str b x =>
      simp only [Syn.text, List.cons_append, List.cons.injEq] at e3
      exact absurd e3.1 hne.2.1
    | arr x es =>
      simp only [Syn.text, List.cons_append, List.cons.injEq] at e3
      exact absurd e3.1 hne.2.2.1
    | obj x ms =>
      simp only [Syn.text, List.cons_append, List.cons.injEq] at e3
      exact absurd e3.1 hne.2.2.2.2.1
  | lit l => simp only [tree] at e₁; split at e₁ <;> [skip; split at e₁] <;> cases e₁
  | str b x => cases e₁
  | arr x es => cases e₁
  | obj x ms => cases e₁

end Stix.Text
