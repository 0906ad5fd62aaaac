import Verif.Lemmas.CanonParse

/-!
# Lemmas about the canonicaliser: the fuel is never what stops it
-/

namespace Stix.Canon
open Stix

theorem nextChar_len {s r : Str} {c : UInt8} (h : nextChar s = some (c, r)) :
    r.length + 1 = s.length := by
  cases s with
  | nil => simp [nextChar] at h
  | cons x t =>
    simp only [nextChar] at h
    split_ifs at h
    simp at h; obtain ⟨_, rfl⟩ := h; simp

theorem skipWS_len (s : Str) : (skipWS s).length ≤ s.length := by
  induction s with
  | nil => simp [skipWS]
  | cons c r ih => simp only [skipWS]; split_ifs <;> simp; omega

theorem scan_len {s r : Str} {c : UInt8} (h : scan s = some (c, r)) : r.length < s.length := by
  have := nextChar_len h
  have := skipWS_len s
  omega

theorem scanFor_len {s r : Str} {c : UInt8} (h : scanFor c s = some r) : r.length < s.length := by
  unfold scanFor at h
  split at h
  · simp at h
  · rename_i c' r' hs
    split_ifs at h
    simp at h; subst h
    exact scan_len hs

theorem getUEscape_len {s r : Str} {n : Nat} (h : getUEscape s = some (n, r)) :
    r.length < s.length := by
  unfold getUEscape at h
  split at h
  · simp only [Option.bind_eq_bind, Option.bind_eq_some_iff, Option.pure_def, Option.some.injEq,
      Prod.mk.injEq] at h
    obtain ⟨_, _, _, _, _, _, _, _, _, rfl⟩ := h
    simp; omega
  · simp at h

theorem parseQuoted_len {n : Nat} {s t r : Str} (h : parseQuoted n s = some (t, r)) :
    r.length < s.length := by
  induction n generalizing s t r with
  | zero => simp [parseQuoted] at h
  | succ n ih =>
    cases s with
    | nil => simp [parseQuoted] at h
    | cons c s =>
      unfold parseQuoted at h
      split_ifs at h with h1 h2 h3
      · simp at h; obtain ⟨_, rfl⟩ := h; simp
      · simp only [Option.bind_eq_bind, Option.bind_eq_some_iff] at h
        obtain ⟨⟨e, r1⟩, he, h⟩ := h
        have l1 := nextChar_len he
        simp only at h
        split_ifs at h with h4 h5
        · simp only [Option.bind_eq_some_iff] at h
          obtain ⟨⟨u, r2⟩, hu, h⟩ := h
          have l2 := getUEscape_len hu
          simp only at h
          split_ifs at h with h6
          · simp only [Option.bind_eq_some_iff] at h
            obtain ⟨⟨x, r3⟩, hx, h⟩ := h
            have l3 := nextChar_len hx
            simp only at h
            split_ifs at h
            simp only [Option.bind_eq_some_iff] at h
            obtain ⟨⟨y, r4⟩, hy, h⟩ := h
            have l4 := nextChar_len hy
            simp only at h
            split_ifs at h
            simp only [Option.bind_eq_some_iff] at h
            obtain ⟨⟨v, r5⟩, hv, ⟨t', r6⟩, hp, h⟩ := h
            have l5 := getUEscape_len hv
            have l6 := ih hp
            simp only at l6
            simp at h; obtain ⟨_, rfl⟩ := h; simp; omega
          · simp only [Option.bind_eq_some_iff] at h
            obtain ⟨⟨t', r3⟩, hp, h⟩ := h
            have l3 := ih hp
            simp at h; obtain ⟨_, rfl⟩ := h; simp; omega
        · simp only [Option.bind_eq_some_iff] at h
          obtain ⟨⟨t', r3⟩, hp, h⟩ := h
          have l3 := ih hp
          simp at h; obtain ⟨_, rfl⟩ := h; simp; omega
        · split at h
          · simp at h
          · simp only [Option.bind_eq_some_iff] at h
            obtain ⟨⟨t', r3⟩, hp, h⟩ := h
            have l3 := ih hp
            simp at h; obtain ⟨_, rfl⟩ := h; simp; omega
      · simp only [Option.bind_eq_bind, Option.bind_eq_some_iff] at h
        obtain ⟨⟨t', r3⟩, hp, h⟩ := h
        have l3 := ih hp
        simp at h; obtain ⟨_, rfl⟩ := h; simp; omega

theorem bind_congr' {α β : Type} {o : Option α} {f g : α → Option β}
    (h : ∀ a, o = some a → f a = g a) : o.bind f = o.bind g := by
  cases o with
  | none => rfl
  | some a => exact h a rfl

theorem parseQuoted_fuel {n m : Nat} {s : Str} (hn : s.length < n) (hm : s.length < m) :
    parseQuoted n s = parseQuoted m s := by
  induction n generalizing m s with
  | zero => omega
  | succ n ih =>
    cases m with
    | zero => omega
    | succ m =>
      cases s with
      | nil => simp [parseQuoted]
      | cons c s =>
        have hs : s.length < n ∧ s.length < m := by simp at hn hm; omega
        have key : ∀ r : Str, r.length ≤ s.length → parseQuoted n r = parseQuoted m r :=
          fun r hr => ih (by omega) (by omega)
        unfold parseQuoted
        simp only [Option.bind_eq_bind]
        rw [key s le_rfl]
        refine ite_congr rfl (fun _ => rfl) fun _ => ite_congr rfl (fun _ => rfl) fun _ =>
          ite_congr rfl (fun _ => ?_) fun _ => rfl
        refine bind_congr' ?_
        rintro ⟨e, r1⟩ he
        have l1 := nextChar_len he
        simp only
        rw [key r1 (by omega)]
        refine ite_congr rfl (fun _ => ?_) fun _ => ite_congr rfl (fun _ => rfl) fun _ => rfl
        refine bind_congr' ?_
        rintro ⟨u, r2⟩ hu
        have l2 := getUEscape_len hu
        simp only
        rw [key r2 (by omega)]
        refine ite_congr rfl (fun _ => ?_) fun _ => rfl
        refine bind_congr' ?_
        rintro ⟨x, r3⟩ hx
        have l3 := nextChar_len hx
        simp only
        refine ite_congr rfl (fun _ => rfl) fun _ => ?_
        refine bind_congr' ?_
        rintro ⟨y, r4⟩ hy
        have l4 := nextChar_len hy
        simp only
        refine ite_congr rfl (fun _ => rfl) fun _ => ?_
        refine bind_congr' ?_
        rintro ⟨v, r5⟩ hv
        have l5 := getUEscape_len hv
        simp only
        rw [key r5 (by omega)]

theorem token_len {s t r : Str} (h : token s = some (t, r)) :
    r.length ≤ s.length ∧ (t ≠ [] → r.length < s.length) := by
  induction s generalizing t r with
  | nil => simp [token] at h
  | cons c s ih =>
    unfold token at h
    split at h
    · simp at h
    · split_ifs at h
      · simp at h; obtain ⟨rfl, rfl⟩ := h; simp
      · simp at h; obtain ⟨rfl, rfl⟩ := h; simp
      · split at h
        · simp at h
        · rename_i t' r' ht
          have := ih ht
          simp at h; obtain ⟨rfl, rfl⟩ := h
          simp; omega

theorem parseSimple_len {F : FloatFmt} {s t r : Str} (h : parseSimple F s = some (t, r)) :
    r.length < s.length := by
  unfold parseSimple at h
  simp only [Option.bind_eq_bind, Option.bind_eq_some_iff] at h
  obtain ⟨⟨t', r'⟩, ht, h⟩ := h
  simp only at h
  split_ifs at h with h1
  · simp at h; obtain ⟨_, rfl⟩ := h; exact (token_len ht).2 h1
  · simp only [Option.bind_eq_some_iff] at h
    obtain ⟨b, _, o, _, h⟩ := h
    simp at h; obtain ⟨_, rfl⟩ := h; exact (token_len ht).2 h1

/-- Everything read is taken off the input. -/
theorem parse_len (F : FloatFmt) : ∀ n : Nat,
    (∀ s t r, parseElement F n s = some (t, r) → r.length < s.length) ∧
    (∀ b s t r, arrLoop F n b s = some (t, r) → r.length < s.length) ∧
    (∀ b a s t r, objLoop F n b a s = some (t, r) → r.length < s.length) := by
  intro n
  induction n with
  | zero => simp [parseElement, arrLoop, objLoop]
  | succ n ih =>
    obtain ⟨ih1, ih2, ih3⟩ := ih
    refine ⟨?_, ?_, ?_⟩
    · intro s t r h
      unfold parseElement at h
      split at h
      · simp at h
      · rename_i c r' hs
        have l := scan_len hs
        split_ifs at h
        · simp only [Option.bind_eq_bind, Option.bind_eq_some_iff] at h
          obtain ⟨⟨ms, r2⟩, ho, h⟩ := h
          have := ih3 _ _ _ _ _ ho
          simp at h; obtain ⟨_, rfl⟩ := h; omega
        · simp only [Option.bind_eq_bind, Option.bind_eq_some_iff] at h
          obtain ⟨⟨ms, r2⟩, ho, h⟩ := h
          have := parseQuoted_len ho
          simp at h; obtain ⟨_, rfl⟩ := h; omega
        · simp only [Option.bind_eq_bind, Option.bind_eq_some_iff] at h
          obtain ⟨⟨ms, r2⟩, ho, h⟩ := h
          have := ih2 _ _ _ _ ho
          simp at h; obtain ⟨_, rfl⟩ := h; omega
        · have := parseSimple_len h
          simp at this; omega
    · intro b s t r h
      unfold arrLoop at h
      split at h
      · simp at h
      · rename_i p r' hs
        have l := scan_len hs
        split_ifs at h with h1 h2
        · simp at h; obtain ⟨_, rfl⟩ := h; omega
        all_goals
          simp only [Option.bind_eq_bind, Option.bind_eq_some_iff] at h
          obtain ⟨s2, hs2, ⟨v, s3⟩, hv, ⟨vs, s4⟩, hvs, h⟩ := h
          have l2 := ih1 _ _ _ hv
          have l3 := ih2 _ _ _ _ hvs
          simp only at l3
          simp at h; obtain ⟨_, rfl⟩ := h
        · have := scanFor_len hs2; omega
        · simp at hs2; subst hs2; omega
    · intro b a s t r h
      unfold objLoop at h
      split at h
      · simp at h
      · rename_i p r' hs
        have l := scan_len hs
        split_ifs at h with h1 h2
        · simp at h; obtain ⟨_, rfl⟩ := h; omega
        all_goals
          simp only [Option.bind_eq_bind, Option.bind_eq_some_iff] at h
          obtain ⟨s2, hs2, s3, hs3, ⟨nm, s4⟩, hq, s5, hs5, ⟨v, s6⟩, hv, acc, _, h⟩ := h
          have l2 := ih1 _ _ _ hv
          have l3 := ih3 _ _ _ _ _ h
          have l4 := scanFor_len hs3
          have l5 := scanFor_len hs5
          have l6 := parseQuoted_len hq
          simp only at l3 l5
        · have := scanFor_len hs2; omega
        · simp at hs2; subst hs2; omega

/-- More fuel changes nothing. -/
theorem parse_fuel (F : FloatFmt) : ∀ n m : Nat,
    (∀ s, 2 * s.length < n → 2 * s.length < m → parseElement F n s = parseElement F m s) ∧
    (∀ b s, 2 * s.length + 1 < n → 2 * s.length + 1 < m → arrLoop F n b s = arrLoop F m b s) ∧
    (∀ b a s, 2 * s.length + 1 < n → 2 * s.length + 1 < m →
      objLoop F n b a s = objLoop F m b a s) := by
  intro n
  induction n with
  | zero => intro m; refine ⟨?_, ?_, ?_⟩ <;> intros <;> omega
  | succ n ih =>
    intro m
    cases m with
    | zero => refine ⟨?_, ?_, ?_⟩ <;> intros <;> omega
    | succ m =>
      obtain ⟨ih1, ih2, ih3⟩ := ih m
      refine ⟨?_, ?_, ?_⟩
      · intro s h1 h2
        unfold parseElement
        cases hs : scan s with
        | none => rfl
        | some p =>
          obtain ⟨c, r⟩ := p
          have l := scan_len hs
          simp only
          rw [ih3 _ _ r (by omega) (by omega), ih2 _ r (by omega) (by omega)]
      · intro b s h1 h2
        unfold arrLoop
        cases hs : scan s with
        | none => rfl
        | some p =>
          obtain ⟨c, r⟩ := p
          have l := scan_len hs
          simp only
          split_ifs
          · rfl
          all_goals
            simp only [Option.bind_eq_bind]
            refine bind_congr' ?_
            intro s2 hs2
            have l2 : s2.length ≤ s.length := by
              first
              | (have := scanFor_len hs2; omega)
              | (simp at hs2; subst hs2; exact le_rfl)
            rw [ih1 s2 (by omega) (by omega)]
            refine bind_congr' ?_
            rintro ⟨v, s3⟩ hv
            have l3 := (parse_len F m).1 _ _ _ hv
            simp only
            rw [ih2 _ s3 (by omega) (by omega)]
      · intro b a s h1 h2
        unfold objLoop
        cases hs : scan s with
        | none => rfl
        | some p =>
          obtain ⟨c, r⟩ := p
          have l := scan_len hs
          simp only
          split_ifs
          · rfl
          all_goals
            simp only [Option.bind_eq_bind]
            refine bind_congr' ?_
            intro s2 hs2
            have l2 : s2.length ≤ s.length := by
              first
              | (have := scanFor_len hs2; omega)
              | (simp at hs2; subst hs2; exact le_rfl)
            refine bind_congr' ?_
            intro s3 hs3
            have l3 := scanFor_len hs3
            refine bind_congr' ?_
            rintro ⟨nm, s4⟩ hq
            have l4 := parseQuoted_len hq
            simp only
            refine bind_congr' ?_
            intro s5 hs5
            have l5 := scanFor_len hs5
            rw [ih1 s5 (by omega) (by omega)]
            refine bind_congr' ?_
            rintro ⟨v, s6⟩ hv
            have l6 := (parse_len F m).1 _ _ _ hv
            simp only
            refine bind_congr' ?_
            intro acc _
            rw [ih3 _ _ s6 (by omega) (by omega)]

end Stix.Canon
