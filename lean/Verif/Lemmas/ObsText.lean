import Verif.Props.ObsId
import Verif.Props.Base64
import Verif.Props.Time
import Verif.Lemmas.Leaf
import Verif.Spec.ObsId

/-!
# Reading back the texts that identifiers of observables are made from (for C11)
-/

namespace Stix
open Spec

/-- Cutting at the first occurrence. -/
theorem cut {c : UInt8} : ∀ {a a' x x' : Str}, c ∉ a → c ∉ a' → a ++ c :: x = a' ++ c :: x' →
    a = a' ∧ x = x'
  | [], [], x, x', _, _, h => by simpa using h
  | [], b :: a', x, x', _, h', h => by
    simp only [List.nil_append, List.cons_append, List.cons.injEq] at h
    exact absurd (h.1 ▸ List.mem_cons_self) h'
  | b :: a, [], x, x', h0, _, h => by
    simp only [List.nil_append, List.cons_append, List.cons.injEq] at h
    exact absurd (h.1 ▸ List.mem_cons_self) h0
  | b :: a, b' :: a', x, x', h0, h', h => by
    simp only [List.cons_append, List.cons.injEq] at h
    obtain ⟨e1, e2⟩ := cut (fun hm => h0 (List.mem_cons_of_mem _ hm))
      (fun hm => h' (List.mem_cons_of_mem _ hm)) h.2
    exact ⟨by rw [h.1, e1], e2⟩

/-- Cutting at the last occurrence. -/
theorem cutLast {c : UInt8} {a a' x x' : Str} (hx : c ∉ x) (hx' : c ∉ x')
    (h : a ++ c :: x = a' ++ c :: x') : a = a' ∧ x = x' := by
  have h1 := congrArg List.reverse h
  simp only [List.reverse_append, List.reverse_cons, List.append_assoc, List.singleton_append] at h1
  obtain ⟨e1, e2⟩ := cut (by simpa using hx) (by simpa using hx') h1
  exact ⟨List.reverse_injective e2, List.reverse_injective e1⟩

/-- Quotes around a text without any. -/
theorem quoted_cut {s s' x x' : Str} (hs : Unquoted s) (hs' : Unquoted s')
    (h : quoted s ++ x = quoted s' ++ x') : s = s' ∧ x = x' := by
  simp only [quoted, List.cons_append, List.nil_append, List.append_assoc, List.cons.injEq,
    true_and] at h
  exact cut hs hs' h

theorem quoted_inj {s s' : Str} (h : quoted s = quoted s') : s = s' := by
  simpa [quoted] using h

/-- The text of a hash, or nothing. -/
def hashTok : Option (Str × Str) → Str
  | some (a, v) => b!"{\"" ++ a ++ b!"\":\"" ++ v ++ b!"\"}"
  | none => []

theorem hashTok_cut {a v a' v' x x' : Str} (ha : Unquoted a) (ha' : Unquoted a') (hv : Unquoted v)
    (hv' : Unquoted v') (h : hashTok (some (a, v)) ++ x = hashTok (some (a', v')) ++ x') :
    a = a' ∧ v = v' ∧ x = x' := by
  simp only [hashTok, List.cons_append, List.nil_append, List.append_assoc, List.cons.injEq,
    true_and] at h
  obtain ⟨e1, h⟩ := cut ha ha' h
  simp only [List.cons.injEq, true_and] at h
  obtain ⟨e2, h⟩ := cut hv hv' h
  simp only [List.cons.injEq, true_and] at h
  exact ⟨e1, e2, h⟩

/-! ### Lists of parts -/

/-- Two parts that are the same when texts that begin with them and a comma are. -/
def Unamb (p p' : Str) : Prop := ∀ x x', p ++ 44 :: x = p' ++ 44 :: x' → p = p'

theorem join_cons_ne {s : Str} {l : List Str} (h : l ≠ []) :
    join (b!",") (s :: l) = s ++ 44 :: join (b!",") l := by
  cases l with
  | nil => exact absurd rfl h
  | cons => simp [join]

theorem join_cut {ps ps' : List Str} (h : List.Forall₂ Unamb ps ps') (qs qs' : List Str)
    (hq : qs = [] ↔ qs' = []) (he : join (b!",") (ps ++ qs) = join (b!",") (ps' ++ qs')) :
    ps = ps' ∧ join (b!",") qs = join (b!",") qs' := by
  induction h with
  | nil => exact ⟨rfl, he⟩
  | @cons p p' ps ps' hp hps ih =>
    by_cases hn : ps ++ qs = []
    · obtain ⟨rfl, rfl⟩ := List.append_eq_nil_iff.1 hn
      cases hps
      obtain rfl := hq.1 rfl
      simp only [List.append_nil, join] at he
      exact ⟨by rw [he], rfl⟩
    · have hn' : ps' ++ qs' ≠ [] := by
        intro e
        obtain ⟨rfl, rfl⟩ := List.append_eq_nil_iff.1 e
        cases hps
        exact hn (by rw [hq.2 rfl]; rfl)
      rw [List.cons_append, List.cons_append, join_cons_ne hn, join_cons_ne hn'] at he
      have e := hp _ _ he
      subst e
      have he' := List.append_cancel_left he
      simp only [List.cons.injEq, true_and] at he'
      obtain ⟨e1, e2⟩ := ih he'
      exact ⟨by rw [e1], e2⟩

/-- Lists of parts of which each says where it ends. -/
theorem join_read {α : Type} {T : α → Str} {P : α → Prop} {τ : UInt8} (hτ : τ ≠ 44)
    (hT : ∀ a b x x', P a → P b → T a ++ x = T b ++ x' → a = b ∧ x = x') :
    ∀ {l l' : List α} {x x' : Str}, l ≠ [] → l' ≠ [] → (∀ a ∈ l, P a) → (∀ a ∈ l', P a) →
      join (b!",") (l.map T) ++ τ :: x = join (b!",") (l'.map T) ++ τ :: x' → l = l' ∧ x = x'
  | [], _, _, _, h, _, _, _, _ => absurd rfl h
  | _ :: _, [], _, _, _, h, _, _, _ => absurd rfl h
  | a :: l, a' :: l', x, x', _, _, hl, hl', he => by
    have pa := hl a List.mem_cons_self
    have pa' := hl' a' List.mem_cons_self
    cases l with
    | nil => cases l' with
      | nil =>
        obtain ⟨e, ex⟩ := hT a a' _ _ pa pa' he
        simp only [List.cons.injEq, true_and] at ex
        exact ⟨by rw [e], ex⟩
      | cons b' l' =>
        rw [List.map_cons, List.map_cons, List.map_cons, List.map_nil,
          join_cons_ne (by simp : T b' :: l'.map T ≠ []), List.append_assoc] at he
        obtain ⟨-, ex⟩ := hT a a' _ _ pa pa' he
        simp only [List.cons_append, List.cons.injEq] at ex
        exact absurd ex.1 hτ
    | cons b l => cases l' with
      | nil =>
        rw [List.map_cons, List.map_cons, List.map_cons, List.map_nil,
          join_cons_ne (by simp : T b :: l.map T ≠ []), List.append_assoc] at he
        obtain ⟨-, ex⟩ := hT a a' _ _ pa pa' he
        simp only [List.cons_append, List.cons.injEq] at ex
        exact absurd ex.1.symm hτ
      | cons b' l' =>
        rw [List.map_cons, List.map_cons, List.map_cons, List.map_cons,
          join_cons_ne (by simp : T b :: l.map T ≠ []), join_cons_ne (by simp : T b' :: l'.map T ≠ []),
          List.append_assoc, List.append_assoc] at he
        obtain ⟨e, ex⟩ := hT a a' _ _ pa pa' he
        simp only [List.cons_append, List.cons.injEq, true_and] at ex
        obtain ⟨e1, e2⟩ := join_read hτ hT (l := b :: l) (l' := b' :: l') (by simp) (by simp)
          (fun a ha => hl a (List.mem_cons_of_mem _ ha)) (fun a ha => hl' a (List.mem_cons_of_mem _ ha)) ex
        exact ⟨by rw [e, e1], e2⟩

/-! ### Numbers, times, bytes -/

theorem intLit_chars (i : Int) : ∀ c ∈ intLit i, c ≠ 44 ∧ c ≠ 93 := by
  have hd : ∀ c : UInt8, 48 ≤ c ∧ c ≤ 57 → c ≠ 44 ∧ c ≠ 93 := by
    intro c h; constructor <;> rintro rfl <;> revert h <;> decide
  intro c hc
  unfold intLit at hc
  split at hc
  · rcases List.mem_cons.1 hc with rfl | hc
    · decide
    · exact hd c ((natLit_spec _).2.1 c hc)
  · exact hd c ((natLit_spec _).2.1 c hc)

theorem intLit_inj {i j : Int} (h : intLit i = intLit j) : i = j := by
  have hn : ∀ n m, natLit n = natLit m → n = m := by
    intro n m h
    rw [← (natLit_spec n).2.2, h, (natLit_spec m).2.2]
  unfold intLit at h
  split at h <;> split at h
  · have := hn _ _ (List.cons.inj h).2; omega
  · exact absurd h.symm (natLit_head _ _)
  · exact absurd h (natLit_head _ _)
  · have := hn _ _ h; omega

theorem timestamp_unquoted (t : GoTime) (h0 : 0 ≤ t.ns) (h1 : t.ns < endOfTime) :
    Unquoted (timestampString t) := by
  obtain ⟨hv, -, ht⟩ := civilOf_facts t.ns h0 h1
  have hs : timestampString t = (civilOf t.ns).text := ht
  have hd : ∀ n, n < 10 → digit n ≠ 34 := by decide +kernel
  rw [hs, Unquoted, Civil.text]
  obtain ⟨h1, h2, h3, h4, h5, h6, h7⟩ := hv
  have h31 : (civilOf t.ns).day ≤ 31 := by
    refine h3.2.trans ?_
    unfold daysInMonth
    split <;> (try split) <;> omega
  simp only [List.mem_cons, List.not_mem_nil, or_false, not_or]
  refine ⟨?_, ?_, ?_, ?_, by decide, ?_, ?_, by decide, ?_, ?_, by decide, ?_, ?_, by decide, ?_, ?_,
    by decide, ?_, ?_, by decide, ?_, ?_, ?_, by decide⟩ <;> exact (hd _ (by omega)).symm

theorem timestamp_inj {t u : GoTime} (ht0 : 0 ≤ t.ns) (ht1 : t.ns < endOfTime) (hu0 : 0 ≤ u.ns)
    (hu1 : u.ns < endOfTime) (h : timestampString t = timestampString u) :
    t.ns / 1000000 = u.ns / 1000000 := by
  have h1 := c23_round_trip t ht0 ht1
  have h2 := c23_round_trip u hu0 hu1
  simp only [timestampMarshal, h] at h1 h2
  rw [h1] at h2
  simp only [Res.ok.injEq, GoTime.mk.injEq, and_true] at h2
  omega

theorem b64_unquoted (s : Str) : Unquoted (b64Encode s) := by
  have hp : ∀ n < 64, b64Char n ≠ 34 := by decide +kernel
  unfold Unquoted
  fun_induction b64Encode s with
  | case1 => simp
  | case2 a =>
    have ha := a.toNat_lt
    have h1 := hp (a.toNat / 4) (by omega)
    have h2 := hp (a.toNat % 4 * 16) (by omega)
    simp [h1.symm, h2.symm]
  | case3 a b =>
    have ha := a.toNat_lt
    have hb := b.toNat_lt
    have h1 := hp (a.toNat / 4) (by omega)
    have h2 := hp (a.toNat % 4 * 16 + b.toNat / 16) (by omega)
    have h3 := hp (b.toNat % 16 * 4) (by omega)
    simp [h1.symm, h2.symm, h3.symm]
  | case4 a b c rest ih =>
    have ha := a.toNat_lt
    have hb := b.toNat_lt
    have hc := c.toNat_lt
    have h1 := hp (a.toNat / 4) (by omega)
    have h2 := hp (a.toNat % 4 * 16 + b.toNat / 16) (by omega)
    have h3 := hp (b.toNat % 16 * 4 + c.toNat / 64) (by omega)
    have h4 := hp (c.toNat % 64) (by omega)
    simp [h1.symm, h2.symm, h3.symm, h4.symm, ih]

theorem b64_inj {s s' : Str} (h : b64Encode s = b64Encode s') : s = s' := by
  have := b64_roundtrip s
  rw [h, b64_roundtrip] at this
  exact (Option.some.inj this).symm

/-! ### Registry values -/

/-- A named text in an object. -/
def pairTok (e : Str × Str) : Str := quoted e.1 ++ 58 :: quoted e.2

theorem pairTok_cut (a b : Str × Str) (x x' : Str) (ha : Unquoted a.1 ∧ Unquoted a.2)
    (hb : Unquoted b.1 ∧ Unquoted b.2) (h : pairTok a ++ x = pairTok b ++ x') : a = b ∧ x = x' := by
  simp only [pairTok, List.append_assoc] at h
  obtain ⟨e1, h⟩ := quoted_cut ha.1 hb.1 h
  simp only [List.cons_append, List.cons.injEq, true_and] at h
  obtain ⟨e2, h⟩ := quoted_cut ha.2 hb.2 h
  exact ⟨Prod.ext e1 e2, h⟩

/-- The named texts of a registry value. -/
def regPairs (e : Str × Option Str × Str) : List (Str × Str) :=
  (if e.1 ≠ [] then [(b!"data", e.1)] else []) ++
  (match e.2.1 with
    | some t => [(b!"data_type", t)]
    | none => []) ++
  (if e.2.2 ≠ [] then [(b!"name", e.2.2)] else [])

/-- The text of a registry value. -/
def regTok (e : Str × Option Str × Str) : Str := 123 :: (join (b!",") ((regPairs e).map pairTok) ++ [125])

theorem regPairs_inj {e e' : Str × Option Str × Str} (h : regPairs e = regPairs e') : e = e' := by
  obtain ⟨d, t, n⟩ := e
  obtain ⟨d', t', n'⟩ := e'
  simp only [regPairs] at h
  by_cases hd : d = [] <;> by_cases hn : n = [] <;> by_cases hd' : d' = [] <;> by_cases hn' : n' = [] <;>
    cases t <;> cases t' <;> simp_all

/-- What a registry value of clean texts is. -/
def RegClean (e : Str × Option Str × Str) : Prop :=
  Unquoted e.1 ∧ (∀ t, e.2.1 = some t → Unquoted t) ∧ Unquoted e.2.2

theorem regPairs_clean {e : Str × Option Str × Str} (h : RegClean e) :
    ∀ a ∈ regPairs e, Unquoted a.1 ∧ Unquoted a.2 := by
  have hl : Unquoted (b!"data") ∧ Unquoted (b!"data_type") ∧ Unquoted (b!"name") := by
    unfold Unquoted; decide
  obtain ⟨d, t, n⟩ := e
  obtain ⟨h1, h2, h3⟩ := h
  intro a ha
  simp only [regPairs, List.mem_append] at ha
  rcases ha with (ha | ha) | ha
  · split at ha
    · cases List.mem_singleton.1 ha; exact ⟨hl.1, h1⟩
    · cases ha
  · split at ha
    · cases List.mem_singleton.1 ha; exact ⟨hl.2.1, h2 _ rfl⟩
    · cases ha
  · split at ha
    · cases List.mem_singleton.1 ha; exact ⟨hl.2.2, h3⟩
    · cases ha

theorem regTok_cut (a b : Str × Option Str × Str) (x x' : Str) (ha : RegClean a) (hb : RegClean b)
    (h : regTok a ++ x = regTok b ++ x') : a = b ∧ x = x' := by
  simp only [regTok, List.cons_append, List.append_assoc, List.nil_append, List.cons.injEq, true_and] at h
  have hq : ∀ l : List (Str × Str), l ≠ [] → ∃ r, join (b!",") (l.map pairTok) = 34 :: r := by
    intro l hl
    cases l with
    | nil => exact absurd rfl hl
    | cons e l =>
      cases l with
      | nil => exact ⟨_, rfl⟩
      | cons e' l => rw [List.map_cons, List.map_cons, join_cons_ne (by simp)]; exact ⟨_, rfl⟩
  by_cases h1 : regPairs a = [] <;> by_cases h2 : regPairs b = []
  · refine ⟨regPairs_inj (h1.trans h2.symm), ?_⟩
    rw [h1, h2] at h
    simpa using h
  · obtain ⟨r, hr⟩ := hq _ h2
    rw [h1, hr] at h
    simp [join] at h
  · obtain ⟨r, hr⟩ := hq _ h1
    rw [h2, hr] at h
    simp [join] at h
  · obtain ⟨e, ex⟩ := join_read (τ := 125) (by decide) pairTok_cut h1 h2 (regPairs_clean ha)
      (regPairs_clean hb) h
    exact ⟨regPairs_inj e, ex⟩

end Stix
