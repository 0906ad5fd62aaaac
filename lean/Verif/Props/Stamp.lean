import Verif.Lemmas.Stamp
import Verif.Lemmas.TextPrint
import Verif.Props.Time

/-!
# Reading timestamps (C55)
-/

namespace Stix
open Spec

theorem timestampUnmarshal_str (raw dec : Str) :
    timestampUnmarshal (.str raw dec) = match goParse raw with
      | some t => .ok t
      | none => .err .other := by
  have : goMiddle (Json.raw (.str raw dec)) = .ok raw := by
    simp [goMiddle, Json.raw]
  simp only [timestampUnmarshal, this, Res.bind_ok]
  cases goParse raw <;> rfl

/-- **C55.** A timestamp written by RFC 3339, with a fraction of any length or none and any zone, is
read as the instant it denotes, cut to nanoseconds, in its zone. -/
theorem c55_read (x : Stamp) (h : x.Valid) (hz : x.zone.Within 23 59) :
    timestampUnmarshal (.str x.text x.text) = .ok { ns := x.nanos, off := x.zone.seconds } := by
  have hz' : x.zone.Within 24 60 := by
    revert hz
    cases x.zone <;> simp only [Zone.Within, imp_self] <;> omega
  rw [timestampUnmarshal_str, (goParse_iff x.text _).2 ⟨x, h, hz', ⟨_, _, .inl rfl, .inl rfl, rfl⟩, rfl⟩]

/-- **C55.** A string is read as a timestamp exactly if what is between its quotes is one, where the
hour may also have a single digit, a comma may stand for the point, and the zone may have 24 hours or
60 minutes; and it is read as what it denotes.  Everything else is an error. -/
theorem c55_exact (raw dec : Str) :
    (∀ t, timestampUnmarshal (.str raw dec) = .ok t ↔
      ∃ x : Stamp, x.Valid ∧ x.zone.Within 24 60 ∧ x.Loose raw ∧
        t = { ns := x.nanos, off := x.zone.seconds }) ∧
    ((¬ ∃ x : Stamp, x.Valid ∧ x.zone.Within 24 60 ∧ x.Loose raw) →
      timestampUnmarshal (.str raw dec) = .err .other) := by
  rw [timestampUnmarshal_str]
  constructor
  · intro t
    rw [← goParse_iff]
    cases goParse raw <;> simp
  · intro h
    cases hg : goParse raw with
    | none => rfl
    | some t =>
      obtain ⟨x, h1, h2, h3, -⟩ := (goParse_iff _ _).1 hg
      exact absurd ⟨x, h1, h2, h3⟩ h

/-! ### Values that are not strings -/

/-- The bytes of a number. -/
theorem number_bytes {t : Str} (h : Text.Number t) : ∀ c ∈ t, IsDigit c ∨ c ∈ b!"+-.eE" := by
  obtain ⟨sgn, i, f, e, rfl, hs, hi, hf, he⟩ := h
  have digits : ∀ {ds : Str}, Text.Digits ds → ∀ c ∈ ds, IsDigit c ∨ c ∈ b!"+-.eE" :=
    fun hd c hc => .inl (hd.2 c hc)
  intro c hc
  simp only [List.mem_append] at hc
  rcases hc with hc | (hc | hc) | hc
  · rcases hs with rfl | rfl
    · simp at hc
    · simp only [List.mem_singleton] at hc; subst hc; right; decide
  · rcases hi with rfl | hi
    · simp only [List.mem_singleton] at hc; subst hc; left; decide
    · exact digits hi.1 c hc
  · rcases hf with rfl | ⟨ds, rfl, hd⟩
    · simp at hc
    · rcases List.mem_cons.1 hc with rfl | hc
      · right; decide
      · exact digits hd c hc
  · rcases he with rfl | ⟨e', s', ds, rfl, he', hs', hd⟩
    · simp at hc
    · rcases List.mem_cons.1 hc with rfl | hc
      · right; rcases he' with rfl | rfl <;> decide
      · rcases List.mem_append.1 hc with hc | hc
        · rcases hs' with rfl | rfl | rfl
          · simp at hc
          · simp only [List.mem_singleton] at hc; subst hc; right; decide
          · simp only [List.mem_singleton] at hc; subst hc; right; decide
        · exact digits hd c hc

theorem isDigit_digit (n : Nat) (h : n ≤ 9) : IsDigit (digit n) := by
  interval_cases n <;> decide

/-- The date at the front of a timestamp. -/
theorem loose_date {x : Stamp} (h : x.Valid) {s : Str} (hs : x.Loose s) :
    ∃ pre post, s = pre ++ 84 :: post ∧ pre ≠ [] ∧ ∀ c ∈ pre, IsDigit c ∨ c = 45 := by
  obtain ⟨hour, mark, -, -, rfl⟩ := hs
  refine ⟨two (x.year / 100) ++ two (x.year % 100) ++ b!"-" ++ two x.month ++ b!"-" ++ two x.day,
    hour ++ b!":" ++ two x.minute ++ b!":" ++ two x.second ++
    (if x.fraction = [] then [] else mark :: x.fraction.map digit) ++ x.zone.text, ?_, ?_, ?_⟩
  · simp only [Stamp.textWith, List.append_assoc, List.cons_append, List.nil_append]
  · simp [two]
  · obtain ⟨h1, ⟨h2, h2'⟩, ⟨h3, h3'⟩, -⟩ := h
    have hdm : daysInMonth x.year x.month ≤ 31 := by
      unfold daysInMonth; split <;> (try split) <;> omega
    have t : ∀ n, n ≤ 99 → ∀ c ∈ two n, IsDigit c ∨ c = 45 := by
      intro n hn c hc
      simp only [two, List.mem_cons, List.not_mem_nil, or_false] at hc
      rcases hc with rfl | rfl
      · exact .inl (isDigit_digit _ (by omega))
      · exact .inl (isDigit_digit _ (by omega))
    intro c hc
    simp only [List.mem_append, List.mem_singleton] at hc
    rcases hc with ((((hc | hc) | hc) | hc) | hc) | hc
    · exact t _ (by omega) c hc
    · exact t _ (by omega) c hc
    · exact .inr hc
    · exact t _ (by omega) c hc
    · exact .inr hc
    · exact t _ (by omega) c hc

theorem goParse_no84 {s : Str} {t : GoTime} (h : goParse s = some t) : (84 : UInt8) ∈ s := by
  obtain ⟨x, h1, -, h3, -⟩ := (goParse_iff _ _).1 h
  obtain ⟨pre, post, rfl, -⟩ := loose_date h1 h3
  simp

theorem goParse_head {c : UInt8} {s : Str} {t : GoTime} (h : goParse (c :: s) = some t) :
    IsDigit c ∨ c = 45 := by
  obtain ⟨x, h1, -, h3, -⟩ := (goParse_iff _ _).1 h
  obtain ⟨pre, post, h4, h5, h6⟩ := loose_date h1 h3
  cases pre with
  | nil => exact absurd rfl h5
  | cons a pre =>
    simp only [List.cons_append, List.cons.injEq] at h4
    rw [h4.1]
    exact h6 a (by simp)

/-- A number before a comma or the end does not begin a timestamp. -/
theorem goParse_number {lit r : Str} (h : Text.Number lit) (hr : r = [] ∨ ∃ r', r = 44 :: r') :
    goParse (lit ++ r) = none := by
  cases hg : goParse (lit ++ r) with
  | none => rfl
  | some t =>
    obtain ⟨x, h1, -, h3, -⟩ := (goParse_iff _ _).1 hg
    obtain ⟨pre, post, h4, -, h6⟩ := loose_date h1 h3
    have h84 : (84 : UInt8) ∉ lit := by
      intro hc
      rcases number_bytes h _ hc with h | h <;> revert h <;> decide
    rcases List.append_eq_append_iff.1 h4 with ⟨as, e1, e2⟩ | ⟨bs, e1, e2⟩
    · cases as with
      | nil => rcases hr with rfl | ⟨r', rfl⟩ <;> simp at e2
      | cons a as =>
        rcases hr with rfl | ⟨r', rfl⟩
        · simp at e2
        · simp only [List.cons_append, List.cons.injEq] at e2
          have := h6 a (by rw [e1]; simp)
          rw [← e2.1] at this
          exact absurd this (by decide)
    · cases bs with
      | nil =>
        simp only [List.nil_append] at e2
        rcases hr with rfl | ⟨r', rfl⟩ <;> simp at e2
      | cons b bs =>
        simp only [List.cons_append, List.cons.injEq] at e2
        exact absurd (by rw [e1, ← e2.1]; simp) h84

/-- **C55.** Of the values of JSON documents only strings are read as timestamps. -/
theorem c55_only_strings (d : Nat) (text : Str) (j : Json) (hj : Text.IsText d text j) (t : GoTime)
    (h : timestampUnmarshal j = .ok t) : ∃ raw dec, j = .str raw dec := by
  obtain ⟨-, -, s, -, -, hs, -, rfl, -⟩ := hj
  have parsed : ∀ {m : Str}, goMiddle (Text.tree s).raw = .ok m → ∃ t, goParse m = some t := by
    intro m hm
    rw [timestampUnmarshal, hm, Res.bind_ok] at h
    cases hg : goParse m with
    | none => rw [hg] at h; simp at h
    | some t => exact ⟨t, rfl⟩
  cases s with
  | str body dec => exact ⟨_, _, rfl⟩
  | lit t =>
    rcases hs with rfl | rfl | rfl
    · obtain ⟨t, ht⟩ := parsed (m := b!"ru") rfl
      exact absurd (goParse_no84 ht) (by decide)
    · obtain ⟨t, ht⟩ := parsed (m := b!"als") rfl
      exact absurd (goParse_no84 ht) (by decide)
    · obtain ⟨t, ht⟩ := parsed (m := b!"ul") rfl
      exact absurd (goParse_no84 ht) (by decide)
  | num lit =>
    cases hm : goMiddle (Text.tree (.num lit)).raw with
    | ok m =>
      obtain ⟨t, ht⟩ := parsed hm
      have h84 := goParse_no84 ht
      simp only [Text.tree, Json.raw, goMiddle] at hm
      split at hm
      · simp at hm
      · simp only [Res.ok.injEq] at hm
        rw [← hm] at h84
        have := List.mem_of_mem_drop (List.dropLast_subset _ h84)
        rcases number_bytes hs _ this with h | h <;> exact absurd h (by decide)
    | err e => rw [timestampUnmarshal, hm] at h; simp at h
    | panic => rw [timestampUnmarshal, hm] at h; simp at h
  | arr w es =>
    have hm : goMiddle (Text.tree (.arr w es)).raw = .ok (Json.rawArr (Text.treeElems es)) := by
      simp [Text.tree, Json.raw, goMiddle]
    obtain ⟨t, ht⟩ := parsed hm
    cases es with
    | nil => exact absurd (goParse_no84 ht) (by decide)
    | cons w₁ v w₂ r =>
      obtain ⟨r', hr, e⟩ : ∃ r', (r' = [] ∨ ∃ r'', r' = 44 :: r'') ∧
          Json.rawArr (Text.treeElems (.cons w₁ v w₂ r)) = (Text.tree v).raw ++ r' := by
        cases r with
        | nil => exact ⟨[], .inl rfl, by simp [Text.treeElems, Json.rawArr]⟩
        | cons w₃ v' w₄ r =>
          exact ⟨_, .inr ⟨_, rfl⟩, by
            simp only [Text.treeElems, Json.rawArr, List.append_assoc, List.cons_append, List.nil_append]
            rfl⟩
      rw [e] at ht
      have no : ∀ c s', (Text.tree v).raw = c :: s' → IsDigit c ∨ c = 45 := by
        intro c s' e'
        rw [e'] at ht
        exact goParse_head ht
      obtain ⟨-, -, hv, -⟩ := hs
      cases v with
      | lit t' =>
        rcases hv with rfl | rfl | rfl
        · exact absurd (no _ _ rfl) (by decide)
        · exact absurd (no _ _ rfl) (by decide)
        · exact absurd (no _ _ rfl) (by decide)
      | num lit =>
        have := goParse_number (r := r') hv hr
        simp only [Text.tree, Json.raw] at ht
        rw [this] at ht
        simp at ht
      | str b' d' => exact absurd (no 34 _ (by simp only [Text.tree, Json.raw]; rfl)) (by decide)
      | arr w' es' => exact absurd (no 91 _ (by simp only [Text.tree, Json.raw]; rfl)) (by decide)
      | obj w' ms' => exact absurd (no 123 _ (by simp only [Text.tree, Json.raw]; rfl)) (by decide)
  | obj w ms =>
    have hm : goMiddle (Text.tree (.obj w ms)).raw = .ok (Json.rawObj (Text.treeMembers ms)) := by
      simp [Text.tree, Json.raw, goMiddle]
    obtain ⟨t, ht⟩ := parsed hm
    cases ms with
    | nil => exact absurd (goParse_no84 ht) (by decide)
    | cons w₁ b dec w₂ w₃ v w₄ r =>
      obtain ⟨r', e⟩ : ∃ r', Json.rawObj (Text.treeMembers (.cons w₁ b dec w₂ w₃ v w₄ r)) = 34 :: r' := by
        cases r with
        | nil => exact ⟨_, rfl⟩
        | cons => exact ⟨_, rfl⟩
      rw [e] at ht
      exact absurd (goParse_head ht) (by decide)

/-- **C55.** What is read and written again is the same instant in UTC, cut to milliseconds; so
timestamps that denote the same instant in different zones are written alike. -/
theorem c55_utc (x : Stamp) (h : x.Valid) (hz : x.zone.Within 23 59) (h0 : 0 ≤ x.nanos)
    (h1 : x.nanos < endOfTime) :
    ∃ (t : GoTime) (c : Civil), timestampUnmarshal (.str x.text x.text) = .ok t ∧ c.Valid ∧
      (c.millis : Int) = x.nanos / 1000000 ∧ timestampMarshal t = .str c.text c.text := by
  refine ⟨_, civilOf x.nanos, c55_read x h hz, ?_⟩
  obtain ⟨hv, hm, ht⟩ := civilOf_facts x.nanos h0 h1
  refine ⟨hv, ?_, ?_⟩
  · omega
  · have : timestampString { ns := x.nanos, off := x.zone.seconds } = (civilOf x.nanos).text := ht
    simp only [timestampMarshal, this]

/-- C55: half past one in the night of 29 February 2024 in a zone two and a half hours ahead, with a
fraction of eleven digits, is the evening before in UTC. -/
def exStamp : Stamp := ⟨2024, 2, 29, 1, 30, 5, [1, 2, 3, 4, 5, 6, 7, 8, 9, 9, 9], .ahead 2 30⟩

theorem exStamp_valid : exStamp.Valid := by
  constructor <;> decide

example : exStamp.zone.Within 23 59 ∧ exStamp.text = b!"2024-02-29T01:30:05.12345678999+02:30" ∧
    (timestampUnmarshal (.str exStamp.text exStamp.text)).okWith (fun t =>
      timestampString t = b!"2024-02-28T23:00:05.123Z") = true ∧
    exStamp.nanos % 1000000000 = 123456789 ∧
    timestampUnmarshal (.str (b!"2024-02-30T00:00:00Z") []) = .err .other ∧
    timestampUnmarshal (.str (b!"2024-02-29t00:00:00z") []) = .err .other ∧
    timestampUnmarshal (.str (b!"2016-12-31T23:59:60Z") []) = .err .other := by
  refine ⟨⟨by decide, by decide⟩, ?_⟩
  decide +kernel

end Stix
