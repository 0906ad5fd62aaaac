import Verif.Lemmas.TextParse
import Verif.Lemmas.Leaf

/-!
# What is written can be read

The trees the encoder builds are printed as JSON texts that denote them.
-/

namespace Stix.Text
open Stix Stix.Canon Stix.Spec.Canon Stix.Spec.Text

/-! ### Strings -/

/-- ASCII characters that JSON writes as they are. -/
def Plain (s : Str) : Prop := ∀ c ∈ s, 32 ≤ c ∧ c < 128 ∧ c ≠ 34 ∧ c ≠ 92

theorem reads_plain {s : Str} (h : Plain s) : Reads s s := by
  induction s with
  | nil => exact .nil
  | cons c s ih =>
    obtain ⟨h1, h2, h3, h4⟩ := h c List.mem_cons_self
    exact .ascii h1 h2 h3 h4 (ih fun x hx => h x (List.mem_cons_of_mem _ hx))

theorem plain_append {s t : Str} (h : Plain s) (h' : Plain t) : Plain (s ++ t) := by
  intro c hc
  rcases List.mem_append.1 hc with hc | hc
  · exact h c hc
  · exact h' c hc

theorem hexLower_fin : ∀ n : Fin 128,
    (b!"0123456789abcdef")[n.val / 16]? = some (hexLower (UInt8.ofNat n / 16)) ∧
    (b!"0123456789abcdef")[n.val % 16]? = some (hexLower (UInt8.ofNat n % 16)) := by
  decide +kernel

theorem encode_ascii_fin : ∀ n : Fin 128,
    String.utf8EncodeChar (Char.ofNat n) = [UInt8.ofNat n] ∧ (Char.ofNat n).toNat = n.val := by
  decide +kernel

theorem encode_ascii {b : UInt8} (h : b < 128) :
    String.utf8EncodeChar (Char.ofNat b.toNat) = [b] ∧ (Char.ofNat b.toNat).toNat = b.toNat := by
  have := encode_ascii_fin ⟨b.toNat, by rw [UInt8.lt_iff_toNat_lt] at h; exact h⟩
  simpa using this

theorem isHex4_control {b : UInt8} (h : b < 128) :
    IsHex4 [48, 48, hexLower (b / 16), hexLower (b % 16)] b.toNat := by
  have hb : b.toNat < 128 := by rw [UInt8.lt_iff_toNat_lt] at h; exact h
  have := hexLower_fin ⟨b.toNat, hb⟩
  simp only [UInt8.ofNat_toNat] at this
  exact ⟨48, 48, _, _, 0, 0, b.toNat / 16, b.toNat % 16, rfl, .inl rfl, .inl rfl, .inl this.1,
    .inl this.2, by omega⟩

theorem reads_jsonQuoteAux : ∀ (n : Nat) (s : Str), s.length ≤ n →
    Reads (jsonQuoteAux n s) (sanitizeAux n s)
  | 0, [], _ => .nil
  | 0, _ :: _, h => by simp at h
  | n + 1, [], _ => .nil
  | n + 1, b :: rest, h => by
    simp only [List.length_cons] at h
    unfold jsonQuoteAux sanitizeAux
    by_cases hb : b < 0x80
    · have ih := reads_jsonQuoteAux n rest (by omega)
      have ht : utf8Tail b rest = some 0 := by unfold utf8Tail; simp only; rw [if_pos hb]
      rw [if_pos hb, ht]
      show Reads _ (b :: sanitizeAux n rest)
      split
      · next h1 =>
        rcases h1 with rfl | rfl
        · exact .short (l := 34) (x := 34) (by decide) ih
        · exact .short (l := 92) (x := 92) (by decide) ih
      split
      · next h1 => subst h1; exact .short (l := 110) (x := 10) (by decide) ih
      split
      · next h1 => subst h1; exact .short (l := 114) (x := 13) (by decide) ih
      split
      · next h1 => subst h1; exact .short (l := 116) (x := 9) (by decide) ih
      split
      · obtain ⟨e1, e2⟩ := encode_ascii hb
        have := Reads.hex (c := Char.ofNat b.toNat) (h := [48, 48, hexLower (b / 16), hexLower (b % 16)])
          (by rw [e2]; have := b.toNat_lt; omega) (by rw [e2]; exact isHex4_control hb) ih
        rw [e1] at this
        exact this
      · next h1 h2 h3 h4 h5 =>
        simp only [not_or, UInt8.not_lt] at h1 h5
        exact .ascii h5.1 hb h1.1 h1.2 ih
    · rw [if_neg hb]
      cases ht : utf8Tail b rest with
      | none =>
        have ih := reads_jsonQuoteAux n rest (by omega)
        exact Reads.hex (c := '�') (h := b!"fffd") (by decide)
          ⟨102, 102, 102, 100, 15, 15, 15, 13, rfl, .inl rfl, .inl rfl, .inl rfl, .inl rfl, rfl⟩ ih
      | some k =>
        have ih := reads_jsonQuoteAux n (rest.drop k) (by simp; omega)
        obtain ⟨c, hc, _⟩ := utf8Tail_some ht
        dsimp only
        have hcons : b :: rest.take k ++ sanitizeAux n (rest.drop k) =
            (b :: rest.take k) ++ sanitizeAux n (rest.drop k) := rfl
        split
        · next h1 =>
          rw [h1]
          exact Reads.hex (c := Char.ofNat 0x2028) (h := b!"2028") (by decide)
            ⟨50, 48, 50, 56, 2, 0, 2, 8, rfl, .inl rfl, .inl rfl, .inl rfl, .inl rfl, by decide⟩ ih
        split
        · next h1 =>
          rw [h1]
          exact Reads.hex (c := Char.ofNat 0x2029) (h := b!"2029") (by decide)
            ⟨50, 48, 50, 57, 2, 0, 2, 9, rfl, .inl rfl, .inl rfl, .inl rfl, .inl rfl, by decide⟩ ih
        · rw [hc]
          refine .char ?_ ih
          by_contra hlt
          have hlt : c.toNat < 128 := by omega
          have e := (encode_ascii_fin ⟨c.toNat, hlt⟩).1
          have hcc : Char.ofNat c.toNat = c := by simp
          simp only [hcc] at e
          rw [e] at hc
          have := (List.cons.inj hc).1
          apply hb
          rw [this, UInt8.lt_iff_toNat_lt]
          simp; omega

/-- A string as written by `json.Marshal` reads as the string with what is not UTF-8 replaced. -/
theorem reads_jsonQuote (s : Str) : Reads (jsonQuote s) (sanitize s) :=
  reads_jsonQuoteAux _ s le_rfl

/-! ### Numbers -/

theorem natLitAux_head : ∀ (f n : Nat), n < 2 ^ f → 0 < n → (natLitAux f n).head? ≠ some 48 := by
  intro f
  induction f with
  | zero => intro n h h'; simp at h; omega
  | succ f ih =>
    intro n hn h0
    rw [natLitAux]
    split
    · next h =>
      have : ∀ m : Fin 10, 0 < m.val → [(48 + m.val).toUInt8].head? ≠ some 48 := by decide +kernel
      exact this ⟨n, h⟩ h0
    · next h =>
      have h2 : n / 10 < 2 ^ f := by rw [pow_succ] at hn; omega
      have hi := ih (n / 10) h2 (by omega)
      have hne : natLitAux f (n / 10) ≠ [] := by
        cases f with
        | zero => simp at h2; omega
        | succ f => rw [natLitAux]; split <;> simp
      cases hh : natLitAux f (n / 10) with
      | nil => exact absurd hh hne
      | cons a l => rw [hh] at hi; simpa using hi

theorem intPart_natLit (n : Nat) : IntPart (natLit n) := by
  rcases Nat.eq_zero_or_pos n with rfl | h
  · exact .inl rfl
  · exact .inr ⟨⟨(natLit_spec n).1, (natLit_spec n).2.1⟩, natLitAux_head _ _ Nat.lt_log2_self h⟩

theorem number_intLit (i : Int) : Number (intLit i) := by
  unfold intLit
  split
  · exact ⟨b!"-", natLit i.natAbs, [], [], by simp, .inr rfl, intPart_natLit _, .inl rfl, .inl rfl⟩
  · exact ⟨[], natLit i.natAbs, [], [], by simp, .inl rfl, intPart_natLit _, .inl rfl, .inl rfl⟩

theorem cleanExp_number {i r ds : Str} {sgn : UInt8}
    (h4 : sgn ∈ b!"+-") (h5 : 2 ≤ ds.length) (h6 : ∀ c ∈ ds, IsDigit c) :
    ∃ e, cleanExp (i ++ r ++ 101 :: sgn :: ds) = i ++ r ++ e ∧ ExpPart e := by
  have hs : ([sgn] : Str) = [] ∨ ([sgn] : Str) = b!"+" ∨ ([sgn] : Str) = b!"-" := by
    simp only [List.mem_cons, List.not_mem_nil, or_false] at h4
    rcases h4 with rfl | rfl
    · exact .inr (.inl rfl)
    · exact .inr (.inr rfl)
  have hne : ds ≠ [] := by rintro rfl; simp at h5
  generalize hm : i ++ r = m
  unfold cleanExp
  simp only
  split
  · next hc =>
    obtain ⟨_, c1, -, -⟩ := hc
    have hlen : (m ++ 101 :: sgn :: ds).length = m.length + ds.length + 2 := by simp; omega
    have hds : ds.length = 2 := by
      by_contra hne
      have : m.length + ds.length + 2 - 4 = m.length + 2 + (ds.length - 4) ∧ 4 ≤ ds.length ∨ ds.length = 3 := by omega
      rw [hlen] at c1
      rcases this with ⟨h, h'⟩ | h
      · rw [h, List.getElem?_append_right (by omega)] at c1
        rw [show m.length + 2 + (ds.length - 4) - m.length = (ds.length - 4) + 2 by omega] at c1
        simp only [List.getElem?_cons_succ] at c1
        exact absurd (h6 101 (List.mem_of_getElem? c1)) (by decide)
      · rw [show m.length + ds.length + 2 - 4 = m.length + 1 by omega, List.getElem?_append_right (by omega)] at c1
        rw [show m.length + 1 - m.length = 1 by omega] at c1
        simp only [List.getElem?_cons_succ, List.getElem?_cons_zero, Option.some.injEq] at c1
        subst c1
        exact absurd h4 (by decide)
    match ds, hds with
    | [d, e], _ =>
      refine ⟨[101, sgn, e], ?_, .inr ⟨101, [sgn], [e], rfl, .inl rfl, hs, by simp, ?_⟩⟩
      · rw [hlen]
        simp only [List.length_cons, List.length_nil]
        rw [show m.length + (0 + 1 + 1) + 2 - 2 = m.length + 2 by omega,
          show m.length + (0 + 1 + 1) + 2 - 1 = m.length + 3 by omega]
        rw [List.take_append, List.drop_append, List.take_of_length_le (l := m) (by omega),
          List.drop_eq_nil_of_le (as := m) (by omega)]
        simp
      · intro c hc
        exact h6 c (by simp only [List.mem_singleton] at hc; simp [hc])
  · exact ⟨101 :: sgn :: ds, rfl, .inr ⟨101, [sgn], ds, rfl, .inl rfl, hs, hne, h6⟩⟩

theorem number_floatLit {F : FloatFmt} (W : WritesNumbers F) {x : F64} (h : finite x = true) :
    Number (floatLit F x) := by
  obtain ⟨i, r, e, ht, h1, h2, h3⟩ : ∃ i r e, (if x &&& 0x7fffffffffffffff = 0 then b!"0"
      else if x &&& 0x7fffffffffffffff < 0x444B1AE4D6E2EF50 ∧
        0x3EB0C6F7A0B5ED8D ≤ x &&& 0x7fffffffffffffff then F.formatF (x &&& 0x7fffffffffffffff)
      else cleanExp (F.formatE (x &&& 0x7fffffffffffffff))) = i ++ r ++ e ∧ IntPart i ∧ FracPart r ∧
        ExpPart e := by
    split
    · exact ⟨b!"0", [], [], rfl, .inl rfl, .inl rfl, .inl rfl⟩
    · next h0 =>
      have hp : PosFinite (x &&& 0x7fffffffffffffff) := posFinite_and (by simpa [finite] using h) h0
      split
      · obtain ⟨i, r, e, h1, h2⟩ := W.f _ hp
        exact ⟨i, r, [], by simpa using e, h1, h2, .inl rfl⟩
      · obtain ⟨i, r, sgn, ds, e, h1, h2, h3, h4, h5⟩ := W.e _ hp
        obtain ⟨e', h6, h7⟩ := cleanExp_number (i := i) (r := r) h3 h4 h5
        exact ⟨i, r, e', by rw [e, h6], h1, h2, h7⟩
  unfold floatLit
  simp only
  split
  · exact ⟨b!"-", i, r, e, by rw [ht]; rfl, .inr rfl, h1, h2, h3⟩
  · exact ⟨[], i, r, e, by rw [ht]; rfl, .inl rfl, h1, h2, h3⟩

/-! ### Times and bytes -/

theorem digit_plain : ∀ n : Fin 10, ∀ c ∈ [(48 : UInt8) + n.val.toUInt8],
    32 ≤ c ∧ c < 128 ∧ c ≠ 34 ∧ c ≠ 92 := by decide +kernel

theorem decPadGo_plain : ∀ (f n : Nat) (acc : Str), Plain acc → Plain (decPad.decPadGo f n acc) := by
  intro f
  induction f with
  | zero => intro n acc h; exact h
  | succ f ih =>
    intro n acc h
    cases n with
    | zero => exact h
    | succ n =>
      rw [decPad.decPadGo]
      refine ih _ _ ?_
      intro c hc
      rcases List.mem_cons.1 hc with rfl | hc
      · exact digit_plain ⟨(n + 1) % 10, by omega⟩ _ (by simp)
      · exact h c hc

theorem decPad_plain : ∀ (w n : Nat), Plain (decPad w n) := by
  intro w
  induction w with
  | zero =>
    intro n
    rw [decPad]
    split
    · intro c hc; simp at hc
    · exact decPadGo_plain _ _ _ (by intro c hc; simp at hc)
  | succ w ih =>
    intro n
    rw [decPad]
    exact plain_append (ih _) (digit_plain ⟨n % 10, by omega⟩)

theorem plain_lit {s : Str} (h : s.all (fun c => 32 ≤ c && c < 128 && c ≠ 34 && c ≠ 92) = true) :
    Plain s := by
  intro c hc
  have := List.all_eq_true.1 h c hc
  simpa [and_assoc] using this

theorem timestamp_plain (t : GoTime) : Plain (timestampString t) := by
  unfold timestampString goFormat appendInt
  dsimp only
  rw [if_pos rfl]
  repeat' first
    | with_reducible exact decPad_plain _ _
    | with_reducible apply plain_append
  all_goals first
    | exact plain_lit (by decide)
    | (split
       · exact plain_append (plain_lit (by decide)) (decPad_plain _ _)
       · exact decPad_plain _ _)

theorem b64_plain (s : Str) : Plain (b64Encode s) := by
  have hp : ∀ n < 64, 32 ≤ b64Char n ∧ b64Char n < 128 ∧ b64Char n ≠ 34 ∧ b64Char n ≠ 92 := by
    decide +kernel
  have he : (32 : UInt8) ≤ 61 ∧ (61 : UInt8) < 128 ∧ (61 : UInt8) ≠ 34 ∧ (61 : UInt8) ≠ 92 := by decide
  fun_induction b64Encode s with
  | case1 => intro c hc; simp at hc
  | case2 a =>
    have ha := a.toNat_lt
    intro c hc
    simp only [List.mem_cons, List.not_mem_nil, or_false] at hc
    rcases hc with rfl | rfl | rfl | rfl
    · exact hp _ (by omega)
    · exact hp _ (by omega)
    · exact he
    · exact he
  | case3 a b =>
    have ha := a.toNat_lt
    have hb := b.toNat_lt
    intro c hc
    simp only [List.mem_cons, List.not_mem_nil, or_false] at hc
    rcases hc with rfl | rfl | rfl | rfl
    · exact hp _ (by omega)
    · exact hp _ (by omega)
    · exact hp _ (by omega)
    · exact he
  | case4 a b c rest ih =>
    have ha := a.toNat_lt
    have hb := b.toNat_lt
    have hc := c.toNat_lt
    intro x hx
    simp only [List.mem_cons] at hx
    rcases hx with rfl | rfl | rfl | rfl | hx
    · exact hp _ (by omega)
    · exact hp _ (by omega)
    · exact hp _ (by omega)
    · exact hp _ (by omega)
    · exact ih x hx

/-! ### Trees -/

mutual
/-- Strings with one of their spellings, numbers of the grammar, names in UTF-8. -/
def Printable : Json → Prop
  | .null => True
  | .bool _ => True
  | .num t => Number t
  | .str raw dec => Reads raw dec
  | .arr l => PrintableArr l
  | .obj m => PrintableObj m

/-- Elements. -/
def PrintableArr : List Json → Prop
  | [] => True
  | j :: l => Printable j ∧ PrintableArr l

/-- Members. -/
def PrintableObj : List (Str × Json) → Prop
  | [] => True
  | (k, j) :: m => ValidUTF8 k ∧ Printable j ∧ PrintableObj m
end

mutual
theorem print : ∀ (j : Json), Printable j →
    ∃ s, Valid s ∧ tree s = j ∧ depth s = height j ∧ s.text = j.raw
  | .null, _ => ⟨.lit (b!"null"), by simp [Valid], by simp [tree], rfl, rfl⟩
  | .bool true, _ => ⟨.lit (b!"true"), by simp [Valid], by simp [tree], rfl, rfl⟩
  | .bool false, _ => ⟨.lit (b!"false"), by simp [Valid], by simp [tree], rfl, rfl⟩
  | .num t, h => ⟨.num t, h, rfl, rfl, rfl⟩
  | .str raw dec, h => ⟨.str raw dec, h, rfl, rfl, rfl⟩
  | .arr l, h => by
    obtain ⟨es, h1, h2, h3, h4⟩ := printArr l h
    exact ⟨.arr [] es, ⟨white_nil, h1⟩, by rw [tree, h2], by rw [depth, height, h3],
      by rw [Syn.text, Json.raw, h4, List.append_nil]⟩
  | .obj m, h => by
    obtain ⟨ms, h1, h2, h3, h4⟩ := printObj m h
    exact ⟨.obj [] ms, ⟨white_nil, h1⟩, by rw [tree, h2], by rw [depth, height, h3],
      by rw [Syn.text, Json.raw, h4, List.append_nil]⟩

theorem printArr : ∀ (l : List Json), PrintableArr l →
    ∃ es, ValidElems es ∧ treeElems es = l ∧ depthElems es = heightArr l ∧
      (b!",").intercalate es.texts = Json.rawArr l
  | [], _ => ⟨.nil, trivial, rfl, rfl, rfl⟩
  | [j], h => by
    obtain ⟨s, h1, h2, h3, h4⟩ := print j h.1
    refine ⟨.cons [] s [] .nil, ⟨white_nil, h1, white_nil, trivial⟩, by simp [treeElems, h2],
      by simp [depthElems, heightArr, h3], ?_⟩
    simp [Elems.texts, Json.rawArr, h4, List.intercalate]
  | j :: k :: l, h => by
    obtain ⟨s, h1, h2, h3, h4⟩ := print j h.1
    obtain ⟨es, g1, g2, g3, g4⟩ := printArr (k :: l) h.2
    refine ⟨.cons [] s [] es, ⟨white_nil, h1, white_nil, g1⟩, by simp [treeElems, h2, g2],
      by rw [depthElems, heightArr, h3, g3], ?_⟩
    cases es with
    | nil => simp [treeElems] at g2
    | cons w v w' r =>
      rw [Json.rawArr, ← g4, ← h4]
      · simp [Elems.texts, List.intercalate]
      · simp

theorem printObj : ∀ (m : List (Str × Json)), PrintableObj m →
    ∃ ms, ValidMembers ms ∧ treeMembers ms = m ∧ depthMembers ms = heightObj m ∧
      (b!",").intercalate ms.texts = Json.rawObj m
  | [], _ => ⟨.nil, trivial, rfl, rfl, rfl⟩
  | [(k, j)], h => by
    obtain ⟨s, h1, h2, h3, h4⟩ := print j h.2.1
    have hk := reads_jsonQuote k
    rw [show sanitize k = k from h.1] at hk
    refine ⟨.cons [] (jsonQuote k) k [] [] s [] .nil, ⟨white_nil, hk, white_nil, white_nil, h1,
      white_nil, trivial⟩, by simp [treeMembers, h2], by simp [depthMembers, heightObj, h3], ?_⟩
    simp [Members.texts, Json.rawObj, h4, List.intercalate]
  | (k, j) :: e :: m, h => by
    obtain ⟨s, h1, h2, h3, h4⟩ := print j h.2.1
    obtain ⟨ms, g1, g2, g3, g4⟩ := printObj (e :: m) h.2.2
    have hk := reads_jsonQuote k
    rw [show sanitize k = k from h.1] at hk
    refine ⟨.cons [] (jsonQuote k) k [] [] s [] ms, ⟨white_nil, hk, white_nil, white_nil, h1,
      white_nil, g1⟩, by simp [treeMembers, h2, g2], by rw [depthMembers, heightObj, h3, g3], ?_⟩
    cases ms with
    | nil => simp [treeMembers] at g2
    | cons w b d w₂ w₃ v w₄ r =>
      rw [Json.rawObj, ← g4, ← h4]
      · simp [Members.texts, List.intercalate]
      · simp
end

/-- The text of a printable tree denotes it. -/
theorem isText_raw {j : Json} (h : Printable j) {d : Nat} (hd : height j ≤ d) : IsText d j.raw j := by
  obtain ⟨s, h1, h2, h3, h4⟩ := print j h
  exact ⟨[], [], s, white_nil, white_nil, h1, by omega, h2.symm, by simp [h4]⟩

end Stix.Text
