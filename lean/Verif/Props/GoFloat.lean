import Verif.Lemmas.GoFloatText
import Verif.Props.Numbers

/-!
# C83: which texts have a canonical form

What the canonicaliser takes for a number is what `strconv.ParseFloat` takes for one, so it accepts
texts that are no JSON.  It is an internal package, and the library gives it nothing but the output of
`encoding/json`; so no user of the library can send it such a text.
-/

namespace Stix
open Spec Spec.Es6 Spec.Canon Canon Spec.GoFloat

/-- The token is a floating-point literal of Go, with a sign or without. -/
def FloatToken (t : Str) : Prop := ∃ neg e x, IsFloat t neg e x

/-- The token is a literal that is not rounded to `2 ^ 1024` or more. -/
def InRange (t : Str) : Prop := ∃ neg e x b, IsFloat t neg e x ∧ NumberFor x b ∧ b ≠ 0x7ff0000000000000

/-- The exponent has five digits at most. -/
def ShortExponent (t : Str) : Prop := ∀ neg e x, IsFloat t neg e x → -100000 < e ∧ e < 100000

/-- **C83** fails: texts that are no JSON have a canonical form.  The numbers in them have a plus sign, a
superfluous zero, no digit before the point or after it, an underscore, or are hexadecimal. -/
theorem c83_false : ∀ p ∈ [(b!"[+1]", b!"[1]"), (b!"[01]", b!"[1]"), (b!"[.5]", b!"[0.5]"), (b!"[5.]", b!"[5]"),
      (b!"[1_0]", b!"[10]"), (b!"[0x1p4]", b!"[16]")],
    transform strconv p.1 = some p.2 ∧ ∀ d j, ¬ Text.IsText d p.1 j := by
  intro p hp
  simp only [List.mem_cons, List.not_mem_nil, or_false] at hp
  rcases hp with rfl | rfl | rfl | rfl | rfl | rfl <;>
    refine ⟨by decide +kernel, Text.not_text (by decide +kernel) (by rfl)⟩

/-- **C83** (values).  A literal is taken for the double nearest to it, of two the even one; it is refused
if that would be `2 ^ 1024`. -/
theorem c83_value {t : Str} {neg : Bool} {e : Int} {x : ℚ} (h : IsFloat t neg e x) (hs : -100000 < e ∧ e < 100000)
    {b : UInt64} (hb : NumberFor x b) :
    strconv.parse t = if b = 0x7ff0000000000000 then none
      else some (if neg then b ||| 0x8000000000000000 else b) := by
  obtain ⟨k, hk, hp⟩ := Strconv.read_float h hs
  obtain rfl := Strconv.numberFor_unique hb hk
  show Strconv.parse t = _
  rw [hp]
  unfold Strconv.capped
  by_cases hlt : k < 0x7ff0000000000000
  · rw [if_pos hlt, if_pos hlt]
    rw [if_neg (c := UInt64.ofNat k = 0x7ff0000000000000)]
    intro e
    have : (UInt64.ofNat k).toNat = 0x7ff0000000000000 := by rw [e]; rfl
    rw [UInt64.toNat_ofNat_of_lt' (by unfold UInt64.size; omega)] at this
    omega
  · rw [if_neg hlt, if_neg hlt, if_pos rfl]

/-- **C83** (tokens).  Nothing but literals is taken for a number. -/
theorem c83_only_literals {t : Str} (h : FiniteNumber strconv t) : FloatToken t := by
  obtain ⟨x, hx, hf⟩ := h
  exact Strconv.only_float hx (by rw [ne_eq, Strconv.nonfinite_iff, not_not] at hf; exact hf)

theorem finite_signed {b : UInt64} (neg : Bool) (h : b ≤ 0x7ff0000000000000) (hi : b ≠ 0x7ff0000000000000) :
    F64Finite (if neg then b ||| 0x8000000000000000 else b) := by
  have h1 : b.toNat < 0x7ff0000000000000 := by
    have h2 : b.toNat ≤ 0x7ff0000000000000 := UInt64.le_iff_toNat_le.1 h
    have h3 : b.toNat ≠ 0x7ff0000000000000 := fun e => hi (UInt64.toNat_inj.1 e)
    omega
  unfold F64Finite f64Exp
  cases neg
  · simp only [Bool.false_eq_true, if_false]
    omega
  · simp only [if_true]
    have h2 : (b ||| 0x8000000000000000).toNat = 2 ^ 63 + b.toNat := by
      rw [UInt64.toNat_or, Nat.or_comm]
      have := Nat.two_pow_add_eq_or_of_lt (i := 63) (b := b.toNat) (by omega) 1
      rw [Nat.mul_one] at this
      exact this.symm
    rw [h2]
    omega

/-- **C83** (tokens).  Exactly the literals in the range of doubles are taken for numbers. -/
theorem c83_numbers {t : Str} (hs : ShortExponent t) : FiniteNumber strconv t ↔ InRange t := by
  constructor
  · intro h
    obtain ⟨neg, e, x, hx⟩ := c83_only_literals h
    obtain ⟨k, hk, -⟩ := Strconv.read_float hx (hs _ _ _ hx)
    refine ⟨neg, e, x, _, hx, hk, fun hinf => ?_⟩
    obtain ⟨b, hb, -⟩ := h
    rw [c83_value hx (hs _ _ _ hx) hk, if_pos hinf] at hb
    cases hb
  · rintro ⟨neg, e, x, b, hx, hb, hinf⟩
    refine ⟨_, by rw [c83_value hx (hs _ _ _ hx) hb, if_neg hinf], ?_⟩
    rw [ne_eq, Strconv.nonfinite_iff, not_not]
    exact finite_signed neg hb.1 hinf

mutual
theorem nums_and {P Q : Str → Prop} : ∀ {v : JV}, v.Nums P → v.Nums Q → v.Nums fun t => P t ∧ Q t
  | .lit _, _, _ => trivial
  | .num _, h, g => ⟨h, g⟩
  | .str _, _, _ => trivial
  | .arr _, h, g => by simp only [JV.Nums] at h g ⊢; exact listNums_and h g
  | .obj _, h, g => by simp only [JV.Nums] at h g ⊢; exact membersNums_and h g

theorem listNums_and {P Q : Str → Prop} : ∀ {l : List JV}, listNums P l → listNums Q l → listNums (fun t => P t ∧ Q t) l
  | [], _, _ => trivial
  | _ :: _, h, g => ⟨nums_and h.1 g.1, listNums_and h.2 g.2⟩

theorem membersNums_and {P Q : Str → Prop} : ∀ {l : List (Str × JV)}, membersNums P l → membersNums Q l →
    membersNums (fun t => P t ∧ Q t) l
  | [], _, _ => trivial
  | _ :: _, h, g => ⟨nums_and h.1 g.1, membersNums_and h.2 g.2⟩
end

/-- **C83** (acceptance).  A text with the structure of a JSON document, and with names that are Unicode
text, has a canonical form exactly if no object in it has two members of the same name and its numbers
are literals in the range of doubles. -/
theorem c83_accepts {text : Str} {v : JV} (h : Denotes text v) (hu : v.Names Unicode) (hs : v.Nums ShortExponent) :
    (∃ out, transform strconv text = some out) ↔ v.NoDup ∧ v.Nums InRange := by
  rw [transform_denotes h]
  constructor
  · rintro ⟨out, hc⟩
    exact ⟨canonV_nodup _ v out hc, nums_mono (fun t ht => (c83_numbers ht.2).1 ht.1) (nums_and (canonV_nums _ v out hc) hs)⟩
  · rintro ⟨hd, hn⟩
    exact canonV_accepts _ v hd hu (nums_mono (fun t ht => (c83_numbers ht.2).2 ht.1) (nums_and hn hs))

/-- **C83**, as far as it holds: a text that has a canonical form has the structure of a JSON document
without repeated names, its numbers are literals of Go, and it is JSON if these are numbers of JSON.
Missing: that they are. -/
theorem c83_accepted_partial {text out : Str} (h : transform strconv text = some out) :
    ∃ v, Denotes text v ∧ v.NoDup ∧ v.Nums FloatToken ∧ (v.Nums Text.Number → ∃ d j, Text.IsText d text j) := by
  obtain ⟨v, hd, h1, h2⟩ := Props.Canon.c44_only_documents strconv h
  refine ⟨v, hd, h1, nums_mono (fun t => c83_only_literals) h2, fun hn => ?_⟩
  obtain ⟨w, w', s, hw, hw', hs, -, rfl, rfl⟩ := hd
  obtain ⟨s', hv, ht⟩ := Text.valid_of_wf s hs hn
  exact ⟨_, _, w, w', s', hw, hw', hv, le_rfl, rfl, by rw [ht]⟩

/-! ### The hypotheses can be met -/

/-- A hexadecimal literal. -/
example : IsFloat (b!"-0x_1_0.8p-1") true (-1) (33 / 4) := by
  refine ⟨true, ⟨b!"-", b!"0x", b!"10", b!".", b!"8", b!"p-1", [1, 0], [8], rfl, .inr ⟨rfl, rfl⟩, .inl rfl,
    .cons ⟨.inl rfl, by decide⟩ (.cons ⟨.inl rfl, by decide⟩ .nil), .cons ⟨.inl rfl, by decide⟩ .nil, by simp,
    .inl rfl, .inr ⟨112, b!"-", b!"1", true, [1], rfl, by decide, .inr ⟨rfl, rfl⟩,
      .cons ⟨.inl rfl, by decide⟩ .nil, by simp, rfl⟩, ?_⟩, ?_⟩
  · norm_num [number, base]
  · exact (Strconv.underscoreOK_hex (s := b!"-") (neg := true) (.inr ⟨rfl, rfl⟩) (x := 120) (.inl rfl)
      (r := b!"_1_0.8p-1")).1 (by decide)

theorem number_lt : ∀ {t : Str} {ds : List Nat} (n : Nat), Digits false t ds →
    ds.foldl (fun n d => n * base false + d) n < (n + 1) * 10 ^ t.length
  | _, _, n, .nil => by simp
  | _, _, n, .cons (a := c) (b := d) (l₁ := t) (l₂ := ds) h hr => by
    have := number_lt (n * base false + d) hr
    have hd : d < 10 := h.2
    rw [List.foldl_cons, List.length_cons, pow_succ]
    refine this.trans_le ?_
    have : n * base false + d + 1 ≤ (n + 1) * 10 := by unfold base; simp only [Bool.false_eq_true, if_false]; omega
    calc _ ≤ (n + 1) * 10 * 10 ^ t.length := Nat.mul_le_mul_right _ this
      _ = _ := by ring

/-- A short token has a short exponent. -/
theorem shortExponent_of_length {t : Str} (h : t.length ≤ 6) : ShortExponent t := by
  rintro neg e x ⟨hex, ⟨s, pre, i, pt, f, ex, is, fs, ht, -, -, -, -, -, -, hexp, -⟩, -⟩
  have hl : (bare t).length ≤ t.length := List.length_filter_le _ _
  rcases hexp with ⟨-, -, rfl⟩ | ⟨c, sg, ds, ng, es, rfl, -, -, hd, -, rfl⟩
  · decide
  · rw [ht] at hl
    simp only [List.length_append, List.length_cons] at hl
    have h1 := number_lt 0 hd
    have h2 : 10 ^ ds.length ≤ 10 ^ 5 := Nat.pow_le_pow_right (by decide) (by omega)
    have h3 : number false es < 100000 := by unfold number; omega
    split <;> omega

/-- `[1_0]` -/
def underscored : Syn := .arr [] (.cons [] (.num (b!"1_0")) [] .nil)

example : Denotes (b!"[1_0]") underscored.value ∧ underscored.value.Names Unicode ∧
    underscored.value.Nums ShortExponent ∧ underscored.value.NoDup ∧ underscored.value.Nums InRange := by
  have h : ShortExponent (b!"1_0") := shortExponent_of_length (by decide)
  refine ⟨⟨[], [], underscored, white_nil, white_nil, ⟨white_nil, white_nil, ⟨by decide, by unfold Spec.Canon.Literal; decide, by decide⟩,
    white_nil, trivial⟩, trivial, rfl, rfl⟩, ⟨trivial, trivial⟩, ⟨h, trivial⟩, ⟨trivial, trivial⟩, ⟨?_, trivial⟩⟩
  exact (c83_numbers h).1 ⟨0x4024000000000000, by decide +kernel, by decide⟩

/-- Several at once. -/
example : transform strconv (b!"{\"b\": -0x_1_0.8p-1, \"a\": [1_000.5e1, .5, 5., +1, 01]}") =
    some (b!"{\"a\":[10005,0.5,5,1,1],\"b\":-8.25}") := by decide +kernel

/-- Not literals: underscores must separate digits; hexadecimal numbers need an exponent. -/
example : ∀ t ∈ [b!"[1_]", b!"[_1]", b!"[1__0]", b!"[1_.5]", b!"[0x1]", b!"[0x_p1]", b!"[0b1]", b!"[1e]", b!"[.]", b!"[inf]", b!"[1e999]"],
    transform strconv t = none := by decide +kernel

end Stix
