import Verif.Lemmas.Es6Read
import Verif.Props.Canon
import Verif.Props.Built

/-!
# C68: numbers are written as ECMAScript writes them

`strconv` here is the model of the standard library's package (`Model/Strconv.lean`), not an assumption;
`Spec/Es6.lean` states the text of a number without it.
-/

namespace Stix
open Spec StixObject Spec.Es6 Spec.Canon Canon
open Text (height)

/-- **C68.** The canonicaliser has a text for a double exactly if it is finite, and the text is the one
ECMAScript has for it (`NumberText`): there is no other. -/
theorem c68_text (x : UInt64) (t : Str) :
    numberToJSON strconv x = some t ↔ F64Finite x ∧ NumberText x t := by
  constructor
  · intro h
    have hx : F64Finite x := by
      by_contra hc
      rw [numberToJSON, if_pos ((Strconv.nonfinite_iff x).2 hc)] at h
      simp at h
    obtain ⟨u, h1, h2⟩ := Strconv.numberToJSON_text hx
    rw [h] at h1
    rw [Option.some.inj h1]
    exact ⟨hx, h2⟩
  · rintro ⟨hx, ht⟩
    obtain ⟨u, h1, h2⟩ := Strconv.numberToJSON_text hx
    rw [h1, Strconv.numberText_unique hx ht h2]

/-- **C68.** A number of JSON is read as the double nearest to it, of two the even one; it is refused if
that would be `2 ^ 1024`.  (An exponent of six digits in a text of more than nine thousand bytes may be
read as another exponent.) -/
theorem c68_read (t : Str) (neg : Bool) (e : Int) (x : ℚ) (h : Written t neg e x)
    (hs : -100000 < e ∧ e < 100000 ∨ t.length ≤ 9000) (b : UInt64) (hb : NumberFor x b) :
    strconv.parse t = if b = 0x7ff0000000000000 then none
      else some (if neg then b ||| 0x8000000000000000 else b) := by
  obtain ⟨k, hk, hp⟩ := Strconv.parse_written h hs
  obtain rfl := Strconv.numberFor_unique hb hk
  show Strconv.parse t = _
  rw [hp]
  unfold Strconv.capped
  by_cases hlt : k < 0x7ff0000000000000
  · rw [if_pos hlt, if_pos hlt]
    rw [if_neg (c := UInt64.ofNat k = 0x7ff0000000000000)]
    intro e
    have : (UInt64.ofNat k).toNat = 0x7ff0000000000000 := by rw [e]; rfl
    rw [UInt64.toNat_ofNat_of_lt' (by unfold UInt64.size; omega)] at this
    omega
  · rw [if_neg hlt, if_neg hlt, if_pos rfl]

/-- Every number of JSON has a nearest double. -/
theorem c68_nearest_exists (t : Str) (neg : Bool) (e : Int) (x : ℚ) (h : Written t neg e x) :
    ∃ b, NumberFor x b ∧ ∀ c, NumberFor x c → c = b := by
  obtain ⟨ip, fp, ep, f, es, -, -, -, -, -, -, -, rfl⟩ := h
  exact ⟨_, Strconv.numberFor_capped _ _, fun c hc => Strconv.numberFor_unique hc (Strconv.numberFor_capped _ _)⟩

/-- The text is the one ECMAScript has for a double. -/
def Es6Text (u : Str) : Prop := ∃ x, F64Finite x ∧ NumberText x u

theorem settled_es6 {u : Str} (h : Settled strconv u) : Es6Text u := by
  unfold Settled at h
  rw [numText, Option.bind_eq_some_iff] at h
  obtain ⟨x, -, ht⟩ := h
  exact ⟨x, (c68_text x u).1 ht⟩

/-- **C68.** The canonical bytes of a document are those of the same value with the names in order and
with each number as ECMAScript writes it. -/
theorem c68_canonical {text out : Str} (h : transform strconv text = some out) :
    ∃ v v', Denotes text v ∧ out = v'.print ∧ v'.Sorted ∧ v'.Nums Es6Text ∧ Same (SameNumber strconv) v v' := by
  obtain ⟨v, hd, -⟩ := transform_sound h
  have hc := h
  rw [transform_denotes hd] at hc
  have hd' := hd
  obtain ⟨w, w', s, hw, hw', hs, hcomp, rfl, rfl⟩ := hd
  obtain ⟨v', e, hsort, hnum, hsame, -⟩ := canon_syn Strconv.strconv_laws s out hs hc
  exact ⟨_, v', hd', e, hsort, nums_mono (fun _ => settled_es6) hnum, same_mono (fun _ _ h => h.1) hsame⟩

/-- **C68.** In the JSON of objects, numbers are written in the same way, except that the negative zero
keeps its sign. -/
theorem c68_marshal (x : F64) :
    (¬ F64Finite x → enc strconv .flt (.flt x) = none) ∧
    (F64Finite x → ∃ t, enc strconv .flt (.flt x) = some (.num t) ∧
      if x = 0x8000000000000000 then t = b!"-0" else NumberText x t) := by
  constructor
  · intro h
    rw [← finite_iff] at h
    simp only [enc, h]
    rfl
  · intro h
    refine ⟨floatLit strconv x, by simp only [enc, (finite_iff x).2 h, if_true], ?_⟩
    split
    · next hz => subst hz; decide +kernel
    · next hz => exact Strconv.floatLit_text h hz

/-! ### What was assumed of `strconv` elsewhere -/

/-- C68: the other theorems' assumptions about `strconv` hold of its model. -/
theorem c68_assumptions : FloatLaws strconv ∧ IntegersParse strconv ∧ Text.WritesNumbers strconv :=
  ⟨Strconv.strconv_laws, Strconv.strconv_integers, Strconv.strconv_writes⟩

/-- **C43** with nothing assumed. -/
theorem c43_strconv {text out : Str} (h : transform strconv text = some out) :
    (∃ v v', Denotes text v ∧ out = v'.print ∧ v'.Sorted ∧ Same (SameNumber strconv) v v') ∧
      transform strconv out = some out :=
  Props.Canon.c43_accepted strconv Strconv.strconv_laws h

variable {U : Type} [UserType U]

/-- **C29** with nothing assumed; missing is what is missing in `c29_text_partial`. -/
theorem c29_strconv_partial (o : Obj) (h : Sound o) (hh : ∀ j, marshalObj strconv o = some j → height j < 10000)
    (opts : List (CollOption U)) (hp : NoParser opts (getType o)) :
    ∃ j, marshalObj strconv o = some j ∧ Text.IsText (height j) j.raw j ∧
      ∃ c o', fromJSONText strconv opts (b!"[" ++ j.raw ++ b!"]") = .ok c ∧
      (∀ id a, c.get id = some a ↔ id = getID o ∧ a = .lib o') ∧ Survives o o' ∧
      (CollOption.dropCustom ∉ opts → o.sid ≠ .ExtensionDefinition → extras o' = extras o) ∧
      (CollOption.dropCustom ∈ opts ∨ o.sid = .ExtensionDefinition ∨ extras o = [] →
        o'.extra = none) :=
  c29_text_partial Strconv.strconv_laws Strconv.strconv_writes Strconv.strconv_integers o h hh opts hp

/-- **C36** with nothing assumed; missing is what is missing in `c36_text_partial`. -/
theorem c36_strconv_partial (ns : Bool) (h : List (Any U))
    (hs : ∀ id a, ((Coll.new ns).addAll h).get id = some a → ∃ o, a = .lib o ∧ Sound o)
    (rnd : List UInt8) (hr : rnd.length = 16) (b : Res GV)
    (hb : toBundle strconv rnd ((Coll.new ns).addAll h) b)
    (hh : ∀ v doc, b = .ok v → enc strconv tyBundle v = some doc → height doc ≤ 10000)
    (opts : List (CollOption U)) (hn : NoParsers opts) :
    ∃ v doc c os os', b = .ok v ∧ enc strconv tyBundle v = some doc ∧
      Text.IsText 10000 doc.raw doc ∧ fromJSONText strconv opts doc.raw = .ok c ∧
      ((Coll.new ns).addAll h).AllObjects (os.map fun o => some (.lib o)) ∧
      CarriedAll (CollOption.dropCustom ∈ opts) [] os os' ∧
      os'.map getID = os.map getID ∧
      (∀ id a, c.get id = some a ↔ ∃ o' ∈ os', a = .lib o' ∧ getID o' = id) ∧
      (CollOption.noSort ∉ opts → ∀ out, c.AllObjects out ↔ out = os'.map fun o => some (.lib o)) :=
  c36_text_partial Strconv.strconv_laws Strconv.strconv_writes Strconv.strconv_integers ns h hs rnd hr b hb hh opts hn

/-- **C64** with nothing assumed. -/
theorem c64_strconv (ns : Bool) (built : List Obj) (hs : ∀ o ∈ built, Built o)
    (rnd : List UInt8) (hr : rnd.length = 16) (b : Res GV)
    (hb : toBundle strconv rnd ((Coll.new ns).addAll (built.map (Any.lib (U := U)))) b)
    (hh : ∀ v doc, b = .ok v → enc strconv tyBundle v = some doc → height doc ≤ 10000)
    (opts : List (CollOption U)) (hn : NoParsers opts) :
    ∃ v doc c os os', b = .ok v ∧ enc strconv tyBundle v = some doc ∧
      fromJSONText strconv opts doc.raw = .ok c ∧
      ((Coll.new ns).addAll (built.map (Any.lib (U := U)))).AllObjects
        (os.map fun o => some (.lib o)) ∧
      (∀ o ∈ os, o ∈ built) ∧ (∀ o ∈ built, ∃ p ∈ os, getID p = getID o) ∧
      (ns = false → (built.map getID).Nodup → os = built) ∧
      List.Forall₂ (fun o o' => getID o' = getID o ∧ Survives o o' ∧ o'.extra = none) os os' ∧
      (∀ id a, c.get id = some a ↔ ∃ o' ∈ os', a = .lib o' ∧ getID o' = id) ∧
      (CollOption.noSort ∉ opts → ∀ out, c.AllObjects out ↔ out = os'.map fun o => some (.lib o)) :=
  c64_end_to_end Strconv.strconv_laws Strconv.strconv_writes Strconv.strconv_integers ns built hs rnd hr b hb hh opts hn

/-! ### Cases -/

/-- C68: a tenth, two numbers at the limits of the positional form, the least and the greatest double,
and a negative one. -/
example : numberToJSON strconv 0x3FB999999999999A = some (b!"0.1") ∧
    numberToJSON strconv 0x444B1AE4D6E2EF4F = some (b!"999999999999999900000") ∧
    numberToJSON strconv 0x444B1AE4D6E2EF50 = some (b!"1e+21") ∧
    numberToJSON strconv 0x3EB0C6F7A0B5ED8D = some (b!"0.000001") ∧
    numberToJSON strconv 0x3EB0C6F7A0B5ED8C = some (b!"9.999999999999997e-7") ∧
    numberToJSON strconv 1 = some (b!"5e-324") ∧
    numberToJSON strconv 0x7FEFFFFFFFFFFFFF = some (b!"1.7976931348623157e+308") ∧
    numberToJSON strconv 0xC1D2CCCCCD000000 = some (b!"-1261646644") := by decide +kernel

/-- C68: a tenth is read and written as such. -/
example : ∃ b, strconv.parse (b!"100e-3") = some b ∧ NumberText b (b!"0.1") := by
  refine ⟨0x3FB999999999999A, by decide +kernel, ((c68_text _ _).1 (by decide +kernel)).2⟩

/-- C68: `100e-3` says a tenth. -/
example : Written (b!"100e-3") false (-3) (100 * 10 ^ (-3 : Int)) :=
  ⟨[1, 0, 0], [], [3], [], b!"e-3", by simp, by simp, by simp, by simp, .inl ⟨rfl, rfl⟩,
    .inr (.inr ⟨.inl rfl, by simp, by simp [decimal]⟩), rfl, by simp [decimal]⟩

/-- C68: numbers in a document. -/
example : transform strconv (b!"{\"b\": [1E2, -0.00e1, 123456789012345680000], \"a\": 2.50}") =
    some (b!"{\"a\":2.5,\"b\":[100,0,123456789012345680000]}") := by decide +kernel

/-- C68: infinities have no text. -/
example : ¬ F64Finite 0x7ff0000000000000 ∧ numberToJSON strconv 0x7ff0000000000000 = none := by decide +kernel

end Stix
