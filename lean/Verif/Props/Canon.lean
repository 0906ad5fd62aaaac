import Verif.Lemmas.CanonSound
import Verif.Lemmas.CanonFuel

/-!
# C42-C44: the canonicaliser
-/

namespace Stix.Props.Canon
open Stix Stix.Canon Stix.Spec.Canon

/-- **C42** (order and spacing).  Two JSON documents denoting the same value — up to the order
of members at every level, white space, the spelling of strings (`\u` escapes, `\/`, …) and the
spelling of numbers — are both rejected or have the same canonical bytes. -/
theorem c42_same_value_same_bytes (F : FloatFmt) {text text' : Str} {v v' : JV}
    (h : Denotes text v) (h' : Denotes text' v') (hs : Same (SameNumber F) v v') :
    transform F text = transform F text' := by
  rw [transform_denotes h, transform_denotes h', canonV_same F hs]

/-- **C42** for one permutation: documents that denote two objects with the same members in a
different order. -/
theorem c42_member_order (F : FloatFmt) {text text' : Str} {m m' : List (Str × JV)}
    (h : Denotes text (.obj m)) (h' : Denotes text' (.obj m')) (hp : m.Perm m') :
    transform F text = transform F text' :=
  c42_same_value_same_bytes F h h' (.obj (.perm hp))

/-- **C42** for white space and spelling: two documents that denote the same value, in the same
order, whatever floats their number tokens denote. -/
theorem c42_white_space (F : FloatFmt) {text text' : Str} {v : JV}
    (h : Denotes text v) (h' : Denotes text' v) : transform F text = transform F text' := by
  rw [transform_denotes h, transform_denotes h']

/-- **C43** (sorted, no white space, idempotent).  The canonical bytes of a document are the
bare text (`JV.print`: no white space, RFC 8785 string escapes) of the same value with every
object's names in ascending order of UTF-16 code units, and canonicalising them again changes
nothing. -/
theorem c43_sorted_and_idempotent (F : FloatFmt) (L : FloatLaws F) {text out : Str} {v : JV}
    (h : Denotes text v) (ht : transform F text = some out) :
    (∃ v', out = v'.print ∧ v'.Sorted ∧ Same (SameNumber F) v v') ∧ transform F out = some out := by
  have hc := ht
  rw [transform_denotes h] at hc
  obtain ⟨w, w', s, hw, hw', hs, hcomp, rfl, rfl⟩ := h
  obtain ⟨v', e, hsort, -, hsame, s', hwf, hval, htext, hcomp'⟩ := canon_syn L s out hs hc
  have hsame := same_mono (fun _ _ h => h.1) hsame
  refine ⟨⟨v', e, hsort, hsame⟩, ?_⟩
  have hd : Denotes out v' := by
    refine ⟨[], [], s', white_nil, white_nil, hwf, ?_, hval.symm, by simp [htext]⟩
    cases s with
    | arr w es => exact hcomp' (by simp [Syn.value]) (by simp [Syn.value]) (by simp [Syn.value])
    | obj w es => exact hcomp' (by simp [Syn.value]) (by simp [Syn.value]) (by simp [Syn.value])
    | lit t => exact absurd hcomp (by simp [Syn.Composite])
    | num t => exact absurd hcomp (by simp [Syn.Composite])
    | str t d => exact absurd hcomp (by simp [Syn.Composite])
  rw [transform_denotes hd, ← canonV_same F hsame, hc]

/-- **C44** (duplicates).  A document in which some object, at any depth, has two members of
the same name is rejected. -/
theorem c44_duplicates_rejected (F : FloatFmt) {text : Str} {v : JV} (h : Denotes text v)
    (hd : ¬ v.NoDup) : transform F text = none := by
  rw [transform_denotes h]
  cases hc : canonV F v with
  | none => rfl
  | some out => exact absurd (canonV_nodup F v out hc) hd

/-- **C44** (acceptance).  A document whose numbers are floats and whose names are Unicode text
is accepted exactly when no object in it has two members of the same name. -/
theorem c44_accepts_iff_no_duplicates (F : FloatFmt) {text : Str} {v : JV} (h : Denotes text v)
    (hn : v.Nums (FiniteNumber F)) (hu : v.Names Unicode) :
    (∃ out, transform F text = some out) ↔ v.NoDup := by
  rw [transform_denotes h]
  constructor
  · rintro ⟨out, hc⟩; exact canonV_nodup F v out hc
  · intro hd; exact canonV_accepts F v hd hu hn

/-- **C44** (only documents).  A text that is accepted is a document in which no object has two
members of the same name, and all its numbers are floats. -/
theorem c44_only_documents (F : FloatFmt) {text out : Str} (h : transform F text = some out) :
    ∃ v, Denotes text v ∧ v.NoDup ∧ v.Nums (FiniteNumber F) := by
  obtain ⟨v, hd, hc⟩ := transform_sound h
  exact ⟨v, hd, canonV_nodup F v out hc, canonV_nums F v out hc⟩

/-- **C43** for every accepted text. -/
theorem c43_accepted (F : FloatFmt) (L : FloatLaws F) {text out : Str}
    (h : transform F text = some out) :
    (∃ v v', Denotes text v ∧ out = v'.print ∧ v'.Sorted ∧ Same (SameNumber F) v v') ∧
      transform F out = some out := by
  obtain ⟨v, hd, -⟩ := transform_sound h
  obtain ⟨⟨v', h1⟩, h2⟩ := c43_sorted_and_idempotent F L hd h
  exact ⟨⟨v, v', hd, h1⟩, h2⟩

/-! ## The hypotheses can be met -/

/-- Magnitude of the toy format. -/
def toyGo (t : Str) : UInt64 :=
  if t = b!"0" then 0 else UInt64.ofNat ((t.takeWhile (· ≠ 101)).length - 1)

/-- A toy `strconv` that meets the laws: floats are written in unary. -/
def toy : FloatFmt where
  parse s := if s.headD 0 = 45 then some (toyGo s.tail ||| 0x8000000000000000) else some (toyGo s)
  formatE a := List.replicate (a.toNat + 1) 49 ++ b!"e+21"
  formatF a := List.replicate (a.toNat + 1) 49

theorem toyGo_of {t u r : Str} (h0 : t ≠ b!"0") (ht : t = u ++ r) (hu : ∀ c ∈ u, c ≠ 101)
    (hr : r = [] ∨ ∃ r', r = 101 :: r') : toyGo t = UInt64.ofNat (u.length - 1) := by
  unfold toyGo
  rw [if_neg h0, ht, List.takeWhile_append_of_pos (by intro c hc; simpa using hu c hc)]
  rcases hr with rfl | ⟨r', rfl⟩ <;> simp

theorem toy_laws : FloatLaws toy := by
  have hhead : ∀ n, (List.replicate (n + 1) (49 : UInt8)).headD 0 = 49 := fun n => rfl
  have hne : ∀ (n : Nat) (r : Str), List.replicate (n + 1) (49 : UInt8) ++ r ≠ b!"0" := by
    intro n r h
    have := congrArg (fun l => l.headD 0) h
    simp [List.replicate_succ] at this
  have hmem : ∀ n, ∀ c ∈ List.replicate n (49 : UInt8), c ≠ 101 := by
    intro n c hc; rw [List.eq_of_mem_replicate hc]; decide
  constructor
  · rfl
  · intro a _
    refine ⟨by simp [toy], by simp only [toy, hhead]; decide, ?_⟩
    intro c hc
    simp only [toy] at hc
    rw [List.eq_of_mem_replicate hc]; decide
  · intro a _
    have h1 := hne a.toNat []
    have h2 := toyGo_of h1 rfl (hmem _) (Or.inl rfl)
    rw [List.append_nil] at h2
    simp only [toy, hhead]
    rw [if_neg (by decide), h2]
    simp
  · intro a _
    refine ⟨List.replicate (a.toNat + 1) 49, 43, b!"21", rfl, by simp, by rw [hhead]; decide, ?_,
      by decide, by decide, by decide⟩
    intro c hc
    rw [List.eq_of_mem_replicate hc]; decide
  · intro a _
    have h1 := hne a.toNat (b!"e+21")
    have h2 := toyGo_of h1 rfl (hmem _) (Or.inr ⟨b!"+21", rfl⟩)
    have h3 : (List.replicate (a.toNat + 1) (49 : UInt8) ++ b!"e+21").headD 0 = 49 := rfl
    simp only [toy]
    rw [if_neg (by rw [h3]; decide), h2]
    simp
  · intro m sgn ds hm hs hd _
    have h0 : ∀ r : Str, m ++ 101 :: sgn :: r ≠ b!"0" := by
      intro r h
      have := congrArg List.length h
      simp at this; omega
    have key : ∀ r : Str, toy.parse (m ++ 101 :: sgn :: r) = some (UInt64.ofNat (m.length - 1)) := by
      intro r
      have hh : (m ++ 101 :: sgn :: r).headD 0 ≠ 45 := by
        cases m with
        | nil => simp
        | cons x xs =>
          have : ∀ c ∈ (b!"0123456789."), c ≠ 45 := by decide
          exact this x (hm x List.mem_cons_self)
      simp only [toy]
      rw [if_neg hh, toyGo_of (h0 r) rfl (fun c hc => (digit_tok (hm c hc)).2) (Or.inr ⟨_, rfl⟩)]
    rw [key, key]
  · intro t a _ hd h
    have hx : t.headD 0 ≠ 45 := by intro h; rw [h] at hd; exact absurd hd (by decide)
    simp only [toy] at h ⊢
    rw [if_neg hx] at h
    rw [if_pos (by rfl)]
    simp at h
    simp [h]
  · rfl

/-- A document: `{ "b": [1, true] ,"a":"\u00e9"}`. -/
def sample : Syn :=
  .obj (b!" ") (.cons [] (b!"b") (b!"b") [] (b!" ") (.arr [] (.cons [] (.num (b!"1")) [] (.cons (b!" ")
      (.lit (b!"true")) [] .nil))) (b!" ")
    (.cons [] (b!"a") (b!"a") [] [] (.str (b!"\\u00e9") [0xC3, 0xA9]) [] .nil))

/-- The same with the members swapped and without white space: `{"a":"é","b":[1,true]}`. -/
def sample' : Syn :=
  .obj [] (.cons [] (b!"a") (b!"a") [] [] (.str [0xC3, 0xA9] [0xC3, 0xA9]) []
    (.cons [] (b!"b") (b!"b") [] [] (.arr [] (.cons [] (.num (b!"1")) [] (.cons []
      (.lit (b!"true")) [] .nil))) [] .nil))

theorem spells_a : Spells (b!"a") (b!"a") := .plain (by decide) (by decide) (by decide) .nil
theorem spells_b : Spells (b!"b") (b!"b") := .plain (by decide) (by decide) (by decide) .nil

theorem sample_denotes : Denotes (b!"{ \"b\": [1, true] ,\"a\":\"\\u00e9\"}") sample.value := by
  refine ⟨[], [], sample, white_nil, white_nil, ?_, trivial, rfl, rfl⟩
  refine ⟨by unfold White; decide, white_nil, spells_b, white_nil, by unfold White; decide,
    ⟨white_nil, white_nil, ⟨by decide, by unfold Literal; decide, by decide⟩, white_nil, by unfold White; decide,
      Or.inl rfl, white_nil, trivial⟩,
    by unfold White; decide, white_nil, spells_a, white_nil, white_nil, ?_, white_nil, trivial⟩
  refine Spells.hex (h := b!"00e9") (c := 'é') (by decide) ?_ .nil
  exact ⟨48, 48, 101, 57, 0, 0, 14, 9, rfl, Or.inl rfl, Or.inl rfl, Or.inl rfl, Or.inl rfl, by decide⟩

theorem sample'_denotes : Denotes (b!"{\"a\":\"é\",\"b\":[1,true]}") sample'.value := by
  refine ⟨[], [], sample', white_nil, white_nil, ?_, trivial, rfl, by decide⟩
  exact ⟨white_nil, white_nil, spells_a, white_nil, white_nil,
    .plain (by decide) (by decide) (by decide) (.plain (by decide) (by decide) (by decide) .nil),
    white_nil, white_nil, spells_b, white_nil, white_nil,
    ⟨white_nil, white_nil, ⟨by decide, by unfold Literal; decide, by decide⟩, white_nil, white_nil, Or.inl rfl, white_nil, trivial⟩,
    white_nil, trivial⟩

example (F : FloatFmt) : transform F (b!"{ \"b\": [1, true] ,\"a\":\"\\u00e9\"}")
    = transform F (b!"{\"a\":\"é\",\"b\":[1,true]}") :=
  c42_member_order F sample_denotes sample'_denotes (List.Perm.swap ..)

example : transform toy (b!"{ \"b\": [true, 0] ,\"a\":\"\\u00e9\"}")
    = some (b!"{\"a\":\"é\",\"b\":[true,0]}") := by decide +kernel

example : sample.value.Nums (FiniteNumber toy) ∧ sample.value.Names Unicode ∧ sample.value.NoDup := by
  refine ⟨?_, ?_, ?_⟩
  · refine ⟨⟨⟨0, rfl, by decide⟩, trivial, trivial⟩, trivial, trivial⟩
  · exact ⟨⟨['b'], by decide⟩, ⟨trivial, trivial, trivial⟩, ⟨['a'], by decide⟩, trivial, trivial⟩
  · exact ⟨by decide, ⟨trivial, trivial, trivial⟩, trivial, trivial⟩

/-- C44: text after the document, a missing element, an unfinished string. -/
example : transform toy (b!"[0] x") = none ∧ transform toy (b!"[0,]") = none ∧
    transform toy (b!"[\"a]") = none := by decide +kernel

example : transform toy (b!"[{\"a\":1,\"b\":2,\"\\u0061\":3}]") = none := by decide +kernel

end Stix.Props.Canon
