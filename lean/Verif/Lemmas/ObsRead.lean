import Verif.Lemmas.ObsText

/-!
# The hashed text determines the contributions (for C11)
-/

namespace Stix
open Spec

/-! ### What each part contributes -/

section parts
variable {F : Canon.FloatFmt} {o o' : Obj} {n : Str}

/-- Two part lists that are read back. -/
structure Pair (A A' : List Str) (c c' : Contribution) : Prop where
  unamb : List.Forall₂ Unamb A A'
  read : A = A' → c = c'

theorem Pair.len {A A' : List Str} {c c' : Contribution} (h : Pair A A' c c') : A.length = A'.length :=
  h.unamb.length_eq

theorem strPart_eq (o : Obj) (n : Str) : strPart o n =
    match textContribution (some (o.val n)) with
    | .text s => [quoted s]
    | _ => [] := by
  unfold strPart Obj.getStr textContribution
  cases o.val n with
  | str s => by_cases h : s = [] <;> simp [h]
  | _ => simp

theorem text_cases (v : Option GV) : textContribution v = .absent ∨ ∃ s, textContribution v = .text s := by
  unfold textContribution
  split
  · split
    · exact .inl rfl
    · exact .inr ⟨_, rfl⟩
  · exact .inl rfl

theorem unamb_quoted {s s' : Str} (h : Unquoted s) (h' : Unquoted s') : Unamb (quoted s) (quoted s') := by
  intro x x' e
  rw [(quoted_cut h h' e).1]

theorem strPart_pair (hg : textContribution (some (o.val n)) ≠ .absent ↔ textContribution (some (o'.val n)) ≠ .absent)
    (hc : (textContribution (some (o.val n))).Clean) (hc' : (textContribution (some (o'.val n))).Clean) :
    Pair (strPart o n) (strPart o' n) (textContribution (some (o.val n))) (textContribution (some (o'.val n))) := by
  rw [strPart_eq, strPart_eq]
  rcases text_cases (some (o.val n)) with h | ⟨s, h⟩ <;> rcases text_cases (some (o'.val n)) with h' | ⟨s', h'⟩ <;>
    rw [h, h'] at hg ⊢
  · exact ⟨.nil, fun _ => rfl⟩
  · simp at hg
  · simp at hg
  · rw [h] at hc; rw [h'] at hc'
    refine ⟨.cons (unamb_quoted hc hc') .nil, fun e => ?_⟩
    simp only [List.cons.injEq, and_true] at e
    rw [quoted_inj e]

/-- The contribution of a number. -/
def numContribution (v : GV) : Contribution :=
  match v with
  | .int i => if i = 0 then .absent else .number i
  | _ => .absent

theorem numContribution_eq (o : Obj) (n : Str) :
    numContribution (o.val n) = if o.getInt n = 0 then .absent else .number (o.getInt n) := by
  unfold numContribution Obj.getInt
  cases o.val n <;> simp

theorem intPart_pair (hg : numContribution (o.val n) ≠ .absent ↔ numContribution (o'.val n) ≠ .absent) :
    Pair (intPart o n) (intPart o' n) (numContribution (o.val n)) (numContribution (o'.val n)) := by
  rw [numContribution_eq, numContribution_eq] at hg ⊢
  unfold intPart
  by_cases h : o.getInt n = 0 <;> by_cases h' : o'.getInt n = 0 <;> simp [h, h'] at hg ⊢
  · exact ⟨.nil, fun _ => rfl⟩
  · refine ⟨.cons (fun x x' e => ?_) .nil, fun e => ?_⟩
    · exact (cut (fun hm => (intLit_chars _ _ hm).1 rfl) (fun hm => (intLit_chars _ _ hm).1 rfl) e).1
    · simp only [List.cons.injEq, and_true] at e
      rw [intLit_inj e]

/-- The contribution of a time. -/
def timeContribution (v : GV) : Contribution :=
  match v with
  | .ptr (some (.time t)) => .millis (t.ns / 1000000)
  | _ => .absent

theorem timeContribution_eq (o : Obj) (n : Str) : timeContribution (o.val n) =
    match o.getTime n with
    | some t => .millis (t.ns / 1000000)
    | none => .absent := by
  unfold timeContribution Obj.getTime
  split <;> split <;> simp_all

theorem millis_range {t : GoTime} (h : (Contribution.millis (t.ns / 1000000)).Clean) :
    0 ≤ t.ns ∧ t.ns < endOfTime := by
  rw [← endOfYears_eq]
  simp only [Contribution.Clean] at h
  have : endOfYears = 315569520000000 * 1000000 := by decide
  omega

theorem timePart_pair (hg : timeContribution (o.val n) ≠ .absent ↔ timeContribution (o'.val n) ≠ .absent)
    (hc : (timeContribution (o.val n)).Clean) (hc' : (timeContribution (o'.val n)).Clean) :
    Pair (timePart o n) (timePart o' n) (timeContribution (o.val n)) (timeContribution (o'.val n)) := by
  rw [timeContribution_eq] at hg hc
  rw [timeContribution_eq o'] at hg hc'
  rw [timeContribution_eq, timeContribution_eq]
  unfold timePart
  cases h : o.getTime n <;> cases h' : o'.getTime n <;> rw [h, h'] at hg <;> simp only [h] at hc <;>
    simp only [h'] at hc' ⊢
  · exact ⟨.nil, fun _ => rfl⟩
  · simp at hg
  · simp at hg
  · next t t' =>
    have r := millis_range hc
    have r' := millis_range hc'
    refine ⟨.cons (unamb_quoted (timestamp_unquoted _ r.1 r.2) (timestamp_unquoted _ r'.1 r'.2)) .nil,
      fun e => ?_⟩
    simp only [List.cons.injEq, and_true] at e
    rw [timestamp_inj r.1 r.2 r'.1 r'.2 (quoted_inj e)]

/-- The contribution of hashes. -/
def hashContribution (v : Option GV) : Contribution :=
  match preferredHash (hashOf v) with
  | some (a, x) => .hash a x
  | none => .absent

theorem preferred_alg {h : Str → Option Str} {a v : Str} (hp : preferredHash h = some (a, v)) :
    Unquoted a := by
  obtain ⟨l₁, b, l₂, hl, hb, -⟩ := List.findSome?_eq_some_iff.1 hp
  have hm : b ∈ [b!"MD5", b!"SHA-1", b!"SHA-256", b!"SHA-512"] := by rw [hl]; simp
  have hq : ∀ b ∈ [b!"MD5", b!"SHA-1", b!"SHA-256", b!"SHA-512"], (34 : UInt8) ∉ b := by decide
  replace hb : (h b).map (fun v => (b, v)) = some (a, v) := hb
  cases hb' : h b with
  | none => rw [hb'] at hb; cases hb
  | some w => rw [hb'] at hb; cases hb; exact hq _ hm

theorem hashPart_tok (o : Obj) (h : hasField o.sid (b!"Hashes") (b!"hashes") = true) :
    hashPart o = if entries (prop o (b!"hashes")) = [] then [] else
      [hashTok (preferredHash (hashOf (prop o (b!"hashes"))))] := by
  rw [hashPart_eq o h]
  split
  · rfl
  · congr 1

theorem no_entries {v : Option GV} (h : entries v = []) : preferredHash (hashOf v) = none := by
  simp [preferredHash, hashOf, h, amLookup]

theorem hashTok_head (e : Str × Str) : ∃ r, hashTok (some e) = 123 :: r := ⟨_, rfl⟩

theorem hashPart_pair (h : hasField o.sid (b!"Hashes") (b!"hashes") = true)
    (h' : hasField o'.sid (b!"Hashes") (b!"hashes") = true)
    (hg : entries (prop o (b!"hashes")) ≠ [] ↔ entries (prop o' (b!"hashes")) ≠ [])
    (hc : (hashContribution (prop o (b!"hashes"))).Clean)
    (hc' : (hashContribution (prop o' (b!"hashes"))).Clean) :
    Pair (hashPart o) (hashPart o') (hashContribution (prop o (b!"hashes")))
      (hashContribution (prop o' (b!"hashes"))) := by
  rw [hashPart_tok o h, hashPart_tok o' h']
  unfold hashContribution at *
  by_cases he : entries (prop o (b!"hashes")) = []
  · have he' : entries (prop o' (b!"hashes")) = [] := by
      by_contra hn; exact hg.2 hn he
    rw [if_pos he, if_pos he', no_entries he, no_entries he']
    exact ⟨.nil, fun _ => rfl⟩
  · have he' := hg.1 he
    rw [if_neg he, if_neg he']
    cases hp : preferredHash (hashOf (prop o (b!"hashes"))) with
    | none => cases hp' : preferredHash (hashOf (prop o' (b!"hashes"))) with
      | none => exact ⟨.cons (fun _ _ _ => rfl) .nil, fun _ => rfl⟩
      | some e' =>
        refine ⟨.cons (fun x x' e => ?_) .nil, fun e => ?_⟩
        · simp [hashTok] at e
        · simp [hashTok] at e
    | some e => obtain ⟨a, v⟩ := e; cases hp' : preferredHash (hashOf (prop o' (b!"hashes"))) with
      | none =>
        refine ⟨.cons (fun x x' e => ?_) .nil, fun e => ?_⟩
        · simp [hashTok] at e
        · simp [hashTok] at e
      | some e' =>
        obtain ⟨a', v'⟩ := e'
        rw [hp] at hc; rw [hp'] at hc'
        refine ⟨.cons (fun x x' e => ?_) .nil, fun e => ?_⟩
        · obtain ⟨e1, e2, -⟩ := hashTok_cut (preferred_alg hp) (preferred_alg hp') hc hc' e
          rw [e1, e2]
        · simp only [List.cons.injEq, and_true] at e
          obtain ⟨e1, e2, -⟩ := hashTok_cut (x := []) (x' := []) (preferred_alg hp) (preferred_alg hp') hc hc'
            (by rw [e])
          simp only [e1, e2]

/-- The contribution of extensions. -/
def extContribution (F : Canon.FloatFmt) (v : Option GV) : Contribution :=
  if entries v = [] then .absent
  else .json (match (v.bind (enc F (.ext knownExts))).bind fun j => Canon.transform F j.raw with
    | some t => t
    | none => [])

theorem extPart_eq (F : Canon.FloatFmt) (o : Obj) : extPart F o =
    match extContribution F (some (o.val (b!"Extensions"))) with
    | .json t => [t]
    | _ => [] := by
  have hl : o.mapLen (b!"Extensions") = 0 ↔ entries (some (o.val (b!"Extensions"))) = [] := by
    unfold Obj.mapLen entries
    cases o.val (b!"Extensions") with
    | map m => cases m <;> simp
    | _ => simp
  unfold extPart extContribution canonicalizeExtensions
  by_cases h : entries (some (o.val (b!"Extensions"))) = []
  · rw [if_pos h, if_neg (by simp [hl.2 h])]
  · rw [if_neg h, if_pos (fun e => h (hl.1 e)), if_neg (fun e => h (hl.1 e))]
    simp only [Option.bind_some]
    cases enc F (.ext knownExts) (o.val (b!"Extensions")) with
    | none => rfl
    | some j =>
      simp only [Option.bind_some]
      cases Canon.transform F j.raw <;> rfl

theorem ext_cases (F : Canon.FloatFmt) (v : Option GV) :
    extContribution F v = .absent ∨ ∃ t, extContribution F v = .json t := by
  unfold extContribution
  split
  · exact .inl rfl
  · exact .inr ⟨_, rfl⟩

/-- The contribution of a list of texts. -/
def textsContribution (v : GV) : Contribution :=
  match v with
  | .slice (some l) => if l = [] then .absent else .texts (l.map textOf)
  | _ => .absent

/-- The text of a list of texts. -/
def protoTok (l : List Str) : Str := b!"[\"" ++ join (b!"\",\"") l ++ b!"\"]"

theorem protoTok_eq : ∀ {l : List Str}, l ≠ [] → protoTok l = 91 :: (join (b!",") (l.map quoted) ++ [93])
  | [], h => absurd rfl h
  | [s], _ => by simp [protoTok, join, quoted]
  | s :: s' :: l, _ => by
    have ih := protoTok_eq (l := s' :: l) (by simp)
    simp only [protoTok, List.cons_append, List.nil_append, List.cons.injEq, true_and] at ih
    have h1 : join (b!"\",\"") (s :: s' :: l) = s ++ (b!"\",\"") ++ join (b!"\",\"") (s' :: l) := rfl
    rw [List.map_cons, join_cons_ne (by simp), protoTok, h1]
    simp only [List.cons_append, List.nil_append, List.append_assoc, List.cons.injEq, true_and, quoted]
    rw [← ih]

theorem getStrs_eq (o : Obj) (n : Str) : textsContribution (o.val n) =
    if o.getStrs n = [] then .absent else .texts (o.getStrs n) := by
  unfold textsContribution Obj.getStrs
  cases o.val n with
  | slice l => cases l with
    | none => rfl
    | some l =>
      by_cases hl : l = []
      · subst hl; rfl
      · rw [if_neg (by simpa using hl)]
        simp only [if_neg hl]
        congr 1
  | _ => rfl

theorem protoTok_pair (hg : textsContribution (o.val n) ≠ .absent ↔ textsContribution (o'.val n) ≠ .absent)
    (hc : (textsContribution (o.val n)).Clean) (hc' : (textsContribution (o'.val n)).Clean) :
    Pair [protoTok (o.getStrs n)] [protoTok (o'.getStrs n)] (textsContribution (o.val n))
      (textsContribution (o'.val n)) := by
  rw [getStrs_eq] at hg hc
  rw [getStrs_eq o'] at hg hc'
  rw [getStrs_eq, getStrs_eq]
  by_cases h : o.getStrs n = [] <;> by_cases h' : o'.getStrs n = [] <;> simp [h, h'] at hg
  · rw [h, h']
    exact ⟨.cons (fun _ _ _ => rfl) .nil, fun _ => rfl⟩
  · rw [if_neg h] at hc ⊢
    rw [if_neg h'] at hc' ⊢
    have key : ∀ x x', protoTok (o.getStrs n) ++ x = protoTok (o'.getStrs n) ++ x' →
        o.getStrs n = o'.getStrs n := by
      intro x x' e
      rw [protoTok_eq h, protoTok_eq h'] at e
      simp only [List.cons_append, List.append_assoc, List.nil_append, List.cons.injEq, true_and] at e
      exact (join_read (τ := 93) (P := Unquoted) (by decide) (fun a b x x' ha hb e => quoted_cut ha hb e)
        h h' hc hc' e).1
    refine ⟨.cons (fun x x' e => by rw [key _ _ e]) .nil, fun e => ?_⟩
    simp only [List.cons.injEq, and_true] at e
    rw [key [] [] (by rw [e])]

/-! ### Composition -/

theorem forall₂_append {A A' B B' : List Str} (h : List.Forall₂ Unamb A A') (k : List.Forall₂ Unamb B B') :
    List.Forall₂ Unamb (A ++ B) (A' ++ B') := by
  induction h with
  | nil => exact k
  | cons h _ ih => exact .cons h ih

/-- A pair in front of others. -/
theorem Pair.step {A A' B B' : List Str} {c c' : Contribution} {Q : Prop} (h : Pair A A' c c')
    (k : B = B' → Q) : A ++ B = A' ++ B' → c = c' ∧ Q := by
  intro e
  obtain ⟨e1, e2⟩ := List.append_inj e h.len
  exact ⟨h.read e1, k e2⟩

theorem bracket_inj {l l' : List Str} (h : bracket l = bracket l') : join (b!",") l = join (b!",") l' := by
  simpa [bracket] using h

theorem bracket_read {ps ps' : List Str} (h : List.Forall₂ Unamb ps ps') (e : bracket ps = bracket ps') :
    ps = ps' := by
  have := join_cut h [] [] Iff.rfl (by simpa using bracket_inj e)
  exact this.1

/-- Three texts, each of which can be missing. -/
theorem three_texts {a b c : Str}
    (h1 : Pair (strPart o a) (strPart o' a) (textContribution (some (o.val a))) (textContribution (some (o'.val a))))
    (h2 : Pair (strPart o b) (strPart o' b) (textContribution (some (o.val b))) (textContribution (some (o'.val b))))
    (h3 : Pair (strPart o c) (strPart o' c) (textContribution (some (o.val c))) (textContribution (some (o'.val c))))
    (e : bracket (strPart o a ++ strPart o b ++ strPart o c) =
      bracket (strPart o' a ++ strPart o' b ++ strPart o' c)) :
    textContribution (some (o.val a)) = textContribution (some (o'.val a)) ∧
    textContribution (some (o.val b)) = textContribution (some (o'.val b)) ∧
    textContribution (some (o.val c)) = textContribution (some (o'.val c)) := by
  have e := bracket_read (forall₂_append (forall₂_append h1.unamb h2.unamb) h3.unamb) e
  rw [List.append_assoc, List.append_assoc] at e
  exact h1.step (h2.step h3.read) e

theorem network_read
    (h1 : Pair (timePart o (b!"Start")) (timePart o' (b!"Start")) (timeContribution (o.val (b!"Start")))
      (timeContribution (o'.val (b!"Start"))))
    (h2 : Pair (timePart o (b!"End")) (timePart o' (b!"End")) (timeContribution (o.val (b!"End")))
      (timeContribution (o'.val (b!"End"))))
    (h3 : Pair (strPart o (b!"Src")) (strPart o' (b!"Src")) (textContribution (some (o.val (b!"Src"))))
      (textContribution (some (o'.val (b!"Src")))))
    (h4 : Pair (strPart o (b!"Dst")) (strPart o' (b!"Dst")) (textContribution (some (o.val (b!"Dst"))))
      (textContribution (some (o'.val (b!"Dst")))))
    (h5 : Pair (intPart o (b!"SrcPort")) (intPart o' (b!"SrcPort")) (numContribution (o.val (b!"SrcPort")))
      (numContribution (o'.val (b!"SrcPort"))))
    (h6 : Pair (intPart o (b!"DstPort")) (intPart o' (b!"DstPort")) (numContribution (o.val (b!"DstPort")))
      (numContribution (o'.val (b!"DstPort"))))
    (h7 : Pair [protoTok (o.getStrs (b!"Protocols"))] [protoTok (o'.getStrs (b!"Protocols"))]
      (textsContribution (o.val (b!"Protocols"))) (textsContribution (o'.val (b!"Protocols"))))
    (hg : extContribution F (some (o.val (b!"Extensions"))) ≠ .absent ↔
      extContribution F (some (o'.val (b!"Extensions"))) ≠ .absent)
    (e : networkContrib F o = networkContrib F o') :
    timeContribution (o.val (b!"Start")) = timeContribution (o'.val (b!"Start")) ∧
    timeContribution (o.val (b!"End")) = timeContribution (o'.val (b!"End")) ∧
    textContribution (some (o.val (b!"Src"))) = textContribution (some (o'.val (b!"Src"))) ∧
    textContribution (some (o.val (b!"Dst"))) = textContribution (some (o'.val (b!"Dst"))) ∧
    numContribution (o.val (b!"SrcPort")) = numContribution (o'.val (b!"SrcPort")) ∧
    numContribution (o.val (b!"DstPort")) = numContribution (o'.val (b!"DstPort")) ∧
    textsContribution (o.val (b!"Protocols")) = textsContribution (o'.val (b!"Protocols")) ∧
    extContribution F (some (o.val (b!"Extensions"))) = extContribution F (some (o'.val (b!"Extensions"))) := by
  obtain ⟨e1, e2⟩ := join_cut
    (forall₂_append (forall₂_append (forall₂_append (forall₂_append (forall₂_append (forall₂_append
      h1.unamb h2.unamb) h3.unamb) h4.unamb) h5.unamb) h6.unamb) h7.unamb) (extPart F o) (extPart F o')
    (by
      rw [extPart_eq, extPart_eq]
      rcases ext_cases F (some (o.val (b!"Extensions"))) with h | ⟨s, h⟩ <;>
        rcases ext_cases F (some (o'.val (b!"Extensions"))) with h' | ⟨s', h'⟩ <;> rw [h, h'] at hg ⊢ <;>
        simp at hg ⊢) (bracket_inj e)
  have e3 : extContribution F (some (o.val (b!"Extensions"))) = extContribution F (some (o'.val (b!"Extensions"))) := by
    rw [extPart_eq, extPart_eq] at e2
    rcases ext_cases F (some (o.val (b!"Extensions"))) with h | ⟨s, h⟩ <;>
      rcases ext_cases F (some (o'.val (b!"Extensions"))) with h' | ⟨s', h'⟩ <;> rw [h, h'] at hg e2 ⊢ <;>
      simp at hg
    simp only [join] at e2
    rw [e2]
  simp only [List.append_assoc] at e1
  exact h1.step (h2.step (h3.step (h4.step (h5.step (h6.step fun e => ⟨h7.read e, e3⟩))))) e1

theorem file_read
    (h1 : Pair (hashPart o) (hashPart o') (hashContribution (prop o (b!"hashes"))) (hashContribution (prop o' (b!"hashes"))))
    (h2 : Pair (strPart o (b!"Name")) (strPart o' (b!"Name")) (textContribution (some (o.val (b!"Name"))))
      (textContribution (some (o'.val (b!"Name")))))
    (hg : extContribution F (some (o.val (b!"Extensions"))) ≠ .absent ↔
      extContribution F (some (o'.val (b!"Extensions"))) ≠ .absent)
    (hp : textContribution (some (o.val (b!"ParentDirectory"))) ≠ .absent ↔
      textContribution (some (o'.val (b!"ParentDirectory"))) ≠ .absent)
    (hc : (textContribution (some (o.val (b!"ParentDirectory")))).Clean)
    (hc' : (textContribution (some (o'.val (b!"ParentDirectory")))).Clean)
    (e : fileContrib F o = fileContrib F o') :
    hashContribution (prop o (b!"hashes")) = hashContribution (prop o' (b!"hashes")) ∧
    textContribution (some (o.val (b!"Name"))) = textContribution (some (o'.val (b!"Name"))) ∧
    extContribution F (some (o.val (b!"Extensions"))) = extContribution F (some (o'.val (b!"Extensions"))) ∧
    textContribution (some (o.val (b!"ParentDirectory"))) = textContribution (some (o'.val (b!"ParentDirectory"))) := by
  have e := bracket_inj e
  rw [List.append_assoc, List.append_assoc] at e
  have hx := extPart_eq F o
  have hx' := extPart_eq F o'
  have hs := strPart_eq o (b!"ParentDirectory")
  have hs' := strPart_eq o' (b!"ParentDirectory")
  have hlast : ∀ s s' t t' : Str, Unquoted s → Unquoted s' → join (b!",") [t, quoted s] = join (b!",") [t', quoted s'] →
      t = t' ∧ s = s' := by
    intro s s' t t' hq hq' h
    have h' : (t ++ [44]) ++ 34 :: s = (t' ++ [44]) ++ 34 :: s' := by
      have h1 : (t ++ 44 :: 34 :: s) ++ [34] = (t' ++ 44 :: 34 :: s') ++ [34] := by
        simpa [join, quoted] using h
      simpa using List.append_cancel_right h1
    obtain ⟨h1, h2⟩ := cutLast hq hq' h'
    exact ⟨List.append_cancel_right h1, h2⟩
  have key : ∀ ps ps', List.Forall₂ Unamb ps ps' →
      join (b!",") (ps ++ (extPart F o ++ strPart o (b!"ParentDirectory"))) =
        join (b!",") (ps' ++ (extPart F o' ++ strPart o' (b!"ParentDirectory"))) → ps = ps' ∧
      extContribution F (some (o.val (b!"Extensions"))) = extContribution F (some (o'.val (b!"Extensions"))) ∧
      textContribution (some (o.val (b!"ParentDirectory"))) = textContribution (some (o'.val (b!"ParentDirectory"))) := by
    intro ps ps' hps e
    rcases ext_cases F (some (o.val (b!"Extensions"))) with h | ⟨t, h⟩ <;>
      rcases ext_cases F (some (o'.val (b!"Extensions"))) with h' | ⟨t', h'⟩ <;> rw [h] at hg hx <;>
      rw [h'] at hg hx' <;> (try (simp at hg; done)) <;>
      rcases text_cases (some (o.val (b!"ParentDirectory"))) with k | ⟨s, k⟩ <;>
      rcases text_cases (some (o'.val (b!"ParentDirectory"))) with k' | ⟨s', k'⟩ <;> rw [k] at hp hs hc <;>
      rw [k'] at hp hs' hc' <;> (try (simp at hp; done)) <;> rw [hx, hx', hs, hs'] at e <;>
      rw [h, h', k, k'] <;> simp only [List.nil_append, List.append_nil, List.singleton_append] at e
    · exact ⟨(join_cut hps [] [] Iff.rfl (by simpa using e)).1, rfl, rfl⟩
    · obtain ⟨e1, e2⟩ := join_cut hps _ _ (by simp) e
      exact ⟨e1, rfl, by rw [quoted_inj e2]⟩
    · obtain ⟨e1, e2⟩ := join_cut hps _ _ (by simp) e
      refine ⟨e1, ?_, rfl⟩
      simp only [join] at e2
      rw [e2]
    · obtain ⟨e1, e2⟩ := join_cut hps _ _ (by simp) e
      obtain ⟨e3, e4⟩ := hlast _ _ _ _ hc hc' e2
      exact ⟨e1, by rw [e3], by rw [e4]⟩
  obtain ⟨e1, e2⟩ := key _ _ (forall₂_append h1.unamb h2.unamb) (by simpa only [List.append_assoc] using e)
  obtain ⟨e3, e4⟩ := h1.step h2.read e1
  exact ⟨e3, e4, e2⟩

end parts

/-! ### Kinds of which nothing needs to be known about what is there -/

section free
variable {o o' : Obj}

theorem hashPart_forms (h : hasField o.sid (b!"Hashes") (b!"hashes") = true) :
    (hashContribution (prop o (b!"hashes")) = .absent ∧ (hashPart o = [] ∨ hashPart o = [[]])) ∨
    ∃ a v, hashContribution (prop o (b!"hashes")) = .hash a v ∧ Unquoted a ∧
      hashPart o = [hashTok (some (a, v))] := by
  rw [hashPart_tok o h]
  unfold hashContribution
  by_cases E : entries (prop o (b!"hashes")) = []
  · rw [if_pos E, no_entries E]
    exact .inl ⟨rfl, .inl rfl⟩
  · rw [if_neg E]
    cases hq : preferredHash (hashOf (prop o (b!"hashes"))) with
    | none => exact .inl ⟨rfl, .inr rfl⟩
    | some e => exact .inr ⟨e.1, e.2, rfl, preferred_alg hq, rfl⟩

theorem strPart_forms (o : Obj) (n : Str) :
    (textContribution (some (o.val n)) = .absent ∧ strPart o n = []) ∨
    ∃ s, textContribution (some (o.val n)) = .text s ∧ strPart o n = [quoted s] := by
  rw [strPart_eq]
  rcases text_cases (some (o.val n)) with h | ⟨s, h⟩ <;> rw [h]
  · exact .inl ⟨rfl, rfl⟩
  · exact .inr ⟨s, rfl, rfl⟩

theorem x509_read (h : hasField o.sid (b!"Hashes") (b!"hashes") = true)
    (h' : hasField o'.sid (b!"Hashes") (b!"hashes") = true)
    (hc : (hashContribution (prop o (b!"hashes"))).Clean)
    (hc' : (hashContribution (prop o' (b!"hashes"))).Clean)
    (e : x509Contrib o = x509Contrib o') :
    hashContribution (prop o (b!"hashes")) = hashContribution (prop o' (b!"hashes")) ∧
    textContribution (some (o.val (b!"SerialNumber"))) = textContribution (some (o'.val (b!"SerialNumber"))) := by
  have e := bracket_inj e
  have hq : ∀ s : Str, quoted s = 34 :: (s ++ [34]) := fun _ => rfl
  rcases hashPart_forms h with ⟨h1, h2 | h2⟩ | ⟨a, v, h1, ha, h2⟩ <;>
    rcases hashPart_forms h' with ⟨h1', h2' | h2'⟩ | ⟨a', v', h1', ha', h2'⟩ <;>
    rcases strPart_forms o (b!"SerialNumber") with ⟨k1, k2⟩ | ⟨s, k1, k2⟩ <;>
    rcases strPart_forms o' (b!"SerialNumber") with ⟨k1', k2'⟩ | ⟨s', k1', k2'⟩ <;>
    rw [h2, h2', k2, k2'] at e <;> rw [h1, h1', k1, k1'] <;> rw [h1] at hc <;> rw [h1'] at hc' <;>
    (try (exact ⟨rfl, rfl⟩)) <;> (try (exfalso; simp [join, hq, hashTok] at e; done)) <;>
    (try (simp [join, hq] at e; rw [e]; exact ⟨rfl, rfl⟩; done))
  · obtain ⟨e1, e2, -⟩ := hashTok_cut (x := []) (x' := []) ha ha' hc hc' (by simpa [join] using e)
    rw [e1, e2]; exact ⟨rfl, rfl⟩
  · obtain ⟨-, -, e3⟩ := hashTok_cut (x := []) (x' := 44 :: quoted s') ha ha' hc hc' (by simpa [join] using e)
    cases e3
  · obtain ⟨-, -, e3⟩ := hashTok_cut (x := 44 :: quoted s) (x' := []) ha ha' hc hc' (by simpa [join] using e)
    cases e3
  · obtain ⟨e1, e2, e3⟩ := hashTok_cut (x := 44 :: quoted s) (x' := 44 :: quoted s') ha ha' hc hc'
      (by simpa [join] using e)
    rw [e1, e2, quoted_inj (List.cons.inj e3).2]; exact ⟨rfl, rfl⟩

/-- The contribution of bytes. -/
def bytesContribution (v : GV) : Contribution :=
  match v with
  | .bin (some b) => if b = [] then .absent else .bytes b
  | _ => .absent

/-- The text of the payload of an artifact. -/
def payloadPart (o : Obj) : List Str :=
  if (o.getBin (b!"Payload")).getD [] ≠ [] then [quoted (binaryString (o.getBin (b!"Payload")))] else []

theorem payload_forms (o : Obj) :
    (bytesContribution (o.val (b!"Payload")) = .absent ∧ payloadPart o = []) ∨
    ∃ b, bytesContribution (o.val (b!"Payload")) = .bytes b ∧ payloadPart o = [quoted (b64Encode b)] := by
  unfold payloadPart bytesContribution Obj.getBin
  cases o.val (b!"Payload") with
  | bin b => cases b with
    | none => exact .inl ⟨rfl, rfl⟩
    | some b =>
      by_cases hb : b = []
      · subst hb; exact .inl ⟨rfl, rfl⟩
      · exact .inr ⟨b, by simp [hb], by simp [hb, binaryString]⟩
  | _ => exact .inl ⟨rfl, rfl⟩

theorem hashTok_inj {a v a' v' : Str} (ha : Unquoted a) (ha' : Unquoted a')
    (h : hashTok (some (a, v)) = hashTok (some (a', v'))) : a = a' ∧ v = v' := by
  simp only [hashTok, List.cons_append, List.nil_append, List.append_assoc, List.cons.injEq,
    true_and] at h
  obtain ⟨e1, h⟩ := cut ha ha' h
  simp only [List.cons.injEq, true_and] at h
  exact ⟨e1, List.append_cancel_right h⟩

theorem artifact_read (h : hasField o.sid (b!"Hashes") (b!"hashes") = true)
    (h' : hasField o'.sid (b!"Hashes") (b!"hashes") = true) (e : artifactContrib o = artifactContrib o') :
    hashContribution (prop o (b!"hashes")) = hashContribution (prop o' (b!"hashes")) ∧
    bytesContribution (o.val (b!"Payload")) = bytesContribution (o'.val (b!"Payload")) := by
  have e : join (b!",") (hashPart o ++ payloadPart o) = join (b!",") (hashPart o' ++ payloadPart o') :=
    bracket_inj e
  have hq : ∀ s : Str, quoted s = 34 :: (s ++ [34]) := fun _ => rfl
  have last : ∀ (p p' b b' : Str), p ++ quoted (b64Encode b) = p' ++ quoted (b64Encode b') →
      p = p' ∧ b = b' := by
    intro p p' b b' e
    have e1 : (p ++ 34 :: b64Encode b) ++ [34] = (p' ++ 34 :: b64Encode b') ++ [34] := by
      simpa [hq] using e
    obtain ⟨e2, e3⟩ := cutLast (b64_unquoted b) (b64_unquoted b') (List.append_cancel_right e1)
    exact ⟨e2, b64_inj e3⟩
  have mixed : ∀ (e : Str × Str) (p b : Str), hashTok (some e) ≠ p ++ quoted (b64Encode b) := by
    intro e p b he
    have := congrArg List.getLast? he
    simp [hashTok, hq, List.getLast?_cons] at this
  rcases hashPart_forms h with ⟨h1, h2 | h2⟩ | ⟨a, v, h1, ha, h2⟩ <;>
    rcases hashPart_forms h' with ⟨h1', h2' | h2'⟩ | ⟨a', v', h1', ha', h2'⟩ <;>
    rcases payload_forms o with ⟨k1, k2⟩ | ⟨s, k1, k2⟩ <;>
    rcases payload_forms o' with ⟨k1', k2'⟩ | ⟨s', k1', k2'⟩ <;>
    rw [h2, h2', k2, k2'] at e <;> rw [h1, h1', k1, k1'] <;>
    (try (exact ⟨rfl, rfl⟩)) <;> (try (exfalso; simp [join, hq, hashTok] at e; done)) <;>
    (try (simp [join, hq] at e; rw [b64_inj e]; exact ⟨rfl, rfl⟩; done))
  · obtain ⟨e1, e2⟩ := hashTok_inj ha ha' (by simpa [join] using e)
    rw [e1, e2]; exact ⟨rfl, rfl⟩
  · exact absurd (by simpa [join] using e) (mixed (a, v) (hashTok (some (a', v')) ++ [44]) s')
  · exact absurd (by simpa [join] using e.symm) (mixed (a', v') (hashTok (some (a, v)) ++ [44]) s)
  · obtain ⟨e1, e2⟩ := last (hashTok (some (a, v)) ++ [44]) (hashTok (some (a', v')) ++ [44]) s s'
      (by simpa [join] using e)
    obtain ⟨e3, e4⟩ := hashTok_inj ha ha' (List.append_cancel_right e1)
    rw [e2, e3, e4]; exact ⟨rfl, rfl⟩

/-- The contribution of registry values. -/
def valuesContribution (v : GV) : Contribution :=
  match v with
  | .slice (some l) => if l = [] then .absent else .values (l.map registryValue)
  | _ => .absent

theorem enumName_unquoted (n : UInt8) : Unquoted (enumName .RegistryDataType n) := by
  have : ∀ n : Fin 256, (34 : UInt8) ∉ enumName .RegistryDataType (UInt8.ofFin n) := by decide +kernel
  exact this n.toFin

theorem regValueContrib_eq {v : GV} {t : Str} (h : regValueContrib v = .ok t) : t = regTok (registryValue v) := by
  unfold regValueContrib at h
  split at h
  · next f =>
    cases h
    rw [regTok, regPairs, List.map_append, List.map_append]
    simp only [List.cons_append, List.nil_append, List.cons.injEq, true_and]
    refine congrArg₂ (· ++ ·) (congrArg (join (b!",")) (congrArg₂ (· ++ ·) (congrArg₂ (· ++ ·) ?_ ?_) ?_)) rfl
    · cases hx : f (b!"Data") with
      | str s => by_cases hs : s = [] <;> simp [registryValue, textField, textOf, hx, hs, pairTok, quoted]
      | _ => simp [registryValue, textField, textOf, hx]
    · cases hx : f (b!"DataType") with
      | enum n => by_cases hs : n = 0 <;> simp [registryValue, hx, hs, pairTok, quoted]
      | _ => simp [registryValue, hx]
    · cases hx : f (b!"Name") with
      | str s => by_cases hs : s = [] <;> simp [registryValue, textField, textOf, hx, hs, pairTok, quoted]
      | _ => simp [registryValue, textField, textOf, hx]
  · cases h

theorem regValuesContrib_eq : ∀ {l : List GV} {a : List Str}, regValuesContrib l = .ok a →
    a = (l.map registryValue).map regTok
  | [], a, h => by cases h; rfl
  | v :: l, a, h => by
    simp only [regValuesContrib] at h
    cases hv : regValueContrib v with
    | ok x => cases hl : regValuesContrib l with
      | ok y =>
        rw [hv, hl] at h
        cases h
        rw [List.map_cons, List.map_cons, ← regValueContrib_eq hv, ← regValuesContrib_eq hl]
      | err e => rw [hv, hl] at h; cases h
      | panic => rw [hv, hl] at h; cases h
    | err e => rw [hv] at h; cases h
    | panic => rw [hv] at h; cases h

/-- The texts of the values of a registry key. -/
def valuesPart (l : List (Str × Option Str × Str)) : List Str :=
  if l = [] then [] else [join (b!",") (l.map regTok)]

theorem registry_forms {t : Str} (h : registryContrib o = .ok t) :
    ∃ l, (∃ vs : List GV, l = vs.map registryValue) ∧
      valuesContribution (o.val (b!"Values")) = (if l = [] then .absent else .values l) ∧
      t = bracket (strPart o (b!"Key") ++ valuesPart l) := by
  unfold registryContrib at h
  have key : ∀ vals : List GV, (do
      let a ← regValuesContrib vals
      return bracket (strPart o (b!"Key") ++ (if vals.length > 0 then [join (b!",") a] else [])) : Res Str) = .ok t →
      t = bracket (strPart o (b!"Key") ++ valuesPart (vals.map registryValue)) := by
    intro vals h
    cases ha : regValuesContrib vals with
    | ok a =>
      rw [ha] at h
      have h : bracket (strPart o (b!"Key") ++ (if vals.length > 0 then [join (b!",") a] else [])) = t := by
        cases h; rfl
      rw [← h, regValuesContrib_eq ha, valuesPart]
      cases vals <;> simp
    | err e => rw [ha] at h; cases h
    | panic => rw [ha] at h; cases h
  unfold valuesContribution
  cases hv : o.val (b!"Values") with
  | slice l => cases l with
    | none => rw [hv] at h; exact ⟨[], ⟨[], rfl⟩, by simp, key [] h⟩
    | some l =>
      rw [hv] at h
      refine ⟨l.map registryValue, ⟨l, rfl⟩, ?_, key l h⟩
      cases l <;> simp
  | _ => rw [hv] at h; exact ⟨[], ⟨[], rfl⟩, by simp, key [] h⟩

theorem registryValue_clean (v : GV) (h : Unquoted (registryValue v).1 ∧ Unquoted (registryValue v).2.2) :
    RegClean (registryValue v) := by
  refine ⟨h.1, ?_, h.2⟩
  intro t ht
  unfold registryValue at ht
  split at ht
  · simp only at ht
    split at ht
    · split at ht
      · cases ht
      · cases ht; exact enumName_unquoted _
    · cases ht
  · cases ht

theorem registry_read {t : Str} (h : registryContrib o = .ok t) (h' : registryContrib o' = .ok t)
    (hc : (textContribution (some (o.val (b!"Key")))).Clean) (hc' : (textContribution (some (o'.val (b!"Key")))).Clean)
    (hv : (valuesContribution (o.val (b!"Values"))).Clean) (hv' : (valuesContribution (o'.val (b!"Values"))).Clean) :
    textContribution (some (o.val (b!"Key"))) = textContribution (some (o'.val (b!"Key"))) ∧
    valuesContribution (o.val (b!"Values")) = valuesContribution (o'.val (b!"Values")) := by
  obtain ⟨l, ⟨vs, hvs⟩, h1, h2⟩ := registry_forms h
  obtain ⟨l', ⟨vs', hvs'⟩, h1', h2'⟩ := registry_forms h'
  have clean1 : ∀ a ∈ l, Unquoted a.1 ∧ Unquoted a.2.2 → RegClean a := by
    intro a ha hu
    rw [hvs] at ha
    obtain ⟨v, -, rfl⟩ := List.mem_map.1 ha
    exact registryValue_clean v hu
  have clean2 : ∀ a ∈ l', Unquoted a.1 ∧ Unquoted a.2.2 → RegClean a := by
    intro a ha hu
    rw [hvs'] at ha
    obtain ⟨v, -, rfl⟩ := List.mem_map.1 ha
    exact registryValue_clean v hu
  have e := bracket_inj (h2.symm.trans h2')
  have hq : ∀ s : Str, quoted s = 34 :: (s ++ [34]) := fun _ => rfl
  have head : ∀ l, l ≠ [] → ∃ r, join (b!",") (l.map regTok) = 123 :: r := by
    intro l hl
    cases l with
    | nil => exact absurd rfl hl
    | cons e l => cases l with
      | nil => exact ⟨_, rfl⟩
      | cons e' l => rw [List.map_cons, List.map_cons, join_cons_ne (by simp)]; exact ⟨_, rfl⟩
  have read : l ≠ [] → l' ≠ [] → join (b!",") (l.map regTok) = join (b!",") (l'.map regTok) → l = l' := by
    intro hl hl' h
    rw [h1, if_neg hl] at hv
    rw [h1', if_neg hl'] at hv'
    exact (join_read (x := []) (x' := []) (τ := 93) (P := RegClean) (by decide) regTok_cut hl hl'
      (fun a ha => clean1 a ha (hv a ha)) (fun a ha => clean2 a ha (hv' a ha)) (by rw [h])).1
  rw [h1, h1']
  by_cases hl : l = [] <;> by_cases hl' : l' = [] <;>
    rcases strPart_forms o (b!"Key") with ⟨k1, k2⟩ | ⟨s, k1, k2⟩ <;>
    rcases strPart_forms o' (b!"Key") with ⟨k1', k2'⟩ | ⟨s', k1', k2'⟩ <;>
    simp only [k2, k2', valuesPart, hl, hl', if_true, if_false, List.append_nil, List.nil_append,
      List.singleton_append] at e <;> rw [k1] at hc <;> rw [k1'] at hc' <;> rw [k1, k1'] <;>
    simp only [hl, hl', if_true, if_false]
  -- no values on either side
  · simp
  · simp [join, hq] at e
  · simp [join, hq] at e
  · rw [quoted_inj e]; simp
  -- values on the right only
  · obtain ⟨r, hr⟩ := head l' hl'
    simp [join, hr] at e
  · simp [join, hq] at e
  · obtain ⟨r, hr⟩ := head l' hl'
    simp [join, hr, hq] at e
  · have e : quoted s ++ [] = quoted s' ++ 44 :: join (b!",") (l'.map regTok) := by simpa [join] using e
    cases (quoted_cut hc hc' e).2
  -- values on the left only
  · obtain ⟨r, hr⟩ := head l hl
    simp [join, hr] at e
  · obtain ⟨r, hr⟩ := head l hl
    simp [join, hr, hq] at e
  · simp [join, hq] at e
  · have e : quoted s ++ 44 :: join (b!",") (l.map regTok) = quoted s' ++ [] := by simpa [join] using e
    cases (quoted_cut hc hc' e).2
  -- values on both sides
  · rw [read hl hl' e]; simp
  · obtain ⟨r, hr⟩ := head l hl
    simp [join, hr, hq] at e
  · obtain ⟨r, hr⟩ := head l' hl'
    simp [join, hr, hq] at e
  · have e : quoted s ++ 44 :: join (b!",") (l.map regTok) = quoted s' ++ 44 :: join (b!",") (l'.map regTok) := by
      simpa [join] using e
    obtain ⟨e1, e2⟩ := quoted_cut hc hc' e
    rw [e1, read hl hl' (List.cons.inj e2).2]; simp

end free

end Stix
