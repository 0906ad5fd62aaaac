import Verif.Props.ParseMany
import Verif.Lemmas.Bundle
import Verif.Lemmas.Refill

/-!
# Parsers of the user (C70)
-/

namespace Stix
open Spec
open Props.Canon (toy)

variable {U : Type} [UserType U] {F : Canon.FloatFmt}

/-- The two lists of options have the same flags. -/
def SameFlags (opts opts' : List (CollOption U)) : Prop :=
  (CollOption.noSort ∈ opts ↔ CollOption.noSort ∈ opts') ∧
    (CollOption.dropCustom ∈ opts ↔ CollOption.dropCustom ∈ opts')

/-- The two lists of options have the same parser for this element as one of this type, as far as can
be seen: none, or two that return the same. -/
def SameParser (opts opts' : List (CollOption U)) (t : Str) (j : Json) : Prop :=
  (NoParser opts t ∧ NoParser opts' t) ∨
    ∃ h h', ParserFor opts t h ∧ ParserFor opts' t h' ∧ h j = h' j

theorem extend_type {a : Option (Any U)} {q : Peak} {t : Str}
    (h : amLookup (b!"type") ((extend a q).1.getD []) = some (.str t)) : amLookup (b!"type") (q.getD []) = some (.str t) := by
  have k : ∀ ks, amLookup (b!"type") ((q.map fun _ => deleteKeys ks (q.getD [])).getD []) = some (.str t) →
      amLookup (b!"type") (q.getD []) = some (.str t) := by
    intro ks hk
    cases q with
    | none => exact hk
    | some m =>
      simp only [Option.map_some, Option.getD_some, amLookup_deleteKeys] at hk ⊢
      split at hk
      · cases hk
      · exact hk
  rcases a with _ | (o | m | ⟨u, x⟩)
  · exact h
  · exact k _ h
  · exact h
  · exact k _ h

theorem parseOne_parsers {cfg cfg' : Config U} (hd : cfg.dropCustom = cfg'.dropCustom) {p : Peak} {j : Json}
    (T : Str → Prop) (hp : ∀ t, amLookup (b!"type") (p.getD []) = some (.str t) → T t)
    (hj : ∀ t, Text j (b!"type") t → T t)
    (hs : ∀ t, T t → newObject cfg t j = newObject cfg' t j) :
    parseOne F cfg p j = parseOne F cfg' p j ∧
      ∀ p' a, parseOne F cfg p j = .ok (p', a) → ∀ t, amLookup (b!"type") (p'.getD []) = some (.str t) → T t := by
  have hq : ∀ q, (decCustom F p j).res = .ok q → ∀ t, amLookup (b!"type") (q.getD []) = some (.str t) → T t := by
    intro q hq t ht
    rw [D.res_ok_iff] at hq
    cases j with
    | obj ms =>
      rw [decCustom_obj] at hq
      simp only [D.ok.injEq] at hq
      obtain ⟨rfl, -⟩ := hq
      rw [Option.getD_some, amLookup_dynMerge] at ht
      cases hm : member (b!"type") ms with
      | none => rw [hm] at ht; exact hp t ht
      | some v =>
        rw [hm] at ht
        exact hj t ⟨v, ⟨ms, rfl, hm⟩, dynOf_str (Option.some.inj ht)⟩
    | null =>
      simp only [decCustom, D.ok.injEq] at hq
      obtain ⟨rfl, -⟩ := hq
      cases ht
    | _ => simp [decCustom] at hq
  unfold parseOne
  cases hr : (decCustom F p j).res with
  | err e => exact ⟨rfl, by simp [Res.bind]⟩
  | panic => exact ⟨rfl, by simp [Res.bind]⟩
  | ok q =>
    simp only [Res.bind]
    have hq := hq q hr
    cases hl : amLookup (b!"type") (q.getD []) with
    | none =>
      refine ⟨rfl, ?_⟩
      rintro p' a h t ht
      simp only [Res.ok.injEq, Prod.mk.injEq] at h
      obtain ⟨rfl, -⟩ := h
      exact hq t ht
    | some d =>
      cases d with
      | str typ =>
        simp only
        rw [← hs typ (hq typ hl), ← hd]
        refine ⟨rfl, ?_⟩
        intro p' a h t ht
        refine hq t ?_
        cases hn : newObject cfg typ j with
        | err e => rw [hn] at h; cases h
        | panic => rw [hn] at h; cases h
        | ok x =>
          rw [hn] at h
          cases x with
          | none =>
            simp only [Res.ok.injEq, Prod.mk.injEq] at h
            obtain ⟨rfl, -⟩ := h
            exact ht
          | some a0 =>
            simp only at h
            cases ha : (decAny F j a0).res with
            | err e => rw [ha] at h; cases h
            | panic => rw [ha] at h; cases h
            | ok a1 =>
              rw [ha] at h
              simp only at h
              split at h
              · cases h
              · simp only [Res.ok.injEq, Prod.mk.injEq] at h
                obtain ⟨rfl, -⟩ := h
                split at ht
                · exact ht
                · exact extend_type ht
      | _ => exact ⟨rfl, by simp⟩

omit [UserType U] in
theorem newObject_same {opts opts' : List (CollOption U)} (hf : SameFlags opts opts') {t : Str} {j : Json}
    (h : SameParser opts opts' t j) : newObject (Config.new opts) t j = newObject (Config.new opts') t j := by
  have hd : (Config.new opts).dropCustom = (Config.new opts').dropCustom := by
    rw [Bool.eq_iff_iff, dropCustom_iff, dropCustom_iff]; exact hf.2
  unfold newObject
  rcases h with ⟨h, h'⟩ | ⟨f, f', h, h', e⟩
  · rw [(noParser_iff _ _).1 h, (noParser_iff _ _).1 h', hd]
  · rw [(handlers_iff _ _ _).2 h, (handlers_iff _ _ _).2 h']
    simp only [e]

/-- **C70** (only the elements of its type).  What a document gives depends on the parsers only through
what they return for its elements, and only on those for the types of its elements. -/
theorem c70_others (opts opts' : List (CollOption U)) (hf : SameFlags opts opts') (doc : Json) (l : List Json)
    (hl : Lists doc l) (hs : ∀ i ∈ l, ∀ t, Text i (b!"type") t → ∀ j ∈ l, SameParser opts opts' t j) :
    fromJSON F opts (some doc) = fromJSON F opts' (some doc) := by
  have hd : (Config.new opts).dropCustom = (Config.new opts').dropCustom := by
    rw [Bool.eq_iff_iff, dropCustom_iff, dropCustom_iff]; exact hf.2
  have hns : (Config.new opts).noSort = (Config.new opts').noSort := by
    rw [Bool.eq_iff_iff, noSort_iff, noSort_iff]; exact hf.1
  rw [fromJSON_lists opts hl, fromJSON_lists opts' hl, hns]
  have key : ∀ (r : List Json), (∀ j ∈ r, j ∈ l) → ∀ (p : Peak) (c : Coll (Any U)),
      (∀ t, amLookup (b!"type") (p.getD []) = some (.str t) → ∃ i ∈ l, Text i (b!"type") t) →
      processObjects F (Config.new opts) p c r = processObjects F (Config.new opts') p c r := by
    intro r
    induction r with
    | nil => intros; rfl
    | cons j r ih =>
      intro hr p c hp
      obtain ⟨h1, h2⟩ := parseOne_parsers (F := F) hd (j := j) (fun t => ∃ i ∈ l, Text i (b!"type") t) hp
        (fun t ht => ⟨j, hr j (by simp), ht⟩)
        (fun t ⟨i, hi, ht⟩ => newObject_same hf (hs i hi t ht j (hr j (by simp))))
      simp only [processObjects]
      rw [← h1]
      cases ho : parseOne F (Config.new opts) p j with
      | err e => rfl
      | panic => rfl
      | ok x =>
        simp only [Res.bind]
        cases addOne c x.2 with
        | err e => rfl
        | panic => rfl
        | ok c' => exact ih (fun j hj => hr j (by simp [hj])) x.1 c' (h2 x.1 x.2 ho)
  exact key l (fun _ h => h) none _ (by simp [amLookup])

/-- The options without those that register parsers. -/
def withoutParsers (opts : List (CollOption U)) : List (CollOption U) :=
  opts.filter fun o => match o with
    | .parser _ _ => false
    | _ => true

omit [UserType U] in
theorem noParsers_withoutParsers (opts : List (CollOption U)) : NoParsers (withoutParsers opts) := by
  intro o ho t h e
  subst e
  simp [withoutParsers] at ho

/-- **C70** (types without a parser).  A document without an element of a type that has a parser is read
as if no parser were registered. -/
theorem c70_unregistered (opts : List (CollOption U)) (doc : Json) (l : List Json) (hl : Lists doc l)
    (hs : ∀ i ∈ l, ∀ t, Text i (b!"type") t → NoParser opts t) :
    fromJSON F opts (some doc) = fromJSON F (withoutParsers opts) (some doc) := by
  refine c70_others opts _ ⟨by simp [withoutParsers], by simp [withoutParsers]⟩ doc l hl ?_
  intro i hi t ht j hj
  refine .inl ⟨hs i hi t ht, ?_⟩
  rintro h ⟨b, a, e, -⟩
  exact noParsers_withoutParsers opts (.parser t (some h)) (by rw [e]; simp) t _ rfl

/-- **C70** (what a parser returns).  If a document is accepted, the parser for the type of an element
has returned an object for it, and the collection has the object that `json.Unmarshal` of the element
into the returned one gives (`Refilled` says what that is), up to extended top-level properties. -/
theorem c70_returned_partial (opts : List (CollOption U)) (doc : Json) (l : List Json) (hl : Lists doc l)
    (c : Coll (Any U)) (h : fromJSON F opts (some doc) = .ok c) :
    ∃ as : List (Option (Any U)), c = (Coll.new (Config.new opts).noSort).addAll (as.filterMap id) ∧
      List.Forall₂ (fun j a => ∀ t f, Text j (b!"type") t → ParserFor opts t f →
        ∃ a₀ a₁ a₂, f j = .ok (some a₀) ∧ decAny F j (some a₀) = .ok (some a₁) false ∧
          Refilled F j a₀ a₁ ∧ a = some a₂ ∧ core a₂ = core a₁ ∧ (CollOption.dropCustom ∈ opts → a₂ = a₁)) l as := by
  rw [fromJSON_lists opts hl] at h
  obtain ⟨as, p', hst, rfl⟩ := processObjects_ok.1 h
  refine ⟨as, rfl, ?_⟩
  clear h hl
  generalize (none : Peak) = p at hst
  induction hst with
  | nil => exact .nil
  | cons h1 h2 h3 ih =>
    rename_i p p' p'' j l a as
    refine .cons ?_ ih
    rintro t f ⟨v, ⟨ms, rfl, hm⟩, raw, rfl⟩ hf
    rw [← handlers_iff] at hf
    have ht : amLookup (b!"type") (dynMerge F (p.getD []) ms) = some (.str t) := by
      rw [amLookup_dynMerge, hm]; rfl
    cases a with
    | none =>
      unfold parseOne at h1
      obtain ⟨q, h4, h5⟩ := Res.bind_ok_iff.1 h1
      rw [D.res_ok_iff, decCustom_obj] at h4
      simp only [D.ok.injEq] at h4
      obtain ⟨rfl, -⟩ := h4
      simp only [Option.getD_some, ht, newObject, hf] at h5
      obtain ⟨x, h6, h7⟩ := Res.bind_ok_iff.1 h5
      obtain ⟨y, -, h8⟩ := Res.bind_ok_iff.1 h6
      simp only [Res.ok.injEq] at h8
      subst h8
      simp only at h7
      obtain ⟨z, -, h9⟩ := Res.bind_ok_iff.1 h7
      split at h9
      · cases h9
      · simp at h9
    | some a =>
      obtain ⟨ms', typ, a0, a1, e, hs, ht', h4, h5, h6⟩ := parseOne_some h1
      simp only [Json.obj.injEq] at e
      subst e
      rw [ht] at ht'
      simp only [Option.some.injEq, Dyn.str.injEq] at ht'
      subst ht'
      simp only [newObject, hf] at h4
      obtain ⟨x, h7, h8⟩ := Res.bind_ok_iff.1 h4
      simp only [Res.ok.injEq, Option.some.injEq] at h8
      subst h8
      refine ⟨a0, a1, a, h7, h5, decAny_refilled h5, rfl, ?_, ?_⟩
      · by_cases hdr : (Config.new opts).dropCustom = true
        · rw [if_pos hdr] at h6
          simp only [Prod.mk.injEq, Option.some.injEq] at h6
          rw [h6.2]
        · rw [if_neg hdr] at h6
          have := core_extend a1 (some (dynMerge F (p.getD []) ms))
          rw [h6] at this
          simpa using this
      · intro hdr
        rw [if_pos ((dropCustom_iff opts).2 hdr)] at h6
        simp only [Prod.mk.injEq, Option.some.injEq] at h6
        exact h6.2.symm

/-- **C70** (a parser that unmarshals).  If `json.Unmarshal` of an element into what its parser has
returned for it changes nothing, the collection has what the parser returned, up to extended top-level
properties. -/
theorem c70_kept_partial (opts : List (CollOption U)) (doc : Json) (l : List Json) (hl : Lists doc l)
    (c : Coll (Any U)) (h : fromJSON F opts (some doc) = .ok c)
    (hk : ∀ j ∈ l, ∀ t f a, Text j (b!"type") t → ParserFor opts t f → f j = .ok (some a) →
      decAny F j (some a) = .ok (some a) false) :
    ∃ as : List (Option (Any U)), c = (Coll.new (Config.new opts).noSort).addAll (as.filterMap id) ∧
      List.Forall₂ (fun j a => ∀ t f, Text j (b!"type") t → ParserFor opts t f →
        ∃ a₀ a₂, f j = .ok (some a₀) ∧ a = some a₂ ∧ core a₂ = core a₀ ∧
          (CollOption.dropCustom ∈ opts → a₂ = a₀)) l as := by
  obtain ⟨as, h1, h2⟩ := c70_returned_partial opts doc l hl c h
  refine ⟨as, h1, ?_⟩
  clear h1 h hl
  induction h2 with
  | nil => exact .nil
  | cons h3 h4 ih =>
    refine .cons ?_ (ih fun j hj => hk j (by simp [hj]))
    intro t f ht hf
    obtain ⟨a₀, a₁, a₂, e1, e2, -, e3, e4, e5⟩ := h3 t f ht hf
    have := hk _ (by simp) t f a₀ ht hf e1
    rw [e2] at this
    simp only [D.ok.injEq, Option.some.injEq, and_true] at this
    subst this
    exact ⟨a₁, a₂, e1, e3, e4, e5⟩

/-- **C70** (errors).  If the parser for the type of an element fails, panics or returns nothing, the
document is not accepted; if it fails, and the elements before were accepted, that is an error. -/
theorem c70_error (opts : List (CollOption U)) (l r : List Json) (j : Json) (t : Str) (f : Handler U)
    (ht : Text j (b!"type") t) (hf : ParserFor opts t f) :
    ((∀ a, f j ≠ .ok (some a)) → ∀ c, fromJSON F opts (some (.arr (l ++ j :: r))) ≠ .ok c) ∧
    (∀ e c, f j = .err e → fromJSON F opts (some (.arr l)) = .ok c →
      ∃ e', fromJSON F opts (some (.arr (l ++ j :: r))) = .err e') := by
  constructor
  · intro hn c hc
    obtain ⟨as, -, h2⟩ := c70_returned_partial opts _ _ (.inl rfl) c hc
    clear hc
    induction l generalizing as with
    | nil =>
      cases h2 with
      | cons h3 h4 =>
        obtain ⟨a, -, -, h5, -⟩ := h3 t f ht hf
        exact hn a h5
    | cons i l ih =>
      cases h2 with
      | cons h3 h4 => exact ih _ h4
  · intro e c he hc
    rw [fromJSON_arr] at hc ⊢
    obtain ⟨as, p', hst, rfl⟩ := processObjects_ok.1 hc
    rw [processObjects_append hst]
    obtain ⟨v, ⟨ms, rfl, hm⟩, raw, rfl⟩ := ht
    rw [← handlers_iff] at hf
    have ht : ∀ p : Peak, amLookup (b!"type") (dynMerge F (p.getD []) ms) = some (.str t) := fun p => by
      rw [amLookup_dynMerge, hm]; rfl
    simp only [processObjects, parseOne, decCustom_obj]
    cases ms.any fun e => dynSoft F e.2 with
    | true => exact ⟨_, rfl⟩
    | false =>
      simp only [D.res, Res.bind, Option.getD_some, ht, newObject, hf, he]
      exact ⟨_, rfl⟩

/-- A parser for tools that gives every tool the name `other`. -/
def exRename : Handler Empty := fun _ =>
  .ok (some (.lib { zeroObj .Tool with val := fun n => if n = b!"Name" then .str (b!"other") else (zeroObj .Tool).val n }))

/-- `{"type": "tool", "id": "tool--…", "name": "nmap"}` -/
def exNmapTool : Json :=
  .obj [(b!"type", exText (b!"tool")), (b!"id", exText (exId (b!"tool"))), (b!"name", exText (b!"nmap"))]

/-- C70 is false of the code: the parser returns a tool with the name `other`, the collection has one
with the name of the document. -/
theorem c70_false : ∃ (o o' : Obj) (c : Coll (Any Empty)), exRename exNmapTool = .ok (some (.lib o)) ∧
    o.getStr (b!"Name") = b!"other" ∧
    fromJSON toy [.parser (b!"tool") (some exRename)] (some (.arr [exNmapTool])) = .ok c ∧
    c.get (exId (b!"tool")) = some (.lib o') ∧ o'.getStr (b!"Name") = b!"nmap" := by
  have h : (fromJSON (U := Empty) toy [.parser (b!"tool") (some exRename)] (some (.arr [exNmapTool]))).okWith
      (fun c => match c.get (exId (b!"tool")) with
        | some (.lib o) => o.getStr (b!"Name") = b!"nmap"
        | _ => false) = true := by decide +kernel
  obtain ⟨c, h1, h2⟩ := Res.okWith_iff.1 h
  cases hg : c.get (exId (b!"tool")) with
  | none => rw [hg] at h2; simp at h2
  | some a =>
    rw [hg] at h2
    cases a with
    | lib o' => exact ⟨_, o', c, rfl, rfl, h1, hg, by simpa using h2⟩
    | custom m => simp at h2
    | user u _ => cases u

/-- A type of a user, with its own `UnmarshalJSON`, which does nothing. -/
structure ExUser where
  id : Str
  typ : Str

instance : UserType ExUser := ⟨(·.id), (·.typ), fun _ => false, fun u _ => .ok u false, fun _ => [], fun _ => false,
  fun _ _ => none⟩

/-- A parser that returns such an object. -/
def exParser : Handler ExUser := fun _ => .ok (some (.user ⟨exId (b!"x-thing"), b!"x-thing"⟩ none))

/-- Non-vacuity for C70: a document with an object of a user's type and a tool is accepted, and has
what the parser returned; another parser for a type that does not occur makes no difference. -/
example : (fromJSON toy [.parser (b!"x-thing") (some exParser)] (some (.arr [exTypeless.getD 0 .null, exNmapTool]))).okWith
      (fun c => (c.get (exId (b!"tool"))).isSome && match c.get (exId (b!"x-thing")) with
        | some (.user u none) => u.id = exId (b!"x-thing") ∧ u.typ = b!"x-thing"
        | _ => false) = true ∧
    Text (exTypeless.getD 0 .null) (b!"type") (b!"x-thing") ∧
    ParserFor [.parser (b!"x-thing") (some exParser)] (b!"x-thing") exParser ∧
    (∀ j a, exParser j = .ok (some a) → decAny toy j (some a) = .ok (some a) false) ∧
    SameFlags [.parser (b!"x-thing") (some exParser)]
      [.parser (b!"x-other") (some exParser), .parser (b!"x-thing") (some exParser)] := by
  refine ⟨by decide +kernel, ⟨_, ⟨_, rfl, rfl⟩, _, rfl⟩, ⟨[], [], rfl, by simp⟩, ?_, by simp [SameFlags]⟩
  intro j a h
  simp only [exParser, Res.ok.injEq, Option.some.injEq] at h
  subst h
  rfl

end Stix
