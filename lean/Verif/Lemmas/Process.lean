import Verif.Spec.Doc
import Verif.Lemmas.Codec
import Verif.Props.Collection
import Verif.Lemmas.Option

/-!
# Lemmas about parsing documents
-/

namespace Stix
open Spec StixObject

variable {F : Canon.FloatFmt} {U : Type}

/-! ### `interface{}` values -/

mutual
theorem decDyn_total : ∀ j : Json, ∃ d s, decDyn F j = .ok d s
  | .null => ⟨_, _, by simp only [decDyn]; rfl⟩
  | .bool b => ⟨_, _, by simp only [decDyn]; rfl⟩
  | .num lit => by
    simp only [decDyn]
    split <;> exact ⟨_, _, rfl⟩
  | .str _ _ => ⟨_, _, by simp only [decDyn]; rfl⟩
  | .arr l => by
    obtain ⟨d, s, h⟩ := decDynArr_total l
    exact ⟨.arr d, s, by simp [decDyn, h, D.bind]⟩
  | .obj m => by
    obtain ⟨d, s, h⟩ := decDynObj_total m []
    exact ⟨.obj d, s, by simp [decDyn, h, D.bind]⟩

theorem decDynArr_total : ∀ l : List Json, ∃ d s, decDynArr F l = .ok d s
  | [] => ⟨_, _, by simp only [decDynArr]; rfl⟩
  | j :: l => by
    obtain ⟨d, s, h⟩ := decDyn_total j
    obtain ⟨d', s', h'⟩ := decDynArr_total l
    exact ⟨d :: d', s || s', by simp [decDynArr, h, h', D.bind]⟩

theorem decDynObj_total : ∀ (l : List (Str × Json)) (cur : List (Str × Dyn)),
    ∃ d s, decDynObj F cur l = .ok d s
  | [], cur => ⟨_, _, by simp only [decDynObj]; rfl⟩
  | (k, j) :: l, cur => by
    obtain ⟨d, s, h⟩ := decDyn_total j
    obtain ⟨d', s', h'⟩ := decDynObj_total l (smInsert k d cur)
    exact ⟨d', s || s', by simp [decDynObj, h, h', D.bind]⟩
end

/-- The value of a JSON value as an `interface{}`. -/
def dynOf (F : Canon.FloatFmt) (j : Json) : Dyn :=
  match decDyn F j with
  | .ok d _ => d
  | _ => .nil

/-- Whether there was an error (a number out of range). -/
def dynSoft (F : Canon.FloatFmt) (j : Json) : Bool :=
  match decDyn F j with
  | .ok _ s => s
  | _ => false

theorem decDyn_eq (j : Json) : decDyn F j = .ok (dynOf F j) (dynSoft F j) := by
  obtain ⟨d, s, h⟩ := decDyn_total (F := F) j
  simp [dynOf, dynSoft, h]

/-- The map that decoding the members into `cur` gives. -/
def dynMerge (F : Canon.FloatFmt) (cur : List (Str × Dyn)) (ms : List (Str × Json)) :
    List (Str × Dyn) := ms.foldl (fun m e => smInsert e.1 (dynOf F e.2) m) cur

theorem decDynObj_eq (ms : List (Str × Json)) (cur : List (Str × Dyn)) :
    decDynObj F cur ms = .ok (dynMerge F cur ms) (ms.any fun e => dynSoft F e.2) := by
  induction ms generalizing cur with
  | nil => simp [decDynObj, dynMerge]
  | cons e ms ih =>
    obtain ⟨k, j⟩ := e
    simp only [decDynObj, decDyn_eq, ih, D.bind]
    simp [dynMerge]

theorem amLookup_dynMerge (k : Str) (cur : List (Str × Dyn)) (ms : List (Str × Json)) :
    amLookup k (dynMerge F cur ms) =
      match member k ms with
      | some j => some (dynOf F j)
      | none => amLookup k cur := by
  induction ms generalizing cur with
  | nil => rfl
  | cons e ms ih =>
    obtain ⟨k', j⟩ := e
    have := ih (smInsert k' (dynOf F j) cur)
    simp only [dynMerge, List.foldl_cons] at this ⊢
    rw [this, member]
    cases member k ms with
    | some v => rfl
    | none =>
      simp only [amLookup_smInsert]
      by_cases h : k' = k
      · simp [h]
      · simp [h, Ne.symm h]

theorem sorted_dynMerge {cur : List (Str × Dyn)} (h : SortedKeys cur) (ms : List (Str × Json)) :
    SortedKeys (dynMerge F cur ms) := by
  induction ms generalizing cur with
  | nil => exact h
  | cons e ms ih => exact ih (sortedKeys_smInsert h)

theorem decCustom_obj (cur : Peak) (ms : List (Str × Json)) :
    decCustom F cur (.obj ms) =
      .ok (some (dynMerge F (cur.getD []) ms)) (ms.any fun e => dynSoft F e.2) := by
  simp [decCustom, decDynObj_eq, D.bind]

theorem member_none_iff (k : Str) (ms : List (Str × Json)) : member k ms = none ↔ k ∉ amKeys ms := by
  induction ms with
  | nil => simp [member, amKeys]
  | cons e ms ih =>
    obtain ⟨k', j⟩ := e
    simp only [member, amKeys, List.map_cons, List.mem_cons, not_or] at ih ⊢
    cases h : member k ms with
    | some v =>
      rw [h] at ih
      simp only [false_iff, not_not, reduceCtorEq] at ih
      simp only [reduceCtorEq, false_iff, not_and, not_not]
      exact fun _ => ih
    | none =>
      rw [h] at ih
      simp only [true_iff] at ih
      by_cases e : k' = k
      · simp [e]
      · simp only [e, if_false, true_iff]; exact ⟨Ne.symm e, ih⟩

theorem member_mem {k : Str} {ms : List (Str × Json)} {j : Json} (h : member k ms = some j) :
    (k, j) ∈ ms := by
  induction ms with
  | nil => simp [member] at h
  | cons e ms ih =>
    obtain ⟨k', j'⟩ := e
    simp only [member] at h
    cases h' : member k ms with
    | some v => rw [h'] at h; simp only [Option.some.injEq] at h; subst h; exact .tail _ (ih h')
    | none =>
      rw [h'] at h
      by_cases e : k' = k
      · simp only [e, if_true, Option.some.injEq] at h; subst h; subst e; simp
      · simp [e] at h

theorem member_of_mem {k : Str} {ms : List (Str × Json)} {j : Json} (hn : (amKeys ms).Nodup)
    (h : (k, j) ∈ ms) : member k ms = some j := by
  cases h' : member k ms with
  | none => exact absurd (List.mem_map_of_mem h) ((member_none_iff k ms).1 h')
  | some v =>
    have := member_mem h'
    have a := amLookup_eq_some_of_mem k j ms hn h
    have b := amLookup_eq_some_of_mem k v ms hn this
    rw [a] at b
    exact b.symm

/-! ### Options -/

theorem Config.new_snoc (opts : List (CollOption U)) (o : CollOption U) :
    Config.new (opts ++ [o]) = (Config.new opts).apply o := by
  simp [Config.new]

theorem handlers_none {opts : List (CollOption U)} (h : NoParsers opts) (t : Str) :
    (Config.new opts).handlers t = none := by
  induction opts using List.reverseRecOn with
  | nil => rfl
  | append_singleton opts o ih =>
    rw [Config.new_snoc]
    have h1 : NoParsers opts := fun x hx => h x (by simp [hx])
    cases o with
    | noSort => exact ih h1
    | dropCustom => exact ih h1
    | parser t' h' => exact absurd rfl (h (.parser t' h') (by simp) t' h')

theorem handlers_iff (opts : List (CollOption U)) (t : Str) (h : Handler U) :
    (Config.new opts).handlers t = some h ↔ ParserFor opts t h := by
  induction opts using List.reverseRecOn with
  | nil =>
    simp [Config.new, ParserFor]
  | append_singleton opts o ih =>
    rw [Config.new_snoc]
    have key : ∀ (hne : ∀ h', o ≠ .parser t h'), ParserFor (opts ++ [o]) t h ↔ ParserFor opts t h := by
      intro hne
      constructor
      · rintro ⟨b, a, e, ha⟩
        rcases List.eq_nil_or_concat a with rfl | ⟨a', x, rfl⟩
        · have := (List.append_inj' e rfl).2
          simp only [List.cons.injEq, and_true] at this
          exact absurd this (hne _)
        · have e' : opts ++ [o] = (b ++ .parser t (some h) :: a') ++ [x] := by rw [e]; simp
          obtain ⟨e1, e2⟩ := List.append_inj' e' rfl
          exact ⟨b, a', e1, fun y hy => ha y (by simp [hy])⟩
      · rintro ⟨b, a, rfl, ha⟩
        refine ⟨b, a ++ [o], by simp, ?_⟩
        intro y hy
        rcases List.mem_append.1 hy with hy | hy
        · exact ha y hy
        · simp only [List.mem_singleton] at hy; subst hy; exact hne
    cases o with
    | noSort => rw [key (by simp)]; exact ih
    | dropCustom => rw [key (by simp)]; exact ih
    | parser t' h' =>
      by_cases e : t' = t
      · subst e
        simp only [Config.apply, if_true]
        constructor
        · rintro rfl; exact ⟨opts, [], by simp, by simp⟩
        · rintro ⟨b, a, e, ha⟩
          rcases List.eq_nil_or_concat a with rfl | ⟨a', x, rfl⟩
          · have := (List.append_inj' e rfl).2
            simp only [List.cons.injEq, CollOption.parser.injEq, true_and, and_true] at this
            exact this
          · have e' : opts ++ [CollOption.parser t' h'] = (b ++ .parser t' (some h) :: a') ++ [x] := by
              rw [e]; simp
            have e2 := (List.append_inj' e' rfl).2
            simp only [List.cons.injEq, and_true] at e2
            exact absurd e2.symm (ha x (by simp) h')
      · rw [key (by simp [e])]
        simpa [Config.apply, Ne.symm e] using ih

theorem noParser_iff (opts : List (CollOption U)) (t : Str) :
    NoParser opts t ↔ (Config.new opts).handlers t = none := by
  rw [Option.eq_none_iff_forall_ne_some]
  exact forall_congr' fun h => not_congr (handlers_iff opts t h).symm

theorem dropCustom_iff (opts : List (CollOption U)) :
    (Config.new opts).dropCustom = true ↔ .dropCustom ∈ opts := by
  induction opts using List.reverseRecOn with
  | nil => simp [Config.new]
  | append_singleton opts o ih =>
    rw [Config.new_snoc]
    cases o <;> simp [Config.apply, ih]

/-! ### The loop -/

variable [UserType U]

/-- What one run of the loop made of the elements of a list. -/
inductive Steps (F : Canon.FloatFmt) (cfg : Config U) :
    Peak → List Json → List (Option (Any U)) → Peak → Prop
  | nil (p) : Steps F cfg p [] [] p
  | cons {p p' p'' j l a as} : parseOne F cfg p j = .ok (p', a) →
      (∀ x, a = some x → x.panics = false ∧ Acceptable x) → Steps F cfg p' l as p'' →
      Steps F cfg p (j :: l) (a :: as) p''

theorem addOne_ok {c c' : Coll (Any U)} {a : Option (Any U)} :
    addOne c a = .ok c' ↔ (∀ x, a = some x → x.panics = false ∧ Acceptable x) ∧
      c' = c.addAll a.toList := by
  cases a with
  | none =>
    simp only [addOne, Coll.addAll, Res.ok.injEq, Option.toList, List.foldl_nil, reduceCtorEq,
      false_implies, implies_true, true_and]
    exact eq_comm
  | some x =>
    simp only [addOne, Option.some.injEq, forall_eq', Option.toList]
    have hacc := c04_accepts c x
    by_cases hp : x.panics
    · simp [hp]
    · simp only [hp, if_false, Bool.false_eq_true, true_and]
      cases h : (c.add x).2 with
      | true =>
        rw [h] at hacc
        simp only [if_true, reduceCtorEq, false_iff, not_and]
        intro ha
        exact absurd (hacc.2 ha) (by simp)
      | false =>
        rw [h] at hacc
        simp only [Bool.false_eq_true, if_false, Res.ok.injEq, Coll.addAll, List.foldl_cons,
          List.foldl_nil]
        exact ⟨fun e => ⟨hacc.1 rfl, e.symm⟩, fun e => e.2.symm⟩

theorem Res.bind_ok_iff {α β} {x : Res α} {f : α → Res β} {b : β} :
    x.bind f = .ok b ↔ ∃ a, x = .ok a ∧ f a = .ok b := by
  cases x <;> simp [Res.bind]

theorem processObjects_ok {cfg : Config U} {l : List Json} {p : Peak} {c c' : Coll (Any U)} :
    processObjects F cfg p c l = .ok c' ↔
      ∃ as p', Steps F cfg p l as p' ∧ c' = c.addAll (as.filterMap id) := by
  induction l generalizing p c c' with
  | nil =>
    simp only [processObjects, Res.ok.injEq]
    constructor
    · rintro rfl; exact ⟨[], p, .nil p, rfl⟩
    · rintro ⟨as, p', h, rfl⟩; cases h; rfl
  | cons j l ih =>
    simp only [processObjects, Res.bind_ok_iff]
    constructor
    · rintro ⟨⟨p1, a⟩, h1, c1, h2, h3⟩
      obtain ⟨h4, rfl⟩ := addOne_ok.1 h2
      obtain ⟨as, p', h5, rfl⟩ := ih.1 h3
      refine ⟨a :: as, p', .cons h1 h4 h5, ?_⟩
      cases a <;> simp [Coll.addAll]
    · rintro ⟨as, p', h, rfl⟩
      cases h with
      | cons h1 h4 h5 =>
        rename_i p1 a as
        refine ⟨(p1, a), h1, _, addOne_ok.2 ⟨h4, rfl⟩, ih.2 ⟨as, p', h5, ?_⟩⟩
        cases a <;> simp [Coll.addAll]

theorem Steps.mem {cfg : Config U} {p p' : Peak} {l : List Json} {as : List (Option (Any U))}
    (h : Steps F cfg p l as p') {a : Any U} (ha : some a ∈ as) :
    Acceptable a ∧ ∃ j ∈ l, ∃ p1 p2, parseOne F cfg p1 j = .ok (p2, some a) := by
  induction h with
  | nil => simp at ha
  | cons h1 h2 h3 ih =>
    rcases List.mem_cons.1 ha with rfl | ha
    · exact ⟨(h2 a rfl).2, _, by simp, _, _, h1⟩
    · obtain ⟨hacc, j, hj, p1, p2, h⟩ := ih ha
      exact ⟨hacc, j, by simp [hj], p1, p2, h⟩

/-- Every object in the collection was made of an element. -/
theorem processObjects_mem {cfg : Config U} {l : List Json} {p : Peak} {ns : Bool}
    {c : Coll (Any U)} (h : processObjects F cfg p (Coll.new ns) l = .ok c) {id : Str} {a : Any U}
    (ha : c.get id = some a) :
    Acceptable a ∧ getID a = id ∧ ∃ j ∈ l, ∃ p1 p2, parseOne F cfg p1 j = .ok (p2, some a) := by
  obtain ⟨as, p', h1, rfl⟩ := processObjects_ok.1 h
  have hl := (c01_get_latest ns _ id a).1 ha
  obtain ⟨h2, h3, h4⟩ := latest_acceptable hl
  have : some a ∈ as := by simpa using h4
  exact ⟨h2, h3, (h1.mem this).2⟩

/-! ### One element -/

theorem D.res_ok_iff {α} {x : D α} {a : α} : x.res = .ok a ↔ x = .ok a false := by
  cases x with
  | ok b s => cases s <;> simp [D.res]
  | hard => simp [D.res]
  | panic => simp [D.res]

theorem D.bind_ok_iff {α β} {x : D α} {f : α → D β} {b : β} :
    x.bind f = .ok b false ↔ ∃ a, x = .ok a false ∧ f a = .ok b false := by
  cases x with
  | ok a s =>
    simp only [D.bind, D.ok.injEq]
    cases h : f a with
    | ok b' s' =>
      cases s <;> cases s' <;> simp [h]
    | hard => cases s <;> simp [h]
    | panic => cases s <;> simp [h]
  | hard => simp [D.bind]
  | panic => simp [D.bind]

/-- How an element became an object. -/
theorem parseOne_some {cfg : Config U} {p p' : Peak} {j : Json} {a : Any U}
    (h : parseOne F cfg p j = .ok (p', some a)) :
    ∃ ms typ a0 a1, j = .obj ms ∧ (ms.any fun e => dynSoft F e.2) = false ∧
      amLookup (b!"type") (dynMerge F (p.getD []) ms) = some (.str typ) ∧
      newObject cfg typ j = .ok (some (some a0)) ∧ decAny F j (some a0) = .ok (some a1) false ∧
      (if cfg.dropCustom then (some (dynMerge F (p.getD []) ms), some a1)
        else extend (some a1) (some (dynMerge F (p.getD []) ms))) = (p', some a) := by
  unfold parseOne at h
  obtain ⟨q, h1, h2⟩ := Res.bind_ok_iff.1 h
  rw [D.res_ok_iff] at h1
  cases j with
  | obj ms =>
    rw [decCustom_obj] at h1
    simp only [D.ok.injEq] at h1
    obtain ⟨rfl, hs⟩ := h1
    simp only [Option.getD_some] at h2
    split at h2
    · simp at h2
    · next typ ht =>
      obtain ⟨a', h3, h4⟩ := Res.bind_ok_iff.1 h2
      cases a' with
      | none => simp at h4
      | some a0 =>
        simp only at h4
        obtain ⟨a1, h5, h6⟩ := Res.bind_ok_iff.1 h4
        rw [D.res_ok_iff] at h5
        have hsome : ∃ x y, a0 = some x ∧ a1 = some y := by
          cases a0 with
          | none =>
            simp only [decAny, D.bind_ok_iff] at h5
            obtain ⟨_, _, h7⟩ := h5
            simp only [D.ok.injEq, and_true] at h7
            subst h7
            by_cases hd : cfg.dropCustom <;> simp [hd, extend] at h6
          | some x =>
            refine ⟨x, ?_⟩
            cases x <;> simp only [decAny, D.bind_ok_iff] at h5 <;> obtain ⟨y, _, h7⟩ := h5 <;>
              simp only [D.ok.injEq, and_true] at h7 <;> exact ⟨_, rfl, h7.symm⟩
        obtain ⟨x, y, rfl, rfl⟩ := hsome
        refine ⟨ms, typ, x, y, rfl, hs, ht, h3, h5, ?_⟩
        split at h6
        · simp at h6
        · next a2 ha2 =>
          simp only [Res.ok.injEq, Prod.mk.injEq, Option.some.injEq] at h6
          obtain ⟨h6, rfl⟩ := h6
          exact Prod.ext h6 ha2
    · simp at h2
  | null => simp only [decCustom, D.ok.injEq, and_true] at h1; subst h1; simp [amLookup] at h2
  | _ => simp [decCustom] at h1

theorem decObj_ok {o o' : Obj} {j : Json} {s : Bool} (h : decObj F o j = .ok o' s) :
    o'.sid = o.sid ∧ o'.extra = o.extra := by
  cases j with
  | obj ms =>
    simp only [decObj] at h
    cases hd : decStruct (objFields o.sid) (decField F (mkFields (objFields o.sid))) o.val ms with
    | ok g s' =>
      rw [hd] at h
      simp only [D.bind, D.ok.injEq] at h
      obtain ⟨rfl, _⟩ := h
      exact ⟨rfl, rfl⟩
    | hard => rw [hd] at h; simp [D.bind] at h
    | panic => rw [hd] at h; simp [D.bind] at h
  | _ => simp only [decObj, D.ok.injEq] at h; obtain ⟨rfl, _⟩ := h; exact ⟨rfl, rfl⟩

theorem core_extend (a : Any U) (p : Peak) : ((extend (some a) p).2).map core = some (core a) := by
  cases a with
  | lib o =>
    simp only [extend]
    split <;> simp [core]
  | custom m => simp [extend, core]
  | user u x => simp [extend, core]

omit [UserType U] in
theorem core_lib {a : Any U} {o : Obj} (h : core a = .lib o) : ∃ o', a = .lib o' := by
  cases a <;> simp [core] at h
  exact ⟨_, rfl⟩

/-- What an element of a type without a parser becomes. -/
theorem parseOne_builtin {cfg : Config U} {p p' : Peak} {j : Json} {a : Any U}
    (h : parseOne F cfg p j = .ok (p', some a)) :
    ∃ ms typ, j = .obj ms ∧ amLookup (b!"type") (dynMerge F (p.getD []) ms) = some (.str typ) ∧
      (cfg.handlers typ = none →
        (∃ s o, amLookup typ dispatchTable = some s ∧ decObj F (zeroObj s) j = .ok o false ∧
          core a = .lib o ∧ (cfg.dropCustom = true → a = .lib o)) ∨
        (amLookup typ dispatchTable = none ∧ cfg.dropCustom = false ∧
          a = .custom (some (dynMerge F [] ms)))) := by
  obtain ⟨ms, typ, a0, a1, rfl, hs, ht, h1, h2, h3⟩ := parseOne_some h
  refine ⟨ms, typ, rfl, ht, fun hn => ?_⟩
  simp only [newObject, hn] at h1
  cases hd : amLookup typ dispatchTable with
  | some s =>
    rw [hd] at h1
    simp only [Res.ok.injEq, Option.some.injEq] at h1
    subst h1
    simp only [decAny, D.bind_ok_iff, D.ok.injEq, Option.some.injEq, and_true] at h2
    obtain ⟨o, h2, rfl⟩ := h2
    have hx := (decObj_ok h2).2
    have hc : core (.lib o : Any U) = .lib o := by
      simp only [core, Any.lib.injEq]
      have : (zeroObj s).extra = none := rfl
      rw [this] at hx
      rw [← hx]
    refine .inl ⟨s, o, rfl, h2, ?_, ?_⟩
    · split at h3
      · simp only [Prod.mk.injEq, Option.some.injEq] at h3; rw [← h3.2, hc]
      · have := core_extend (.lib o : Any U) (some (dynMerge F (p.getD []) ms))
        rw [h3, hc] at this
        simpa using this
    · intro hdr
      rw [if_pos hdr] at h3
      simp only [Prod.mk.injEq, Option.some.injEq] at h3
      exact h3.2.symm
  | none =>
    rw [hd] at h1
    cases hdr : cfg.dropCustom with
    | true => rw [hdr] at h1; simp at h1
    | false =>
      rw [hdr] at h1 h3
      simp only [Bool.false_eq_true, if_false, Res.ok.injEq, Option.some.injEq] at h1 h3
      subst h1
      simp only [decAny, decCustom_obj, D.bind_ok_iff, D.ok.injEq, Option.some.injEq, and_true] at h2
      obtain ⟨m, ⟨rfl, _⟩, rfl⟩ := h2
      simp only [extend, Prod.mk.injEq, Option.some.injEq] at h3
      exact .inr ⟨rfl, rfl, h3.2.symm⟩

/-! ### A text field of a struct -/

theorem matchKey_fold {fs : List FieldInfo} {k : Str} {f : FieldInfo} (h : matchKey fs k = some f) :
    foldName k = foldName f.key := by
  unfold matchKey at h
  cases h1 : fs.find? (fun f => f.key == k) with
  | some g =>
    rw [h1] at h
    simp only [Option.orElse, Option.some.injEq] at h
    subst h
    have := List.find?_some h1
    simp only [beq_iff_eq] at this
    rw [this]
  | none =>
    rw [h1] at h
    have := List.find?_some (show fs.find? _ = some f from h)
    simp only [beq_iff_eq] at this
    exact this.symm

theorem decStruct_text {fs : List FieldInfo} {d : Str → GV → Json → D GV} {f : FieldInfo}
    (hn : (fs.map FieldInfo.name).Nodup) (hk : (fs.map FieldInfo.key).Nodup) (hf : f ∈ fs)
    (hd : ∀ cur raw s, d f.name cur (.str raw s) = .ok (.str s) false) (ms : List (Str × Json)) :
    ∀ (cur : Str → GV) (g : Str → GV) (soft : Bool),
    (∀ k ∈ amKeys ms, foldName k = foldName f.key → k = f.key) →
    decStruct fs d cur ms = .ok g soft →
      (∀ raw s, member f.key ms = some (.str raw s) → g f.name = .str s) ∧
      (member f.key ms = none → g f.name = cur f.name) := by
  induction ms with
  | nil =>
    intro cur g soft _ h
    simp only [decStruct, D.ok.injEq] at h
    simp [member, h.1]
  | cons e ms ih =>
    obtain ⟨k, j⟩ := e
    intro cur g soft hv h
    have hv' : ∀ k ∈ amKeys ms, foldName k = foldName f.key → k = f.key :=
      fun k hk => hv k (List.mem_cons_of_mem _ hk)
    simp only [decStruct] at h
    cases hm : matchKey fs k with
    | none =>
      rw [hm] at h
      have hne : k ≠ f.key := by
        rintro rfl
        rw [matchKey_self hk hf] at hm
        simp at hm
      obtain ⟨h1, h2⟩ := ih cur g soft hv' h
      simp only [member, if_neg hne]
      constructor
      · intro raw s hh
        cases hmm : member f.key ms with
        | some v => rw [hmm] at hh; exact h1 raw s (by rw [hmm]; exact hh)
        | none => rw [hmm] at hh; simp at hh
      · intro hh
        cases hmm : member f.key ms with
        | some v => rw [hmm] at hh; simp at hh
        | none => exact h2 hmm
    | some f' =>
      rw [hm] at h
      simp only at h
      cases hv1 : d f'.name (cur f'.name) j with
      | hard => rw [hv1] at h; simp [D.bind] at h
      | panic => rw [hv1] at h; simp [D.bind] at h
      | ok v sv =>
        rw [hv1] at h
        simp only [D.bind] at h
        cases h2 : decStruct fs d (fun x => if x = f'.name then v else cur x) ms with
        | hard => rw [h2] at h; simp at h
        | panic => rw [h2] at h; simp at h
        | ok g' s' =>
          rw [h2] at h
          simp only [D.ok.injEq] at h
          obtain ⟨rfl, _⟩ := h
          obtain ⟨i1, i2⟩ := ih _ g' s' hv' h2
          by_cases e : k = f.key
          · subst e
            rw [matchKey_self hk hf] at hm
            simp only [Option.some.injEq] at hm
            subst hm
            simp only [member]
            cases hmm : member f.key ms with
            | some w =>
              refine ⟨fun raw s hh => i1 raw s (by rw [hmm]; exact hh), by simp⟩
            | none =>
              simp only [if_true, Option.some.injEq, reduceCtorEq, false_implies, and_true]
              rintro raw s rfl
              rw [i2 hmm]
              rw [hd] at hv1
              simp only [D.ok.injEq] at hv1
              simp [hv1.1]
          · have hne : f'.name ≠ f.name := by
              intro hh
              have := inj_of_nodup hn (matchKey_mem hm) hf hh
              subst this
              exact e (hv k (by simp [amKeys]) (matchKey_fold hm))
            simp only [member, if_neg e]
            constructor
            · intro raw s hh
              cases hmm : member f.key ms with
              | some v => rw [hmm] at hh; exact i1 raw s (by rw [hmm]; exact hh)
              | none => rw [hmm] at hh; simp at hh
            · intro hh
              cases hmm : member f.key ms with
              | some v => rw [hmm] at hh; simp at hh
              | none => rw [i2 hmm, if_neg (Ne.symm hne)]

/-- The type has kind string. -/
def Ty.isStr : Ty → Bool
  | .str _ => true
  | _ => false

theorem mkFields_toList (l : List FieldInfo) : (mkFields l).toList = l := by
  induction l with
  | nil => rfl
  | cons f l ih => simp [mkFields, Fields.toList, ih]

/-- Every object has an id and a type, both text. -/
theorem id_type_rows (s : SId) :
    (∃ r ∈ objFields s, r.name = b!"ID" ∧ r.key = b!"id" ∧ r.ty.isStr = true) ∧
    (∃ r ∈ objFields s, r.name = b!"Type" ∧ r.key = b!"type" ∧ r.ty.isStr = true) := by
  have h : ∀ s ∈ allSIds,
      ((objFields s).any fun r => r.name == b!"ID" && r.key == b!"id" && r.ty.isStr) = true ∧
      ((objFields s).any fun r => r.name == b!"Type" && r.key == b!"type" && r.ty.isStr) = true := by
    decide +kernel
  obtain ⟨h1, h2⟩ := h s (mem_allSIds s)
  simp only [List.any_eq_true, Bool.and_eq_true, beq_iff_eq, and_assoc] at h1 h2
  exact ⟨h1, h2⟩

/-- The text of a member, in the field for it. -/
theorem decObj_text {o o' : Obj} {ms : List (Str × Json)} {soft : Bool} {r : FieldInfo}
    (h : decObj F o (.obj ms) = .ok o' soft) (hr : r ∈ objFields o.sid) (ht : r.ty.isStr = true)
    (hv : NoVariant (.obj ms) r.key) :
    (∀ raw s, member r.key ms = some (.str raw s) → o'.val r.name = .str s) ∧
      (member r.key ms = none → o'.val r.name = o.val r.name) := by
  simp only [decObj] at h
  cases hd : decStruct (objFields o.sid) (decField F (mkFields (objFields o.sid))) o.val ms with
  | ok g s' =>
    rw [hd] at h
    simp only [D.bind, D.ok.injEq] at h
    obtain ⟨rfl, _⟩ := h
    have hn := objFields_names_nodup o.sid
    refine decStruct_text hn (objFields_keys_nodup o.sid) hr ?_ ms o.val g s' (hv ms rfl) hd
    intro cur raw s
    rw [decField_row (by rw [mkFields_toList]; exact hn) (by rw [mkFields_toList]; exact hr)]
    cases hty : r.ty <;> rw [hty] at ht <;> simp [Ty.isStr] at ht
    simp [dec]
  | hard => rw [hd] at h; simp [D.bind] at h
  | panic => rw [hd] at h; simp [D.bind] at h

/-! ### Documents -/

theorem decElems_raw (z : GV) (l : List Json) (cur : List GV) :
    decElems (fun _ j => .ok (.raw j) false) z cur l = .ok (l.map .raw) false := by
  induction l generalizing cur with
  | nil => rfl
  | cons j l ih => simp [decElems, D.bind, ih]

theorem dec_rawSlice (cur : GV) (l : List Json) :
    dec F (.slice .raw) cur (.arr l) = .ok (.slice (some (l.map .raw))) false := by
  simp only [dec, decElems_raw, D.bind, Bool.or_self]

theorem rawList_raw (l : List Json) : rawList (.slice (some (l.map .raw))) = l := by
  simp only [rawList]
  induction l with
  | nil => rfl
  | cons j l ih => simp [ih]

theorem fromJSON_arr (opts : List (CollOption U)) (l : List Json) :
    fromJSON F opts (some (.arr l)) =
      processObjects F (Config.new opts) none (Coll.new (Config.new opts).noSort) l := by
  have h1 : dec F tyBundle (zero tyBundle) (.arr l) = .ok (zero tyBundle) true := by
    simp [tyBundle, dec]
  simp only [fromJSON, h1, dec_rawSlice, D.res, rawList_raw]

theorem bundle_nodup : (fieldsBundle.toList.map FieldInfo.name).Nodup ∧
    (fieldsBundle.toList.map FieldInfo.key).Nodup := by decide

theorem matchKey_variant {fs : List FieldInfo} {k : Str} {f : FieldInfo} {ms : List (Str × Json)}
    (hm : matchKey fs k = some f) (hk : k ∈ amKeys ms) (hv : NoVariant (.obj ms) f.key) :
    f.key = k := (hv ms rfl k hk (matchKey_fold hm)).symm

theorem fromJSON_bundle (opts : List (CollOption U)) {doc : Json} {l : List Json}
    (h : IsBundle doc l) :
    fromJSON F opts (some doc) =
      processObjects F (Config.new opts) none (Coll.new (Config.new opts).noSort) l := by
  obtain ⟨ms, rfl, ho⟩ := h.objects
  have hnd := h.distinct ms rfl
  have hrow : ∀ {r : FieldInfo}, r ∈ fieldsBundle.toList → ∀ cur j,
      decField F fieldsBundle r.name cur j = dec F r.ty cur j :=
    fun hr cur j => decField_row bundle_nodup.1 hr cur j
  have hf : fieldsBundle.toList = [⟨b!"Type", b!"type", false, .str (b!"STIXType")⟩,
      ⟨b!"ID", b!"id", false, .str (b!"Identifier")⟩,
      ⟨b!"Objects", b!"objects", true, .slice .raw⟩] := rfl
  obtain ⟨g, g1, g2, _⟩ := decStruct_spec (d := decField F fieldsBundle) bundle_nodup.1
    bundle_nodup.2 ms (zeroFields fieldsBundle) hnd (by
      intro k j hj r hm
      have hkm : k ∈ amKeys ms := List.mem_map_of_mem hj
      have hr := matchKey_mem hm
      have hmem := member_of_mem hnd hj
      have hkey : r.key = k := by
        have hr' := hr
        rw [hf] at hr'
        simp only [List.mem_cons, List.not_mem_nil, or_false] at hr'
        apply matchKey_variant hm hkm
        rcases hr' with rfl | rfl | rfl
        · exact h.noVariant.2.1
        · exact h.noVariant.2.2
        · exact h.noVariant.1
      refine ⟨hkey, ?_⟩
      rw [hrow hr]
      subst hkey
      rw [hf] at hr
      simp only [List.mem_cons, List.not_mem_nil, or_false] at hr
      rcases hr with rfl | rfl | rfl
      · obtain ⟨s, raw, rfl⟩ := h.typ j ⟨ms, rfl, hmem⟩
        exact ⟨_, by simp only [dec]; rfl⟩
      · obtain ⟨s, raw, rfl⟩ := h.id j ⟨ms, rfl, hmem⟩
        exact ⟨_, by simp only [dec]; rfl⟩
      · have : j = .arr l := by
          have e : member (b!"objects") ms = some j := hmem
          rw [e] at ho
          exact Option.some.inj ho
        subst this
        exact ⟨_, dec_rawSlice _ _⟩)
  have hobj := g2 ⟨b!"Objects", b!"objects", true, .slice .raw⟩ (by rw [hf]; simp) (.arr l) (member_mem ho)
  rw [hrow (by rw [hf]; simp)] at hobj
  rw [dec_rawSlice] at hobj
  simp only [D.ok.injEq, and_true] at hobj
  have h1 : dec F tyBundle (zero tyBundle) (.obj ms) = .ok (.struct g) false := by
    simp only [tyBundle, dec, zero, g1, D.bind]
    rfl
  simp only [fromJSON, h1, D.res]
  rw [← hobj, rawList_raw]

theorem fromJSON_lists (opts : List (CollOption U)) {doc : Json} {l : List Json} (h : Lists doc l) :
    fromJSON F opts (some doc) =
      processObjects F (Config.new opts) none (Coll.new (Config.new opts).noSort) l := by
  rcases h with rfl | h
  · exact fromJSON_arr opts l
  · exact fromJSON_bundle opts h

/-- Every document that is accepted is a list of elements to the parser. -/
theorem fromJSON_ok {opts : List (CollOption U)} {doc : Option Json} {c : Coll (Any U)}
    (h : fromJSON F opts doc = .ok c) :
    ∃ l, processObjects F (Config.new opts) none (Coll.new (Config.new opts).noSort) l = .ok c := by
  unfold fromJSON at h
  cases doc with
  | none => simp at h
  | some j =>
    simp only at h
    split at h
    · exact ⟨_, h⟩
    · simp at h
    · split at h
      · exact ⟨_, h⟩
      · simp at h
      · simp at h

theorem fromJSON_single {opts : List (CollOption U)} {j : Json} {c : Coll (Any U)} :
    fromJSON F opts (some (.arr [j])) = .ok c ↔
      ∃ p a, parseOne F (Config.new opts) none j = .ok (p, a) ∧
        (∀ x, a = some x → x.panics = false ∧ Acceptable x) ∧
        c = (Coll.new (Config.new opts).noSort).addAll a.toList := by
  rw [fromJSON_arr, processObjects_ok]
  constructor
  · rintro ⟨as, p', h, rfl⟩
    cases h with
    | cons h1 h2 h3 =>
      cases h3
      rename_i p a
      refine ⟨_, a, h1, h2, ?_⟩
      cases a <;> rfl
  · rintro ⟨p, a, h1, h2, rfl⟩
    refine ⟨[a], p, .cons h1 h2 (.nil _), ?_⟩
    cases a <;> rfl

/-! ### The table of types -/

theorem dispatch_eq (t : Str) : amLookup t dispatchTable = amLookup t goTypes := by
  have h1 : ∀ e ∈ goTypes, amLookup e.1 dispatchTable = some e.2 := by decide +kernel
  have h2 : ∀ e ∈ dispatchTable, amLookup e.1 goTypes = some e.2 := by decide +kernel
  cases h : amLookup t dispatchTable with
  | some s => exact (h2 _ (mem_of_amLookup _ _ _ h)).symm
  | none =>
    cases h' : amLookup t goTypes with
    | none => rfl
    | some s =>
      have := h1 _ (mem_of_amLookup _ _ _ h')
      simp only at this
      rw [h] at this
      simp at this

theorem goTypes_nodup : (amKeys goTypes).Nodup ∧ (goTypes.map Prod.snd).Nodup := by decide +kernel

theorem dispatch_mem (t : Str) (s : SId) : amLookup t dispatchTable = some s ↔ (t, s) ∈ goTypes := by
  rw [dispatch_eq, amLookup_eq_some_iff _ _ _ goTypes_nodup.1]

theorem dispatch_none (t : Str) : amLookup t dispatchTable = none ↔ ∀ s, (t, s) ∉ goTypes := by
  rw [dispatch_eq, amLookup_eq_none_iff]
  simp [amKeys]

end Stix
