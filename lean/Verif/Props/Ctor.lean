import Verif.Lemmas.Ctor
import Verif.Lemmas.Float
import Verif.Spec.Ctor
import Verif.Props.Ident

/-!
# Properties of the constructors (C15, C37, C39, C40, C41, C47)
-/

namespace Stix
open Spec

theorem promise_kind (c : Ctor) : (promise c).kind = c.kind := by cases c <;> rfl
theorem promise_type (c : Ctor) : (promise c).type = c.typ := by cases c <;> rfl

set_option maxRecDepth 4000 in
/-- Arguments are what the literal holds. -/
theorem base_args (env : Env) (c : Ctor) :
    ∀ e ∈ (promise c).args, prop (c.base env) e.1 = some e.2 := by
  cases c <;> simp only [promise, List.mem_cons, List.not_mem_nil, or_false, forall_eq_or_imp, forall_eq]
  all_goals (try refine ⟨?_, ?_⟩)
  all_goals (try refine ⟨?_, ?_⟩)
  all_goals (try refine ⟨?_, ?_⟩)
  all_goals first | rfl | (intro e he; cases he)

set_option maxRecDepth 4000 in
/-- Defaults are what the literal holds. -/
theorem base_defaults (env : Env) (c : Ctor) :
    ∀ e ∈ defaults env.now, e.1 ∈ properties c.kind → prop (c.base env) e.1 = some e.2 := by
  cases c <;> simp only [defaults, List.mem_cons, List.not_mem_nil, or_false, forall_eq_or_imp, forall_eq] <;> refine ⟨?_, ?_, ?_⟩ <;> intro h
  all_goals first | rfl | (exfalso; simp only [Ctor.kind] at h; revert h; decide +kernel)

theorem prop_setObsID (env : Env) (o : Obj) (t typ p : Str) (hp : p ≠ b!"id") :
    prop (setObsID env o t typ) p = prop o p := by
  obtain ⟨f, hf, he⟩ := List.any_eq_true.1 (hasField_id_type o.sid).1
  simp only [Bool.and_eq_true, beq_iff_eq] at he
  rw [setObsID, ← he.1, prop_set hf, if_neg (by rw [he.2]; exact hp)]

/-- The properties of a constructed object, other than the id, are those the options left. -/
theorem run_ok_prop {env : Env} {c : Ctor} {opts : List (Option Opt)} (hl : AllLibrary opts)
    {o : Obj} (h : c.run env opts = .ret (some o) none) :
    o.sid = c.kind ∧ o.extra = none ∧
    (∀ p, p ≠ b!"id" → prop o p = prop (applyOptions (c.base env) opts).1 p) ∧
    (∀ p, p ≠ b!"id" → Untouched c.kind opts p → prop o p = prop (c.base env) p) := by
  obtain ⟨-, o', ha, -, hx⟩ := run_ok h
  have hs := options_id_type hl ha
  have key : o.sid = o'.sid ∧ o.extra = o'.extra ∧ ∀ p, p ≠ b!"id" → prop o p = prop o' p := by
    rcases hx with ⟨-, hx⟩ | ⟨t, -, hx⟩
    · cases hx; exact ⟨rfl, rfl, fun _ _ => rfl⟩
    · cases hx; exact ⟨rfl, rfl, fun p hp => prop_setObsID env o' t _ p hp⟩
  refine ⟨by rw [key.1, hs.1, base_sid], by rw [key.2.1, hs.2.1, Ctor.base, lit_extra],
    fun p hp => by rw [key.2.2 p hp, ha], fun p hp hu => ?_⟩
  rw [key.2.2 p hp, ← c17_untouched (c.base env) opts hl p (by rw [base_sid]; exact hu), ha]

theorem prop_base_type (env : Env) (c : Ctor) : prop (c.base env) (b!"type") = some (.str c.typ) := by
  rw [prop_type, base_type]

/-- The id of an object constructed without error. -/
theorem run_ok_id {env : Env} (he : Sane env) {c : Ctor} {opts : List (Option Opt)}
    (hl : AllLibrary opts) {o : Obj} (h : c.run env opts = .ret (some o) none) :
    ∃ id, o.val (b!"ID") = .str id ∧ Identifies c.typ id := by
  obtain ⟨-, o', ha, -, hx⟩ := run_ok h
  have hs := options_id_type hl ha
  obtain ⟨h0, h1⟩ := c08_library_types _ (typ_mem c)
  rcases hx with ⟨ht, hx⟩ | ⟨t, -, hx⟩
  · cases hx
    refine ⟨_, by rw [hs.2.2.1, base_id env c _ ht], ?_⟩
    exact (c08_new_identifier env.rnd c.typ he.1 h0 h1).2.2.2
  · cases hx
    refine ⟨_, by rw [setObsID, set_val], ?_⟩
    exact (c08_new_observable_identifier env.sha1 t c.typ he.2 h0 h1).2.2

/-- C37: an object returned without error is of the constructor's Go type and STIX type, has a
valid id of that type, is accepted by every collection, has no extended properties, and has the
constructor's arguments and the defaults as properties, except those an option is for. -/
theorem c37_wellformed (env : Env) (he : Sane env) (c : Ctor) (opts : List (Option Opt))
    (hl : AllLibrary opts) (x : Option Obj) (h : c.run env opts = .ret x none) :
    ∃ o, x = some o ∧ o.sid = (promise c).kind ∧ o.extra = none ∧
      prop o (b!"type") = some (.str (promise c).type) ∧
      (∃ id, prop o (b!"id") = some (.str id) ∧ Identifies (promise c).type id) ∧
      (∀ col : Coll Obj, (col.add o).2 = false) ∧
      (∀ e ∈ (promise c).args, Untouched (promise c).kind opts e.1 → prop o e.1 = some e.2) ∧
      (∀ e ∈ defaults env.now, e.1 ∈ properties (promise c).kind →
        Untouched (promise c).kind opts e.1 → prop o e.1 = some e.2) := by
  have hx : ∃ o, x = some o := by
    obtain ⟨-, o', -, -, ⟨-, hx⟩ | ⟨t, -, hx⟩⟩ := run_ok h <;> exact ⟨_, hx⟩
  obtain ⟨o, rfl⟩ := hx
  obtain ⟨hs, hex, -, hp⟩ := run_ok_prop hl h
  obtain ⟨id, hid, hident⟩ := run_ok_id he hl h
  rw [promise_kind, promise_type]
  have ht : prop o (b!"type") = some (.str c.typ) := by
    rw [hp _ (by decide) (fun opt ho => (target_ne opt (hl opt ho) _).2), prop_base_type]
  refine ⟨o, rfl, hs, hex, ht, ⟨id, by rw [prop_id, hid], hident⟩, ?_, ?_, ?_⟩
  · intro col
    have h1 : StixObject.getID o = id := by simp [StixObject.getID, Obj.getStr, hid]
    have h2 : StixObject.getType o = c.typ := by
      rw [prop_type] at ht
      simp [StixObject.getType, Obj.getStr, Option.some.inj ht]
    have h3 := (hasValidIdentifier_iff id c.typ).2 hident
    simp [Coll.add, h1, h2, h3]
  · intro e he' hu
    rw [hp _ ?_ hu, base_args env c e he']
    intro hid'
    revert he'; rw [← Prod.eta e, hid']
    cases c <;> simp [promise]
  · intro e he' hm hu
    rw [hp _ ?_ hu, base_defaults env c e he' hm]
    intro hid'
    revert he'; rw [← Prod.eta e, hid']
    simp [defaults]

/-! ### Examples -/

/-- Some surroundings. -/
def exEnv : Env := ⟨List.replicate 16 7, ⟨1700000000123456789, 0⟩, fun _ => List.replicate 20 9,
  ⟨fun _ => none, fun _ => [], fun _ => []⟩⟩

theorem exEnv_sane : Sane exEnv := ⟨rfl, fun _ => rfl⟩

/-- Non-vacuity for C37: a tool with a name and a version, and a file. -/
example : (∃ o, (Ctor.tool (b!"nmap")).run exEnv [some (.field OptionVersion (.str (b!"7")))] = .ret (some o) none ∧
      prop o (b!"tool_version") = some (.str (b!"7")) ∧ prop o (b!"name") = some (.str (b!"nmap"))) ∧
    AllLibrary [some (.field OptionVersion (.str (b!"7")))] ∧
    ∃ o, (Ctor.file (b!"a.txt") none).run exEnv [] = .ret (some o) none := by
  refine ⟨⟨_, rfl, rfl, rfl⟩, ?_, ⟨_, rfl⟩⟩
  intro opt ho
  simp only [List.mem_cons, Option.some.injEq, List.not_mem_nil, or_false] at ho
  subst ho; simp [Library, optTable]

/-! ### Options and errors -/

/-- Options from the library succeed exactly when the kind has the property of each. -/
theorem options_ok_iff (o : Obj) (opts : List (Option Opt)) (hl : AllLibrary opts) :
    (applyOptions o opts).2 = .ok () ↔ ∀ opt, some opt ∈ opts → (target o.sid opt).isSome := by
  induction opts generalizing o with
  | nil => simp [applyOptions]
  | cons a opts ih =>
    have hl' : AllLibrary opts := fun opt h => hl opt (List.mem_cons_of_mem _ h)
    cases a with
    | none =>
      rw [show applyOptions o (none :: opts) = applyOptions o opts from rfl, ih o hl']
      simp
    | some opt =>
      have hf := c16_option_frame opt (hl opt (by simp)) o
      by_cases hok : (opt.apply o).2 = .ok ()
      · rw [applyOptions_cons_ok hok, ih _ hl']
        have ht := hf.2.1.1 hok
        obtain ⟨p, hp⟩ := Option.isSome_iff_exists.1 ht
        rw [(hf.2.2 p hp).2.2.1]
        constructor
        · intro h opt' ho
          rcases List.mem_cons.1 ho with ho | ho
          · cases ho; exact ht
          · exact h opt' ho
        · exact fun h opt' ho => h opt' (List.mem_cons_of_mem _ ho)
      · rw [applyOptions_cons_fail hok]
        constructor
        · intro h; exact absurd h hok
        · intro h; exact absurd (hf.2.1.2 (h opt (by simp))) hok

/-- An option that is not for any property of the object gives an error of its own kind. -/
theorem options_err (o : Obj) (opts : List (Option Opt)) (hl : AllLibrary opts) (e : Err)
    (h : (applyOptions o opts).2 = .err e) : e = .other := by
  induction opts generalizing o with
  | nil => cases h
  | cons a opts ih =>
    have hl' : AllLibrary opts := fun opt h => hl opt (List.mem_cons_of_mem _ h)
    cases a with
    | none => exact ih o hl' h
    | some opt =>
      by_cases hok : (opt.apply o).2 = .ok ()
      · rw [applyOptions_cons_ok hok] at h; exact ih _ hl' h
      · rw [applyOptions_cons_fail hok] at h
        cases opt with
        | user f => exact (hl (.user f) (by simp)).elim
        | field row v =>
          rcases apply_field (hl (.field row v) (by simp)) v o with ⟨-, h' | ⟨h', -⟩⟩ | ⟨f, -, -, -, -, -, -, -, -, h'⟩
          · rw [h'] at h; cases h; rfl
          · rw [h'] at h; cases h
          · rw [h'] at hok; exact absurd rfl hok
        | extension n v =>
          rcases apply_extension n v o with ⟨-, h'⟩ | ⟨f, -, -, -, -, h'⟩
          · rw [h'] at h; cases h; rfl
          · rw [h'] at hok; exact absurd rfl hok

/-- On any kind but notes, options end in success or in an error that is none of the three
named ones. -/
theorem options_outcome (o : Obj) (hs : o.sid ≠ .Note) (opts : List (Option Opt)) (hl : AllLibrary opts) :
    (applyOptions o opts).2 = .ok () ∨ (applyOptions o opts).2 = .err .other := by
  have hp := c18_option_lists_no_panic_partial o opts hl (fun h => absurd h hs)
  cases hr : (applyOptions o opts).2 with
  | ok u => exact .inl rfl
  | err e => rw [options_err o opts hl e hr]; exact .inr rfl
  | panic => rw [hr] at hp; exact hp.elim

/-- No option is for this property of this kind, as none sets a field of that name (checked over
the whole table). -/
def noOption (s : SId) (n p : Str) : Bool :=
  hasField s n p && p ≠ (b!"extensions") && optTable.all fun row => row.field ≠ n

theorem untouched_of_noOption {s : SId} {n p : Str} (h : noOption s n p = true)
    {opts : List (Option Opt)} (hl : AllLibrary opts) : Untouched s opts p := by
  simp only [noOption, Bool.and_eq_true, decide_eq_true_eq, List.all_eq_true] at h
  intro opt ho
  have hlib := hl opt ho
  cases opt with
  | user f => exact hlib.elim
  | field row v =>
    intro hc
    rcases apply_field hlib v (zeroObj s) with ⟨hn, -⟩ | ⟨f, hf, hk, -, -, -, -, -, hfn, -⟩
    · exact absurd (hc.symm.trans hn) (by simp)
    · have hfk : f.key = p := Option.some.inj (hk.symm.trans hc)
      obtain ⟨g, hg, he⟩ := List.any_eq_true.1 h.1.1
      simp only [Bool.and_eq_true, beq_iff_eq] at he
      have hfg : f = g :=
        List.inj_on_of_nodup_map (objFields_keys_nodup s) hf hg (hfk.trans he.2.symm)
      exact h.2 row hlib (by rw [← hfn, hfg, he.1])
  | extension n v =>
    simp only [target]
    split
    · intro hc; exact h.1.2 (Option.some.inj hc).symm
    · exact fun hc => by cases hc

/-- After options that all succeed, a property has the value of the last option for it, or the
one it had. -/
theorem options_lastSet (o : Obj) (opts : List (Option Opt)) (hl : AllLibrary opts) (p : Str)
    (hp : p ≠ b!"extensions") (hok : (applyOptions o opts).2 = .ok ()) :
    prop (applyOptions o opts).1 p =
      match lastSet o.sid p opts with
      | some v => some v
      | none => prop o p := by
  induction opts generalizing o with
  | nil => rfl
  | cons a opts ih =>
    have hl' : AllLibrary opts := fun opt h => hl opt (List.mem_cons_of_mem _ h)
    cases a with
    | none => exact ih o hl' hok
    | some opt =>
      have hlib := hl opt (by simp)
      have hf := c16_option_frame opt hlib o
      have hok1 : (opt.apply o).2 = .ok () := by
        by_contra hc; rw [applyOptions_cons_fail hc] at hok; exact hc hok
      obtain ⟨q, hq⟩ := Option.isSome_iff_exists.1 (hf.2.1.1 hok1)
      obtain ⟨-, -, hsid, -, ⟨w, hw, hwv⟩, hne⟩ := hf.2.2 q hq
      rw [applyOptions_cons_ok hok1] at hok ⊢
      rw [ih _ hl' hok, hsid]
      cases opt with
      | user f => exact (hl (.user f) (by simp)).elim
      | field row v =>
        simp only [lastSet]
        cases hls : lastSet o.sid p opts with
        | some v => rfl
        | none =>
          have hq' : optionProperty o.sid row.name = some q := hq
          rw [hq']
          by_cases hpq : q = p
          · subst hpq
            rw [if_pos rfl, hw]
            exact congrArg some hwv
          · rw [if_neg (fun h => hpq (Option.some.inj h))]
            exact hne p (fun h => hpq h.symm)
      | extension n v =>
        simp only [lastSet]
        cases hls : lastSet o.sid p opts with
        | some v => rfl
        | none =>
          apply hne
          simp only [target] at hq
          split at hq
          · rw [← Option.some.inj hq]; exact hp
          · cases hq

/-! ### C15 -/

theorem relationship_noOption :
    noOption .Relationship (b!"RelationshipType") (b!"relationship_type") = true ∧
    noOption .Relationship (b!"Source") (b!"source_ref") = true ∧
    noOption .Relationship (b!"Target") (b!"target_ref") = true := by
  decide +kernel

/-- C15: `NewRelationship` fails with `ErrPropertyMissing` exactly when one of its three arguments
is empty. -/
theorem c15_missing (env : Env) (rel source tgt : Str) (opts : List (Option Opt)) :
    (Ctor.relationship rel source tgt).run env opts = .ret none (some .propertyMissing) ↔
      (rel = [] ∨ source = [] ∨ tgt = []) := by
  rw [run_eq]
  simp only [Ctor.pre]
  constructor
  · intro h
    by_contra hc
    rw [if_neg hc] at h
    simp only [withOptions] at h
    rcases ha : applyOptions ((Ctor.relationship rel source tgt).base env) opts with ⟨o', r⟩
    rw [ha] at h
    cases r <;> cases h
  · intro h; rw [if_pos h]; rfl

/-- C15: otherwise it returns a relationship with the three arguments as its type and ends, and an
error exactly when an option is for a property relationships do not have. -/
theorem c15_carries (env : Env) (rel source tgt : Str) (opts : List (Option Opt))
    (hl : AllLibrary opts) (h : ¬ (rel = [] ∨ source = [] ∨ tgt = [])) :
    ∃ o e, (Ctor.relationship rel source tgt).run env opts = .ret (some o) e ∧
      (e = none ↔ ∀ opt, some opt ∈ opts → (target .Relationship opt).isSome) ∧
      prop o (b!"relationship_type") = some (.str rel) ∧
      prop o (b!"source_ref") = some (.str source) ∧
      prop o (b!"target_ref") = some (.str tgt) := by
  have hb := base_sid env (.relationship rel source tgt)
  have ho := options_outcome ((Ctor.relationship rel source tgt).base env)
    (by rw [hb]; exact fun h => by cases h) opts hl
  have hok := options_ok_iff ((Ctor.relationship rel source tgt).base env) opts hl
  have hu := c17_untouched ((Ctor.relationship rel source tgt).base env) opts hl
  rw [hb] at hok hu
  have hargs := base_args env (.relationship rel source tgt)
  simp only [promise, List.mem_cons, List.not_mem_nil, or_false, forall_eq_or_imp, forall_eq] at hargs
  rw [run_eq]
  simp only [Ctor.pre, if_neg h, withOptions]
  rcases ha : applyOptions ((Ctor.relationship rel source tgt).base env) opts with ⟨o', r⟩
  rw [ha] at ho hok hu
  have hp : prop o' (b!"relationship_type") = some (.str rel) ∧
      prop o' (b!"source_ref") = some (.str source) ∧ prop o' (b!"target_ref") = some (.str tgt) := by
    refine ⟨?_, ?_, ?_⟩
    · rw [hu _ (untouched_of_noOption relationship_noOption.1 hl)]; exact hargs.1
    · rw [hu _ (untouched_of_noOption relationship_noOption.2.1 hl)]; exact hargs.2.1
    · rw [hu _ (untouched_of_noOption relationship_noOption.2.2 hl)]; exact hargs.2.2
  rcases ho with ho | ho
  · simp only at ho; subst ho
    exact ⟨o', none, rfl, by simpa [Ctor.kind] using hok, hp⟩
  · simp only at ho; subst ho
    exact ⟨o', some .other, rfl, by simpa [Ctor.kind] using hok, hp⟩

/-- Non-vacuity for C15. -/
example : ∃ o, (Ctor.relationship (b!"uses") (b!"a") (b!"b")).run exEnv
      [some (.field OptionDescription (.str (b!"d"))), none] = .ret (some o) none ∧
    (Ctor.relationship (b!"uses") (b!"a") []).run exEnv [] = .ret none (some .propertyMissing) :=
  ⟨_, rfl, rfl⟩

/-! ### C39 -/

theorem getTime_prop {o : Obj} {n k : Str} (h : hasField o.sid n k = true) (t : GoTime) :
    o.getTime n = some t ↔ prop o k = some (.ptr (some (.time t))) := by
  rw [prop_of h]
  simp only [Obj.getTime, Option.some.injEq]
  split
  · rename_i t' he; rw [he]; simp
  · rename_i he
    constructor
    · intro h; cases h
    · intro h; exact absurd h (he t)

/-- `seenWrong`, by properties. -/
theorem seenWrong_iff {o : Obj} (h1 : hasField o.sid (b!"FirstSeen") (b!"first_seen") = true)
    (h2 : hasField o.sid (b!"LastSeen") (b!"last_seen") = true) :
    seenWrong o = true ↔ ∃ f l, prop o (b!"first_seen") = some (.ptr (some (.time f))) ∧
      prop o (b!"last_seen") = some (.ptr (some (.time l))) ∧ l.ns < f.ns := by
  unfold seenWrong
  constructor
  · split
    · rename_i f l hf hl
      intro h
      exact ⟨f, l, (getTime_prop h1 f).1 hf, (getTime_prop h2 l).1 hl, by simpa using h⟩
    · intro h; cases h
  · rintro ⟨f, l, hf, hl, h⟩
    rw [(getTime_prop h1 f).2 hf, (getTime_prop h2 l).2 hl]
    simpa using h

/-- Which constructors check the order of first and last sighting. -/
def ChecksSeen : Ctor → Prop
  | .campaign _ => True
  | .sighting _ => True
  | _ => False

theorem checksSeen_fields {c : Ctor} (hc : ChecksSeen c) :
    hasField c.kind (b!"FirstSeen") (b!"first_seen") = true ∧
    hasField c.kind (b!"LastSeen") (b!"last_seen") = true := by
  cases c <;> first | exact hc.elim | (simp only [Ctor.kind]; decide +kernel)

theorem check_seen {c : Ctor} (hc : ChecksSeen c) {o : Obj} (h : c.check o none = none) :
    seenWrong o = false := by
  cases c with
  | campaign n =>
    simp only [Ctor.check] at h
    split at h
    · cases h
    · rename_i hs; simpa using hs
  | sighting n =>
    simp only [Ctor.check] at h
    split at h
    · cases h
    · split at h
      · cases h
      · rename_i hs; simpa using hs
  | _ => exact hc.elim

/-- C39: a campaign or sighting returned without error is not last seen before it was first
seen. -/
theorem c39_seen_order (env : Env) (c : Ctor) (hc : ChecksSeen c) (opts : List (Option Opt))
    (hl : AllLibrary opts) (o : Obj) (h : c.run env opts = .ret (some o) none) (f l : GoTime)
    (hf : prop o (b!"first_seen") = some (.ptr (some (.time f))))
    (hla : prop o (b!"last_seen") = some (.ptr (some (.time l)))) : f.ns ≤ l.ns := by
  obtain ⟨-, o', ha, hch, hx⟩ := run_ok h
  have hs := options_id_type hl ha
  obtain ⟨h1, h2⟩ := checksSeen_fields hc
  rw [← base_sid env c, ← hs.1] at h1 h2
  have hp := (run_ok_prop hl h).2.2.1
  rw [hp _ (by decide), ha] at hf hla
  by_contra hlt
  have := (seenWrong_iff h1 h2).2 ⟨f, l, hf, hla, by omega⟩
  rw [check_seen hc hch] at this
  cases this

/-- C39, the other half: when the last options for the two times are in the wrong order, no
object is returned and the error is `ErrInvalidProperty` (provided the other options are for
properties the object has). -/
theorem c39_seen_error (env : Env) (c : Ctor) (n : Str) (hn : n ≠ [])
    (hc : c = .campaign n ∨ c = .sighting n) (opts : List (Option Opt)) (hl : AllLibrary opts)
    (hok : ∀ opt, some opt ∈ opts → (target (promise c).kind opt).isSome) (f l : GoTime)
    (hf : lastSet (promise c).kind (b!"first_seen") opts = some (.ptr (some (.time f))))
    (hla : lastSet (promise c).kind (b!"last_seen") opts = some (.ptr (some (.time l))))
    (hlt : l.ns < f.ns) :
    c.run env opts = .ret none (some .invalidProperty) := by
  have hcs : ChecksSeen c := by rcases hc with rfl | rfl <;> trivial
  rw [promise_kind, ← base_sid env c] at hok hf hla
  have h0 := (options_ok_iff (c.base env) opts hl).2 hok
  have hpf := options_lastSet (c.base env) opts hl (b!"first_seen") (by decide) h0
  have hpl := options_lastSet (c.base env) opts hl (b!"last_seen") (by decide) h0
  rw [hf] at hpf
  rw [hla] at hpl
  have ha : applyOptions (c.base env) opts = ((applyOptions (c.base env) opts).1, .ok ()) :=
    Prod.ext rfl h0
  generalize (applyOptions (c.base env) opts).1 = o' at *
  have hs := options_id_type hl ha
  obtain ⟨h1, h2⟩ := checksSeen_fields hcs
  rw [← base_sid env c, ← hs.1] at h1 h2
  have hw := (seenWrong_iff h1 h2).2 ⟨f, l, hpf, hpl, hlt⟩
  rw [run_eq]
  rcases hc with rfl | rfl
  · simp only [Ctor.pre, if_neg hn, withOptions, ha, Ctor.post, Ctor.check, hw, if_true]; rfl
  · simp only [Ctor.pre, if_neg hn, withOptions, ha, Ctor.post, Ctor.check, hw, if_true]
    split
    · rename_i e he
      split at he <;> cases he <;> rfl
    · rename_i he; split at he <;> cases he

/-- Non-vacuity for C39. -/
example : (∃ o, (Ctor.campaign (b!"c")).run exEnv
      [some (.field OptionLastSeen (gvTime ⟨5, 0⟩)), some (.field OptionFirstSeen (gvTime ⟨4, 0⟩))]
        = .ret (some o) none ∧
      prop o (b!"first_seen") = some (.ptr (some (.time ⟨4, 0⟩))) ∧
      prop o (b!"last_seen") = some (.ptr (some (.time ⟨5, 0⟩)))) ∧
    (Ctor.campaign (b!"c")).run exEnv
      [some (.field OptionLastSeen (gvTime ⟨4, 0⟩)), some (.field OptionFirstSeen (gvTime ⟨5, 0⟩))]
        = .ret none (some .invalidProperty) :=
  ⟨⟨_, rfl, rfl, rfl⟩, rfl⟩

/-! ### C40 -/

theorem sighting_noOption : noOption .Sighting (b!"SightingOf") (b!"sighting_of_ref") = true := by decide +kernel

theorem sighting_count_field : hasField .Sighting (b!"Count") (b!"count") = true := by decide +kernel

/-- C40: a sighting returned without error has a count in the range and refers to something. -/
theorem c40_count_range (env : Env) (s : Str) (opts : List (Option Opt)) (hl : AllLibrary opts)
    (o : Obj) (h : (Ctor.sighting s).run env opts = .ret (some o) none) :
    (∀ n, prop o (b!"count") = some (.int n) → 0 ≤ n ∧ n ≤ 999999999) ∧
    ∃ t, t ≠ [] ∧ prop o (b!"sighting_of_ref") = some (.str t) := by
  obtain ⟨hpre, o', ha, hch, hx⟩ := run_ok h
  have hs := options_id_type hl ha
  obtain ⟨-, -, hp, hp'⟩ := run_ok_prop hl h
  constructor
  · intro n hn
    rw [hp _ (by decide), ha, prop_of (n := b!"Count") (by rw [hs.1, base_sid]; exact sighting_count_field)] at hn
    have hv : o'.getInt (b!"Count") = n := by
      simp only [Obj.getInt]; rw [Option.some.inj hn]
    simp only [Ctor.check, hv] at hch
    split at hch
    · cases hch
    · omega
  · refine ⟨s, ?_, ?_⟩
    · rintro rfl; cases hpre
    · rw [hp' _ (by decide) (untouched_of_noOption sighting_noOption hl)]
      exact base_args env (.sighting s) (b!"sighting_of_ref", .str s) (by simp [promise])

/-- C40: a count outside the range gives `ErrInvalidProperty` and no object, whatever the other
options, as long as they are for properties a sighting has. -/
theorem c40_count_error (env : Env) (s : Str) (hs : s ≠ []) (pre post : List (Option Opt)) (n : Int)
    (hl : AllLibrary (pre ++ some (.field OptionCount (.int n)) :: post))
    (hok : ∀ opt, some opt ∈ pre ++ some (.field OptionCount (.int n)) :: post →
      (target .Sighting opt).isSome)
    (hlast : Untouched .Sighting post (b!"count")) (hn : n < 0 ∨ 999999999 < n) :
    (Ctor.sighting s).run env (pre ++ some (.field OptionCount (.int n)) :: post)
      = .ret none (some .invalidProperty) := by
  have hb := base_sid env (.sighting s)
  have h1 := (options_ok_iff ((Ctor.sighting s).base env) _ hl).2 (by rw [hb]; exact hok)
  have ht : target .Sighting (.field OptionCount (.int n)) = some (b!"count") := by
    show optionProperty .Sighting OptionCount.name = _
    decide +kernel
  have h2 := c17_last_wins ((Ctor.sighting s).base env) pre post OptionCount (.int n) (b!"count") hl h1
    (by rw [hb]; exact ht) (by rw [hb]; exact hlast)
  rw [run_eq]
  simp only [Ctor.pre, if_neg hs, withOptions]
  rcases ha : applyOptions ((Ctor.sighting s).base env) (pre ++ some (.field OptionCount (.int n)) :: post) with ⟨o', r⟩
  rw [ha] at h1 h2
  simp only at h1; subst h1
  have hsid := (options_id_type hl ha).1
  rw [prop_of (n := b!"Count") (by rw [hsid, base_sid]; exact sighting_count_field)] at h2
  have hv : o'.getInt (b!"Count") = n := by
    simp only [Obj.getInt]; rw [Option.some.inj h2]
  simp only [Ctor.post, Ctor.check, hv]
  rw [if_pos (by omega)]; rfl

/-- Non-vacuity for C40. -/
example : (∃ o, (Ctor.sighting (b!"x")).run exEnv [some (.field OptionCount (.int 3))] = .ret (some o) none ∧
      prop o (b!"count") = some (.int 3)) ∧
    (Ctor.sighting (b!"x")).run exEnv [some (.field OptionCount (.int (-1)))]
      = .ret none (some .invalidProperty) := ⟨⟨_, rfl, rfl⟩, rfl⟩

/-! ### C41 -/

theorem location_noOption : noOption .Location (b!"Latitude") (b!"latitude") = true ∧
    noOption .Location (b!"Longitude") (b!"longitude") = true ∧ noOption .Location (b!"Region") (b!"region") = true ∧
    noOption .Location (b!"Country") (b!"country") = true := by decide +kernel

theorem location_precision : hasField .Location (b!"Precision") (b!"precision") = true := by
  decide +kernel

/-- C41 for coordinates that are not NaN: a location returned without error has a latitude in
[-90, 90] and a longitude in [-180, 180], both or neither zero (i.e. absent), a precision other
than zero only if neither is, and a region, a country or coordinates.  Missing from the full
statement: with a NaN latitude or longitude the tests pass (`c41_nan_accepted`). -/
theorem c41_location_partial (env : Env) (region country : Str) (lat long : F64)
    (hlat : ¬ F64NaN lat) (hlong : ¬ F64NaN long) (opts : List (Option Opt)) (hl : AllLibrary opts)
    (o : Obj) (h : (Ctor.location region country lat long).run env opts = .ret (some o) none) :
    prop o (b!"latitude") = some (.flt lat) ∧ prop o (b!"longitude") = some (.flt long) ∧
    prop o (b!"region") = some (.str region) ∧ prop o (b!"country") = some (.str country) ∧
    (-90 ≤ f64Val lat ∧ f64Val lat ≤ 90) ∧ (-180 ≤ f64Val long ∧ f64Val long ≤ 180) ∧
    (f64Val lat = 0 ↔ f64Val long = 0) ∧
    (∀ p, prop o (b!"precision") = some (.flt p) → ¬ F64NaN p → f64Val p ≠ 0 →
      f64Val lat ≠ 0 ∧ f64Val long ≠ 0) ∧
    (region ≠ [] ∨ country ≠ [] ∨ (f64Val lat ≠ 0 ∧ f64Val long ≠ 0)) := by
  obtain ⟨hpre, o', ha, hch, hx⟩ := run_ok h
  have hs := options_id_type hl ha
  obtain ⟨-, -, hp, hp'⟩ := run_ok_prop hl h
  have hargs := base_args env (.location region country lat long)
  simp only [promise, List.mem_cons, List.not_mem_nil, or_false, forall_eq_or_imp, forall_eq] at hargs
  obtain ⟨hn1, hn2, hn3, hn4⟩ := location_noOption
  obtain ⟨v1, v2, v3, v4⟩ := val_90
  simp only [Ctor.pre] at hpre
  split at hpre
  · cases hpre
  rename_i hmiss
  split at hpre
  · cases hpre
  rename_i hinv
  simp only [Bool.or_eq_true, not_or, Bool.not_eq_true] at hinv
  obtain ⟨⟨⟨⟨⟨i1, i2⟩, i3⟩, i4⟩, i5⟩, i6⟩ := hinv
  have hz : f64Val lat = 0 ↔ f64Val long = 0 := by
    rw [← fltEq_zero hlat, ← fltEq_zero hlong]
    revert i5 i6
    cases fltEq lat 0 <;> cases fltEq long 0 <;> simp
  refine ⟨?_, ?_, ?_, ?_, ⟨?_, ?_⟩, ⟨?_, ?_⟩, hz, ?_, ?_⟩
  · rw [hp' _ (by decide) (untouched_of_noOption hn1 hl)]; exact hargs.2.2.1
  · rw [hp' _ (by decide) (untouched_of_noOption hn2 hl)]; exact hargs.2.2.2
  · rw [hp' _ (by decide) (untouched_of_noOption hn3 hl)]; exact hargs.1
  · rw [hp' _ (by decide) (untouched_of_noOption hn4 hl)]; exact hargs.2.1
  · rw [← v2]; exact not_fltLt hlat (by decide) i1
  · rw [← v1]; exact not_fltLt (by decide) hlat i2
  · rw [← v4]; exact not_fltLt hlong (by decide) i3
  · rw [← v3]; exact not_fltLt (by decide) hlong i4
  · intro p hprec hpn hpz
    rw [hp _ (by decide), ha,
      prop_of (n := b!"Precision") (by rw [hs.1, base_sid]; exact location_precision)] at hprec
    have hv : o'.getFlt (b!"Precision") = p := by
      simp only [Obj.getFlt]; rw [Option.some.inj hprec]
    simp only [Ctor.check, hv] at hch
    have hpe : fltEq p 0 = false := by
      rw [← Bool.not_eq_true, fltEq_zero hpn]; exact hpz
    rw [hpe] at hch
    simp only [Bool.not_false, Bool.true_and, Bool.or_eq_true, fltEq_zero hlat, fltEq_zero hlong] at hch
    split at hch
    · cases hch
    · rename_i hc; exact not_or.1 hc
  · by_contra hc
    simp only [not_or, not_not, not_and_or] at hc
    apply hmiss
    rw [fltEq_zero hlat, fltEq_zero hlong]
    refine ⟨hc.1, hc.2.1, ?_⟩
    rcases hc.2.2 with hc | hc
    · exact ⟨hc, hz.1 hc⟩
    · exact ⟨hz.2 hc, hc⟩

/-- C41, the negation of the full statement: a location with NaN coordinates is returned without
error. -/
theorem c41_nan_accepted : ∃ (env : Env) (lat long : F64) (o : Obj), F64NaN lat ∧ F64NaN long ∧
    (Ctor.location [] [] lat long).run env [] = .ret (some o) none ∧
    prop o (b!"latitude") = some (.flt lat) ∧ prop o (b!"longitude") = some (.flt long) :=
  ⟨exEnv, 0x7ff8000000000001, 0x7ff8000000000001, _, by decide, by decide, rfl, rfl, rfl⟩

/-- C41, the other half: out of range, or only one coordinate, is refused. -/
theorem c41_refused (env : Env) (region country : Str) (lat long : F64)
    (hlat : ¬ F64NaN lat) (hlong : ¬ F64NaN long) (opts : List (Option Opt))
    (hbad : f64Val lat < -90 ∨ 90 < f64Val lat ∨ f64Val long < -180 ∨ 180 < f64Val long ∨
      (f64Val lat = 0 ∧ f64Val long ≠ 0) ∨ (f64Val lat ≠ 0 ∧ f64Val long = 0)) :
    (Ctor.location region country lat long).run env opts = .ret none (some .invalidProperty) := by
  obtain ⟨v1, v2, v3, v4⟩ := val_90
  have hne : ¬ (region = [] ∧ country = [] ∧ fltEq lat 0 = true ∧ fltEq long 0 = true) := by
    rintro ⟨-, -, h1, h2⟩
    rw [fltEq_zero hlat] at h1
    rw [fltEq_zero hlong] at h2
    rw [h1, h2] at hbad
    revert hbad; norm_num
  rw [run_eq]
  simp only [Ctor.pre, if_neg hne]
  rw [if_pos]
  · rfl
  · by_contra hinv
    simp only [Bool.or_eq_true, not_or, Bool.not_eq_true] at hinv
    obtain ⟨⟨⟨⟨⟨i1, i2⟩, i3⟩, i4⟩, i5⟩, i6⟩ := hinv
    have a1 := not_fltLt hlat (by decide) i1
    have a2 := not_fltLt (by decide) hlat i2
    have a3 := not_fltLt hlong (by decide) i3
    have a4 := not_fltLt (by decide) hlong i4
    rw [v2] at a1; rw [v1] at a2; rw [v4] at a3; rw [v3] at a4
    have hz : f64Val lat = 0 ↔ f64Val long = 0 := by
      rw [← fltEq_zero hlat, ← fltEq_zero hlong]
      revert i5 i6
      cases fltEq lat 0 <;> cases fltEq long 0 <;> simp
    rcases hbad with h | h | h | h | h | h
    · linarith
    · linarith
    · linarith
    · linarith
    · exact h.2 (hz.1 h.1)
    · exact h.1 (hz.2 h.2)

/-- Non-vacuity for C41: latitude 45, longitude -120, precision 1. -/
example : ∃ o, (Ctor.location [] [] 0x4046800000000000 0xC05E000000000000).run exEnv
      [some (.field OptionPrecision (.flt 0x3FF0000000000000))] = .ret (some o) none ∧
    ¬ F64NaN 0x4046800000000000 ∧ ¬ F64NaN 0xC05E000000000000 ∧
    prop o (b!"precision") = some (.flt 0x3FF0000000000000) :=
  ⟨_, rfl, by decide, by decide, rfl⟩

/-! ### C47 -/

/-- C47: `NewExtensionDefinition` returns `ErrInvalidParameter` and no object exactly when its name,
schema, version or extension types are missing; otherwise it returns an object with them. -/
theorem c47_extension_definition (env : Env) (name schema version : Str)
    (types : Option (List UInt8)) (opts : List (Option Opt)) (hl : AllLibrary opts) :
    ((Ctor.extensionDefinition name schema version types).run env opts
        = .ret none (some .invalidParameter) ↔
      (name = [] ∨ schema = [] ∨ version = [] ∨ types = none ∨ types = some [])) ∧
    (¬ (name = [] ∨ schema = [] ∨ version = [] ∨ types = none ∨ types = some []) →
      ∃ o e, (Ctor.extensionDefinition name schema version types).run env opts = .ret (some o) e) := by
  have ht : types.getD [] = [] ↔ types = none ∨ types = some [] := by cases types <;> simp
  have hb := base_sid env (.extensionDefinition name schema version types)
  have ho := options_outcome ((Ctor.extensionDefinition name schema version types).base env)
    (by rw [hb]; exact fun h => by cases h) opts hl
  have key : ¬ (name = [] ∨ schema = [] ∨ version = [] ∨ types = none ∨ types = some []) →
      ∃ o e, (Ctor.extensionDefinition name schema version types).run env opts = .ret (some o) e := by
    intro hc
    rw [← ht] at hc
    rw [run_eq]
    simp only [Ctor.pre, if_neg hc, withOptions]
    rcases ha : applyOptions ((Ctor.extensionDefinition name schema version types).base env) opts with ⟨o', r⟩
    rw [ha] at ho
    rcases ho with ho | ho <;> (simp only at ho; subst ho)
    · exact ⟨o', none, rfl⟩
    · exact ⟨o', some .other, rfl⟩
  refine ⟨⟨?_, ?_⟩, key⟩
  · intro h
    by_contra hc
    obtain ⟨o, e, h'⟩ := key hc
    rw [h'] at h; cases h
  · intro h
    rw [← ht] at h
    rw [run_eq]; simp only [Ctor.pre, if_pos h]; rfl

/-- Non-vacuity for C47. -/
example : (∃ o, (Ctor.extensionDefinition (b!"n") (b!"s") (b!"v") (some [1])).run exEnv [] = .ret (some o) none) ∧
    (Ctor.extensionDefinition (b!"n") (b!"s") (b!"v") (some [])).run exEnv []
      = .ret none (some .invalidParameter) := ⟨⟨_, rfl⟩, rfl⟩

end Stix
