import Verif.Props.Ctor

/-!
# Options that a program writes itself (C73)

`STIXOption` is a function type, so a program can give the constructors functions of its own, which
may set every field, fail or panic.  Here the options are of any kind, from the library or not.
-/

namespace Stix
open Spec StixObject

/-- What calling an option does to the object, and what it returns: a function of the program changes
the object to what it says; for the library's see C16. -/
inductive Spec.Does : Opt → Obj → Obj → Res Unit → Prop
  | own (f : UserOpt) (o o' : Obj) : o'.sid = o.sid → o'.val = (f o).1 → o'.extra = (f o).2.1 →
      Does (.user f) o o' (f o).2.2
  | library (opt : Opt) (o : Obj) : (∀ f, opt ≠ .user f) → Does opt o (opt.apply o).1 (opt.apply o).2

/-- All options succeed, each called once, in order, on what the one before left; `o'` is what the
last left.  nil options are skipped. -/
def Spec.Left (o : Obj) : List (Option Opt) → Obj → Prop
  | [], o' => o' = o
  | none :: opts, o' => Left o opts o'
  | some opt :: opts, o' => ∃ o₁, Does opt o o₁ (.ok ()) ∧ Left o₁ opts o'

/-- What a constructor gives its options to work on. -/
structure Spec.Begins (env : Env) (c : Ctor) (o : Obj) : Prop where
  kind : o.sid = (promise c).kind
  extra : o.extra = none
  type : prop o (b!"type") = some (.str (promise c).type)
  args : ∀ e ∈ (promise c).args, prop o e.1 = some e.2
  defaults : ∀ e ∈ Spec.defaults env.now, e.1 ∈ properties (promise c).kind → prop o e.1 = some e.2
  /-- Kinds without contributing properties have their identifier already. -/
  id : contributing (promise c).kind = none →
    ∃ id, prop o (b!"id") = some (.str id) ∧ Identifies (promise c).type id

/-- The constructor refuses its arguments, with this error and without calling an option. -/
def Spec.Refuses (env : Env) (c : Ctor) (e : Err) : Prop :=
  ∀ opts, opts ≠ [] → c.run env opts = .ret none (some e)

theorem does_iff {opt : Opt} {o o' : Obj} {r : Res Unit} : Does opt o o' r ↔ opt.apply o = (o', r) := by
  constructor
  · intro h
    cases h with
    | own f _ _ h1 h2 h3 => cases o'; subst h1 h2 h3; rfl
    | library _ _ _ => rfl
  · intro h
    cases opt with
    | user f => cases h; exact .own f o _ rfl rfl rfl
    | field row v => rw [show o' = _ from (congrArg Prod.fst h).symm, show r = _ from (congrArg Prod.snd h).symm]; exact .library _ _ nofun
    | extension n v => rw [show o' = _ from (congrArg Prod.fst h).symm, show r = _ from (congrArg Prod.snd h).symm]; exact .library _ _ nofun

theorem left_cons {opt : Opt} {opts : List (Option Opt)} {o o' : Obj} :
    Left o (some opt :: opts) o' ↔ (opt.apply o).2 = .ok () ∧ Left (opt.apply o).1 opts o' := by
  simp only [Left, does_iff]
  constructor
  · rintro ⟨o₁, h, h'⟩
    rw [h]
    exact ⟨rfl, h'⟩
  · rintro ⟨h, h'⟩
    exact ⟨_, Prod.ext rfl h, h'⟩

theorem left_iff (o : Obj) (opts : List (Option Opt)) (o' : Obj) :
    applyOptions o opts = (o', .ok ()) ↔ Left o opts o' := by
  induction opts generalizing o with
  | nil => simp [applyOptions, Left, eq_comm]
  | cons a opts ih =>
    cases a with
    | none => exact ih o
    | some opt =>
      rw [left_cons]
      by_cases hok : (opt.apply o).2 = .ok ()
      · rw [applyOptions_cons_ok hok, ih]
        exact ⟨fun h => ⟨hok, h⟩, fun h => h.2⟩
      · rw [applyOptions_cons_fail hok]
        exact ⟨fun h => absurd (by rw [h]) hok, fun h => absurd h.1 hok⟩

theorem stop_at {o₀ o₁ : Obj} {pre : List (Option Opt)} (h : Left o₀ pre o₁) {opt : Opt}
    (hf : (opt.apply o₁).2 ≠ .ok ()) (post : List (Option Opt)) :
    applyOptions o₀ (pre ++ some opt :: post) = opt.apply o₁ := by
  rw [applyOptions_append_ok ((left_iff _ _ _).2 h), applyOptions_cons_fail hf]

theorem apply_sid (opt : Opt) (o : Obj) : (opt.apply o).1.sid = o.sid := by
  cases opt with
  | user f => rfl
  | field row v =>
    simp only [Opt.apply, setField]
    split
    · rfl
    · split
      · rfl
      · split <;> rfl
  | extension n v =>
    simp only [Opt.apply, optionExtension]
    split
    · rfl
    · split <;> rfl

theorem left_sid {o o' : Obj} {opts : List (Option Opt)} (h : Left o opts o') : o'.sid = o.sid := by
  induction opts generalizing o with
  | nil => rw [h]
  | cons a opts ih =>
    cases a with
    | none => exact ih h
    | some opt => rw [ih (left_cons.1 h).2, apply_sid]

theorem contributing_text (env : Env) (c : Ctor) (o : Obj) :
    contributing (promise c).kind = none ↔ c.text env o = none := by
  cases c <;> simp [contributing, promise, Ctor.text]

theorem pre_pos (c : Ctor) {m n : Nat} (hm : m ≠ 0) (hn : n ≠ 0) : c.pre m = c.pre n := by
  cases c <;> simp only [Ctor.pre] <;>
    first | rfl | rw [if_neg (by omega), if_neg (by omega)]

/-- What the constructors begin with. -/
theorem begins_base (env : Env) (he : Sane env) (c : Ctor) : Begins env c (c.base env) where
  kind := by rw [promise_kind, base_sid]
  extra := lit_extra _ _
  type := by rw [promise_type, prop_base_type]
  args := base_args env c
  defaults := by rw [promise_kind]; exact base_defaults env c
  id := by
    intro h
    obtain ⟨h0, h1⟩ := c08_library_types _ (typ_mem c)
    exact ⟨_, by rw [prop_id, base_id env c (c.base env) ((contributing_text _ _ _).1 h)], by
      rw [promise_type]; exact (c08_new_identifier env.rnd c.typ he.1 h0 h1).2.2.2⟩

/-- **C73.** Every constructor has an object it begins with, which has the arguments and defaults,
such that for every list of options, of the library or not:

* if the constructor returns without error, then all options succeeded in order, and the object has
  what they left in all its properties; only the identifier is replaced, for the observables whose
  identifier is made of properties, by one of the constructor's type;
* if an option fails, the ones after it are not called and make no difference, and the constructor
  returns that error, and beside it nothing or an object with what the option left (a campaign, location or malware may return that its properties are invalid
  instead, and a registry key with a nil value panics);
* if an option panics, so does the constructor;
* unless the arguments were refused, and then no option was called. -/
theorem c73_runs (env : Env) (he : Sane env) (c : Ctor) : ∃ o₀, Begins env c o₀ ∧
    (∀ opts x, c.run env opts = .ret x none → ∃ o o', x = some o ∧ Left o₀ opts o' ∧
      o.sid = o'.sid ∧ o.extra = o'.extra ∧ (∀ p, p ≠ b!"id" → prop o p = prop o' p) ∧
      (contributing (promise c).kind = none → o = o') ∧
      (contributing (promise c).kind ≠ none →
        ∃ id, prop o (b!"id") = some (.str id) ∧ Identifies (promise c).type id)) ∧
    (∀ pre opt post o₁ o₂ e, Left o₀ pre o₁ → Does opt o₁ o₂ (.err e) →
      (∀ post', c.run env (pre ++ some opt :: post') = c.run env (pre ++ some opt :: post)) ∧
      ((∃ e', Refuses env c e') ∨ (∃ x, c.run env (pre ++ some opt :: post) = .ret x (some e) ∧
         ∀ o, x = some o → o.extra = o₂.extra ∧ ∀ p, p ≠ b!"id" → prop o p = prop o₂ p) ∨
       (c.run env (pre ++ some opt :: post) = .ret none (some .invalidProperty) ∧
        (promise c).kind ∈ [SId.Campaign, .Location, .Malware]) ∨
       (c.run env (pre ++ some opt :: post) = .panic ∧ (promise c).kind = .RegistryKey))) ∧
    (∀ pre opt post o₁ o₂, Left o₀ pre o₁ → Does opt o₁ o₂ .panic →
      (∃ e', Refuses env c e') ∨ c.run env (pre ++ some opt :: post) = .panic) := by
  have refuse : ∀ n e, n ≠ 0 → c.pre n = some e → Refuses env c e := fun n e hn hp opts ho => by
    rw [run_eq, pre_pos c (by simpa using ho) hn, hp]; rfl
  have hlen : ∀ (pre : List (Option Opt)) opt post, (pre ++ some opt :: post).length ≠ 0 := by simp
  refine ⟨c.base env, begins_base env he c, ?_, ?_, ?_⟩
  · intro opts x h
    obtain ⟨-, o', ha, -, hx⟩ := run_ok h
    obtain ⟨h0, h1⟩ := c08_library_types _ (typ_mem c)
    rcases hx with ⟨ht, rfl⟩ | ⟨t, ht, rfl⟩
    · exact ⟨o', o', rfl, (left_iff _ _ _).1 ha, rfl, rfl, fun _ _ => rfl, fun _ => rfl,
        fun hc => absurd ((contributing_text env c o').2 ht) hc⟩
    · refine ⟨_, o', rfl, (left_iff _ _ _).1 ha, rfl, rfl, fun p hp => prop_setObsID env o' t _ p hp,
        fun hc => ?_, fun _ => ⟨_, by rw [prop_id, setObsID, set_val], ?_⟩⟩
      · rw [(contributing_text env c o').1 hc] at ht; cases ht
      · rw [promise_type]
        exact (c08_new_observable_identifier env.sha1 t c.typ he.2 h0 h1).2.2
  · intro pre opt post o₁ o₂ e hl hf
    rw [does_iff] at hf
    obtain rfl : (opt.apply o₁).1 = o₂ := by rw [hf]
    replace hf : (opt.apply o₁).2 = .err e := by rw [hf]
    have hne : (opt.apply o₁).2 ≠ .ok () := by rw [hf]; simp
    constructor
    · intro post'
      rw [run_eq, run_eq, pre_pos c (hlen pre opt post') (hlen pre opt post)]
      cases c.pre (pre ++ some opt :: post).length with
      | some e => rfl
      | none => simp only [withOptions, stop_at hl hne]
    · cases hp : c.pre (pre ++ some opt :: post).length with
      | some e' => exact .inl ⟨e', refuse _ _ (hlen pre opt post) hp⟩
      | none =>
        right
        have hr : c.run env (pre ++ some opt :: post) = c.post env (opt.apply o₁).1 (some e) := by
          rw [run_eq, hp]
          simp only [withOptions, stop_at hl hne]
          rcases hoa : opt.apply o₁ with ⟨o2, r⟩
          rw [hoa] at hf
          simp only at hf
          rw [hf]
        rw [hr]
        generalize (opt.apply o₁).1 = o2
        cases c <;> simp only [Ctor.post, Ctor.check, Ctor.text, promise] <;>
          first
            | (refine .inl ⟨_, rfl, ?_⟩; rintro _ ⟨⟩; done)
            | (refine .inl ⟨_, rfl, ?_⟩; rintro _ ⟨⟩; exact ⟨rfl, fun _ _ => rfl⟩)
            | (refine .inl ⟨_, rfl, ?_⟩; rintro _ ⟨⟩; exact ⟨rfl, fun p hp => prop_setObsID env o2 _ _ p hp⟩)
            | (split_ifs
               · exact .inr (.inl ⟨rfl, by decide⟩)
               · exact .inl ⟨_, rfl, by rintro _ ⟨⟩; exact ⟨rfl, fun _ _ => rfl⟩⟩)
            | (cases registryContrib o2 with
               | ok t => exact .inl ⟨_, rfl, by rintro _ ⟨⟩; exact ⟨rfl, fun p hp => prop_setObsID env o2 _ _ p hp⟩⟩
               | err e => exact .inr (.inr ⟨rfl, trivial⟩)
               | panic => exact .inr (.inr ⟨rfl, trivial⟩))
  · intro pre opt post o₁ o₂ hl hf
    rw [does_iff] at hf
    replace hf : (opt.apply o₁).2 = .panic := by rw [hf]
    have hne : (opt.apply o₁).2 ≠ .ok () := by rw [hf]; simp
    cases hp : c.pre (pre ++ some opt :: post).length with
    | some e' => exact .inl ⟨e', refuse _ _ (hlen pre opt post) hp⟩
    | none =>
      right
      rw [run_eq, hp]
      simp only [withOptions, stop_at hl hne]
      rcases hoa : opt.apply o₁ with ⟨o2, r⟩
      rw [hoa] at hf
      simp only at hf
      rw [hf]

/-- The option leaves the identifier and the type of every object alone. -/
def Spec.LeavesIdentity (opt : Opt) : Prop :=
  ∀ o, prop (opt.apply o).1 (b!"id") = prop o (b!"id") ∧ prop (opt.apply o).1 (b!"type") = prop o (b!"type")

/-- **C73** (well-formed objects).  If no option changes identifier or type, the object that is
returned has the Go type and the type of the constructor and a valid identifier, and every collection
takes it.  (The options of the library change neither.) -/
theorem c73_well_formed (env : Env) (he : Sane env) (c : Ctor) (opts : List (Option Opt))
    (hk : ∀ opt, some opt ∈ opts → LeavesIdentity opt) (x : Option Obj)
    (h : c.run env opts = .ret x none) :
    ∃ o, x = some o ∧ o.sid = (promise c).kind ∧
      prop o (b!"type") = some (.str (promise c).type) ∧
      (∃ id, prop o (b!"id") = some (.str id) ∧ Identifies (promise c).type id) ∧
      ∀ col : Coll Obj, (col.add o).2 = false := by
  obtain ⟨o₀, hb, hs, -, -⟩ := c73_runs env he c
  obtain ⟨o, o', rfl, hl, h1, -, h3, h4, h5⟩ := hs opts x h
  have key : ∀ {o₀ o'}, Left o₀ opts o' → prop o' (b!"id") = prop o₀ (b!"id") ∧
      prop o' (b!"type") = prop o₀ (b!"type") := by
    clear hl h1 h3 h4 h5 h hs hb
    induction opts with
    | nil => intro o₀ o' h; rw [h]; exact ⟨rfl, rfl⟩
    | cons a opts ih =>
      intro o₀ o' h
      have ih := @ih fun opt ho => hk opt (List.mem_cons_of_mem _ ho)
      cases a with
      | none => exact ih h
      | some opt =>
        have := hk opt (by simp) o₀
        have h := (left_cons.1 h).2
        rw [(ih h).1, (ih h).2]
        exact this
  have ht : prop o (b!"type") = some (.str (promise c).type) := by
    rw [h3 _ (by decide), (key hl).2, hb.type]
  have hid : ∃ id, prop o (b!"id") = some (.str id) ∧ Identifies (promise c).type id := by
    by_cases hc : contributing (promise c).kind = none
    · rw [h4 hc, (key hl).1]; exact hb.id hc
    · exact h5 hc
  refine ⟨o, rfl, by rw [h1, left_sid hl, hb.kind], ht, hid, fun col => ?_⟩
  obtain ⟨id, hi, hident⟩ := hid
  rw [prop_id] at hi
  rw [prop_type] at ht
  have e1 : getID o = id := by simp [getID, Obj.getStr, Option.some.inj hi]
  have e2 : getType o = (promise c).type := by simp [getType, Obj.getStr, Option.some.inj ht]
  simp [Coll.add, e1, e2, (hasValidIdentifier_iff id _).2 hident]

/-- The options of the library are such options. -/
theorem c73_library (opt : Opt) (hl : Library opt) : LeavesIdentity opt := by
  intro o
  have hf := c16_option_frame opt hl o
  cases ht : target o.sid opt with
  | none =>
    have : (opt.apply o).1 = o := hf.1 (by rw [Ne, hf.2.1, ht]; simp)
    rw [this]
    exact ⟨rfl, rfl⟩
  | some p =>
    obtain ⟨h1, h2, -, -, -, h3⟩ := hf.2.2 p ht
    exact ⟨h3 _ (Ne.symm h1), h3 _ (Ne.symm h2)⟩

/-! ## Examples -/

/-- `func(o STIXObject) error { o.(*T).Field = v; return nil }` -/
def exOwn (field : Str) (v : GV) : Opt := .user fun o => (setVal o.val field v, o.extra, .ok ())

/-- `func(o STIXObject) error { return err }` -/
def exFail (e : Err) : Opt := .user fun o => (o.val, o.extra, .err e)

theorem add_refused {o : Obj} (h : hasValidIdentifier (getID o) (getType o) = false)
    (col : Coll Obj) : (col.add o).2 = true := by simp [Coll.add, h]

/-- **C73** (the limits of it).  An option of the program can spoil an object: `NewTool` returns one
without identifier, without error, which no collection takes; and so for the type of an observable. -/
theorem c73_spoiled : ∃ o o' : Obj,
    (Ctor.tool (b!"nmap")).run exEnv [some (exOwn (b!"ID") (.str []))] = .ret (some o) none ∧
    (∀ col : Coll Obj, (col.add o).2 = true) ∧
    (Ctor.url (b!"x")).run exEnv [some (exOwn (b!"Type") (.str (b!"file")))] = .ret (some o') none ∧
    ∀ col : Coll Obj, (col.add o').2 = true := by
  exact ⟨_, _, rfl, add_refused (by decide +kernel), rfl, add_refused (by decide +kernel)⟩

/-- `c73_runs`: an observable whose identifier an option sets gets its own all the same; and the
option after a failing one is not called. -/
example : (∃ o, (Ctor.url (b!"x")).run exEnv [some (exOwn (b!"ID") (.str (b!"mine")))] =
      .ret (some o) none ∧ getID o ≠ b!"mine") ∧
    ∃ o, (Ctor.tool (b!"nmap")).run exEnv [some (exOwn (b!"Name") (.str (b!"zmap"))), none,
      some (exFail .other), some (exOwn (b!"Name") (.str []))] = .ret (some o) (some .other) ∧
      prop o (b!"name") = some (.str (b!"zmap")) :=
  ⟨⟨_, rfl, by decide +kernel⟩, ⟨_, rfl, rfl⟩⟩

/-- `c73_well_formed`: an option that sets a name. -/
example : LeavesIdentity (exOwn (b!"Name") (.str (b!"zmap"))) := by
  intro o
  constructor <;> (simp only [prop_id, prop_type]; rfl)

end Stix
