import Verif.Props.Ctor

/-!
# Identifiers of observables (C10, C11, C12)
-/

namespace Stix
open Spec

/-! ### The hashed text as a function of the object -/

/-- A constructor whose argument is the contributing property: the field and its value. -/
def Ctor.argField : Ctor → Option (Str × GV)
  | .autonomousSystem n => some (b!"Number", .int n)
  | .directory v => some (b!"Path", .str v)
  | .domainName v => some (b!"Value", .str v)
  | .emailAddress v => some (b!"Value", .str v)
  | .ipv4 v => some (b!"Value", .str v)
  | .ipv6 v => some (b!"Value", .str v)
  | .mac v => some (b!"Value", .str v)
  | .mutex v => some (b!"Name", .str v)
  | .url v => some (b!"Value", .str v)
  | _ => none

/-- The hashed text, read off the object. -/
def kindText (F : Canon.FloatFmt) (o : Obj) : SId → Res Str
  | .AutonomousSystem => .ok (b!"[" ++ intLit (o.getInt (b!"Number")) ++ b!"]")
  | .Directory => .ok (bracketQuoted (o.getStr (b!"Path")))
  | .DomainName => .ok (bracketQuoted (o.getStr (b!"Value")))
  | .EmailAddress => .ok (bracketQuoted (o.getStr (b!"Value")))
  | .IPv4Address => .ok (bracketQuoted (o.getStr (b!"Value")))
  | .IPv6Address => .ok (bracketQuoted (o.getStr (b!"Value")))
  | .MACAddress => .ok (bracketQuoted (o.getStr (b!"Value")))
  | .Mutex => .ok (bracketQuoted (o.getStr (b!"Name")))
  | .URL => .ok (bracketQuoted (o.getStr (b!"Value")))
  | .Artifact => .ok (artifactContrib o)
  | .EmailMessage => .ok (emailMessageContrib o)
  | .File => .ok (fileContrib F o)
  | .NetworkTraffic => .ok (networkContrib F o)
  | .RegistryKey => registryContrib o
  | .Software => .ok (softwareContrib o)
  | .UserAccount => .ok (userContrib o)
  | .X509Certificate => .ok (x509Contrib o)
  | _ => .panic

/-- The fields it reads. -/
def kindFields : SId → List Str
  | .AutonomousSystem => [b!"Number"]
  | .Directory => [b!"Path"]
  | .DomainName => [b!"Value"]
  | .EmailAddress => [b!"Value"]
  | .IPv4Address => [b!"Value"]
  | .IPv6Address => [b!"Value"]
  | .MACAddress => [b!"Value"]
  | .Mutex => [b!"Name"]
  | .URL => [b!"Value"]
  | .Artifact => [b!"Hashes", b!"Payload"]
  | .EmailMessage => [b!"From", b!"Subject", b!"Body"]
  | .File => [b!"Hashes", b!"Name", b!"Extensions", b!"ParentDirectory"]
  | .NetworkTraffic => [b!"Start", b!"End", b!"Src", b!"Dst", b!"SrcPort", b!"DstPort", b!"Protocols", b!"Extensions"]
  | .RegistryKey => [b!"Key", b!"Values"]
  | .Software => [b!"Name", b!"CPE", b!"Vendor", b!"Version"]
  | .UserAccount => [b!"AccountType", b!"UserID", b!"AccountLogin"]
  | .X509Certificate => [b!"Hashes", b!"SerialNumber"]
  | _ => []

section congr
variable {o o' : Obj} {n : Str}

theorem getStr_congr (h : o.val n = o'.val n) : o.getStr n = o'.getStr n := by
  unfold Obj.getStr; rw [h]
theorem getInt_congr (h : o.val n = o'.val n) : o.getInt n = o'.getInt n := by
  unfold Obj.getInt; rw [h]
theorem getBin_congr (h : o.val n = o'.val n) : o.getBin n = o'.getBin n := by
  unfold Obj.getBin; rw [h]
theorem getStrs_congr (h : o.val n = o'.val n) : o.getStrs n = o'.getStrs n := by
  unfold Obj.getStrs; rw [h]
theorem mapLen_congr (h : o.val n = o'.val n) : o.mapLen n = o'.mapLen n := by
  unfold Obj.mapLen; rw [h]
theorem strPart_congr (h : o.val n = o'.val n) : strPart o n = strPart o' n := by
  unfold strPart; rw [getStr_congr h]
theorem intPart_congr (h : o.val n = o'.val n) : intPart o n = intPart o' n := by
  unfold intPart; rw [getInt_congr h]
theorem timePart_congr (h : o.val n = o'.val n) : timePart o n = timePart o' n := by
  unfold timePart Obj.getTime; rw [h]
theorem hashPart_congr (h : o.val (b!"Hashes") = o'.val (b!"Hashes")) : hashPart o = hashPart o' := by
  unfold hashPart Obj.getHashes; rw [h]
theorem extPart_congr {F : Canon.FloatFmt} (h : o.val (b!"Extensions") = o'.val (b!"Extensions")) :
    extPart F o = extPart F o' := by
  unfold extPart canonicalizeExtensions; rw [mapLen_congr h, h]

end congr

theorem kindText_congr (F : Canon.FloatFmt) (o o' : Obj) (s : SId)
    (h : ∀ n ∈ kindFields s, o.val n = o'.val n) : kindText F o s = kindText F o' s := by
  cases s <;> first
    | rfl
    | simp only [kindFields, List.mem_cons, List.not_mem_nil, or_false, forall_eq_or_imp, forall_eq] at h
  case AutonomousSystem => simp only [kindText, getInt_congr h]
  case Directory => simp only [kindText, getStr_congr h]
  case DomainName => simp only [kindText, getStr_congr h]
  case EmailAddress => simp only [kindText, getStr_congr h]
  case IPv4Address => simp only [kindText, getStr_congr h]
  case IPv6Address => simp only [kindText, getStr_congr h]
  case MACAddress => simp only [kindText, getStr_congr h]
  case Mutex => simp only [kindText, getStr_congr h]
  case URL => simp only [kindText, getStr_congr h]
  case Artifact => simp only [kindText, artifactContrib, hashPart_congr h.1, getBin_congr h.2]
  case EmailMessage =>
    simp only [kindText, emailMessageContrib, strPart_congr h.1, strPart_congr h.2.1, strPart_congr h.2.2]
  case File =>
    simp only [kindText, fileContrib, hashPart_congr h.1, strPart_congr h.2.1, extPart_congr h.2.2.1,
      strPart_congr h.2.2.2]
  case NetworkTraffic =>
    obtain ⟨h1, h2, h3, h4, h5, h6, h7, h8⟩ := h
    simp only [kindText, networkContrib, timePart_congr h1, timePart_congr h2, strPart_congr h3,
      strPart_congr h4, intPart_congr h5, intPart_congr h6, getStrs_congr h7, extPart_congr h8]
  case RegistryKey =>
    simp only [kindText, registryContrib]
    rw [h.2, strPart_congr h.1]
  case Software =>
    simp only [kindText, softwareContrib, getStr_congr h.1, strPart_congr h.2.1, strPart_congr h.2.2.1,
      strPart_congr h.2.2.2]
  case UserAccount =>
    simp only [kindText, userContrib, strPart_congr h.1, strPart_congr h.2.1, strPart_congr h.2.2]
  case X509Certificate => simp only [kindText, x509Contrib, hashPart_congr h.1, strPart_congr h.2]

/-- Each field read is a contributing property, and the other way round. -/
theorem kindFields_contributing : ∀ s ∈ allSIds, ∀ ps, contributing s = some ps →
    List.Forall₂ (fun n p => hasField s n p = true ∧ p ≠ b!"id") (kindFields s) ps := by
  have h : ∀ s ∈ allSIds, ((contributing s).map fun ps =>
      ((kindFields s).zip ps).all (fun e => hasField s e.1 e.2 && e.2 ≠ b!"id") &&
      (kindFields s).length == ps.length).getD true = true := by decide +kernel
  intro s hs ps hps
  have h1 := h s hs
  rw [hps] at h1
  simp only [Option.map_some, Option.getD_some, Bool.and_eq_true, beq_iff_eq] at h1
  obtain ⟨h2, h3⟩ := h1
  generalize kindFields s = ns at h2 h3
  clear hps h
  induction ns generalizing ps with
  | nil => cases ps with
    | nil => exact .nil
    | cons p ps => cases h3
  | cons n ns ih => cases ps with
    | nil => cases h3
    | cons p ps =>
      simp only [List.zip_cons_cons, List.all_cons, Bool.and_eq_true, decide_eq_true_eq] at h2
      exact .cons h2.1 (ih ps h2.2 (Nat.succ.inj h3))

theorem text_eq (env : Env) (c : Ctor) (o : Obj) (hk : (contributing c.kind).isSome)
    (hv : ∀ n v, c.argField = some (n, v) → o.val n = v) :
    c.text env o = some (kindText env.F o c.kind) := by
  cases c <;> first
    | rfl
    | (simp [contributing, Ctor.kind] at hk; done)
    | (have := hv _ _ rfl
       simp only [Ctor.text, Ctor.kind, kindText, Obj.getStr, Obj.getInt, this])

/-- Options that can replace the argument: only the name of a mutex. -/
theorem argField_kept {env : Env} {c : Ctor} {opts : List (Option Opt)} (hl : AllLibrary opts)
    (hm : c.kind = .Mutex → Untouched .Mutex opts (b!"name")) (n : Str) (v : GV)
    (h : c.argField = some (n, v)) : (applyOptions (c.base env) opts).1.val n = v := by
  have key : ∀ k, hasField c.kind n k = true → Untouched c.kind opts k →
      (c.base env).val n = v → (applyOptions (c.base env) opts).1.val n = v := by
    intro k hf hu hv
    have h1 := c17_untouched (c.base env) opts hl k (by rw [base_sid]; exact hu)
    rw [prop_of (n := n) (by rw [(applyOptions_sid _ opts hl).1, base_sid]; exact hf),
      prop_of (n := n) (by rw [base_sid]; exact hf), hv] at h1
    exact Option.some.inj h1
  have no : noOption .AutonomousSystem (b!"Number") (b!"number") = true ∧
      noOption .Directory (b!"Path") (b!"path") = true ∧
      noOption .DomainName (b!"Value") (b!"value") = true ∧
      noOption .EmailAddress (b!"Value") (b!"value") = true ∧
      noOption .IPv4Address (b!"Value") (b!"value") = true ∧
      noOption .IPv6Address (b!"Value") (b!"value") = true ∧
      noOption .MACAddress (b!"Value") (b!"value") = true ∧
      noOption .URL (b!"Value") (b!"value") = true ∧
      hasField .Mutex (b!"Name") (b!"name") = true := by decide +kernel
  obtain ⟨n1, n2, n3, n4, n5, n6, n7, n8, n9⟩ := no
  have hf : ∀ {s n p}, noOption s n p = true → hasField s n p = true := by
    intro s n p h; simp only [noOption, Bool.and_eq_true] at h; exact h.1.1
  cases c <;> first | (cases h; done) | skip
  case autonomousSystem => cases h; exact key _ (hf n1) (untouched_of_noOption n1 hl) (by rw [Ctor.base, lit_val]; rfl)
  case directory => cases h; exact key _ (hf n2) (untouched_of_noOption n2 hl) (by rw [Ctor.base, lit_val]; rfl)
  case domainName => cases h; exact key _ (hf n3) (untouched_of_noOption n3 hl) (by rw [Ctor.base, lit_val]; rfl)
  case emailAddress => cases h; exact key _ (hf n4) (untouched_of_noOption n4 hl) (by rw [Ctor.base, lit_val]; rfl)
  case ipv4 => cases h; exact key _ (hf n5) (untouched_of_noOption n5 hl) (by rw [Ctor.base, lit_val]; rfl)
  case ipv6 => cases h; exact key _ (hf n6) (untouched_of_noOption n6 hl) (by rw [Ctor.base, lit_val]; rfl)
  case mac => cases h; exact key _ (hf n7) (untouched_of_noOption n7 hl) (by rw [Ctor.base, lit_val]; rfl)
  case url => cases h; exact key _ (hf n8) (untouched_of_noOption n8 hl) (by rw [Ctor.base, lit_val]; rfl)
  case mutex => cases h; exact key _ n9 (hm rfl) (by rw [Ctor.base, lit_val]; rfl)

/-- The identifier of a constructed observable. -/
theorem run_ok_obs {env : Env} {c : Ctor} {opts : List (Option Opt)} (hl : AllLibrary opts)
    {o : Obj} (h : c.run env opts = .ret (some o) none) (hk : (contributing c.kind).isSome)
    (hm : c.kind = .Mutex → Untouched .Mutex opts (b!"name")) :
    o.sid = c.kind ∧ ∃ t, kindText env.F o c.kind = .ok t ∧
      o.val (b!"ID") = .str (newObservableIdentifier env.sha1 t c.typ) := by
  obtain ⟨-, o', ha, -, hx⟩ := run_ok h
  have hkept := argField_kept (env := env) hl hm
  rw [ha] at hkept
  have ht := text_eq env c o' hk hkept
  have hs : o'.sid = c.kind := by rw [(options_id_type hl ha).1, base_sid]
  rcases hx with ⟨hn, -⟩ | ⟨t, hn, hx⟩
  · rw [hn] at ht; cases ht
  · cases hx
    rw [hn] at ht
    refine ⟨hs, t, ?_, set_val _ _ _⟩
    rw [Option.some.inj ht]
    apply kindText_congr
    intro n hnf
    apply set_val_ne
    rintro rfl
    revert hnf
    have : ∀ s ∈ allSIds, (b!"ID") ∉ kindFields s := by decide +kernel
    exact this _ (mem_allSIds _)

/-- The type text is a function of the kind. -/
theorem typ_of_kind {c c' : Ctor} (h : c'.kind = c.kind) : c'.typ = c.typ := by
  have key : ∀ c : Ctor, (dispatchTable.find? (fun e => e.2 == c.kind)).map (·.1) = some c.typ := by
    intro c; cases c <;> rfl
  have h1 := key c'
  rw [h, key c] at h1
  exact (Option.some.inj h1).symm

/-! ### C10 -/

/-- C10 for every hashing constructor: two objects of the same kind that agree on the contributing
properties have the same identifier, whatever the options, the clock and the random source.
Missing from the full statement: a mutex whose name an option replaced keeps the identifier of the
constructor's argument (`c10_mutex_renamed`). -/
theorem c10_deterministic_partial (env env' : Env) (hsha : env'.sha1 = env.sha1) (hF : env'.F = env.F)
    (c c' : Ctor) (hk : (promise c').kind = (promise c).kind) (ps : List Str)
    (hps : contributing (promise c).kind = some ps)
    (opts opts' : List (Option Opt)) (hl : AllLibrary opts) (hl' : AllLibrary opts') (o o' : Obj)
    (h : c.run env opts = .ret (some o) none) (h' : c'.run env' opts' = .ret (some o') none)
    (hmutex : (promise c).kind = .Mutex →
      Untouched .Mutex opts (b!"name") ∧ Untouched .Mutex opts' (b!"name"))
    (hagree : ∀ p ∈ ps, prop o p = prop o' p) :
    prop o (b!"id") = prop o' (b!"id") := by
  rw [promise_kind] at hk hps hmutex
  rw [promise_kind] at hk
  obtain ⟨hs, t, ht, hid⟩ := run_ok_obs hl h (by rw [hps]; rfl) (fun e => (hmutex e).1)
  obtain ⟨hs', t', ht', hid'⟩ := run_ok_obs hl' h' (by rw [hk, hps]; rfl)
    (fun e => (hmutex (hk.symm.trans e)).2)
  have hcongr : kindText env.F o c.kind = kindText env.F o' c.kind := by
    apply kindText_congr
    intro n hn
    have hall := kindFields_contributing c.kind (mem_allSIds _) ps hps
    obtain ⟨p, hp, hf, -⟩ : ∃ p ∈ ps, hasField c.kind n p = true ∧ p ≠ b!"id" := by
      clear hagree hps
      generalize kindFields c.kind = ns at hn hall
      induction hall with
      | nil => cases hn
      | cons hab _ ih =>
        rcases List.mem_cons.1 hn with rfl | hn
        · exact ⟨_, List.mem_cons_self, hab⟩
        · obtain ⟨p, hp, hq⟩ := ih hn
          exact ⟨p, List.mem_cons_of_mem _ hp, hq⟩
    have := hagree p hp
    rw [prop_of (n := n) (by rw [hs]; exact hf), prop_of (n := n) (by rw [hs', hk]; exact hf)] at this
    exact Option.some.inj this
  rw [hk, hF] at ht'
  rw [prop_id, prop_id, hid, hid', hsha, typ_of_kind hk]
  rw [hcongr, ht'] at ht
  cases ht; rfl

/-- C10: the identifier is always a valid identifier of the object's type. -/
theorem c10_valid (env : Env) (he : Sane env) (c : Ctor) (opts : List (Option Opt))
    (hl : AllLibrary opts) (o : Obj) (h : c.run env opts = .ret (some o) none) :
    ∃ id, prop o (b!"id") = some (.str id) ∧ Identifies (promise c).type id := by
  obtain ⟨o', e, -, -, -, h3, -⟩ := c37_wellformed env he c opts hl _ h
  cases e; exact h3

/-- A hash function that keeps the beginning of the text. -/
def exSha1 (x : Str) : List UInt8 := ((x.drop 16) ++ List.replicate 20 0).take 20

/-- Surroundings with that hash function. -/
def exEnv2 : Env := { exEnv with sha1 := exSha1 }

theorem exEnv2_sane : Sane exEnv2 := by
  refine ⟨rfl, fun x => ?_⟩
  simp [exEnv2, exSha1]

/-- C10, the negation of the full statement: two mutexes with the same name and different
identifiers. -/
theorem c10_mutex_renamed : ∃ (env : Env) (opts : List (Option Opt)) (o o' : Obj), Sane env ∧
    AllLibrary opts ∧
    (Ctor.mutex (b!"a")).run env opts = .ret (some o) none ∧
    (Ctor.mutex (b!"b")).run env [] = .ret (some o') none ∧
    (∀ p, p ≠ b!"id" → prop o p = prop o' p) ∧ prop o (b!"name") = some (.str (b!"b")) ∧
    prop o (b!"id") ≠ prop o' (b!"id") := by
  refine ⟨exEnv2, [some (.field OptionName (.str (b!"b")))], _, _, exEnv2_sane, ?_, rfl, rfl, ?_, rfl, ?_⟩
  · intro opt ho
    simp only [List.mem_cons, Option.some.injEq, List.not_mem_nil, or_false] at ho
    subst ho; simp [Library, optTable]
  · intro p hp
    rw [prop_setObsID _ _ _ _ _ hp, prop_setObsID _ _ _ _ _ hp]
    simp only [Obj.lit, List.foldl_append, List.foldl_cons, List.foldl_nil, set_set]
  · rw [prop_id, prop_id]
    simp only [setObsID, set_val, ne_eq, Option.some.injEq, GV.str.injEq]
    decide +kernel

/-- Non-vacuity for C10: the same software described twice, options in a different order and with a
further one. -/
example : ∃ o o', (Ctor.software (b!"s")).run exEnv2
      [some (.field OptionVendor (.str (b!"v"))), some (.field OptionVersion (.str (b!"1")))] = .ret (some o) none ∧
    (Ctor.software (b!"s")).run exEnv2
      [some (.field OptionVersion (.str (b!"1"))), some (.field OptionLanguages (gvStrs (some [b!"en"]))),
       some (.field OptionVendor (.str (b!"v")))] = .ret (some o') none ∧
    ∀ p ∈ [b!"name", b!"cpe", b!"vendor", b!"version"], prop o p = prop o' p := by
  refine ⟨_, _, rfl, rfl, ?_⟩
  simp only [List.mem_cons, List.not_mem_nil, or_false, forall_eq_or_imp, forall_eq]
  exact ⟨rfl, rfl, rfl, rfl⟩

/-! ### C12 -/

/-- C12: the contribution of hashes is that of the preferred one, and empty when there is none of the
four. -/
theorem c12_preferred_hash (m : List (Str × Str)) :
    hashesContribution m = match preferredHash (fun a => amLookup a m) with
      | some (a, v) => b!"{\"" ++ a ++ b!"\":\"" ++ v ++ b!"\"}"
      | none => [] := by
  simp only [hashesContribution, preferredHash, List.findSome?]
  cases amLookup (b!"MD5") m with
  | some v => rfl
  | none => cases amLookup (b!"SHA-1") m with
    | some v => rfl
    | none => cases amLookup (b!"SHA-256") m with
      | some v => rfl
      | none => cases amLookup (b!"SHA-512") m with
        | some v => rfl
        | none => rfl

/-- C12: it is independent of every other hash: two maps with the same preferred hash contribute the
same, and two maps that have one and contribute the same have the same preferred algorithm and
value. -/
theorem c12_only_preferred (m m' : List (Str × Str)) :
    (preferredHash (fun a => amLookup a m) = preferredHash (fun a => amLookup a m') →
      hashesContribution m = hashesContribution m') ∧
    (hashesContribution m = hashesContribution m' →
      preferredHash (fun a => amLookup a m) = preferredHash (fun a => amLookup a m')) := by
  rw [c12_preferred_hash, c12_preferred_hash]
  constructor
  · intro h; rw [h]
  · have alg : ∀ (m : List (Str × Str)) (a v : Str), preferredHash (fun a => amLookup a m) = some (a, v) →
        a ∈ [b!"MD5", b!"SHA-1", b!"SHA-256", b!"SHA-512"] := by
      intro m a v h
      obtain ⟨l₁, b, l₂, hl, hb, -⟩ := List.findSome?_eq_some_iff.1 h
      rw [hl]
      replace hb : (amLookup b m).map (fun v => (b, v)) = some (a, v) := hb
      cases hb' : amLookup b m with
      | none => rw [hb'] at hb; cases hb
      | some w => rw [hb'] at hb; cases hb; simp
    cases h1 : preferredHash (fun a => amLookup a m) with
    | none => cases h2 : preferredHash (fun a => amLookup a m') with
      | none => intro; rfl
      | some e => intro h; simp at h
    | some e => cases h2 : preferredHash (fun a => amLookup a m') with
      | none => intro h; simp at h
      | some e' =>
        obtain ⟨a, v⟩ := e
        obtain ⟨a', v'⟩ := e'
        have ha := alg m a v h1
        have ha' := alg m' a' v' h2
        intro h
        simp only [List.mem_cons, List.not_mem_nil, or_false] at ha ha'
        rcases ha with rfl | rfl | rfl | rfl <;> rcases ha' with rfl | rfl | rfl | rfl <;>
          simp at h ⊢ <;> exact h

/-- Non-vacuity for C12. -/
example : preferredHash (fun a => amLookup a [(b!"SHA-512", b!"x"), (b!"SHA-1", b!"y"), (b!"TLSH", b!"z")])
    = some (b!"SHA-1", b!"y") := by decide +kernel

theorem amLookup_mapVal {α β} (g : α → β) (a : Str) (m : List (Str × α)) :
    amLookup a (m.map fun e => (e.1, g e.2)) = (amLookup a m).map g := by
  induction m with
  | nil => rfl
  | cons e m ih =>
    obtain ⟨k, v⟩ := e
    simp only [List.map_cons, amLookup]
    split
    · rfl
    · exact ih

/-- The hash part, from the property. -/
theorem hashPart_eq (o : Obj) (h : hasField o.sid (b!"Hashes") (b!"hashes") = true) :
    hashPart o = if entries (prop o (b!"hashes")) = [] then [] else
      [match preferredHash (hashOf (prop o (b!"hashes"))) with
        | some (a, v) => b!"{\"" ++ a ++ b!"\":\"" ++ v ++ b!"\"}"
        | none => []] := by
  rw [prop_of h]
  have key : ∀ m : List (Str × GV), hashesContribution (m.map fun e => (e.1, textOf e.2)) =
      match preferredHash (fun a => (amLookup a m).map textOf) with
        | some (a, v) => b!"{\"" ++ a ++ b!"\":\"" ++ v ++ b!"\"}"
        | none => [] := by
    intro m
    rw [c12_preferred_hash]
    simp only [amLookup_mapVal]
  unfold hashPart Obj.getHashes
  generalize o.val (b!"Hashes") = v
  cases v with
  | map m => cases m with
    | none => rfl
    | some m =>
      simp only [Option.getD_some, entries]
      cases m with
      | nil => rfl
      | cons e m => exact congrArg (fun x => [x]) (key (e :: m))
  | _ => rfl

/-- C12 for the objects: artifacts, files and certificates that agree on the other contributing
properties, and whose hashes have the same preferred one (both maps empty, or neither), have the
same identifier: no other hash matters. -/
theorem c12_identifier (env env' : Env) (hsha : env'.sha1 = env.sha1) (hF : env'.F = env.F)
    (c c' : Ctor) (hk : (promise c').kind = (promise c).kind) (ps : List Str)
    (hps : contributing (promise c).kind = some ps) (hh : b!"hashes" ∈ ps)
    (opts opts' : List (Option Opt)) (hl : AllLibrary opts) (hl' : AllLibrary opts') (o o' : Obj)
    (h : c.run env opts = .ret (some o) none) (h' : c'.run env' opts' = .ret (some o') none)
    (hagree : ∀ p ∈ ps, p ≠ b!"hashes" → prop o p = prop o' p)
    (hempty : entries (prop o (b!"hashes")) = [] ↔ entries (prop o' (b!"hashes")) = [])
    (hpref : preferredHash (hashOf (prop o (b!"hashes"))) = preferredHash (hashOf (prop o' (b!"hashes")))) :
    prop o (b!"id") = prop o' (b!"id") := by
  rw [promise_kind] at hk hps
  rw [promise_kind] at hk
  have hno : c.kind ≠ .Mutex := by
    intro e; rw [e] at hps; cases hps; revert hh; decide
  obtain ⟨hs, t, ht, hid⟩ := run_ok_obs hl h (by rw [hps]; rfl) (fun e => (hno e).elim)
  obtain ⟨hs', t', ht', hid'⟩ := run_ok_obs hl' h' (by rw [hk, hps]; rfl)
    (fun e => (hno (hk.symm.trans e)).elim)
  have hf : hasField c.kind (b!"Hashes") (b!"hashes") = true := by
    have key : ∀ s ∈ allSIds, ∀ ps, contributing s = some ps → b!"hashes" ∈ ps →
        hasField s (b!"Hashes") (b!"hashes") = true := by
      have : ∀ s ∈ allSIds, ((contributing s).map fun ps => !ps.contains (b!"hashes") ||
          hasField s (b!"Hashes") (b!"hashes")).getD true = true := by decide +kernel
      intro s hs ps hps hm
      have h1 := this s hs
      rw [hps] at h1
      simp only [Option.map_some, Option.getD_some, Bool.or_eq_true, Bool.not_eq_true'] at h1
      rcases h1 with h1 | h1
      · rw [List.contains_iff_mem.2 hm] at h1; cases h1
      · exact h1
    exact key _ (mem_allSIds _) ps hps hh
  have hhash : hashPart o = hashPart o' := by
    rw [hashPart_eq o (by rw [hs]; exact hf), hashPart_eq o' (by rw [hs', hk]; exact hf), hpref]
    simp only [hempty]
  have hv : ∀ n p, hasField c.kind n p = true → p ∈ ps → p ≠ b!"hashes" → o.val n = o'.val n := by
    intro n p hf hp hne
    have := hagree p hp hne
    rw [prop_of (n := n) (by rw [hs]; exact hf), prop_of (n := n) (by rw [hs', hk]; exact hf)] at this
    exact Option.some.inj this
  have hcongr : kindText env.F o c.kind = kindText env.F o' c.kind := by
    generalize c.kind = s at *
    cases s <;> first | (cases hps; done) | (cases hps; exact absurd hh (by decide)) | skip
    case Artifact =>
      cases hps
      simp only [kindText, artifactContrib, hhash,
        getBin_congr (hv (b!"Payload") (b!"payload_bin") (by decide +kernel) (by decide) (by decide))]
    case File =>
      cases hps
      simp only [kindText, fileContrib, hhash,
        strPart_congr (hv (b!"Name") (b!"name") (by decide +kernel) (by decide) (by decide)),
        strPart_congr (hv (b!"ParentDirectory") (b!"parent_directory_ref") (by decide +kernel) (by decide) (by decide)),
        extPart_congr (hv (b!"Extensions") (b!"extensions") (by decide +kernel) (by decide) (by decide))]
    case X509Certificate =>
      cases hps
      simp only [kindText, x509Contrib, hhash,
        strPart_congr (hv (b!"SerialNumber") (b!"serial_number") (by decide +kernel) (by decide) (by decide))]
  rw [hk, hF] at ht'
  rw [prop_id, prop_id, hid, hid', hsha, typ_of_kind hk]
  rw [hcongr, ht'] at ht
  cases ht; rfl

/-- Non-vacuity for C12: a file with and without a further hash. -/
example : ∃ o o', (Ctor.file [] (some [(b!"MD5", b!"x")])).run exEnv2 [] = .ret (some o) none ∧
    (Ctor.file [] (some [(b!"MD5", b!"x"), (b!"SHA-1", b!"y")])).run exEnv2 [] = .ret (some o') none ∧
    prop o (b!"id") = prop o' (b!"id") := by
  refine ⟨_, _, rfl, rfl, ?_⟩
  refine c12_identifier exEnv2 exEnv2 rfl rfl (.file [] (some [(b!"MD5", b!"x")]))
    (.file [] (some [(b!"MD5", b!"x"), (b!"SHA-1", b!"y")])) rfl _ rfl (by decide) [] []
    (by intro o h; cases h) (by intro o h; cases h) _ _ rfl rfl ?_ ?_ ?_
  · intro p hp hne
    simp only [List.mem_cons, List.not_mem_nil, or_false] at hp
    rcases hp with rfl | rfl | rfl | rfl
    · exact absurd rfl hne
    all_goals rfl
  · exact ⟨fun h => (by cases h), fun h => (by cases h)⟩
  · rfl

end Stix
