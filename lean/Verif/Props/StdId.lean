import Verif.Lemmas.StdId

/-!
# The identifiers of observables and those of the standard (C69)
-/

namespace Stix
open Spec Spec.StdId Spec.Canon

/-- The contributing properties without which nothing is constructed. -/
def mandatory : SId → List Str
  | .AutonomousSystem => [b!"number"]
  | .Directory => [b!"path"]
  | .DomainName => [b!"value"]
  | .EmailAddress => [b!"value"]
  | .IPv4Address => [b!"value"]
  | .IPv6Address => [b!"value"]
  | .MACAddress => [b!"value"]
  | .Mutex => [b!"name"]
  | .URL => [b!"value"]
  | .NetworkTraffic => [b!"protocols"]
  | .Software => [b!"name"]
  | _ => []

theorem getStr_ne {o : Obj} {n : Str} (h : textContribution (some (o.val n)) ≠ .absent) : o.getStr n ≠ [] := by
  intro e
  apply h
  unfold textContribution
  unfold Obj.getStr at e
  cases hv : o.val n <;> (rw [hv] at e; try simp_all)

theorem kind_parts (o : Obj) (s : SId) (hs : o.sid = s) (ps : List Str) (hps : contributing s = some ps) (t : Str)
    (ht : kindText strconv o s = .ok t)
    (hm : ∀ p ∈ mandatory s, contribution strconv p (prop o p) ≠ .absent)
    (hp : ∀ p ∈ ps, Plain (contribution strconv p (prop o p)))
    (hh : entries (prop o (b!"hashes")) ≠ [] → contribution strconv (b!"hashes") (prop o (b!"hashes")) ≠ .absent) :
    ∃ As, t = bracket As.flatten ∧ List.Forall₂ Part As (ps.map fun p => contribution strconv p (prop o p)) := by
  have hall := kindFields_contributing s (mem_allSIds _) ps hps
  have P : ∀ {n p}, hasField s n p = true → prop o p = some (o.val n) := fun h => prop_of (by rw [hs]; exact h)
  have htext : ∀ p ∈ textProps, ∀ v, contribution strconv p v = textContribution v :=
    fun p hp v => (contribution_text strconv p hp v).1
  rw [(contribution_hashes strconv _).1] at hh
  have single : ∀ n p, p ∈ textProps → hasField s n p = true → Plain (contribution strconv p (prop o p)) →
      contribution strconv p (prop o p) ≠ .absent → t = bracketQuoted (o.getStr n) →
      ∃ As, t = bracket As.flatten ∧ List.Forall₂ Part As [contribution strconv p (prop o p)] := by
    intro n p hp hf hpl hne ht
    rw [P hf, htext p hp] at hpl hne ⊢
    refine ⟨[strPart o n], ?_, .cons (strPart_part hpl) .nil⟩
    rw [ht, strPart, if_pos (getStr_ne hne)]
    simp [bracketQuoted, bracket, join, quoted]
  cases s <;> first | (cases hps; done) | (cases hps)
  all_goals
    simp only [kindFields, List.forall₂_cons, List.Forall₂.nil, and_true] at hall
    simp only [kindText, Res.ok.injEq] at ht
    simp only [mandatory, List.forall_mem_cons, List.not_mem_nil, false_implies, implies_true, and_true,
      List.map_cons, List.map_nil] at hm hp ⊢
  case AutonomousSystem =>
    obtain ⟨f1, -⟩ := hall
    rw [P f1, (contribution_num strconv _ (by decide) _).1] at hm ⊢
    refine ⟨[intPart o (b!"Number")], ?_, .cons (intPart_part o _) .nil⟩
    rw [numContribution_eq] at hm
    have hne : o.getInt (b!"Number") ≠ 0 := fun e => hm (if_pos e)
    rw [← ht, intPart, if_pos hne]
    simp [bracket, join]
  case Directory => exact single _ _ (by decide) hall.1 hp hm ht.symm
  case DomainName => exact single _ _ (by decide) hall.1 hp hm ht.symm
  case EmailAddress => exact single _ _ (by decide) hall.1 hp hm ht.symm
  case IPv4Address => exact single _ _ (by decide) hall.1 hp hm ht.symm
  case IPv6Address => exact single _ _ (by decide) hall.1 hp hm ht.symm
  case MACAddress => exact single _ _ (by decide) hall.1 hp hm ht.symm
  case Mutex => exact single _ _ (by decide) hall.1 hp hm ht.symm
  case URL => exact single _ _ (by decide) hall.1 hp hm ht.symm
  case Artifact =>
    obtain ⟨⟨f1, -⟩, f2, -⟩ := hall
    rw [(contribution_hashes strconv _).1] at hp ⊢
    rw [P f2, contribution_bytes] at hp ⊢
    refine ⟨[hashPart o, payloadPart o], ?_,
      .cons (hashPart_part (by rw [hs]; exact f1) hh hp.1) (.cons (payloadPart_part o) .nil)⟩
    rw [← ht]; simp [artifactContrib, payloadPart]
  case X509Certificate =>
    obtain ⟨⟨f1, -⟩, f2, -⟩ := hall
    rw [(contribution_hashes strconv _).1] at hp ⊢
    rw [P f2, htext _ (by decide)] at hp ⊢
    refine ⟨[hashPart o, strPart o (b!"SerialNumber")], ?_,
      .cons (hashPart_part (by rw [hs]; exact f1) hh hp.1) (.cons (strPart_part hp.2) .nil)⟩
    rw [← ht]; simp [x509Contrib]
  case RegistryKey =>
    obtain ⟨⟨f1, -⟩, f2, -⟩ := hall
    rw [P f1, P f2, htext _ (by decide), contribution_values] at hp ⊢
    exact registry_parts ht hp.1 hp.2
  case EmailMessage =>
    obtain ⟨⟨f1, -⟩, ⟨f2, -⟩, f3, -⟩ := hall
    rw [P f1, P f2, P f3, htext _ (by decide), htext _ (by decide), htext _ (by decide)] at hp ⊢
    refine ⟨[strPart o (b!"From"), strPart o (b!"Subject"), strPart o (b!"Body")], ?_,
      .cons (strPart_part hp.1) (.cons (strPart_part hp.2.1) (.cons (strPart_part hp.2.2) .nil))⟩
    rw [← ht]; simp [emailMessageContrib]
  case UserAccount =>
    obtain ⟨⟨f1, -⟩, ⟨f2, -⟩, f3, -⟩ := hall
    rw [P f1, P f2, P f3, htext _ (by decide), htext _ (by decide), htext _ (by decide)] at hp ⊢
    refine ⟨[strPart o (b!"AccountType"), strPart o (b!"UserID"), strPart o (b!"AccountLogin")], ?_,
      .cons (strPart_part hp.1) (.cons (strPart_part hp.2.1) (.cons (strPart_part hp.2.2) .nil))⟩
    rw [← ht]; simp [userContrib]
  case Software =>
    obtain ⟨⟨f1, -⟩, ⟨f2, -⟩, ⟨f3, -⟩, f4, -⟩ := hall
    rw [P f1, htext _ (by decide)] at hm
    rw [P f1, P f2, P f3, P f4, htext _ (by decide), htext _ (by decide), htext _ (by decide),
      htext _ (by decide)] at hp ⊢
    refine ⟨[strPart o (b!"Name"), strPart o (b!"CPE"), strPart o (b!"Vendor"), strPart o (b!"Version")], ?_,
      .cons (strPart_part hp.1) (.cons (strPart_part hp.2.1) (.cons (strPart_part hp.2.2.1)
        (.cons (strPart_part hp.2.2.2) .nil)))⟩
    have : strPart o (b!"Name") = [quoted (o.getStr (b!"Name"))] := by rw [strPart, if_pos (getStr_ne hm)]
    rw [← ht, this]; simp [softwareContrib]
  case File =>
    obtain ⟨⟨f1, -⟩, ⟨f2, -⟩, ⟨f3, -⟩, f4, -⟩ := hall
    rw [(contribution_hashes strconv _).1] at hp ⊢
    rw [P f2, P f3, P f4, htext _ (by decide), (contribution_ext strconv _).1, htext _ (by decide)] at hp ⊢
    refine ⟨[hashPart o, strPart o (b!"Name"), extPart strconv o, strPart o (b!"ParentDirectory")], ?_,
      .cons (hashPart_part (by rw [hs]; exact f1) hh hp.1) (.cons (strPart_part hp.2.1) (.cons (extPart_part hp.2.2.1)
        (.cons (strPart_part hp.2.2.2) .nil)))⟩
    rw [← ht]; simp [fileContrib]
  case NetworkTraffic =>
    obtain ⟨⟨f1, -⟩, ⟨f2, -⟩, ⟨f3, -⟩, ⟨f4, -⟩, ⟨f5, -⟩, ⟨f6, -⟩, ⟨f7, -⟩, f8, -⟩ := hall
    rw [P f7, (contribution_texts strconv _).1] at hm
    rw [P f1, P f2, P f3, P f4, P f5, P f6, P f7, P f8] at hp ⊢
    rw [(contribution_time strconv _ (by decide) _).1, (contribution_time strconv _ (by decide) _).1,
      htext _ (by decide), htext _ (by decide), (contribution_num strconv _ (by decide) _).1,
      (contribution_num strconv _ (by decide) _).1, (contribution_texts strconv _).1,
      (contribution_ext strconv _).1] at hp ⊢
    obtain ⟨p1, p2, p3, p4, p5, p6, p7, p8⟩ := hp
    have hne : o.getStrs (b!"Protocols") ≠ [] := fun e => hm (by rw [getStrs_eq, if_pos e])
    refine ⟨[timePart o (b!"Start"), timePart o (b!"End"), strPart o (b!"Src"), strPart o (b!"Dst"),
      intPart o (b!"SrcPort"), intPart o (b!"DstPort"), [protoTok (o.getStrs (b!"Protocols"))], extPart strconv o], ?_,
      .cons (timePart_part p1) (.cons (timePart_part p2) (.cons (strPart_part p3) (.cons (strPart_part p4)
        (.cons (intPart_part o _) (.cons (intPart_part o _) (.cons (protoTok_part hne p7)
          (.cons (extPart_part p8) .nil)))))))⟩
    rw [← ht]; simp [networkContrib, protoTok]

/-- What must be given is there. -/
theorem mandatory_given {env : Env} {c : Ctor} {opts : List (Option Opt)} (hl : AllLibrary opts)
    {o : Obj} (h : c.run env opts = .ret (some o) none)
    (hm : c.kind ∈ [SId.Mutex, .Software] → Untouched c.kind opts (b!"name")) :
    ∀ p ∈ mandatory c.kind, contribution env.F p (prop o p) ≠ .absent := by
  obtain ⟨hpre, -⟩ := run_ok h
  obtain ⟨hs, -, hprop, hun⟩ := run_ok_prop hl h
  have no : noOption .AutonomousSystem (b!"Number") (b!"number") = true ∧
      noOption .Directory (b!"Path") (b!"path") = true ∧
      noOption .DomainName (b!"Value") (b!"value") = true ∧
      noOption .EmailAddress (b!"Value") (b!"value") = true ∧
      noOption .IPv4Address (b!"Value") (b!"value") = true ∧
      noOption .IPv6Address (b!"Value") (b!"value") = true ∧
      noOption .MACAddress (b!"Value") (b!"value") = true ∧
      noOption .URL (b!"Value") (b!"value") = true ∧
      noOption .NetworkTraffic (b!"Protocols") (b!"protocols") = true := by decide +kernel
  obtain ⟨n1, n2, n3, n4, n5, n6, n7, n8, n9⟩ := no
  have ct := fun (p : Str) (hp : p ∈ textProps) (v : Str) (hv : v ≠ []) (e : prop o p = some (.str v)) =>
    show contribution env.F p (prop o p) ≠ .absent by
      rw [e, (contribution_text env.F p hp _).1]; simp [textContribution, hv]
  cases c <;> simp only [Ctor.kind, mandatory, List.forall_mem_cons, List.not_mem_nil, false_implies,
    implies_true, and_true] at hun hm ⊢
  case autonomousSystem n =>
    rw [hun _ (by decide) (untouched_of_noOption n1 hl), base_args env (.autonomousSystem n) (b!"number", .int n) (by simp [promise]),
      (contribution_num env.F _ (by decide) _).1]
    have : n ≠ 0 := by intro e; simp [Ctor.pre, e] at hpre
    simp [numContribution, this]
  case directory v =>
    refine ct _ (by decide) v (by intro e; simp [Ctor.pre, e] at hpre) ?_
    rw [hun _ (by decide) (untouched_of_noOption n2 hl), base_args env (.directory v) (b!"path", .str v) (by simp [promise])]
  case domainName v =>
    refine ct _ (by decide) v (by intro e; simp [Ctor.pre, e] at hpre) ?_
    rw [hun _ (by decide) (untouched_of_noOption n3 hl), base_args env (.domainName v) (b!"value", .str v) (by simp [promise])]
  case emailAddress v =>
    refine ct _ (by decide) v (by intro e; simp [Ctor.pre, e] at hpre) ?_
    rw [hun _ (by decide) (untouched_of_noOption n4 hl), base_args env (.emailAddress v) (b!"value", .str v) (by simp [promise])]
  case ipv4 v =>
    refine ct _ (by decide) v (by intro e; simp [Ctor.pre, e] at hpre) ?_
    rw [hun _ (by decide) (untouched_of_noOption n5 hl), base_args env (.ipv4 v) (b!"value", .str v) (by simp [promise])]
  case ipv6 v =>
    refine ct _ (by decide) v (by intro e; simp [Ctor.pre, e] at hpre) ?_
    rw [hun _ (by decide) (untouched_of_noOption n6 hl), base_args env (.ipv6 v) (b!"value", .str v) (by simp [promise])]
  case mac v =>
    refine ct _ (by decide) v (by intro e; simp [Ctor.pre, e] at hpre) ?_
    rw [hun _ (by decide) (untouched_of_noOption n7 hl), base_args env (.mac v) (b!"value", .str v) (by simp [promise])]
  case url v =>
    refine ct _ (by decide) v (by intro e; simp [Ctor.pre, e] at hpre) ?_
    rw [hun _ (by decide) (untouched_of_noOption n8 hl), base_args env (.url v) (b!"value", .str v) (by simp [promise])]
  case mutex v =>
    refine ct _ (by decide) v (by intro e; simp [Ctor.pre, e] at hpre) ?_
    rw [hun _ (by decide) (hm (by simp)), base_args env (.mutex v) (b!"name", .str v) (by simp [promise])]
  case software v =>
    refine ct _ (by decide) v (by intro e; simp [Ctor.pre, e] at hpre) ?_
    rw [hun _ (by decide) (hm (by simp)), base_args env (.software v) (b!"name", .str v) (by simp [promise])]
  case networkTraffic pr =>
    rw [hun _ (by decide) (untouched_of_noOption n9 hl), base_args env (.networkTraffic pr) (b!"protocols", gvStrs pr) (by simp [promise]),
      (contribution_texts env.F _).1]
    cases pr with
    | none => simp [Ctor.pre] at hpre
    | some l =>
      have : l ≠ [] := by intro e; simp [Ctor.pre, e] at hpre
      simp [textsContribution, gvStrs, this]

/-- C69, what holds: with the SHA-1 and `strconv` of Go, the identifier of an observable is the type
and the UUID of version 5 of SHA-1 in the standard's namespace, of the canonical JSON array of the
values of the contributing properties that are there, in the order of the documentation.
Missing from the full statement, and false (`c69_false`): that the name is the JSON object the
standard prescribes. Also excluded are texts that would have to be escaped in JSON and hashes of which
none is one of the four preferred ones (`c69_not_json`), and a mutex or software renamed by an
option. -/
theorem c69_identifier_partial (env : Env) (hsha : env.sha1 = Fips.sha1) (hF : env.F = strconv) (c : Ctor)
    (ps : List Str) (hps : contributing (promise c).kind = some ps)
    (opts : List (Option Opt)) (hl : AllLibrary opts) (o : Obj) (h : c.run env opts = .ret (some o) none)
    (hname : (promise c).kind ∈ [SId.Mutex, .Software] → Untouched (promise c).kind opts (b!"name"))
    (hplain : ∀ p ∈ ps, Plain (contribution strconv p (prop o p)))
    (hhash : entries (prop o (b!"hashes")) ≠ [] →
      contribution strconv (b!"hashes") (prop o (b!"hashes")) ≠ .absent) :
    ∃ ls : List (List JV), List.Forall₂ (fun p l => Elements (contribution strconv p (prop o p)) l) ps ls ∧
      (JV.arr ls.flatten).Sorted ∧
      prop o (b!"id") = some (.str (identifier (promise c).type (JV.arr ls.flatten).print)) := by
  rw [promise_kind] at hps hname
  obtain ⟨hs, t, ht, hid⟩ := run_ok_obs hl h (by rw [hps]; rfl) (fun e => by
    have := hname (by rw [e]; simp)
    rwa [e] at this)
  rw [hF] at ht
  have hmand := mandatory_given hl h hname
  rw [hF] at hmand
  obtain ⟨As, rfl, hA⟩ := kind_parts o c.kind hs ps hps t ht hmand hplain hhash
  obtain ⟨ls, h1, h2, h3⟩ := parts_array hA
  refine ⟨ls, List.forall₂_map_left_iff.1 h1, h2, ?_⟩
  rw [prop_id, hid, hsha, newObservableIdentifier_std, promise_type, h3]

/-- C69 is false of the code, for every observable: what is hashed is never a name the standard
prescribes. The two identifiers are equal only if the digests of the two different texts collide. -/
theorem c69_false_everywhere (env : Env) (hsha : env.sha1 = Fips.sha1) (c : Ctor)
    (hk : (contributing (promise c).kind).isSome) (opts : List (Option Opt)) (o : Obj)
    (h : c.run env opts = .ret (some o) none) :
    ∃ text, prop o (b!"id") = some (.str (identifier (promise c).type text)) ∧
      ∀ (F : Canon.FloatFmt) (ps : List Str) (name : Str), StandardName F o ps name → text ≠ name ∧
        (prop o (b!"id") = some (.str (identifier (promise c).type name)) ↔
          CollideV5 (Fips.sha1 (scoNamespace ++ text)) (Fips.sha1 (scoNamespace ++ name))) := by
  rw [promise_kind] at hk
  obtain ⟨-, o', ha, -, hx⟩ := run_ok h
  have htext : ∃ t, c.text env o' = some t := by
    cases c <;> first | exact ⟨_, rfl⟩ | (simp [contributing, Ctor.kind] at hk)
  obtain ⟨t', ht'⟩ := htext
  rcases hx with ⟨hn, -⟩ | ⟨t, hn, hx⟩
  · rw [hn] at ht'; cases ht'
  cases hx
  obtain ⟨r, rfl⟩ := text_bracket env c o' t hn
  have hid : prop (setObsID env o' (91 :: r) c.typ) (b!"id") = some (.str (identifier (promise c).type (91 :: r))) := by
    rw [prop_id, setObsID, set_val, hsha, newObservableIdentifier_std, promise_type]
  refine ⟨_, hid, ?_⟩
  rintro F ps name ⟨ms, -, rfl, -⟩
  refine ⟨?_, ?_⟩
  · rw [JV.print]
    intro e
    simp at e
  · rw [hid, Option.some.injEq, GV.str.injEq, ← newObservableIdentifier_std, ← newObservableIdentifier_std,
      obs_id_collide Fips.sha1 length_fips]

/-- C69, the hash function: the model of `crypto/sha1` with which the identifiers here and in
`Verif.Props.StdIdVectors` are computed is the SHA-1 of FIPS 180-4, for messages of every length. -/
theorem c69_sha1 (m : List UInt8) : Sha1.sha1 m = Fips.sha1 m := sha1_fips m

/-- Surroundings with the hash function and the numbers of Go. -/
def realEnv : Env := { exEnv with sha1 := Sha1.sha1, F := strconv }

/-- They meet the hypothesis of the theorems above. -/
theorem realEnv_sha1 : realEnv.sha1 = Fips.sha1 := fips_eq.symm

theorem realEnv_sane : Sane realEnv := ⟨rfl, Sha1.length_sha1⟩

/-- C69 is false of the code: the address 198.51.100.3 has the identifier
`ipv4-addr--1f8f4d63-9f33-5353-a3e3-e1b84c83a7b5`, and the standard prescribes
`ipv4-addr--28bb3599-77cd-5a82-a950-b5bc3caf07c4`. -/
theorem c69_false : ∃ (o : Obj) (name : Str),
    (Ctor.ipv4 (b!"198.51.100.3")).run realEnv [] = .ret (some o) none ∧
    StandardName strconv o [b!"value"] name ∧
    prop o (b!"id") = some (.str (b!"ipv4-addr--1f8f4d63-9f33-5353-a3e3-e1b84c83a7b5")) ∧
    identifier (b!"ipv4-addr") name = b!"ipv4-addr--28bb3599-77cd-5a82-a950-b5bc3caf07c4" := by
  refine ⟨_, b!"{\"value\":\"198.51.100.3\"}", rfl, ⟨[(b!"value", .str (b!"198.51.100.3"))], ?_, ?_, by simp, ?_, by simp⟩, ?_, ?_⟩
  · exact ⟨List.pairwise_singleton _ _, trivial, trivial⟩
  · simp only [JV.print, printMembers]
    decide +kernel
  · intro e he
    simp only [List.mem_cons, List.not_mem_nil, or_false] at he
    subst he
    refine ⟨by simp, ?_⟩
    exact ValueOf.text (s := b!"198.51.100.3")
  · rw [prop_id, setObsID, set_val, Option.some.injEq, GV.str.injEq]
    decide +kernel
  · rw [← newObservableIdentifier_std, fips_eq]
    decide +kernel

/-- C69 is false of the code: the standard has `swid` among the contributing properties of software;
here it does not contribute. -/
theorem c69_swid : ∃ (o o' : Obj),
    (Ctor.software (b!"Word")).run realEnv [some (.field OptionSWID (.str (b!"a")))] = .ret (some o) none ∧
    (Ctor.software (b!"Word")).run realEnv [some (.field OptionSWID (.str (b!"b")))] = .ret (some o') none ∧
    prop o (b!"swid") = some (.str (b!"a")) ∧ prop o' (b!"swid") = some (.str (b!"b")) ∧
    prop o (b!"id") = prop o' (b!"id") :=
  ⟨_, _, rfl, rfl, rfl, rfl, rfl⟩

/-- A way to read numbers for which every token is one. -/
def zeroFmt : Canon.FloatFmt where
  parse _ := some 0
  formatE _ := []
  formatF _ := []

theorem not_mem_tails {b : UInt8} {l : List Str} (h : b ∉ (b!",").intercalate l) : ∀ x ∈ l, b ∉ x := by
  cases l with
  | nil => simp
  | cons x xs =>
    rw [Canon.intercalate_cons, List.mem_append, not_or] at h
    intro y hy
    rcases List.mem_cons.1 hy with rfl | hy
    · exact h.1
    · intro hb
      exact h.2 (List.mem_flatMap.2 ⟨y, hy, List.mem_cons_of_mem _ hb⟩)

mutual
/-- A text without braces is canonicalised if all tokens are numbers. -/
theorem canonV_noBrace : ∀ s : Syn, 123 ∉ s.text → ∃ out, Canon.canonV zeroFmt s.value = some out
  | .lit t, _ => ⟨_, by rw [Syn.value, Canon.canonV]⟩
  | .num t, _ => ⟨b!"0", by rw [Syn.value, Canon.canonV]; rfl⟩
  | .str _ d, _ => ⟨_, by rw [Syn.value, Canon.canonV]⟩
  | .arr w es, h => by
    rw [Syn.text] at h
    obtain ⟨l, hl⟩ := canonEs_noBrace es (not_mem_tails fun hb => h (by simp [hb]))
    exact ⟨Canon.arrayText l, by rw [Syn.value, Canon.canonV, hl]; rfl⟩
  | .obj w ms, h => absurd (by rw [Syn.text]; simp) h

theorem canonEs_noBrace : ∀ es : Elems, (∀ x ∈ es.texts, 123 ∉ x) → ∃ l, Canon.canonEs zeroFmt es.values = some l
  | .nil, _ => ⟨[], by rw [Elems.values, Canon.canonEs]⟩
  | .cons w v w' r, h => by
    rw [Elems.texts, List.forall_mem_cons] at h
    obtain ⟨x, hx⟩ := canonV_noBrace v fun hb => h.1 (by simp [hb])
    obtain ⟨l, hl⟩ := canonEs_noBrace r h.2
    exact ⟨x :: l, by rw [Elems.values, Canon.canonEs, hx, hl]; rfl⟩
end

/-- How to see that a text without braces is not JSON. -/
theorem not_denotes {t : Str} (ht : Canon.transform zeroFmt t = none) (hb : 123 ∉ t) (v : JV) : ¬ Denotes t v := by
  intro h
  rw [Canon.transform_denotes h] at ht
  obtain ⟨w, w', s, -, -, -, -, rfl, rfl⟩ := h
  obtain ⟨out, e⟩ := canonV_noBrace s fun h => hb (by simp [h])
  rw [e] at ht
  cases ht

/-- What is excluded from `c69_identifier_partial`: a domain name with a quotation mark, and a file
with hashes of which none is a preferred one, are hashed as texts that are not JSON. -/
theorem c69_not_json :
    (∃ o, (Ctor.domainName (b!"a\"b")).run realEnv [] = .ret (some o) none ∧
      prop o (b!"id") = some (.str (identifier (b!"domain-name") (b!"[\"a\"b\"]"))) ∧
      ∀ v, ¬ Denotes (b!"[\"a\"b\"]") v) ∧
    (∃ o, (Ctor.file (b!"n") (some [(b!"SHA3-256", b!"00")])).run realEnv [] = .ret (some o) none ∧
      prop o (b!"id") = some (.str (identifier (b!"file") (b!"[,\"n\"]"))) ∧
      ∀ v, ¬ Denotes (b!"[,\"n\"]") v) := by
  refine ⟨⟨_, rfl, ?_, not_denotes (by decide +kernel) (by decide +kernel)⟩,
    ⟨_, rfl, ?_, not_denotes (by decide +kernel) (by decide +kernel)⟩⟩
  all_goals
    rw [prop_id, setObsID, set_val, Option.some.injEq, GV.str.injEq, ← newObservableIdentifier_std, fips_eq]
    rfl

/-- Non-vacuity of `c69_identifier_partial`: a file with a name and a SHA-256 hash. -/
example : ∃ o, (Ctor.file (b!"n") (some [(b!"SHA-256", b!"00")])).run realEnv [] = .ret (some o) none ∧
    prop o (b!"id") = some (.str (identifier (b!"file") (b!"[{\"SHA-256\":\"00\"},\"n\"]"))) ∧
    (∀ p ∈ [b!"hashes", b!"name", b!"extensions", b!"parent_directory_ref"], Plain (contribution strconv p (prop o p))) ∧
    contribution strconv (b!"hashes") (prop o (b!"hashes")) ≠ .absent := by
  refine ⟨_, rfl, ?_, ?_, ?_⟩
  · rw [prop_id, setObsID, set_val, Option.some.injEq, GV.str.injEq, ← newObservableIdentifier_std, fips_eq]
    rfl
  · simp only [List.forall_mem_cons, List.not_mem_nil, false_implies, implies_true, and_true]
    refine ⟨?_, ?_, ?_, ?_⟩
    · show Plain (.hash (b!"SHA-256") (b!"00"))
      decide +kernel
    · show Plain (.text (b!"n"))
      decide +kernel
    · show Plain .absent
      trivial
    · show Plain .absent
      trivial
  · intro h; cases h

/-! ### The text of fresh identifiers (C08) -/

/-- **C08.** A fresh identifier is the type, two dashes and the text of the random UUID of version 4
(RFC 4122, section 4.4). -/
theorem c08_version4 (rnd : List UInt8) (t : Str) (hr : rnd.length = 16) :
    newIdentifier rnd t = t ++ b!"--" ++ uuidText (version 4 rnd) := by
  have h := (uuidText_stamp rnd (by omega)).2
  rw [List.take_of_length_le (by omega)] at h
  rw [newIdentifier, h]

/-- **C08.** The identifier of an observable is the type, two dashes and the text of the UUID of version
5 (RFC 4122, section 4.3) in the namespace of the standard. -/
theorem c08_version5 (sha1 : Str → List UInt8) (hs : ∀ x, (sha1 x).length = 20) (v t : Str) :
    newObservableIdentifier sha1 v t = t ++ b!"--" ++ uuidText (version 5 (sha1 (scoNamespace ++ v))) := by
  rw [newObservableIdentifier, uuidSHA1, (uuidText_stamp _ (by rw [hs]; omega)).1]
  rfl

/-- **C08.** Two fresh identifiers are the same only if the types are and the 122 random bits are. -/
theorem c08_distinct (rnd rnd' : List UInt8) (t t' : Str) (hr : rnd.length = 16) (hr' : rnd'.length = 16)
    (ht : TypePart t) (ht' : TypePart t') :
    newIdentifier rnd t = newIdentifier rnd' t' ↔ t = t' ∧ CollideV5 rnd rnd' := by
  rw [← stamp4_collide _ _ hr hr']
  constructor
  · intro h
    have u : ∀ r : List UInt8, r.length = 16 → UUIDText (uuidString (uuidStamp 4 r)) := fun r hr =>
      Or.inl (uuidCanon_uuidString _ (by rw [uuidStamp_length, hr]))
    obtain ⟨e, h, -⟩ := c07_unique_parts t t' _ _ ht ht' (u _ hr) (u _ hr') h
    refine ⟨e, ?_⟩
    have h1 := uuidParse_uuidString (uuidStamp 4 rnd) (by rw [uuidStamp_length, hr])
    rw [h, uuidParse_uuidString _ (by rw [uuidStamp_length, hr'])] at h1
    exact (Option.some.inj h1).symm
  · rintro ⟨rfl, h⟩
    rw [newIdentifier, h, newIdentifier]

/-- Non-vacuity: a fresh identifier of a malware. -/
example : newIdentifier (List.replicate 16 7) TypeMalware = b!"malware--07070707-0707-4707-8707-070707070707" := by
  decide +kernel

end Stix
