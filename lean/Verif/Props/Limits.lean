import Verif.Props.Needs
import Verif.Spec.Limits

/-!
# The rules of the documentation (C67)
-/

namespace Stix
open Stix.Spec

/-! ### The properties of a constructed object -/

theorem ends_prop {env : Env} {c : Ctor} {opts : List (Option Opt)} (hl : AllLibrary opts) {o : Obj}
    (h : c.run env opts = .ret (some o) none) (n : Str) {p : Str} (h1 : p ≠ b!"id")
    (h2 : p ≠ b!"extensions") (hf : hasField c.kind n p = true) {z : GV}
    (hb : (c.base env).val n = (amLookup p (promise c).args).getD z) :
    prop o p = some ((endsAs c opts p).getD z) := by
  obtain ⟨-, o', ha, -⟩ := run_ok h
  have hs : (applyOptions (c.base env) opts).1.sid = c.kind := by
    rw [ha]; simp only; rw [(options_id_type hl ha).1, base_sid]
  rw [(run_ok_prop hl h).2.2.1 p h1, prop_of (n := n) (by rw [hs]; exact hf),
    ends_val hl (by rw [ha]) h2 hf hb]

theorem arg_prop {env : Env} {c : Ctor} {opts : List (Option Opt)} (hl : AllLibrary opts) {o : Obj}
    (h : c.run env opts = .ret (some o) none) {n p : Str} {v : GV} (h1 : p ≠ b!"id")
    (hn : noOption c.kind n p = true) (ha : (p, v) ∈ (promise c).args) : prop o p = some v := by
  rw [(run_ok_prop hl h).2.2.2 p h1 (untouched_of_noOption hn hl)]
  exact base_args env c _ ha

theorem typed_prop {o : Obj} (h : TypedObj o) {r : FieldInfo} (hr : r ∈ objFields o.sid) {v : GV}
    (hp : prop o r.key = some v) : Val typed r.ty v := by
  rw [prop_field hr] at hp
  cases hp
  exact h.1 r hr

theorem given_text {c : Ctor} {opts : List (Option Opt)} {o : Obj} {p n : Str}
    (hp : prop o p = some ((endsAs c opts p).getD (.str [])))
    (ht : Val typed (.str n) ((endsAs c opts p).getD (.str []))) : HasProp o p ↔ GetsText c opts p := by
  obtain ⟨s, hs, -⟩ := ht
  simp only [HasProp, hp, GetsText]
  cases he : endsAs c opts p with
  | none => simp [LeftOut]
  | some v =>
    rw [he] at hs
    obtain rfl : v = .str s := hs
    simp [LeftOut]

theorem given_bytes {c : Ctor} {opts : List (Option Opt)} {o : Obj} {p : Str}
    (hp : prop o p = some ((endsAs c opts p).getD (.bin none)))
    (ht : Val typed .bin ((endsAs c opts p).getD (.bin none))) : HasProp o p ↔ GetsBytes c opts p := by
  obtain ⟨s, hs⟩ := ht
  simp only [HasProp, hp, GetsBytes]
  cases he : endsAs c opts p with
  | none => simp [LeftOut]
  | some v =>
    rw [he] at hs
    obtain rfl : v = .bin s := hs
    cases s <;> simp [LeftOut]

theorem given_of_map {c : Ctor} {opts : List (Option Opt)} {o : Obj} {p : Str}
    (hp : prop o p = some ((endsAs c opts p).getD (.map none))) (h : GetsMap c opts p) : HasProp o p := by
  obtain ⟨m, hm⟩ := h
  simp [HasProp, hp, hm, LeftOut]

theorem given_of_text {c : Ctor} {opts : List (Option Opt)} {o : Obj} {p : Str} {z : GV}
    (hp : prop o p = some ((endsAs c opts p).getD z)) (h : GetsText c opts p) : HasProp o p := by
  obtain ⟨m, h0, hm⟩ := h
  simpa [HasProp, hp, hm, LeftOut] using h0

theorem timeOf_ends {c : Ctor} {opts : List (Option Opt)} {o : Obj} {p : Str}
    (hp : prop o p = some ((endsAs c opts p).getD (.ptr none))) {i : Int} (h : timeOf o p = some i) :
    ∃ t, t.ns = i ∧ GetsTime c opts p t := by
  simp only [timeOf, hp, GetsTime] at h ⊢
  cases he : endsAs c opts p with
  | none => rw [he] at h; simp at h
  | some v =>
    rw [he] at h
    simp only [Option.getD_some] at h
    split at h
    · next t e => cases e; cases h; exact ⟨t, rfl, rfl⟩
    · cases h

/-- **C67.** Constructed objects keep the rules that constructors enforce.

Missing: the rules in `unenforced`, which the documentation states as well. -/
theorem c67_enforced_partial (env : Env) (c : Ctor) (opts : List (Option Opt)) (hl : AllLibrary opts)
    (ha : ValArgs typed c) (hv : ValOpts typed opts) (o : Obj)
    (h : c.run env opts = .ret (some o) none) : ∀ r ∈ enforced o.sid, r.Holds o := by
  have ht := run_typed ha hl hv h
  have hs := (run_ok_prop hl h).1
  have hn := ((c65_succeeds env c opts hl ha hv).1 ⟨o, h⟩).2
  have hend := fun n p (h1 : p ≠ b!"id") (h0 : p ≠ b!"extensions") (hf : hasField c.kind n p = true) z hb =>
    ends_prop hl h n (p := p) h1 h0 hf (z := z) hb
  have harg := fun n p v (h1 : p ≠ b!"id") (hf : noOption c.kind n p = true) (hm : (p, v) ∈ (promise c).args) =>
    arg_prop hl h (n := n) h1 hf hm
  rw [hs]
  cases c
  case artifact =>
    have h1 := hend (b!"Payload") (b!"payload_bin") (by decide) (by decide) (by simp only [Ctor.kind]; decide +kernel) (.bin none) rfl
    have h2 := hend (b!"URL") (b!"url") (by decide) (by decide) (by simp only [Ctor.kind]; decide +kernel) (.str []) rfl
    have h3 := hend (b!"Hashes") (b!"hashes") (by decide) (by decide) (by simp only [Ctor.kind]; decide +kernel) (.map none) rfl
    have g1 := given_bytes h1 (typed_prop ht (r := ⟨b!"Payload", b!"payload_bin", true, .bin⟩)
      (by rw [hs]; simp [Ctor.kind, objFields, ownFields, fieldsArtifact, mkFields, Fields.toList]) h1)
    have g2 := given_text h2 (typed_prop ht (r := ⟨b!"URL", b!"url", true, .str (b!"string")⟩)
      (by rw [hs]; simp [Ctor.kind, objFields, ownFields, fieldsArtifact, mkFields, Fields.toList]) h2)
    obtain ⟨n1, n2⟩ := hn
    simp only [Ctor.kind, enforced, List.mem_cons, List.not_mem_nil, or_false, forall_eq_or_imp,
      forall_eq, Rule.Holds, exists_eq_or_imp, exists_eq_left, g1, g2]
    refine ⟨?_, ?_, fun hu => given_of_map h3 (n2 hu)⟩
    · by_cases hu : GetsText .artifact opts (b!"url")
      · exact .inr hu
      · exact .inl (n1.2 hu)
    · exact fun hb => n1.1 hb.1 hb.2
  case location r co lat long =>
    have h1 := harg (b!"Region") (b!"region") (.str r) (by decide) (by simp only [Ctor.kind]; decide +kernel) (by simp [promise])
    have h2 := harg (b!"Country") (b!"country") (.str co) (by decide) (by simp only [Ctor.kind]; decide +kernel) (by simp [promise])
    have h3 := harg (b!"Latitude") (b!"latitude") (.flt lat) (by decide) (by simp only [Ctor.kind]; decide +kernel) (by simp [promise])
    have h4 := harg (b!"Longitude") (b!"longitude") (.flt long) (by decide) (by simp only [Ctor.kind]; decide +kernel) (by simp [promise])
    have h5 := hend (b!"Precision") (b!"precision") (by decide) (by decide) (by simp only [Ctor.kind]; decide +kernel) (.flt 0) rfl
    have h6 := typed_prop ht (r := ⟨b!"Precision", b!"precision", true, .flt⟩)
      (by rw [hs]; simp [Ctor.kind, objFields, ownFields, fieldsLocation, mkFields, Fields.toList]) h5
    obtain ⟨n1, n2, n3, n4, n5⟩ := hn
    simp only [Ctor.kind, enforced, List.mem_cons, List.not_mem_nil, or_false, forall_eq_or_imp,
      forall_eq, Rule.Holds, exists_eq_or_imp, exists_eq_left, HasProp, h1, h2, h3, h4, h5, LeftOut]
    refine ⟨n1, fun a b => a (n2.2 b), fun a b => a (n2.1 b), ?_, ?_, ?_⟩
    · exact_mod_cast n3
    · exact_mod_cast n4
    · intro hp
      obtain ⟨f, hf, -⟩ := h6
      cases he : endsAs (.location r co lat long) opts (b!"precision") with
      | none =>
        rw [he] at hp
        have hz : f64Val 0 = 0 := by simp [f64Val, f64Units, f64Exp, f64Frac]
        exact absurd hz hp
      | some v =>
        rw [he] at hp hf
        obtain rfl : v = .flt f := hf
        exact n5 f he hp
  case malware f =>
    have h1 := harg (b!"IsFamily") (b!"is_family") (.bool f) (by decide) (by simp only [Ctor.kind]; decide +kernel) (by simp [promise])
    have h2 := hend (b!"Name") (b!"name") (by decide) (by decide) (by simp only [Ctor.kind]; decide +kernel) (.str []) rfl
    simp only [Ctor.kind, enforced, List.mem_cons, List.not_mem_nil, or_false, forall_eq, Rule.Holds, h1]
    cases f with
    | false => trivial
    | true => exact given_of_text h2 (hn rfl)
  case malwareAnalysis p r s =>
    have h1 := harg (b!"Result") (b!"result") (.str r) (by decide) (by simp only [Ctor.kind]; decide +kernel) (by simp [promise])
    have h2 := harg (b!"AnalysisSCOs") (b!"analysis_sco_refs") (gvStrs s) (by decide) (by simp only [Ctor.kind]; decide +kernel) (by simp [promise])
    simp only [Ctor.kind, enforced, List.mem_cons, List.not_mem_nil, or_false, forall_eq, Rule.Holds,
      exists_eq_or_imp, exists_eq_left, HasProp, h1, h2, LeftOut]
    rcases hn.2 with ⟨a, as, rfl⟩ | hr
    · exact .inr (by simp [gvStrs])
    · exact .inl hr
  case networkTraffic p =>
    have h1 := harg (b!"Protocols") (b!"protocols") (gvStrs p) (by decide) (by simp only [Ctor.kind]; decide +kernel) (by simp [promise])
    have h2 := hend (b!"Src") (b!"src_ref") (by decide) (by decide) (by simp only [Ctor.kind]; decide +kernel) (.str []) rfl
    have h3 := hend (b!"Dst") (b!"dst_ref") (by decide) (by decide) (by simp only [Ctor.kind]; decide +kernel) (.str []) rfl
    simp only [Ctor.kind, enforced, List.mem_cons, List.not_mem_nil, or_false, forall_eq_or_imp,
      forall_eq, Rule.Holds, exists_eq_or_imp, exists_eq_left]
    obtain ⟨⟨a, as, rfl⟩, hn⟩ := hn
    refine ⟨by simp [HasProp, h1, gvStrs, LeftOut], hn.imp (given_of_text h2) (given_of_text h3)⟩
  case observedData f l n r =>
    have h1 := harg (b!"NumberObserved") (b!"number_observed") (.int n) (by decide) (by simp only [Ctor.kind]; decide +kernel) (by simp [promise])
    have h2 := harg (b!"ObjectRefs") (b!"object_refs") (gvStrs r) (by decide) (by simp only [Ctor.kind]; decide +kernel) (by simp [promise])
    have h3 : prop o (b!"objects") = some (.map none) := by
      rw [(run_ok_prop hl h).2.2.2 _ (by decide) (untouched_of_noOption (n := b!"Objects")
        (by simp only [Ctor.kind]; decide +kernel) hl)]
      rfl
    obtain ⟨⟨a, as, rfl⟩, -, -, hn⟩ := hn
    simp only [Ctor.kind, enforced, List.mem_cons, List.not_mem_nil, or_false, forall_eq_or_imp,
      forall_eq, Rule.Holds, exists_eq_or_imp, exists_eq_left, HasProp, h1, h2, h3, gvStrs, LeftOut]
    simp [hn]
  case sighting s =>
    have h1 := hend (b!"FirstSeen") (b!"first_seen") (by decide) (by decide) (by simp only [Ctor.kind]; decide +kernel) (.ptr none) rfl
    have h2 := hend (b!"LastSeen") (b!"last_seen") (by decide) (by decide) (by simp only [Ctor.kind]; decide +kernel) (.ptr none) rfl
    have h3 := hend (b!"Count") (b!"count") (by decide) (by decide) (by simp only [Ctor.kind]; decide +kernel) (.int 0) rfl
    obtain ⟨-, n1, n2⟩ := hn
    simp only [Ctor.kind, enforced, List.mem_cons, List.not_mem_nil, or_false, forall_eq_or_imp,
      forall_eq, Rule.Holds, Option.mem_def, h3]
    refine ⟨fun i hi j hj => ?_, ?_⟩
    · obtain ⟨t, rfl, ht⟩ := timeOf_ends h1 hi
      obtain ⟨u, rfl, hu⟩ := timeOf_ends h2 hj
      exact n1 t u ht hu
    · cases he : endsAs (.sighting s) opts (b!"count") with
      | none => simp
      | some v =>
        cases v with
        | int n => simpa using n2 n he
        | _ => trivial
  case process =>
    have hb := typed_prop ht (r := ⟨b!"IsHidden", b!"is_hidden", true, .bool⟩)
      (by rw [hs]; simp [Ctor.kind, objFields, ownFields, fieldsProcess, mkFields, Fields.toList])
      (prop_of (n := b!"IsHidden") (by rw [hs]; simp only [Ctor.kind]; decide +kernel))
    obtain ⟨b, hb⟩ := hb
    simp only [Ctor.kind, enforced, List.mem_cons, List.not_mem_nil, or_false, forall_eq, Rule.Holds]
    refine ⟨b!"is_hidden", by decide +kernel, ?_⟩
    have := prop_of (o := o) (n := b!"IsHidden") (k := b!"is_hidden") (by rw [hs]; simp only [Ctor.kind]; decide +kernel)
    simp [HasProp, this, hb, LeftOut]
  case userAccount =>
    have hb := typed_prop ht (r := ⟨b!"IsDisabled", b!"is_disabled", true, .bool⟩)
      (by rw [hs]; simp [Ctor.kind, objFields, ownFields, fieldsUserAccount, mkFields, Fields.toList])
      (prop_of (n := b!"IsDisabled") (by rw [hs]; simp only [Ctor.kind]; decide +kernel))
    obtain ⟨b, hb⟩ := hb
    simp only [Ctor.kind, enforced, List.mem_cons, List.not_mem_nil, or_false, forall_eq, Rule.Holds]
    refine ⟨b!"is_disabled", by decide +kernel, ?_⟩
    have := prop_of (o := o) (n := b!"IsDisabled") (k := b!"is_disabled") (by rw [hs]; simp only [Ctor.kind]; decide +kernel)
    simp [HasProp, this, hb, LeftOut]
  case x509 =>
    have hb := typed_prop ht (r := ⟨b!"SelfSigned", b!"is_self_signed", true, .bool⟩)
      (by rw [hs]; simp [Ctor.kind, objFields, ownFields, fieldsX509Certificate, mkFields, Fields.toList])
      (prop_of (n := b!"SelfSigned") (by rw [hs]; simp only [Ctor.kind]; decide +kernel))
    obtain ⟨b, hb⟩ := hb
    simp only [Ctor.kind, enforced, List.mem_cons, List.not_mem_nil, or_false, forall_eq, Rule.Holds]
    refine ⟨b!"is_self_signed", by decide +kernel, ?_⟩
    have := prop_of (o := o) (n := b!"SelfSigned") (k := b!"is_self_signed") (by rw [hs]; simp only [Ctor.kind]; decide +kernel)
    simp [HasProp, this, hb, LeftOut]
  all_goals
    intro r hr
    simp only [Ctor.kind, enforced, List.not_mem_nil] at hr

/-- **C67**, for files: one made with options that leave the name and the hashes alone has a name or
hashes.

Missing: an option can take the name away again. -/
theorem c67_file_partial (env : Env) (n : Str) (hs : Option (List (Str × Str))) (opts : List (Option Opt))
    (hl : AllLibrary opts) (h1 : Untouched .File opts (b!"name")) (h2 : Untouched .File opts (b!"hashes"))
    (o : Obj) (h : (Ctor.file n hs).run env opts = .ret (some o) none) :
    (Rule.anyOf [b!"name", b!"hashes"]).Holds o := by
  have hp := (run_ok_prop hl h).2.2.2
  have e1 : prop o (b!"name") = some (.str n) := by
    rw [hp _ (by decide) h1]; exact base_args env (.file n hs) (b!"name", .str n) (by simp [promise])
  have e2 : prop o (b!"hashes") = some (gvHashes hs) := by
    rw [hp _ (by decide) h2]; exact base_args env (.file n hs) (b!"hashes", gvHashes hs) (by simp [promise])
  have hpre := (run_ok h).1
  simp only [Rule.Holds, List.mem_cons, List.not_mem_nil, or_false, exists_eq_or_imp, exists_eq_left,
    HasProp, e1, e2, LeftOut]
  cases hs with
  | some m => exact .inr (by simp [gvHashes])
  | none =>
    refine .inl fun hn => ?_
    subst hn
    simp [Ctor.pre] at hpre

/-! ### What is not enforced -/

/-- A test for broken rules. -/
def breaks (o : Obj) : Rule → Bool
  | .anyOf ps => ps.all fun p => !decide (HasProp o p)
  | .ifNot p b q => match prop o p with
    | some (.bool b') => b' == b && decide (HasProp o q)
    | _ => false
  | .between p lo hi => match prop o p with
    | some (.int i) => decide (i < lo) || hi.any fun h => decide (h < i)
    | _ => false
  | .notBefore p q => match timeOf o p, timeOf o q with
    | some s, some t => decide (t < s)
    | _, _ => false
  | .after p q => match timeOf o p, timeOf o q with
    | some s, some t => decide (t ≤ s)
    | _, _ => false
  | .refs p ts => (textsOf o p).any fun s => ts.all fun t => !decide (t ++ b!"--" <+: s)
  | .notRefs p ts => (textsOf o p).any fun s => ts.any fun t => decide (t ++ b!"--" <+: s)
  | .ident p => (textsOf o p).any fun s => !decide (b!"--" <:+: s)
  | .chars p => (textsOf o p).any fun s => s.any fun c =>
      !decide ((97 ≤ c ∧ c ≤ 122) ∨ (48 ≤ c ∧ c ≤ 57) ∨ c = 45)
  | .onlyWith p q n => decide (HasProp o p) && match prop o q with
    | some (.slice (some l)) => l.all fun v => match v with
      | .enum m => m != n
      | _ => true
    | _ => true
  | _ => false

theorem breaks_sound {o : Obj} {r : Rule} (h : breaks o r = true) : ¬ r.Holds o := by
  cases r <;> simp only [breaks, Bool.false_eq_true] at h <;> simp only [Rule.Holds]
  case anyOf ps => simpa using h
  case ifNot p b q =>
    split at h
    · next e =>
      simp only [Bool.and_eq_true, beq_iff_eq, decide_eq_true_eq] at h
      rw [e]
      exact fun hh => hh h.1 h.2
    · cases h
  case between p lo hi =>
    split at h
    · next e =>
      rw [e]
      rintro ⟨h1, h2⟩
      simp only [Bool.or_eq_true, decide_eq_true_eq, Option.any_eq_true] at h
      rcases h with h | ⟨x, hx, h⟩
      · omega
      · have := h2 x hx; omega
    · cases h
  case notBefore p q =>
    split at h
    · next e1 e2 =>
      intro hh
      have := hh _ e1 _ e2
      simp only [decide_eq_true_eq] at h
      omega
    · cases h
  case after p q =>
    split at h
    · next e1 e2 =>
      intro hh
      have := hh _ e1 _ e2
      simp only [decide_eq_true_eq] at h
      omega
    · cases h
  case refs p ts => simpa using h
  case notRefs p ts => simpa using h
  case ident p => simpa using h
  case chars p =>
    simp only [List.any_eq_true, Bool.not_eq_true', decide_eq_false_iff_not] at h
    obtain ⟨s, hs, c, hc, h⟩ := h
    exact fun hh => h (hh s hs c hc)
  case onlyWith p q n =>
    simp only [Bool.and_eq_true, decide_eq_true_eq] at h
    intro hh
    have := hh h.1
    have h2 := h.2
    split at h2
    · next e0 =>
      rw [e0] at this
      simp only [List.all_eq_true] at h2
      obtain ⟨v, hv, e⟩ := this
      have := h2 v hv
      split at e
      · simp [e] at this
      · exact e
    · next hne =>
      split at this
      · next l e => exact hne l e
      · exact this

/-- The options of the calls below. -/
def limitOptions : List OptRow :=
  [OptionConfidence, OptionModified, OptionStartTime, OptionStopTime, OptionFirstSeen, OptionLastSeen,
   OptionObservedData, OptionWhereSighted, OptionSize, OptionName, OptionSrcPort, OptionDstPort, OptionSrc,
   OptionBody, OptionBodyMultipart, OptionExtensionProperties, OptionResolvesTo, OptionOperatingSystems,
   OptionHostVM, OptionOperatingSystem, OptionInstalledSoftware, OptionDefanged]

theorem limitOptions_library : ∀ row ∈ limitOptions, row ∈ optTable := by
  simp [limitOptions, optTable]

/-- A value of a simple type. -/
def plain : Ty → GV → Bool
  | .str _, .str _ => true
  | .bool, .bool _ => true
  | .int _, .int _ => true
  | .flt, .flt f => decide (F64Finite f)
  | .enum _, .enum _ => true
  | .bin, .bin _ => true
  | .time, .time _ => true
  | .slice _, .slice none => true
  | .slice t, .slice (some l) => l.all fun v => plain t v
  | .map _ _ _, .map none => true
  | .map _ _ _, .map (some []) => true
  | .ptr _, .ptr none => true
  | .ptr t, .ptr (some v) => plain t v
  | .dyn, .dyn (.str _) => true
  | _, _ => false

theorem plain_sound : ∀ (t : Ty) (v : GV), plain t v = true → Val typed t v
  | .str _, v, h => by cases v <;> simp [plain] at h; exact ⟨_, rfl, trivial⟩
  | .bool, v, h => by cases v <;> simp [plain] at h; exact ⟨_, rfl⟩
  | .int _, v, h => by cases v <;> simp [plain] at h; exact ⟨_, rfl, trivial⟩
  | .flt, v, h => by cases v <;> simp [plain] at h; exact ⟨_, rfl, h⟩
  | .enum _, v, h => by cases v <;> simp [plain] at h; exact ⟨_, rfl, trivial⟩
  | .bin, v, h => by cases v <;> simp [plain] at h; exact ⟨_, rfl⟩
  | .time, v, h => by cases v <;> simp [plain] at h; exact ⟨_, rfl, trivial⟩
  | .slice t, v, h => by
    cases v <;> try (simp [plain] at h; done)
    rename_i l
    cases l with
    | none => exact .inl rfl
    | some l =>
      simp [plain] at h
      exact .inr ⟨l, rfl, fun x hx => plain_sound t x (h x hx)⟩
  | .map _ _ _, v, h => by
    cases v <;> try (simp [plain] at h; done)
    rename_i m
    rcases m with _ | _ | _
    · exact .inl rfl
    · exact .inr ⟨[], rfl, sortedKeys_nil, by simp⟩
    · simp [plain] at h
  | .ptr t, v, h => by
    cases v <;> try (simp [plain] at h; done)
    rename_i p
    cases p with
    | none => exact .inl rfl
    | some x =>
      simp [plain] at h
      exact .inr ⟨x, rfl, plain_sound t x h⟩
  | .dyn, v, h => by
    cases v <;> try (simp [plain] at h; done)
    rename_i d
    cases d <;> try (simp [plain] at h; done)
    exact ⟨_, rfl, trivial⟩
  | .struct _ _, v, h => by simp [plain] at h
  | .ext _, v, h => by simp [plain] at h
  | .raw, v, h => by simp [plain] at h

/-- An identifier of a type. -/
def anId (t : Str) : Str := t ++ b!"--00000000-0000-4000-8000-000000000000"

/-- A time. -/
def aTime (n : Int) : GV := .ptr (some (.time ⟨n, 0⟩))

/-- Calls that break rules: the constructor, the options, the rule. -/
def breakingCalls : List (Ctor × List (OptRow × GV) × Rule) :=
  [(.domainName (b!"a.b"), [(OptionResolvesTo, .slice (some [.str (anId (b!"malware"))]))],
      .refs (b!"resolves_to_refs") [b!"ipv4-addr", b!"ipv6-addr", b!"domain-name"]),
   (.emailMessage true, [(OptionBody, .str (b!"x"))], .ifNot (b!"is_multipart") true (b!"body")),
   (.emailMessage false, [(OptionBodyMultipart, .slice (some []))],
      .ifNot (b!"is_multipart") false (b!"body_multipart")),
   (.extensionDefinition (b!"n") (b!"s") (b!"1") (some [1]),
      [(OptionExtensionProperties, .slice (some [.str (b!"x")]))],
      .onlyWith (b!"extension_properties") (b!"extension_types") 5),
   (.file (b!"a.txt") none, [(OptionName, .str [])], .anyOf [b!"name", b!"hashes"]),
   (.file (b!"a.txt") none, [(OptionSize, .int (-1))], .between (b!"size") 0 none),
   (.languageContent (b!"x") (some []), [], .ident (b!"object_ref")),
   (.malware false, [(OptionOperatingSystems, .slice (some [.str (anId (b!"tool"))]))],
      .refs (b!"operating_system_refs") [b!"software"]),
   (.malwareAnalysis (b!"p") (b!"benign") none, [(OptionHostVM, .str (anId (b!"tool")))],
      .refs (b!"host_vm_ref") [b!"software"]),
   (.malwareAnalysis (b!"p") (b!"benign") none, [(OptionOperatingSystem, .str (anId (b!"tool")))],
      .refs (b!"operating_system_ref") [b!"software"]),
   (.malwareAnalysis (b!"p") (b!"benign") none,
      [(OptionInstalledSoftware, .slice (some [.str (anId (b!"tool"))]))],
      .refs (b!"installed_software_refs") [b!"software"]),
   (.networkTraffic (some [b!"tcp"]), [(OptionSrc, .str (anId (b!"ipv4-addr"))), (OptionSrcPort, .int 65536)],
      .between (b!"src_port") 0 (some 65535)),
   (.networkTraffic (some [b!"tcp"]), [(OptionSrc, .str (anId (b!"ipv4-addr"))), (OptionDstPort, .int (-1))],
      .between (b!"dst_port") 0 (some 65535)),
   (.observedData (some ⟨0, 0⟩) (some ⟨0, 0⟩) 1000000000 (some [anId (b!"file")]), [],
      .between (b!"number_observed") 1 (some 999999999)),
   (.registryKey, [(OptionDefanged, .bool true)], .anyOf (ownProperties .RegistryKey)),
   (.relationship (b!"Is Related To") (anId (b!"tool")) (anId (b!"tool")), [], .chars (b!"relationship_type")),
   (.relationship (b!"uses") (anId (b!"sighting")) (anId (b!"tool")), [],
      .notRefs (b!"source_ref") notRelatable),
   (.relationship (b!"uses") (anId (b!"tool")) (anId (b!"sighting")), [],
      .notRefs (b!"target_ref") notRelatable),
   (.relationship (b!"uses") (anId (b!"tool")) (anId (b!"tool")),
      [(OptionStartTime, aTime 1), (OptionStopTime, aTime 0)], .after (b!"start_time") (b!"stop_time")),
   (.sighting (anId (b!"tool")), [(OptionFirstSeen, aTime 1), (OptionLastSeen, aTime 1)],
      .after (b!"first_seen") (b!"last_seen")),
   (.sighting (anId (b!"relationship")), [], .notRefs (b!"sighting_of_ref") notRelatable),
   (.sighting (anId (b!"tool")), [(OptionObservedData, .slice (some [.str (anId (b!"tool"))]))],
      .refs (b!"observed_data_refs") [b!"observed-data"]),
   (.sighting (anId (b!"tool")), [(OptionWhereSighted, .slice (some [.str (anId (b!"tool"))]))],
      .refs (b!"where_sighted_refs") [b!"identity", b!"location"])]

/-- A call for each kind with the common properties. -/
def sampleCall : SId → Ctor
  | .AttackPattern => .attackPattern (b!"n")
  | .Campaign => .campaign (b!"n")
  | .CourseOfAction => .courseOfAction (b!"n")
  | .Grouping => .grouping (b!"c") (some [anId (b!"tool")])
  | .Identity => .identity (b!"n")
  | .Incident => .incident (b!"n")
  | .Indicator => .indicator (b!"p") (b!"stix") (some ⟨0, 0⟩)
  | .Infrastructure => .infrastructure (b!"n")
  | .IntrusionSet => .intrusionSet (b!"n")
  | .Location => .location (b!"r") [] 0 0
  | .Malware => .malware false
  | .MalwareAnalysis => .malwareAnalysis (b!"p") (b!"benign") none
  | .Note => .note (b!"c") (some [anId (b!"tool")])
  | .ObservedData => .observedData (some ⟨0, 0⟩) (some ⟨0, 0⟩) 1 (some [anId (b!"file")])
  | .Opinion => .opinion 1 (some [anId (b!"tool")])
  | .Report => .report (b!"n") (some ⟨0, 0⟩) (some [anId (b!"tool")])
  | .ThreatActor => .threatActor (b!"n")
  | .Vulnerability => .vulnerability (b!"n")
  | .Relationship => .relationship (b!"uses") (anId (b!"tool")) (anId (b!"tool"))
  | .Sighting => .sighting (anId (b!"tool"))
  | .LanguageContent => .languageContent (anId (b!"tool")) (some [])
  | .MarkingDefinition => .markingDefinition (b!"statement") (.str (b!"x"))
  | .ExtensionDefinition => .extensionDefinition (b!"n") (b!"s") (b!"1") (some [1])
  | _ => .tool (b!"n")

/-- The options of a call. -/
def callOptions (l : List (OptRow × GV)) : List (Option Opt) := l.map fun e => some (.field e.1 e.2)

/-- The call is legal and breaks the rule. -/
def callBreaks (s : SId) (c : Ctor) (l : List (OptRow × GV)) (r : Rule) : Bool :=
  ((promise c).args.all fun e => (objFields (promise c).kind).all fun f => f.key != e.1 || plain f.ty e.2) &&
  (l.all fun e => plain e.1.ty e.2) &&
  match c.run exEnv (callOptions l) with
  | .ret (some o) none => decide (o.sid = s) && breaks o r
  | _ => false

/-- A legal call that makes an object of the kind which breaks the rule. -/
def Broken (s : SId) (r : Rule) : Prop :=
  ∃ (c : Ctor) (opts : List (Option Opt)) (o : Obj), AllLibrary opts ∧ ValArgs typed c ∧
    ValOpts typed opts ∧ c.run exEnv opts = .ret (some o) none ∧ o.sid = s ∧ ¬ r.Holds o

theorem broken_of_call {s : SId} {c : Ctor} {l : List (OptRow × GV)} {r : Rule}
    (hl : ∀ e ∈ l, e.1 ∈ limitOptions) (h : callBreaks s c l r = true) : Broken s r := by
  simp only [callBreaks, Bool.and_eq_true, List.all_eq_true, Bool.or_eq_true, bne_iff_ne, ne_eq] at h
  obtain ⟨⟨h1, h2⟩, h3⟩ := h
  split at h3
  · next o ho =>
    simp only [Bool.and_eq_true, decide_eq_true_eq] at h3
    refine ⟨c, callOptions l, o, ?_, ?_, ?_, ho, h3.1, breaks_sound h3.2⟩
    · intro opt hm
      simp only [callOptions, List.mem_map, Option.some.injEq] at hm
      obtain ⟨e, he, rfl⟩ := hm
      exact limitOptions_library _ (hl e he)
    · intro e he f hf hk
      rcases h1 e he f hf with hn | hp
      · exact absurd hk hn
      · exact plain_sound _ _ hp
    · intro opt hm
      simp only [callOptions, List.mem_map, Option.some.injEq] at hm
      obtain ⟨e, he, rfl⟩ := hm
      exact plain_sound _ _ (h2 e he)
  · cases h3

theorem breakingCalls_library : ∀ w ∈ breakingCalls, ∀ e ∈ w.2.1, e.1 ∈ limitOptions := by
  simp [breakingCalls, limitOptions]
  refine ⟨?_, ?_, ?_, ?_⟩ <;> rintro a b (⟨rfl, -⟩ | ⟨rfl, -⟩) <;> simp

theorem unenforced_own : ∀ s ∈ allSIds, ∀ r ∈ unenforcedOwn s,
    ∃ w ∈ breakingCalls, w.2.2 = r ∧ callBreaks s w.1 w.2.1 r = true := by decide +kernel

theorem unenforced_common : ∀ s ∈ allSIds,
    (b!"confidence" ∈ properties s → callBreaks s (sampleCall s) [(OptionConfidence, .int 101)]
      (.between (b!"confidence") 0 (some 100)) = true) ∧
    (b!"modified" ∈ properties s → callBreaks s (sampleCall s) [(OptionModified, aTime 0)]
      (.notBefore (b!"created") (b!"modified")) = true) := by decide +kernel

/-- **C67 is false**: for each of the other documented rules there is a legal call that succeeds and
breaks it.  Among them: a confidence of 101, a port of 65536, a file of negative size, a plain body in a
multipart message, a relationship between sightings, one that stops before it starts. -/
theorem c67_false (s : SId) : ∀ r ∈ unenforced s, Broken s r := by
  intro r hr
  simp only [unenforced, unenforcedCommon, List.mem_append] at hr
  rcases hr with hr | hr | hr
  · obtain ⟨w, hw, -, h⟩ := unenforced_own s (mem_allSIds s) r hr
    exact broken_of_call (breakingCalls_library w hw) h
  · split at hr
    · next hp =>
      obtain rfl := List.mem_singleton.1 hr
      exact broken_of_call (by simp [limitOptions]) ((unenforced_common s (mem_allSIds s)).1 hp)
    · cases hr
  · split at hr
    · next hp =>
      obtain rfl := List.mem_singleton.1 hr
      exact broken_of_call (by simp [limitOptions]) ((unenforced_common s (mem_allSIds s)).2 hp)
    · cases hr

/-- C67: calls that meet the hypotheses of the partial theorems. -/
example : AllLibrary [some (.field OptionSrc (.str (anId (b!"ipv4-addr"))))] ∧
    ValArgs typed (.networkTraffic (some [b!"tcp"])) ∧
    ValOpts typed [some (.field OptionSrc (.str (anId (b!"ipv4-addr"))))] ∧
    (∃ o, (Ctor.networkTraffic (some [b!"tcp"])).run exEnv
      [some (.field OptionSrc (.str (anId (b!"ipv4-addr"))))] = .ret (some o) none ∧
      enforced o.sid = [.anyOf [b!"protocols"], .anyOf [b!"src_ref", b!"dst_ref"]]) ∧
    (∃ o, (Ctor.file (b!"a") none).run exEnv [some (.field OptionSize (.int 3))] = .ret (some o) none) ∧
    AllLibrary [some (.field OptionSize (.int 3))] ∧
    Untouched .File [some (.field OptionSize (.int 3))] (b!"name") ∧
    Untouched .File [some (.field OptionSize (.int 3))] (b!"hashes") := by
  refine ⟨?_, ?_, ?_, ⟨_, rfl, rfl⟩, ⟨_, rfl⟩, ?_, ?_, ?_⟩
  · intro opt ho
    simp only [List.mem_cons, Option.some.injEq, List.not_mem_nil, or_false] at ho
    subst ho
    simp [Library, optTable]
  · have h : ∀ e ∈ (promise (.networkTraffic (some [b!"tcp"]))).args,
        ∀ f ∈ objFields (promise (.networkTraffic (some [b!"tcp"]))).kind,
          f.key = e.1 → plain f.ty e.2 = true := by decide +kernel
    exact fun e he f hf hk => plain_sound _ _ (h e he f hf hk)
  · intro opt ho
    simp only [List.mem_cons, Option.some.injEq, List.not_mem_nil, or_false] at ho
    subst ho
    exact plain_sound _ _ rfl
  · intro opt ho
    simp only [List.mem_cons, Option.some.injEq, List.not_mem_nil, or_false] at ho
    subst ho
    simp [Library, optTable]
  all_goals
    intro opt ho
    simp only [List.mem_cons, Option.some.injEq, List.not_mem_nil, or_false] at ho
    subst ho
    decide +kernel

end Stix
