import Verif.Props.ObsDistinct
import Verif.Props.Built
import Verif.Props.Accessor
import Verif.Props.Stable

/-!
# What the hashed text is made of, and that it arrives (for C87)
-/

namespace Stix
open Spec

section parts
variable {F : Canon.FloatFmt} {o o' : Obj} {n : Str}

theorem getStr_of_contribution (h : textContribution (some (o.val n)) = textContribution (some (o'.val n))) :
    o.getStr n = o'.getStr n := by
  have key : ∀ o : Obj, o.getStr n = match textContribution (some (o.val n)) with
      | .text s => s
      | _ => [] := by
    intro o
    unfold textContribution Obj.getStr
    cases o.val n with
    | str s => by_cases hs : s = [] <;> simp [hs]
    | _ => rfl
  rw [key, key o', h]

theorem strPart_of_contribution (h : textContribution (some (o.val n)) = textContribution (some (o'.val n))) :
    strPart o n = strPart o' n := by
  unfold strPart
  rw [getStr_of_contribution h]

theorem getInt_of_contribution (h : numContribution (o.val n) = numContribution (o'.val n)) :
    o.getInt n = o'.getInt n := by
  rw [numContribution_eq, numContribution_eq] at h
  split at h <;> split at h <;> simp_all

theorem getStrs_of_contribution (h : textsContribution (o.val n) = textsContribution (o'.val n)) :
    o.getStrs n = o'.getStrs n := by
  rw [getStrs_eq, getStrs_eq] at h
  split at h <;> split at h <;> simp_all

theorem timestampString_millis {t u : GoTime} (ht0 : 0 ≤ t.ns) (ht : t.ns < endOfTime) (hu0 : 0 ≤ u.ns)
    (hu : u.ns < endOfTime) (h : t.ns / 1000000 = u.ns / 1000000) : timestampString t = timestampString u := by
  rcases le_total t.ns u.ns with hl | hl
  · rcases c24_order_preserved t u ht0 hu hl with h1 | h1
    · exact h1
    · have := (c24_order_reflected t u ht0 ht hu0 hu).1 h1
      omega
  · rcases c24_order_preserved u t hu0 ht hl with h1 | h1
    · exact h1.symm
    · have := (c24_order_reflected u t hu0 hu ht0 ht).1 h1
      omega

theorem timePart_of_contribution (h : timeContribution (o.val n) = timeContribution (o'.val n))
    (hc : (timeContribution (o.val n)).Clean) : timePart o n = timePart o' n := by
  have hc' := hc
  rw [h] at hc'
  rw [timeContribution_eq] at h hc
  rw [timeContribution_eq] at h hc'
  unfold timePart
  cases h1 : o.getTime n <;> cases h2 : o'.getTime n <;> rw [h1, h2] at h <;> rw [h1] at hc <;>
    rw [h2] at hc' <;> simp only [Contribution.millis.injEq, reduceCtorEq] at h ⊢
  have r := millis_range hc
  have r' := millis_range hc'
  rw [timestampString_millis r.1 r.2 r'.1 r'.2 h]

theorem extPart_of_contribution
    (h : extContribution F (some (o.val (b!"Extensions"))) = extContribution F (some (o'.val (b!"Extensions")))) :
    extPart F o = extPart F o' := by
  rw [extPart_eq, extPart_eq, h]

theorem hashPart_of_contribution (hf : hasField o.sid (b!"Hashes") (b!"hashes") = true)
    (hf' : hasField o'.sid (b!"Hashes") (b!"hashes") = true)
    (h : hashContribution (prop o (b!"hashes")) = hashContribution (prop o' (b!"hashes")))
    (hg : entries (prop o (b!"hashes")) ≠ [] ↔ entries (prop o' (b!"hashes")) ≠ []) :
    hashPart o = hashPart o' := by
  rw [hashPart_tok o hf, hashPart_tok o' hf']
  have hp : preferredHash (hashOf (prop o (b!"hashes"))) = preferredHash (hashOf (prop o' (b!"hashes"))) := by
    unfold hashContribution at h
    split at h <;> split at h <;> simp_all
  rw [hp]
  by_cases he : entries (prop o (b!"hashes")) = []
  · have he' : entries (prop o' (b!"hashes")) = [] := by
      by_contra hc
      exact hg.2 hc he
    rw [if_pos he, if_pos he']
  · rw [if_neg he, if_neg (hg.1 he)]

theorem payload_of_contribution
    (h : bytesContribution (o.val (b!"Payload")) = bytesContribution (o'.val (b!"Payload"))) :
    payloadPart o = payloadPart o' := by
  rcases payload_forms o with ⟨k1, k2⟩ | ⟨s, k1, k2⟩ <;> rcases payload_forms o' with ⟨k1', k2'⟩ | ⟨s', k1', k2'⟩ <;>
    rw [k1, k1'] at h <;> rw [k2, k2'] <;> simp only [reduceCtorEq, Contribution.bytes.injEq] at h
  rw [h]

theorem registry_of_contribution {t t' : Str} (ht : registryContrib o = .ok t) (ht' : registryContrib o' = .ok t')
    (hk : textContribution (some (o.val (b!"Key"))) = textContribution (some (o'.val (b!"Key"))))
    (hv : valuesContribution (o.val (b!"Values")) = valuesContribution (o'.val (b!"Values"))) : t = t' := by
  obtain ⟨l, -, e1, rfl⟩ := registry_forms ht
  obtain ⟨l', -, e1', rfl⟩ := registry_forms ht'
  have : l = l' := by
    rw [e1, e1'] at hv
    split at hv <;> split at hv <;> simp_all
  rw [this, strPart_of_contribution hk]

end parts

/-- The hashed text depends on what the contributing properties contribute, and on nothing else. -/
theorem text_determined (F : Canon.FloatFmt) (o o' : Obj) (s : SId) (hs : o.sid = s) (hs' : o'.sid = s)
    (ps : List Str) (hps : contributing s = some ps) (t t' : Str)
    (ht : kindText F o s = .ok t) (ht' : kindText F o' s = .ok t')
    (h : ∀ p ∈ ps, contribution F p (prop o p) = contribution F p (prop o' p))
    (hg : ∀ p ∈ ps, Given F p (prop o p) ↔ Given F p (prop o' p))
    (hc : ∀ p ∈ ps, p ∈ [b!"start", b!"end"] → (contribution F p (prop o p)).Clean) : t = t' := by
  have hall := kindFields_contributing s (mem_allSIds _) ps hps
  have htext : ∀ p ∈ textProps, ∀ v, contribution F p v = textContribution v :=
    fun p hp v => (contribution_text F p hp v).1
  have P : ∀ {n p}, hasField s n p = true → prop o p = some (o.val n) := fun h => prop_of (by rw [hs]; exact h)
  have P' : ∀ {n p}, hasField s n p = true → prop o' p = some (o'.val n) := fun h => prop_of (by rw [hs']; exact h)
  have T : ∀ {n p}, hasField s n p = true → p ∈ textProps → p ∈ ps →
      textContribution (some (o.val n)) = textContribution (some (o'.val n)) := by
    intro n p hf hp hm
    have := h p hm
    rwa [P hf, P' hf, htext p hp, htext p hp] at this
  have N : ∀ {n p}, hasField s n p = true → p ∈ [b!"number", b!"src_port", b!"dst_port"] → p ∈ ps →
      numContribution (o.val n) = numContribution (o'.val n) := by
    intro n p hf hp hm
    have := h p hm
    rwa [P hf, P' hf, (contribution_num F p hp _).1, (contribution_num F p hp _).1] at this
  have S : ∀ {n p}, hasField s n p = true → p ∈ [b!"start", b!"end"] → p ∈ ps →
      timePart o n = timePart o' n := by
    intro n p hf hp hm
    have := h p hm
    have hcl := hc p hm hp
    rw [P hf, (contribution_time F p hp _).1] at this hcl
    rw [P' hf, (contribution_time F p hp _).1] at this
    exact timePart_of_contribution this hcl
  have E : hasField s (b!"Extensions") (b!"extensions") = true → (b!"extensions") ∈ ps → extPart F o = extPart F o' := by
    intro hf hm
    have := h _ hm
    rw [P hf, P' hf, (contribution_ext F _).1, (contribution_ext F _).1] at this
    exact extPart_of_contribution this
  have H : hasField s (b!"Hashes") (b!"hashes") = true → (b!"hashes") ∈ ps → hashPart o = hashPart o' := by
    intro hf hm
    have h1 := h _ hm
    have h2 := hg _ hm
    rw [(contribution_hashes F _).1, (contribution_hashes F _).1] at h1
    rw [(contribution_hashes F _).2, (contribution_hashes F _).2] at h2
    exact hashPart_of_contribution (by rw [hs]; exact hf) (by rw [hs']; exact hf) h1 h2
  cases s <;> first | (cases hps; done) | (cases hps)
  all_goals
    simp only [kindFields, List.forall₂_cons, List.Forall₂.nil, and_true] at hall
    simp only [kindText, Res.ok.injEq] at ht ht'
  case AutonomousSystem =>
    rw [← ht, ← ht', getInt_of_contribution (N hall.1 (by decide) (by simp))]
  case Directory => rw [← ht, ← ht', getStr_of_contribution (T hall.1 (by decide) (by simp))]
  case DomainName => rw [← ht, ← ht', getStr_of_contribution (T hall.1 (by decide) (by simp))]
  case EmailAddress => rw [← ht, ← ht', getStr_of_contribution (T hall.1 (by decide) (by simp))]
  case IPv4Address => rw [← ht, ← ht', getStr_of_contribution (T hall.1 (by decide) (by simp))]
  case IPv6Address => rw [← ht, ← ht', getStr_of_contribution (T hall.1 (by decide) (by simp))]
  case MACAddress => rw [← ht, ← ht', getStr_of_contribution (T hall.1 (by decide) (by simp))]
  case Mutex => rw [← ht, ← ht', getStr_of_contribution (T hall.1 (by decide) (by simp))]
  case URL => rw [← ht, ← ht', getStr_of_contribution (T hall.1 (by decide) (by simp))]
  case Artifact =>
    obtain ⟨⟨f1, -⟩, f2, -⟩ := hall
    have h2 := h (b!"payload_bin") (by simp)
    rw [P f2, P' f2, contribution_bytes, contribution_bytes] at h2
    have e : ∀ o : Obj, artifactContrib o = bracket (hashPart o ++ payloadPart o) := fun _ => rfl
    rw [← ht, ← ht', e, e, H f1 (by simp), payload_of_contribution h2]
  case X509Certificate =>
    obtain ⟨⟨f1, -⟩, f2, -⟩ := hall
    rw [← ht, ← ht', x509Contrib, x509Contrib, H f1 (by simp),
      strPart_of_contribution (T f2 (by decide) (by simp))]
  case RegistryKey =>
    obtain ⟨⟨f1, -⟩, f2, -⟩ := hall
    have h2 := h (b!"values") (by simp)
    rw [P f2, P' f2, contribution_values, contribution_values] at h2
    exact registry_of_contribution ht ht' (T f1 (by decide) (by simp)) h2
  case EmailMessage =>
    obtain ⟨⟨f1, -⟩, ⟨f2, -⟩, f3, -⟩ := hall
    rw [← ht, ← ht', emailMessageContrib, emailMessageContrib,
      strPart_of_contribution (T f1 (by decide) (by simp)), strPart_of_contribution (T f2 (by decide) (by simp)),
      strPart_of_contribution (T f3 (by decide) (by simp))]
  case UserAccount =>
    obtain ⟨⟨f1, -⟩, ⟨f2, -⟩, f3, -⟩ := hall
    rw [← ht, ← ht', userContrib, userContrib,
      strPart_of_contribution (T f1 (by decide) (by simp)), strPart_of_contribution (T f2 (by decide) (by simp)),
      strPart_of_contribution (T f3 (by decide) (by simp))]
  case Software =>
    obtain ⟨⟨f1, -⟩, ⟨f2, -⟩, ⟨f3, -⟩, f4, -⟩ := hall
    rw [← ht, ← ht', softwareContrib, softwareContrib,
      getStr_of_contribution (T f1 (by decide) (by simp)), strPart_of_contribution (T f2 (by decide) (by simp)),
      strPart_of_contribution (T f3 (by decide) (by simp)), strPart_of_contribution (T f4 (by decide) (by simp))]
  case File =>
    obtain ⟨⟨f1, -⟩, ⟨f2, -⟩, ⟨f3, -⟩, f4, -⟩ := hall
    rw [← ht, ← ht', fileContrib, fileContrib, H f1 (by simp), E f3 (by simp),
      strPart_of_contribution (T f2 (by decide) (by simp)), strPart_of_contribution (T f4 (by decide) (by simp))]
  case NetworkTraffic =>
    obtain ⟨⟨f1, -⟩, ⟨f2, -⟩, ⟨f3, -⟩, ⟨f4, -⟩, ⟨f5, -⟩, ⟨f6, -⟩, ⟨f7, -⟩, f8, -⟩ := hall
    have h7 := h (b!"protocols") (by simp)
    rw [P f7, P' f7, (contribution_texts F _).1, (contribution_texts F _).1] at h7
    have i5 : intPart o (b!"SrcPort") = intPart o' (b!"SrcPort") := by
      unfold intPart; rw [getInt_of_contribution (N f5 (by decide) (by simp))]
    have i6 : intPart o (b!"DstPort") = intPart o' (b!"DstPort") := by
      unfold intPart; rw [getInt_of_contribution (N f6 (by decide) (by simp))]
    rw [← ht, ← ht', networkContrib, networkContrib, S f1 (by decide) (by simp), S f2 (by decide) (by simp),
      strPart_of_contribution (T f3 (by decide) (by simp)), strPart_of_contribution (T f4 (by decide) (by simp)),
      i5, i6, getStrs_of_contribution h7, E f8 (by simp)]

/-! ### What is sent contributes the same when it is received -/

/-- Values of these types do not change on the way. -/
def Ty.calm : Ty → Bool
  | .str _ => true
  | .int _ => true
  | .bin => true
  | .slice (.str _) => true
  | .map _ _ (.str _) => true
  | _ => false

theorem settled_calm {t : Ty} (h : t.calm = true) (v : GV) : settled t v = v := by
  cases t with
  | str => simp only [settled]
  | int => simp only [settled]
  | bin => simp only [settled]
  | slice t =>
    cases t <;> simp only [Ty.calm, Bool.false_eq_true] at h
    simp only [settled]
    cases v with
    | slice l => cases l with
      | none => rfl
      | some l => simp
    | _ => rfl
  | map a b t =>
    cases t <;> simp only [Ty.calm, Bool.false_eq_true] at h
    simp only [settled]
    cases v with
    | map l => cases l with
      | none => rfl
      | some l => simp
    | _ => rfl
  | _ => simp [Ty.calm] at h

theorem unset_zeroGiven {t : Ty} {v : GV} (ht : ∀ n fs, t ≠ .struct n fs) (h : Unset t v) : v = zero t := by
  cases t with
  | bool => exact h.elim
  | struct n fs => exact absurd rfl (ht n fs)
  | _ => exact h

theorem survives_val {o o' : Obj} (hs : Survives o o') (hx : o.sid ≠ .ExtensionDefinition) {r : FieldInfo}
    (hr : r ∈ objFields o.sid) (ht : ∀ n fs, r.ty ≠ .struct n fs) :
    o'.val r.name = settled r.ty (o.val r.name) ∧ o.val r.name ≠ zero r.ty ∨ o'.val r.name = o.val r.name := by
  have e : Emitted o r ↔ ¬ Unset r.ty (o.val r.name) := by simp only [Emitted, hx, if_false]
  by_cases h : Emitted o r
  · by_cases hz : o.val r.name = zero r.ty
    · right
      have hu : r.ty = .bool := by
        by_contra hb
        refine e.1 h ?_
        cases hty : r.ty <;> simp only [hty, ne_eq, not_true_eq_false, Ty.struct.injEq, not_and] at ht hb hz ⊢ <;>
          first | exact hz | skip
        exact absurd rfl (ht _ _ rfl)
      rw [hs.emitted r hr h, hu]
      simp only [settled]
    · exact .inl ⟨hs.emitted r hr h, hz⟩
  · right
    have hu : Unset r.ty (o.val r.name) := by
      by_contra hc
      exact h (e.2 hc)
    rw [hs.hidden r hr h, unset_zeroGiven ht hu]

theorem textOf_kept (x : Str) (v : GV) :
    textOf (if Blank v = true then zero (.str x) else settled (.str x) v) = textOf v := by
  split
  · next h =>
    cases v with
    | str s => simp only [Blank, List.isEmpty_iff] at h; subst h; rfl
    | _ => rfl
  · simp only [settled]

theorem dataType_kept (e : EnumId) (f g : Str → GV)
    (h : g (b!"DataType") = if Blank (f (b!"DataType")) = true then zero (.enum e) else f (b!"DataType")) :
    (registryValue (.ptr (some (.struct g)))).2.1 = (registryValue (.ptr (some (.struct f)))).2.1 := by
  simp only [registryValue]
  split at h
  · next hb =>
    rw [h]
    cases hv : f (b!"DataType") with
    | enum n => rw [hv] at hb; simp only [Blank, decide_eq_true_eq] at hb; subst hb; rfl
    | _ => rfl
  · rw [h]

theorem registryValue_settled (v : GV) :
    registryValue (settled (.ptr (.struct (b!"RegistryValue") fieldsRegistryValue)) v) = registryValue v := by
  cases v with
  | ptr p => cases p with
    | none => simp only [settled]
    | some x => cases x with
      | struct f =>
        simp only [settled]
        refine Prod.ext_iff.2 ⟨?_, Prod.ext_iff.2 ⟨?_, ?_⟩⟩
        · show textOf (settledFields fieldsRegistryValue f (b!"Data")) = textOf (f (b!"Data"))
          simpa [fieldsRegistryValue, mkFields, settledFields, settled] using textOf_kept (b!"string") (f (b!"Data"))
        · exact dataType_kept .RegistryDataType f (settledFields fieldsRegistryValue f)
            (by simp [fieldsRegistryValue, mkFields, settledFields, settled])
        · show textOf (settledFields fieldsRegistryValue f (b!"Name")) = textOf (f (b!"Name"))
          simpa [fieldsRegistryValue, mkFields, settledFields, settled] using textOf_kept (b!"string") (f (b!"Name"))
      | _ => simp only [settled]
  | _ => simp only [settled]

theorem entries_settled_ext (ks : Known) (v : GV) (h : v ≠ .map none) :
    entries (some (settled (.ext ks) v)) = [] ↔ entries (some v) = [] := by
  cases v with
  | map m => cases m with
    | none => exact absurd rfl h
    | some m => simp [settled, entries]
  | _ => simp [settled]

/-- The rows of the contributing properties. -/
theorem contributing_rows (s : SId) (ps : List Str) (hps : contributing s = some ps) (p : Str) (hp : p ∈ ps) :
    ∃ r ∈ objFields s, r.key = p ∧ (r.ty.calm = true ∨ (p ∈ [b!"start", b!"end"] ∧ r.ty = .ptr .time) ∨
      (p = b!"extensions" ∧ r.ty = .ext knownExts) ∨
      (p = b!"values" ∧ r.ty = .slice (.ptr (.struct (b!"RegistryValue") fieldsRegistryValue)))) := by
  by_cases he : p = b!"extensions"
  · have hs : s = .File ∨ s = .NetworkTraffic := by
      cases s <;> simp only [contributing, Option.some.injEq, reduceCtorEq] at hps <;>
        first | (exact .inl rfl) | (exact .inr rfl) | (subst hps; subst he; exact absurd hp (by decide))
    obtain ⟨r, hr, -, hk, ht⟩ : ∃ r ∈ objFields s, r.name = b!"Extensions" ∧ r.key = b!"extensions" ∧
        r.ty = .ext knownExts := by
      have hr : (⟨b!"Extensions", b!"extensions", true, .ext knownExts⟩ : FieldInfo) ∈
          fieldsSTIXCyberObservableObject.toList := by
        rw [fieldsSTIXCyberObservableObject, mkFields_toList]
        simp
      rcases hs with rfl | rfl <;> exact ⟨_, List.mem_append_left _ hr, rfl, rfl, rfl⟩
    exact ⟨r, hr, hk.trans he.symm, .inr (.inr (.inl ⟨he, ht⟩))⟩
  by_cases hv : p = b!"values"
  · have hs : s = .RegistryKey := by
      cases s <;> simp only [contributing, Option.some.injEq, reduceCtorEq] at hps <;>
        first | rfl | (subst hps; subst hv; exact absurd hp (by decide))
    subst hs
    have hr : (⟨b!"Values", b!"values", true, .slice (.ptr (.struct (b!"RegistryValue") fieldsRegistryValue))⟩ :
        FieldInfo) ∈ fieldsRegistryKey.toList := by
      rw [fieldsRegistryKey, mkFields_toList]
      simp
    exact ⟨_, List.mem_append_right _ hr, hv.symm, .inr (.inr (.inr ⟨hv, rfl⟩))⟩
  have h : ∀ s ∈ allSIds, ∀ p ∈ (contributing s).getD [], p = b!"extensions" ∨ p = b!"values" ∨
      ((objFields s).any fun r => r.key == p && (r.ty.calm || (decide (p ∈ [b!"start", b!"end"]) && r.ty.isTimePtr))) = true := by
    decide +kernel
  rcases h s (mem_allSIds s) p (by rw [hps]; exact hp) with h | h | h
  · exact absurd h he
  · exact absurd h hv
  · simp only [List.any_eq_true, Bool.and_eq_true, beq_iff_eq, Bool.or_eq_true, decide_eq_true_eq] at h
    obtain ⟨r, hr, hk, h | ⟨h1, h2⟩⟩ := h
    · exact ⟨r, hr, hk, .inl h⟩
    · refine ⟨r, hr, hk, .inr (.inl ⟨h1, ?_⟩)⟩
      cases ht : r.ty with
      | ptr t => rw [ht] at h2; cases t <;> simp [Ty.isTimePtr] at h2; rfl
      | _ => rw [ht] at h2; simp [Ty.isTimePtr] at h2

/-- The contributing properties of an observable contribute the same after it was sent. -/
theorem contribution_survives {F : Canon.FloatFmt} {o o' : Obj} (h : Sound o) (hs : Survives o o') (ps : List Str)
    (hps : contributing o.sid = some ps) (p : Str) (hp : p ∈ ps) :
    contribution F p (prop o' p) = contribution F p (prop o p) ∧
      (Given F p (prop o' p) ↔ Given F p (prop o p)) ∧
      (p ∈ [b!"start", b!"end"] → (contribution F p (prop o p)).Clean) := by
  have hx : o.sid ≠ .ExtensionDefinition := by
    intro e
    rw [e] at hps
    cases hps
  obtain ⟨r, hr, rfl, hk⟩ := contributing_rows o.sid ps hps p hp
  rw [prop_field hr, prop_field (o := o') (by rw [hs.sid]; exact hr)]
  have hcl : r.key ∈ [b!"start", b!"end"] → r.ty = .ptr .time →
      (contribution F r.key (some (o.val r.name))).Clean := by
    intro hm ht
    have hc := h.fields r hr
    rw [ht] at hc
    rw [(contribution_time F _ hm _).1]
    rcases hc with e | ⟨x, e, t, rfl, h0, h1⟩
    · rw [e]; trivial
    · rw [e]
      simp only [timeContribution, Contribution.Clean]
      have h0 : 0 ≤ t.ns := h0
      have h1 : t.ns < endOfYears := h1
      omega
  have hno : r.key ∈ [b!"start", b!"end"] → r.ty.calm = true → False := by
    have : ∀ s ∈ allSIds, (contributing s).isSome = true → ((objFields s).all fun r =>
      !(decide (r.key ∈ [b!"start", b!"end"]) && r.ty.calm)) = true := by decide +kernel
    have := List.all_eq_true.1 (this o.sid (mem_allSIds _) (by rw [hps]; rfl)) r hr
    intro h1 h2
    simp [h1, h2] at this
  rcases hk with hc | ⟨hm, ht⟩ | ⟨hm, ht⟩ | ⟨hm, ht⟩
  · have e : o'.val r.name = o.val r.name := by
      rcases survives_val hs hx hr (by rintro n fs e; rw [e] at hc; cases hc) with ⟨e, -⟩ | e
      · rw [e, settled_calm hc]
      · exact e
    rw [e]
    exact ⟨rfl, Iff.rfl, fun hm => (hno hm hc).elim⟩
  · have e : timeContribution (o'.val r.name) = timeContribution (o.val r.name) := by
      rcases survives_val hs hx hr (by rintro n fs e; rw [ht] at e; cases e) with ⟨e, -⟩ | e
      · rw [e, ht]
        have hc := h.fields r hr
        rw [ht] at hc
        rcases hc with e | ⟨x, e, t, rfl, h0, h1⟩
        · rw [e]; rfl
        · rw [e]
          simp only [settled, timeContribution, Contribution.millis.injEq]
          omega
      · rw [e]
    obtain ⟨a1, a2⟩ := contribution_time F _ hm (o'.val r.name)
    obtain ⟨b1, b2⟩ := contribution_time F _ hm (o.val r.name)
    exact ⟨by rw [a1, b1, e], by rw [a2, b2, e], fun hm => hcl hm ht⟩
  · have e : extContribution F (some (o'.val r.name)) = extContribution F (some (o.val r.name)) := by
      rcases survives_val hs hx hr (by rintro n fs e; rw [ht] at e; cases e) with ⟨e, hz⟩ | e
      · have hne : o.val r.name ≠ .map none := by rw [ht] at hz; simpa only [zero] using hz
        have he := enc_settled_row (F := F) h hr (by rw [ht]; simpa only [Unset, zero] using hne)
        rw [ht] at he e
        unfold extContribution
        rw [e]
        simp only [entries_settled_ext _ _ hne, Option.bind_some, he]
      · rw [e]
    obtain ⟨a1, a2⟩ := contribution_ext F (some (o'.val r.name))
    obtain ⟨b1, b2⟩ := contribution_ext F (some (o.val r.name))
    rw [hm]
    exact ⟨by rw [a1, b1, e], by rw [a2, b2, e], fun hm => absurd hm (by decide)⟩
  · have e : valuesContribution (o'.val r.name) = valuesContribution (o.val r.name) := by
      rcases survives_val hs hx hr (by rintro n fs e; rw [ht] at e; cases e) with ⟨e, -⟩ | e
      · rw [e, ht]
        cases o.val r.name with
        | slice l => cases l with
          | none => simp only [settled]
          | some l =>
            simp only [settled, valuesContribution, List.map_eq_nil_iff, List.map_map]
            congr 2
            exact List.map_congr_left fun v _ => registryValue_settled v
        | _ => simp only [settled]
      · rw [e]
    rw [hm, Given, Given, if_neg (by decide), if_neg (by decide), contribution_values, contribution_values, e]
    exact ⟨rfl, Iff.rfl, fun hm => absurd hm (by decide)⟩

end Stix
