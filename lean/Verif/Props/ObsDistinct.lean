import Verif.Lemmas.ObsRead

/-!
# Different contributions give different identifiers (C11)
-/

namespace Stix
open Spec

theorem bracketQuoted_inj {s s' : Str} (h : bracketQuoted s = bracketQuoted s') : s = s' := by
  simpa [bracketQuoted] using h

theorem getStr_contribution {o o' : Obj} {n : Str} (h : o.getStr n = o'.getStr n) :
    textContribution (some (o.val n)) = textContribution (some (o'.val n)) := by
  have key : ∀ o : Obj, textContribution (some (o.val n)) =
      if o.getStr n = [] then .absent else .text (o.getStr n) := by
    intro o
    unfold textContribution Obj.getStr
    cases o.val n <;> simp
  rw [key, key, h]

/-- The contributing properties that are texts. -/
def textProps : List Str :=
  [b!"path", b!"value", b!"name", b!"from_ref", b!"subject", b!"body", b!"parent_directory_ref", b!"src_ref",
   b!"dst_ref", b!"cpe", b!"vendor", b!"version", b!"account_type", b!"user_id", b!"account_login", b!"key",
   b!"serial_number"]

theorem contribution_text (F : Canon.FloatFmt) (p : Str) (hp : p ∈ textProps) (v : Option GV) :
    contribution F p v = textContribution v ∧ (Given F p v ↔ textContribution v ≠ .absent) := by
  have h : ∀ p ∈ textProps, p ≠ b!"hashes" ∧ p ≠ b!"extensions" ∧ p ∉ [b!"number", b!"src_port", b!"dst_port"] ∧
      p ∉ [b!"start", b!"end"] ∧ p ≠ b!"payload_bin" ∧ p ≠ b!"protocols" ∧ p ≠ b!"values" := by decide +kernel
  obtain ⟨h1, h2, h3, h4, h5, h6, h7⟩ := h p hp
  have e : contribution F p v = textContribution v := by
    unfold contribution; rw [if_neg h1, if_neg h2, if_neg h3, if_neg h4, if_neg h5, if_neg h6, if_neg h7]
  exact ⟨e, by rw [Given, if_neg h1, e]⟩

theorem contribution_hashes (F : Canon.FloatFmt) (v : Option GV) :
    contribution F (b!"hashes") v = hashContribution v ∧ (Given F (b!"hashes") v ↔ entries v ≠ []) := by
  constructor
  · unfold contribution; rw [if_pos rfl]; rfl
  · rw [Given, if_pos rfl]

theorem contribution_ext (F : Canon.FloatFmt) (v : Option GV) :
    contribution F (b!"extensions") v = extContribution F v ∧
      (Given F (b!"extensions") v ↔ extContribution F v ≠ .absent) := by
  have e : contribution F (b!"extensions") v = extContribution F v := by
    unfold contribution; rw [if_neg (by decide), if_pos rfl]; rfl
  exact ⟨e, by rw [Given, if_neg (by decide), e]⟩

theorem contribution_num (F : Canon.FloatFmt) (p : Str) (hp : p ∈ [b!"number", b!"src_port", b!"dst_port"]) (v : GV) :
    contribution F p (some v) = numContribution v ∧ (Given F p (some v) ↔ numContribution v ≠ .absent) := by
  have h : ∀ p ∈ [b!"number", b!"src_port", b!"dst_port"], p ≠ b!"hashes" ∧ p ≠ b!"extensions" := by decide +kernel
  obtain ⟨h1, h2⟩ := h p hp
  have e : contribution F p (some v) = numContribution v := by
    unfold contribution; rw [if_neg h1, if_neg h2, if_pos hp]
    cases v <;> rfl
  exact ⟨e, by rw [Given, if_neg h1, e]⟩

theorem contribution_time (F : Canon.FloatFmt) (p : Str) (hp : p ∈ [b!"start", b!"end"]) (v : GV) :
    contribution F p (some v) = timeContribution v ∧ (Given F p (some v) ↔ timeContribution v ≠ .absent) := by
  have h : ∀ p ∈ [b!"start", b!"end"], p ≠ b!"hashes" ∧ p ≠ b!"extensions" ∧
      p ∉ [b!"number", b!"src_port", b!"dst_port"] := by decide +kernel
  obtain ⟨h1, h2, h3⟩ := h p hp
  have e : contribution F p (some v) = timeContribution v := by
    unfold contribution; rw [if_neg h1, if_neg h2, if_neg h3, if_pos hp]
    unfold timeContribution
    split <;> split <;> simp_all
  exact ⟨e, by rw [Given, if_neg h1, e]⟩

theorem contribution_bytes (F : Canon.FloatFmt) (v : GV) :
    contribution F (b!"payload_bin") (some v) = bytesContribution v := by
  unfold contribution; rw [if_neg (by decide), if_neg (by decide), if_neg (by decide), if_neg (by decide), if_pos rfl]
  unfold bytesContribution
  split <;> split <;> simp_all

theorem contribution_texts (F : Canon.FloatFmt) (v : GV) :
    contribution F (b!"protocols") (some v) = textsContribution v ∧
      (Given F (b!"protocols") (some v) ↔ textsContribution v ≠ .absent) := by
  have e : contribution F (b!"protocols") (some v) = textsContribution v := by
    unfold contribution; rw [if_neg (by decide), if_neg (by decide), if_neg (by decide), if_neg (by decide),
      if_neg (by decide), if_pos rfl]
    unfold textsContribution
    split <;> split <;> simp_all
  exact ⟨e, by rw [Given, if_neg (by decide), e]⟩

theorem contribution_values (F : Canon.FloatFmt) (v : GV) :
    contribution F (b!"values") (some v) = valuesContribution v := by
  unfold contribution; rw [if_neg (by decide), if_neg (by decide), if_neg (by decide), if_neg (by decide),
    if_neg (by decide), if_neg (by decide), if_pos rfl]
  unfold valuesContribution
  split <;> split <;> simp_all

/-- A text of both objects. -/
theorem text_pair {F : Canon.FloatFmt} {o o' : Obj} {n p : Str} (hp : p ∈ textProps)
    (g : Given F p (some (o.val n)) ↔ Given F p (some (o'.val n)))
    (c : (contribution F p (some (o.val n))).Clean) (c' : (contribution F p (some (o'.val n))).Clean) :
    Pair (strPart o n) (strPart o' n) (textContribution (some (o.val n))) (textContribution (some (o'.val n))) := by
  rw [(contribution_text F p hp _).2, (contribution_text F p hp _).2] at g
  rw [(contribution_text F p hp _).1] at c c'
  exact strPart_pair g c c'

/-- The hashed text determines what the contributing properties contribute. -/
theorem text_determines (F : Canon.FloatFmt) (o o' : Obj) (s : SId) (hs : o.sid = s) (hs' : o'.sid = s)
    (ps : List Str) (hps : contributing s = some ps) (t : Str)
    (ht : kindText F o s = .ok t) (ht' : kindText F o' s = .ok t)
    (hg : Positional s → ∀ p ∈ ps, Given F p (prop o p) ↔ Given F p (prop o' p))
    (hc : Composed s → ∀ p ∈ ps, (contribution F p (prop o p)).Clean)
    (hc' : Composed s → ∀ p ∈ ps, (contribution F p (prop o' p)).Clean) :
    ∀ p ∈ ps, contribution F p (prop o p) = contribution F p (prop o' p) := by
  have e : kindText F o s = kindText F o' s := ht.trans ht'.symm
  have hall := kindFields_contributing s (mem_allSIds _) ps hps
  have htext : ∀ p ∈ textProps, ∀ v, contribution F p v = textContribution v :=
    fun p hp v => (contribution_text F p hp v).1
  have P : ∀ {n p}, hasField s n p = true → prop o p = some (o.val n) := fun h => prop_of (by rw [hs]; exact h)
  have P' : ∀ {n p}, hasField s n p = true → prop o' p = some (o'.val n) := fun h => prop_of (by rw [hs']; exact h)
  -- one text
  have single : ∀ n p, p ∈ textProps → hasField s n p = true → bracketQuoted (o.getStr n) = bracketQuoted (o'.getStr n) →
      contribution F p (prop o p) = contribution F p (prop o' p) := by
    intro n p hp hf h
    rw [P hf, P' hf, htext p hp, htext p hp]
    exact getStr_contribution (bracketQuoted_inj h)
  cases s <;> first | (cases hps; done) | (cases hps)
  all_goals
    simp only [kindFields, List.forall₂_cons, List.Forall₂.nil, and_true] at hall
    simp only [kindText, Res.ok.injEq] at e ht ht'
    simp only [List.forall_mem_cons, List.not_mem_nil, false_implies, implies_true, and_true] at hg hc hc' ⊢
  case AutonomousSystem =>
    rw [P hall.1, P' hall.1,
      (contribution_num F _ (by decide) _).1, (contribution_num F _ (by decide) _).1, numContribution_eq,
      numContribution_eq]
    have : o.getInt (b!"Number") = o'.getInt (b!"Number") := intLit_inj (by simpa using e)
    rw [this]
  case Directory => exact single _ _ (by decide) hall.1 e
  case DomainName => exact single _ _ (by decide) hall.1 e
  case EmailAddress => exact single _ _ (by decide) hall.1 e
  case IPv4Address => exact single _ _ (by decide) hall.1 e
  case IPv6Address => exact single _ _ (by decide) hall.1 e
  case MACAddress => exact single _ _ (by decide) hall.1 e
  case Mutex => exact single _ _ (by decide) hall.1 e
  case URL => exact single _ _ (by decide) hall.1 e
  case Artifact =>
    obtain ⟨⟨f1, -⟩, f2, -⟩ := hall
    have := artifact_read (by rw [hs]; exact f1) (by rw [hs']; exact f1) e
    rw [(contribution_hashes F _).1, (contribution_hashes F _).1]
    rw [P f2, P' f2,
      contribution_bytes, contribution_bytes]
    exact this
  case X509Certificate =>
    obtain ⟨⟨f1, -⟩, f2, -⟩ := hall
    replace hc := hc (by simp [Composed])
    replace hc' := hc' (by simp [Composed])
    rw [(contribution_hashes F _).1] at hc hc' ⊢
    rw [(contribution_hashes F _).1]
    have := x509_read (by rw [hs]; exact f1) (by rw [hs']; exact f1) hc.1 hc'.1 e
    rw [P f2,
      P' f2, htext _ (by decide), htext _ (by decide)]
    exact this
  case RegistryKey =>
    obtain ⟨⟨f1, -⟩, f2, -⟩ := hall
    replace hc := hc (by simp [Composed])
    replace hc' := hc' (by simp [Composed])
    rw [P f1, P f2,
      htext _ (by decide), contribution_values] at hc ⊢
    rw [P' f1, P' f2,
      htext _ (by decide), contribution_values] at hc' ⊢
    exact registry_read ht ht' hc.1 hc'.1 hc.2 hc'.2
  case EmailMessage =>
    obtain ⟨⟨f1, -⟩, ⟨f2, -⟩, f3, -⟩ := hall
    replace hg := hg (by simp [Positional])
    replace hc := hc (by simp [Composed, Positional])
    replace hc' := hc' (by simp [Composed, Positional])
    rw [P f1, P f2,
      P f3] at hg hc ⊢
    rw [P' f1, P' f2,
      P' f3] at hg hc' ⊢
    have := three_texts (text_pair (by decide) hg.1 hc.1 hc'.1) (text_pair (by decide) hg.2.1 hc.2.1 hc'.2.1)
      (text_pair (by decide) hg.2.2 hc.2.2 hc'.2.2) e
    simp only [htext _ (by decide : b!"from_ref" ∈ textProps), htext _ (by decide : b!"subject" ∈ textProps),
      htext _ (by decide : b!"body" ∈ textProps)]
    exact this
  case UserAccount =>
    obtain ⟨⟨f1, -⟩, ⟨f2, -⟩, f3, -⟩ := hall
    replace hg := hg (by simp [Positional])
    replace hc := hc (by simp [Composed, Positional])
    replace hc' := hc' (by simp [Composed, Positional])
    rw [P f1, P f2,
      P f3] at hg hc ⊢
    rw [P' f1, P' f2,
      P' f3] at hg hc' ⊢
    have := three_texts (text_pair (by decide) hg.1 hc.1 hc'.1) (text_pair (by decide) hg.2.1 hc.2.1 hc'.2.1)
      (text_pair (by decide) hg.2.2 hc.2.2 hc'.2.2) e
    simp only [htext _ (by decide : b!"account_type" ∈ textProps), htext _ (by decide : b!"user_id" ∈ textProps),
      htext _ (by decide : b!"account_login" ∈ textProps)]
    exact this
  case Software =>
    obtain ⟨⟨f1, -⟩, ⟨f2, -⟩, ⟨f3, -⟩, f4, -⟩ := hall
    replace hg := hg (by simp [Positional])
    replace hc := hc (by simp [Composed, Positional])
    replace hc' := hc' (by simp [Composed, Positional])
    rw [P f1, P f2,
      P f3, P f4] at hg hc ⊢
    rw [P' f1, P' f2,
      P' f3, P' f4] at hg hc' ⊢
    have h2 := text_pair (by decide) hg.2.1 hc.2.1 hc'.2.1
    have h3 := text_pair (by decide) hg.2.2.1 hc.2.2.1 hc'.2.2.1
    have h4 := text_pair (by decide) hg.2.2.2 hc.2.2.2 hc'.2.2.2
    have uq : ∀ o : Obj, (contribution F (b!"name") (some (o.val (b!"Name")))).Clean →
        Unquoted (o.getStr (b!"Name")) := by
      intro o h
      rw [htext _ (by decide)] at h
      unfold textContribution at h
      unfold Obj.getStr
      cases hv : o.val (b!"Name") with
      | str s =>
        rw [hv] at h
        by_cases hn : s = []
        · subst hn; simp [Unquoted]
        · simpa [hn, Contribution.Clean] using h
      | _ => simp [Unquoted]
    have h1 : Pair [quoted (o.getStr (b!"Name"))] [quoted (o'.getStr (b!"Name"))]
        (textContribution (some (o.val (b!"Name")))) (textContribution (some (o'.val (b!"Name")))) := by
      refine ⟨.cons (unamb_quoted (uq o hc.1) (uq o' hc'.1)) .nil, fun e => ?_⟩
      simp only [List.cons.injEq, and_true] at e
      exact getStr_contribution (quoted_inj e)
    have e := bracket_read (forall₂_append (forall₂_append (forall₂_append h1.unamb h2.unamb) h3.unamb) h4.unamb) e
    simp only [List.append_assoc] at e
    have := h1.step (h2.step (h3.step h4.read)) e
    simp only [htext _ (by decide : b!"name" ∈ textProps), htext _ (by decide : b!"cpe" ∈ textProps),
      htext _ (by decide : b!"vendor" ∈ textProps), htext _ (by decide : b!"version" ∈ textProps)]
    exact this
  case File =>
    obtain ⟨⟨f1, -⟩, ⟨f2, -⟩, ⟨f3, -⟩, f4, -⟩ := hall
    replace hg := hg (by simp [Positional])
    replace hc := hc (by simp [Composed, Positional])
    replace hc' := hc' (by simp [Composed, Positional])
    rw [P f2,
      P f3, P f4] at hg hc ⊢
    rw [P' f2,
      P' f3, P' f4] at hg hc' ⊢
    simp only [(contribution_hashes F _).1, (contribution_hashes F _).2, (contribution_ext F _).1,
      (contribution_ext F _).2, htext _ (by decide : b!"parent_directory_ref" ∈ textProps),
      (contribution_text F _ (by decide : b!"parent_directory_ref" ∈ textProps) _).2,
      htext _ (by decide : b!"name" ∈ textProps), (contribution_text F _ (by decide : b!"name" ∈ textProps) _).2] at hg hc hc' ⊢
    exact file_read (hashPart_pair (by rw [hs]; exact f1) (by rw [hs']; exact f1) hg.1 hc.1 hc'.1)
      (strPart_pair hg.2.1 hc.2.1 hc'.2.1) hg.2.2.1 hg.2.2.2 hc.2.2.2 hc'.2.2.2 e
  case NetworkTraffic =>
    obtain ⟨⟨f1, -⟩, ⟨f2, -⟩, ⟨f3, -⟩, ⟨f4, -⟩, ⟨f5, -⟩, ⟨f6, -⟩, ⟨f7, -⟩, f8, -⟩ := hall
    replace hg := hg (by simp [Positional])
    replace hc := hc (by simp [Composed, Positional])
    replace hc' := hc' (by simp [Composed, Positional])
    rw [P f1, P f2,
      P f3, P f4,
      P f5, P f6,
      P f7, P f8] at hg hc ⊢
    rw [P' f1, P' f2,
      P' f3, P' f4,
      P' f5, P' f6,
      P' f7, P' f8] at hg hc' ⊢
    have t1 := contribution_time F _ (by decide : b!"start" ∈ [b!"start", b!"end"])
    have t2 := contribution_time F _ (by decide : b!"end" ∈ [b!"start", b!"end"])
    have n1 := contribution_num F _ (by decide : b!"src_port" ∈ [b!"number", b!"src_port", b!"dst_port"])
    have n2 := contribution_num F _ (by decide : b!"dst_port" ∈ [b!"number", b!"src_port", b!"dst_port"])
    simp only [(t1 _).1, (t1 _).2, (t2 _).1, (t2 _).2, (n1 _).1, (n1 _).2, (n2 _).1, (n2 _).2,
      (contribution_texts F _).1, (contribution_texts F _).2, (contribution_ext F _).1, (contribution_ext F _).2,
      htext _ (by decide : b!"src_ref" ∈ textProps), (contribution_text F _ (by decide : b!"src_ref" ∈ textProps) _).2,
      htext _ (by decide : b!"dst_ref" ∈ textProps), (contribution_text F _ (by decide : b!"dst_ref" ∈ textProps) _).2]
      at hg hc hc' ⊢
    obtain ⟨g1, g2, g3, g4, g5, g6, g7, g8⟩ := hg
    obtain ⟨c1, c2, c3, c4, c5, c6, c7, c8⟩ := hc
    obtain ⟨d1, d2, d3, d4, d5, d6, d7, d8⟩ := hc'
    exact network_read (timePart_pair g1 c1 d1) (timePart_pair g2 c2 d2) (strPart_pair g3 c3 d3)
      (strPart_pair g4 c4 d4) (intPart_pair g5) (intPart_pair g6) (protoTok_pair g7 c7 d7) g8 e

/-! ### The identifier as a function of the digest -/

theorem stamp_version (x y : UInt8) :
    ((x &&& (0x0f : UInt8)) ||| ((5 : UInt8) <<< 4)) = ((y &&& (0x0f : UInt8)) ||| ((5 : UInt8) <<< 4)) ↔
      x.toNat % 16 = y.toNat % 16 := by
  have k1 : ∀ x : UInt8, (((x &&& (0x0f : UInt8)) ||| ((5 : UInt8) <<< 4)).toNat) = x.toNat % 16 + 80 :=
    forall_uint8 (by decide +kernel)
  rw [← UInt8.toNat_inj, k1, k1]; omega

theorem stamp_variant (x y : UInt8) :
    ((x &&& (0x3f : UInt8)) ||| 0x80) = ((y &&& (0x3f : UInt8)) ||| 0x80) ↔ x.toNat % 64 = y.toNat % 64 := by
  have k1 : ∀ x : UInt8, (((x &&& (0x3f : UInt8)) ||| 0x80).toNat) = x.toNat % 64 + 128 :=
    forall_uint8 (by decide +kernel)
  rw [← UInt8.toNat_inj, k1, k1]; omega

theorem stamp_collide (d d' : List UInt8) (h : d.length = 20) (h' : d'.length = 20) :
    uuidStamp 5 (d.take 16) = uuidStamp 5 (d'.take 16) ↔ CollideV5 d d' := by
  obtain ⟨a0, a1, a2, a3, a4, a5, a6, a7, a8, a9, a10, a11, a12, a13, a14, a15, ha⟩ :=
    list_of_length_16 (d.take 16) (by simp [h])
  obtain ⟨b0, b1, b2, b3, b4, b5, b6, b7, b8, b9, b10, b11, b12, b13, b14, b15, hb⟩ :=
    list_of_length_16 (d'.take 16) (by simp [h'])
  have ga : ∀ i < 16, d[i]? = (d.take 16)[i]? := fun i hi => by rw [List.getElem?_take, if_pos hi]
  have gb : ∀ i < 16, d'[i]? = (d'.take 16)[i]? := fun i hi => by rw [List.getElem?_take, if_pos hi]
  unfold CollideV5
  rw [ga 6 (by omega), ga 8 (by omega), gb 6 (by omega), gb 8 (by omega)]
  have e : (∀ i < 16, i ≠ 6 → i ≠ 8 → d[i]? = d'[i]?) ↔
      (∀ i < 16, i ≠ 6 → i ≠ 8 → (d.take 16)[i]? = (d'.take 16)[i]?) := by
    constructor <;> intro h i hi h6 h8
    · rw [← ga i hi, ← gb i hi]; exact h i hi h6 h8
    · rw [ga i hi, gb i hi]; exact h i hi h6 h8
  rw [e, ha, hb]
  simp only [uuidStamp, List.modify_succ_cons, List.modify_zero_cons, List.cons.injEq, and_true, stamp_version,
    stamp_variant]
  constructor
  · rintro ⟨rfl, rfl, rfl, rfl, rfl, rfl, h6, rfl, h8, rfl, rfl, rfl, rfl, rfl, rfl, rfl⟩
    refine ⟨fun i hi h6 h8 => ?_, by simpa using h6, by simpa using h8⟩
    have : ∀ i, i < 16 → i ≠ 6 → i ≠ 8 → i ∈ [0, 1, 2, 3, 4, 5, 7, 9, 10, 11, 12, 13, 14, 15] := by decide
    have := this i hi h6 h8
    simp only [List.mem_cons, List.not_mem_nil, or_false] at this
    rcases this with rfl | rfl | rfl | rfl | rfl | rfl | rfl | rfl | rfl | rfl | rfl | rfl | rfl | rfl <;> rfl
  · rintro ⟨hi, h6, h8⟩
    refine ⟨?_, ?_, ?_, ?_, ?_, ?_, by simpa using h6, ?_, by simpa using h8, ?_, ?_, ?_, ?_, ?_, ?_, ?_⟩
    · simpa using hi 0
    · simpa using hi 1
    · simpa using hi 2
    · simpa using hi 3
    · simpa using hi 4
    · simpa using hi 5
    · simpa using hi 7
    · simpa using hi 9
    · simpa using hi 10
    · simpa using hi 11
    · simpa using hi 12
    · simpa using hi 13
    · simpa using hi 14
    · simpa using hi 15

/-- Two identifiers of the same type are equal exactly when the digests collide. -/
theorem obs_id_collide (sha1 : Str → List UInt8) (hs : ∀ x, (sha1 x).length = 20) (t t' typ : Str) :
    newObservableIdentifier sha1 t typ = newObservableIdentifier sha1 t' typ ↔
      CollideV5 (sha1 (scoNamespace ++ t)) (sha1 (scoNamespace ++ t')) := by
  rw [← stamp_collide _ _ (hs _) (hs _)]
  unfold newObservableIdentifier
  rw [List.append_cancel_left_eq]
  constructor
  · intro h
    have l : ∀ x, (uuidSHA1 sha1 x).length = 16 := fun x => by
      simp [uuidSHA1, uuidStamp_length, hs]
    have h1 := uuidParse_uuidString _ (l t)
    rw [h, uuidParse_uuidString _ (l t')] at h1
    exact (Option.some.inj h1).symm
  · intro h
    exact congrArg uuidString h

/-- Only the identifier depends on the hash function. -/
theorem run_sha1 {env : Env} {c : Ctor} {opts : List (Option Opt)} (hl : AllLibrary opts)
    {o : Obj} (h : c.run env opts = .ret (some o) none) (hk : (contributing c.kind).isSome)
    (hm : c.kind = .Mutex → Untouched .Mutex opts (b!"name")) :
    o.sid = c.kind ∧ ∃ t, kindText env.F o c.kind = .ok t ∧
      ∀ sha1, ∃ o₁, c.run { env with sha1 := sha1 } opts = .ret (some o₁) none ∧
        (∀ p, p ≠ b!"id" → prop o₁ p = prop o p) ∧
        prop o₁ (b!"id") = some (.str (newObservableIdentifier sha1 t c.typ)) := by
  obtain ⟨hs, t, ht, -⟩ := run_ok_obs hl h hk hm
  obtain ⟨hp, o', ha, hch, hx⟩ := run_ok h
  have hkept := argField_kept (env := env) hl hm
  rw [ha] at hkept
  have htx := text_eq env c o' hk hkept
  rcases hx with ⟨hn, -⟩ | ⟨t', hn, hx⟩
  · rw [hn] at htx; cases htx
  cases hx
  have htt : t' = t := by
    rw [hn] at htx
    have h1 := (Option.some.inj htx).symm
    rw [kindText_congr env.F o' (setObsID env o' t' c.typ) c.kind, ht] at h1
    · exact (Res.ok.inj h1).symm
    · intro n hnf
      refine (set_val_ne _ _ ?_).symm
      rintro rfl
      revert hnf
      have : ∀ s ∈ allSIds, (b!"ID") ∉ kindFields s := by decide +kernel
      exact this _ (mem_allSIds _)
  subst htt
  refine ⟨hs, t', ht, fun sha1 => ⟨setObsID { env with sha1 := sha1 } o' t' c.typ, ?_, fun p hp => ?_, ?_⟩⟩
  · have hb : c.base { env with sha1 := sha1 } = c.base env := by cases c <;> rfl
    have htext : c.text { env with sha1 := sha1 } o' = c.text env o' := by cases c <;> rfl
    rw [run_eq, hp]
    simp only [withOptions, hb, ha, Ctor.post, hch, htext, hn]
  · rw [prop_setObsID _ _ _ _ _ hp, prop_setObsID _ _ _ _ _ hp]
  · rw [prop_id]; exact congrArg some (set_val _ _ _)

/-! ### C11 -/

/-- C11: two observables of the same kind with a contributing property that differs hash different
texts, whatever the hash function: their identifiers are equal exactly when the digests of these two
texts collide as UUIDs of version 5. The texts do not depend on the hash function.
Missing from the full statement, and false (`c11_false_order`, `c11_false_quotes`,
`c11_false_ports`): for the kinds made from several texts, texts that contain a quotation mark; for
those whose contributing properties can be missing, objects that do not have the same ones. Also
excluded are a mutex renamed by an option (`c10_mutex_renamed`) and times outside the years 0000 to
9999 (`Contribution.Clean`). -/
theorem c11_distinct_partial (env env' : Env) (hF : env'.F = env.F) (c c' : Ctor)
    (hk : (promise c').kind = (promise c).kind) (ps : List Str)
    (hps : contributing (promise c).kind = some ps)
    (opts opts' : List (Option Opt)) (hl : AllLibrary opts) (hl' : AllLibrary opts') (o o' : Obj)
    (h : c.run env opts = .ret (some o) none) (h' : c'.run env' opts' = .ret (some o') none)
    (hmutex : (promise c).kind = .Mutex →
      Untouched .Mutex opts (b!"name") ∧ Untouched .Mutex opts' (b!"name"))
    (hgiven : Positional (promise c).kind → ∀ p ∈ ps, Given env.F p (prop o p) ↔ Given env.F p (prop o' p))
    (hclean : Composed (promise c).kind → ∀ p ∈ ps, (contribution env.F p (prop o p)).Clean)
    (hclean' : Composed (promise c).kind → ∀ p ∈ ps, (contribution env.F p (prop o' p)).Clean)
    (hdiff : ∃ p ∈ ps, contribution env.F p (prop o p) ≠ contribution env.F p (prop o' p)) :
    ∃ t t', t ≠ t' ∧ ∀ sha1 : Str → List UInt8, (∀ x, (sha1 x).length = 20) → ∃ o₁ o₁',
      c.run { env with sha1 := sha1 } opts = .ret (some o₁) none ∧
      c'.run { env' with sha1 := sha1 } opts' = .ret (some o₁') none ∧
      (∀ p ∈ ps, prop o₁ p = prop o p ∧ prop o₁' p = prop o' p) ∧
      (prop o₁ (b!"id") = prop o₁' (b!"id") ↔
        CollideV5 (sha1 (scoNamespace ++ t)) (sha1 (scoNamespace ++ t'))) := by
  rw [promise_kind] at hk hps hmutex hgiven hclean hclean'
  rw [promise_kind] at hk
  obtain ⟨hs, t, ht, hrun⟩ := run_sha1 hl h (by rw [hps]; rfl) (fun e => (hmutex e).1)
  obtain ⟨hs', t', ht', hrun'⟩ := run_sha1 hl' h' (by rw [hk, hps]; rfl) (fun e => (hmutex (hk.symm.trans e)).2)
  rw [hk, hF] at ht'
  refine ⟨t, t', ?_, fun sha1 hsha => ?_⟩
  · rintro rfl
    obtain ⟨p, hp, hne⟩ := hdiff
    exact hne (text_determines env.F o o' c.kind hs (hs'.trans hk) ps hps t ht ht' hgiven hclean hclean' p hp)
  · obtain ⟨o₁, h1, h2, h3⟩ := hrun sha1
    obtain ⟨o₁', h1', h2', h3'⟩ := hrun' sha1
    have hid : ∀ p ∈ ps, p ≠ b!"id" := by
      have hall := kindFields_contributing c.kind (mem_allSIds _) ps hps
      clear hdiff hclean hclean' hgiven hps
      generalize kindFields c.kind = ns at hall
      induction hall with
      | nil => intro p hp; cases hp
      | cons hab _ ih => exact List.forall_mem_cons.2 ⟨hab.2, ih⟩
    refine ⟨o₁, o₁', h1, h1', fun p hp => ⟨h2 p (hid p hp), h2' p (hid p hp)⟩, ?_⟩
    rw [h3, h3', typ_of_kind hk, Option.some.injEq, GV.str.injEq]
    exact obs_id_collide sha1 hsha t t' c.typ

/-- C11 is false of the code: a message with only a subject and one with only that text as its body
have the same identifier, whatever the hash function, and likewise the two ports of network traffic
(`c11_false_ports`) and other properties of the kinds in `Positional`. -/
theorem c11_false_order (env : Env) : ∃ (opts opts' : List (Option Opt)) (o o' : Obj),
    AllLibrary opts ∧ AllLibrary opts' ∧
    (Ctor.emailMessage false).run env opts = .ret (some o) none ∧
    (Ctor.emailMessage false).run env opts' = .ret (some o') none ∧
    contribution env.F (b!"subject") (prop o (b!"subject")) = .text (b!"x") ∧
    contribution env.F (b!"subject") (prop o' (b!"subject")) = .absent ∧
    contribution env.F (b!"body") (prop o (b!"body")) = .absent ∧
    contribution env.F (b!"body") (prop o' (b!"body")) = .text (b!"x") ∧
    prop o (b!"id") = prop o' (b!"id") := by
  refine ⟨[some (.field OptionSubject (.str (b!"x")))], [some (.field OptionBody (.str (b!"x")))], _, _, ?_, ?_,
    rfl, rfl, rfl, rfl, rfl, rfl, ?_⟩
  · intro opt ho
    simp only [List.mem_cons, Option.some.injEq, List.not_mem_nil, or_false] at ho
    subst ho; simp [Library, optTable]
  · intro opt ho
    simp only [List.mem_cons, Option.some.injEq, List.not_mem_nil, or_false] at ho
    subst ho; simp [Library, optTable]
  · rfl

/-- C11 is false of the code: the same for the two ports of network traffic. -/
theorem c11_false_ports (env : Env) : ∃ (opts opts' : List (Option Opt)) (o o' : Obj),
    AllLibrary opts ∧ AllLibrary opts' ∧
    (Ctor.networkTraffic (some [b!"tcp"])).run env opts = .ret (some o) none ∧
    (Ctor.networkTraffic (some [b!"tcp"])).run env opts' = .ret (some o') none ∧
    contribution env.F (b!"src_port") (prop o (b!"src_port")) = .number 80 ∧
    contribution env.F (b!"src_port") (prop o' (b!"src_port")) = .absent ∧
    contribution env.F (b!"dst_port") (prop o (b!"dst_port")) = .absent ∧
    contribution env.F (b!"dst_port") (prop o' (b!"dst_port")) = .number 80 ∧
    prop o (b!"id") = prop o' (b!"id") := by
  refine ⟨[some (.field OptionSrc (.str (b!"s"))), some (.field OptionSrcPort (.int 80))],
    [some (.field OptionSrc (.str (b!"s"))), some (.field OptionDstPort (.int 80))], _, _, ?_, ?_,
    rfl, rfl, rfl, rfl, rfl, rfl, ?_⟩
  · intro opt ho
    simp only [List.mem_cons, Option.some.injEq, List.not_mem_nil, or_false] at ho
    rcases ho with rfl | rfl <;> simp [Library, optTable]
  · intro opt ho
    simp only [List.mem_cons, Option.some.injEq, List.not_mem_nil, or_false] at ho
    rcases ho with rfl | rfl <;> simp [Library, optTable]
  · rfl

/-- Non-vacuity for C11: two pieces of software of the same vendor and different versions meet the
hypotheses of `c11_distinct_partial`. -/
example : ∃ o o' : Obj,
    (Ctor.software (b!"s")).run exEnv2
      [some (.field OptionVendor (.str (b!"v"))), some (.field OptionVersion (.str (b!"1")))] = .ret (some o) none ∧
    (Ctor.software (b!"s")).run exEnv2
      [some (.field OptionVersion (.str (b!"2"))), some (.field OptionVendor (.str (b!"v")))] = .ret (some o') none ∧
    (∀ p ∈ [b!"name", b!"cpe", b!"vendor", b!"version"],
      (Given exEnv2.F p (prop o p) ↔ Given exEnv2.F p (prop o' p)) ∧
      (contribution exEnv2.F p (prop o p)).Clean ∧ (contribution exEnv2.F p (prop o' p)).Clean) ∧
    contribution exEnv2.F (b!"version") (prop o (b!"version")) = .text (b!"1") ∧
    contribution exEnv2.F (b!"version") (prop o' (b!"version")) = .text (b!"2") ∧
    Positional .Software ∧ contributing .Software = some [b!"name", b!"cpe", b!"vendor", b!"version"] := by
  refine ⟨_, _, rfl, rfl, ?_, rfl, rfl, by simp [Positional], rfl⟩
  simp only [List.forall_mem_cons, List.not_mem_nil, false_implies, implies_true, and_true]
  refine ⟨⟨Iff.intro (fun _ => ?_) (fun _ => ?_), ?_, ?_⟩, ⟨Iff.rfl, trivial, trivial⟩,
    ⟨Iff.intro (fun _ => ?_) (fun _ => ?_), ?_, ?_⟩, ⟨Iff.intro (fun _ => ?_) (fun _ => ?_), ?_, ?_⟩⟩
  · exact fun e => Contribution.noConfusion (e : Contribution.text (b!"s") = .absent)
  · exact fun e => Contribution.noConfusion (e : Contribution.text (b!"s") = .absent)
  · show Unquoted (b!"s"); unfold Unquoted; decide
  · show Unquoted (b!"s"); unfold Unquoted; decide
  · exact fun e => Contribution.noConfusion (e : Contribution.text (b!"v") = .absent)
  · exact fun e => Contribution.noConfusion (e : Contribution.text (b!"v") = .absent)
  · show Unquoted (b!"v"); unfold Unquoted; decide
  · show Unquoted (b!"v"); unfold Unquoted; decide
  · exact fun e => Contribution.noConfusion (e : Contribution.text (b!"2") = .absent)
  · exact fun e => Contribution.noConfusion (e : Contribution.text (b!"1") = .absent)
  · show Unquoted (b!"1"); unfold Unquoted; decide
  · show Unquoted (b!"2"); unfold Unquoted; decide

/-- C11 is false of the code: texts are put between quotation marks without escaping those inside. A
piece of software named `a","b` and one named `a` with the CPE `b` have the same identifier. -/
theorem c11_false_quotes (env : Env) : ∃ (opts : List (Option Opt)) (o o' : Obj),
    AllLibrary opts ∧
    (Ctor.software (b!"a")).run env opts = .ret (some o) none ∧
    (Ctor.software (b!"a\",\"b")).run env [] = .ret (some o') none ∧
    contribution env.F (b!"name") (prop o (b!"name")) = .text (b!"a") ∧
    contribution env.F (b!"name") (prop o' (b!"name")) = .text (b!"a\",\"b") ∧
    prop o (b!"id") = prop o' (b!"id") := by
  refine ⟨[some (.field OptionCPE (.str (b!"b")))], _, _, ?_, rfl, rfl, rfl, rfl, rfl⟩
  intro opt ho
  simp only [List.mem_cons, Option.some.injEq, List.not_mem_nil, or_false] at ho
  subst ho; simp [Library, optTable]

end Stix
