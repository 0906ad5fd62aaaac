import Verif.Spec.Rebuilt
import Verif.Lemmas.Rebuilt
import Verif.Props.Numbers

/-!
# An observable can be made again from what was received (C87)
-/

namespace Stix
open Spec StixObject
open Canon Props.Canon
open Spec.Text (WritesNumbers height)

variable {F : Canon.FloatFmt} {U : Type} [UserType U]

theorem forall₂_left_mem {α β : Type} {R : α → β → Prop} {l : List α} {l' : List β}
    (h : List.Forall₂ R l l') : ∀ a ∈ l, ∃ b ∈ l', R a b := by
  induction h with
  | nil => intro a ha; cases ha
  | cons hab _ ih =>
    intro a ha
    rcases List.mem_cons.1 ha with rfl | ha
    · exact ⟨_, List.mem_cons_self, hab⟩
    · obtain ⟨b, hb, hr⟩ := ih a ha
      exact ⟨b, List.mem_cons_of_mem _ hb, hr⟩

theorem forall₂_right_mem {α β : Type} {R : α → β → Prop} {l : List α} {l' : List β}
    (h : List.Forall₂ R l l') : ∀ b ∈ l', ∃ a ∈ l, R a b :=
  forall₂_left_mem (R := fun b a => R a b) h.flip

theorem makes_built {sha1 : Str → List UInt8} {c : Ctor} {opts : List (Option Opt)} {o : Obj}
    (h : Makes sha1 F c opts o) (hs : Sendable c opts) : Built o := by
  obtain ⟨hl, -, env, he, hn, -, -, hr⟩ := h
  exact ⟨env, c, opts, he, hn, hl, hs.1, hs.2.1, hs.2.2.1, hs.2.2.2, hr⟩

theorem makes_sid {sha1 : Str → List UInt8} {c : Ctor} {opts : List (Option Opt)} {o : Obj}
    (h : Makes sha1 F c opts o) : o.sid = (promise c).kind := by
  obtain ⟨hl, -, env, -, -, -, -, hr⟩ := h
  rw [promise_kind]
  exact (run_ok_prop hl hr).1

/-- **C87.** Two observables of one kind whose contributing properties contribute the same (times of the
years 0 to 9999) have the same identifier: it depends on the text of an enumeration value, the millisecond
of a time, the hash that is preferred and the canonical JSON of extensions, and on nothing else of the
values. -/
theorem c87_contributions (sha1 : Str → List UInt8) (c c' : Ctor) (opts opts' : List (Option Opt))
    (o o' : Obj) (h : Makes sha1 F c opts o) (h' : Makes sha1 F c' opts' o')
    (hk : (promise c').kind = (promise c).kind) (ps : List Str)
    (hps : contributing (promise c).kind = some ps) (hsame : SameContributions F ps o o')
    (hc : ∀ p ∈ ps, p ∈ [b!"start", b!"end"] → (contribution F p (prop o p)).Clean) :
    prop o (b!"id") = prop o' (b!"id") := by
  obtain ⟨hl, hm, env, -, -, rfl, rfl, hr⟩ := h
  obtain ⟨hl', hm', env', -, -, hsha, hF, hr'⟩ := h'
  simp only [promise_kind] at hk hps hm hm'
  obtain ⟨hs, t, ht, hid⟩ := run_ok_obs hl hr (by rw [hps]; rfl) hm
  obtain ⟨hs', t', ht', hid'⟩ := run_ok_obs hl' hr' (by rw [hk, hps]; rfl) hm'
  rw [hk, hF] at ht'
  rw [hk] at hs'
  have := text_determined env.F o o' c.kind hs hs' ps hps t t' ht ht' (fun p hp => (hsame p hp).1)
    (fun p hp => (hsame p hp).2) hc
  rw [prop_id, prop_id, hid, hid', hsha, typ_of_kind hk, this]

/-- **C87.** What contributes to the identifier of an observable is the same in the object that is
received. -/
theorem c87_received (o o' : Obj) (h : Sound o) (hs : Survives o o') (ps : List Str)
    (hps : contributing o.sid = some ps) : SameContributions F ps o o' :=
  fun p hp => ⟨(contribution_survives h hs ps hps p hp).1.symm,
    (contribution_survives h hs ps hps p hp).2.1.symm⟩

/-- **C87.** Observables are built, collected, bundled and sent as JSON.  Each one that is received, of a
kind whose identifier is computed, can be made again: any call of the constructor of its kind that returns
an object with the contributing values of the received one returns it with the identifier of the received
one, in any program that hashes and writes numbers in the same way.  One such call is the one that the
sender made. -/
theorem c87_rebuilt (L : Canon.FloatLaws F) (W : WritesNumbers F) (hI : IntegersParse F)
    (sha1 : Str → List UInt8) (ns : Bool) (built : List Obj)
    (hs : ∀ o ∈ built, ∃ c opts, Makes sha1 F c opts o ∧ Sendable c opts)
    (rnd : List UInt8) (hr : rnd.length = 16) (b : Res GV)
    (hb : toBundle F rnd ((Coll.new ns).addAll (built.map (Any.lib (U := U)))) b)
    (hh : ∀ v doc, b = .ok v → enc F tyBundle v = some doc → height doc ≤ 10000)
    (copts : List (CollOption U)) (hn : NoParsers copts) :
    ∃ v doc col, b = .ok v ∧ enc F tyBundle v = some doc ∧ fromJSONText F copts doc.raw = .ok col ∧
      (∀ o ∈ built, ∃ o', col.get (getID o) = some (.lib o')) ∧
      ∀ id o', col.get id = some (.lib o') → ∀ ps, contributing o'.sid = some ps →
        (∃ c opts o, Makes sha1 F c opts o ∧ (promise c).kind = o'.sid ∧ SameContributions F ps o o') ∧
        ∀ c opts o, Makes sha1 F c opts o → (promise c).kind = o'.sid → SameContributions F ps o o' →
          prop o (b!"id") = some (.str id) := by
  have hbuilt : ∀ o ∈ built, Built o := fun o ho => by
    obtain ⟨c, opts, h1, h2⟩ := hs o ho
    exact makes_built h1 h2
  obtain ⟨v, doc, col, os, os', h1, h2, h3, -, h4, h5, -, h6, h7, -⟩ :=
    c64_end_to_end L W hI ns built hbuilt rnd hr b hb hh copts hn
  refine ⟨v, doc, col, h1, h2, h3, ?_, ?_⟩
  · intro o ho
    obtain ⟨p, hp, hpo⟩ := h5 o ho
    obtain ⟨p', hp', hq, -⟩ := forall₂_left_mem h6 p hp
    exact ⟨p', (h7 _ _).2 ⟨p', hp', rfl, hq.trans hpo⟩⟩
  · intro id o' hg ps hps
    obtain ⟨p', hp', e, hid⟩ := (h7 id _).1 hg
    cases e
    obtain ⟨o₀, ho₀, hid₀, hsv, -⟩ := forall₂_right_mem h6 o' hp'
    obtain ⟨c₀, opts₀, hm₀, hsend₀⟩ := hs o₀ (h4 o₀ ho₀)
    have hsound := (c64_sound o₀ (hbuilt o₀ (h4 o₀ ho₀))).1
    have hsid : o'.sid = o₀.sid := hsv.sid
    have hk₀ : (promise c₀).kind = o'.sid := by rw [hsid, makes_sid hm₀]
    have hps₀ : contributing o₀.sid = some ps := by rw [← hsid]; exact hps
    have hsame := c87_received (F := F) o₀ o' hsound hsv ps hps₀
    refine ⟨⟨c₀, opts₀, o₀, hm₀, hk₀, hsame⟩, ?_⟩
    intro c opts o hm hk hsm
    have := c87_contributions sha1 c₀ c opts₀ opts o₀ o hm₀ hm (by rw [hk, hk₀]) ps (by rw [hk₀]; exact hps)
      (fun p hp => ⟨(hsame p hp).1.trans (hsm p hp).1.symm, (hsame p hp).2.trans (hsm p hp).2.symm⟩)
      (fun p hp => (contribution_survives hsound hsv ps hps₀ p hp).2.2)
    rw [← this, ← hid, hid₀]
    obtain ⟨hl, -, env, he, -, -, -, hrun⟩ := hm₀
    obtain ⟨i, hi, -⟩ := run_ok_id he hl hrun
    rw [prop_id, hi]
    simp [StixObject.getID, Obj.getStr, hi]

/-- **C87**, with the number formats of Go. -/
theorem c87_strconv (sha1 : Str → List UInt8) (ns : Bool) (built : List Obj)
    (hs : ∀ o ∈ built, ∃ c opts, Makes sha1 strconv c opts o ∧ Sendable c opts)
    (rnd : List UInt8) (hr : rnd.length = 16) (b : Res GV)
    (hb : toBundle strconv rnd ((Coll.new ns).addAll (built.map (Any.lib (U := U)))) b)
    (hh : ∀ v doc, b = .ok v → enc strconv tyBundle v = some doc → height doc ≤ 10000)
    (copts : List (CollOption U)) (hn : NoParsers copts) :
    ∃ v doc col, b = .ok v ∧ enc strconv tyBundle v = some doc ∧
      fromJSONText strconv copts doc.raw = .ok col ∧
      (∀ o ∈ built, ∃ o', col.get (getID o) = some (.lib o')) ∧
      ∀ id o', col.get id = some (.lib o') → ∀ ps, contributing o'.sid = some ps →
        (∃ c opts o, Makes sha1 strconv c opts o ∧ (promise c).kind = o'.sid ∧
          SameContributions strconv ps o o') ∧
        ∀ c opts o, Makes sha1 strconv c opts o → (promise c).kind = o'.sid →
          SameContributions strconv ps o o' → prop o (b!"id") = some (.str id) :=
  c87_rebuilt Strconv.strconv_laws Strconv.strconv_writes Strconv.strconv_integers sha1 ns built hs rnd hr b hb
    hh copts hn

/-! ### Cases -/

/-- Surroundings with the numbers of `toy`. -/
def exEnvToy : Env := { exEnv2 with F := toy }

theorem exEnvToy_sane : Sane exEnvToy := exEnv2_sane

/-- Options for a source and a start time. -/
def exStart (t : GoTime) : List (Option Opt) :=
  [some (.field OptionSrc (.str (exId (b!"ipv4-addr")))), some (.field OptionStart (.ptr (some (.time t))))]

/-- Network traffic that starts then. -/
def exFlowMade (t : GoTime) : Obj := ((Ctor.networkTraffic (some [b!"tcp"])).run exEnvToy (exStart t)).obj

theorem exFlowMade_run (t : GoTime) :
    (Ctor.networkTraffic (some [b!"tcp"])).run exEnvToy (exStart t) = .ret (some (exFlowMade t)) none := rfl

/-- C87: network traffic that starts in one millisecond, said in two time zones and with different
fractions. -/
example : ∃ o o' : Obj,
    Makes exEnvToy.sha1 toy (.networkTraffic (some [b!"tcp"])) (exStart ⟨1700000000123456789, 0⟩) o ∧
    Makes exEnvToy.sha1 toy (.networkTraffic (some [b!"tcp"])) (exStart ⟨1700000000123000000, 3600⟩) o' ∧
    prop o (b!"start") ≠ prop o' (b!"start") ∧
    ∀ ps, contributing .NetworkTraffic = some ps → SameContributions toy ps o o' ∧
      ∀ p ∈ ps, p ∈ [b!"start", b!"end"] → (contribution toy p (prop o p)).Clean := by
  have hl : ∀ t, AllLibrary (exStart t) := by
    intro t opt hm
    simp only [exStart, List.mem_cons, Option.some.injEq, List.not_mem_nil, or_false] at hm
    rcases hm with rfl | rfl <;> simp [Library, optTable]
  have hm : (promise (Ctor.networkTraffic (some [b!"tcp"]))).kind ≠ SId.Mutex := by
    intro e; cases e
  refine ⟨exFlowMade ⟨1700000000123456789, 0⟩, exFlowMade ⟨1700000000123000000, 3600⟩,
    ⟨hl _, fun e => absurd e hm, exEnvToy, exEnvToy_sane, by decide, rfl, rfl, exFlowMade_run _⟩,
    ⟨hl _, fun e => absurd e hm, exEnvToy, exEnvToy_sane, by decide, rfl, rfl, exFlowMade_run _⟩,
    ?_, ?_⟩
  · intro e
    have e : (some (GV.ptr (some (.time ⟨1700000000123456789, 0⟩))) : Option GV) =
      some (.ptr (some (.time ⟨1700000000123000000, 3600⟩))) := e
    simp at e
  · intro ps hps
    cases hps
    refine ⟨?_, ?_⟩
    · simp only [SameContributions, List.forall_mem_cons, List.not_mem_nil, false_implies, implies_true, and_true]
      exact ⟨⟨rfl, Iff.rfl⟩, ⟨rfl, Iff.rfl⟩, ⟨rfl, Iff.rfl⟩, ⟨rfl, Iff.rfl⟩, ⟨rfl, Iff.rfl⟩, ⟨rfl, Iff.rfl⟩,
        ⟨rfl, Iff.rfl⟩, ⟨rfl, Iff.rfl⟩⟩
    · simp only [List.forall_mem_cons, List.not_mem_nil, false_implies, implies_true, and_true]
      refine ⟨fun _ => ?_, fun _ => trivial, fun h => ?_, fun h => ?_, fun h => ?_, fun h => ?_,
        fun h => ?_, fun h => ?_⟩
      · show 0 ≤ (1700000000123456789 : Int) / 1000000 ∧ (1700000000123456789 : Int) / 1000000 * 1000000 < endOfYears
        decide
      all_goals exact absurd h (by decide)

/-- A domain name. -/
def exDomain : Obj := ((Ctor.domainName (b!"example.com")).run exEnvToy []).obj

theorem exDomain_makes : Makes exEnvToy.sha1 toy (.domainName (b!"example.com")) [] exDomain ∧
    Sendable (.domainName (b!"example.com")) [] := by
  refine ⟨⟨fun o ho => by (cases ho), fun e => by (cases e), exEnvToy, exEnvToy_sane, by decide, rfl, rfl, rfl⟩,
    ?_, fun o ho => by (cases ho), fun r v hm => by (cases hm), trivial⟩
  intro e he r hr hk
  simp only [promise, List.mem_cons, List.not_mem_nil, or_false] at he
  subst he
  have h : ∀ r ∈ objFields .DomainName, r.key = b!"value" → r.ty.isStr = true := by decide +kernel
  exact val_text (h r hr hk) (unicode_ascii _ (by decide))

/-- C87: a domain name is built, sent and received, and made again by the receiver, at another time. -/
example : ∃ (v : GV) (doc : Json) (col : Coll (Any Empty)) (o' : Obj),
    newBundle toy (List.replicate 16 0) [some (Any.lib (U := Empty) exDomain)] = .ok v ∧
      enc toy tyBundle v = some doc ∧ fromJSONText toy [] doc.raw = .ok col ∧
      col.get (getID exDomain) = some (.lib o') ∧
      ∀ c opts o, Makes exEnvToy.sha1 toy c opts o → (promise c).kind = o'.sid → o'.sid = .DomainName →
        SameContributions toy [b!"value"] o o' → prop o (b!"id") = some (.str (getID exDomain)) := by
  have hall : ((Coll.new false).addAll ([exDomain].map (Any.lib (U := Empty)))).AllObjects
      ([exDomain].map fun o => some (Any.lib (U := Empty) o)) := by
    have := (allObjects_self ([exDomain].map (Any.lib (U := Empty))) (by
      intro a ha
      obtain ⟨o, ho, rfl⟩ := List.mem_map.1 ha
      rw [List.mem_singleton] at ho
      subst ho
      exact (c64_sound _ (makes_built exDomain_makes.1 exDomain_makes.2)).1.ident) (by simp) _).2 rfl
    rwa [List.map_map] at this
  have hh : (newBundle (U := Empty) toy (List.replicate 16 0)
      ([exDomain].map fun o => some (Any.lib o))).okWith (fun v =>
        (enc toy tyBundle v).all fun doc => decide (height doc ≤ 10000)) = true := by decide +kernel
  obtain ⟨v, doc, col, h1, h2, h3, h4, h5⟩ := c87_rebuilt (U := Empty) Props.Canon.toy_laws toy_writes
    toy_integers exEnvToy.sha1 false [exDomain]
    (fun o ho => by rw [List.mem_singleton] at ho; subst ho; exact ⟨_, _, exDomain_makes⟩)
    (List.replicate 16 0) rfl _ ⟨_, hall, rfl⟩ (fun v doc e1 e2 => by
      obtain ⟨v', e, h⟩ := Res.okWith_iff.1 hh
      rw [e] at e1
      cases e1
      rw [e2] at h
      simpa using h) [] (by rintro o ho; simp at ho)
  obtain ⟨o', ho'⟩ := h4 exDomain List.mem_cons_self
  exact ⟨v, doc, col, o', h1, h2, h3, ho', fun c opts o hm hk hsid hsame =>
    (h5 _ o' ho' _ (by rw [hsid]; rfl)).2 c opts o hm hk hsame⟩

end Stix
