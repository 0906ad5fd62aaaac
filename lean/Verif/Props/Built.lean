import Verif.Spec.Built
import Verif.Props.CtorMarshal
import Verif.Props.Text

/-!
# What is built is what is received (C64)
-/

namespace Stix
open Spec StixObject
open Props.Canon (toy)
open Text (WritesNumbers height)

variable {F : Canon.FloatFmt} {U : Type} [UserType U]

theorem typ_goTypes (c : Ctor) : (c.typ, c.kind) ∈ goTypes := by
  cases c <;> (simp only [Ctor.typ, Ctor.kind]; decide +kernel)

theorem typ_ascii (c : Ctor) : c.typ.all (fun x => x < 128) = true := by
  cases c <;> (simp only [Ctor.typ]; decide +kernel)

theorem unicode_newObservableIdentifier (sha1 : Str → List UInt8) (hs : ∀ x, (sha1 x).length = 20)
    (s t : Str) (ht : t.all (fun c => c < 128) = true) :
    Canon.Unicode (newObservableIdentifier sha1 s t) := by
  apply unicode_ascii
  obtain ⟨a, b, c, d, e, h1, h2, h3, h4, h5, h6⟩ :=
    uuidCanon_uuidString (uuidSHA1 sha1 s) (by simp [uuidSHA1, uuidStamp_length, hs])
  rw [newObservableIdentifier, h6]
  simp only [List.all_append, hexRun_ascii h1, hexRun_ascii h2, hexRun_ascii h3, hexRun_ascii h4,
    hexRun_ascii h5, ht]
  decide

theorem valArgs_typed {c : Ctor} (h : ValArgs carriable c) : ValArgs typed c :=
  fun e he r hr hk => carriable_typed (h e he r hr hk)

/-- **C64.** Objects that are built with the constructors can be sent. -/
theorem c64_sound (o : Obj) (h : Built o) : Sound o ∧ o.extra = none := by
  obtain ⟨env, c, opts, he, hnow, hl, ha, hv, hb, hsup, hrun⟩ := h
  obtain ⟨hs, hex, -, hp⟩ := run_ok_prop hl hrun
  obtain ⟨id, hid, hident⟩ := run_ok_id he hl hrun
  have ht : prop o (b!"type") = some (.str c.typ) := by
    rw [hp _ (by decide) (fun opt ho => (target_ne opt (hl opt ho) _).2), prop_base_type]
  have h1 : getID o = id := by simp [StixObject.getID, Obj.getStr, hid]
  have h2 : getType o = c.typ := by
    rw [prop_type] at ht
    simp [StixObject.getType, Obj.getStr, Option.some.inj ht]
  have hval : ValObj carriable o := run_val carriable_zeroOk
    ⟨unicode_ascii _ (typ_ascii c), unicode_ascii _ (by decide),
      unicode_newIdentifier env.rnd he.1 _ (typ_ascii c), hnow⟩
    (fun t => unicode_newObservableIdentifier _ he.2 _ _ (typ_ascii c)) ha hl hv hrun
  have hty : TypedObj o := ⟨fun r hr => carriable_typed (hval r hr), by
    rw [extras, hex]; exact sortedKeys_nil, by rw [extras, hex]; intro e he; cases he⟩
  refine ⟨⟨?_, ?_, hval, ?_, hty.sorted, ?_, ?_⟩, hex⟩
  · rw [h2, hs]; exact typ_goTypes c
  · rw [Acceptable, h1, h2]; exact hident
  · intro hne
    exact (c27_required_partial (F := toy) o hty hne).1
      ((run_marshals env he c opts hl o hrun hty hb).2 hsup)
  · rw [extras, hex]; intro e he; cases he
  · rw [extras, hex]; intro e he; cases he

/-- **C64.** Objects that are built with the constructors and collected can be bundled, the JSON text of
the bundle is accepted, and what is read from it are the objects of the collection, in order, with the
same ids and the same properties (timestamps to the millisecond). -/
theorem c64_end_to_end (L : Canon.FloatLaws F) (W : WritesNumbers F) (hI : IntegersParse F)
    (ns : Bool) (built : List Obj) (hs : ∀ o ∈ built, Built o)
    (rnd : List UInt8) (hr : rnd.length = 16) (b : Res GV)
    (hb : toBundle F rnd ((Coll.new ns).addAll (built.map (Any.lib (U := U)))) b)
    (hh : ∀ v doc, b = .ok v → enc F tyBundle v = some doc → height doc ≤ 10000)
    (opts : List (CollOption U)) (hn : NoParsers opts) :
    ∃ v doc c os os', b = .ok v ∧ enc F tyBundle v = some doc ∧
      fromJSONText F opts doc.raw = .ok c ∧
      ((Coll.new ns).addAll (built.map (Any.lib (U := U)))).AllObjects
        (os.map fun o => some (.lib o)) ∧
      (∀ o ∈ os, o ∈ built) ∧ (∀ o ∈ built, ∃ p ∈ os, getID p = getID o) ∧
      (ns = false → (built.map getID).Nodup → os = built) ∧
      List.Forall₂ (fun o o' => getID o' = getID o ∧ Survives o o' ∧ o'.extra = none) os os' ∧
      (∀ id a, c.get id = some a ↔ ∃ o' ∈ os', a = .lib o' ∧ getID o' = id) ∧
      (CollOption.noSort ∉ opts → ∀ out, c.AllObjects out ↔ out = os'.map fun o => some (.lib o)) := by
  have hget : ∀ id a, ((Coll.new ns).addAll (built.map (Any.lib (U := U)))).get id = some a →
      ∃ o ∈ built, a = .lib o ∧ getID o = id := by
    intro id a ha
    rw [c01_get_latest] at ha
    obtain ⟨-, hi, hm⟩ := latest_acceptable ha
    obtain ⟨o, ho, rfl⟩ := List.mem_map.1 hm
    exact ⟨o, ho, rfl, hi⟩
  obtain ⟨v, doc, c, os, os', h1, h2, -, h3, h4, h5, h6, h7, h8⟩ := c36_text_partial L W hI ns _
    (fun id a ha => by
      obtain ⟨o, ho, rfl, -⟩ := hget id a ha
      exact ⟨o, rfl, (c64_sound o (hs o ho)).1⟩) rnd hr b hb hh opts hn
  obtain ⟨as, e, -, has⟩ := allObjects_spec ns _ _ h4
  have hmem : ∀ a, a ∈ as ↔ ∃ o ∈ os, a = .lib o := by
    intro a
    have : some a ∈ as.map some ↔ some a ∈ os.map fun o => some (Any.lib o) := by rw [e]
    simpa [eq_comm] using this
  have hin : ∀ o ∈ os, o ∈ built := by
    intro o ho
    obtain ⟨p, hp, hq, -⟩ := hget _ _ ((has _ (.lib o)).2 ⟨(hmem _).2 ⟨o, ho, rfl⟩, rfl⟩)
    cases hq
    exact hp
  refine ⟨v, doc, c, os, os', h1, h2, h3, h4, hin, ?_, ?_, ?_, h7, h8⟩
  · intro o ho
    cases hg : ((Coll.new ns).addAll (built.map (Any.lib (U := U)))).get (getID o) with
    | none =>
      exact absurd (c64_sound o (hs o ho)).1.ident
        ((c01_get_nil ns _ _).1 hg (.lib o) (List.mem_map.2 ⟨o, ho, rfl⟩) rfl)
    | some a =>
      obtain ⟨ha, hi⟩ := (has _ a).1 hg
      obtain ⟨p, hp, rfl⟩ := (hmem a).1 ha
      exact ⟨p, hp, hi⟩
  · rintro rfl hnd
    have := (allObjects_self (built.map (Any.lib (U := U))) (by
      intro a ha
      obtain ⟨o, ho, rfl⟩ := List.mem_map.1 ha
      exact (c64_sound o (hs o ho)).1.ident) (by rw [List.map_map]; exact hnd) _).1 h4
    rw [List.map_map] at this
    exact List.map_injective_iff.2 (fun x y h => by simpa using h) this
  · have hf := c36_no_extended h5 (.inr fun o ho => .inr (by
      rw [extras, (c64_sound o (hs o (hin o ho))).2]; rfl))
    clear h3 h4 h5 h7 h8 e hmem hin
    induction hf with
    | nil => exact .nil
    | cons h _ ih =>
      simp only [List.map_cons, List.cons.injEq] at h6
      exact .cons ⟨h6.1, h⟩ (ih h6.2)

/-! ### A case -/

/-- What a call returned. -/
def Ret.obj : Ret → Obj
  | .ret (some o) _ => o
  | _ => ⟨.Tool, fun _ => .bool false, none⟩

/-- A tool with a version, and a domain name. -/
def exBuilt : List Obj :=
  [((Ctor.tool (b!"nmap")).run exEnv [some (.field OptionVersion (.str (b!"7")))]).obj,
   ((Ctor.domainName (b!"example.com")).run exEnv []).obj]

theorem exBuilt_built : ∀ o ∈ exBuilt, Built o := by
  have hnow : 0 ≤ exEnv.now.ns ∧ exEnv.now.ns < endOfYears := by decide
  intro o ho
  simp only [exBuilt, List.mem_cons, List.not_mem_nil, or_false] at ho
  rcases ho with rfl | rfl
  · refine ⟨exEnv, .tool (b!"nmap"), [some (.field OptionVersion (.str (b!"7")))], exEnv_sane, hnow,
      ?_, ?_, ?_, ?_, trivial, rfl⟩
    · intro opt ho
      simp only [List.mem_cons, Option.some.injEq, List.not_mem_nil, or_false] at ho
      subst ho
      simp [Library, optTable]
    · intro e he r hr hk
      simp only [promise, List.mem_cons, List.not_mem_nil, or_false] at he
      subst he
      have h : ∀ r ∈ objFields .Tool, r.key = b!"name" → r.ty.isStr = true := by decide +kernel
      exact val_text (h r hr hk) (unicode_ascii _ (by decide))
    · intro opt ho
      simp only [List.mem_cons, Option.some.injEq, List.not_mem_nil, or_false] at ho
      subst ho
      exact ⟨_, rfl, unicode_ascii _ (by decide)⟩
    · intro row v hm r hr _ _
      simp only [List.mem_cons, Option.some.injEq, Opt.field.injEq, List.not_mem_nil, or_false] at hm
      obtain ⟨-, rfl⟩ := hm
      exact not_unset rfl _
  · refine ⟨exEnv, .domainName (b!"example.com"), [], exEnv_sane, hnow, ?_, ?_, ?_, ?_, trivial, rfl⟩
    · intro opt ho; cases ho
    · intro e he r hr hk
      simp only [promise, List.mem_cons, List.not_mem_nil, or_false] at he
      subst he
      have h : ∀ r ∈ objFields .DomainName, r.key = b!"value" → r.ty.isStr = true := by decide +kernel
      exact val_text (h r hr hk) (unicode_ascii _ (by decide))
    · intro opt ho; cases ho
    · intro row v hm; cases hm

/-- C64: the two objects meet the hypotheses. -/
example : ∃ (v : GV) (doc : Json) (c : Coll (Any Empty)) (os' : List Obj),
    newBundle toy (List.replicate 16 0) (exBuilt.map fun o => some (Any.lib (U := Empty) o)) = .ok v ∧
      enc toy tyBundle v = some doc ∧ fromJSONText toy [] doc.raw = .ok c ∧
      List.Forall₂ (fun o o' => getID o' = getID o ∧ Survives o o' ∧ o'.extra = none) exBuilt os' ∧
      c.AllObjects (os'.map fun o => some (.lib o)) := by
  have hnd : (exBuilt.map getID).Nodup := by decide +kernel
  have hall : ((Coll.new false).addAll (exBuilt.map (Any.lib (U := Empty)))).AllObjects
      (exBuilt.map fun o => some (Any.lib (U := Empty) o)) := by
    have := (allObjects_self (exBuilt.map (Any.lib (U := Empty))) (by
      intro a ha
      obtain ⟨o, ho, rfl⟩ := List.mem_map.1 ha
      exact (c64_sound o (exBuilt_built o ho)).1.ident) (by rw [List.map_map]; exact hnd) _).2 rfl
    rwa [List.map_map] at this
  have hh : (newBundle (U := Empty) toy (List.replicate 16 0)
      (exBuilt.map fun o => some (Any.lib o))).okWith (fun v =>
        (enc toy tyBundle v).all fun doc => decide (height doc ≤ 10000)) = true := by decide +kernel
  obtain ⟨v, doc, c, os, os', h1, h2, h3, h4, -, -, h5, h6, -, h7⟩ := c64_end_to_end
    Props.Canon.toy_laws toy_writes toy_integers false exBuilt exBuilt_built (List.replicate 16 0) rfl _
    ⟨_, hall, rfl⟩ (fun v doc e1 e2 => by
      obtain ⟨v', e, h⟩ := Res.okWith_iff.1 hh
      rw [e] at e1
      cases e1
      rw [e2] at h
      simpa using h) [] (by rintro o ho; simp at ho)
  obtain rfl := h5 rfl hnd
  exact ⟨v, doc, c, os', h1, h2, h3, h6, (h7 (by simp) _).2 rfl⟩

end Stix
