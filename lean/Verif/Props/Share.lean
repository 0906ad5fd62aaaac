import Verif.Model.Share
import Verif.Props.Ctor

/-!
# What objects share with each other and with the program (C74)
-/

namespace Stix
open Spec

/-! ## Specification -/

/-- What the field of a property holds. -/
def Spec.place (o : RObj) (p : Str) : Option Slot :=
  ((objFields o.sid).find? (fun f => f.key == p)).map fun f => o.slot f.name

/-- What the last option for the property was given. -/
def Spec.lastGiven (s : SId) (p : Str) : List (Option ROpt) → Option Slot
  | [] => none
  | some (.field row x) :: opts =>
    match lastGiven s p opts with
    | some y => some y
    | none => if optionProperty s row.name = some p then some x else none
  | _ :: opts => lastGiven s p opts

/-- What the program gave the constructor for the property: by the last option for it, or else as a
pointer, slice or map argument. -/
def Spec.given (k : Call) (p : Str) : Option Slot :=
  match lastGiven (promise k.c).kind p k.opts with
  | some x => some x
  | none => if p ∈ (promise k.c).args.map (·.1) then (k.args p).map .ref else none

/-- A call as a program can make it: references are to memory that is in use, the values of the
arguments are those that are seen through them, options are the library's. -/
structure Spec.Possible (k : Call) (m : Mem) : Prop where
  args : ∀ e ∈ (promise k.c).args, ∀ a, k.args e.1 = some a → a < m.next ∧ m.cell a = e.2
  opts : ∀ row x, some (ROpt.field row x) ∈ k.opts → row ∈ optTable ∧ ∀ a, x = .ref a → a < m.next

/-- A program goes from one state to another. -/
def Spec.Runs : Prog → List Act → Prog → Prop
  | s, [], s' => s' = s
  | s, .make k :: l, s' => Possible k s.mem ∧ Runs (s.step (.make k)) l s'
  | s, .alloc v :: l, s' => Runs (s.step (.alloc v)) l s'
  | s, .write a v :: l, s' => Runs (s.step (.write a v)) l s'

/-- The kinds whose two timestamps are one. -/
def Spec.oneStamp : List SId := [.Sighting, .LanguageContent, .ExtensionDefinition]

/-! ## Fields -/

theorem place_field {o : RObj} {f : FieldInfo} (hf : f ∈ objFields o.sid) :
    place o f.key = some (o.slot f.name) := by
  simp [place, find?_key (objFields_keys_nodup o.sid) hf]

theorem place_some {o : RObj} {p : Str} {x : Slot} (h : place o p = some x) :
    ∃ f ∈ objFields o.sid, f.key = p ∧ o.slot f.name = x := by
  simp only [place, Option.map_eq_some_iff] at h
  obtain ⟨f, hf, hx⟩ := h
  exact ⟨f, List.mem_of_find?_eq_some hf, by simpa using List.find?_some hf, hx⟩

theorem prop_read (m : Mem) (o : RObj) (p : Str) :
    prop (o.read m) p = (place o p).map (Slot.read m) := by
  simp only [prop, place, RObj.read, Option.map_map]
  rfl

theorem place_set {o : RObj} {f : FieldInfo} (hf : f ∈ objFields o.sid) (x : Slot) (q : Str) :
    place (o.set f.name x) q = if q = f.key then some x else place o q := by
  by_cases hq : q = f.key
  · subst hq
    rw [if_pos rfl, place_field (o := o.set f.name x) hf]
    simp [RObj.set]
  · rw [if_neg hq]
    simp only [place, RObj.set]
    cases h : (objFields o.sid).find? (fun g => g.key == q) with
    | none => rfl
    | some g =>
      have hgq : g.key = q := by simpa using List.find?_some h
      have hg := List.mem_of_find?_eq_some h
      have : g.name ≠ f.name := by
        intro e; have := name_inj hg hf e; subst this; exact hq hgq.symm
      simp [this]

theorem read_set (m : Mem) (o : RObj) (n : Str) (x : Slot) :
    (o.set n x).read m = (o.read m).set n (x.read m) := by
  simp only [RObj.read, RObj.set, Obj.set, Obj.mk.injEq, true_and, and_true]
  funext y
  simp only [setVal]
  split <;> rfl

/-! ## Options -/

/-- What holds while options are applied: references are to memory in use, those below `lo` from
before, and the extensions map is the object's own. -/
structure Tidy (lo : Nat) (o : RObj) (m : Mem) : Prop where
  up : lo ≤ m.next
  ext : ∀ a, o.slot (b!"Extensions") = .ref a → lo ≤ a ∧ a < m.next
  old : ∀ n a, n ≠ b!"Extensions" → o.slot n = .ref a → a < lo

theorem rapply_field {row : OptRow} (hrow : row ∈ optTable) (x : Slot) (o : RObj) (m : Mem) :
    (optionProperty o.sid row.name = none ∧ ∃ r, r ≠ .ok () ∧
      (ROpt.field row x).apply o m = (o, m, r) ∧ ∀ v ob, ob.sid = o.sid → (Opt.field row v).apply ob = (ob, r)) ∨
    (∃ f ∈ objFields o.sid, optionProperty o.sid row.name = some f.key ∧ f.key ≠ b!"id" ∧
      f.key ≠ b!"extensions" ∧ (ROpt.field row x).apply o m = (o.set f.name x, m, .ok ()) ∧
      ∀ v ob, ob.sid = o.sid → (Opt.field row v).apply ob = (ob.set f.name v, .ok ())) := by
  have hc := optCheck_table row hrow o.sid (mem_allSIds _)
  simp only [optCheck] at hc
  simp only [ROpt.apply, Opt.apply, setField]
  cases hf : getFieldFromBaseStruct o.sid row.field with
  | none =>
    rw [hf] at hc
    exact .inl ⟨by simpa using hc, .err .other, by simp, rfl, fun v ob h => by rw [h, hf]⟩
  | some f =>
    rw [hf] at hc
    simp only at hc ⊢
    by_cases hk : f.ty.kind ≠ row.kind
    · rw [if_pos hk] at hc ⊢
      exact .inl ⟨by simpa using hc, .err .other, by simp, rfl, fun v ob h => by
        rw [h, hf]; simp only; rw [if_pos hk]⟩
    · rw [if_neg hk] at hc ⊢
      by_cases ha : row.ty.assignable f.ty = false
      · rw [if_pos ha] at hc ⊢
        simp only [Bool.and_eq_true, Option.isNone_iff_eq_none, beq_iff_eq] at hc
        exact .inl ⟨hc.1.1, .panic, by simp, rfl, fun v ob h => by
          rw [h, hf]; simp only; rw [if_neg hk, if_pos ha]⟩
      · rw [if_neg ha] at hc ⊢
        simp only [Bool.and_eq_true, beq_iff_eq, bne_iff_ne] at hc
        exact .inr ⟨f, (getField_some hf).1, hc.1.1.1, hc.1.1.2, hc.2, rfl, fun v ob h => by
          rw [h, hf]; simp only; rw [if_neg hk, if_neg ha]⟩

theorem ext_name {s : SId} {f : FieldInfo} (hf : f ∈ objFields s) :
    f.key = b!"extensions" ↔ f.name = b!"Extensions" := by
  have : ∀ s ∈ allSIds, ∀ f ∈ objFields s, f.key = b!"extensions" ↔ f.name = b!"Extensions" := by
    decide +kernel
  exact this s (mem_allSIds s) f hf

theorem id_name {s : SId} {f : FieldInfo} (hf : f ∈ objFields s) :
    f.key = b!"id" ↔ f.name = b!"ID" := by
  have : ∀ s ∈ allSIds, ∀ f ∈ objFields s, f.key = b!"id" ↔ f.name = b!"ID" := by
    decide +kernel
  exact this s (mem_allSIds s) f hf

theorem read_congr {m m' : Mem} {o : RObj} (h : ∀ n a, o.slot n = .ref a → m'.cell a = m.cell a) :
    o.read m' = o.read m := by
  simp only [RObj.read, Obj.mk.injEq, true_and, and_true]
  funext n
  cases hs : o.slot n with
  | val v => rfl
  | ref a => exact h n a hs

theorem optionExtension_eq (n : Str) (v : GV) (o : Obj) : optionExtension n v o =
    match findFieldForExtension o.sid with
    | none => (o, .err .other)
    | some f =>
      match f.ty with
      | .ext _ => (o.set f.name (.map (some (smInsert n v (mapOf (o.val f.name))))), .ok ())
      | _ => (o, .panic) := by
  unfold optionExtension
  cases findFieldForExtension o.sid with
  | none => rfl
  | some f =>
    simp only
    cases f.ty <;> rfl

/-- `OptionExtension` -/
theorem rapply_ext (n : Str) (v : GV) (o : RObj) (m : Mem) (lo : Nat) (ht : Tidy lo o m) :
    ∃ o' m' r, (ROpt.extension n v).apply o m = (o', m', r) ∧
      (Opt.extension n v).apply (o.read m) = (o'.read m', r) ∧ Tidy lo o' m' ∧ o'.sid = o.sid ∧
      (∀ a < lo, m'.cell a = m.cell a) ∧ m.next ≤ m'.next ∧
      ∀ p, p ≠ b!"extensions" → place o' p = place o p := by
  have hc := extCheck_table o.sid (mem_allSIds _)
  simp only [extCheck] at hc
  simp only [ROpt.apply, Opt.apply, optionExtension_eq]
  have hsid : (o.read m).sid = o.sid := rfl
  rw [hsid]
  cases hf : findFieldForExtension o.sid with
  | none => exact ⟨o, m, _, rfl, rfl, ht, rfl, fun _ _ => rfl, le_refl _, fun _ _ => rfl⟩
  | some f =>
    rw [hf] at hc
    simp only [Bool.and_eq_true, beq_iff_eq, List.any_eq_true] at hc
    obtain ⟨⟨⟨hk, hn⟩, hty⟩, g, hg, ⟨hgn, hgk⟩, hgt⟩ := hc
    simp only
    cases h : f.ty <;> rw [h] at hty <;> simp at hty
    simp only
    have hval : (o.read m).val f.name = (o.slot f.name).read m := rfl
    rw [hval]
    generalize mapOf ((o.slot f.name).read m) = e
    cases hs : o.slot f.name with
    | ref a =>
      simp only
      have ha := ht.ext a (by rw [← hn]; exact hs)
      refine ⟨o, _, _, rfl, ?_, ⟨ht.up, ht.ext, ht.old⟩, rfl, fun b hb => ?_, le_refl _, fun _ _ => rfl⟩
      · simp only [Prod.mk.injEq, and_true]
        simp only [RObj.read, Obj.set, Obj.mk.injEq, true_and, and_true]
        funext y
        simp only [setVal]
        by_cases hy : y = f.name
        · subst hy; rw [if_pos rfl, hs]; simp [Slot.read, Mem.write]
        · rw [if_neg hy]
          cases hsy : o.slot y with
          | val w => rfl
          | ref b =>
            have := ht.old y b (by rw [← hn]; exact hy) hsy
            simp only [Slot.read, Mem.write]
            rw [if_neg (by omega)]
      · simp only [Mem.write]; rw [if_neg (by omega)]
    | val w =>
      simp only
      have hlo := ht.up
      refine ⟨_, _, _, rfl, ?_, ⟨?_, ?_, ?_⟩, rfl, fun b hb => ?_, Nat.le_succ _, fun p hp => ?_⟩
      · rw [read_set]
        have : o.read (m.alloc (.map (some (smInsert n v e)))) = o.read m := read_congr fun y a ha => by
          have : a < m.next := by
            by_cases hy : y = b!"Extensions"
            · exact (ht.ext a (hy ▸ ha)).2
            · exact lt_of_lt_of_le (ht.old y a hy ha) hlo
          simp only [Mem.alloc]; rw [if_neg (by omega)]
        rw [this]
        simp [Slot.read, Mem.alloc]
      · simp only [Mem.alloc]; omega
      · intro a ha
        rw [hn] at ha
        simp only [RObj.set, if_true] at ha
        cases ha
        simp only [Mem.alloc]; omega
      · intro y a hy ha
        rw [hn] at ha
        simp only [RObj.set, if_neg hy] at ha
        exact ht.old y a hy ha
      · simp only [Mem.alloc]; rw [if_neg (by omega)]
      · rw [← hgn, place_set hg, if_neg (by rw [hgk, hk]; exact hp)]

/-- All options, with and without memory. -/
theorem rapply_all (opts : List (Option ROpt)) (o : RObj) (m : Mem) (lo : Nat) (ht : Tidy lo o m)
    (ho : ∀ row x, some (ROpt.field row x) ∈ opts → row ∈ optTable ∧ ∀ a, x = .ref a → a < lo) :
    ∃ o' m' r, applyROptions o m opts = (o', m', r) ∧
      applyOptions (o.read m) (opts.map (Option.map (ROpt.at m))) = (o'.read m', r) ∧
      Tidy lo o' m' ∧ o'.sid = o.sid ∧ (∀ a < lo, m'.cell a = m.cell a) ∧ m.next ≤ m'.next ∧
      (r = .ok () → ∀ p, p ≠ b!"extensions" →
        (lastGiven o.sid p opts = none → place o' p = place o p) ∧
        ∀ x, lastGiven o.sid p opts = some x → place o' p = some x ∧ p ≠ b!"id") := by
  induction opts generalizing o m with
  | nil => exact ⟨o, m, _, rfl, rfl, ht, rfl, fun _ _ => rfl, le_refl _, fun _ p _ =>
      ⟨fun _ => rfl, fun x hx => by cases hx⟩⟩
  | cons a opts ih =>
    have ho' : ∀ row x, some (ROpt.field row x) ∈ opts → row ∈ optTable ∧ ∀ a, x = .ref a → a < lo :=
      fun row x h => ho row x (List.mem_cons_of_mem _ h)
    have hat : ∀ m', (∀ a < lo, m'.cell a = m.cell a) →
        opts.map (Option.map (ROpt.at m')) = opts.map (Option.map (ROpt.at m)) := by
      intro m' hm
      apply List.map_congr_left
      intro y hy
      cases y with
      | none => rfl
      | some y =>
        cases y with
        | extension n v => rfl
        | field row x =>
          simp only [Option.map_some, ROpt.at]
          cases x with
          | val v => rfl
          | ref a => simp only [Slot.read]; rw [hm a ((ho' row _ hy).2 a rfl)]
    cases a with
    | none => exact ih o m ht ho'
    | some opt =>
      cases opt with
      | extension n v =>
        obtain ⟨o1, m1, r1, e1, e2, ht1, hs1, hc1, hn1, hp1⟩ := rapply_ext n v o m lo ht
        by_cases hr : r1 = .ok ()
        · subst hr
          obtain ⟨o2, m2, r2, f1, f2, ht2, hs2, hc2, hn2, hp2⟩ := ih o1 m1 ht1 ho'
          refine ⟨o2, m2, r2, ?_, ?_, ht2, hs2.trans hs1, fun a ha => (hc2 a ha).trans (hc1 a ha),
            hn1.trans hn2, fun hr p hp => ?_⟩
          · simp only [applyROptions, e1]; exact f1
          · have : (List.map (Option.map (ROpt.at m)) (some (ROpt.extension n v) :: opts)) =
                some (Opt.extension n v) :: opts.map (Option.map (ROpt.at m)) := rfl
            rw [this, applyOptions_cons_ok (by rw [e2]), e2, ← hat m1 hc1]
            exact f2
          · obtain ⟨g1, g2⟩ := hp2 hr p hp
            rw [hs1] at g1 g2
            exact ⟨fun h => (g1 h).trans (hp1 p hp), g2⟩
        · refine ⟨o1, m1, r1, ?_, ?_, ht1, hs1, hc1, hn1, fun h => absurd h hr⟩
          · simp only [applyROptions, e1]
            cases r1 <;> first | rfl | exact absurd rfl hr
          · have : (List.map (Option.map (ROpt.at m)) (some (ROpt.extension n v) :: opts)) =
                some (Opt.extension n v) :: opts.map (Option.map (ROpt.at m)) := rfl
            rw [this, applyOptions_cons_fail (by rw [e2]; exact hr), e2]
      | field row x =>
        obtain ⟨hrow, hx⟩ := ho row x (by simp)
        have hmap : (List.map (Option.map (ROpt.at m)) (some (ROpt.field row x) :: opts)) =
            some (Opt.field row (x.read m)) :: opts.map (Option.map (ROpt.at m)) := rfl
        rcases rapply_field hrow x o m with ⟨-, r, hr, e1, e2⟩ | ⟨f, hf, hop, hid, hext, e1, e2⟩
        · refine ⟨o, m, r, ?_, ?_, ht, rfl, fun _ _ => rfl, le_refl _, fun h => absurd h hr⟩
          · simp only [applyROptions, e1]
            cases r <;> first | rfl | exact absurd rfl hr
          · rw [hmap, applyOptions_cons_fail (by rw [e2 _ _ rfl]; exact hr), e2 _ _ rfl]
        · have hfe : f.name ≠ b!"Extensions" := fun h => hext ((ext_name hf).2 h)
          have ht1 : Tidy lo (o.set f.name x) m := by
            refine ⟨ht.up, fun a ha => ht.ext a ?_, fun n a hn ha => ?_⟩
            · simpa [RObj.set, Ne.symm hfe] using ha
            · by_cases hnf : n = f.name
              · subst hnf
                exact hx a (by simpa [RObj.set] using ha)
              · exact ht.old n a hn (by simpa [RObj.set, hnf] using ha)
          obtain ⟨o2, m2, r2, f1, f2, ht2, hs2, hc2, hn2, hp2⟩ := ih (o.set f.name x) m ht1 ho'
          refine ⟨o2, m2, r2, ?_, ?_, ht2, hs2, hc2, hn2, fun hr p hp => ?_⟩
          · simp only [applyROptions, e1]; exact f1
          · rw [hmap, applyOptions_cons_ok (by rw [e2 _ _ rfl]), e2 _ _ rfl]
            rw [read_set] at f2
            exact f2
          · obtain ⟨g1, g2⟩ := hp2 hr p hp
            have hsid : (o.set f.name x).sid = o.sid := rfl
            rw [hsid] at g1 g2
            simp only [lastGiven]
            cases hl : lastGiven o.sid p opts with
            | some y =>
              refine ⟨fun h => (by cases h), fun z hz => ?_⟩
              cases hz
              exact g2 y hl
            | none =>
              simp only [hop]
              have := g1 hl
              rw [place_set hf] at this
              by_cases hpk : f.key = p
              · subst hpk
                rw [if_pos rfl] at this
                refine ⟨fun h => by simp at h, fun z hz => ?_⟩
                simp only [if_true, Option.some.injEq] at hz
                subst hz
                exact ⟨this, hid⟩
              · rw [if_neg (Ne.symm hpk)] at this
                refine ⟨fun _ => this, fun z hz => ?_⟩
                rw [if_neg (fun h => hpk (Option.some.inj h))] at hz
                cases hz

/-! ## The literal -/

/-- The property of a field. -/
def keyOfField (s : SId) (n : Str) : Option Str := ((objFields s).find? fun f => f.name == n).map (·.key)

theorem own_arg {c : Ctor} {n : Str} {v : GV} (h : amLookup n c.own = some v) :
    (∃ p, keyOfField c.kind n = some p ∧ (p, v) ∈ (promise c).args) ∧
      amLookup n c.stamps = none ∧ n ≠ b!"Extensions" ∧ ∀ env, (c.base env).val n = v := by
  cases c <;> simp only [Ctor.own, amLookup] at h <;> (try cases h) <;> split_ifs at h <;> cases h <;>
    subst_vars <;> exact ⟨⟨_, rfl, by simp [promise]⟩, rfl, by decide, fun _ => rfl⟩

theorem arg_own {c : Ctor} {p : Str} (h : p ∈ (promise c).args.map (·.1)) :
    ∃ n v, keyOfField c.kind n = some p ∧ amLookup n c.own = some v := by
  have : ∀ p ∈ (promise c).args.map (·.1), p ∈ (c.own.map (·.1)).filterMap (keyOfField c.kind) := by
    cases c <;>
      (simp only [promise, Ctor.own, Ctor.kind, List.map_cons, List.map_nil]; decide +kernel)
  obtain ⟨n, hn, hk⟩ := List.mem_filterMap.1 (this p h)
  cases hl : amLookup n c.own with
  | some v => exact ⟨n, v, hk, hl⟩
  | none => exact absurd hn ((amLookup_eq_none_iff n c.own).1 hl)

theorem stamps_cases (c : Ctor) : (c.stamps = [] ∨ c.stamps = [(b!"Created", 0)] ∨
      c.stamps = [(b!"Created", 0), (b!"Modified", if c.kind ∈ oneStamp then 0 else 1)]) ∧
    ∀ e ∈ c.stamps, ∀ env, (c.base env).val e.1 = gvTime env.now := by
  constructor
  · cases c <;> first | exact .inl rfl | exact .inr (.inl rfl) | exact .inr (.inr rfl)
  · cases c <;> first
      | exact fun e he => absurd he (List.not_mem_nil (a := e))
      | (intro e he
         rcases List.mem_cons.1 he with rfl | he
         · exact fun _ => rfl
         · rcases List.mem_cons.1 he with rfl | he
           · exact fun _ => rfl
           · exact absurd he List.not_mem_nil)
      | (intro e he
         rcases List.mem_cons.1 he with rfl | he
         · exact fun _ => rfl
         · exact absurd he List.not_mem_nil)

theorem stamp_some {c : Ctor} {n : Str} {i : Nat} (h : amLookup n c.stamps = some i) :
    ((n = b!"Created" ∧ i = 0) ∨ (n = b!"Modified" ∧ i = if c.kind ∈ oneStamp then 0 else 1)) ∧
      i ≤ 1 ∧ ∀ env, (c.base env).val n = gvTime env.now := by
  have hm := mem_of_amLookup n i c.stamps h
  refine ⟨?_, ?_, (stamps_cases c).2 _ hm⟩ <;>
    rcases (stamps_cases c).1 with hs | hs | hs <;> rw [hs] at hm <;> simp at hm
  · exact .inl hm
  · exact hm
  · omega
  · rcases hm with ⟨-, rfl⟩ | ⟨-, rfl⟩
    · omega
    · split_ifs <;> omega

theorem keyOfField_iff {s : SId} {n p : Str} :
    keyOfField s n = some p ↔ ∃ f ∈ objFields s, f.name = n ∧ f.key = p := by
  simp only [keyOfField, Option.map_eq_some_iff]
  constructor
  · rintro ⟨f, hf, hk⟩
    exact ⟨f, List.mem_of_find?_eq_some hf, by simpa using List.find?_some hf, hk⟩
  · rintro ⟨f, hf, rfl, rfl⟩
    cases h : (objFields s).find? fun g => g.name == f.name with
    | none => exact absurd (List.find?_eq_none.1 h f hf) (by simp)
    | some g =>
      have hg : g = f := name_inj (List.mem_of_find?_eq_some h) hf (by simpa using List.find?_some h)
      exact ⟨g, rfl, by rw [hg]⟩

theorem argSlot_eq {k : Call} {n p : Str} (v : GV) (h : keyOfField k.c.kind n = some p) :
    k.argSlot n v = match k.args p with
      | some a => .ref a
      | none => .val v := by
  simp only [keyOfField, Option.map_eq_some_iff] at h
  obtain ⟨f, hf, rfl⟩ := h
  simp only [Call.argSlot, hf]
  rfl

theorem stamp_key {s : SId} {f : FieldInfo} (hf : f ∈ objFields s) :
    (f.name = b!"Created" → f.key = b!"created") ∧ (f.name = b!"Modified" → f.key = b!"modified") := by
  have : ∀ s ∈ allSIds, ∀ f ∈ objFields s,
      (f.name = b!"Created" → f.key = b!"created") ∧ (f.name = b!"Modified" → f.key = b!"modified") := by
    decide +kernel
  exact this s (mem_allSIds s) f hf

/-- What the fields of the literal hold. -/
theorem base_place {k : Call} {m : Mem} {p : Str} {x : Slot} (h : place (k.base m) p = some x) :
    (p ∉ (promise k.c).args.map (·.1) ∧ ∃ i, x = .ref (m.next + i) ∧
      (p = b!"created" ∧ i = 0 ∨ p = b!"modified" ∧ i = if (promise k.c).kind ∈ oneStamp then 0 else 1)) ∨
    (∃ v, (p, v) ∈ (promise k.c).args ∧ x = match k.args p with
      | some a => .ref a
      | none => .val v) ∨
    (p ∉ (promise k.c).args.map (·.1) ∧ ∃ v, x = .val v) := by
  obtain ⟨f, hf, rfl, hx⟩ := place_some h
  have hf' : f ∈ objFields k.c.kind := hf
  have hkey : keyOfField k.c.kind f.name = some f.key := keyOfField_iff.2 ⟨f, hf', rfl, rfl⟩
  have hno : amLookup f.name k.c.own = none → f.key ∉ (promise k.c).args.map (·.1) := by
    intro hn hmem
    obtain ⟨n, v, h1, h2⟩ := arg_own hmem
    obtain ⟨g, hg, rfl, hgk⟩ := keyOfField_iff.1 h1
    have := List.inj_on_of_nodup_map (objFields_keys_nodup k.c.kind) hg hf' hgk
    rw [this, hn] at h2
    cases h2
  simp only [Call.base] at hx
  cases hst : amLookup f.name k.c.stamps with
  | some i =>
    rw [hst] at hx
    left
    have hon : amLookup f.name k.c.own = none := by
      cases ho : amLookup f.name k.c.own with
      | none => rfl
      | some v => rw [(own_arg ho).2.1] at hst; cases hst
    refine ⟨hno hon, i, hx.symm, ?_⟩
    rw [promise_kind]
    exact (stamp_some hst).1.imp (fun h => ⟨(stamp_key hf').1 h.1, h.2⟩)
      (fun h => ⟨(stamp_key hf').2 h.1, h.2⟩)
  | none =>
    rw [hst] at hx
    simp only at hx
    right
    cases ho : amLookup f.name k.c.own with
    | some v =>
      rw [ho] at hx
      left
      obtain ⟨⟨p, hp1, hp2⟩, -⟩ := own_arg ho
      rw [hkey] at hp1
      cases hp1
      exact ⟨v, hp2, by rw [← argSlot_eq v hkey]; exact hx.symm⟩
    | none =>
      rw [ho] at hx
      exact .inr ⟨hno ho, _, hx.symm⟩

theorem base_tidy {k : Call} {m : Mem} (hp : Possible k m) : Tidy (m.next + 2) (k.base m) (k.mem m) := by
  refine ⟨le_refl _, fun a ha => ?_, fun n a hn ha => ?_⟩
  · exfalso
    simp only [Call.base] at ha
    cases hst : amLookup (b!"Extensions") k.c.stamps with
    | some i => rcases (stamp_some hst).1 with ⟨h, -⟩ | ⟨h, -⟩ <;> exact absurd h (by decide)
    | none =>
      rw [hst] at ha
      cases ho : amLookup (b!"Extensions") k.c.own with
      | some v => exact absurd rfl (own_arg ho).2.2.1
      | none => rw [ho] at ha; cases ha
  · simp only [Call.base] at ha
    cases hst : amLookup n k.c.stamps with
    | some i =>
      rw [hst] at ha
      have := (stamp_some hst).2.1
      simp only [Slot.ref.injEq] at ha
      omega
    | none =>
      rw [hst] at ha
      simp only at ha
      cases ho : amLookup n k.c.own with
      | some v =>
        rw [ho] at ha
        obtain ⟨⟨p, hp1, hp2⟩, -⟩ := own_arg ho
        simp only [argSlot_eq v hp1] at ha
        cases hk : k.args p with
        | none => rw [hk] at ha; cases ha
        | some b =>
          rw [hk] at ha
          cases ha
          have := (hp.args _ hp2 a hk).1
          omega
      | none => rw [ho] at ha; cases ha

theorem alloc_cell (m : Mem) (v : GV) (b : Nat) :
    (m.alloc v).cell b = if b = m.next then v else m.cell b := rfl

theorem alloc_next (m : Mem) (v : GV) : (m.alloc v).next = m.next + 1 := rfl

theorem mem_cell (k : Call) (m : Mem) :
    (∀ a < m.next, (k.mem m).cell a = m.cell a) ∧
    ∀ i ≤ 1, (k.mem m).cell (m.next + i) = gvTime k.env.now := by
  constructor
  · intro a ha
    rw [Call.mem, alloc_cell, alloc_cell, alloc_next]
    split_ifs <;> first | rfl | omega
  · intro i hi
    rw [Call.mem, alloc_cell, alloc_cell, alloc_next]
    split_ifs <;> first | rfl | omega

theorem base_read {k : Call} {m : Mem} (hp : Possible k m) :
    (k.base m).read (k.mem m) = k.c.base k.env := by
  have hx : (k.c.base k.env).extra = none := lit_extra _ _
  have hs := base_sid k.env k.c
  have hv : ((k.base m).read (k.mem m)).val = (k.c.base k.env).val := by
    funext n
    simp only [RObj.read, Call.base]
    cases hst : amLookup n k.c.stamps with
    | some i =>
      obtain ⟨-, h1, h2⟩ := stamp_some hst
      simp only [Slot.read]
      rw [(mem_cell k m).2 i h1, h2]
    | none =>
      cases ho : amLookup n k.c.own with
      | none => rfl
      | some v =>
        obtain ⟨⟨p, hp1, hp2⟩, -, -, hb⟩ := own_arg ho
        simp only [argSlot_eq v hp1]
        rw [hb]
        cases hk : k.args p with
        | none => rfl
        | some a =>
          obtain ⟨h1, h2⟩ := hp.args _ hp2 a hk
          simp only [Slot.read]
          rw [(mem_cell k m).1 a h1, h2]
  rcases hb : k.c.base k.env with ⟨sid, val, extra⟩
  rw [hb] at hx hs hv
  simp only at hx hs hv
  subst hx hs hv
  rfl

/-! ## Calls -/

theorem post_err {env : Env} {c : Ctor} {o : Obj} {e : Err} {x : Option Obj}
    (h : c.post env o (some e) = .ret x none) : False := by
  simp only [Ctor.post] at h
  split at h
  · cases h
  · split at h <;> cases h

theorem post_ok (env : Env) (c : Ctor) (o : Obj) :
    (∃ w, c.post env o none = .ret (some w) none ∧ o.set (b!"ID") (w.val (b!"ID")) = w) ∨
    ∀ x, c.post env o none ≠ .ret x none := by
  simp only [Ctor.post]
  split
  · exact .inr fun x h => by cases h
  · split
    · refine .inl ⟨o, rfl, ?_⟩
      rcases o with ⟨sid, val, extra⟩
      simp only [Obj.set, Obj.mk.injEq, true_and, and_true]
      funext n
      simp only [setVal]
      split
      · rename_i h; rw [h]
      · rfl
    · refine .inl ⟨_, rfl, ?_⟩
      simp only [setObsID, set_val]
    · exact .inr fun x h => by cases h

/-- What a call does. -/
theorem call_run {k : Call} {m : Mem} (hp : Possible k m) :
    (∀ a < m.next, (k.run m).2.cell a = m.cell a) ∧ m.next ≤ (k.run m).2.next ∧
    (∀ o, (k.run m).1 = some o →
      k.c.run k.env (k.opts.map (Option.map (ROpt.at m))) = .ret (some (o.read (k.run m).2)) none ∧
      o.sid = (promise k.c).kind ∧
      ∃ o1, Tidy (m.next + 2) o1 (k.run m).2 ∧ o1.sid = o.sid ∧
        (∀ p, p ≠ b!"id" → place o p = place o1 p) ∧ (∃ v, place o (b!"id") = some (.val v)) ∧
        ∀ p, p ≠ b!"extensions" →
          (lastGiven (promise k.c).kind p k.opts = none → place o1 p = place (k.base m) p) ∧
          ∀ x, lastGiven (promise k.c).kind p k.opts = some x → place o1 p = some x ∧ p ≠ b!"id") ∧
    ((k.run m).1 = none → ∀ x, k.c.run k.env (k.opts.map (Option.map (ROpt.at m))) ≠ .ret x none) := by
  have hlen : (k.opts.map (Option.map (ROpt.at m))).length = k.opts.length := by simp
  cases hpre : k.c.pre k.opts.length with
  | some e =>
    have hr : k.run m = (none, m) := by simp only [Call.run, hpre]
    rw [hr]
    refine ⟨fun _ _ => rfl, le_refl _, fun o h => (by cases h), fun _ x h => ?_⟩
    rw [run_eq, hlen, hpre] at h
    cases h
  | none =>
    have ho : ∀ row x, some (ROpt.field row x) ∈ k.opts →
        row ∈ optTable ∧ ∀ a, x = .ref a → a < m.next + 2 := fun row x h =>
      ⟨(hp.opts row x h).1, fun a ha => by have := (hp.opts row x h).2 a ha; omega⟩
    obtain ⟨o1, m1, r, e1, e2, ht, hs, hc, hn, hpl⟩ := rapply_all k.opts (k.base m) (k.mem m) _ (base_tidy hp) ho
    have hat : k.opts.map (Option.map (ROpt.at (k.mem m))) = k.opts.map (Option.map (ROpt.at m)) := by
      apply List.map_congr_left
      intro y hy
      cases y with
      | none => rfl
      | some y =>
        cases y with
        | extension n v => rfl
        | field row x =>
          simp only [Option.map_some, ROpt.at]
          cases x with
          | val v => rfl
          | ref a => simp only [Slot.read]; rw [(mem_cell k m).1 a ((hp.opts row _ hy).2 a rfl)]
    rw [base_read hp, hat] at e2
    have hcell : ∀ a < m.next, m1.cell a = m.cell a := fun a ha => by
      rw [hc a (by omega), (mem_cell k m).1 a ha]
    have hnext : m.next ≤ m1.next := by
      have : (k.mem m).next = m.next + 2 := rfl
      omega
    have hsk : o1.sid = (promise k.c).kind := by rw [hs, promise_kind]; rfl
    have hrun : k.c.run k.env (k.opts.map (Option.map (ROpt.at m))) = match r with
        | .ok _ => k.c.post k.env (o1.read m1) none
        | .err e => k.c.post k.env (o1.read m1) (some e)
        | .panic => .panic := by
      rw [run_eq, hlen, hpre]
      simp only [withOptions, e2]
      cases r <;> rfl
    have hbase : (k.base m).sid = (promise k.c).kind := by rw [promise_kind]; rfl
    rw [hbase] at hpl
    cases r with
    | err e =>
      have hr : k.run m = (none, m1) := by simp only [Call.run, hpre, e1]
      rw [hr]
      refine ⟨hcell, hnext, fun o h => (by cases h), fun _ x h => ?_⟩
      rw [hrun] at h
      exact post_err h
    | panic =>
      have hr : k.run m = (none, m1) := by simp only [Call.run, hpre, e1]
      rw [hr]
      refine ⟨hcell, hnext, fun o h => (by cases h), fun _ x h => ?_⟩
      rw [hrun] at h
      cases h
    | ok u =>
      simp only at hrun
      rcases post_ok k.env k.c (o1.read m1) with ⟨w, hw, hw2⟩ | hw
      · have hr : k.run m = (some (o1.set (b!"ID") (.val (w.val (b!"ID")))), m1) := by
          simp only [Call.run, hpre, e1, hw]
        rw [hr]
        refine ⟨hcell, hnext, fun o h => ?_, fun h => (by cases h)⟩
        cases h
        obtain ⟨f, hf, hfe⟩ := List.any_eq_true.1 (hasField_id_type o1.sid).1
        simp only [Bool.and_eq_true, beq_iff_eq] at hfe
        have hset : ∀ x q, place (o1.set (b!"ID") x) q = if q = b!"id" then some x else place o1 q := by
          intro x q
          have := place_set hf x q
          rw [hfe.1, hfe.2] at this
          exact this
        refine ⟨?_, hsk, o1, ht, rfl, fun p hpi => ?_, ⟨_, by rw [hset, if_pos rfl]⟩, hpl rfl⟩
        · rw [hrun, hw, read_set, ← hw2]
          rfl
        · rw [hset, if_neg hpi]
      · have hr : k.run m = (none, m1) := by
          simp only [Call.run, hpre, e1]
          rcases hq : k.c.post k.env (o1.read m1) none with ⟨_ | x, _ | e⟩ | _
          · rfl
          · rfl
          · exact absurd hq (hw _)
          · rfl
          · rfl
        rw [hr]
        refine ⟨hcell, hnext, fun o h => (by cases h), fun _ x h => ?_⟩
        rw [hrun] at h
        exact hw x h

theorem lastGiven_ne {s : SId} {p : Str} {opts : List (Option ROpt)} {x : Slot}
    (ho : ∀ row y, some (ROpt.field row y) ∈ opts → row ∈ optTable)
    (h : lastGiven s p opts = some x) : p ≠ b!"extensions" := by
  induction opts with
  | nil => cases h
  | cons a opts ih =>
    have ih := ih fun row y hm => ho row y (List.mem_cons_of_mem _ hm)
    cases a with
    | none => exact ih h
    | some opt =>
      cases opt with
      | extension n v => exact ih h
      | field row y =>
        simp only [lastGiven] at h
        cases hl : lastGiven s p opts with
        | some z => exact ih (by rw [hl] at h; rw [hl]; exact h)
        | none =>
          rw [hl] at h
          simp only at h
          split at h
          · rename_i hop
            rcases rapply_field (ho row y (by simp)) y ⟨s, fun _ => y⟩ ⟨0, fun _ => default⟩ with
              ⟨hn, -⟩ | ⟨f, -, hf, -, hne, -⟩
            · rw [hn] at hop; cases hop
            · rw [hf] at hop; cases hop; exact hne
          · cases h

theorem arg_key_ne {c : Ctor} {p : Str} (h : p ∈ (promise c).args.map (·.1)) :
    p ≠ b!"id" ∧ p ≠ b!"extensions" := by
  have : ∀ p ∈ (promise c).args.map (·.1), p ≠ b!"id" ∧ p ≠ b!"extensions" := by
    cases c <;> (simp only [promise, List.map_cons, List.map_nil]; decide +kernel)
  exact this p h

/-- What was given is kept. -/
theorem call_given {k : Call} {m : Mem} (hp : Possible k m) {o : RObj} (h : (k.run m).1 = some o)
    {p : Str} {x : Slot} (hg : given k p = some x) : place o p = some x := by
  obtain ⟨-, hsk, o1, -, -, hid, -, hpl⟩ := (call_run hp).2.2.1 o h
  simp only [given] at hg
  cases hl : lastGiven (promise k.c).kind p k.opts with
  | some y =>
    rw [hl] at hg
    cases hg
    have he := lastGiven_ne (fun row y h => (hp.opts row y h).1) hl
    obtain ⟨h1, h2⟩ := (hpl p he).2 x hl
    rw [hid p h2, h1]
  | none =>
    rw [hl] at hg
    simp only at hg
    split at hg
    · rename_i hm
      obtain ⟨h1, h2⟩ := arg_key_ne hm
      rw [hid p h1, (hpl p h2).1 hl]
      obtain ⟨a, ha, rfl⟩ := Option.map_eq_some_iff.1 hg
      obtain ⟨n, v, hn, hv⟩ := arg_own hm
      obtain ⟨f, hf, rfl, rfl⟩ := keyOfField_iff.1 hn
      rw [place_field (o := k.base m) hf]
      simp only [Call.base, (own_arg hv).2.1, hv, argSlot_eq v hn, ha]
    · cases hg

/-- What was not given is new. -/
theorem call_new {k : Call} {m : Mem} (hp : Possible k m) {o : RObj} (h : (k.run m).1 = some o)
    {p : Str} {a : Nat} (hg : given k p = none) (ha : place o p = some (.ref a)) :
    m.next ≤ a ∧ a < (k.run m).2.next ∧
      (p = b!"extensions" ∧ m.next + 2 ≤ a ∨ p = b!"created" ∧ a = m.next ∨
       p = b!"modified" ∧ a = m.next + if (promise k.c).kind ∈ oneStamp then 0 else 1) := by
  obtain ⟨-, hsk, o1, ht, hs1, hid, ⟨v, hv⟩, hpl⟩ := (call_run hp).2.2.1 o h
  have hup := ht.up
  have hpi : p ≠ b!"id" := by
    rintro rfl
    rw [hv] at ha; cases ha
  rw [hid p hpi] at ha
  by_cases he : p = b!"extensions"
  · obtain ⟨f, hf, hfk, hfs⟩ := place_some ha
    rw [(ext_name hf).1 (hfk.trans he)] at hfs
    have := ht.ext a hfs
    exact ⟨by omega, this.2, .inl ⟨he, this.1⟩⟩
  · have hl : lastGiven (promise k.c).kind p k.opts = none := by
      cases hl : lastGiven (promise k.c).kind p k.opts with
      | none => rfl
      | some y => simp [given, hl] at hg
    rw [(hpl p he).1 hl] at ha
    rcases base_place ha with ⟨-, i, hx, hi⟩ | ⟨v, hv, hx⟩ | ⟨-, v, hx⟩
    · cases hx
      have : i ≤ 1 := by
        rcases hi with ⟨-, rfl⟩ | ⟨-, rfl⟩
        · omega
        · split_ifs <;> omega
      refine ⟨by omega, by omega, .inr ?_⟩
      rcases hi with ⟨h1, rfl⟩ | ⟨h1, h2⟩
      · exact .inl ⟨h1, rfl⟩
      · exact .inr ⟨h1, by rw [h2]⟩
    · exfalso
      have hm : p ∈ (promise k.c).args.map (·.1) := List.mem_map.2 ⟨_, hv, rfl⟩
      simp only [given, hl, if_pos hm] at hg
      rw [Option.map_eq_none_iff] at hg
      rw [hg] at hx
      cases hx
    · cases hx

/-- Given references are to memory that was in use. -/
theorem given_old {k : Call} {m : Mem} (hp : Possible k m) {p : Str} {a : Nat}
    (hg : given k p = some (.ref a)) : a < m.next := by
  simp only [given] at hg
  cases hl : lastGiven (promise k.c).kind p k.opts with
  | some y =>
    rw [hl] at hg
    cases hg
    have : ∀ opts : List (Option ROpt), (∀ row x, some (ROpt.field row x) ∈ opts → ∀ a, x = .ref a → a < m.next) →
        lastGiven (promise k.c).kind p opts = some (.ref a) → a < m.next := by
      intro opts
      induction opts with
      | nil => intro _ h; cases h
      | cons b opts ih =>
        intro ho h
        have ih := ih fun row y hm => ho row y (List.mem_cons_of_mem _ hm)
        cases b with
        | none => exact ih h
        | some opt =>
          cases opt with
          | extension n v => exact ih h
          | field row y =>
            simp only [lastGiven] at h
            cases hl : lastGiven (promise k.c).kind p opts with
            | some z => exact ih (by rw [hl] at h; rw [hl]; exact h)
            | none =>
              rw [hl] at h
              simp only at h
              split at h
              · cases h; exact ho row _ (by simp) a rfl
              · cases h
    exact this k.opts (fun row x h => (hp.opts row x h).2) hl
  | none =>
    rw [hl] at hg
    simp only at hg
    split at hg
    · rename_i hm
      obtain ⟨b, hb, he⟩ := Option.map_eq_some_iff.1 hg
      cases he
      obtain ⟨e, he, rfl⟩ := List.mem_map.1 hm
      exact (hp.args e he a hb).1
    · cases hg

theorem call_stamps {k : Call} {m : Mem} (hp : Possible k m) {o : RObj} (h : (k.run m).1 = some o)
    (hone : (promise k.c).kind ∈ oneStamp) (hc : given k (b!"created") = none)
    (hm : given k (b!"modified") = none) :
    ∃ a, place o (b!"created") = some (.ref a) ∧ place o (b!"modified") = some (.ref a) := by
  obtain ⟨-, -, o1, -, -, hid, -, hpl⟩ := (call_run hp).2.2.1 o h
  have hl : ∀ p, given k p = none → lastGiven (promise k.c).kind p k.opts = none := by
    intro p hg
    cases hl : lastGiven (promise k.c).kind p k.opts with
    | none => rfl
    | some y => simp [given, hl] at hg
  have hb : place (k.base m) (b!"created") = some (.ref (m.next + 0)) ∧
      place (k.base m) (b!"modified") = some (.ref (m.next + 0)) := by
    rcases k with ⟨env, c, args, opts⟩
    cases c <;> simp only [promise, oneStamp] at hone <;>
      first
        | exact absurd hone (by decide)
        | exact ⟨rfl, rfl⟩
  refine ⟨m.next + 0, ?_, ?_⟩
  · rw [hid _ (by decide), (hpl _ (by decide)).1 (hl _ hc), hb.1]
  · rw [hid _ (by decide), (hpl _ (by decide)).1 (hl _ hm), hb.2]

/-! ## Programs -/

/-- What holds of every state of a program. -/
structure Apart (s : Prog) : Prop where
  own : ∀ a ∈ s.own, a < s.mem.next
  bound : ∀ k o, (k, o) ∈ s.objs → ∀ p a, place o p = some (.ref a) → a < s.mem.next
  sid : ∀ k o, (k, o) ∈ s.objs → o.sid = (promise k.c).kind
  kept : ∀ k o, (k, o) ∈ s.objs → ∀ p x, given k p = some x → place o p = some x
  new : ∀ k o, (k, o) ∈ s.objs → ∀ p a, given k p = none → place o p = some (.ref a) → a ∉ s.own
  one : ∀ k o, (k, o) ∈ s.objs → ∀ p q a, p ≠ q → given k p = none → given k q = none →
    place o p = some (.ref a) → place o q = some (.ref a) →
    (promise k.c).kind ∈ oneStamp ∧ (p = b!"created" ∧ q = b!"modified" ∨ p = b!"modified" ∧ q = b!"created")
  two : ∀ (i j : Nat) k o k' o', i ≠ j → s.objs[i]? = some (k, o) → s.objs[j]? = some (k', o') → ∀ p q a,
    place o p = some (.ref a) → place o' q = some (.ref a) → given k p = none → given k' q = none → False
  stamps : ∀ k o, (k, o) ∈ s.objs → (promise k.c).kind ∈ oneStamp → given k (b!"created") = none →
    given k (b!"modified") = none →
    ∃ a, place o (b!"created") = some (.ref a) ∧ place o (b!"modified") = some (.ref a)

theorem apart_init : Apart Prog.init :=
  ⟨by simp [Prog.init], by simp [Prog.init], by simp [Prog.init], by simp [Prog.init],
    by simp [Prog.init], by simp [Prog.init], by simp [Prog.init], by simp [Prog.init]⟩

theorem apart_make {s : Prog} (ha : Apart s) {k : Call} (hp : Possible k s.mem) :
    Apart (s.step (.make k)) := by
  obtain ⟨-, hn, -⟩ := call_run hp
  rcases hr : k.run s.mem with ⟨x, m⟩
  have hn' : s.mem.next ≤ m.next := by rw [hr] at hn; exact hn
  cases x with
  | none =>
    have : s.step (.make k) = { s with mem := m } := by simp only [Prog.step, hr]
    rw [this]
    exact ⟨fun a h => lt_of_lt_of_le (ha.own a h) hn',
      fun k o h p a hpl => lt_of_lt_of_le (ha.bound k o h p a hpl) hn', ha.sid, ha.kept, ha.new, ha.one, ha.two, ha.stamps⟩
  | some o =>
    have hst : s.step (.make k) = { s with mem := m, objs := s.objs ++ [(k, o)] } := by
      simp only [Prog.step, hr]
    have ho : (k.run s.mem).1 = some o := by rw [hr]
    have hnew : ∀ p a, given k p = none → place o p = some (.ref a) → s.mem.next ≤ a ∧ a < m.next := by
      intro p a h1 h2
      have := call_new hp ho h1 h2
      rw [hr] at this
      exact ⟨this.1, this.2.1⟩
    have hmem : ∀ k1 o1, (k1, o1) ∈ s.objs ++ [(k, o)] → (k1, o1) ∈ s.objs ∨ (k1 = k ∧ o1 = o) := by
      intro k1 o1 h
      simpa using h
    rw [hst]
    refine ⟨fun a h => lt_of_lt_of_le (ha.own a h) hn', ?_, ?_, ?_, ?_, ?_, ?_, ?_⟩
    · intro k1 o1 h p a hpl
      rcases hmem k1 o1 h with h | ⟨rfl, rfl⟩
      · exact lt_of_lt_of_le (ha.bound _ _ h p a hpl) hn'
      · cases hg : given k1 p with
        | none => exact (hnew p a hg hpl).2
        | some x =>
          have := call_given hp ho hg
          rw [hpl] at this
          cases this
          exact lt_of_lt_of_le (given_old hp hg) hn'
    · intro k1 o1 h
      rcases hmem k1 o1 h with h | ⟨rfl, rfl⟩
      · exact ha.sid _ _ h
      · exact ((call_run hp).2.2.1 _ ho).2.1
    · intro k1 o1 h p x hg
      rcases hmem k1 o1 h with h | ⟨rfl, rfl⟩
      · exact ha.kept _ _ h p x hg
      · exact call_given hp ho hg
    · intro k1 o1 h p a hg hpl hown
      rcases hmem k1 o1 h with h | ⟨rfl, rfl⟩
      · exact ha.new _ _ h p a hg hpl hown
      · have h1 := (hnew p a hg hpl).1
        have h2 := ha.own a hown
        omega
    · intro k1 o1 h p q a hpq hg hg' hpl hpl'
      rcases hmem k1 o1 h with h | ⟨rfl, rfl⟩
      · exact ha.one _ _ h p q a hpq hg hg' hpl hpl'
      · have h1 := (call_new hp ho hg hpl).2.2
        have h2 := (call_new hp ho hg' hpl').2.2
        by_cases hone : (promise k1.c).kind ∈ oneStamp
        · refine ⟨hone, ?_⟩
          rw [if_pos hone] at h1 h2
          rcases h1 with ⟨rfl, h1⟩ | ⟨rfl, h1⟩ | ⟨rfl, h1⟩ <;> rcases h2 with ⟨rfl, h2⟩ | ⟨rfl, h2⟩ | ⟨rfl, h2⟩ <;>
            first
              | exact absurd rfl hpq
              | (exfalso; omega)
              | exact .inl ⟨rfl, rfl⟩
              | exact .inr ⟨rfl, rfl⟩
        · exfalso
          rw [if_neg hone] at h1 h2
          rcases h1 with ⟨rfl, h1⟩ | ⟨rfl, h1⟩ | ⟨rfl, h1⟩ <;> rcases h2 with ⟨rfl, h2⟩ | ⟨rfl, h2⟩ | ⟨rfl, h2⟩ <;>
            first
              | exact absurd rfl hpq
              | omega
    · have hget : ∀ i k1 o1, (s.objs ++ [(k, o)])[i]? = some (k1, o1) →
          s.objs[i]? = some (k1, o1) ∨ (i = s.objs.length ∧ k1 = k ∧ o1 = o) := by
        intro i k1 o1 h
        rw [List.getElem?_append] at h
        split at h
        · exact .inl h
        · right
          rename_i hlt
          rw [List.getElem?_singleton] at h
          split at h
          · simp only [Option.some.injEq, Prod.mk.injEq] at h
            exact ⟨by omega, h.1.symm, h.2.symm⟩
          · cases h
      intro i j k1 o1 k2 o2 hij h1 h2 p q a hpl hpl' hg hg'
      rcases hget i k1 o1 h1 with g1 | ⟨hi, rfl, rfl⟩ <;> rcases hget j k2 o2 h2 with g2 | ⟨hj, rfl, rfl⟩
      · exact ha.two i j _ _ _ _ hij g1 g2 p q a hpl hpl' hg hg'
      · have := ha.bound _ _ (List.mem_of_getElem? g1) p a hpl
        have := (hnew q a hg' hpl').1
        omega
      · have := ha.bound _ _ (List.mem_of_getElem? g2) q a hpl'
        have := (hnew p a hg hpl).1
        omega
      · exact hij (hi.trans hj.symm)
    · intro k1 o1 h hone hc hm
      rcases hmem k1 o1 h with h | ⟨rfl, rfl⟩
      · exact ha.stamps _ _ h hone hc hm
      · exact call_stamps hp ho hone hc hm

theorem apart_step_other {s : Prog} (ha : Apart s) {t : Act} (ht : ∀ k, t ≠ .make k) : Apart (s.step t) := by
  cases t with
  | make k => exact absurd rfl (ht k)
  | write a v => exact ⟨ha.own, ha.bound, ha.sid, ha.kept, ha.new, ha.one, ha.two, ha.stamps⟩
  | alloc v =>
    refine ⟨?_, fun k o h p a hpl => Nat.lt_succ_of_lt (ha.bound k o h p a hpl), ha.sid, ha.kept, ?_, ha.one, ha.two, ha.stamps⟩
    · intro a h
      simp only [Prog.step, List.mem_append, List.mem_singleton] at h
      rcases h with h | rfl
      · exact Nat.lt_succ_of_lt (ha.own a h)
      · exact Nat.lt_succ_self _
    · intro k o h p a hg hpl hown
      simp only [Prog.step, List.mem_append, List.mem_singleton] at hown
      rcases hown with hown | rfl
      · exact ha.new k o h p a hg hpl hown
      · exact absurd (ha.bound k o h p _ hpl) (lt_irrefl _)

theorem apart_runs {s s' : Prog} {acts : List Act} (ha : Apart s) (h : Runs s acts s') : Apart s' := by
  induction acts generalizing s with
  | nil => rw [h]; exact ha
  | cons t acts ih =>
    cases t with
    | make k => exact ih (apart_make ha h.1) h.2
    | write a v => exact ih (apart_step_other ha (by simp)) h
    | alloc v => exact ih (apart_step_other ha (by simp)) h

/-! ## C74 -/

/-- **C74** (constructors and memory).  A constructor changes no memory that the program has, and the
object, as it is seen through its references, is the one that the constructor makes of the values that
the arguments and options have at the call. -/
theorem c74_constructs (k : Call) (m : Mem) (hp : Possible k m) :
    (∀ a < m.next, (k.run m).2.cell a = m.cell a) ∧
    (∀ o, (k.run m).1 = some o →
      k.c.run k.env (k.opts.map (Option.map (ROpt.at m))) = .ret (some (o.read (k.run m).2)) none) ∧
    ((k.run m).1 = none → ∀ x, k.c.run k.env (k.opts.map (Option.map (ROpt.at m))) ≠ .ret x none) :=
  ⟨(call_run hp).1, fun o h => ((call_run hp).2.2.1 o h).1, (call_run hp).2.2.2⟩

/-- **C74** (nothing is copied).  At every later moment a property is what is then seen through the
pointer, slice or map that was given for it. -/
theorem c74_kept (acts : List Act) (s : Prog) (h : Runs Prog.init acts s) (k : Call) (o : RObj)
    (ho : (k, o) ∈ s.objs) (p : Str) (x : Slot) (hg : given k p = some x) :
    prop (o.read s.mem) p = some (x.read s.mem) := by
  rw [prop_read, (apart_runs apart_init h).kept k o ho p x hg]
  rfl

theorem read_write {m : Mem} {o : RObj} {p : Str} {a : Nat} (h : place o p ≠ some (.ref a)) (v : GV) :
    prop (o.read (m.write a v)) p = prop (o.read m) p := by
  rw [prop_read, prop_read]
  cases hs : place o p with
  | none => rfl
  | some x =>
    cases x with
    | val w => rfl
    | ref b =>
      have : b ≠ a := fun e => h (by rw [hs, e])
      simp only [Option.map_some, Slot.read, Mem.write]
      rw [if_neg this]

/-- **C74** (the program's own memory).  Changing a block of the program in place changes only the
properties for which the program gave that block. -/
theorem c74_own_memory (acts : List Act) (s : Prog) (h : Runs Prog.init acts s) (a : Nat)
    (ha : a ∈ s.own) (k : Call) (o : RObj) (ho : (k, o) ∈ s.objs) (p : Str)
    (hg : given k p ≠ some (.ref a)) (v : GV) :
    prop (o.read (s.mem.write a v)) p = prop (o.read s.mem) p := by
  have hap := apart_runs apart_init h
  refine read_write (fun hpl => ?_) v
  cases hgp : given k p with
  | none => exact hap.new k o ho p a hgp hpl ha
  | some x =>
    have := hap.kept k o ho p x hgp
    rw [hpl] at this
    exact hg (by rw [hgp, this])

/-- `p` of the `i`-th object and `q` of the `j`-th are apart: changing the first in place, through the
reference `a` that the object has, does not change the second. -/
def Spec.Unaffected (s : Prog) (i j : Nat) (p q : Str) : Prop :=
  ∀ k o k' o' a, s.objs[i]? = some (k, o) → s.objs[j]? = some (k', o') → place o p = some (.ref a) →
    given k p ≠ some (.ref a) → given k' q ≠ some (.ref a) →
    ∀ v, prop (o'.read (s.mem.write a v)) q = prop (o'.read s.mem) q

/-- **C74**, except for the timestamps of sightings, language contents and extension definitions:
changing a property of an object in place changes no other property of this or another object, unless
the program gave the block for one of the two. -/
theorem c74_private_partial (acts : List Act) (s : Prog) (h : Runs Prog.init acts s) (i j : Nat)
    (p q : Str) (hne : (i, p) ≠ (j, q))
    (hex : i = j → p ∈ [b!"created", b!"modified"] → q ∈ [b!"created", b!"modified"] →
      ∀ k o, s.objs[i]? = some (k, o) → o.sid ∉ oneStamp) : Unaffected s i j p q := by
  have hap := apart_runs apart_init h
  intro k o k' o' a h1 h2 hpl hg hg' v
  refine read_write (fun hpl' => ?_) v
  have hm1 := List.mem_of_getElem? h1
  have hm2 := List.mem_of_getElem? h2
  have n1 : given k p = none := by
    cases hgp : given k p with
    | none => rfl
    | some x =>
      have := hap.kept k o hm1 p x hgp
      rw [hpl] at this
      exact absurd (by rw [hgp, this]) hg
  have n2 : given k' q = none := by
    cases hgp : given k' q with
    | none => rfl
    | some x =>
      have := hap.kept k' o' hm2 q x hgp
      rw [hpl'] at this
      exact absurd (by rw [hgp, this]) hg'
  by_cases hij : i = j
  · subst hij
    rw [h1] at h2
    cases h2
    have hpq : p ≠ q := fun e => hne (by rw [e])
    obtain ⟨hone, hc⟩ := hap.one k o hm1 p q a hpq n1 n2 hpl hpl'
    rw [← hap.sid k o hm1] at hone
    refine hex rfl ?_ ?_ k o h1 hone <;> rcases hc with ⟨rfl, rfl⟩ | ⟨rfl, rfl⟩ <;> simp
  · exact hap.two i j k o k' o' hij h1 h2 p q a hpl hpl' n1 n2

/-- **C74** (what is excepted).  In a sighting, language content or extension definition whose
timestamps were not given, they are one: whatever `Modified` is changed to in place, `Created` is that
too. -/
theorem c74_one_stamp (acts : List Act) (s : Prog) (h : Runs Prog.init acts s) (k : Call) (o : RObj)
    (ho : (k, o) ∈ s.objs) (hs : o.sid ∈ oneStamp) (hc : given k (b!"created") = none)
    (hm : given k (b!"modified") = none) :
    ∃ a, place o (b!"modified") = some (.ref a) ∧
      ∀ v, prop (o.read (s.mem.write a v)) (b!"created") = some v := by
  have hap := apart_runs apart_init h
  obtain ⟨a, h1, h2⟩ := hap.stamps k o ho (by rw [← hap.sid k o ho]; exact hs) hc hm
  refine ⟨a, h2, fun v => ?_⟩
  rw [prop_read, h1]
  simp [Slot.read, Mem.write]

/-- A call without reference arguments and options. -/
def exCall (c : Ctor) (opts : List (Option ROpt)) : Call := ⟨exEnv, c, fun _ => none, opts⟩

theorem exCall_possible (c : Ctor) (opts : List (Option ROpt)) (m : Mem)
    (h : ∀ row x, some (ROpt.field row x) ∈ opts → row ∈ optTable ∧ ∀ a, x = .ref a → a < m.next) :
    Possible (exCall c opts) m := ⟨fun _ _ _ h => (by cases h), h⟩

/-- **C74** is false without the exception: a program makes a sighting and sets `Modified.Time`. -/
theorem c74_private_false : ¬ ∀ (acts : List Act) (s : Prog), Runs Prog.init acts s → ∀ i j p q,
    (i, p) ≠ (j, q) → Unaffected s i j p q := by
  intro hall
  have hr : Runs Prog.init [.make (exCall (.sighting (b!"x")) [])]
      (Prog.init.step (.make (exCall (.sighting (b!"x")) []))) :=
    ⟨exCall_possible _ _ _ (by simp), rfl⟩
  obtain ⟨o, ho⟩ : ∃ o, (Prog.init.step (.make (exCall (.sighting (b!"x")) []))).objs =
      [(exCall (.sighting (b!"x")) [], o)] := ⟨_, rfl⟩
  have hap := apart_runs apart_init hr
  have hs := hap.sid (exCall (.sighting (b!"x")) []) o (by rw [ho]; simp)
  obtain ⟨a, h1, h2⟩ := c74_one_stamp _ _ hr (exCall (.sighting (b!"x")) []) o (by rw [ho]; simp)
    (by rw [hs]; decide) rfl rfl
  have hu := hall _ _ hr 0 0 (b!"modified") (b!"created") (by decide) _ o _ o a (by rw [ho]; rfl)
    (by rw [ho]; rfl) h1 (by simp [given, exCall, lastGiven, promise]) (by simp [given, exCall, lastGiven, promise])
  have e1 := (h2 (.str [])).symm.trans ((hu _).trans ((hu _).symm.trans (h2 (.bool true))))
  cases e1

/-- A program that gives one list of labels to a tool and a campaign, and another to nothing. -/
def exActs : List Act :=
  [.alloc (gvStrs (some [b!"a"])), .alloc (gvStrs (some [b!"b"])),
   .make (exCall (.tool (b!"nmap")) [some (.field OptionLabels (.ref 0))]),
   .make (exCall (.campaign (b!"c")) [none, some (.field OptionLabels (.ref 0))]),
   .write 0 (gvStrs (some [b!"z"]))]

/-- The hypotheses of the theorems: the program runs and makes two objects; the list is given to both,
and both see the change; their timestamps are not given. -/
example : ∃ s k o k' o', Runs Prog.init exActs s ∧ s.objs = [(k, o), (k', o')] ∧ 1 ∈ s.own ∧
    given k (b!"labels") = some (.ref 0) ∧ given k' (b!"labels") = some (.ref 0) ∧
    given k (b!"created") = none ∧ (∃ a, place o (b!"created") = some (.ref a)) ∧
    o.sid ∉ oneStamp ∧ prop (o'.read s.mem) (b!"labels") = some (gvStrs (some [b!"z"])) := by
  refine ⟨_, _, _, _, _, ⟨exCall_possible _ _ _ ?_, exCall_possible _ _ _ ?_, rfl⟩, rfl, by decide, rfl, rfl,
    rfl, ⟨_, rfl⟩, by decide, rfl⟩
  · intro row x h
    simp at h
    obtain ⟨rfl, rfl⟩ := h
    exact ⟨by simp [optTable], fun a ha => by cases ha; decide⟩
  · intro row x h
    simp at h
    obtain ⟨rfl, rfl⟩ := h
    exact ⟨by simp [optTable], fun a ha => by cases ha; decide⟩

end Stix
