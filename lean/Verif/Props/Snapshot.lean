import Verif.Spec.Snapshot
import Verif.Props.Heap
import Verif.Props.Reach
import Verif.Lemmas.Bundle
import Verif.Props.Parse

/-!
# Bundles and listings are the program's own (C82)
-/

namespace Stix.Snapshot
open Stix Spec.Snapshot

variable {U : Type}

/-! ## What holds in all states -/

/-- All references are to what their types say. -/
structure Sound (s : State U) : Prop where
  cells : ∀ a, a < s.mem.next → s.mem.Typed (s.mem.cell a)
  coll : ∃ ns h, s.coll = (Coll.new ns).addAll h ∧ ∀ r ∈ h, s.mem.Is .obj r.ptr

/-- Memory that has everything that was there, of the same kind. -/
def Grows (m m' : Memory U) : Prop := ∀ t a, m.Is t a → m'.Is t a

theorem Grows.typed {m m' : Memory U} (h : Grows m m') {c : Cell U} (hc : m.Typed c) : m'.Typed c := by
  cases c with
  | obj o => trivial
  | bytes j => trivial
  | ptrs l => exact fun p hp => h _ _ (hc p hp)
  | msgs l => exact fun a ha => h _ _ (hc a ha)
  | bundle t i a => exact h _ _ hc

theorem alloc_cell_old (m : Memory U) (c : Cell U) {a : Nat} (h : a < m.next) :
    (m.alloc c).cell a = m.cell a := by
  simp [Memory.alloc, Nat.ne_of_lt h]

theorem alloc_cell_new (m : Memory U) (c : Cell U) : (m.alloc c).cell m.next = c := by
  simp [Memory.alloc]

theorem alloc_next (m : Memory U) (c : Cell U) : (m.alloc c).next = m.next + 1 := rfl

theorem grows_alloc (m : Memory U) (c : Cell U) : Grows m (m.alloc c) := by
  intro t a ⟨h1, h2⟩
  exact ⟨Nat.lt_succ_of_lt h1, by rw [alloc_cell_old m c h1]; exact h2⟩

theorem grows_write (m : Memory U) (a : Nat) (c : Cell U) (h : m.Is c.kind a) : Grows m (m.write a c) := by
  intro t b ⟨h1, h2⟩
  refine ⟨h1, ?_⟩
  by_cases hb : b = a
  · subst hb; simpa [Memory.write] using h.2.symm.trans h2
  · simpa [Memory.write, hb] using h2

/-- Allocation keeps memory sound. -/
theorem cells_alloc {m : Memory U} (h : ∀ a, a < m.next → m.Typed (m.cell a)) {c : Cell U}
    (hc : m.Typed c) : ∀ a, a < (m.alloc c).next → (m.alloc c).Typed ((m.alloc c).cell a) := by
  intro a ha
  refine (grows_alloc m c).typed ?_
  rw [alloc_next] at ha
  by_cases hn : a = m.next
  · subst hn; rw [alloc_cell_new]; exact hc
  · rw [alloc_cell_old m c (by omega)]; exact h a (by omega)

/-- Only the objects matter. -/
theorem written_of_cells [UserType U] {F : Canon.FloatFmt} {m m' : Memory U} {ps : List (Option Nat)}
    {js : List Json} (h : Written F m ps js) (hc : ∀ p, some p ∈ ps → m'.cell p = m.cell p) :
    Written F m' ps js := by
  unfold Written at *
  induction h with
  | nil => exact .nil
  | cons hx _ ih =>
    refine .cons ?_ (ih fun p hp => hc p (List.mem_cons_of_mem _ hp))
    rcases hx with hx | ⟨q, o, rfl, ho, hj⟩
    · exact .inl hx
    · exact .inr ⟨q, o, rfl, by rw [hc q (List.mem_cons_self ..), ho], hj⟩

variable [UserType U] {F : Canon.FloatFmt}

/-- The messages are new memory with the JSON of the objects; the rest of memory is as it was. -/
theorem rawMessages_spec (m : Memory U) (ps : List (Option Nat)) (m' : Memory U) (as : List Nat)
    (hp : ∀ p, some p ∈ ps → m.Is .obj p)
    (h : rawMessages F m ps = some (m', as)) :
    m.next ≤ m'.next ∧ (∀ a, a < m.next → m'.cell a = m.cell a) ∧
      (∀ a ∈ as, m.next ≤ a ∧ a < m'.next) ∧
      ∃ js, Written F m ps js ∧ List.Forall₂ (fun a j => m'.cell a = .bytes j) as js := by
  induction ps generalizing m as with
  | nil =>
    simp only [rawMessages, Option.some.injEq, Prod.mk.injEq] at h
    obtain ⟨rfl, rfl⟩ := h
    exact ⟨Nat.le_refl _, fun _ _ => rfl, by simp, [], .nil, .nil⟩
  | cons p ps ih =>
    rw [rawMessages] at h
    cases hj : jsonOf F (m.deref p) with
    | none => rw [hj] at h; cases h
    | some j =>
      rw [hj] at h
      simp only [Option.map_eq_some_iff, Prod.mk.injEq] at h
      obtain ⟨⟨m1, as1⟩, h1, rfl, rfl⟩ := h
      obtain ⟨n1, n2, n3, js, n4, n5⟩ := ih (m.alloc (.bytes j)) as1
        (fun q hq => grows_alloc _ _ _ _ (hp q (List.mem_cons_of_mem _ hq))) h1
      rw [alloc_next] at n1
      simp only at n1 n2 n3 n5 ⊢
      refine ⟨by omega, fun a ha => ?_, ?_, j :: js, .cons ?_ ?_, .cons ?_ n5⟩
      · rw [n2 a (by rw [alloc_next]; omega), alloc_cell_old _ _ ha]
      · intro a ha
        rcases List.mem_cons.1 ha with rfl | ha
        · exact ⟨Nat.le_refl _, show m.next < m1.next by omega⟩
        · have := n3 a ha
          rw [alloc_next] at this
          exact ⟨by omega, this.2⟩
      · cases p with
        | none =>
          simp only [Memory.deref, jsonOf, Option.some.injEq] at hj
          exact .inl ⟨rfl, hj.symm⟩
        | some q =>
          have hq := hp q (List.mem_cons_self ..)
          cases hc : m.cell q with
          | obj o =>
            simp only [Memory.deref, hc, jsonOf] at hj
            exact .inr ⟨q, o, rfl, hc, hj⟩
          | _ => exact absurd hq.2 (by simp [hc, Cell.kind])
      · exact written_of_cells n4 fun q hq =>
          (alloc_cell_old _ _ (hp q (List.mem_cons_of_mem _ hq)).1).symm
      · rw [n2 m.next (by rw [alloc_next]; omega), alloc_cell_new]

theorem snap_left {α β : Type} {R : α → β → Prop} {l : List α} {l' : List β} (h : List.Forall₂ R l l')
    {a : α} (ha : a ∈ l) : ∃ b, R a b := by
  induction h with
  | nil => cases ha
  | cons hx _ ih =>
    rcases List.mem_cons.1 ha with rfl | ha
    · exact ⟨_, hx⟩
    · exact ih ha

omit [UserType U] in
theorem snap_cells {m m' : Memory U} {as : List Nat} {js : List Json}
    (h : List.Forall₂ (fun a j => m.cell a = .bytes j) as js) (hc : ∀ a ∈ as, m'.cell a = m.cell a) :
    List.Forall₂ (fun a j => m'.cell a = .bytes j) as js := by
  induction h with
  | nil => exact .nil
  | cons hx _ ih =>
    exact .cons (by rw [hc _ (List.mem_cons_self ..), hx])
      (ih fun a ha => hc a (List.mem_cons_of_mem _ ha))

theorem rawMessages_cells (m : Memory U) (ps : List (Option Nat)) (m' : Memory U) (as : List Nat)
    (hm : ∀ a, a < m.next → m.Typed (m.cell a)) (h : rawMessages F m ps = some (m', as)) :
    ∀ a, a < m'.next → m'.Typed (m'.cell a) := by
  induction ps generalizing m as with
  | nil =>
    simp only [rawMessages, Option.some.injEq, Prod.mk.injEq] at h
    obtain ⟨rfl, rfl⟩ := h
    exact hm
  | cons p ps ih =>
    rw [rawMessages] at h
    cases hj : jsonOf F (m.deref p) with
    | none => rw [hj] at h; cases h
    | some j =>
      rw [hj] at h
      simp only [Option.map_eq_some_iff, Prod.mk.injEq] at h
      obtain ⟨⟨m1, as1⟩, h1, rfl, rfl⟩ := h
      exact ih _ _ (cells_alloc hm (c := .bytes j) trivial) h1

/-- `NewBundle` makes a bundle of new memory with the JSON of the objects as they are; the rest of memory
is as it was. -/
theorem newBundle_spec (rnd : List UInt8) (m : Memory U) (ps : List (Option Nat)) (m' : Memory U) (b : Nat)
    (hm : ∀ a, a < m.next → m.Typed (m.cell a)) (hp : ∀ p, some p ∈ ps → m.Is .obj p)
    (h : newBundle F rnd m ps = some (m', b)) :
    m.next ≤ m'.next ∧ (∀ a, a < m.next → m'.cell a = m.cell a) ∧
      (∀ a, Part m' b a → m.next ≤ a ∧ a < m'.next) ∧ Grows m m' ∧
      (∀ a, a < m'.next → m'.Typed (m'.cell a)) ∧
      ∃ js, Written F m ps js ∧ Shows m' b (newIdentifier rnd TypeBundle) js := by
  simp only [newBundle, Option.map_eq_some_iff, Prod.mk.injEq] at h
  obtain ⟨⟨m1, as⟩, h1, rfl, rfl⟩ := h
  obtain ⟨n1, n2, n3, js, n4, n5⟩ := rawMessages_spec m ps m1 as hp h1
  simp only at *
  have hg1 : Grows m m1 := fun t a ⟨g1, g2⟩ => ⟨by omega, by rw [n2 a g1]; exact g2⟩
  have hbytes : ∀ a ∈ as, m1.Is .bytes a := by
    intro a ha
    refine ⟨(n3 a ha).2, ?_⟩
    obtain ⟨j, hj⟩ := snap_left n5 ha
    rw [hj]; rfl
  have hm1 : ∀ a, a < m1.next → m1.Typed (m1.cell a) := rawMessages_cells m ps m1 as hm h1
  have hcb : ((m1.alloc (.msgs as)).alloc (.bundle TypeBundle (newIdentifier rnd TypeBundle) m1.next)).cell
      (m1.next + 1) = .bundle TypeBundle (newIdentifier rnd TypeBundle) m1.next := alloc_cell_new _ _
  have hct : ((m1.alloc (.msgs as)).alloc (.bundle TypeBundle (newIdentifier rnd TypeBundle) m1.next)).cell
      m1.next = .msgs as := by
    rw [alloc_cell_old _ _ (by rw [alloc_next]; omega), alloc_cell_new]
  have hold : ∀ a, a < m1.next → ((m1.alloc (.msgs as)).alloc
      (.bundle TypeBundle (newIdentifier rnd TypeBundle) m1.next)).cell a = m1.cell a := by
    intro a ha
    rw [alloc_cell_old _ _ (by rw [alloc_next]; omega), alloc_cell_old _ _ ha]
  refine ⟨by simp only [alloc_next]; omega, fun a ha => ?_, fun a ha => ?_, ?_, ?_, js, n4,
    m1.next, as, hcb, hct, ?_⟩
  · rw [hold a (by omega), n2 a ha]
  · simp only [alloc_next]
    rcases ha with rfl | ⟨typ, id, t, hb, ha⟩
    · omega
    · rw [hcb] at hb
      injection hb with _ _ ht
      subst ht
      rcases ha with rfl | ⟨l, hl, ha⟩
      · omega
      · rw [hct] at hl
        injection hl with hl
        subst hl
        have := n3 a ha
        omega
  · exact fun t a x => grows_alloc _ _ _ _ (grows_alloc _ _ _ _ (hg1 t a x))
  · refine cells_alloc (cells_alloc hm1 (c := .msgs as) hbytes) ?_
    exact ⟨by rw [alloc_next]; omega, by rw [alloc_cell_new]; rfl⟩
  · exact snap_cells n5 fun a ha => hold a (n3 a ha).2

omit [UserType U] in
/-- The pointers of a listing are to objects, and none is nil. -/
theorem listing_typed {s : State U} (hs : Sound s) {out : List (Option Ref)} (ho : s.coll.AllObjects out) :
    (∃ ps : List Nat, out.map (fun r => r.map Ref.ptr) = ps.map some) ∧
    ∀ p, some p ∈ out.map (fun r => r.map Ref.ptr) → s.mem.Is .obj p := by
  obtain ⟨ns, h, hc, hr⟩ := hs.coll
  rw [hc] at ho
  obtain ⟨rs, rfl, -, hl⟩ := allObjects_latest ns h out ho
  refine ⟨⟨rs.map Ref.ptr, by simp [Function.comp_def]⟩, fun p hp => ?_⟩
  simp only [List.map_map, List.mem_map, Function.comp_apply, Option.map_some, Option.some.injEq] at hp
  obtain ⟨r, hr', rfl⟩ := hp
  obtain ⟨A, B, rfl, -⟩ := (hl r).1 hr'
  exact hr r (by simp)

/-- A step changes only what it writes, uses new memory for what it makes, and keeps states sound. -/
theorem step_keeps {s s' : State U} {a : Act U} {r : Option Nat} (hs : Sound s) (h : Step F s a r s') :
    s.mem.next ≤ s'.mem.next ∧
      (∀ x, x < s.mem.next → (∀ c, a ≠ .write x c) → s'.mem.cell x = s.mem.cell x) ∧ Sound s' := by
  have sound : ∀ m' : Memory U, Grows s.mem m' → (∀ a, a < m'.next → m'.Typed (m'.cell a)) →
      Sound { s with mem := m' } := by
    intro m' hg hc
    obtain ⟨ns, l, h1, h2⟩ := hs.coll
    exact ⟨hc, ns, l, h1, fun r hr => hg _ _ (h2 r hr)⟩
  cases h with
  | alloc c hc =>
    exact ⟨Nat.le_succ _, fun x hx _ => alloc_cell_old _ _ hx,
      sound _ (grows_alloc _ _) (cells_alloc hs.cells hc)⟩
  | write a c h1 h2 =>
    refine ⟨Nat.le_refl _, fun x _ hx => ?_, sound _ (grows_write _ _ _ h1) fun b hb => ?_⟩
    · have : x ≠ a := by rintro rfl; exact hx c rfl
      simp [Memory.write, this]
    · refine (grows_write _ _ _ h1).typed ?_
      by_cases hba : b = a
      · simpa [Memory.write, hba] using h2
      · simpa [Memory.write, hba] using hs.cells b hb
  | add p hp =>
    have hm : (s.add p).mem = s.mem := by
      simp only [State.add]; split
      · split <;> rfl
      · rfl
    refine ⟨by rw [hm], fun x _ _ => by rw [hm], by rw [hm]; exact hs.cells, ?_⟩
    obtain ⟨ns, l, h1, h2⟩ := hs.coll
    rw [hm]
    simp only [State.add]
    split
    · rename_i o _
      split
      · exact ⟨ns, l, h1, h2⟩
      · refine ⟨ns, l ++ [⟨p, StixObject.getID o, StixObject.getType o⟩], ?_, ?_⟩
        · simp [h1, Coll.addAll]
        · intro r hr
          rcases List.mem_append.1 hr with hr | hr
          · exact h2 r hr
          · simp only [List.mem_singleton] at hr
            subst hr; exact hp
    · exact ⟨ns, l, h1, h2⟩
  | allObjects out ho =>
    exact ⟨Nat.le_succ _, fun x hx _ => alloc_cell_old _ _ hx,
      sound _ (grows_alloc _ _) (cells_alloc hs.cells (c := .ptrs _) (listing_typed hs ho).2)⟩
  | newBundle a ps rnd m b hlt ha h =>
      have hp : ∀ p, some p ∈ ps → s.mem.Is .obj p := by
        have := hs.cells a hlt
        rw [ha] at this; exact this
      obtain ⟨n1, n2, -, n3, n4, -⟩ := newBundle_spec rnd _ ps m b hs.cells hp h
      exact ⟨n1, fun x hx _ => n2 x hx, sound m n3 n4⟩
  | newBundleFails a ps rnd hlt ha h => exact ⟨Nat.le_refl _, fun _ _ _ => rfl, hs⟩
  | toBundle out rnd m b ho h =>
    obtain ⟨n1, n2, -, n3, n4, -⟩ := newBundle_spec rnd _ _ m b
      (cells_alloc hs.cells (c := .ptrs _) (listing_typed hs ho).2)
      (fun p hp => grows_alloc _ _ _ _ ((listing_typed hs ho).2 p hp)) h
    rw [alloc_next] at n1 n2
    exact ⟨show s.mem.next ≤ m.next by omega,
      fun x hx _ => (n2 x (by omega)).trans (alloc_cell_old _ _ hx),
      sound m (fun t a x => n3 t a (grows_alloc _ _ t a x)) n4⟩
  | toBundleFails out rnd ho h => exact ⟨Nat.le_refl _, fun _ _ _ => rfl, hs⟩

omit [UserType U] in
theorem sound_init (ns : Bool) : Sound (State.init (U := U) ns) :=
  ⟨fun a h => absurd h (Nat.not_lt_zero a), ns, [], rfl, by simp⟩

/-- Many steps. -/
theorem run_keeps {s s' : State U} {l : List (Act U × Option Nat)} (hs : Sound s) (h : Run F s l s') :
    s.mem.next ≤ s'.mem.next ∧
      (∀ x, x < s.mem.next → ¬ Changes l x → s'.mem.cell x = s.mem.cell x) ∧ Sound s' := by
  induction h with
  | refl => exact ⟨Nat.le_refl _, fun _ _ _ => rfl, hs⟩
  | step h1 _ ih =>
    obtain ⟨a1, a2, a3⟩ := step_keeps hs h1
    obtain ⟨b1, b2, b3⟩ := ih a3
    refine ⟨Nat.le_trans a1 b1, fun x hx hn => ?_, b3⟩
    rw [b2 x (Nat.lt_of_lt_of_le hx a1) fun ⟨c, r, hm⟩ => hn ⟨c, r, List.mem_cons_of_mem _ hm⟩]
    exact a2 x hx fun c hc => hn ⟨c, _, by rw [hc]; exact List.mem_cons_self ..⟩

theorem Reached.sound {s : State U} (h : Reached F s) : Sound s := by
  obtain ⟨ns, l, h⟩ := h
  exact (run_keeps (sound_init ns) h).2.2

omit [UserType U] in
/-- What a bundle shows depends on its memory only. -/
theorem shows_of_parts {m m' : Memory U} {b : Nat} {id : Str} {js : List Json} (h : Shows m b id js)
    (hc : ∀ a, Part m b a → m'.cell a = m.cell a) : Shows m' b id js := by
  obtain ⟨t, as, h1, h2, h3⟩ := h
  exact ⟨t, as, by rw [hc b (.inl rfl), h1], by rw [hc t (.inr ⟨_, _, t, h1, .inl rfl⟩), h2],
    snap_cells h3 fun a ha => hc a (.inr ⟨_, _, t, h1, .inr ⟨as, h2, ha⟩⟩)⟩

omit [UserType U] in
/-- The JSON text of a bundle is of what it shows. -/
theorem marshal_shows {m : Memory U} {b : Nat} {id : Str} {js : List Json} (h : Shows m b id js) :
    marshalBundle F m b = some (doc id js) := by
  obtain ⟨t, as, h1, h2, h3⟩ := h
  have e : allSome m.text as = some js := by
    clear h2
    induction h3 with
    | nil => rfl
    | cons hx _ ih => simp [allSome, Memory.text, hx, ih]
  have hf : fieldsBundle = .cons (b!"Type") (b!"type") false (.str (b!"STIXType"))
    (.cons (b!"ID") (b!"id") false (.str (b!"Identifier"))
      (.cons (b!"Objects") (b!"objects") true (.slice .raw) .nil)) := rfl
  have t1 : ¬ (b!"ID" = b!"Type") := by decide
  have t2 : ¬ (b!"Objects" = b!"Type") := by decide
  have t3 : ¬ (b!"Objects" = b!"ID") := by decide
  simp only [marshalBundle, h1, h2, e, Option.bind_some]
  rw [tyBundle, hf]
  simp only [enc, encFields, doc, t1, t2, t3, if_true, if_false, allSome_raw]
  cases js <;> simp [isEmptyValue, TypeBundle]

/-- What is new stays, if it is not changed. -/
theorem shows_later {s' s'' : State U} {b n : Nat} {id : Str} {js : List Json}
    {l : List (Act U × Option Nat)} (hs : Sound s')
    (hp : ∀ a, Part s'.mem b a → n ≤ a ∧ a < s'.mem.next) (h : Shows s'.mem b id js)
    (hr : Run F s' l s'') (hc : ∀ a, Part s'.mem b a → ¬ Changes l a) : Shows s''.mem b id js :=
  shows_of_parts h fun a ha => (run_keeps hs hr).2.1 a (hp a ha).2 (hc a ha)

/-- What `ToBundle` gives. -/
theorem toBundle_spec {s s' : State U} {b : Nat} (hs : Sound s) (h : Step F s .toBundle (some b) s') :
    ∃ (out : List (Option Ref)) (ps : List Nat) (rnd : List UInt8) (js : List Json),
      s.coll.AllObjects out ∧ out.map (fun r => r.map Ref.ptr) = ps.map some ∧
      Written F s.mem (ps.map some) js ∧ Shows s'.mem b (newIdentifier rnd TypeBundle) js ∧
      ∀ a, Part s'.mem b a → s.mem.next ≤ a ∧ a < s'.mem.next := by
  cases h with
  | toBundle out rnd m b ho h =>
    obtain ⟨-, -, n1, -, -, js, n2, n3⟩ := newBundle_spec rnd _ _ m b
      (cells_alloc hs.cells (c := .ptrs _) (listing_typed hs ho).2)
      (fun p hp => grows_alloc _ _ _ _ ((listing_typed hs ho).2 p hp)) h
    obtain ⟨ps, hps⟩ := (listing_typed hs ho).1
    refine ⟨out, ps, rnd, js, ho, hps, ?_, n3, fun a ha => ?_⟩
    · rw [← hps]
      exact written_of_cells n2 fun p hp => (alloc_cell_old _ _ ((listing_typed hs ho).2 p hp).1).symm
    · have := n1 a ha
      rw [alloc_next] at this
      exact ⟨by omega, this.2⟩

/-- What `NewBundle` gives. -/
theorem newBundle_step {s s' : State U} {a b : Nat} (hs : Sound s)
    (h : Step F s (.newBundle a) (some b) s') :
    ∃ ps rnd js, s.mem.cell a = .ptrs ps ∧ Written F s.mem ps js ∧
      Shows s'.mem b (newIdentifier rnd TypeBundle) js ∧
      ∀ a, Part s'.mem b a → s.mem.next ≤ a ∧ a < s'.mem.next := by
  cases h with
  | newBundle a ps rnd m b hlt ha h =>
    have hp : ∀ p, some p ∈ ps → s.mem.Is .obj p := by
      have := hs.cells a hlt
      rw [ha] at this; exact this
    obtain ⟨-, -, n1, -, -, js, n2, n3⟩ := newBundle_spec rnd _ ps m b hs.cells hp h
    exact ⟨ps, rnd, js, ha, n2, n3, n1⟩

/-- The objects as a list, and their texts. -/
theorem written_objects {m : Memory U} {ps : List (Option Nat)} {js : List Json}
    (h : Written F m ps js) : bundleObjects F (ps.map m.deref) = .ok js := by
  unfold Written at h
  induction h with
  | nil => rfl
  | cons hx _ ih =>
    rcases hx with ⟨rfl, rfl⟩ | ⟨q, o, rfl, ho, hj⟩
    · simp [Memory.deref, bundleObjects, ih, Res.bind]
    · simp [Memory.deref, ho, bundleObjects, hj, ih, Res.bind]

/-- A bundle is not made exactly if an object cannot be written. -/
theorem rawMessages_none (m : Memory U) (ps : List (Option Nat)) (hp : ∀ p, some p ∈ ps → m.Is .obj p)
    (h : rawMessages F m ps = none) :
    ∃ p o, some p ∈ ps ∧ m.cell p = .obj o ∧ marshalAny F o = none := by
  induction ps generalizing m with
  | nil => cases h
  | cons p ps ih =>
    rw [rawMessages] at h
    cases hj : jsonOf F (m.deref p) with
    | none =>
      cases p with
      | none => cases hj
      | some q =>
        have hq := hp q (List.mem_cons_self ..)
        cases hc : m.cell q with
        | obj o =>
          simp only [Memory.deref, hc, jsonOf] at hj
          exact ⟨q, o, List.mem_cons_self .., hc, hj⟩
        | _ => exact absurd hq.2 (by simp [hc, Cell.kind])
    | some j =>
      rw [hj] at h
      simp only [Option.map_eq_none_iff] at h
      obtain ⟨q, o, h1, h2, h3⟩ := ih (m.alloc (.bytes j))
        (fun q hq => grows_alloc _ _ _ _ (hp q (List.mem_cons_of_mem _ hq))) h
      exact ⟨q, o, List.mem_cons_of_mem _ h1, by
        rw [← h2, alloc_cell_old _ _ (hp q (List.mem_cons_of_mem _ h1)).1], h3⟩

end Stix.Snapshot

namespace Stix
open Snapshot Spec.Snapshot Stix.Canon Stix.Props.Canon

variable {U : Type} [UserType U] {F : Canon.FloatFmt}

/-- **C82.** A bundle is a snapshot.  It has, for each object of a listing of the collection, the JSON
text of the object as it is when `ToBundle` is called; and it still has that, and is written so, after
whatever the program does to its objects, to the collection, and to other bundles and listings, as long as
it does not change the memory of the bundle itself. -/
theorem c82_bundle {s s' : State U} {b : Nat} (hr : Reached F s) (h : Step F s .toBundle (some b) s') :
    ∃ (out : List (Option Ref)) (ps : List Nat) (rnd : List UInt8) (js : List Json),
      s.coll.AllObjects out ∧ out.map (fun r => r.map Ref.ptr) = ps.map some ∧
      Written F s.mem (ps.map some) js ∧
      ∀ l s'', Run F s' l s'' → (∀ a, Part s'.mem b a → ¬ Changes l a) →
        Shows s''.mem b (newIdentifier rnd TypeBundle) js ∧
        marshalBundle F s''.mem b = some (doc (newIdentifier rnd TypeBundle) js) := by
  have hs := Reached.sound hr
  obtain ⟨out, ps, rnd, js, h1, h2, h3, h4, h5⟩ := toBundle_spec hs h
  refine ⟨out, ps, rnd, js, h1, h2, h3, fun l s'' hl hc => ?_⟩
  have := shows_later (step_keeps hs h).2.2 h5 h4 hl hc
  exact ⟨this, marshal_shows this⟩

/-- **C82** (`NewBundle`).  The same of a bundle that `NewBundle` makes of the objects of a slice; in
place of a nil it has `null`. -/
theorem c82_newBundle {s s' : State U} {a b : Nat} (hr : Reached F s)
    (h : Step F s (.newBundle a) (some b) s') :
    ∃ ps rnd js, s.mem.cell a = .ptrs ps ∧ Written F s.mem ps js ∧
      ∀ l s'', Run F s' l s'' → (∀ a, Part s'.mem b a → ¬ Changes l a) →
        Shows s''.mem b (newIdentifier rnd TypeBundle) js ∧
        marshalBundle F s''.mem b = some (doc (newIdentifier rnd TypeBundle) js) := by
  have hs := Reached.sound hr
  obtain ⟨ps, rnd, js, h1, h3, h4, h5⟩ := newBundle_step hs h
  refine ⟨ps, rnd, js, h1, h3, fun l s'' hl hc => ?_⟩
  have := shows_later (step_keeps hs h).2.2 h5 h4 hl hc
  exact ⟨this, marshal_shows this⟩

/-- **C82** (values).  The text written later is the one of the bundle of the objects' values at the time
of the call, so what is proved of these bundles and of reading them (C29, C36) is true of it. -/
theorem c82_values {s s' : State U} {b : Nat} (hr : Reached F s) (h : Step F s .toBundle (some b) s') :
    ∃ out rnd v, s.coll.AllObjects out ∧
      Stix.newBundle F rnd (out.map fun r => s.mem.deref (r.map Ref.ptr)) = .ok v ∧
      ∀ l s'', Run F s' l s'' → (∀ a, Part s'.mem b a → ¬ Changes l a) →
        marshalBundle F s''.mem b = enc F tyBundle v := by
  obtain ⟨out, ps, rnd, js, h1, h2, h3, h4⟩ := c82_bundle hr h
  have e : (out.map fun r => s.mem.deref (r.map Ref.ptr)) = (ps.map some).map s.mem.deref := by
    rw [← h2, List.map_map]; rfl
  refine ⟨out, rnd, .struct (bundleFields rnd js), h1, ?_, fun l s'' hl hc => ?_⟩
  · rw [e, newBundle_eq, written_objects h3]; rfl
  · rw [(h4 l s'' hl hc).2, enc_bundle]; rfl

/-- **C82** (listings).  `AllObjects` gives a slice of its own: it keeps the pointers it has, none nil,
whatever is added later, as long as the program does not change the slice. -/
theorem c82_listing {s s' : State U} {a : Nat} (hr : Reached F s)
    (h : Step F s .allObjects (some a) s') :
    ∃ (out : List (Option Ref)) (ps : List Nat), s.coll.AllObjects out ∧
      out.map (fun r => r.map Ref.ptr) = ps.map some ∧
      ∀ l s'', Run F s' l s'' → ¬ Changes l a → s''.mem.cell a = .ptrs (ps.map some) := by
  have hs := Reached.sound hr
  have hk := (step_keeps hs h).2.2
  cases h with
  | allObjects out ho =>
    obtain ⟨ps, hps⟩ := (listing_typed hs ho).1
    refine ⟨out, ps, ho, hps, fun l s'' hl hc => ?_⟩
    rw [(run_keeps hk hl).2.1 _ (Nat.lt_succ_self _) hc]
    simp only [alloc_cell_new, hps]

/-- **C82** (the program's own).  A program that changes nothing but a bundle or a listing it was given
leaves everything that was there before as it was: objects, slices and other bundles. -/
theorem c82_own {s s' s'' : State U} {a : Act U} {b : Nat} {l : List (Act U × Option Nat)}
    (hr : Reached F s) (ha : a = .allObjects ∨ a = .toBundle ∨ ∃ x, a = .newBundle x)
    (h : Step F s a (some b) s') (hl : Run F s' l s'') (hc : ∀ x, Changes l x → Part s'.mem b x) :
    ∀ x, x < s.mem.next → s''.mem.cell x = s.mem.cell x := by
  have hs := Reached.sound hr
  obtain ⟨k1, k2, k3⟩ := step_keeps hs h
  have new : ∀ x, Part s'.mem b x → s.mem.next ≤ x := by
    intro x hx
    rcases ha with rfl | rfl | ⟨y, rfl⟩
    · cases h with
      | allObjects out ho =>
        rcases hx with rfl | ⟨_, _, _, hb, -⟩
        · exact Nat.le_refl _
        · simp only [alloc_cell_new] at hb; cases hb
    · obtain ⟨_, _, _, _, -, -, -, -, h5⟩ := toBundle_spec hs h
      exact (h5 x hx).1
    · obtain ⟨_, _, _, -, -, -, h5⟩ := newBundle_step hs h
      exact (h5 x hx).1
  intro x hx
  rw [(run_keeps k3 hl).2.1 x (Nat.lt_of_lt_of_le hx k1) fun hn => by
    have := new x (hc x hn); omega]
  refine k2 x hx fun c hw => ?_
  rcases ha with rfl | rfl | ⟨y, rfl⟩ <;> cases hw

/-- **C82** (the collection).  What the collection has changes by `Add` only: no change of an object, a
listing or a bundle makes a difference to it. -/
theorem c82_collection {s s' : State U} {l : List (Act U × Option Nat)} (h : Run F s l s')
    (hl : ∀ p r, (Act.add p, r) ∉ l) : s'.coll = s.coll := by
  induction h with
  | refl => rfl
  | step h1 _ ih =>
    rw [ih fun p r hm => hl p r (List.mem_cons_of_mem _ hm)]
    cases h1 with
    | add p _ => exact absurd (List.mem_cons_self ..) (hl p none)
    | _ => rfl

/-- **C82** (failure).  If `ToBundle` gives no bundle, an object of a listing cannot be written as it is,
and nothing has changed. -/
theorem c82_fails {s s' : State U} (hr : Reached F s) (h : Step F s .toBundle none s') :
    s' = s ∧ ∃ out p o, s.coll.AllObjects out ∧ some p ∈ out.map (fun r => r.map Ref.ptr) ∧
      s.mem.cell p = .obj o ∧ marshalAny F o = none := by
  have hs := Reached.sound hr
  cases h with
  | toBundleFails out rnd ho h =>
    simp only [Snapshot.newBundle, Option.map_eq_none_iff] at h
    obtain ⟨p, o, h1, h2, h3⟩ := rawMessages_none _ _
      (fun p hp => grows_alloc _ _ _ _ ((listing_typed hs ho).2 p hp)) h
    rw [alloc_cell_old _ _ ((listing_typed hs ho).2 p h1).1] at h2
    exact ⟨rfl, out, p, o, ho, h1, h2, h3⟩

/-- **C82.** `ToBundle` and `AllObjects` can be called in every state. -/
theorem c82_returns (s : State U) :
    (∃ r s', Step F s .toBundle r s') ∧ ∃ a s', Step F s .allObjects (some a) s' := by
  obtain ⟨out, ho⟩ := (c03_returns s.coll []).1
  refine ⟨?_, _, _, .allObjects s out ho⟩
  cases hb : Snapshot.newBundle F (List.replicate 16 0) (s.mem.alloc (.ptrs (out.map fun r => r.map Ref.ptr)))
      (out.map fun r => r.map Ref.ptr) with
  | none => exact ⟨_, _, .toBundleFails s out _ ho hb⟩
  | some r => exact ⟨_, _, .toBundle s out _ r.1 r.2 ho hb⟩

/-! A program that changes an object after it made a bundle: the listing leads to the new value, the
bundle still has the old one. -/

/-- An object with a name. -/
def exNamed (n : Str) : Any Empty :=
  .custom (some [(b!"id", .str (exId (b!"x-a"))), (b!"name", .str n), (b!"type", .str (b!"x-a"))])

/-- Its JSON text. -/
def exNamedText (n : Str) : Json :=
  .obj [(b!"id", exText (exId (b!"x-a"))), (b!"name", exText n), (b!"type", exText (b!"x-a"))]

/-- The object is at 0. -/
def exSnap0 : State Empty := ⟨(State.init (U := Empty) false).mem.alloc (.obj (exNamed (b!"old"))), Coll.new false⟩

/-- It was added. -/
def exSnap1 : State Empty := exSnap0.add 0

/-- A bundle was made: at 1 is the slice that `ToBundle` made, at 4 is the bundle. -/
def exSnap2 : State Empty :=
  { exSnap1 with mem := (((exSnap1.mem.alloc (.ptrs [some 0])).alloc (.bytes (exNamedText (b!"old")))).alloc
      (.msgs [2])).alloc (.bundle TypeBundle (newIdentifier (List.replicate 16 0) TypeBundle) 3) }

/-- Then the object was changed. -/
def exSnap3 : State Empty := { exSnap2 with mem := exSnap2.mem.write 0 (.obj (exNamed (b!"new"))) }

theorem exSnap_out : exSnap1.coll.AllObjects [some ⟨0, exId (b!"x-a"), b!"x-a"⟩] := by
  have h : exSnap1.coll.noSort = false ∧ exSnap1.coll.order.length ≠ 0 := by decide +kernel
  rw [Coll.AllObjects, if_pos h]
  decide +kernel

theorem exSnap_reached : Reached toy exSnap1 :=
  ⟨false, _, .step (.alloc _ (.obj (exNamed (b!"old"))) trivial) (.step (.add exSnap0 0 ⟨by decide, rfl⟩) (.refl _))⟩

set_option maxRecDepth 8000 in
theorem exSnap_bundle : Step toy exSnap1 .toBundle (some 4) exSnap2 := by
  refine .toBundle exSnap1 _ (List.replicate 16 0) exSnap2.mem 4 exSnap_out ?_
  have hj : jsonOf toy (some (exNamed (b!"old"))) = some (exNamedText (b!"old")) := rfl
  have hd : (exSnap1.mem.alloc (.ptrs [some 0])).deref (some 0) = some (exNamed (b!"old")) := rfl
  simp only [Snapshot.newBundle, List.map_cons, List.map_nil, Option.map_some, rawMessages, hd, hj]
  rfl

example : Reached toy exSnap1 ∧ Step toy exSnap1 .toBundle (some 4) exSnap2 ∧
    Run toy exSnap2 [(.write 0 (.obj (exNamed (b!"new"))), none)] exSnap3 ∧
    (∀ a, Part exSnap2.mem 4 a → ¬ Changes [(Act.write 0 (.obj (exNamed (b!"new"))), none)] a) ∧
    exSnap3.mem.deref (some 0) = some (exNamed (b!"new")) ∧
    marshalBundle toy exSnap3.mem 4 = some (doc (newIdentifier (List.replicate 16 0) TypeBundle)
      [exNamedText (b!"old")]) := by
  refine ⟨exSnap_reached, exSnap_bundle, .step (.write _ _ _ ⟨by decide, rfl⟩ trivial) (.refl _), ?_, rfl,
    marshal_shows ⟨3, [2], rfl, rfl, .cons rfl .nil⟩⟩
  rintro a ha ⟨c, r, hm⟩
  simp only [List.mem_singleton, Prod.mk.injEq, Act.write.injEq] at hm
  obtain ⟨⟨rfl, -⟩, -⟩ := hm
  obtain ⟨_, _, _, _, -, -, -, -, h⟩ := toBundle_spec (Reached.sound exSnap_reached) exSnap_bundle
  have := (h 0 ha).1
  exact absurd this (by decide)

/-- A tool without its required properties. -/
def exBare : Any Empty :=
  .lib (Obj.lit .Tool [(b!"Type", .str TypeTool), (b!"ID", .str (exId TypeTool))])

/-- It was added. -/
def exSnap4 : State Empty :=
  State.add ⟨(State.init (U := Empty) false).mem.alloc (.obj exBare), Coll.new false⟩ 0

theorem exSnap4_out : exSnap4.coll.AllObjects [some ⟨0, exId TypeTool, TypeTool⟩] := by
  have h : exSnap4.coll.noSort = false ∧ exSnap4.coll.order.length ≠ 0 := by decide +kernel
  rw [Coll.AllObjects, if_pos h]
  decide +kernel

example : Reached toy exSnap4 ∧ Step toy exSnap4 .toBundle none exSnap4 := by
  refine ⟨⟨false, _, .step (.alloc _ (.obj exBare) trivial)
    (.step (.add ⟨(State.init (U := Empty) false).mem.alloc (.obj exBare), Coll.new false⟩ 0 ⟨by decide, rfl⟩)
      (.refl _))⟩, .toBundleFails exSnap4 _ [] exSnap4_out ?_⟩
  have hj : (jsonOf toy (some exBare)).isNone = true := by decide +kernel
  have hd : (exSnap4.mem.alloc (.ptrs [some 0])).deref (some 0) = some exBare := rfl
  simp only [Snapshot.newBundle, List.map_cons, List.map_nil, Option.map_some, rawMessages, hd,
    Option.isNone_iff_eq_none.1 hj]
  rfl

end Stix
