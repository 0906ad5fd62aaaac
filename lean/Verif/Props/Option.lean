import Verif.Lemmas.Option

/-!
# Option properties: C16, C17, C18
-/

namespace Stix
open Spec

/-! ### C16 -/

/-- The value of the property after a successful option: the one given, or for an extension the
old map with one more entry. -/
def Spec.WantedValue (old : Option GV) : Opt → GV → Prop
  | .field _ v, w => w = v
  | .extension n v, w => ∃ m, w = .map (some m) ∧
      ∀ n', amLookup n' m = if n' = n then some v else amLookup n' (entries old)
  | .user _, _ => False

/-- C16: an option that fails (or panics) leaves the object as it was; one that succeeds changes
the property it is named after to the given value, and no other property, nor the properties
outside the schema.  It succeeds exactly on the kinds of object that have that property, which is
neither the id nor the type. -/
theorem c16_option_frame (opt : Opt) (hl : Library opt) (o : Obj) :
    ((opt.apply o).2 ≠ .ok () → (opt.apply o).1 = o) ∧
    ((opt.apply o).2 = .ok () ↔ (target o.sid opt).isSome) ∧
    (∀ p, target o.sid opt = some p →
      p ≠ b!"id" ∧ p ≠ b!"type" ∧
      (opt.apply o).1.sid = o.sid ∧ (opt.apply o).1.extra = o.extra ∧
      (∃ w, prop (opt.apply o).1 p = some w ∧ WantedValue (prop o p) opt w) ∧
      ∀ q, q ≠ p → prop (opt.apply o).1 q = prop o q) := by
  cases opt with
  | user f => exact hl.elim
  | field row v =>
    rcases apply_field hl v o with ⟨hn, h⟩ | ⟨f, hf, ht, hid, hty, -, -, -, -, h⟩
    · have ht : target o.sid (.field row v) = none := hn
      have h1 : (Opt.field row v).apply o = (o, .err .other) ∨ (Opt.field row v).apply o = (o, .panic) :=
        h.imp id (·.1)
      refine ⟨fun _ => by rcases h1 with h | h <;> rw [h], ?_, fun p hp => by rw [ht] at hp; cases hp⟩
      rw [ht]
      rcases h1 with h | h <;> rw [h] <;> simp
    · have ht' : target o.sid (.field row v) = some f.key := ht
      rw [h, ht']
      refine ⟨fun hc => absurd rfl hc, by simp, ?_⟩
      rintro p ⟨⟩
      refine ⟨hid, hty, rfl, rfl, ⟨v, by rw [prop_set hf, if_pos rfl], rfl⟩, ?_⟩
      intro q hq
      rw [prop_set hf, if_neg hq]
  | extension n v =>
    rcases apply_extension n v o with ⟨hn, h⟩ | ⟨f, hf, hk, -, -, h⟩
    · have ht : target o.sid (.extension n v) = none := by simp only [target]; rw [if_neg hn]
      rw [h, ht]
      exact ⟨fun _ => rfl, by simp, fun p hp => by cases hp⟩
    · have ht : target o.sid (.extension n v) = some (b!"extensions") := by
        simp only [target]
        rw [if_pos (hk ▸ List.mem_map.2 ⟨f, hf, rfl⟩)]
      rw [h, ht]
      refine ⟨fun hc => absurd rfl hc, by simp, ?_⟩
      rintro p ⟨⟩
      refine ⟨by decide, by decide, rfl, rfl, ⟨_, by rw [prop_set hf, if_pos hk.symm], _, rfl, ?_⟩, ?_⟩
      · intro n'; rw [amLookup_smInsert]
      · intro q hq
        rw [prop_set hf, if_neg (by rw [hk]; exact hq)]

example : Library (.field OptionName (.str (b!"x"))) ∧
    target .Malware (.field OptionName (.str (b!"x"))) = some (b!"name") ∧
    ((Opt.field OptionName (.str (b!"x"))).apply (zeroObj .Malware)).2 = .ok () ∧
    target .URL (.field OptionName (.str (b!"x"))) = none := by
  refine ⟨?_, by decide +kernel, by decide +kernel, by decide +kernel⟩
  simp [Library, optTable]

/-! ### C17 -/

theorem applyOptions_cons_ok {o : Obj} {opt : Opt} (h : (opt.apply o).2 = .ok ())
    (opts : List (Option Opt)) :
    applyOptions o (some opt :: opts) = applyOptions (opt.apply o).1 opts := by
  simp only [applyOptions]
  split
  · rename_i o' h'; rw [h']
  · rename_i r h'
    rcases hr : opt.apply o with ⟨a, b⟩
    rw [hr] at h; simp only at h; subst h
    exact absurd hr (by simpa using h' a)

theorem applyOptions_cons_fail {o : Obj} {opt : Opt} (h : (opt.apply o).2 ≠ .ok ())
    (opts : List (Option Opt)) : applyOptions o (some opt :: opts) = opt.apply o := by
  simp only [applyOptions]
  split
  · rename_i o' h'; rw [h'] at h; exact absurd rfl h
  · rfl

theorem applyOptions_append_ok {o o' : Obj} {pre : List (Option Opt)}
    (h : applyOptions o pre = (o', .ok ())) (post : List (Option Opt)) :
    applyOptions o (pre ++ post) = applyOptions o' post := by
  induction pre generalizing o with
  | nil => simp only [applyOptions, Prod.mk.injEq] at h; rw [List.nil_append, h.1]
  | cons a pre ih =>
    cases a with
    | none => exact ih h
    | some opt =>
      by_cases hok : (opt.apply o).2 = .ok ()
      · rw [List.cons_append, applyOptions_cons_ok hok]
        rw [applyOptions_cons_ok hok] at h
        exact ih h
      · rw [applyOptions_cons_fail hok] at h
        rw [h] at hok; exact absurd rfl hok

theorem applyOptions_append_fail {o : Obj} {pre : List (Option Opt)}
    (h : (applyOptions o pre).2 ≠ .ok ()) (post : List (Option Opt)) :
    applyOptions o (pre ++ post) = applyOptions o pre := by
  induction pre generalizing o with
  | nil => exact absurd rfl h
  | cons a pre ih =>
    cases a with
    | none => exact ih h
    | some opt =>
      by_cases hok : (opt.apply o).2 = .ok ()
      · rw [List.cons_append, applyOptions_cons_ok hok, applyOptions_cons_ok hok]
        rw [applyOptions_cons_ok hok] at h
        exact ih h
      · rw [List.cons_append, applyOptions_cons_fail hok, applyOptions_cons_fail hok]

/-- C17, nil options are skipped. -/
theorem c17_nil_skipped (o : Obj) (pre post : List (Option Opt)) :
    applyOptions o (pre ++ none :: post) = applyOptions o (pre ++ post) := by
  by_cases h : (applyOptions o pre).2 = .ok ()
  · have h' : applyOptions o pre = ((applyOptions o pre).1, .ok ()) := Prod.ext rfl h
    rw [applyOptions_append_ok h', applyOptions_append_ok h']; rfl
  · rw [applyOptions_append_fail h, applyOptions_append_fail h]

/-- C17, the first failing option ends the run: its failure is the outcome and the object is
left as the options before it made it. -/
theorem c17_first_failure (o o' : Obj) (pre post : List (Option Opt)) (bad : Opt)
    (hl : Library bad)
    (hpre : applyOptions o pre = (o', .ok ())) (hbad : (bad.apply o').2 ≠ .ok ()) :
    applyOptions o (pre ++ some bad :: post) = (o', (bad.apply o').2) := by
  rw [applyOptions_append_ok hpre, applyOptions_cons_fail hbad]
  exact Prod.ext ((c16_option_frame bad hl o').1 hbad) rfl

theorem applyOptions_sid (o : Obj) (opts : List (Option Opt))
    (hl : ∀ opt, some opt ∈ opts → Library opt) :
    (applyOptions o opts).1.sid = o.sid ∧ (applyOptions o opts).1.extra = o.extra := by
  induction opts generalizing o with
  | nil => exact ⟨rfl, rfl⟩
  | cons a opts ih =>
    have ih' := fun o => ih o (fun opt h => hl opt (List.mem_cons_of_mem _ h))
    cases a with
    | none => exact ih' o
    | some opt =>
      have hf := c16_option_frame opt (hl opt List.mem_cons_self) o
      by_cases hok : (opt.apply o).2 = .ok ()
      · rw [applyOptions_cons_ok hok]
        obtain ⟨p, hp⟩ := Option.isSome_iff_exists.1 (hf.2.1.1 hok)
        have := hf.2.2 p hp
        exact ⟨(ih' _).1.trans this.2.2.1, (ih' _).2.trans this.2.2.2.1⟩
      · rw [applyOptions_cons_fail hok, hf.1 hok]; exact ⟨rfl, rfl⟩

/-- C17, untouched properties: a run of options, whatever its outcome, changes no property that
none of them is for. -/
theorem c17_untouched (o : Obj) (opts : List (Option Opt))
    (hl : ∀ opt, some opt ∈ opts → Library opt) (p : Str)
    (hp : ∀ opt, some opt ∈ opts → target o.sid opt ≠ some p) :
    prop (applyOptions o opts).1 p = prop o p := by
  induction opts generalizing o with
  | nil => rfl
  | cons a opts ih =>
    cases a with
    | none => exact ih o (fun opt h => hl opt (List.mem_cons_of_mem _ h))
                (fun opt h => hp opt (List.mem_cons_of_mem _ h))
    | some opt =>
      have hf := c16_option_frame opt (hl opt List.mem_cons_self) o
      by_cases hok : (opt.apply o).2 = .ok ()
      · rw [applyOptions_cons_ok hok]
        obtain ⟨q, hq⟩ := Option.isSome_iff_exists.1 (hf.2.1.1 hok)
        have h2 := hf.2.2 q hq
        rw [ih _ (fun opt h => hl opt (List.mem_cons_of_mem _ h))]
        · refine h2.2.2.2.2.2 p ?_
          rintro rfl; exact hp opt List.mem_cons_self hq
        · rw [h2.2.2.1]
          exact fun opt h => hp opt (List.mem_cons_of_mem _ h)
      · rw [applyOptions_cons_fail hok, hf.1 hok]

/-- C17, the last one wins: after a successful run a property has the value given by the last
option for it. -/
theorem c17_last_wins (o : Obj) (pre post : List (Option Opt)) (row : OptRow) (v : GV) (p : Str)
    (hl : ∀ opt, some opt ∈ pre ++ some (.field row v) :: post → Library opt)
    (hok : (applyOptions o (pre ++ some (.field row v) :: post)).2 = .ok ())
    (ht : target o.sid (.field row v) = some p)
    (hpost : ∀ opt, some opt ∈ post → target o.sid opt ≠ some p) :
    prop (applyOptions o (pre ++ some (.field row v) :: post)).1 p = some v := by
  have hpre : (applyOptions o pre).2 = .ok () := by
    by_contra h; rw [applyOptions_append_fail h] at hok; exact h hok
  have hpre' : applyOptions o pre = ((applyOptions o pre).1, .ok ()) := Prod.ext rfl hpre
  have hsid := (applyOptions_sid o pre (fun opt h => hl opt (List.mem_append_left _ h))).1
  have hlib : Library (.field row v) := hl _ (List.mem_append_right _ List.mem_cons_self)
  rw [applyOptions_append_ok hpre'] at hok ⊢
  generalize (applyOptions o pre).1 = o1 at hok hsid ⊢
  have hf := c16_option_frame _ hlib o1
  rw [hsid] at hf
  have ok1 := hf.2.1.2 (by rw [ht]; rfl)
  obtain ⟨-, -, hs, -, ⟨w, hw, hwv⟩, -⟩ := hf.2.2 p ht
  rw [applyOptions_cons_ok ok1, c17_untouched]
  · rw [hw]; exact congrArg some hwv
  · exact fun opt h => hl opt (List.mem_append_right _ (List.mem_cons_of_mem _ h))
  · rw [hs]; exact hpost

/-- What an option for `p` does to an object, as an assignment. -/
theorem apply_as_set (opt : Opt) (hl : Library opt) (s : SId) (p : Str) (ht : target s opt = some p) :
    ∃ f ∈ objFields s, f.key = p ∧ ∃ g : GV → GV, ∀ o : Obj, o.sid = s →
      opt.apply o = (o.set f.name (g (o.val f.name)), .ok ()) := by
  cases opt with
  | user f => exact hl.elim
  | field row v =>
    rcases apply_field hl v (zeroObj s) with ⟨hn, h⟩ | ⟨f, hf, ht', -⟩
    · have : target s (.field row v) = none := hn
      rw [this] at ht; cases ht
    · have e : f.key = p := Option.some.inj (ht'.symm.trans ht)
      refine ⟨f, hf, e, fun _ => v, fun o ho => ?_⟩
      subst ho
      rcases apply_field hl v o with ⟨hn, h⟩ | ⟨f', hf', ht'', -, -, -, -, -, -, h⟩
      · have : target o.sid (.field row v) = none := hn
        rw [this] at ht; cases ht
      · have : f'.key = f.key := (Option.some.inj (ht''.symm.trans ht)).trans e.symm
        have : f' = f := List.inj_on_of_nodup_map (objFields_keys_nodup o.sid) hf' hf this
        subst this; exact h
  | extension n v =>
    simp only [target] at ht
    split at ht
    · rename_i hmem
      obtain ⟨f, hf, hfk⟩ := List.mem_map.1 hmem
      cases ht
      refine ⟨f, hf, hfk, fun w => .map (some (smInsert n v (entries (some w)))), fun o ho => ?_⟩
      subst ho
      rcases apply_extension n v o with ⟨hn, h⟩ | ⟨f', hf', hk', -, -, h⟩
      · exact absurd hmem hn
      · have : f' = f := List.inj_on_of_nodup_map (objFields_keys_nodup o.sid) hf' hf
          (hk'.trans hfk.symm)
        subst this
        rw [h]
        have : prop o (b!"extensions") = some (o.val f'.name) := by rw [← hk']; exact prop_field hf'
        rw [this]
    · cases ht

theorem applyOptions_swap_set {o : Obj} {a b : Opt} (ha : Library a) (hb : Library b) {p q : Str}
    (hpq : p ≠ q) (hta : target o.sid a = some p) (htb : target o.sid b = some q)
    (post : List (Option Opt)) :
    applyOptions o (some a :: some b :: post) = applyOptions o (some b :: some a :: post) := by
  obtain ⟨f, hf, hfk, g, hg⟩ := apply_as_set a ha o.sid p hta
  obtain ⟨f', hf', hfk', g', hg'⟩ := apply_as_set b hb o.sid q htb
  have hne : f.name ≠ f'.name := by
    intro e; have := name_inj hf hf' e; subst this; exact hpq (hfk.symm.trans hfk')
  rw [applyOptions_cons_ok (by rw [hg o rfl]), applyOptions_cons_ok (by rw [hg' _ (by rw [hg o rfl]; rfl)]),
    applyOptions_cons_ok (by rw [hg' o rfl]), applyOptions_cons_ok (by rw [hg _ (by rw [hg' o rfl]; rfl)])]
  congr 1
  rw [hg o rfl, hg' o rfl]
  simp only
  rw [hg' (o.set f.name _) rfl, hg (o.set f'.name _) rfl]
  rw [set_comm _ hne, set_val_ne _ _ (Ne.symm hne), set_val_ne _ _ hne]

/-- C17, neighbours commute: swapping two neighbouring options for different properties changes
neither whether the run succeeds nor the resulting object when it does. -/
theorem c17_swap (o : Obj) (pre post : List (Option Opt)) (a b : Opt)
    (hl : ∀ opt, some opt ∈ pre → Library opt) (ha : Library a) (hb : Library b)
    (hne : target o.sid a ≠ target o.sid b) :
    ((applyOptions o (pre ++ some a :: some b :: post)).2 = .ok () →
      applyOptions o (pre ++ some a :: some b :: post)
        = applyOptions o (pre ++ some b :: some a :: post)) ∧
    ((applyOptions o (pre ++ some a :: some b :: post)).2 = .ok () ↔
      (applyOptions o (pre ++ some b :: some a :: post)).2 = .ok ()) := by
  by_cases hpre : (applyOptions o pre).2 = .ok ()
  · have hpre' : applyOptions o pre = ((applyOptions o pre).1, .ok ()) := Prod.ext rfl hpre
    have hs := (applyOptions_sid o pre hl).1
    rw [applyOptions_append_ok hpre', applyOptions_append_ok hpre']
    generalize (applyOptions o pre).1 = o1 at hs ⊢
    rw [← hs] at hne
    cases hta : target o1.sid a with
    | none =>
      have fa : ∀ o2 : Obj, o2.sid = o1.sid → (a.apply o2).2 ≠ .ok () := by
        intro o2 h2 hok
        have := (c16_option_frame a ha o2).2.1.1 hok
        rw [h2, hta] at this; cases this
      have l : (applyOptions o1 (some a :: some b :: post)).2 ≠ .ok () := by
        rw [applyOptions_cons_fail (fa o1 rfl)]; exact fa o1 rfl
      have r : (applyOptions o1 (some b :: some a :: post)).2 ≠ .ok () := by
        by_cases hb1 : (b.apply o1).2 = .ok ()
        · have hf := c16_option_frame b hb o1
          obtain ⟨q, hq⟩ := Option.isSome_iff_exists.1 (hf.2.1.1 hb1)
          have e := (hf.2.2 q hq).2.2.1
          rw [applyOptions_cons_ok hb1, applyOptions_cons_fail (fa _ e)]; exact fa _ e
        · rw [applyOptions_cons_fail hb1]; exact hb1
      exact ⟨fun h => absurd h l, ⟨fun h => absurd h l, fun h => absurd h r⟩⟩
    | some p =>
      cases htb : target o1.sid b with
      | none =>
        have fb : ∀ o2 : Obj, o2.sid = o1.sid → (b.apply o2).2 ≠ .ok () := by
          intro o2 h2 hok
          have := (c16_option_frame b hb o2).2.1.1 hok
          rw [h2, htb] at this; cases this
        have r : (applyOptions o1 (some b :: some a :: post)).2 ≠ .ok () := by
          rw [applyOptions_cons_fail (fb o1 rfl)]; exact fb o1 rfl
        have l : (applyOptions o1 (some a :: some b :: post)).2 ≠ .ok () := by
          have hf := c16_option_frame a ha o1
          have ha1 := hf.2.1.2 (by rw [hta]; rfl)
          have e := (hf.2.2 p hta).2.2.1
          rw [applyOptions_cons_ok ha1, applyOptions_cons_fail (fb _ e)]; exact fb _ e
        exact ⟨fun h => absurd h l, ⟨fun h => absurd h l, fun h => absurd h r⟩⟩
      | some q =>
        rw [hta, htb] at hne
        have := applyOptions_swap_set ha hb (fun e => hne (by rw [e])) hta htb post
        rw [this]
        exact ⟨fun _ => rfl, Iff.rfl⟩
  · have : ∀ l, applyOptions o (pre ++ l) = applyOptions o pre := fun l => applyOptions_append_fail hpre l
    rw [this, this]
    exact ⟨fun _ => rfl, Iff.rfl⟩

/-- C17, extensions: two neighbouring extensions of different names commute, and of two of the
same name the second wins. -/
theorem c17_extensions (o : Obj) (n n' : Str) (v v' : GV) (post : List (Option Opt)) :
    (n ≠ n' → applyOptions o (some (.extension n v) :: some (.extension n' v') :: post)
      = applyOptions o (some (.extension n' v') :: some (.extension n v) :: post)) ∧
    applyOptions o (some (.extension n v) :: some (.extension n v') :: post)
      = applyOptions o (some (.extension n v') :: post) := by
  by_cases hm : (b!"extensions") ∈ properties o.sid
  · have key : ∃ f : FieldInfo, ∀ (n : Str) (v : GV) (o1 : Obj), o1.sid = o.sid → (Opt.extension n v).apply o1 =
        (o1.set f.name (.map (some (smInsert n v (entries (some (o1.val f.name)))))), .ok ()) := by
      obtain ⟨f, hf, hfk⟩ := List.mem_map.1 hm
      refine ⟨f, fun n v o1 h1 => ?_⟩
      rcases apply_extension n v o1 with ⟨hn, h⟩ | ⟨f', hf', hk', -, -, h⟩
      · rw [h1] at hn; exact absurd hm hn
      · rw [h1] at hf'
        have : f' = f := List.inj_on_of_nodup_map (objFields_keys_nodup o.sid) hf' hf
          (hk'.trans hfk.symm)
        subst this
        rw [h]
        have : prop o1 (b!"extensions") = some (o1.val f'.name) := by
          rw [← hk']; exact prop_field (h1 ▸ hf')
        rw [this]
    obtain ⟨f, hf⟩ := key
    have two : ∀ (n n' : Str) (v v' : GV),
        applyOptions o (some (.extension n v) :: some (.extension n' v') :: post) =
        applyOptions (o.set f.name (.map (some (smInsert n' v' (smInsert n v (entries (some (o.val f.name)))))))) post := by
      intro n n' v v'
      rw [applyOptions_cons_ok (by rw [hf n v o rfl]),
        applyOptions_cons_ok (by rw [hf n' v' _ (by rw [hf n v o rfl]; rfl)]), hf n v o rfl]
      simp only
      rw [hf n' v' (o.set f.name _) rfl]
      rw [set_set, set_val]
      rfl
    refine ⟨fun hne => ?_, ?_⟩
    · rw [two, two, smInsert_comm hne]
    · rw [two, smInsert_smInsert, applyOptions_cons_ok (by rw [hf n v' o rfl]), hf n v' o rfl]
  · have fail : ∀ (n : Str) (v : GV), (Opt.extension n v).apply o = (o, .err .other) := by
      intro n v
      rcases apply_extension n v o with ⟨hn, h⟩ | ⟨f', hf', hk', -⟩
      · exact h
      · exact absurd (hk' ▸ List.mem_map.2 ⟨f', hf', rfl⟩) hm
    have : ∀ (n : Str) (v : GV) (l : List (Option Opt)),
        applyOptions o (some (.extension n v) :: l) = (o, .err .other) := by
      intro n v l
      rw [applyOptions_cons_fail (by rw [fail]; simp), fail]
    simp only [this, implies_true, and_self]

example :
    let o := zeroObj .Malware
    let a := Opt.field OptionName (.str (b!"x"))
    let b := Opt.field OptionDescription (.str (b!"y"))
    Library a ∧ Library b ∧ target o.sid a ≠ target o.sid b ∧
    (applyOptions o [some a, none, some b]).2 = .ok () ∧
    ((Opt.field OptionURL (.str (b!"y"))).apply o).2 = .err .other := by
  refine ⟨by simp [Library, optTable], by simp [Library, optTable], by decide +kernel,
    by decide +kernel, by decide +kernel⟩

/-! ### C18 -/

/-- C18, as far as it is true: an option of the library panics on no object, except that the
content option of `File` panics on a note (see `c18_content_on_note_panics`). -/
theorem c18_options_no_panic_partial (opt : Opt) (hl : Library opt) (o : Obj) :
    (opt.apply o).2 = .panic → (∃ v, opt = .field OptionContent v) ∧ o.sid = .Note := by
  cases opt with
  | user f => exact hl.elim
  | field row v =>
    intro h
    rcases apply_field hl v o with ⟨-, h' | ⟨-, hn, hs⟩⟩ | ⟨f, -, -, -, -, -, -, -, -, h'⟩
    · rw [h'] at h; cases h
    · have names : (optTable.map (·.name)).Nodup := by decide +kernel
      have : row = OptionContent := List.inj_on_of_nodup_map names hl (by simp [optTable]) hn
      subst this
      exact ⟨⟨v, rfl⟩, hs⟩
    · rw [h'] at h; cases h
  | extension n v =>
    intro h
    rcases apply_extension n v o with ⟨-, h'⟩ | ⟨f, -, -, -, -, h'⟩ <;> rw [h'] at h <;> cases h

/-- C18 for lists of options. -/
theorem c18_option_lists_no_panic_partial (o : Obj) (opts : List (Option Opt))
    (hl : ∀ opt, some opt ∈ opts → Library opt)
    (hc : o.sid = .Note → ∀ v, some (.field OptionContent v) ∉ opts) :
    (applyOptions o opts).2.NoPanic := by
  induction opts generalizing o with
  | nil => trivial
  | cons a opts ih =>
    have hl' : ∀ opt, some opt ∈ opts → Library opt := fun opt h => hl opt (List.mem_cons_of_mem _ h)
    have hc' : o.sid = .Note → ∀ v, some (.field OptionContent v) ∉ opts :=
      fun hs v h => hc hs v (List.mem_cons_of_mem _ h)
    cases a with
    | none => exact ih o hl' hc'
    | some opt =>
      have hlo := hl opt List.mem_cons_self
      have hf := c16_option_frame opt hlo o
      by_cases hok : (opt.apply o).2 = .ok ()
      · rw [applyOptions_cons_ok hok]
        obtain ⟨q, hq⟩ := Option.isSome_iff_exists.1 (hf.2.1.1 hok)
        exact ih _ hl' (by rw [(hf.2.2 q hq).2.2.1]; exact hc')
      · rw [applyOptions_cons_fail hok]
        cases hr : (opt.apply o).2 with
        | ok a => trivial
        | err e => trivial
        | panic =>
          obtain ⟨⟨v, rfl⟩, hs⟩ := c18_options_no_panic_partial opt hlo o hr
          exact absurd List.mem_cons_self (hc hs v)

/-- C18 is false of the code: `NewNote(…, OptionContent(id))` panics, because the option's
`Identifier` cannot be assigned to the note's `string` field. -/
theorem c18_content_on_note_panics (o : Obj) (hs : o.sid = .Note) (v : GV) :
    Library (.field OptionContent v) ∧ ((Opt.field OptionContent v).apply o).2 = .panic := by
  refine ⟨by simp [Library, optTable], ?_⟩
  have h1 : ∃ f, getFieldFromBaseStruct .Note OptionContent.field = some f ∧
      f.ty.kind = OptionContent.kind ∧ OptionContent.ty.assignable f.ty = false :=
    ⟨⟨b!"Content", b!"content", false, .str (b!"string")⟩, rfl, rfl, by decide⟩
  obtain ⟨f, hf, hk, ha⟩ := h1
  simp only [Opt.apply, setField]
  rw [hs, hf]
  simp [hk, ha]

end Stix
