import Verif.Lemmas.RoundTrip

/-!
# One object through JSON and back (lemmas)
-/

namespace Stix
open Spec StixObject

variable {F : Canon.FloatFmt} {U : Type} [UserType U]

/-! ### What can be carried is typed -/

mutual
theorem dynAll_mono {S S' : Str → Prop} {N : UInt64 → Prop} (hS : ∀ s, S s → S' s) :
    ∀ {d : Dyn}, DynAll true S N d → DynAll false S' N d
  | .nil, _ => trivial
  | .bool _, _ => trivial
  | .num _, h => h
  | .int _, _ => rfl
  | .str _, h => hS _ h
  | .strs _, h => by simp [DynAll] at h
  | .arr l, h => by
    simp only [DynAll] at h ⊢
    exact dynAllList_mono hS h
  | .obj m, h => by
    simp only [DynAll] at h ⊢
    exact ⟨h.1, dynAllEntries_mono hS h.2⟩

theorem dynAllList_mono {S S' : Str → Prop} {N : UInt64 → Prop} (hS : ∀ s, S s → S' s) :
    ∀ {l : List Dyn}, DynAllList true S N l → DynAllList false S' N l
  | [], _ => trivial
  | d :: l, h => by
    simp only [DynAllList] at h ⊢
    exact ⟨dynAll_mono hS h.1, dynAllList_mono hS h.2⟩

theorem dynAllEntries_mono {S S' : Str → Prop} {N : UInt64 → Prop} (hS : ∀ s, S s → S' s) :
    ∀ {l : List (Str × Dyn)}, DynAllEntries true S N l → DynAllEntries false S' N l
  | [], _ => trivial
  | (k, d) :: l, h => by
    simp only [DynAllEntries] at h ⊢
    exact ⟨⟨hS _ h.1.1, dynAll_mono hS h.1.2⟩, dynAllEntries_mono hS h.2⟩
end

theorem carriable_dyn_typed {d : Dyn} (h : carriable.dyn d) : typed.dyn d :=
  dynAll_mono (fun _ _ => trivial) h

mutual
theorem carriable_typed : ∀ {t : Ty} {v : GV}, Carriable t v → Typed t v
  | .str _, _, h => by obtain ⟨s, rfl, -⟩ := h; exact ⟨_, rfl, trivial⟩
  | .bool, _, h => h
  | .int _, _, h => by obtain ⟨s, rfl, -⟩ := h; exact ⟨_, rfl, trivial⟩
  | .flt, _, h => h
  | .enum _, _, h => by obtain ⟨s, rfl, -⟩ := h; exact ⟨_, rfl, trivial⟩
  | .bin, _, h => h
  | .time, _, h => by obtain ⟨s, rfl, -⟩ := h; exact ⟨_, rfl, trivial⟩
  | .slice t, _, h => by
    rcases h with h | ⟨l, h, hv⟩
    · exact .inl h
    · exact .inr ⟨l, h, fun x hx => carriable_typed (t := t) (hv x hx)⟩
  | .map _ _ t, _, h => by
    rcases h with h | ⟨l, h, hs, hv⟩
    · exact .inl h
    · exact .inr ⟨l, h, hs, fun x hx => ⟨trivial, carriable_typed (t := t) (hv x hx).2⟩⟩
  | .ptr t, _, h => by
    rcases h with h | ⟨l, h, hv⟩
    · exact .inl h
    · exact .inr ⟨l, h, carriable_typed (t := t) hv⟩
  | .struct _ fs, _, h => by
    obtain ⟨f, h, hv⟩ := h
    exact ⟨f, h, carriable_typed_fields hv⟩
  | .dyn, _, h => by
    obtain ⟨d, h, hd⟩ := h
    exact ⟨d, h, carriable_dyn_typed hd⟩
  | .ext ks, _, h => by
    rcases h with h | ⟨l, h, hs, hv⟩
    · exact .inl h
    · exact .inr ⟨l, h, hs, fun x hx => ⟨trivial, carriable_typed_ext (hv x hx).2⟩⟩
  | .raw, _, h => h

theorem carriable_typed_fields : ∀ {fs : Fields} {f : Str → GV}, ValFields carriable fs f →
    ValFields typed fs f
  | .nil, _, _ => trivial
  | .cons _ _ _ _ _, _, h => ⟨carriable_typed h.1, carriable_typed_fields h.2⟩

theorem carriable_typed_ext : ∀ {ks : Known} {k : Str} {v : GV}, ValExt carriable ks k v →
    ValExt typed ks k v
  | .nil, _, _, h => by
    rcases h with ⟨d, h, hc, hd⟩ | ⟨h, -⟩
    · exact .inl ⟨d, h, hc, carriable_dyn_typed hd⟩
    · simp [carriable] at h
  | .cons _ _ _ _, _, _, h => by
    rcases h with ⟨-, f, h, hv⟩ | ⟨-, h, hv⟩
    · exact .inl ⟨by simp [typed], f, h, carriable_typed_fields hv⟩
    · exact .inr ⟨by simp [typed], h, carriable_typed_ext hv⟩
end

theorem Spec.Sound.typed {o : Obj} (h : Sound o) : TypedObj o where
  fields r hr := carriable_typed (h.fields r hr)
  sorted := h.sorted
  extra e he := carriable_dyn_typed (h.extra e he).2

/-! ### The members -/

/-- What the JSON of an object that can be sent consists of. -/
theorem marshal_spec {o : Obj} (h : Sound o) :
    ∃ ms, marshalObj F o = some (.obj ms) ∧ (amKeys ms).Nodup ∧ ∀ k j, (k, j) ∈ ms ↔
      (∃ r ∈ objFields o.sid, r.key = k ∧ Emitted o r ∧ enc F r.ty (o.val r.name) = some j) ∨
      (o.sid ≠ .ExtensionDefinition ∧ ∃ d, (k, d) ∈ extras o ∧ encDyn F d = some j) := by
  by_cases hs : o.sid = .ExtensionDefinition
  · obtain ⟨ms, h1, h2, h3⟩ := c27_extensionDefinition_partial (F := F) o h.typed hs
    refine ⟨ms, h1, h2, fun k j => ?_⟩
    rw [h3]
    simp only [Emitted, hs, if_true, ne_eq, not_true_eq_false, false_and, or_false]
  · have hsome := (c27_required_partial (F := F) o h.typed hs).2 (h.required hs)
    obtain ⟨j, hj⟩ := Option.isSome_iff_exists.1 hsome
    obtain ⟨ms, rfl, h2, h3⟩ := c27_members_partial o h.typed hs j hj
    refine ⟨ms, hj, h3 fun e he => (h.extra e he).1, fun k j => ?_⟩
    rw [h2]
    have hap : ∀ r ∈ objFields o.sid, ∀ d, (r.key, d) ∉ extras o := fun r hr d hd =>
      (h.apart _ hd).2 r hr rfl
    constructor
    · rintro (⟨r, h1, h2, h3, h4, h5⟩ | ⟨k0, d, h1, h2, h3, h4⟩)
      · exact .inl ⟨r, h1, h2, by simpa only [Emitted, hs, if_false] using h3, h5⟩
      · rw [sanitize_unicode (h.extra _ h1).1] at h2
        subst h2
        exact .inr ⟨hs, d, h1, h4⟩
    · rintro (⟨r, h1, h2, h3, h4⟩ | ⟨-, d, h1, h2⟩)
      · refine .field r h1 h2 (by simpa only [Emitted, hs, if_false] using h3) (.inr ?_) h4
        intro hk
        obtain ⟨⟨k', d⟩, hd, e⟩ := List.mem_map.1 hk
        simp only at e
        subst e h2
        exact hap r h1 d hd
      · exact .extra k d h1 (sanitize_unicode (h.extra _ h1).1).symm
          (fun r hr _ e => by subst e; exact absurd h1 (hap r hr d)) h2

/-! ### Reading it again -/

/-- Reading the members into a new struct. -/
theorem decObj_spec (L : Canon.FloatLaws F) {o : Obj} (h : Sound o) {ms : List (Str × Json)}
    (hn : (amKeys ms).Nodup) (hm : ∀ k j, (k, j) ∈ ms ↔
      (∃ r ∈ objFields o.sid, r.key = k ∧ Emitted o r ∧ enc F r.ty (o.val r.name) = some j) ∨
      (o.sid ≠ .ExtensionDefinition ∧ ∃ d, (k, d) ∈ extras o ∧ encDyn F d = some j)) :
    ∃ o', decObj F (zeroObj o.sid) (.obj ms) = .ok o' false ∧ Survives o o' ∧ o'.extra = none := by
  have hnames := objFields_names_nodup o.sid
  have hkeys := objFields_keys_nodup o.sid
  have hrt : ∀ r ∈ objFields o.sid, RoundTrip F r.ty (o.val r.name) := fun r hr =>
    codec_round_trip L _ _ (sane_row (objFields_sane o.sid) (by rw [mkFields_toList]; exact hr))
      (h.fields r hr)
  have hz : ∀ r ∈ objFields o.sid, (zeroObj o.sid).val r.name = zero r.ty := fun r hr =>
    zeroVal_row hnames hr
  have hdec : ∀ r ∈ objFields o.sid, ∀ j, (r.key, j) ∈ ms → Emitted o r ∧
      decField F (mkFields (objFields o.sid)) r.name ((zeroObj o.sid).val r.name) j =
        .ok (settled r.ty (o.val r.name)) false := by
    intro r hr j hj
    rcases (hm _ _).1 hj with ⟨r', hr', e, he, hj'⟩ | ⟨-, d, hd, -⟩
    · obtain rfl := inj_of_nodup hkeys hr' hr e
      refine ⟨he, ?_⟩
      rw [decField_row (by rw [mkFields_toList]; exact hnames) (by rw [mkFields_toList]; exact hr),
        hz _ hr]
      obtain ⟨j', h1, h2⟩ := hrt _ hr
      rw [hj'] at h1
      rw [Option.some.inj h1]
      exact h2
    · exact absurd rfl ((h.apart _ hd).2 r hr)
  obtain ⟨g, g1, g2, g3⟩ := decStruct_spec (d := decField F (mkFields (objFields o.sid))) hnames hkeys
    ms (zeroObj o.sid).val hn (by
      intro k j hj f hf
      rcases (hm _ _).1 hj with ⟨r, hr, rfl, he, hj'⟩ | ⟨-, d, hd, -⟩
      · rw [matchKey_self hkeys hr] at hf
        obtain rfl := Option.some.inj hf
        exact ⟨rfl, _, (hdec _ hr j hj).2⟩
      · exact absurd (matchKey_fold hf) ((h.apart _ hd).2 f (matchKey_mem hf)))
  refine ⟨{ zeroObj o.sid with val := g }, ?_, ⟨rfl, ?_, ?_⟩, rfl⟩
  · have : (zeroObj o.sid).sid = o.sid := rfl
    simp only [decObj, this, g1, D.bind, Bool.or_false]
  · intro r hr he
    obtain ⟨j, h1, h2⟩ := hrt r hr
    have hj : (r.key, j) ∈ ms := (hm _ _).2 (.inl ⟨r, hr, rfl, he, h1⟩)
    have e1 := g2 r hr j hj
    rw [(hdec r hr j hj).2] at e1
    simp only [D.ok.injEq, and_true] at e1
    exact e1.symm
  · intro r hr he
    rw [← hz r hr]
    refine g3 _ fun r' hr' e j hj => ?_
    obtain rfl := inj_of_nodup hnames hr' hr e
    exact he (hdec r' hr j hj).1

/-- A required text property is there. -/
theorem type_row (s : SId) : ∃ r ∈ objFields s, r.name = b!"Type" ∧ r.key = b!"type" ∧
    r.omitE = false ∧ r.ty.isStr = true := by
  have h : ∀ s ∈ allSIds, ((objFields s).any fun r => r.name == b!"Type" && r.key == b!"type" &&
      !r.omitE && r.ty.isStr) = true := by decide +kernel
  have := h s (mem_allSIds s)
  simpa only [List.any_eq_true, Bool.and_eq_true, beq_iff_eq, Bool.not_eq_true', and_assoc] using this

theorem type_member {o : Obj} (h : Sound o) {ms : List (Str × Json)}
    (hm : ∀ k j, (k, j) ∈ ms ↔
      (∃ r ∈ objFields o.sid, r.key = k ∧ Emitted o r ∧ enc F r.ty (o.val r.name) = some j) ∨
      (o.sid ≠ .ExtensionDefinition ∧ ∃ d, (k, d) ∈ extras o ∧ encDyn F d = some j)) :
    (b!"type", Json.ofStr (getType o)) ∈ ms ∧ sanitize (getType o) = getType o := by
  obtain ⟨r, hr, h1, h2, h3, h4⟩ := type_row o.sid
  have hc := h.fields r hr
  cases ht : r.ty <;> simp only [ht, Ty.isStr, Bool.false_eq_true] at h4
  rw [ht] at hc
  obtain ⟨s, hs, hu⟩ := hc
  have hty : getType o = s := by
    rw [h1] at hs
    simp only [getType, Obj.getStr, hs]
  rw [hty]
  refine ⟨(hm _ _).2 (.inl ⟨r, hr, h2, ?_, ?_⟩), sanitize_unicode hu⟩
  · unfold Emitted
    split
    · simp [h3]
    · next hs' => exact h.required hs' r hr h3
  · rw [ht, hs]; rfl

/-- What is left in `peak` for the extended properties of an object with these members. -/
theorem rest_lookup (L : Canon.FloatLaws F) {o : Obj} (h : Sound o) {ms : List (Str × Json)}
    (hn : (amKeys ms).Nodup) (hm : ∀ k j, (k, j) ∈ ms ↔
      (∃ r ∈ objFields o.sid, r.key = k ∧ Emitted o r ∧ enc F r.ty (o.val r.name) = some j) ∨
      (o.sid ≠ .ExtensionDefinition ∧ ∃ d, (k, d) ∈ extras o ∧ encDyn F d = some j))
    (p : List (Str × Dyn)) (k : Str) :
    amLookup k (deleteKeys (libKeys o.sid) (dynMerge F p ms)) =
      if k ∈ libKeys o.sid then none
      else if o.sid ≠ .ExtensionDefinition ∧ k ∈ amKeys (extras o) then amLookup k (extras o)
      else amLookup k p := by
  rw [amLookup_deleteKeys]
  split
  · rfl
  next hk =>
  rw [amLookup_dynMerge]
  have hkey : ∀ r ∈ objFields o.sid, r.key ≠ k := fun r hr e =>
    hk (List.mem_append.2 (.inl (List.mem_map.2 ⟨r, hr, e⟩)))
  split
  · next j hj =>
    rcases (hm _ _).1 (member_mem hj) with ⟨r, hr, e, -⟩ | ⟨hs, d, hd, he⟩
    · exact absurd e (hkey r hr)
    · rw [if_pos ⟨hs, List.mem_map.2 ⟨_, hd, rfl⟩⟩, amLookup_eq_some_of_mem _ _ _ h.sorted.nodup hd]
      obtain ⟨j', h1, h2⟩ := dyn_round_trip L d (h.extra _ hd).2
      rw [he] at h1
      rw [← Option.some.inj h1] at h2
      simp [dynOf, h2]
  · next hj =>
    rw [if_neg]
    rintro ⟨hs, hx⟩
    obtain ⟨⟨k', d⟩, hd, e⟩ := List.mem_map.1 hx
    simp only at e
    subst e
    obtain ⟨j', h1, h2⟩ := dyn_round_trip L d (h.extra _ hd).2
    exact (member_none_iff _ _).1 hj (List.mem_map.2 ⟨_, (hm k' j').2 (.inr ⟨hs, d, hd, h1⟩), rfl⟩)

theorem members_clean (L : Canon.FloatLaws F) (hI : IntegersParse F) {o : Obj} (h : Sound o)
    {ms : List (Str × Json)} (hm : ∀ k j, (k, j) ∈ ms ↔
      (∃ r ∈ objFields o.sid, r.key = k ∧ Emitted o r ∧ enc F r.ty (o.val r.name) = some j) ∨
      (o.sid ≠ .ExtensionDefinition ∧ ∃ d, (k, d) ∈ extras o ∧ encDyn F d = some j)) :
    (ms.any fun e => dynSoft F e.2) = false := by
  rw [List.any_eq_false]
  rintro ⟨k, j⟩ he
  rw [Bool.not_eq_true]
  rcases (hm k j).1 he with ⟨r, hr, -, -, h1⟩ | ⟨-, d, hd, h1⟩
  · exact enc_clean L hI (objFields_noRaw _ r hr) (h.fields r hr) h1
  · exact encDyn_clean L hI (h.extra _ hd).2 h1

/-- `peak` after the object, and the extended properties it is given. -/
def restOf (o : Obj) (p : List (Str × Dyn)) (k : Str) : Option Dyn :=
  if k ∈ libKeys o.sid then none
  else if o.sid ≠ .ExtensionDefinition ∧ k ∈ amKeys (extras o) then amLookup k (extras o)
  else amLookup k p

/-- Parsing the JSON of an object, whatever is left in `peak` from the ones before it. -/
theorem parseOne_marshal (L : Canon.FloatLaws F) (hI : IntegersParse F) {o : Obj} (h : Sound o)
    (opts : List (CollOption U)) (hp : NoParser opts (getType o)) {j : Json}
    (hj : marshalObj F o = some j) (p : Peak) (hps : SortedKeys (p.getD [])) :
    ∃ p' o', parseOne F (Config.new opts) p j = .ok (p', some (.lib o')) ∧ Survives o o' ∧
      SortedKeys (p'.getD []) ∧
      (CollOption.dropCustom ∈ opts → o'.extra = none) ∧
      (CollOption.dropCustom ∉ opts → (∀ k, amLookup k (p'.getD []) = restOf o (p.getD []) k) ∧
        o'.extra = if p'.getD [] ≠ [] ∧ o.sid ≠ .ExtensionDefinition then some (p'.getD []) else none) := by
  obtain ⟨ms, h1, hn, hm⟩ := marshal_spec (F := F) h
  rw [hj] at h1
  obtain rfl := Option.some.inj h1
  obtain ⟨o', hd, hs, hx⟩ := decObj_spec L h hn hm
  obtain ⟨ht, hu⟩ := type_member h hm
  have htyp : amLookup (b!"type") (dynMerge F (p.getD []) ms) = some (.str (getType o)) := by
    rw [amLookup_dynMerge, member_of_mem hn ht]
    simp [dynOf, Json.ofStr, decDyn, hu]
  have hgo : amLookup (getType o) dispatchTable = some o.sid := (dispatch_mem _ _).2 h.type
  have hparse : parseOne F (Config.new opts) p (.obj ms) =
      .ok (if (Config.new opts).dropCustom then (some (dynMerge F (p.getD []) ms), some (.lib o'))
        else extend (some (.lib o')) (some (dynMerge F (p.getD []) ms))) := by
    unfold parseOne
    rw [decCustom_obj, members_clean L hI h hm]
    simp only [D.res, Res.bind, Option.getD_some, htyp, newObject, (noParser_iff opts _).1 hp, hgo,
      decAny, hd, D.bind]
    cases hdr : (Config.new opts).dropCustom <;> simp [extend]
  rw [hparse]
  have hsd := sorted_dynMerge (F := F) hps ms
  by_cases hdrop : CollOption.dropCustom ∈ opts
  · simp only [(dropCustom_iff opts).2 hdrop, if_true]
    exact ⟨_, o', rfl, hs, hsd, fun _ => hx, fun hc => absurd hdrop hc⟩
  · have : (Config.new opts).dropCustom = false := by
      rw [← Bool.not_eq_true, dropCustom_iff]; exact hdrop
    simp only [this, Bool.false_eq_true, if_false, extend, Option.getD_some, Option.map_some, hs.sid]
    refine ⟨_, _, rfl, ?_, ?_, fun hc => absurd hc hdrop, fun _ => ⟨?_, ?_⟩⟩
    · split
      · exact ⟨rfl, hs.emitted, hs.hidden⟩
      · exact hs
    · exact hsd.filter _
    · exact fun k => rest_lookup L h hn hm _ k
    · simp only [canHave_iff, Option.getD_some]
      split
      · rfl
      · exact hx

end Stix
