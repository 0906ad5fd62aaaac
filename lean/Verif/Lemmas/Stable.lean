import Verif.Lemmas.ObjTrip

/-!
# Settled values are written as before (lemmas)
-/

namespace Stix
open Spec

variable {F : Canon.FloatFmt}

/-- An `Extensions` map. -/
def Ty.isExt : Ty → Bool
  | .ext _ => true
  | _ => false

mutual
/-- No `Extensions` map but as an object's property, or as an optional member. -/
def Ty.firm : Ty → Bool
  | .slice t => !t.isExt && t.firm
  | .map _ _ t => !t.isExt && t.firm
  | .ptr t => !t.isExt && t.firm
  | .struct _ fs => fs.firm
  | .ext ks => ks.firm
  | _ => true

def Fields.firm : Fields → Bool
  | .nil => true
  | .cons _ _ o t rest => (o || !t.isExt) && t.firm && rest.firm

def Known.firm : Known → Bool
  | .nil => true
  | .cons _ _ fs rest => fs.firm && rest.firm
end

theorem objFields_firm (s : SId) : ∀ r ∈ objFields s, r.ty.firm = true := by
  have : ∀ s ∈ allSIds, ∀ r ∈ objFields s, r.ty.firm = true := by decide +kernel
  exact this s (mem_allSIds s)

theorem allSome_congr_map {α β} {f : α → Option β} {g : α → α} : ∀ {l : List α},
    (∀ a ∈ l, f (g a) = f a) → allSome f (l.map g) = allSome f l
  | [], _ => rfl
  | a :: l, h => by
    simp only [List.map_cons, allSome, h a (by simp),
      allSome_congr_map (l := l) fun x hx => h x (List.mem_cons_of_mem _ hx)]

theorem encEntries_congr_map {α} {f : α → Option Json} {g : α → α} : ∀ {l : List (Str × α)},
    (∀ e ∈ l, f (g e.2) = f e.2) → encEntries f (l.map fun e => (e.1, g e.2)) = encEntries f l
  | [], _ => rfl
  | (k, a) :: l, h => by
    simp only [List.map_cons, encEntries, h (k, a) (by simp),
      encEntries_congr_map (l := l) fun x hx => h x (List.mem_cons_of_mem _ hx)]

theorem encFields_congr : ∀ {fs : Fields} {f g : Str → GV},
    (∀ r ∈ fs.toList, (r.omitE && Blank (g r.name)) = (r.omitE && Blank (f r.name)) ∧
      ((r.omitE && Blank (f r.name)) = false → enc F r.ty (g r.name) = enc F r.ty (f r.name))) →
    encFields F fs g = encFields F fs f
  | .nil, _, _, _ => by simp only [encFields]
  | .cons n k o t rest, f, g, h => by
    have h0 := h ⟨n, k, o, t⟩ (by simp [Fields.toList])
    have ih := encFields_congr (fs := rest) (f := f) (g := g) fun r hr => h r (by simp [Fields.toList, hr])
    simp only [encFields, isEmptyValue_eq, ih]
    simp only at h0
    rw [h0.1]
    split
    · rfl
    · next hb => rw [h0.2 (by simpa using hb)]

theorem blank_zero {t : Ty} {v : GV} (hv : Carriable t v) (hb : Blank v = true) :
    Carriable t (zero t) ∧ Blank (zero t) = true := by
  cases t <;> simp only [Carriable, Val] at hv
  case time => obtain ⟨x, rfl, -⟩ := hv; simp [Blank] at hb
  case struct => obtain ⟨x, rfl, -⟩ := hv; simp [Blank] at hb
  case raw => obtain ⟨x, rfl⟩ := hv; simp [Blank] at hb
  case flt => exact ⟨val_zero_simple carriable_zeroOk rfl, by decide⟩
  all_goals exact ⟨val_zero_simple carriable_zeroOk rfl, by simp [zero, Blank]⟩

/-- What is wanted of a value. -/
def Stable (F : Canon.FloatFmt) (t : Ty) (v : GV) : Prop :=
  Carriable t (settled t v) ∧ Blank (settled t v) = Blank v ∧
    ((t.isExt = true → v ≠ .map none) → enc F t (settled t v) = enc F t v)

theorem stable_enc {t : Ty} {v : GV} (h : Stable F t v) (ht : (!t.isExt) = true) :
    enc F t (settled t v) = enc F t v := h.2.2 fun hc => by simp [hc] at ht

/-- The fields of a struct. -/
theorem settledFields_stable {fs : Fields} (hn : (fs.toList.map FieldInfo.name).Nodup)
    (ho : ∀ r ∈ fs.toList, (r.omitE || !r.ty.isExt) = true) {f : Str → GV}
    (hv : ∀ r ∈ fs.toList, Carriable r.ty (f r.name))
    (h : ∀ r ∈ fs.toList, Stable F r.ty (f r.name)) :
    ValFields carriable fs (settledFields fs f) ∧ encFields F fs (settledFields fs f) = encFields F fs f := by
  constructor
  · rw [valFields_iff]
    intro r hr
    rw [settledFields_row hn hr]
    split
    · next hb =>
      simp only [Bool.and_eq_true] at hb
      exact (blank_zero (hv r hr) hb.2).1
    · exact (h r hr).1
  · refine encFields_congr fun r hr => ?_
    rw [settledFields_row hn hr]
    split
    · next hb =>
      simp only [Bool.and_eq_true] at hb
      refine ⟨by rw [(blank_zero (hv r hr) hb.2).2, hb.2], fun hc => ?_⟩
      simp [hb.1, hb.2] at hc
    · next hb =>
      refine ⟨by rw [(h r hr).2.1], fun _ => (h r hr).2.2 fun hx hc => hb ?_⟩
      have := ho r hr
      rw [hx] at this
      rw [hc]
      simpa [Blank] using this

theorem settledExt_tag {k : Str} : ∀ {ks : Known} {v : GV}, (∀ x, v ≠ .iface k x) →
    ∀ x, settledExt ks v ≠ .iface k x
  | .nil, v, h, x => by simp only [settledExt]; exact h x
  | .cons k' _ fs rest, v, h, x => by
    by_cases hh : ∀ tag f, v ≠ .iface tag (.struct f)
    · rw [settledExt_other hh]; exact h x
    · push Not at hh
      obtain ⟨tag, f, rfl⟩ := hh
      rw [settledExt]
      split
      · intro hc
        simp only [GV.iface.injEq] at hc
        exact h _ (by rw [hc.1])
      · exact settledExt_tag h x

mutual
/-- A settled value can be carried, and is written as before. -/
theorem stable : ∀ (t : Ty) (v : GV), t.sane = true → t.firm = true → Carriable t v → Stable F t v
  | .str _, v, _, _, h => ⟨by simpa only [settled] using h, by simp only [settled], fun _ => by simp only [settled]⟩
  | .bool, v, _, _, h => ⟨by simpa only [settled] using h, by simp only [settled], fun _ => by simp only [settled]⟩
  | .int _, v, _, _, h => ⟨by simpa only [settled] using h, by simp only [settled], fun _ => by simp only [settled]⟩
  | .flt, v, _, _, h => ⟨by simpa only [settled] using h, by simp only [settled], fun _ => by simp only [settled]⟩
  | .enum _, v, _, _, h => ⟨by simpa only [settled] using h, by simp only [settled], fun _ => by simp only [settled]⟩
  | .bin, v, _, _, h => ⟨by simpa only [settled] using h, by simp only [settled], fun _ => by simp only [settled]⟩
  | .dyn, v, _, _, h => ⟨by simpa only [settled] using h, by simp only [settled], fun _ => by simp only [settled]⟩
  | .raw, v, _, _, h => ⟨by simpa only [settled] using h, by simp only [settled], fun _ => by simp only [settled]⟩
  | .time, v, _, _, h => by
    simp only [Carriable, Val] at h
    obtain ⟨t, rfl, h0, h1⟩ := h
    have hm := (c23_second_round_trip t h0 (endOfYears_eq ▸ h1) _
      (c23_round_trip t h0 (endOfYears_eq ▸ h1))).1
    refine ⟨?_, rfl, fun _ => ?_⟩
    · simp only [Carriable, settled, Val]
      refine ⟨_, rfl, ?_⟩
      simp only [carriable] at h0 h1 ⊢
      omega
    · simp only [settled, enc, hm]
  | .slice t, v, hs, hf, h => by
    simp only [Carriable, Val] at h
    simp only [Ty.sane] at hs
    simp only [Ty.firm, Bool.and_eq_true] at hf
    rcases h with rfl | ⟨l, rfl, h⟩
    · exact ⟨.inl rfl, rfl, fun _ => rfl⟩
    · refine ⟨?_, ?_, fun _ => ?_⟩
      · simp only [Carriable, settled, Val]
        refine .inr ⟨_, rfl, ?_⟩
        intro x hx
        obtain ⟨y, hy, rfl⟩ := List.mem_map.1 hx
        exact (stable t y hs hf.2 (h y hy)).1
      · cases l <;> simp [settled, Blank]
      · simp only [settled, enc]
        rw [allSome_congr_map fun a ha => stable_enc (stable t a hs hf.2 (h a ha)) hf.1]
  | .map _ _ t, v, hs, hf, h => by
    simp only [Carriable, Val] at h
    simp only [Ty.sane] at hs
    simp only [Ty.firm, Bool.and_eq_true] at hf
    rcases h with rfl | ⟨m, rfl, hm, h⟩
    · exact ⟨.inl rfl, rfl, fun _ => rfl⟩
    · refine ⟨?_, ?_, fun _ => ?_⟩
      · simp only [Carriable, settled, Val]
        refine .inr ⟨_, rfl, List.pairwise_map.2 hm, ?_⟩
        intro x hx
        obtain ⟨y, hy, rfl⟩ := List.mem_map.1 hx
        exact ⟨(h y hy).1, (stable t y.2 hs hf.2 (h y hy).2).1⟩
      · cases m <;> simp [settled, Blank]
      · simp only [settled, enc]
        rw [encEntries_congr_map fun e he => stable_enc (stable t e.2 hs hf.2 (h e he).2) hf.1]
  | .ptr t, v, hs, hf, h => by
    simp only [Carriable, Val] at h
    simp only [Ty.sane, Bool.and_eq_true] at hs
    simp only [Ty.firm, Bool.and_eq_true] at hf
    rcases h with rfl | ⟨x, rfl, h⟩
    · exact ⟨.inl rfl, rfl, fun _ => rfl⟩
    · have := stable t x hs.2 hf.2 h
      refine ⟨?_, rfl, fun _ => ?_⟩
      · simp only [Carriable, settled, Val]
        exact .inr ⟨_, rfl, this.1⟩
      · simp only [settled, enc]
        exact stable_enc this hf.1
  | .struct _ fs, v, hs, hf, h => by
    simp only [Carriable, Val] at h
    simp only [Ty.sane, Bool.and_eq_true, decide_eq_true_eq] at hs
    simp only [Ty.firm] at hf
    obtain ⟨f, rfl, h⟩ := h
    rw [valFields_iff] at h
    obtain ⟨g1, g2⟩ := settledFields_stable (F := F) hs.1.1 (fun r hr => (stable_fields fs hs.2 hf r hr).1) h
      (fun r hr => (stable_fields fs hs.2 hf r hr).2 _ (h r hr))
    refine ⟨?_, rfl, fun _ => ?_⟩
    · simp only [Carriable, settled, Val]
      exact ⟨_, rfl, g1⟩
    · simp only [settled, enc, g2]
  | .ext ks, v, hs, hf, h => by
    simp only [Carriable, Val] at h
    simp only [Ty.sane] at hs
    simp only [Ty.firm] at hf
    rcases h with rfl | ⟨m, rfl, hm, h⟩
    · refine ⟨.inr ⟨[], rfl, sortedKeys_nil, by simp⟩, by simp [settled, Blank], fun hc => ?_⟩
      exact absurd rfl (hc rfl)
    · refine ⟨?_, ?_, fun _ => ?_⟩
      · simp only [Carriable, settled, Val]
        refine .inr ⟨_, rfl, List.pairwise_map.2 hm, ?_⟩
        intro x hx
        obtain ⟨y, hy, rfl⟩ := List.mem_map.1 hx
        exact ⟨(h y hy).1, (stable_exts ks hs hf y.1 y.2 (h y hy).2).1⟩
      · cases m <;> simp [settled, Blank]
      · simp only [settled, enc]
        rw [encEntries_congr_map fun e he => (stable_exts ks hs hf e.1 e.2 (h e he).2).2]

theorem stable_fields : ∀ (fs : Fields), fs.sane = true → fs.firm = true → ∀ r ∈ fs.toList,
    (r.omitE || !r.ty.isExt) = true ∧ ∀ v, Carriable r.ty v → Stable F r.ty v
  | .nil, _, _, r, hr => by simp [Fields.toList] at hr
  | .cons n k o t rest, hs, hf, r, hr => by
    simp only [Fields.sane, Bool.and_eq_true] at hs
    simp only [Fields.firm, Bool.and_eq_true] at hf
    simp only [Fields.toList, List.mem_cons] at hr
    rcases hr with rfl | hr
    · exact ⟨hf.1.1, fun v h => stable t v hs.1 hf.1.2 h⟩
    · exact stable_fields rest hs.2 hf.2 r hr

theorem stable_exts : ∀ (ks : Known), ks.sane = true → ks.firm = true → ∀ key v, ValExt carriable ks key v →
    ValExt carriable ks key (settledExt ks v) ∧ encExt F ks (settledExt ks v) = encExt F ks v
  | .nil, _, _, key, v, h => by simp only [settledExt]; exact ⟨h, trivial⟩
  | .cons k nm fs rest, hs, hf, key, v, h => by
    simp only [ValExt] at h
    simp only [Known.sane, Bool.and_eq_true, decide_eq_true_eq] at hs
    simp only [Known.firm, Bool.and_eq_true] at hf
    rcases h with ⟨hk, f, rfl, h⟩ | ⟨hk, hv, h⟩
    · rw [valFields_iff] at h
      obtain ⟨g1, g2⟩ := settledFields_stable (F := F) hs.1.1.1
        (fun r hr => (stable_fields fs hs.1.2 hf.1 r hr).1) h
        (fun r hr => (stable_fields fs hs.1.2 hf.1 r hr).2 _ (h r hr))
      simp only [settledExt, if_true, ValExt, encExt, g2]
      exact ⟨.inl ⟨hk, _, rfl, g1⟩, trivial⟩
    · have e2 : settledExt (.cons k nm fs rest) v = settledExt rest v := by
        by_cases hh : ∀ tag f, v ≠ .iface tag (.struct f)
        · rw [settledExt_other hh, settledExt_other hh]
        · push Not at hh
          obtain ⟨tag, f, rfl⟩ := hh
          rw [settledExt, if_neg]
          rintro rfl
          exact hv _ rfl
      have e1 : ∀ v, (∀ x, v ≠ .iface k x) → encExt F (.cons k nm fs rest) v = encExt F rest v := by
        intro v hv
        by_cases hh : ∀ tag f, v ≠ .iface tag (.struct f)
        · rw [encExt]
          intro tag f e
          exact hh tag f e
        · push Not at hh
          obtain ⟨tag, f, rfl⟩ := hh
          rw [encExt, if_neg]
          rintro rfl
          exact hv _ rfl
      have hv' : ∀ x, settledExt rest v ≠ .iface k x := settledExt_tag hv
      obtain ⟨g1, g2⟩ := stable_exts rest hs.2 hf.2 key v h
      rw [e2, e1 _ hv', e1 _ hv, g2]
      simp only [ValExt]
      exact ⟨.inr ⟨hk, hv', g1⟩, trivial⟩
end

end Stix
