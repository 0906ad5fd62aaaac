import Verif.Spec.Refill
import Verif.Lemmas.Says
import Verif.Lemmas.Process
import Verif.Props.NoPanic
import Verif.Lemmas.ObjTrip

/-! # Unmarshalling into an object that has values -/

namespace Stix
open Spec Canon

variable {U : Type} [UserType U] {F : Canon.FloatFmt}

theorem decElems_whole {d : GV → Json → D GV} {z : GV} : ∀ {l : List GV} {js : List Json},
    List.Forall₂ (fun j v => ∀ cur, d cur j = .ok v false) js l → ∀ cur, decElems d z cur js = .ok l false
  | _, _, .nil, _ => rfl
  | _, _, .cons h t, cur => by
    simp only [decElems, h, decElems_whole t, D.bind, Bool.or_self]

theorem forall₂_flip_imp {α β} {R S : α → β → Prop} (h : ∀ a b, R a b → S a b) :
    ∀ {l : List α} {m : List β}, List.Forall₂ R l m → List.Forall₂ S l m
  | _, _, .nil => .nil
  | _, _, .cons a b => .cons (h _ _ a) (forall₂_flip_imp h b)

/-- What says a value of a whole type is read as that value, whatever was there. -/
theorem says_dec_whole : ∀ (t : Ty) (j : Json) (v cur : GV), t.sane = true → Whole t = true → Says F t j v →
    dec F t cur j = .ok v false
  | .str n, j, v, cur, hs, _, h => by
    simp only [Says] at h; obtain ⟨raw, s, rfl, rfl⟩ := h
    simp only [dec]
  | .bool, j, v, cur, hs, _, h => by
    simp only [Says] at h; obtain ⟨b, rfl, rfl⟩ := h
    simp only [dec]
  | .int n, j, v, cur, hs, _, h => by
    simp only [Says] at h
    obtain ⟨l, i, rfl, rfl, h, h1, h2⟩ := h
    simp only [dec, parseInt64_text h h1 h2]
  | .flt, j, v, cur, hs, _, h => by
    simp only [Says] at h
    obtain ⟨l, x, rfl, rfl, h⟩ := h
    simp only [dec, h]
  | .enum e, j, v, cur, hs, _, h => by
    have g := says_dec (.enum e) j v hs h
    simpa only [dec] using g
  | .bin, j, v, cur, hs, _, h => by
    have g := says_dec .bin j v hs h
    simpa only [dec] using g
  | .time, j, v, cur, hs, _, h => by
    have g := says_dec .time j v hs h
    simpa only [dec] using g
  | .slice t, j, v, cur, hs, hw, h => by
    simp only [Says] at h
    simp only [Ty.sane] at hs
    simp only [Whole] at hw
    rcases h with ⟨rfl, rfl⟩ | ⟨js, l, rfl, rfl, h⟩
    · simp only [dec]
    · simp only [dec, decElems_whole (forall₂_flip_imp (fun j v hv cur => says_dec_whole t j v cur hs hw hv) h),
        D.bind, Bool.or_self]
  | .ptr t, j, v, cur, hs, hw, h => by
    simp only [Says] at h
    simp only [Ty.sane, Bool.and_eq_true] at hs
    simp only [Whole] at hw
    rcases h with ⟨rfl, rfl⟩ | ⟨x, hj, rfl, h⟩
    · simp only [dec]
    · have := fun cur => says_dec_whole t j x cur hs.2 hw h
      cases j with
      | null => exact absurd rfl hj
      | _ => simp only [dec, this, D.bind, Bool.or_self]
  | .dyn, j, v, cur, hs, _, h => by
    simp only [Says] at h
    obtain ⟨d, rfl, h⟩ := h
    have h := saysDyn_dec d j h
    cases j with
    | num lit =>
      simp only [decDyn] at h
      simp only [dec]
      cases hp : F.parse lit with
      | none => rw [hp] at h; simp at h
      | some f => rw [hp] at h; simp at h; simp [h]
    | _ => simp [dec, h, D.bind]
  | .ext ks, j, v, cur, hs, _, h => by
    have g := says_dec (.ext ks) j v hs h
    simpa only [dec] using g
  | .raw, j, v, cur, hs, _, h => by
    have g := says_dec .raw j v hs h
    simpa only [dec] using g
  | .map _ _ _, _, _, _, _, hw, _ => by simp [Whole] at hw
  | .struct _ _, _, _, _, _, hw, _ => by simp [Whole] at hw

theorem decStruct_whole {fs : List FieldInfo} {d : Str → GV → Json → D GV} {f : FieldInfo}
    (hn : (fs.map FieldInfo.name).Nodup) (hk : (fs.map FieldInfo.key).Nodup) (hf : f ∈ fs)
    (ms : List (Str × Json)) :
    ∀ (cur : Str → GV) (g : Str → GV) (soft : Bool),
    (∀ k ∈ amKeys ms, foldName k = foldName f.key → k = f.key) →
    decStruct fs d cur ms = .ok g soft →
      (∀ j v, member f.key ms = some j → (∀ c, d f.name c j = .ok v false) → g f.name = v) ∧
      (member f.key ms = none → g f.name = cur f.name) := by
  induction ms with
  | nil =>
    intro cur g soft _ h
    simp only [decStruct, D.ok.injEq] at h
    simp [member, h.1]
  | cons e ms ih =>
    obtain ⟨k, j⟩ := e
    intro cur g soft hv h
    have hv' : ∀ k ∈ amKeys ms, foldName k = foldName f.key → k = f.key :=
      fun k hk => hv k (List.mem_cons_of_mem _ hk)
    simp only [decStruct] at h
    cases hm : matchKey fs k with
    | none =>
      rw [hm] at h
      have hne : k ≠ f.key := by
        rintro rfl
        rw [matchKey_self hk hf] at hm
        simp at hm
      obtain ⟨h1, h2⟩ := ih cur g soft hv' h
      simp only [member, if_neg hne]
      constructor
      · intro i w hh
        cases hmm : member f.key ms with
        | some v => rw [hmm] at hh; exact h1 i w (by rw [hmm]; exact hh)
        | none => rw [hmm] at hh; simp at hh
      · intro hh
        cases hmm : member f.key ms with
        | some v => rw [hmm] at hh; simp at hh
        | none => exact h2 hmm
    | some f' =>
      rw [hm] at h
      simp only at h
      cases hv1 : d f'.name (cur f'.name) j with
      | hard => rw [hv1] at h; simp [D.bind] at h
      | panic => rw [hv1] at h; simp [D.bind] at h
      | ok v sv =>
        rw [hv1] at h
        simp only [D.bind] at h
        cases h2 : decStruct fs d (fun x => if x = f'.name then v else cur x) ms with
        | hard => rw [h2] at h; simp at h
        | panic => rw [h2] at h; simp at h
        | ok g' s' =>
          rw [h2] at h
          simp only [D.ok.injEq] at h
          obtain ⟨rfl, _⟩ := h
          obtain ⟨i1, i2⟩ := ih _ g' s' hv' h2
          by_cases e : k = f.key
          · subst e
            rw [matchKey_self hk hf] at hm
            simp only [Option.some.injEq] at hm
            subst hm
            simp only [member]
            cases hmm : member f.key ms with
            | some w =>
              refine ⟨fun i v hh => i1 i v (by rw [hmm]; exact hh), by simp⟩
            | none =>
              simp only [if_true, Option.some.injEq, reduceCtorEq, false_implies, and_true]
              rintro i w rfl hw
              rw [i2 hmm]
              rw [hw] at hv1
              simp only [D.ok.injEq] at hv1
              simp [hv1.1]
          · have hne : f'.name ≠ f.name := by
              intro hh
              have := inj_of_nodup hn (matchKey_mem hm) hf hh
              subst this
              exact e (hv k (by simp [amKeys]) (matchKey_fold hm))
            simp only [member, if_neg e]
            constructor
            · intro i w hh
              cases hmm : member f.key ms with
              | some v => rw [hmm] at hh; exact i1 i w (by rw [hmm]; exact hh)
              | none => rw [hmm] at hh; simp at hh
            · intro hh
              cases hmm : member f.key ms with
              | some v => rw [hmm] at hh; simp at hh
              | none => rw [i2 hmm, if_neg (Ne.symm hne)]

/-- `json.Unmarshal` into an object refills it. -/
theorem decAny_refilled {j : Json} {a a' : Any U} (h : decAny F j (some a) = .ok (some a') false) :
    Refilled F j a a' := by
  cases a with
  | lib o =>
    simp only [decAny, D.bind_ok_iff] at h
    obtain ⟨o', h1, h2⟩ := h
    simp only [D.ok.injEq, Option.some.injEq, and_true] at h2
    subst h2
    obtain ⟨h3, h4⟩ := decObj_ok h1
    refine .lib _ _ h3 h4 fun r hr hv => ?_
    cases j with
    | obj ms =>
      simp only [decObj, D.bind_ok_iff] at h1
      obtain ⟨g, h5, h6⟩ := h1
      simp only [D.ok.injEq, and_true] at h6
      subst h6
      have hn := objFields_names_nodup o.sid
      obtain ⟨g1, g2⟩ := decStruct_whole hn (objFields_keys_nodup o.sid) hr ms _ g _ (hv ms rfl) h5
      constructor
      · intro hm
        refine g2 ?_
        cases hc : member r.key ms with
        | none => rfl
        | some v => exact absurd ⟨ms, rfl, hc⟩ (hm v)
      · rintro v x ⟨ms', e, hm⟩ hw hs
        cases e
        refine g1 v x hm fun c => ?_
        rw [decField_row (by rw [mkFields_toList]; exact hn) (by rw [mkFields_toList]; exact hr)]
        exact says_dec_whole _ _ _ _ (sane_row (objFields_sane o.sid) (by rw [mkFields_toList]; exact hr)) hw hs
    | null =>
      simp only [decObj, D.ok.injEq, and_true] at h1
      subst h1
      exact ⟨fun _ => rfl, by rintro v x ⟨ms, e, -⟩; cases e⟩
    | _ => simp [decObj] at h1
  | custom m =>
    simp only [decAny, D.bind_ok_iff] at h
    obtain ⟨o', h1, h2⟩ := h
    simp only [D.ok.injEq, Option.some.injEq, and_true] at h2
    subst h2
    cases j with
    | obj ms =>
      rw [decCustom_obj] at h1
      simp only [D.ok.injEq] at h1
      obtain ⟨rfl, -⟩ := h1
      refine .custom (m.getD []) _ m rfl ⟨ms, rfl⟩ ?_ ?_
      · intro k hk
        rw [amLookup_dynMerge]
        cases hc : member k ms with
        | none => rfl
        | some v => exact absurd ⟨ms, rfl, hc⟩ (hk v)
      · rintro k v d ⟨ms', e, hm⟩ hs
        cases e
        rw [amLookup_dynMerge, hm]
        have := saysDyn_dec d v hs
        simp only [dynOf, this]
    | null =>
      simp only [decCustom, D.ok.injEq, and_true] at h1
      subst h1
      exact .nil _ rfl
    | _ => simp [decCustom] at h1
  | user u x =>
    simp only [decAny, D.bind_ok_iff] at h
    obtain ⟨o', h1, h2⟩ := h
    simp only [D.ok.injEq, Option.some.injEq, and_true] at h2
    subst h2
    exact .user _ _ _ h1

end Stix
