import Verif.Spec.OptionDocs
import Verif.Props.Option

/-!
# Options and their documentation (C57)
-/

namespace Stix
open Spec

/-- The row of the table, found by name. -/
def look {α} (name : Str) (t : List (Str × List α)) : List α := (amLookup name t).getD []

theorem mem_look {α} {t : List (Str × List α)} (h : (amKeys t).Nodup) (name : Str) (x : α) :
    x ∈ look name t ↔ ∃ e ∈ t, e.1 = name ∧ x ∈ e.2 := by
  unfold look
  constructor
  · intro hx
    cases hl : amLookup name t with
    | none => rw [hl] at hx; simp at hx
    | some l =>
      rw [hl] at hx
      exact ⟨(name, l), mem_of_amLookup _ _ _ hl, rfl, hx⟩
  · rintro ⟨⟨k, l⟩, he, rfl, hx⟩
    rw [amLookup_eq_some_of_mem _ _ _ h he]
    exact hx

/-- A number for a text, to compare texts quickly. -/
def textCode (s : Str) : Nat := s.foldl (fun a c => 256 * a + c.toNat) 1

theorem optTable_names : (optTable.map (·.name)).Nodup := by
  have h : (optTable.map fun r => textCode r.name).Nodup := by decide +kernel
  have : optTable.map (fun r => textCode r.name) = (optTable.map (·.name)).map textCode := by simp
  rw [this] at h
  exact h.of_map

theorem optionProperties_names : amKeys optionProperties = optTable.map (·.name) := by decide +kernel

theorem optionDocs_names : amKeys optionDocs =
    (optTable.map (·.name)).take 12 ++ b!"OptionExtension" :: (optTable.map (·.name)).drop 12 := by
  decide +kernel

theorem docs_keys : (amKeys optionDocs).Nodup ∧ (amKeys wronglyListed).Nodup ∧
    (amKeys unlisted).Nodup := by
  refine ⟨?_, by decide +kernel, by decide +kernel⟩
  rw [optionDocs_names, List.nodup_middle, List.take_append_drop]
  refine List.nodup_cons.2 ⟨?_, optTable_names⟩
  decide +kernel

/-- The check of one option against its documentation, with the lists of the option. -/
def docCheck (alts : List Str) (as : List Audience) (w u : List SId) : Bool :=
  allSIds.all fun s => ((properties s).any fun p => alts.contains p) ==
    ((as.any fun a => decide (InAudience s a)) && !w.contains s || u.contains s)

theorem docs_check : ∀ e ∈ optionProperties.zip (optionDocs.take 12 ++ optionDocs.drop 13),
    docCheck e.1.2 e.2.2 (look e.1.1 wronglyListed) (look e.1.1 unlisted) = true := by
  decide +kernel

/-- In two tables with the same keys, a key has an entry in each, at the same place. -/
theorem zip_of_key {β γ : Type} {k : Str} : ∀ (a : List (Str × β)) (b : List (Str × γ)),
    amKeys a = amKeys b → k ∈ amKeys a → ∃ x y, ((k, x), (k, y)) ∈ a.zip b
  | [], _, _, h => by simp [amKeys] at h
  | _ :: _, [], h, _ => by simp [amKeys] at h
  | (k1, x) :: a, (k2, y) :: b, h, hm => by
    simp only [amKeys, List.map_cons, List.cons.injEq] at h
    obtain ⟨rfl, h⟩ := h
    simp only [amKeys, List.map_cons, List.mem_cons] at hm
    rcases hm with rfl | hm
    · exact ⟨x, y, by simp⟩
    · obtain ⟨x', y', hz⟩ := zip_of_key a b h hm
      exact ⟨x', y', by simp [hz]⟩

theorem docs_check_name {row : OptRow} (h : row ∈ optTable) : ∃ alts as,
    amLookup row.name optionProperties = some alts ∧ amLookup row.name optionDocs = some as ∧
    docCheck alts as (look row.name wronglyListed) (look row.name unlisted) = true := by
  have e : amKeys (optionDocs.take 12 ++ optionDocs.drop 13) = optTable.map (·.name) := by
    decide +kernel
  obtain ⟨alts, as, hz⟩ := zip_of_key optionProperties (optionDocs.take 12 ++ optionDocs.drop 13)
    (optionProperties_names.trans e.symm)
    (by rw [optionProperties_names]; exact List.mem_map_of_mem h)
  have hm := List.of_mem_zip hz
  refine ⟨alts, as, ?_, ?_, docs_check _ hz⟩
  · exact amLookup_eq_some_of_mem _ _ _ (optionProperties_names ▸ optTable_names) hm.1
  · refine amLookup_eq_some_of_mem _ _ _ docs_keys.1 ?_
    rcases List.mem_append.1 hm.2 with hm | hm
    · exact List.mem_of_mem_take hm
    · exact List.mem_of_mem_drop hm

/-- The option has a property of that kind of object exactly if the comment lists the kind, with
the exceptions. -/
theorem docs_table {row : OptRow} (h : row ∈ optTable) (s : SId) :
    (optionProperty s row.name).isSome = true ↔
      (Documented row.name s ∧ ¬ Has wronglyListed row.name s) ∨ Has unlisted row.name s := by
  obtain ⟨alts, as, ha, hd, hc⟩ := docs_check_name h
  have hs := List.all_eq_true.1 hc s (mem_allSIds s)
  rw [beq_iff_eq] at hs
  have h1 : (optionProperty s row.name).isSome = (properties s).any fun p => alts.contains p := by
    unfold optionProperty
    rw [ha, Bool.eq_iff_iff]
    simp only [List.find?_isSome, List.any_eq_true]
  have h2 : Documented row.name s ↔ (as.any fun a => decide (InAudience s a)) = true := by
    simp only [List.any_eq_true, decide_eq_true_eq]
    constructor
    · rintro ⟨⟨k, l⟩, he, hk, a, hal, hin⟩
      simp only at hk hal
      subst hk
      rw [amLookup_eq_some_of_mem _ _ _ docs_keys.1 he, Option.some.injEq] at hd
      exact ⟨a, hd ▸ hal, hin⟩
    · rintro ⟨a, hal, hin⟩
      exact ⟨_, mem_of_amLookup _ _ _ hd, rfl, a, hal, hin⟩
  have h3 : Has wronglyListed row.name s ↔ (look row.name wronglyListed).contains s = true := by
    rw [List.contains_iff_mem, mem_look docs_keys.2.1]; rfl
  have h4 : Has unlisted row.name s ↔ (look row.name unlisted).contains s = true := by
    rw [List.contains_iff_mem, mem_look docs_keys.2.2]; rfl
  rw [h1, hs, h2, h3, h4]
  simp

theorem docs_extension : docCheck [b!"extensions"] (look (b!"OptionExtension") optionDocs) [] [] = true ∧
    look (b!"OptionExtension") wronglyListed = [] ∧ look (b!"OptionExtension") unlisted = [] := by
  refine ⟨by decide +kernel, rfl, rfl⟩

/-- **C57.** An option can be applied exactly to the objects of the kinds that its documentation
lists, with three exceptions one way (`wronglyListed`) and fifteen options that apply to further
kinds (`unlisted`).

Missing: those (`c57_belongs_to`, `c57_user_id`). -/
theorem c57_documented_partial (opt : Opt) (hl : Library opt) (o : Obj) :
    (opt.apply o).2 = .ok () ↔
      (Documented (optionName opt) o.sid ∧ ¬ Has wronglyListed (optionName opt) o.sid) ∨
      Has unlisted (optionName opt) o.sid := by
  rw [(c16_option_frame opt hl o).2.1]
  cases opt with
  | user f => exact hl.elim
  | field row v => exact docs_table hl o.sid
  | extension n v =>
    obtain ⟨h1, h2, h3⟩ := docs_extension
    have hs := List.all_eq_true.1 h1 o.sid (mem_allSIds _)
    rw [beq_iff_eq] at hs
    have hw : ¬ Has wronglyListed (b!"OptionExtension") o.sid := by
      unfold Has; rw [← mem_look docs_keys.2.1, h2]; simp
    have hu : ¬ Has unlisted (b!"OptionExtension") o.sid := by
      unfold Has; rw [← mem_look docs_keys.2.2, h3]; simp
    have hd : Documented (b!"OptionExtension") o.sid ↔
        ((look (b!"OptionExtension") optionDocs).any fun a => decide (InAudience o.sid a)) = true := by
      simp only [List.any_eq_true, decide_eq_true_eq, mem_look docs_keys.1]
      constructor
      · rintro ⟨e, he, hk, a, ha, hin⟩; exact ⟨a, ⟨e, he, hk, ha⟩, hin⟩
      · rintro ⟨a, ⟨e, he, hk, ha⟩, hin⟩; exact ⟨e, he, hk, a, ha, hin⟩
    simp only [optionName, hw, hu, not_false_eq_true, and_true, or_false, hd]
    simp only [List.contains_nil, Bool.not_false, Bool.and_true, Bool.or_false] at hs
    rw [← hs]
    simp only [target]
    split
    · next h => simpa using h
    · next h => simpa using h

/-- **C57.** An option that cannot be applied leaves the object as it was. -/
theorem c57_unchanged (opt : Opt) (hl : Library opt) (o : Obj)
    (h : ¬ ((Documented (optionName opt) o.sid ∧ ¬ Has wronglyListed (optionName opt) o.sid) ∨
      Has unlisted (optionName opt) o.sid)) :
    (opt.apply o).2 ≠ .ok () ∧ (opt.apply o).1 = o :=
  have h' : (opt.apply o).2 ≠ .ok () := fun e => h ((c57_documented_partial opt hl o).1 e)
  ⟨h', (c16_option_frame opt hl o).1 h'⟩

example : ((Opt.field OptionBelongsTo (.slice none)).apply (zeroObj .IPv4Address)).1 = zeroObj .IPv4Address :=
  (c57_unchanged _ (by simp [Library, optTable]) _ (by unfold Documented Has; decide +kernel)).2

/-- **C57** for lists: options that are all documented for that kind of object are all applied.

Missing: the wrongly listed. -/
theorem c57_list_partial (o : Obj) (opts : List (Option Opt))
    (h : ∀ opt, some opt ∈ opts → Library opt ∧ Documented (optionName opt) o.sid ∧
      ¬ Has wronglyListed (optionName opt) o.sid) : (applyOptions o opts).2 = .ok () := by
  induction opts generalizing o with
  | nil => rfl
  | cons a opts ih =>
    cases a with
    | none => exact ih o fun opt ho => h opt (by simp [ho])
    | some opt =>
      obtain ⟨hl, hd, hw⟩ := h opt (by simp)
      have hok := (c57_documented_partial opt hl o).2 (.inl ⟨hd, hw⟩)
      rw [applyOptions_cons_ok hok]
      have hs : (opt.apply o).1.sid = o.sid := by
        obtain ⟨p, hp⟩ := Option.isSome_iff_exists.1 ((c16_option_frame opt hl o).2.1.1 hok)
        exact ((c16_option_frame opt hl o).2.2 p hp).2.2.1
      exact ih _ fun opt ho => by rw [hs]; exact h opt (by simp [ho])

/-- C57: a description and an extension on a tool. -/
example (v w : GV) (opt : Opt)
    (h : some opt ∈ [some (Opt.field OptionDescription v), none, some (.extension (b!"x") w)]) :
    Library opt ∧ Documented (optionName opt) .Tool ∧ ¬ Has wronglyListed (optionName opt) .Tool := by
  simp only [List.mem_cons, Option.some.injEq, reduceCtorEq, List.not_mem_nil, or_false, false_or] at h
  have d1 : Documented (b!"OptionDescription") .Tool := by unfold Documented; decide +kernel
  have d2 : Documented (b!"OptionExtension") .Tool := by unfold Documented; decide +kernel
  have h1 : ¬ Has wronglyListed (b!"OptionDescription") .Tool := by unfold Has; decide +kernel
  have h2 : ¬ Has wronglyListed (b!"OptionExtension") .Tool := by unfold Has; decide +kernel
  rcases h with rfl | rfl
  · exact ⟨by simp [Library, optTable], d1, h1⟩
  · exact ⟨trivial, d2, h2⟩

/-- **C57 is false of the code**: `OptionBelongsTo` is documented for IP addresses, and fails on
every one of them. -/
theorem c57_belongs_to (o : Obj) (h : o.sid = .IPv4Address ∨ o.sid = .IPv6Address) (v : GV) :
    Documented (b!"OptionBelongsTo") o.sid ∧ (Opt.field OptionBelongsTo v).apply o = (o, .err .other) := by
  rcases h with h | h <;> rw [h] <;> refine ⟨by unfold Documented; decide +kernel, ?_⟩
  all_goals
    show setField o _ _ _ _ = _
    unfold setField
    rw [h]
    rfl

/-- **C57 is false of the code**: `OptionUserID` is documented for software, where it fails, and
not for user accounts, for which it is. -/
theorem c57_user_id (v : GV) :
    (∀ o : Obj, o.sid = .Software → Documented (b!"OptionUserID") o.sid ∧
      (Opt.field OptionUserID v).apply o = (o, .err .other)) ∧
    (∀ o : Obj, o.sid = .UserAccount → ¬ Documented (b!"OptionUserID") o.sid ∧
      ((Opt.field OptionUserID v).apply o).2 = .ok ()) := by
  constructor <;> intro o h <;> rw [h] <;> refine ⟨by unfold Documented; decide +kernel, ?_⟩
  all_goals
    unfold Opt.apply
    dsimp only
    unfold setField
    rw [h]
    rfl

end Stix
