import Verif.Model.Order
import Verif.Lemmas.Marshal
import Verif.Lemmas.Process
import Verif.Lemmas.Fate
import Verif.Lemmas.Says
import Verif.Props.Enum
import Verif.Props.NoPanic

/-!
# The order in which maps are visited: lemmas
-/

namespace Stix.Order
open Spec
variable {F : Canon.FloatFmt} {U : Type} [UserType U]

/-- The fixed outcome is a possible one, and any other possible one is an error in place of a
panic. -/
def Close {α} (x : Runs α) (d : D α) : Prop := x d ∧ ∀ r, x r → r = d ∨ (d = .panic ∧ r = .hard)

theorem close_one {α} (d : D α) : Close (one d) d := ⟨rfl, fun _ h => .inl h⟩

theorem close_bind {α β} {x : Runs α} {d : D α} {f : α → Runs β} {g : α → D β} (h : Close x d)
    (hf : ∀ a, Close (f a) (g a)) : Close (x.bind f) (d.bind g) := by
  obtain ⟨h1, h2⟩ := h
  refine ⟨?_, ?_⟩
  · cases d with
    | ok a s => exact .inl ⟨a, s, g a, h1, (hf a).1, rfl⟩
    | hard => exact .inr (.inl ⟨h1, rfl⟩)
    | panic => exact .inr (.inr ⟨h1, rfl⟩)
  · rintro r (⟨a, s, q, ha, hq, rfl⟩ | ⟨hx, rfl⟩ | ⟨hx, rfl⟩)
    · rcases h2 _ ha with rfl | ⟨-, h⟩
      · rcases (hf a).2 _ hq with rfl | ⟨h3, rfl⟩
        · exact .inl rfl
        · exact .inr ⟨by simp [D.bind, h3], rfl⟩
      · cases h
    · rcases h2 _ hx with rfl | ⟨rfl, -⟩
      · exact .inl rfl
      · exact .inr ⟨rfl, rfl⟩
    · rcases h2 _ hx with rfl | ⟨rfl, h⟩
      · exact .inl rfl
      · cases h

theorem close_elems {d : GV → Json → Runs GV} {d' : GV → Json → D GV} {z : GV}
    (h : ∀ v j, Close (d v j) (d' v j)) : ∀ (cur : List GV) (js : List Json),
    Close (elems d z cur js) (decElems d' z cur js)
  | _, [] => close_one _
  | cur, j :: js => close_bind (h _ j) fun _ => close_bind (close_elems h cur.tail js) fun _ =>
      close_one _

theorem close_entries {d : Json → Runs GV} {d' : Json → D GV} (h : ∀ j, Close (d j) (d' j)) :
    ∀ (cur : List (Str × GV)) (ms : List (Str × Json)), Close (entries d cur ms) (decEntries d' cur ms)
  | _, [] => close_one _
  | _, (_, j) :: ms => close_bind (h j) fun _ => close_entries h _ ms

theorem close_struct {fs : List FieldInfo} {d : Str → GV → Json → Runs GV}
    {d' : Str → GV → Json → D GV} (h : ∀ n v j, Close (d n v j) (d' n v j)) :
    ∀ (cur : Str → GV) (ms : List (Str × Json)), Close (struct fs d cur ms) (decStruct fs d' cur ms)
  | _, [] => close_one _
  | cur, (k, j) :: ms => by
    unfold struct decStruct
    cases matchKey fs k with
    | none => exact close_struct h cur ms
    | some f => exact close_bind (h _ _ _) fun _ => close_struct h _ ms

/-! ### Loops that insert into a map -/

/-- Inserting the entries of a map into another, in any order, has one result. -/
theorem insert_perm {α β} (g : α → β) {l l' : List (Str × α)} (hp : l.Perm l') (hn : (amKeys l).Nodup)
    (m : List (Str × β)) :
    l.foldl (fun m e => smInsert e.1 (g e.2) m) m = l'.foldl (fun m e => smInsert e.1 (g e.2) m) m := by
  induction hp generalizing m with
  | nil => rfl
  | cons x _ ih =>
    simp only [amKeys, List.map_cons, List.nodup_cons] at hn
    exact ih hn.2 _
  | swap x y l =>
    simp only [amKeys, List.map_cons, List.nodup_cons, List.mem_cons, not_or] at hn
    simp only [List.foldl_cons]
    rw [smInsert_comm hn.1.1]
  | trans h1 _ ih1 ih2 =>
    rw [ih1 hn]
    exact ih2 ((h1.map Prod.fst).nodup_iff.1 hn) _

theorem copyAll_eq (l m : List (Str × Dyn)) :
    copyAll l m = l.foldl (fun m e => smInsert e.1 e.2 m) m := by
  induction l generalizing m with
  | nil => rfl
  | cons e l ih => exact ih _

theorem addAllExtra_eq (l : List (Str × Dyn)) (m : List (Str × MV)) :
    addAllExtra l m = l.foldl (fun m e => smInsert e.1 (.extra e.2) m) m := by
  induction l generalizing m with
  | nil => rfl
  | cons e l ih => exact ih _

theorem copyAll_iter {m visit : List (Str × Dyn)} (h : SortedKeys m) (hv : Coll.Iter m visit) :
    copyAll visit [] = m := by
  rw [copyAll_eq]
  exact (insert_perm id hv.symm h.nodup []).symm.trans (smOfList_sorted h)

theorem addAllExtra_iter {x : Option (List (Str × Dyn))} {visit : List (Str × Dyn)}
    (h : SortedKeys (x.getD [])) (hv : Coll.Iter (x.getD []) visit) (m : List (Str × MV)) :
    addAllExtra visit m = addExtra x m := by
  rw [addAllExtra_eq, ← insert_perm MV.extra hv.symm h.nodup]
  rfl

/-! ### The extensions -/

theorem extLoop_ok {d : Str → Json → Runs GV} {d' : Str → Json → D GV} {l : List (Str × Json)}
    (h : ∀ e ∈ l, Close (d e.1 e.2) (d' e.1 e.2)) {vs : List (Str × GV)}
    (hd : decExts d' l = .ok vs false) (acc : List (Str × GV)) (r : D (List (Str × GV))) :
    extLoop d l acc r ↔ r = .ok (vs.foldl (fun m e => smInsert e.1 e.2 m) acc) false := by
  induction l generalizing vs acc with
  | nil =>
    simp only [decExts, D.ok.injEq] at hd
    obtain ⟨rfl, -⟩ := hd
    rfl
  | cons e l ih =>
    obtain ⟨k, j⟩ := e
    have hc := h (k, j) (by simp)
    simp only [decExts] at hd
    split at hd <;> simp only [reduceCtorEq, D.ok.injEq] at hd
    rename_i v vs' h1 h2
    obtain ⟨rfl, -⟩ := hd
    rw [h1] at hc
    have hi := ih (fun e he => h e (by simp [he])) h2 (smInsert k v acc)
    simp only [extLoop, List.foldl_cons, ← hi]
    constructor
    · rintro (⟨w, hw, hr⟩ | ⟨⟨w, hw⟩ | hw, rfl⟩ | ⟨hw, rfl⟩)
      · rcases hc.2 _ hw with e | ⟨e, -⟩ <;> cases e
        exact hr
      all_goals rcases hc.2 _ hw with e | ⟨e, -⟩ <;> cases e
    · exact fun hr => .inl ⟨v, hc.1, hr⟩

theorem decExts_perm_ok {d' : Str → Json → D GV} {l l' : List (Str × Json)} (hp : l.Perm l')
    {vs : List (Str × GV)} (hd : decExts d' l = .ok vs false) :
    ∃ vs', decExts d' l' = .ok vs' false ∧ vs.Perm vs' := by
  induction hp generalizing vs with
  | nil => exact ⟨vs, hd, .refl _⟩
  | cons x _ ih =>
    obtain ⟨k, j⟩ := x
    simp only [decExts] at hd
    split at hd <;> simp only [reduceCtorEq, D.ok.injEq] at hd
    rename_i v vs' h1 h2
    obtain ⟨rfl, -⟩ := hd
    obtain ⟨ws, h3, h4⟩ := ih h2
    exact ⟨(k, v) :: ws, by simp [decExts, h1, h3], h4.cons _⟩
  | swap x y l =>
    obtain ⟨k, j⟩ := x
    obtain ⟨k', j'⟩ := y
    simp only [decExts] at hd
    cases h1 : d' k' j' with
    | ok a s => cases h2 : d' k j with
      | ok b t => cases h3 : decExts d' l with
        | ok c u =>
          cases s <;> cases t <;> cases u <;> simp [h1, h2, h3] at hd
          subst hd
          exact ⟨(k, b) :: (k', a) :: c, by simp [decExts, h1, h2, h3], .swap _ _ _⟩
        | _ => simp [h1, h2, h3] at hd
      | _ => cases h3 : decExts d' l <;> simp [h1, h2, h3] at hd
    | hard =>
      exfalso
      rw [h1] at hd
      split at hd <;> simp_all
    | panic => simp [h1] at hd
  | trans _ _ ih1 ih2 =>
    obtain ⟨ws, h1, h2⟩ := ih1 hd
    obtain ⟨xs, h3, h4⟩ := ih2 h1
    exact ⟨xs, h3, h2.trans h4⟩

theorem decExts_keys {d' : Str → Json → D GV} : ∀ {l : List (Str × Json)} {vs : List (Str × GV)},
    decExts d' l = .ok vs false → amKeys vs = amKeys l
  | [], vs, h => by
    simp only [decExts, D.ok.injEq] at h
    rw [← h.1]
    rfl
  | (k, j) :: l, vs, h => by
    simp only [decExts] at h
    split at h <;> simp only [reduceCtorEq, D.ok.injEq] at h
    rename_i v vs' h1 h2
    obtain ⟨rfl, -⟩ := h
    have := decExts_keys h2
    simp only [amKeys, List.map_cons] at this ⊢
    rw [this]

/-- What a loop that does not get to the end comes to. -/
theorem extLoop_cases {d : Str → Json → Runs GV} {d' : Str → Json → D GV} {l : List (Str × Json)}
    (h : ∀ e ∈ l, Close (d e.1 e.2) (d' e.1 e.2)) {acc : List (Str × GV)} {r : D (List (Str × GV))}
    (hr : extLoop d l acc r) :
    (r = .panic ∧ ∃ e ∈ l, (d' e.1 e.2).fate = .crash) ∨
    (r = .hard ∧ ∃ e ∈ l, (d' e.1 e.2).fate ≠ .taken) ∨ ∀ e ∈ l, (d' e.1 e.2).fate = .taken := by
  induction l generalizing acc with
  | nil => exact .inr (.inr (by simp))
  | cons e l ih =>
    obtain ⟨k, j⟩ := e
    have hc := h (k, j) (by simp)
    simp only at hc
    rcases hr with ⟨v, hv, hr⟩ | ⟨hv, rfl⟩ | ⟨hv, rfl⟩
    · have hk : (d' k j).fate = .taken := by
        rcases hc.2 _ hv with e | ⟨-, e⟩
        · rw [← e]; rfl
        · cases e
      rcases ih (fun e he => h e (by simp [he])) hr with ⟨h1, e, he, h2⟩ | ⟨h1, e, he, h2⟩ | h1
      · exact .inl ⟨h1, e, by simp [he], h2⟩
      · exact .inr (.inl ⟨h1, e, by simp [he], h2⟩)
      · refine .inr (.inr ?_)
        rintro e he
        rcases List.mem_cons.1 he with rfl | he
        · exact hk
        · exact h1 e he
    · refine .inr (.inl ⟨rfl, (k, j), by simp, ?_⟩)
      rcases hv with ⟨v, hv⟩ | hv
      · rcases hc.2 _ hv with e | ⟨-, e⟩
        · simp [← e, D.fate]
        · cases e
      · rcases hc.2 _ hv with e | ⟨e, -⟩
        · simp [← e, D.fate]
        · simp [e, D.fate]
    · refine .inl ⟨rfl, (k, j), by simp, ?_⟩
      rcases hc.2 _ hv with e | ⟨-, e⟩
      · simp [← e, D.fate]
      · cases e

theorem extLoop_some {d : Str → Json → Runs GV} {d' : Str → Json → D GV} {l : List (Str × Json)}
    {acc : List (Str × GV)} (h : ∀ e ∈ l, Close (d e.1 e.2) (d' e.1 e.2)) : ∃ r, extLoop d l acc r := by
  induction l generalizing acc with
  | nil => exact ⟨_, rfl⟩
  | cons e l ih =>
    obtain ⟨k, j⟩ := e
    have hc := (h (k, j) (by simp)).1
    simp only at hc
    cases hd : d' k j with
    | ok v s =>
      rw [hd] at hc
      cases s with
      | false =>
        obtain ⟨r, hr⟩ := ih (acc := smInsert k v acc) fun e he => h e (by simp [he])
        exact ⟨r, .inl ⟨v, hc, hr⟩⟩
      | true => exact ⟨.hard, .inr (.inl ⟨.inl ⟨v, hc⟩, rfl⟩)⟩
    | hard =>
      rw [hd] at hc
      exact ⟨.hard, .inr (.inl ⟨.inr hc, rfl⟩)⟩
    | panic =>
      rw [hd] at hc
      exact ⟨.panic, .inr (.inr ⟨hc, rfl⟩)⟩

theorem close_exts {d : Str → Json → Runs GV} {d' : Str → Json → D GV} {m : List (Str × Json)}
    (hs : SortedKeys m) (h : ∀ e ∈ m, Close (d e.1 e.2) (d' e.1 e.2)) :
    Close (exts d m) (decExts d' m) := by
  obtain ⟨h1, h2, h3⟩ := decExts_cases (d := d') m
  cases hd : decExts d' m with
  | ok vs s =>
    have : s = false := by
      cases s
      · rfl
      · simp [hd, D.fate] at h1
    subst this
    have key : ∀ visit, Coll.Iter m visit → ∀ r, extLoop d visit [] r ↔ r = .ok vs false := by
      intro visit hv r
      obtain ⟨ws, h4, h5⟩ := decExts_perm_ok hv.symm hd
      have hvs : SortedKeys vs := sortedKeys_of_keys hs (decExts_keys hd)
      have e : ws.foldl (fun m e => smInsert e.1 e.2 m) [] = vs :=
        (insert_perm id h5 hvs.nodup []).symm.trans (smOfList_sorted hvs)
      rw [extLoop_ok (fun e he => h e (hv.mem_iff.1 he)) h4, e]
    exact ⟨⟨m, .refl _, (key m (.refl _) _).2 rfl⟩, fun r ⟨visit, hv, hr⟩ => .inl ((key visit hv r).1 hr)⟩
  | hard =>
    have hnc : ¬ ∃ e ∈ m, (d' e.1 e.2).fate = .crash := by
      rw [← h2, hd]; simp [D.fate]
    have hnt : ¬ ∀ e ∈ m, (d' e.1 e.2).fate = .taken := by
      rw [← h3, hd]; simp [D.fate]
    have key : ∀ visit, Coll.Iter m visit → ∀ r, extLoop d visit [] r → r = .hard := by
      intro visit hv r hr
      rcases extLoop_cases (fun e he => h e (hv.mem_iff.1 he)) hr with ⟨-, e, he, h4⟩ | ⟨h4, -⟩ | h4
      · exact absurd ⟨e, hv.mem_iff.1 he, h4⟩ hnc
      · exact h4
      · exact absurd (fun e he => h4 e (hv.mem_iff.2 he)) hnt
    refine ⟨⟨m, .refl _, ?_⟩, fun r ⟨visit, hv, hr⟩ => .inl (key visit hv r hr)⟩
    obtain ⟨r, hr⟩ := extLoop_some (acc := []) h
    rw [← key m (.refl _) r hr]
    exact hr
  | panic =>
    obtain ⟨e, he, h4⟩ := h2.1 (by rw [hd]; rfl)
    refine ⟨?_, ?_⟩
    · obtain ⟨pre, post, rfl⟩ := List.append_of_mem he
      refine ⟨e :: (pre ++ post), List.perm_middle.symm, .inr (.inr ⟨?_, rfl⟩)⟩
      have := (h e he).1
      cases hde : d' e.1 e.2 with
      | panic => rwa [hde] at this
      | hard => simp [hde, D.fate] at h4
      | ok v s => cases s <;> simp [hde, D.fate] at h4
    · rintro r ⟨visit, hv, hr⟩
      rcases extLoop_cases (fun e he => h e (hv.mem_iff.1 he)) hr with ⟨h5, -⟩ | ⟨h5, -⟩ | h5
      · exact .inl h5
      · exact .inr ⟨rfl, h5⟩
      · rw [h5 e (hv.mem_iff.2 he)] at h4
        cases h4

/-! ### Decoding -/

theorem enumFind_iter {e : EnumId} {visit : List (UInt8 × Str)} (hv : Coll.Iter (enumTable e) visit)
    (s : Str) : enumFind visit s = enumFind (enumTable e) s := by
  by_cases h : ∃ n, (n, s) ∈ visit
  · obtain ⟨n, hn⟩ := h
    have hd := enumTable_names_nodup e
    rw [enumFind_of_nodup visit ((hv.map Prod.snd).nodup_iff.2 hd) n s hn,
      enumFind_of_nodup _ hd n s (hv.mem_iff.1 hn)]
  · rw [enumFind_of_not_mem visit s fun n hn => h ⟨n, hn⟩,
      enumFind_of_not_mem _ s fun n hn => h ⟨n, hv.mem_iff.2 hn⟩]

theorem close_enum (e : EnumId) (j : Json) :
    Close (enumRuns e j) (D.ofRes (enumUnmarshal (enumTable e) e j)) := by
  refine ⟨⟨_, .refl _, rfl⟩, ?_⟩
  rintro r ⟨visit, hv, rfl⟩
  have : enumFind visit = enumFind (enumTable e) := funext (enumFind_iter hv)
  unfold enumUnmarshal
  rw [this]
  exact .inl rfl

mutual
theorem close_dec : ∀ (t : Ty) (cur : GV) (j : Json), Close (decR F t cur j) (dec F t cur j)
  | .enum e, cur, j => by
    unfold decR dec
    exact close_bind (close_enum e j) fun _ => close_one _
  | .slice t, cur, j => by
    cases j <;> unfold decR dec
    case arr l => exact close_bind (close_elems (fun v j => close_dec t v j) _ _) fun _ => close_one _
    all_goals exact close_one _
  | .map _ _ t, cur, j => by
    cases j <;> unfold decR dec
    case obj ms => exact close_bind (close_entries (fun j => close_dec t _ j) _ _) fun _ => close_one _
    all_goals exact close_one _
  | .ptr t, cur, j => by
    cases j <;> unfold decR dec
    case null => exact close_one _
    all_goals exact close_bind (close_dec t _ _) fun _ => close_one _
  | .struct _ fs, cur, j => by
    cases j <;> unfold decR dec
    case obj ms =>
      exact close_bind (close_struct (fun n v j => close_decField fs n v j) _ _) fun _ => close_one _
    all_goals exact close_one _
  | .ext ks, cur, j => by
    cases j <;> unfold decR dec
    case obj ms =>
      exact close_bind (close_exts (sortedKeys_smOfList _) fun e _ => close_decExt ks e.1 e.2)
        fun _ => close_one _
    all_goals exact close_one _
  | .str _, cur, j => by unfold decR; exact close_one _
  | .bool, cur, j => by unfold decR; exact close_one _
  | .int _, cur, j => by unfold decR; exact close_one _
  | .flt, cur, j => by unfold decR; exact close_one _
  | .bin, cur, j => by unfold decR; exact close_one _
  | .time, cur, j => by unfold decR; exact close_one _
  | .dyn, cur, j => by unfold decR; exact close_one _
  | .raw, cur, j => by unfold decR; exact close_one _

theorem close_decField : ∀ (fs : Fields) (n : Str) (cur : GV) (j : Json),
    Close (decFieldR F fs n cur j) (decField F fs n cur j)
  | .nil, n, cur, j => by unfold decFieldR decField; exact close_one _
  | .cons k _ _ t rest, n, cur, j => by
    unfold decFieldR decField
    by_cases h : n = k
    · rw [if_pos h, if_pos h]; exact close_dec t cur j
    · rw [if_neg h, if_neg h]; exact close_decField rest n cur j

theorem close_decExt : ∀ (ks : Known) (key : Str) (j : Json),
    Close (decExtR F ks key j) (decExt F ks key j)
  | .nil, key, j => by unfold decExtR decExt; exact close_one _
  | .cons k _ fs rest, key, j => by
    unfold decExtR decExt
    by_cases h : key = k
    · rw [if_pos h, if_pos h]
      cases j
      case obj ms =>
        exact close_bind (close_struct (fun n v j => close_decField fs n v j) _ _) fun _ => close_one _
      all_goals exact close_one _
    · rw [if_neg h, if_neg h]; exact close_decExt rest key j
end

theorem close_decObj (o : Obj) (j : Json) : Close (decObjR F o j) (decObj F o j) := by
  cases j
  case obj ms =>
    exact close_bind (close_struct (fun n v j => close_decField _ n v j) _ _) fun _ => close_one _
  all_goals exact close_one _

theorem close_decAny (j : Json) (a : Option (Any U)) : Close (decAnyR F j a) (decAny F j a) := by
  unfold decAnyR
  split
  · exact close_bind (close_decObj _ j) fun _ => close_one _
  · exact close_one _

/-! ### Whole documents -/

/-- As `Close`, for results. -/
def CloseRes {α} (x : Res α → Prop) (d : Res α) : Prop :=
  x d ∧ ∀ r, x r → r = d ∨ (d = .panic ∧ r = .err .other)

theorem close_res {α} {x : Runs α} {d r : D α} (h : Close x d) (hr : x r) :
    r.res = d.res ∨ (d.res = .panic ∧ r.res = .err .other) := by
  rcases h.2 r hr with rfl | ⟨rfl, rfl⟩
  · exact .inl rfl
  · exact .inr ⟨rfl, rfl⟩

theorem extends_iff {a : Option (Any U)} {peak : Peak} (h : SortedKeys (peak.getD []))
    (r : Peak × Option (Any U)) : Extends a peak r ↔ r = extend a peak := by
  have hs : ∀ ks : List Str, SortedKeys (deleteKeys ks (peak.getD [])) := fun ks => h.filter _
  unfold Extends extend
  split
  · constructor
    · rintro ⟨visit, hv, rfl⟩
      rw [copyAll_iter (hs _) hv]
    · rintro rfl
      exact ⟨_, .refl _, by rw [copyAll_iter (hs _) (.refl _)]⟩
  · constructor
    · rintro ⟨visit, hv, rfl⟩
      rw [copyAll_iter (hs _) hv]
    · rintro rfl
      exact ⟨_, .refl _, by rw [copyAll_iter (hs _) (.refl _)]⟩
  · split
    · simp_all
    · simp_all
    · rfl

theorem decCustom_peak_sorted {peak peak' : Peak} {j : Json} (h : SortedKeys (peak.getD []))
    (hd : (decCustom F peak j).res = .ok peak') : SortedKeys (peak'.getD []) := by
  cases j with
  | obj ms =>
    rw [decCustom_obj] at hd
    cases hs : ms.any fun e => dynSoft F e.2 with
    | true => rw [hs] at hd; cases hd
    | false =>
      rw [hs] at hd
      cases hd
      exact sorted_dynMerge h ms
  | null => cases hd; exact sortedKeys_nil
  | bool => cases hd
  | num => cases hd
  | str => cases hd
  | arr => cases hd

theorem extend_peak_sorted {a : Option (Any U)} {peak : Peak} (h : SortedKeys (peak.getD [])) :
    SortedKeys ((extend a peak).1.getD []) := by
  have hs : ∀ ks : List Str, SortedKeys (deleteKeys ks (peak.getD [])) := fun ks => h.filter _
  have hm : ∀ ks : List Str,
      SortedKeys ((peak.map fun _ => deleteKeys ks (peak.getD [])).getD []) := by
    intro ks
    cases peak with
    | none => exact sortedKeys_nil
    | some m => exact hs ks
  unfold extend
  split
  · exact hm _
  · exact hm _
  · exact h

theorem close_parseOne (cfg : Config U) {peak : Peak} (h : SortedKeys (peak.getD [])) (data : Json) :
    CloseRes (ParsesOne F cfg peak data) (parseOne F cfg peak data) := by
  unfold CloseRes ParsesOne parseOne
  cases hd : (decCustom F peak data).res with
  | err e => exact ⟨rfl, fun r hr => .inl hr⟩
  | panic => exact ⟨rfl, fun r hr => .inl hr⟩
  | ok p =>
    have hp := decCustom_peak_sorted h hd
    simp only [Res.bind]
    generalize amLookup (b!"type") (p.getD []) = ty
    split
    · exact ⟨rfl, fun r hr => .inl hr⟩
    · rename_i typ
      dsimp only
      cases hn : newObject cfg typ data with
      | err e => exact ⟨rfl, fun r hr => .inl hr⟩
      | panic => exact ⟨rfl, fun r hr => .inl hr⟩
      | ok b =>
        cases b with
        | none => exact ⟨rfl, fun r hr => .inl hr⟩
        | some a =>
          have hc := close_decAny (F := F) data a
          have he : ∀ (a : Option (Any U)) (q : Peak × Option (Any U)),
              (if cfg.dropCustom then q = (p, a) else Extends a p q) ↔
                q = if cfg.dropCustom then (p, a) else extend a p := by
            intro a q
            cases cfg.dropCustom
            · simpa using extends_iff hp q
            · simp
          simp only [he, exists_eq_left]
          refine ⟨⟨_, hc.1, ?_⟩, ?_⟩
          · cases (decAny F data a).res with
            | ok a => rfl
            | err e => rfl
            | panic => rfl
          · rintro r ⟨d, hd, hr⟩
            rcases close_res hc hd with e | ⟨e1, e2⟩
            · rw [e] at hr
              refine .inl ?_
              cases h : (decAny F data a).res with
              | ok a => rw [h] at hr; exact hr
              | err e => rw [h] at hr; exact hr
              | panic => rw [h] at hr; exact hr
            · rw [e2] at hr
              rw [e1]
              exact .inr ⟨rfl, hr⟩
    · rename_i v hv
      cases v <;> first | exact ⟨rfl, fun r hr => .inl hr⟩ | exact absurd rfl (hv _)

theorem parseOne_peak_sorted (cfg : Config U) {peak : Peak} (h : SortedKeys (peak.getD []))
    {data : Json} {q : Peak × Option (Any U)} (hq : parseOne F cfg peak data = .ok q) :
    SortedKeys (q.1.getD []) := by
  unfold parseOne at hq
  cases hd : (decCustom F peak data).res with
  | err e => rw [hd] at hq; cases hq
  | panic => rw [hd] at hq; cases hq
  | ok p =>
    have hp := decCustom_peak_sorted h hd
    rw [hd] at hq
    simp only [Res.bind] at hq
    split at hq
    · cases hq; exact hp
    · rename_i typ _
      cases hn : newObject cfg typ data with
      | err e => rw [hn] at hq; cases hq
      | panic => rw [hn] at hq; cases hq
      | ok b =>
        rw [hn] at hq
        cases b with
        | none => cases hq; exact hp
        | some a =>
          simp only at hq
          cases ha : (decAny F data a).res with
          | err e => rw [ha] at hq; cases hq
          | panic => rw [ha] at hq; cases hq
          | ok a' =>
            rw [ha] at hq
            simp only at hq
            split at hq
            · cases hq
            · cases hq
              simp only
              split
              · exact hp
              · exact extend_peak_sorted hp
    · cases hq

theorem close_processObjects (cfg : Config U) : ∀ {peak : Peak} (_ : SortedKeys (peak.getD []))
    (c : Coll (Any U)) (l : List Json),
    CloseRes (ProcessesObjects F cfg peak c l) (processObjects F cfg peak c l)
  | _, _, _, [] => ⟨rfl, fun _ h => .inl h⟩
  | peak, h, c, data :: rest => by
    have hc := close_parseOne (F := F) cfg h data
    unfold CloseRes ProcessesObjects processObjects
    cases hp : parseOne F cfg peak data with
    | err e =>
      rw [hp] at hc
      refine ⟨⟨_, hc.1, rfl⟩, ?_⟩
      rintro r ⟨p, hp, hr⟩
      rcases hc.2 p hp with rfl | ⟨e, -⟩
      · exact .inl hr
      · cases e
    | panic =>
      rw [hp] at hc
      refine ⟨⟨_, hc.1, rfl⟩, ?_⟩
      rintro r ⟨p, hp, hr⟩
      rcases hc.2 p hp with rfl | ⟨-, rfl⟩
      · exact .inl hr
      · exact .inr ⟨rfl, hr⟩
    | ok q =>
      rw [hp] at hc
      have hq := parseOne_peak_sorted cfg h hp
      simp only [Res.bind]
      cases ha : addOne c q.2 with
      | err e =>
        refine ⟨⟨_, hc.1, by simp only [ha]⟩, ?_⟩
        rintro r ⟨p, hp, hr⟩
        rcases hc.2 p hp with rfl | ⟨e, -⟩
        · simp only [ha] at hr
          exact .inl hr
        · cases e
      | panic =>
        refine ⟨⟨_, hc.1, by simp only [ha]⟩, ?_⟩
        rintro r ⟨p, hp, hr⟩
        rcases hc.2 p hp with rfl | ⟨e, -⟩
        · simp only [ha] at hr
          exact .inl hr
        · cases e
      | ok c' =>
        have ih := close_processObjects cfg hq c' rest
        refine ⟨⟨_, hc.1, by simp only [ha]; exact ih.1⟩, ?_⟩
        rintro r ⟨p, hp, hr⟩
        rcases hc.2 p hp with rfl | ⟨e, -⟩
        · simp only [ha] at hr
          exact ih.2 r hr
        · cases e

/-- An outcome that is no panic is the only one. -/
theorem close_only {α} {x : Runs α} {d : D α} (h : Close x d) (hd : d ≠ .panic) (r : D α) :
    x r ↔ r = d := by
  constructor
  · intro hr
    rcases h.2 r hr with e | ⟨e, -⟩
    · exact e
    · exact absurd e hd
  · rintro rfl
    exact h.1

theorem close_fromJSON (opts : List (CollOption U)) (doc : Option Json) :
    CloseRes (FromJSON F opts doc) (fromJSON F opts doc) := by
  cases doc with
  | none => exact ⟨rfl, fun _ h => .inl h⟩
  | some j =>
    have hb := close_only (close_dec (F := F) tyBundle (zero tyBundle) j)
      (dec_noPanic _ _ _ (by decide +kernel) (safe_bundle j))
    have hl := close_only (close_dec (F := F) (.slice .raw) (.slice none) j)
      (dec_noPanic _ _ _ (by decide +kernel) (by simp [Safe]))
    have hn : SortedKeys ((none : Peak).getD []) := sortedKeys_nil
    unfold CloseRes FromJSON fromJSON
    simp only [hb, hl, exists_eq_left]
    generalize (dec F tyBundle (zero tyBundle) j).res = rb
    generalize (dec F (.slice .raw) (.slice none) j).res = rl
    cases rb with
    | ok v =>
      cases v
      case struct f => exact close_processObjects (F := F) _ hn _ _
      all_goals cases rl <;>
        first | exact ⟨rfl, fun _ h => .inl h⟩ | exact close_processObjects (F := F) _ hn _ _
    | err e =>
      cases rl <;>
        first | exact ⟨rfl, fun _ h => .inl h⟩ | exact close_processObjects (F := F) _ hn _ _
    | panic => exact ⟨rfl, fun _ h => .inl h⟩

/-! ### Writing -/

theorem objectToMap_iff {o : Obj} (h : SortedKeys (o.extra.getD [])) (r : Option (List (Str × MV))) :
    ObjectToMap o r ↔ r = objectToMap o := by
  have hx : ∀ visit, Coll.Iter (o.extra.getD []) visit → addAllExtra visit = addExtra o.extra :=
    fun visit hv => funext fun m => addAllExtra_iter h hv m
  unfold ObjectToMap objectToMap
  constructor
  · rintro ⟨visit, hv, rfl⟩
    rw [hx visit hv]
    rfl
  · rintro rfl
    exact ⟨_, .refl _, by rw [hx _ (.refl _)]; rfl⟩

theorem marshals_iff {a : Any U} (h : ∀ o, a = .lib o → SortedKeys (o.extra.getD [])) (r : Option Json) :
    Marshals F a r ↔ r = marshalAny F a := by
  cases a with
  | lib o =>
    simp only [Marshals, marshalAny, marshalObj]
    split
    · simp only [objectToMap_iff (h o rfl), exists_eq_left]
    · rfl
  | custom m => rfl
  | user u x => rfl

theorem bundleObjects_iff : ∀ (l : List (Option (Any U))),
    (∀ o, some (Any.lib o) ∈ l → SortedKeys (o.extra.getD [])) → ∀ r : Res (List Json),
    BundleObjects F l r ↔ r = bundleObjects F l
  | [], _, _ => Iff.rfl
  | none :: l, h, r => by
    have ih := bundleObjects_iff l fun o ho => h o (by simp [ho])
    simp only [BundleObjects, bundleObjects, ih, exists_eq_left]
  | some a :: l, h, r => by
    have ih := bundleObjects_iff l fun o ho => h o (by simp [ho])
    simp only [BundleObjects, bundleObjects,
      marshals_iff (F := F) (a := a) fun o ho => h o (by simp [ho]), exists_eq_left, ih]
    cases marshalAny F a <;> simp

end Stix.Order
