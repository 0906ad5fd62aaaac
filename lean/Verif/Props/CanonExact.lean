import Verif.Props.Numbers

/-!
# Canonical JSON is that of RFC 8785 (C42, C68)
-/

namespace Stix.Canon
open Stix Stix.Spec.Canon

/-- Nothing follows, or a comma or a closing bracket. -/
def Ends (r : Str) : Prop := ∀ c, r.head? = some c → c = 44 ∨ c = 93 ∨ c = 125

theorem ends_cons {c : UInt8} {r : Str} (h : c = 44 ∨ c = 93 ∨ c = 125) : Ends (c :: r) := by
  intro d hd; simp at hd; subst hd; exact h

theorem ends_tails (l : List Str) {c : UInt8} {r : Str} (h : c = 93 ∨ c = 125) : Ends (tails l ++ c :: r) := by
  cases l with
  | nil => exact ends_cons (.inr h)
  | cons x xs => exact ends_cons (.inl rfl)

/-- No comma, no closing bracket. -/
def Solid (t : Str) : Prop := ∀ c ∈ t, ¬ (c = 44 ∨ c = 93 ∨ c = 125)

theorem solid_inj : ∀ {t t' r r' : Str}, Solid t → Solid t' → Ends r → Ends r' → t ++ r = t' ++ r' →
    t = t' ∧ r = r'
  | [], [], _, _, _, _, _, _, h => ⟨rfl, h⟩
  | [], c :: t', r, r', _, ht', hr, _, h => by
    rw [List.nil_append] at h
    exact absurd (hr c (by rw [h]; rfl)) (ht' c (by simp))
  | c :: t, [], r, r', ht, _, _, hr', h => by
    rw [List.nil_append] at h
    exact absurd (hr' c (by rw [← h]; rfl)) (ht c (by simp))
  | c :: t, c' :: t', r, r', ht, ht', hr, hr', h => by
    simp only [List.cons_append, List.cons.injEq] at h
    obtain ⟨rfl, h⟩ := h
    obtain ⟨rfl, h2⟩ := solid_inj (fun c hc => ht c (by simp [hc])) (fun c hc => ht' c (by simp [hc])) hr hr' h
    exact ⟨rfl, h2⟩

mutual
/-- Literals and numbers are ones. -/
def _root_.Stix.Spec.Canon.JV.Formed : JV → Prop
  | .lit t => Literal t
  | .num t => NumToken t
  | .str _ => True
  | .arr l => listFormed l
  | .obj m => membersFormed m

def listFormed : List JV → Prop
  | [] => True
  | v :: vs => v.Formed ∧ listFormed vs

def membersFormed : List (Str × JV) → Prop
  | [] => True
  | (_, v) :: ms => v.Formed ∧ membersFormed ms
end

mutual
theorem formed_syn : ∀ (s : Syn), s.WF → s.value.Formed
  | .lit _, h => h
  | .num _, h => h
  | .str _ _, _ => trivial
  | .arr _ es, h => by simpa only [Syn.value, JV.Formed] using formed_elems es h.2
  | .obj _ ms, h => by simpa only [Syn.value, JV.Formed] using formed_members ms h.2

theorem formed_elems : ∀ (es : Elems), es.WF → listFormed es.values
  | .nil, _ => trivial
  | .cons _ v _ r, h => ⟨formed_syn v h.2.1, formed_elems r h.2.2.2⟩

theorem formed_members : ∀ (ms : Members), ms.WF → membersFormed ms.values
  | .nil, _ => trivial
  | .cons _ _ _ _ _ v _ r, h => ⟨formed_syn v h.2.2.2.2.1, formed_members r h.2.2.2.2.2.2⟩
end

theorem literal_solid {t : Str} (h : Literal t) : Solid t ∧ t.headD 34 ∉ (b!"\"[{") := by
  unfold Solid
  rcases h with rfl | rfl | rfl <;> decide

theorem numToken_solid {t : Str} (h : NumToken t) : Solid t ∧ t.headD 34 ∉ (b!"\"[{") := by
  refine ⟨?_, h.1⟩
  intro c hc hd
  apply (h.2.2 c hc).2
  rcases hd with rfl | rfl | rfl <;> decide

theorem escape_inj {s s' r r' : Str} (h : s.flatMap escapeByte ++ 34 :: r = s'.flatMap escapeByte ++ 34 :: r') :
    s = s' ∧ r = r' := by
  have h1 := parseQuoted_spells (escape_spells s) (max (s.flatMap escapeByte).length (s'.flatMap escapeByte).length + 1) r
    (by omega)
  have h2 := parseQuoted_spells (escape_spells s') (max (s.flatMap escapeByte).length (s'.flatMap escapeByte).length + 1) r'
    (by omega)
  rw [h, h2] at h1
  simpa [eq_comm] using h1

/-- The first byte of what is printed. -/
def lead : JV → UInt8
  | .lit t => t.headD 34
  | .num t => t.headD 34
  | .str _ => 34
  | .arr _ => 91
  | .obj _ => 123

theorem print_lead {v : JV} (h : v.Formed) (r : Str) : (v.print ++ r).head? = some (lead v) := by
  cases v with
  | lit t =>
    have := (literal_solid h).2
    cases t with
    | nil => exact absurd (by decide) this
    | cons c t => rfl
  | num t =>
    have := (numToken_solid h).2
    cases t with
    | nil => exact absurd (by decide) this
    | cons c t => rfl
  | str s => rfl
  | arr l => simp [JV.print, lead]
  | obj l => simp [JV.print, lead]

theorem lead_token {v w : JV} (hv : v.Formed) (hw : w.Formed) (h : lead v = lead w) :
    ((∃ s, v = .str s) ↔ ∃ s, w = .str s) ∧ ((∃ s, v = .arr s) ↔ ∃ s, w = .arr s) ∧
      ((∃ s, v = .obj s) ↔ ∃ s, w = .obj s) := by
  have key : ∀ {v : JV}, v.Formed → ((∃ s, v = .str s) ↔ lead v = 34) ∧ ((∃ s, v = .arr s) ↔ lead v = 91) ∧
      ((∃ s, v = .obj s) ↔ lead v = 123) := by
    intro v hv
    have hn : ∀ t : Str, t.headD 34 ∉ (b!"\"[{") → t.headD 34 ≠ 34 ∧ t.headD 34 ≠ 91 ∧ t.headD 34 ≠ 123 := by
      intro t ht
      refine ⟨?_, ?_, ?_⟩ <;> intro e <;> rw [e] at ht <;> exact ht (by decide)
    cases v with
    | lit t => have := hn t (literal_solid hv).2; simpa [lead] using this
    | num t => have := hn t (numToken_solid hv).2; simpa [lead] using this
    | str s => simp [lead]
    | arr l => simp [lead]
    | obj l => simp [lead]
  rw [(key hv).1, (key hv).2.1, (key hv).2.2, (key hw).1, (key hw).2.1, (key hw).2.2, h]
  exact ⟨Iff.rfl, Iff.rfl, Iff.rfl⟩

theorem lead_open {v : JV} (h : v.Formed) : lead v ≠ 93 := by
  have hs : ∀ t : Str, Solid t → t.headD 34 ≠ 93 := by
    intro t ht
    cases t with
    | nil => decide
    | cons c t => intro e; exact ht c (by simp) (.inr (.inl e))
  cases v with
  | lit t => exact hs t (literal_solid h).1
  | num t => exact hs t (numToken_solid h).1
  | _ => simp [lead]

/-- Texts of literals and numbers. -/
theorem token_inj {t t' r r' : Str} (h1 : Literal t ∨ NumToken t) (h2 : Literal t' ∨ NumToken t') (hr : Ends r)
    (hr' : Ends r') (h : t ++ r = t' ++ r') : t = t' ∧ r = r' := by
  refine solid_inj ?_ ?_ hr hr' h
  · exact h1.elim (fun h => (literal_solid h).1) (fun h => (numToken_solid h).1)
  · exact h2.elim (fun h => (literal_solid h).1) (fun h => (numToken_solid h).1)

mutual
/-- Different values have different texts, whatever follows. -/
theorem print_inj : ∀ (v w : JV) (r r' : Str), v.Formed → w.Formed → Ends r → Ends r' →
    v.print ++ r = w.print ++ r' → v = w ∧ r = r'
  | v, w, r, r', hv, hw, hr, hr', h => by
    have hl : lead v = lead w := by
      have := print_lead hv r
      rw [h, print_lead hw r'] at this
      exact (Option.some.inj this).symm
    obtain ⟨k1, k2, k3⟩ := lead_token hv hw hl
    match v, hv with
    | .str s, _ =>
      obtain ⟨s', rfl⟩ := k1.1 ⟨s, rfl⟩
      simp only [JV.print, List.append_assoc, List.cons_append, List.nil_append, List.cons.injEq, true_and] at h
      obtain ⟨rfl, h2⟩ := escape_inj h
      exact ⟨rfl, h2⟩
    | .arr l, hv =>
      obtain ⟨l', rfl⟩ := k2.1 ⟨l, rfl⟩
      simp only [JV.print, List.append_assoc, List.cons_append, List.nil_append, List.cons.injEq, true_and] at h
      simp only [JV.Formed] at hv hw
      match l, l', hv, hw with
      | [], [], _, _ => simpa [printList] using h
      | [], v :: l, _, hw =>
        have := print_lead hw.1 (tails (printList l) ++ 93 :: r')
        simp only [printList, intercalate_cons, List.append_assoc] at h
        rw [← h] at this
        exact absurd (Option.some.inj this).symm (lead_open hw.1)
      | v :: l, [], hv, _ =>
        have := print_lead hv.1 (tails (printList l) ++ 93 :: r)
        simp only [printList, intercalate_cons, List.append_assoc] at h
        rw [h] at this
        exact absurd (Option.some.inj this).symm (lead_open hv.1)
      | v :: l, v' :: l', hv, hw =>
        simp only [printList, intercalate_cons, List.append_assoc] at h
        obtain ⟨rfl, h2⟩ := print_inj v v' _ _ hv.1 hw.1 (ends_tails _ (.inl rfl)) (ends_tails _ (.inl rfl)) h
        obtain ⟨rfl, h3⟩ := printList_inj l l' r r' hv.2 hw.2 h2
        exact ⟨rfl, h3⟩
    | .obj l, hv =>
      obtain ⟨l', rfl⟩ := k3.1 ⟨l, rfl⟩
      simp only [JV.print, List.append_assoc, List.cons_append, List.nil_append, List.cons.injEq, true_and] at h
      simp only [JV.Formed] at hv hw
      match l, l', hv, hw with
      | [], [], _, _ => simpa [printMembers] using h
      | [], (k, v) :: l, _, hw =>
        simp [printMembers, intercalate_cons, List.append_assoc] at h
      | (k, v) :: l, [], hv, _ =>
        simp [printMembers, intercalate_cons, List.append_assoc] at h
      | (k, v) :: l, (k', v') :: l', hv, hw =>
        simp only [printMembers, intercalate_cons, List.append_assoc, List.cons_append, List.nil_append,
          List.cons.injEq, true_and] at h
        obtain ⟨rfl, h1⟩ := escape_inj h
        simp only [List.cons.injEq, true_and] at h1
        obtain ⟨rfl, h2⟩ := print_inj v v' _ _ hv.1 hw.1 (ends_tails _ (.inr rfl)) (ends_tails _ (.inr rfl)) h1
        obtain ⟨rfl, h3⟩ := printMembers_inj l l' r r' hv.2 hw.2 h2
        exact ⟨rfl, h3⟩
    | .lit t, hv =>
      match w, hw with
      | .lit t', hw => obtain ⟨rfl, h2⟩ := token_inj (.inl hv) (.inl hw) hr hr' h; exact ⟨rfl, h2⟩
      | .num t', hw => obtain ⟨rfl, h2⟩ := token_inj (.inl hv) (.inr hw) hr hr' h; exact absurd hv hw.2.1
      | .str s, _ => obtain ⟨_, e⟩ := k1.2 ⟨s, rfl⟩; cases e
      | .arr s, _ => obtain ⟨_, e⟩ := k2.2 ⟨s, rfl⟩; cases e
      | .obj s, _ => obtain ⟨_, e⟩ := k3.2 ⟨s, rfl⟩; cases e
    | .num t, hv =>
      match w, hw with
      | .lit t', hw => obtain ⟨rfl, h2⟩ := token_inj (.inr hv) (.inl hw) hr hr' h; exact absurd hw hv.2.1
      | .num t', hw => obtain ⟨rfl, h2⟩ := token_inj (.inr hv) (.inr hw) hr hr' h; exact ⟨rfl, h2⟩
      | .str s, _ => obtain ⟨_, e⟩ := k1.2 ⟨s, rfl⟩; cases e
      | .arr s, _ => obtain ⟨_, e⟩ := k2.2 ⟨s, rfl⟩; cases e
      | .obj s, _ => obtain ⟨_, e⟩ := k3.2 ⟨s, rfl⟩; cases e

theorem printList_inj : ∀ (l l' : List JV) (r r' : Str), listFormed l → listFormed l' →
    tails (printList l) ++ 93 :: r = tails (printList l') ++ 93 :: r' → l = l' ∧ r = r'
  | [], [], _, _, _, _, h => by simpa [tails, printList] using h
  | [], _ :: _, _, _, _, _, h => by simp [tails, printList] at h
  | _ :: _, [], _, _, _, _, h => by simp [tails, printList] at h
  | v :: l, v' :: l', r, r', hv, hw, h => by
    have h : v.print ++ (tails (printList l) ++ 93 :: r) = v'.print ++ (tails (printList l') ++ 93 :: r') := by
      simpa [tails, printList] using h
    obtain ⟨rfl, h2⟩ := print_inj v v' _ _ hv.1 hw.1 (ends_tails _ (.inl rfl)) (ends_tails _ (.inl rfl)) h
    obtain ⟨rfl, h3⟩ := printList_inj l l' r r' hv.2 hw.2 h2
    exact ⟨rfl, h3⟩

theorem printMembers_inj : ∀ (l l' : List (Str × JV)) (r r' : Str), membersFormed l → membersFormed l' →
    tails (printMembers l) ++ 125 :: r = tails (printMembers l') ++ 125 :: r' → l = l' ∧ r = r'
  | [], [], _, _, _, _, h => by simpa [tails, printMembers] using h
  | [], _ :: _, _, _, _, _, h => by simp [tails, printMembers] at h
  | _ :: _, [], _, _, _, _, h => by simp [tails, printMembers] at h
  | (k, v) :: l, (k', v') :: l', r, r', hv, hw, h => by
    have h : k.flatMap escapeByte ++ 34 :: 58 :: (v.print ++ (tails (printMembers l) ++ 125 :: r)) =
        k'.flatMap escapeByte ++ 34 :: 58 :: (v'.print ++ (tails (printMembers l') ++ 125 :: r')) := by
      simpa [tails, printMembers] using h
    obtain ⟨rfl, h1⟩ := escape_inj h
    simp only [List.cons.injEq, true_and] at h1
    obtain ⟨rfl, h2⟩ := print_inj v v' _ _ hv.1 hw.1 (ends_tails _ (.inr rfl)) (ends_tails _ (.inr rfl)) h1
    obtain ⟨rfl, h3⟩ := printMembers_inj l l' r r' hv.2 hw.2 h2
    exact ⟨rfl, h3⟩
end

/-! ## `Same` is symmetric and transitive -/

mutual
theorem same_symm {P : Str → Str → Prop} (h : ∀ t u, P t u → P u t) : ∀ {v w : JV}, Same P v w → Same P w v
  | _, _, .lit => .lit
  | _, _, .num hn => .num (h _ _ hn)
  | _, _, .str => .str
  | _, _, .arr hl => .arr (sameList_symm h hl)
  | _, _, .obj hm => .obj (sameMembers_symm h hm)

theorem sameList_symm {P : Str → Str → Prop} (h : ∀ t u, P t u → P u t) : ∀ {v w : List JV},
    SameList P v w → SameList P w v
  | _, _, .nil => .nil
  | _, _, .cons h1 h2 => .cons (same_symm h h1) (sameList_symm h h2)

theorem sameMembers_symm {P : Str → Str → Prop} (h : ∀ t u, P t u → P u t) : ∀ {v w : List (Str × JV)},
    SameMembers P v w → SameMembers P w v
  | _, _, .nil => .nil
  | _, _, .cons h1 h2 => .cons (same_symm h h1) (sameMembers_symm h h2)
  | _, _, .perm hp => .perm hp.symm
  | _, _, .trans h1 h2 => .trans (sameMembers_symm h h2) (sameMembers_symm h h1)
end

mutual
theorem same_trans {P : Str → Str → Prop} (h : ∀ t u w, P t u → P u w → P t w) : ∀ {a b c : JV},
    Same P a b → Same P b c → Same P a c
  | _, _, _, .lit, .lit => .lit
  | _, _, _, .num h1, .num h2 => .num (h _ _ _ h1 h2)
  | _, _, _, .str, .str => .str
  | _, _, _, .arr h1, .arr h2 => .arr (sameList_trans h h1 h2)
  | _, _, _, .obj h1, .obj h2 => .obj (.trans h1 h2)

theorem sameList_trans {P : Str → Str → Prop} (h : ∀ t u w, P t u → P u w → P t w) : ∀ {a b c : List JV},
    SameList P a b → SameList P b c → SameList P a c
  | _, _, _, .nil, .nil => .nil
  | _, _, _, .cons h1 h2, .cons h3 h4 => .cons (same_trans h h1 h3) (sameList_trans h h2 h4)
end

theorem sameNumber_symm {F : FloatFmt} (t u : Str) (h : SameNumber F t u) : SameNumber F u t := by
  obtain ⟨x, y, hx, hy, h⟩ := h
  exact ⟨y, x, hy, hx, h.imp Eq.symm And.symm⟩

theorem sameNumber_trans {F : FloatFmt} (t u w : Str) (h : SameNumber F t u) (h' : SameNumber F u w) :
    SameNumber F t w := by
  obtain ⟨x, y, hx, hy, h⟩ := h
  obtain ⟨y', z, hy', hz, h'⟩ := h'
  rw [hy] at hy'; cases hy'
  refine ⟨x, z, hx, hz, ?_⟩
  rcases h with rfl | h
  · exact h'
  · rcases h' with rfl | h'
    · exact .inr h
    · exact .inr ⟨h.1, h'.2⟩

/-- What is written for a document, and its value. -/
theorem transform_some {F : FloatFmt} (L : FloatLaws F) {text out : Str} {v : JV} (h : Denotes text v)
    (ht : transform F text = some out) :
    ∃ v' : JV, out = v'.print ∧ v'.Sorted ∧ v'.Nums (Settled F) ∧ Same (SameNumber F) v v' ∧ v'.Formed := by
  rw [transform_denotes h] at ht
  obtain ⟨w, w', s, hw, hw', hs, hcomp, rfl, rfl⟩ := h
  obtain ⟨v', e, hsort, hnum, hsame, s', hwf, rfl, -⟩ := canon_syn L s out hs ht
  exact ⟨_, e, hsort, hnum, same_mono (fun _ _ h => h.1) hsame, formed_syn s' hwf⟩

/-! ## Sorted values with settled numbers are written as they are -/

theorem membersNames_iff {P : Str → Prop} : ∀ {m : List (Str × JV)},
    membersNames P m ↔ ∀ e ∈ m, P e.1 ∧ e.2.Names P
  | [] => by simp [membersNames]
  | (k, v) :: m => by simp [membersNames, membersNames_iff (m := m), and_assoc]

mutual
theorem same_names {P : Str → Str → Prop} {Q : Str → Prop} : ∀ {v w : JV}, Same P v w → v.Names Q → w.Names Q
  | _, _, .lit, h => h
  | _, _, .num _, _ => trivial
  | _, _, .str, h => h
  | _, _, .arr hl, h => by simp only [JV.Names] at h ⊢; exact sameList_names hl h
  | _, _, .obj hm, h => by simp only [JV.Names] at h ⊢; exact sameMembers_names hm h

theorem sameList_names {P : Str → Str → Prop} {Q : Str → Prop} : ∀ {v w : List JV},
    SameList P v w → listNames Q v → listNames Q w
  | _, _, .nil, h => h
  | _, _, .cons h1 h2, h => ⟨same_names h1 h.1, sameList_names h2 h.2⟩

theorem sameMembers_names {P : Str → Str → Prop} {Q : Str → Prop} : ∀ {v w : List (Str × JV)},
    SameMembers P v w → membersNames Q v → membersNames Q w
  | _, _, .nil, h => h
  | _, _, .cons h1 h2, h => ⟨h.1, same_names h1 h.2.1, sameMembers_names h2 h.2.2⟩
  | _, _, .perm hp, h => by
    rw [membersNames_iff] at h ⊢
    exact fun e he => h e (hp.mem_iff.2 he)
  | _, _, .trans h1 h2, h => sameMembers_names h2 (sameMembers_names h1 h)
end

/-- The entry of a member in the list of `parseObject`. -/
def memberEntry (e : Str × JV) : NameValue := ⟨e.1, sortKey e.1, e.2.print⟩

theorem names_asc {m : List (Str × JV)} (h : NamesAscend m) (hu : membersNames Unicode m) :
    Asc (m.map memberEntry) := by
  unfold NamesAscend at h
  unfold Asc
  rw [List.pairwise_map]
  rw [membersNames_iff] at hu
  refine h.imp_of_mem ?_
  intro a b ha hb hab
  obtain ⟨x, hx⟩ := (hu a ha).1
  obtain ⟨y, hy⟩ := (hu b hb).1
  have := hab x y hx hy
  simp only [memberEntry]
  rw [hx, hy, sortKey_utf8, sortKey_utf8]
  exact this

theorem printMembers_entries (m : List (Str × JV)) :
    printMembers m = m.map (fun e => decorate e.1 ++ b!":" ++ e.2.print) := by
  induction m with
  | nil => rfl
  | cons e m ih => obtain ⟨k, v⟩ := e; simp [printMembers, ih, decorate_eq]

mutual
theorem canonV_fixed {F : FloatFmt} : ∀ (v : JV), v.Sorted → v.Names Unicode → v.Nums (Settled F) →
    canonV F v = some v.print
  | .lit t, _, _, _ => rfl
  | .num t, _, _, h => h
  | .str t, _, _, _ => by simp [canonV, JV.print, decorate_eq]
  | .arr l, h1, h2, h3 => by
    simp only [JV.Sorted, JV.Names, JV.Nums] at h1 h2 h3
    simp only [canonV, canonEs_fixed l h1 h2 h3, Option.map_some, arrayText, JV.print, commaSep_eq]
  | .obj m, h1, h2, h3 => by
    simp only [JV.Sorted, JV.Names, JV.Nums] at h1 h2 h3
    simp only [canonV, canonMs_fixed m h1.2 h2 h3, Option.bind_some, insertAll_asc (names_asc h1.1 h2),
      Option.map_some, objectText, JV.print, commaSep_eq, printMembers_entries, List.map_map]
    rfl

theorem canonEs_fixed {F : FloatFmt} : ∀ (l : List JV), listSorted l → listNames Unicode l → listNums (Settled F) l →
    canonEs F l = some (printList l)
  | [], _, _, _ => rfl
  | v :: l, h1, h2, h3 => by
    simp only [canonEs, canonV_fixed v h1.1 h2.1 h3.1, canonEs_fixed l h1.2 h2.2 h3.2, Option.bind_some,
      Option.map_some, printList]

theorem canonMs_fixed {F : FloatFmt} : ∀ (l : List (Str × JV)), membersSorted l → membersNames Unicode l →
    membersNums (Settled F) l → canonMs F l = some (l.map memberEntry)
  | [], _, _, _ => rfl
  | (k, v) :: l, h1, h2, h3 => by
    simp only [canonMs, canonV_fixed v h1.1 h2.2.1 h3.1, canonMs_fixed l h1.2 h2.2.2 h3.2, Option.bind_some,
      Option.map_some, List.map_cons, memberEntry]
end

theorem es6_settled {u : Str} (h : Es6Text u) : Settled strconv u := by
  obtain ⟨x, hx⟩ := h
  have h := (c68_text x u).2 hx
  obtain ⟨-, y, hy, hxy⟩ := numberToJSON_spec Strconv.strconv_laws h
  unfold Settled numText
  rw [hy, Option.bind_some]
  rcases hxy with rfl | ⟨h1, h2⟩
  · exact h
  · rw [← h, numberToJSON_zero h1, numberToJSON_zero h2]

end Stix.Canon

namespace Stix.Props.Canon
open Stix Stix.Canon Stix.Spec.Canon

/-- **C42** (the converse).  Two documents have the same canonical bytes exactly if they denote the same
value: canonical bytes tell values apart. -/
theorem c42_tells_apart (F : FloatFmt) (L : FloatLaws F) {text text' out : Str} {v v' : JV}
    (h : Denotes text v) (h' : Denotes text' v') (ht : transform F text = some out) :
    transform F text' = some out ↔ Same (SameNumber F) v v' := by
  constructor
  · intro ht'
    obtain ⟨w, e, -, -, hs, hf⟩ := transform_some L h ht
    obtain ⟨w', e', -, -, hs', hf'⟩ := transform_some L h' ht'
    have hw : w = w' := by
      refine (print_inj w w' [] [] hf hf' (by intro c hc; cases hc) (by intro c hc; cases hc) ?_).1
      rw [← e, ← e']
    subst hw
    exact same_trans sameNumber_trans hs (same_symm sameNumber_symm hs')
  · intro hs
    rw [← c42_same_value_same_bytes F h h' hs, ht]

end Stix.Props.Canon

namespace Stix
open Spec Spec.Es6 Spec.Canon Canon

/-- **C68.** The canonical bytes of a document whose names are Unicode text: `out` is written exactly if
it is the text, without white space, of the same value with the names of each object ascending and each
number as ECMAScript writes it. -/
theorem c68_exact {text out : Str} {v : JV} (h : Denotes text v) (hu : v.Names Unicode) :
    transform strconv text = some out ↔
      ∃ v', out = v'.print ∧ v'.Sorted ∧ v'.Nums Es6Text ∧ Same (SameNumber strconv) v v' := by
  constructor
  · intro ht
    obtain ⟨v', e, h1, h2, h3, -⟩ := transform_some Strconv.strconv_laws h ht
    exact ⟨v', e, h1, nums_mono (fun _ => settled_es6) h2, h3⟩
  · rintro ⟨v', rfl, h1, h2, h3⟩
    rw [transform_denotes h, canonV_same _ h3]
    exact canonV_fixed v' h1 (same_names h3 hu) (nums_mono (fun _ => es6_settled) h2)

/-- **C42** for the model of `strconv`: nothing is assumed. -/
theorem c42_strconv {text text' out : Str} {v v' : JV} (h : Denotes text v) (h' : Denotes text' v')
    (ht : transform strconv text = some out) :
    transform strconv text' = some out ↔ Same (SameNumber strconv) v v' :=
  Props.Canon.c42_tells_apart strconv Strconv.strconv_laws h h' ht

/-! ### Cases -/

/-- C42: a document whose value is not that of `sample`: `{"a":"a","b":[1,true]}`. -/
def sampleOther : Syn :=
  .obj [] (.cons [] (b!"a") (b!"a") [] [] (.str (b!"a") (b!"a")) []
    (.cons [] (b!"b") (b!"b") [] [] (.arr [] (.cons [] (.num (b!"1")) [] (.cons []
      (.lit (b!"true")) [] .nil))) [] .nil))

theorem sampleOther_denotes : Denotes (b!"{\"a\":\"a\",\"b\":[1,true]}") sampleOther.value := by
  refine ⟨[], [], sampleOther, white_nil, white_nil, ?_, trivial, rfl, by decide⟩
  exact ⟨white_nil, white_nil, Props.Canon.spells_a, white_nil, white_nil, Props.Canon.spells_a,
    white_nil, white_nil, Props.Canon.spells_b, white_nil, white_nil,
    ⟨white_nil, white_nil, ⟨by decide, by unfold Literal; decide, by decide⟩, white_nil, white_nil, Or.inl rfl, white_nil, trivial⟩,
    white_nil, trivial⟩

/-- C42: the canonical bytes of `sample`, and that another document has not the same value. -/
example : transform strconv (b!"{ \"b\": [1, true] ,\"a\":\"\\u00e9\"}") = some (b!"{\"a\":\"é\",\"b\":[1,true]}") ∧
    ¬ Same (SameNumber strconv) Props.Canon.sample.value sampleOther.value := by
  have h : transform strconv (b!"{ \"b\": [1, true] ,\"a\":\"\\u00e9\"}") =
      some (b!"{\"a\":\"é\",\"b\":[1,true]}") := by decide +kernel
  refine ⟨h, fun hs => ?_⟩
  have := (c42_strconv Props.Canon.sample_denotes sampleOther_denotes h).2 hs
  revert this
  decide +kernel

/-- C68: the names of `sample` are Unicode text, and its canonical bytes are as `c68_exact` says. -/
example : Props.Canon.sample.value.Names Unicode ∧ ∃ v', b!"{\"a\":\"é\",\"b\":[1,true]}" = v'.print ∧ v'.Sorted ∧
    v'.Nums Es6Text ∧ Same (SameNumber strconv) Props.Canon.sample.value v' := by
  have hu : Props.Canon.sample.value.Names Unicode :=
    ⟨⟨['b'], by decide⟩, ⟨trivial, trivial, trivial⟩, ⟨['a'], by decide⟩, trivial, trivial⟩
  exact ⟨hu, (c68_exact Props.Canon.sample_denotes hu).1 (by decide +kernel)⟩

end Stix
