import Verif.Lemmas.CanonParse
import Mathlib.Data.Nat.Bitwise

/-!
# Lemmas about the canonicaliser: equal values, number tokens and the canonical value
-/

namespace Stix.Canon
open Stix Stix.Spec.Canon

/-! ## Same value, same text -/

theorem finite_of_zero {x : UInt64} (h : x &&& 0x7fffffffffffffff = 0) :
    x &&& 0x7ff0000000000000 ≠ 0x7ff0000000000000 := by
  intro hc
  have : x &&& 0x7ff0000000000000 = (x &&& 0x7fffffffffffffff) &&& 0x7ff0000000000000 := by
    rw [UInt64.and_assoc]; rfl
  rw [this, h] at hc
  exact absurd hc (by decide)

theorem numberToJSON_zero {F : FloatFmt} {x : UInt64} (h : x &&& 0x7fffffffffffffff = 0) :
    numberToJSON F x = some (b!"0") := by
  unfold numberToJSON
  rw [if_neg (finite_of_zero h), if_pos h]

theorem numText_same {F : FloatFmt} {t u : Str} (h : SameNumber F t u) :
    numText F t = numText F u := by
  obtain ⟨x, y, hx, hy, h⟩ := h
  unfold numText
  rw [hx, hy]
  rcases h with rfl | ⟨h1, h2⟩
  · rfl
  · simp only [Option.bind_some, numberToJSON_zero h1, numberToJSON_zero h2]

/-- Both fail or both give the same members up to order. -/
def OptPerm (a b : Option (List NameValue)) : Prop :=
  (a = none ∧ b = none) ∨ ∃ l m, a = some l ∧ b = some m ∧ l.Perm m

theorem optPerm_trans {a b c : Option (List NameValue)} (h : OptPerm a b) (h' : OptPerm b c) :
    OptPerm a c := by
  rcases h with ⟨rfl, rfl⟩ | ⟨l, m, rfl, rfl, hp⟩
  · rcases h' with ⟨_, rfl⟩ | ⟨l, m, h, _⟩
    · exact Or.inl ⟨rfl, rfl⟩
    · simp at h
  · rcases h' with ⟨h, _⟩ | ⟨l', m', h, rfl, hp'⟩
    · simp at h
    · simp at h; subst h
      exact Or.inr ⟨_, _, rfl, rfl, hp.trans hp'⟩

theorem canonMs_perm (F : FloatFmt) {l m : List (Str × JV)} (h : l.Perm m) :
    OptPerm (canonMs F l) (canonMs F m) := by
  induction h with
  | nil => exact Or.inr ⟨[], [], rfl, rfl, List.Perm.nil⟩
  | cons x _ ih =>
    obtain ⟨k, v⟩ := x
    simp only [canonMs]
    cases canonV F v with
    | none => exact Or.inl ⟨rfl, rfl⟩
    | some t =>
      rcases ih with ⟨h1, h2⟩ | ⟨l, m, h1, h2, hp⟩ <;> rw [h1, h2]
      · exact Or.inl ⟨rfl, rfl⟩
      · exact Or.inr ⟨_, _, rfl, rfl, hp.cons _⟩
  | swap x y l =>
    obtain ⟨k, v⟩ := x
    obtain ⟨k', v'⟩ := y
    simp only [canonMs]
    cases canonV F v <;> cases canonV F v' <;> cases canonMs F l
    all_goals first
      | exact Or.inl ⟨rfl, rfl⟩
      | exact Or.inr ⟨_, _, rfl, rfl, List.Perm.swap ..⟩
  | trans _ _ ih1 ih2 => exact optPerm_trans ih1 ih2

mutual
theorem canonV_same (F : FloatFmt) : ∀ {v w : JV}, Same (SameNumber F) v w → canonV F v = canonV F w
  | _, _, .lit => rfl
  | _, _, .num h => by simp only [canonV]; exact numText_same h
  | _, _, .str => rfl
  | _, _, .arr h => by simp only [canonV]; rw [canonEs_same F h]
  | _, _, .obj h => by
    simp only [canonV]
    rcases canonMs_same F h with ⟨h1, h2⟩ | ⟨l, m, h1, h2, hp⟩ <;> rw [h1, h2]
    simp only [Option.bind_some]
    rw [insertAll_perm hp]

theorem canonEs_same (F : FloatFmt) : ∀ {v w : List JV}, SameList (SameNumber F) v w →
    canonEs F v = canonEs F w
  | _, _, .nil => rfl
  | _, _, .cons h hs => by
    simp only [canonEs]; rw [canonV_same F h, canonEs_same F hs]

theorem canonMs_same (F : FloatFmt) : ∀ {v w : List (Str × JV)}, SameMembers (SameNumber F) v w →
    OptPerm (canonMs F v) (canonMs F w)
  | _, _, .nil => Or.inr ⟨[], [], rfl, rfl, List.Perm.nil⟩
  | _, _, .perm h => canonMs_perm F h
  | _, _, .trans h h' => optPerm_trans (canonMs_same F h) (canonMs_same F h')
  | _, _, .cons (k := k) (w := w) (ws := ws) h hs => by
    simp only [canonMs]
    rw [canonV_same F h]
    cases canonV F w with
    | none => exact Or.inl ⟨rfl, rfl⟩
    | some t =>
      rcases canonMs_same F hs with ⟨h1, h2⟩ | ⟨l, m, h1, h2, hp⟩ <;> rw [h1, h2]
      · exact Or.inl ⟨rfl, rfl⟩
      · exact Or.inr ⟨_, _, rfl, rfl, hp.cons _⟩
end

/-! ## Number tokens -/

theorem nat_and_exp (n : Nat) : n &&& 0x7ff0000000000000 = n / 2 ^ 52 % 2 ^ 11 * 2 ^ 52 := by
  have e : (0x7ff0000000000000 : Nat) = (2 ^ 11 - 1) <<< 52 := by decide
  rw [e, ← Nat.and_two_pow_sub_one_eq_mod, ← Nat.shiftRight_eq_div_pow, ← Nat.shiftLeft_eq]
  apply Nat.eq_of_testBit_eq
  intro i
  simp only [Nat.testBit_and, Nat.testBit_shiftLeft, Nat.testBit_shiftRight]
  by_cases h : i ≥ 52
  · simp [h, show 52 + (i - 52) = i by omega]
  · simp [h]

theorem nat_and_sign {n : Nat} (hn : n < 2 ^ 64) : n &&& 0x8000000000000000 = n / 2 ^ 63 * 2 ^ 63 := by
  have e : (0x8000000000000000 : Nat) = (2 ^ 1 - 1) <<< 63 := by decide
  have e2 : n / 2 ^ 63 = n / 2 ^ 63 % 2 ^ 1 := by omega
  rw [e2, e, ← Nat.and_two_pow_sub_one_eq_mod, ← Nat.shiftRight_eq_div_pow, ← Nat.shiftLeft_eq]
  apply Nat.eq_of_testBit_eq
  intro i
  simp only [Nat.testBit_and, Nat.testBit_shiftLeft, Nat.testBit_shiftRight]
  by_cases h : i ≥ 63
  · simp [h, show 63 + (i - 63) = i by omega]
  · simp [h]

theorem u64_and_exp (x : UInt64) : (x &&& 0x7ff0000000000000).toNat = x.toNat / 2 ^ 52 % 2 ^ 11 * 2 ^ 52 := by
  rw [UInt64.toNat_and]; exact nat_and_exp _
theorem u64_and_sign (x : UInt64) : (x &&& 0x8000000000000000).toNat = x.toNat / 2 ^ 63 * 2 ^ 63 := by
  rw [UInt64.toNat_and]; exact nat_and_sign x.toNat_lt
theorem u64_and_abs (x : UInt64) : (x &&& 0x7fffffffffffffff).toNat = x.toNat % 2 ^ 63 := by
  rw [UInt64.toNat_and]; exact Nat.and_two_pow_sub_one_eq_mod x.toNat 63
theorem u64_or_sign {x : UInt64} (h : x.toNat < 2 ^ 63) :
    (x ||| 0x8000000000000000).toNat = x.toNat + 2 ^ 63 := by
  rw [UInt64.toNat_or, Nat.lor_comm]
  have := Nat.two_pow_add_eq_or_of_lt (i := 63) h 1
  change 2 ^ 63 ||| x.toNat = _
  rw [Nat.mul_one] at this
  omega
theorem sign_split {x : UInt64} (h : x &&& 0x8000000000000000 ≠ 0) :
    (x &&& 0x7fffffffffffffff) ||| 0x8000000000000000 = x := by
  rw [← UInt64.toNat_inj, u64_or_sign, u64_and_abs]
  · have h1 : (x &&& 0x8000000000000000).toNat ≠ 0 := fun e => h (UInt64.toNat_inj.1 e)
    rw [u64_and_sign] at h1
    have := x.toNat_lt
    omega
  · rw [u64_and_abs]; omega

theorem nosign {x : UInt64} (h : x &&& 0x8000000000000000 = 0) :
    (x &&& 0x7fffffffffffffff) = x := by
  rw [← UInt64.toNat_inj, u64_and_abs]
  have h1 : (x &&& 0x8000000000000000).toNat = 0 := by rw [h]; rfl
  rw [u64_and_sign] at h1
  have := x.toNat_lt
  omega

theorem posFinite_and {x : UInt64} (h1 : x &&& 0x7ff0000000000000 ≠ 0x7ff0000000000000)
    (h2 : x &&& 0x7fffffffffffffff ≠ 0) : PosFinite (x &&& 0x7fffffffffffffff) := by
  have h1' : (x &&& 0x7ff0000000000000).toNat ≠ 0x7ff0000000000000 := fun e => h1 (UInt64.toNat_inj.1 e)
  have h2' : (x &&& 0x7fffffffffffffff).toNat ≠ 0 := fun e => h2 (UInt64.toNat_inj.1 e)
  rw [u64_and_exp] at h1'
  rw [u64_and_abs] at h2'
  have := x.toNat_lt
  constructor
  · rw [UInt64.lt_iff_toNat_lt, u64_and_abs]
    change 0 < _
    omega
  · rw [UInt64.lt_iff_toNat_lt, u64_and_abs]
    change _ < 0x7ff0000000000000
    omega

theorem digit_tok {c : UInt8} (h : c ∈ (b!"0123456789.")) : c ∈ (b!"0123456789+-.eE") ∧ c ≠ 101 := by
  have : ∀ c ∈ (b!"0123456789."), c ∈ (b!"0123456789+-.eE") ∧ c ≠ 101 := by decide
  exact this c h

theorem digit_tok' {c : UInt8} (h : c ∈ (b!"0123456789")) : c ∈ (b!"0123456789+-.eE") ∧ c ≠ 101 := by
  have : ∀ c ∈ (b!"0123456789"), c ∈ (b!"0123456789+-.eE") ∧ c ≠ 101 := by decide
  exact this c h

theorem indexE_none {s : Str} (h : ∀ c ∈ s, c ≠ 101) : indexE s = none := by
  unfold indexE
  rw [List.findIdx?_eq_none_iff]
  intro c hc
  simpa using h c hc

theorem indexE_some {m r : Str} (h : ∀ c ∈ m, c ≠ 101) : indexE (m ++ 101 :: r) = some m.length := by
  unfold indexE
  rw [List.findIdx?_append, ← indexE, indexE_none h]
  simp [List.findIdx?_cons]

/-- The unsigned text of a float. -/
def absText (F : FloatFmt) (a : UInt64) : Str :=
  let txt := if a < 0x444B1AE4D6E2EF50 ∧ 0x3EB0C6F7A0B5ED8D ≤ a then F.formatF a else F.formatE a
  match indexE txt with
  | some i => if 0 < i ∧ txt[i + 2]? = some 48 then txt.take (i + 2) ++ txt.drop (i + 3) else txt
  | none => txt

theorem absText_spec {F : FloatFmt} (L : FloatLaws F) {a : UInt64} (ha : PosFinite a) :
    absText F a ≠ [] ∧ IsDigit ((absText F a).headD 0) ∧
      (∀ c ∈ absText F a, c ∈ (b!"0123456789+-.eE")) ∧ F.parse (absText F a) = some a := by
  unfold absText
  simp only
  by_cases hr : a < 0x444B1AE4D6E2EF50 ∧ 0x3EB0C6F7A0B5ED8D ≤ a
  · rw [if_pos hr]
    obtain ⟨h1, h2, h3⟩ := L.fShape a ha
    rw [indexE_none (fun c hc => (digit_tok (h3 c hc)).2)]
    exact ⟨h1, h2, fun c hc => (digit_tok (h3 c hc)).1, L.fParse a ha⟩
  · rw [if_neg hr]
    obtain ⟨m, sgn, ds, he, h1, h2, h3, h4, h5, h6⟩ := L.eShape a ha
    have hp := L.eParse a ha
    rw [he] at hp ⊢
    rw [indexE_some (fun c hc => (digit_tok (h3 c hc)).2)]
    simp only
    have hsgn : sgn ∈ (b!"0123456789+-.eE") := by
      have : ∀ c ∈ (b!"+-"), c ∈ (b!"0123456789+-.eE") := by decide
      exact this _ h4
    have hmem : ∀ es : Str, (∀ c ∈ es, c ∈ (b!"0123456789")) →
        ∀ c ∈ m ++ 101 :: sgn :: es, c ∈ (b!"0123456789+-.eE") := by
      intro es hes c hc
      rcases List.mem_append.1 hc with h | h
      · exact (digit_tok (h3 c h)).1
      rcases List.mem_cons.1 h with rfl | h
      · decide
      rcases List.mem_cons.1 h with rfl | h
      · exact hsgn
      · exact (digit_tok' (hes c h)).1
    have hhead : ∀ es : Str, IsDigit ((m ++ 101 :: sgn :: es).headD 0) := by
      intro es
      cases m with
      | nil => exact absurd rfl h1
      | cons x xs => exact h2
    match ds, h5 with
    | d :: ds', h5 =>
      have hidx : (m ++ 101 :: sgn :: d :: ds')[m.length + 2]? = some d := by
        rw [List.getElem?_append_right (by omega)]
        simp
      rw [hidx]
      split_ifs with hc
      · have hd : d = 48 := by simpa using hc.2
        subst hd
        have e1 : (m ++ 101 :: sgn :: 48 :: ds').take (m.length + 2) = m ++ [101, sgn] := by
          rw [List.take_append, List.take_of_length_le (by omega)]
          simp
        have e2 : (m ++ 101 :: sgn :: 48 :: ds').drop (m.length + 3) = ds' := by
          rw [List.drop_append]
          simp
        rw [e1, e2]
        have e3 : m ++ [101, sgn] ++ ds' = m ++ 101 :: sgn :: ds' := by simp
        rw [e3]
        refine ⟨by simp, hhead _, hmem _ (fun c hc => h6 c (List.mem_cons_of_mem _ hc)), ?_⟩
        rw [← L.expZero m sgn ds' h3 h4 (by intro h; subst h; simp at h5)
          (fun c hc => h6 c (List.mem_cons_of_mem _ hc)), hp]
      · exact ⟨by simp, hhead _, hmem _ h6, hp⟩

theorem numberToJSON_spec {F : FloatFmt} (L : FloatLaws F) {x : UInt64} {t : Str}
    (h : numberToJSON F x = some t) :
    NumToken t ∧ ∃ y, F.parse t = some y ∧
      (x = y ∨ (x &&& 0x7fffffffffffffff = 0 ∧ y &&& 0x7fffffffffffffff = 0)) := by
  unfold numberToJSON at h
  split_ifs at h with h1 h2
  · simp at h; subst h
    exact ⟨numToken_chars (by simp) (by decide), 0, L.zero, Or.inr ⟨h2, by decide⟩⟩
  · have hp := posFinite_and h1 h2
    obtain ⟨a1, a2, a3, a4⟩ := absText_spec L hp
    simp only [Option.some.injEq] at h
    change (if x &&& 0x8000000000000000 ≠ 0 then b!"-" else []) ++ absText F (x &&& 0x7fffffffffffffff) = t at h
    by_cases hs : x &&& 0x8000000000000000 = 0
    · rw [if_neg (fun h => h hs)] at h
      rw [List.nil_append] at h; subst h
      refine ⟨numToken_chars a1 a3, x, ?_, Or.inl rfl⟩
      rw [a4, nosign hs]
    · rw [if_pos hs] at h
      subst h
      refine ⟨numToken_chars (by simp) ?_, x, ?_, Or.inl rfl⟩
      · intro c hc
        rcases List.mem_cons.1 hc with rfl | hc
        · decide
        · exact a3 c hc
      · have := L.neg _ _ hp a2 a4
        rw [sign_split hs] at this
        exact this

theorem numText_spec {F : FloatFmt} (L : FloatLaws F) {t u : Str} (h : numText F t = some u) :
    NumToken u ∧ SameNumber F t u := by
  unfold numText at h
  rw [Option.bind_eq_some_iff] at h
  obtain ⟨x, hx, h⟩ := h
  obtain ⟨h1, y, hy, h2⟩ := numberToJSON_spec L h
  exact ⟨h1, x, y, hx, hy, h2⟩

theorem numText_finite {F : FloatFmt} {t : Str} : (∃ u, numText F t = some u) ↔ FiniteNumber F t := by
  unfold numText FiniteNumber
  constructor
  · rintro ⟨u, h⟩
    rw [Option.bind_eq_some_iff] at h
    obtain ⟨x, hx, h⟩ := h
    refine ⟨x, hx, ?_⟩
    intro hn
    simp [numberToJSON, hn] at h
  · rintro ⟨x, hx, hn⟩
    rw [hx, Option.bind_some]
    unfold numberToJSON
    rw [if_neg hn]
    split_ifs
    · exact ⟨_, rfl⟩
    · exact ⟨_, rfl⟩

/-! ## The value whose text the canonical text is -/

/-- The second text is what is written for the number of the first. -/
def Writes (F : FloatFmt) (t u : Str) : Prop := SameNumber F t u ∧ numText F t = some u

mutual
theorem same_mono {P Q : Str → Str → Prop} (h : ∀ t u, P t u → Q t u) : ∀ {v w : JV}, Same P v w → Same Q v w
  | _, _, .lit => .lit
  | _, _, .num hn => .num (h _ _ hn)
  | _, _, .str => .str
  | _, _, .arr hl => .arr (sameList_mono h hl)
  | _, _, .obj hm => .obj (sameMembers_mono h hm)

theorem sameList_mono {P Q : Str → Str → Prop} (h : ∀ t u, P t u → Q t u) : ∀ {v w : List JV},
    SameList P v w → SameList Q v w
  | _, _, .nil => .nil
  | _, _, .cons h1 h2 => .cons (same_mono h h1) (sameList_mono h h2)

theorem sameMembers_mono {P Q : Str → Str → Prop} (h : ∀ t u, P t u → Q t u) : ∀ {v w : List (Str × JV)},
    SameMembers P v w → SameMembers Q v w
  | _, _, .nil => .nil
  | _, _, .cons h1 h2 => .cons (same_mono h h1) (sameMembers_mono h h2)
  | _, _, .perm hp => .perm hp
  | _, _, .trans h1 h2 => .trans (sameMembers_mono h h1) (sameMembers_mono h h2)
end

mutual
theorem nums_mono {P Q : Str → Prop} (h : ∀ t, P t → Q t) : ∀ {v : JV}, v.Nums P → v.Nums Q
  | .lit _, _ => trivial
  | .num _, hn => h _ hn
  | .str _, _ => trivial
  | .arr _, hl => by simp only [JV.Nums] at hl ⊢; exact listNums_mono h hl
  | .obj _, hl => by simp only [JV.Nums] at hl ⊢; exact membersNums_mono h hl

theorem listNums_mono {P Q : Str → Prop} (h : ∀ t, P t → Q t) : ∀ {l : List JV}, listNums P l → listNums Q l
  | [], _ => trivial
  | _ :: _, hl => ⟨nums_mono h hl.1, listNums_mono h hl.2⟩

theorem membersNums_mono {P Q : Str → Prop} (h : ∀ t, P t → Q t) : ∀ {l : List (Str × JV)},
    membersNums P l → membersNums Q l
  | [], _ => trivial
  | _ :: _, hl => ⟨nums_mono h hl.1, membersNums_mono h hl.2⟩
end

/-- The number is written as the canonicaliser writes it. -/
def Settled (F : FloatFmt) (u : Str) : Prop := numText F u = some u

theorem numText_settled {F : FloatFmt} (L : FloatLaws F) {t u : Str} (h : numText F t = some u) : Settled F u := by
  unfold Settled
  rw [← numText_same (numText_spec L h).2, h]

/-- `out` is the text of a sorted value that is the same as `v`. -/
def Canonical (F : FloatFmt) (v : JV) (out : Str) : Prop :=
  ∃ v' : JV, out = v'.print ∧ v'.Sorted ∧ v'.Nums (Settled F) ∧ Same (Writes F) v v' ∧
    ∃ s : Syn, s.WF ∧ s.value = v' ∧ s.text = out ∧
      ((∀ t, v ≠ .lit t) → (∀ t, v ≠ .num t) → (∀ t, v ≠ .str t) → s.Composite)

theorem perm_map_lift {α β : Type} {f : α → β} {l : List β} {m : List β} (h : l.Perm m) :
    ∀ a : List α, m = a.map f → ∃ a' : List α, a'.Perm a ∧ l = a'.map f := by
  induction h with
  | nil => intro a ha; exact ⟨a, List.Perm.refl _, ha⟩
  | cons x _ ih =>
    intro a ha
    cases a with
    | nil => simp at ha
    | cons y ys =>
      simp at ha
      obtain ⟨a', hp, rfl⟩ := ih ys ha.2
      exact ⟨y :: a', hp.cons _, by simp [ha.1]⟩
  | swap x y l =>
    intro a ha
    match a, ha with
    | p :: q :: r, ha =>
      simp at ha
      exact ⟨q :: p :: r, List.Perm.swap .., by simp [ha.1, ha.2.1, ha.2.2]⟩
  | trans _ _ ih1 ih2 =>
    intro a ha
    obtain ⟨b, hb, e⟩ := ih2 a ha
    obtain ⟨c, hc, e'⟩ := ih1 b e
    exact ⟨c, hc.trans hb, e'⟩

/-- The members of a list of values, each with a syntax that spells it as printed. -/
structure Piece where
  name : Str
  val : JV
  syn : Syn

/-- What holds of the pieces. -/
def Piece.Ok (F : FloatFmt) (p : Piece) : Prop :=
  p.syn.WF ∧ p.syn.value = p.val ∧ p.syn.text = p.val.print ∧ p.val.Sorted ∧ p.val.Nums (Settled F)

/-- Members with the pieces' names and values. -/
def toMembers : List Piece → Members
  | [] => .nil
  | p :: ps => .cons [] (p.name.flatMap escapeByte) p.name [] [] p.syn [] (toMembers ps)

theorem white_nil : White [] := by intro c hc; simp at hc

theorem toMembers_spec {F : FloatFmt} (ps : List Piece) (h : ∀ p ∈ ps, p.Ok F) :
    (toMembers ps).WF ∧ (toMembers ps).values = ps.map (fun p => (p.name, p.val)) ∧
      (toMembers ps).texts = printMembers (ps.map (fun p => (p.name, p.val))) ∧
      membersSorted (ps.map (fun p => (p.name, p.val))) ∧
      membersNums (Settled F) (ps.map (fun p => (p.name, p.val))) := by
  induction ps with
  | nil => simp [toMembers, Members.WF, Members.values, Members.texts, printMembers, membersSorted, membersNums]
  | cons p ps ih =>
    obtain ⟨h1, h2, h3, h4, h5⟩ := h p List.mem_cons_self
    obtain ⟨i1, i2, i3, i4, i5⟩ := ih (fun q hq => h q (List.mem_cons_of_mem _ hq))
    refine ⟨⟨white_nil, escape_spells _, white_nil, white_nil, h1, white_nil, i1⟩, ?_, ?_, ?_, ?_⟩
    · simp [toMembers, Members.values, h2, i2]
    · simp [toMembers, Members.texts, printMembers, h3, i3]
    · exact ⟨h4, i4⟩
    · exact ⟨h5, i5⟩

/-- Elements with the pieces' values. -/
def toElems : List Piece → Elems
  | [] => .nil
  | p :: ps => .cons [] p.syn [] (toElems ps)

theorem toElems_spec {F : FloatFmt} (ps : List Piece) (h : ∀ p ∈ ps, p.Ok F) :
    (toElems ps).WF ∧ (toElems ps).values = ps.map (fun p => p.val) ∧
      (toElems ps).texts = printList (ps.map (fun p => p.val)) ∧
      listSorted (ps.map (fun p => p.val)) ∧ listNums (Settled F) (ps.map (fun p => p.val)) := by
  induction ps with
  | nil => simp [toElems, Elems.WF, Elems.values, Elems.texts, printList, listSorted, listNums]
  | cons p ps ih =>
    obtain ⟨h1, h2, h3, h4, h5⟩ := h p List.mem_cons_self
    obtain ⟨i1, i2, i3, i4, i5⟩ := ih (fun q hq => h q (List.mem_cons_of_mem _ hq))
    refine ⟨⟨white_nil, h1, white_nil, i1⟩, ?_, ?_, ?_, ?_⟩
    · simp [toElems, Elems.values, h2, i2]
    · simp [toElems, Elems.texts, printList, h3, i3]
    · exact ⟨h4, i4⟩
    · exact ⟨h5, i5⟩

theorem printList_map (ps : List Piece) :
    printList (ps.map (fun p => p.val)) = ps.map (fun p => p.val.print) := by
  induction ps with
  | nil => rfl
  | cons p ps ih => simp [printList, ih]

theorem printMembers_map (ps : List Piece) :
    printMembers (ps.map (fun p => (p.name, p.val)))
      = ps.map (fun p => decorate p.name ++ b!":" ++ p.val.print) := by
  induction ps with
  | nil => rfl
  | cons p ps ih => simp [printMembers, ih, decorate_eq]

/-- The entry of a piece in the list of `parseObject`. -/
def Piece.entry (p : Piece) : NameValue := ⟨p.name, sortKey p.name, p.val.print⟩

theorem asc_names {ps : List Piece} (h : Asc (ps.map Piece.entry)) :
    NamesAscend (ps.map (fun p => (p.name, p.val))) := by
  unfold NamesAscend Asc at *
  rw [List.pairwise_map] at h ⊢
  refine h.imp ?_
  intro a b hab x y hx hy
  simp only [Piece.entry] at hab
  simp only at hx hy
  rw [hx, hy, sortKey_utf8, sortKey_utf8] at hab
  exact hab

mutual
theorem canon_syn {F : FloatFmt} (L : FloatLaws F) : ∀ (s : Syn) (out : Str), s.WF →
    canonV F s.value = some out → Canonical F s.value out
  | .lit t, out, hw, h => by
    simp [canonV, Syn.value] at h; subst h
    exact ⟨.lit t, rfl, trivial, trivial, .lit, .lit t, hw, rfl, rfl, fun h => absurd rfl (h t)⟩
  | .num t, out, hw, h => by
    simp only [canonV, Syn.value] at h
    obtain ⟨h1, h2⟩ := numText_spec L h
    exact ⟨.num out, rfl, trivial, numText_settled L h, .num ⟨h2, h⟩, .num out, h1, rfl, rfl, fun _ h => absurd rfl (h t)⟩
  | .str b t, out, hw, h => by
    simp [canonV, Syn.value] at h; subst h
    refine ⟨.str t, by simp [JV.print, decorate_eq], trivial, trivial, .str, .str (t.flatMap escapeByte) t,
      escape_spells t, rfl, by simp [Syn.text, decorate_eq], fun _ _ h => absurd rfl (h t)⟩
  | .arr w es, out, hw, h => by
    simp only [canonV, Syn.value, Option.map_eq_some_iff] at h
    obtain ⟨l, hl, rfl⟩ := h
    obtain ⟨ps, h1, rfl, h3⟩ := canon_elems L es l hw.2 hl
    obtain ⟨t1, t2, t3, t4, t5⟩ := toElems_spec ps h1
    refine ⟨.arr (ps.map (fun p => p.val)), ?_, by simpa only [JV.Sorted] using t4, by simpa only [JV.Nums] using t5, .arr h3, .arr [] (toElems ps),
      ⟨white_nil, t1⟩, by simp [Syn.value, t2], ?_, fun _ _ _ => trivial⟩
    · simp only [arrayText, JV.print, commaSep_eq, printList_map]
    · simp only [Syn.text, arrayText, t3, commaSep_eq, printList_map, List.append_nil]
  | .obj w ms, out, hw, h => by
    simp only [canonV, Syn.value, Option.map_eq_some_iff, Option.bind_eq_some_iff] at h
    obtain ⟨l, ⟨l0, hl0, hl⟩, rfl⟩ := h
    obtain ⟨ps, h1, rfl, h3⟩ := canon_members L ms l0 hw.2 hl0
    obtain ⟨ha, hp⟩ := insertAll_some List.Pairwise.nil hl
    rw [List.append_nil] at hp
    obtain ⟨qs, hq, rfl⟩ := perm_map_lift hp ps rfl
    obtain ⟨t1, t2, t3, t4, t5⟩ := toMembers_spec qs (fun p hp => h1 p (hq.mem_iff.1 hp))
    refine ⟨.obj (qs.map (fun p => (p.name, p.val))), ?_, ⟨asc_names ha, t4⟩, by simpa only [JV.Nums] using t5,
      .obj (h3.trans (.perm (hq.symm.map _))), .obj [] (toMembers qs),
      ⟨white_nil, t1⟩, by simp [Syn.value, t2], ?_, fun _ _ _ => trivial⟩
    · simp only [objectText, JV.print, commaSep_eq, printMembers_map, List.map_map]; rfl
    · simp only [Syn.text, objectText, t3, commaSep_eq, printMembers_map, List.append_nil,
        List.map_map]; rfl

theorem canon_elems {F : FloatFmt} (L : FloatLaws F) : ∀ (es : Elems) (l : List Str), es.WF →
    canonEs F es.values = some l → ∃ ps : List Piece, (∀ p ∈ ps, p.Ok F) ∧
      l = ps.map (fun p => p.val.print) ∧ SameList (Writes F) es.values (ps.map (fun p => p.val))
  | .nil, l, hw, h => by
    simp [Elems.values, canonEs] at h; subst h
    exact ⟨[], by simp, rfl, .nil⟩
  | .cons w₁ v w₂ r, l, hw, h => by
    simp only [Elems.values, canonEs, Option.bind_eq_some_iff, Option.map_eq_some_iff] at h
    obtain ⟨t, ht, l', hl', rfl⟩ := h
    obtain ⟨v', e, hs, hnum, hsame, s, hsw, hsv, hst, _⟩ := canon_syn L v t hw.2.1 ht
    obtain ⟨ps, h1, rfl, h3⟩ := canon_elems L r l' hw.2.2.2 hl'
    refine ⟨⟨[], v', s⟩ :: ps, ?_, by simp [e], .cons hsame h3⟩
    intro p hp
    rcases List.mem_cons.1 hp with rfl | hp
    · exact ⟨hsw, hsv, by rw [hst, e], hs, hnum⟩
    · exact h1 p hp

theorem canon_members {F : FloatFmt} (L : FloatLaws F) : ∀ (ms : Members) (l : List NameValue),
    ms.WF → canonMs F ms.values = some l → ∃ ps : List Piece, (∀ p ∈ ps, p.Ok F) ∧
      l = ps.map Piece.entry ∧
      SameMembers (Writes F) ms.values (ps.map (fun p => (p.name, p.val)))
  | .nil, l, hw, h => by
    simp [Members.values, canonMs] at h; subst h
    exact ⟨[], by simp, rfl, .nil⟩
  | .cons w₁ body dec w₂ w₃ v w₄ r, l, hw, h => by
    simp only [Members.values, canonMs, Option.bind_eq_some_iff, Option.map_eq_some_iff] at h
    obtain ⟨t, ht, l', hl', rfl⟩ := h
    obtain ⟨v', e, hs, hnum, hsame, s, hsw, hsv, hst, _⟩ := canon_syn L v t hw.2.2.2.2.1 ht
    obtain ⟨ps, h1, rfl, h3⟩ := canon_members L r l' hw.2.2.2.2.2.2 hl'
    refine ⟨⟨dec, v', s⟩ :: ps, ?_, by simp [Piece.entry, e], .cons hsame h3⟩
    intro p hp
    rcases List.mem_cons.1 hp with rfl | hp
    · exact ⟨hsw, hsv, by rw [hst, e], hs, hnum⟩
    · exact h1 p hp
end

/-! ## When there is a canonical text -/

/-- The sort keys of the members. -/
theorem canonMs_keys {F : FloatFmt} : ∀ {m : List (Str × JV)} {l : List NameValue},
    canonMs F m = some l → l.map NameValue.key = m.map (fun e => sortKey e.1)
  | [], l, h => by simp [canonMs] at h; subst h; rfl
  | (k, v) :: m, l, h => by
    simp only [canonMs, Option.bind_eq_some_iff, Option.map_eq_some_iff] at h
    obtain ⟨t, ht, l', hl', rfl⟩ := h
    simp [canonMs_keys hl']

theorem nodup_keys {m : List (Str × JV)} (hu : ∀ e ∈ m, Unicode e.1) :
    (m.map (fun e => sortKey e.1)).Nodup ↔ (m.map Prod.fst).Nodup := by
  constructor
  · intro h
    have : m.map (fun e => sortKey e.1) = (m.map Prod.fst).map sortKey := by simp
    rw [this] at h
    exact List.Nodup.of_map _ h
  · intro h
    have : m.map (fun e => sortKey e.1) = (m.map Prod.fst).map sortKey := by simp
    rw [this]
    refine List.Nodup.map_on ?_ h
    intro x hx y hy e
    obtain ⟨a, ha, rfl⟩ := List.mem_map.1 hx
    obtain ⟨b, hb, rfl⟩ := List.mem_map.1 hy
    exact sortKey_inj (hu a ha) (hu b hb) e

theorem membersNames_mem {P : Str → Prop} : ∀ {m : List (Str × JV)}, membersNames P m →
    ∀ e ∈ m, P e.1
  | [], _ => by simp
  | (k, v) :: m, h => by
    intro e he
    rcases List.mem_cons.1 he with rfl | he
    · exact h.1
    · exact membersNames_mem h.2.2 e he

mutual
/-- Accepted values have no duplicate members. -/
theorem canonV_nodup (F : FloatFmt) : ∀ (v : JV) (out : Str), canonV F v = some out → v.NoDup
  | .lit _, _, _ => trivial
  | .num _, _, _ => trivial
  | .str _, _, _ => trivial
  | .arr l, out, h => by
    simp only [canonV, Option.map_eq_some_iff] at h
    obtain ⟨ts, hts, _⟩ := h
    exact canonEs_nodup F l ts hts
  | .obj m, out, h => by
    simp only [canonV, Option.map_eq_some_iff, Option.bind_eq_some_iff] at h
    obtain ⟨l, ⟨l0, hl0, hl⟩, _⟩ := h
    refine ⟨?_, canonMs_nodup F m l0 hl0⟩
    have := insertAll_isSome.1 ⟨l, hl⟩
    rw [canonMs_keys hl0] at this
    have e : m.map (fun e => sortKey e.1) = (m.map Prod.fst).map sortKey := by simp
    rw [e] at this
    exact List.Nodup.of_map _ this

theorem canonEs_nodup (F : FloatFmt) : ∀ (l : List JV) (ts : List Str), canonEs F l = some ts →
    listNoDup l
  | [], _, _ => trivial
  | v :: vs, ts, h => by
    simp only [canonEs, Option.bind_eq_some_iff, Option.map_eq_some_iff] at h
    obtain ⟨t, ht, ts', hts, _⟩ := h
    exact ⟨canonV_nodup F v t ht, canonEs_nodup F vs ts' hts⟩

theorem canonMs_nodup (F : FloatFmt) : ∀ (l : List (Str × JV)) (ts : List NameValue),
    canonMs F l = some ts → membersNoDup l
  | [], _, _ => trivial
  | (k, v) :: vs, ts, h => by
    simp only [canonMs, Option.bind_eq_some_iff, Option.map_eq_some_iff] at h
    obtain ⟨t, ht, ts', hts, _⟩ := h
    exact ⟨canonV_nodup F v t ht, canonMs_nodup F vs ts' hts⟩
end

mutual
/-- Values without duplicates are accepted. -/
theorem canonV_accepts (F : FloatFmt) : ∀ (v : JV), v.NoDup → v.Names Unicode →
    v.Nums (FiniteNumber F) → ∃ out, canonV F v = some out
  | .lit t, _, _, _ => ⟨t, rfl⟩
  | .num t, _, _, h => numText_finite.2 h
  | .str s, _, _, _ => ⟨decorate s, rfl⟩
  | .arr l, h1, h2, h3 => by
    obtain ⟨ts, h⟩ := canonEs_accepts F l h1 h2 h3
    exact ⟨arrayText ts, by simp [canonV, h]⟩
  | .obj m, h1, h2, h3 => by
    obtain ⟨ts, h⟩ := canonMs_accepts F m h1.2 h2 h3
    have hk : (ts.map NameValue.key).Nodup := by
      rw [canonMs_keys h]; exact (nodup_keys (membersNames_mem h2)).2 h1.1
    obtain ⟨l, hl⟩ := insertAll_isSome.2 hk
    exact ⟨objectText l, by simp [canonV, h, hl]⟩

theorem canonEs_accepts (F : FloatFmt) : ∀ (l : List JV), listNoDup l → listNames Unicode l →
    listNums (FiniteNumber F) l → ∃ ts, canonEs F l = some ts
  | [], _, _, _ => ⟨[], rfl⟩
  | v :: vs, h1, h2, h3 => by
    obtain ⟨t, ht⟩ := canonV_accepts F v h1.1 h2.1 h3.1
    obtain ⟨ts, hts⟩ := canonEs_accepts F vs h1.2 h2.2 h3.2
    exact ⟨t :: ts, by simp [canonEs, ht, hts]⟩

theorem canonMs_accepts (F : FloatFmt) : ∀ (l : List (Str × JV)), membersNoDup l →
    membersNames Unicode l → membersNums (FiniteNumber F) l → ∃ ts, canonMs F l = some ts
  | [], _, _, _ => ⟨[], rfl⟩
  | (k, v) :: vs, h1, h2, h3 => by
    obtain ⟨t, ht⟩ := canonV_accepts F v h1.1 h2.2.1 h3.1
    obtain ⟨ts, hts⟩ := canonMs_accepts F vs h1.2 h2.2.2 h3.2
    exact ⟨⟨k, sortKey k, t⟩ :: ts, by simp [canonMs, ht, hts]⟩
end

end Stix.Canon
