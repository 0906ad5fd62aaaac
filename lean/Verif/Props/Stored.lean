import Verif.Spec.Stored
import Verif.Props.PassedOn
import Verif.Props.Custom

/-!
# What a program stores in a custom object, the receiver reads (C90)
-/

namespace Stix
open Spec StixObject
open Canon Props.Canon
open Spec.Text (WritesNumbers height)

variable {U : Type} [UserType U]

/-! ### Integers -/

/-- Every integer up to `2 ^ 53` is a double. -/
theorem integer_double {n : Nat} (h0 : 0 < n) (h : n ≤ 2 ^ 53) :
    ∃ b : UInt64, b ≤ 0x7ff0000000000000 ∧ f64Val b = n := by
  have key : ∃ k : Nat, k ≤ 0x7ff0000000000000 ∧ Strconv.units k = n * 2 ^ 1074 := by
    by_cases hn : n = 2 ^ 53
    · refine ⟨(53 + 1023) * 2 ^ 52, by norm_num, ?_⟩
      subst hn
      unfold Strconv.units
      rw [if_neg (by norm_num)]
      norm_num
      rw [show 1075 = 1074 + 1 from rfl, Nat.pow_succ]
      generalize (2 : Nat) ^ 1074 = P
      omega
    · have hs : n.log2 ≤ 52 := by
        have := (Nat.log2_lt (Nat.pos_iff_ne_zero.1 h0)).2 (Nat.lt_of_le_of_ne h hn)
        omega
      generalize hk : n.log2 = s at hs
      have h1 : 2 ^ s ≤ n := by rw [← hk]; exact Nat.log2_self_le (by omega)
      have h2 : n < 2 ^ (s + 1) := by rw [← hk]; exact Nat.lt_log2_self
      have e1 : 2 ^ s * 2 ^ (52 - s) = 2 ^ 52 := by rw [← Nat.pow_add]; congr 1; omega
      have e2 : 2 ^ (s + 1) * 2 ^ (52 - s) = 2 ^ 53 := by rw [← Nat.pow_add]; congr 1; omega
      have b1 : 2 ^ 52 ≤ n * 2 ^ (52 - s) := by rw [← e1]; exact Nat.mul_le_mul_right _ h1
      have b2 : n * 2 ^ (52 - s) < 2 ^ 53 := by rw [← e2]; exact Nat.mul_lt_mul_of_pos_right h2 (Nat.two_pow_pos _)
      generalize hm : n * 2 ^ (52 - s) = q at b1 b2
      refine ⟨(s + 1023) * 2 ^ 52 + (q - 2 ^ 52), by omega, ?_⟩
      unfold Strconv.units
      rw [if_neg (by omega), show ((s + 1023) * 2 ^ 52 + (q - 2 ^ 52)) / 2 ^ 52 - 1 = s + 1022 by omega,
        show 2 ^ 52 + ((s + 1023) * 2 ^ 52 + (q - 2 ^ 52)) % 2 ^ 52 = q by omega, ← hm, Nat.mul_assoc, ← Nat.pow_add,
        show 52 - s + (s + 1022) = 1074 by omega]
  obtain ⟨k, hk, hu⟩ := key
  have ht : (UInt64.ofNat k).toNat = k := UInt64.toNat_ofNat_of_lt' (by
    have : UInt64.size = 18446744073709551616 := rfl
    omega)
  refine ⟨.ofNat k, by rw [UInt64.le_iff_toNat_le, ht]; exact hk, ?_⟩
  rw [Strconv.f64Val_units (by rw [UInt64.le_iff_toNat_le, ht]; exact hk), ht, hu]
  push_cast
  rw [mul_div_cancel_right₀]
  positivity

theorem intLit_written (i : Int) : Es6.Written (intLit i) (decide (i < 0)) 0 (i.natAbs : ℚ) := by
  obtain ⟨ds, h1, h2, -, h4, h5, -⟩ := natLitAux_digits (i.natAbs.log2 + 1) i.natAbs Nat.lt_log2_self (by omega)
  refine ⟨ds, [], [], [], [], h1, h2, by simp, by simp, .inl ⟨rfl, rfl⟩, .inl ⟨rfl, rfl⟩, ?_, by simp [h5]⟩
  unfold intLit natLit
  rw [h4]
  by_cases h : i < 0 <;> simp [h, Es6.chars]

/-- An int64 is read as the nearest double. -/
theorem intLit_rounded {i : Int} (h : -(2 ^ 63) ≤ i ∧ i < 2 ^ 63) :
    ∃ f, strconv.parse (intLit i) = some f ∧ Rounded i f := by
  obtain ⟨b, hb, -⟩ := c68_nearest_exists _ _ _ _ (intLit_written i)
  have hp := c68_read _ _ _ _ (intLit_written i) (.inl ⟨by norm_num, by norm_num⟩) b hb
  have hs := dynSoft_int Strconv.strconv_integers i h
  by_cases hinf : b = 0x7ff0000000000000
  · rw [if_pos hinf] at hp
    simp [dynSoft, decDyn, hp] at hs
  · rw [if_neg hinf] at hp
    exact ⟨_, hp, b, hb, by by_cases h : i < 0 <;> simp [h]⟩

/-- The nearest double of an integer up to `2 ^ 53` is that integer. -/
theorem rounded_exact {i : Int} {f : F64} (h : Rounded i f) (hi : i.natAbs ≤ 2 ^ 53) :
    finite f = true ∧ IntegerPart f i := by
  obtain ⟨b, hb, rfl⟩ := h
  have hv : f64Val b = i.natAbs := by
    by_cases h0 : i.natAbs = 0
    · have := (hb.2 0 (by decide)).1
      have hz : f64Val 0 = 0 := (f64Val_zero 0).2 (by decide)
      rw [h0] at this ⊢
      rw [hz] at this
      simpa using this
    · obtain ⟨c, h1, h2⟩ := integer_double (Nat.pos_of_ne_zero h0) hi
      have := (hb.2 c h1).1
      rw [h2, sub_self, abs_zero] at this
      exact sub_eq_zero.1 (abs_eq_zero.1 (le_antisymm this (abs_nonneg _)))
  have hle : b.toNat ≤ 0x7ff0000000000000 := UInt64.le_iff_toNat_le.1 hb.1
  have hu : Strconv.units b.toNat = i.natAbs * 2 ^ 1074 := by
    rw [Strconv.f64Val_units hb.1, div_eq_iff (by positivity)] at hv
    exact_mod_cast hv
  have hlt : b.toNat < 0x7ff0000000000000 := by
    rcases Nat.lt_or_ge b.toNat 0x7ff0000000000000 with h | h
    · exact h
    · exfalso
      have he : b.toNat = 0x7ff0000000000000 := Nat.le_antisymm hle h
      have h1 : Strconv.units ((53 + 1023) * 2 ^ 52) = 2 ^ 53 * 2 ^ 1074 := by
        unfold Strconv.units
        rw [if_neg (by norm_num)]
        norm_num
        rw [show 1075 = 1074 + 1 from rfl, Nat.pow_succ]
        generalize (2 : Nat) ^ 1074 = P
        omega
      have h2 : Strconv.units ((53 + 1023) * 2 ^ 52) < Strconv.units b.toNat := Strconv.units_lt.2 (by rw [he]; norm_num)
      rw [h1, hu] at h2
      exact absurd (Nat.lt_of_mul_lt_mul_right h2) (by omega)
  have hf : ∀ f : F64, (f.toNat = b.toNat ∨ f.toNat = 2 ^ 63 + b.toNat) → finite f = true ∧ scaledAbs f = i.natAbs * 2 ^ 1074 := by
    intro f hf
    have he : f.toNat / 2 ^ 52 % 2048 = b.toNat / 2 ^ 52 := by omega
    have hm : f.toNat % 2 ^ 52 = b.toNat % 2 ^ 52 := by omega
    refine ⟨(finite_iff f).2 ?_, ?_⟩
    · show f.toNat / 2 ^ 52 % 2 ^ 11 ≠ 2047
      omega
    · rw [← hu]
      unfold scaledAbs Strconv.units
      simp only [he, hm]
      split
      · rfl
      · rw [Nat.add_comm]
  have hpos : 0 < (2 : Nat) ^ 1074 := Nat.two_pow_pos _
  have hor : (b ||| 0x8000000000000000).toNat = 2 ^ 63 + b.toNat := by
    rw [UInt64.toNat_or, Nat.lor_comm]
    have := Nat.two_pow_add_eq_or_of_lt (i := 63) (b := b.toNat) (by omega) 1
    rw [Nat.mul_one] at this
    exact this.symm
  by_cases hneg : i < 0
  · simp only [hneg, if_true]
    obtain ⟨g1, g2⟩ := hf (b ||| 0x8000000000000000) (.inr hor)
    refine ⟨g1, by rw [g2], ?_, fun h => absurd h (by omega), fun _ => by rw [hor]; omega⟩
    rw [g2]
    exact Nat.mul_lt_mul_of_pos_right (Nat.lt_succ_self _) hpos
  · simp only [hneg, if_false]
    obtain ⟨g1, g2⟩ := hf b (.inl rfl)
    refine ⟨g1, by rw [g2], ?_, fun _ => by omega, fun h => absurd h hneg⟩
    rw [g2]
    exact Nat.mul_lt_mul_of_pos_right (Nat.lt_succ_self _) hpos

/-! ### Values -/

mutual
theorem stored_dyn : ∀ d : Dyn, Storable d → ∃ j d', encDyn strconv d = some j ∧ decDyn strconv j = .ok d' false ∧ Comes d d'
  | .nil, _ => ⟨.null, .nil, by simp only [encDyn], by simp only [decDyn], .nil⟩
  | .bool b, _ => ⟨.bool b, .bool b, by simp only [encDyn], by simp only [decDyn], .bool b⟩
  | .num f, h => by
    simp only [Storable] at h
    refine ⟨.num (floatLit strconv f), .num f, by simp only [encDyn, (finite_iff f).2 h, if_true], ?_, .num f⟩
    simp only [decDyn, parse_floatLit Strconv.strconv_laws h]
  | .int i, h => by
    simp only [Storable] at h
    obtain ⟨f, h1, h2⟩ := intLit_rounded h
    exact ⟨.num (intLit i), .num f, by simp only [encDyn], by simp only [decDyn, h1], .int h2⟩
  | .str s, h => by
    simp only [Storable] at h
    exact ⟨.ofStr s, .str s, by simp only [encDyn], by simp only [Json.ofStr, decDyn, sanitize_unicode h], .str s⟩
  | .strs l, h => by
    simp only [Storable] at h
    refine ⟨.arr (l.map .ofStr), .arr (l.map .str), by simp only [encDyn], ?_, .strs l⟩
    have : decDynArr strconv (l.map .ofStr) = .ok (l.map .str) false := by
      induction l with
      | nil => simp only [List.map_nil, decDynArr]
      | cons s l ih =>
        have := ih fun s hs => h s (by simp [hs])
        simp [decDynArr, this, Json.ofStr, decDyn, sanitize_unicode (h s (by simp)), D.bind]
    simp [decDyn, this, D.bind]
  | .arr l, h => by
    simp only [Storable] at h
    obtain ⟨js, l', h1, h2, h3⟩ := stored_list l h
    refine ⟨.arr js, .arr l', by simp only [encDyn, h1, Option.map_some], ?_, .arr h3⟩
    simp [decDyn, h2, D.bind]
  | .obj m, h => by
    simp only [Storable] at h
    obtain ⟨js, m', h1, h2, h3⟩ := stored_entries m h.2
    refine ⟨.obj js, .obj m', by simp only [encDyn, h1, Option.map_some], ?_, .obj h3⟩
    have := h2 [] h.1 (fun e he => by simp at he)
    simp [decDyn, this, D.bind]

theorem stored_list : ∀ l : List Dyn, StorableList l →
    ∃ js l', encDynArr strconv l = some js ∧ decDynArr strconv js = .ok l' false ∧ ComesList l l'
  | [], _ => ⟨[], [], by simp only [encDynArr], by simp only [decDynArr], .nil⟩
  | d :: l, h => by
    simp only [StorableList] at h
    obtain ⟨j, d', h1, h2, h5⟩ := stored_dyn d h.1
    obtain ⟨js, l', h3, h4, h6⟩ := stored_list l h.2
    refine ⟨j :: js, d' :: l', by simp only [encDynArr, h1, h3], ?_, .cons h5 h6⟩
    simp [decDynArr, h2, h4, D.bind]

theorem stored_entries : ∀ m : List (Str × Dyn), StorableEntries m → ∃ js m', encDynObj strconv m = some js ∧
    (∀ acc : List (Str × Dyn), SortedKeys m → (∀ e ∈ acc, ∀ x ∈ m, strLt e.1 x.1 = true) →
      decDynObj strconv acc js = .ok (acc ++ m') false) ∧ ComesEntries m m'
  | [], _ => ⟨[], [], by simp only [encDynObj], by intro acc _ _; simp only [decDynObj, List.append_nil], .nil⟩
  | (k, d) :: m, h => by
    simp only [StorableEntries] at h
    obtain ⟨j, d', h1, h2, h5⟩ := stored_dyn d h.1.2
    obtain ⟨js, m', h3, h4, h6⟩ := stored_entries m h.2
    refine ⟨(k, j) :: js, (k, d') :: m', by simp only [encDynObj, h1, h3, sanitize_unicode h.1.1], ?_, .cons h5 h6⟩
    intro acc hs ha
    have hi : smInsert k d' acc = acc ++ [(k, d')] := smInsert_last fun e he => ha e he (k, d) (by simp)
    have hs' := List.pairwise_cons.1 hs
    have := h4 (acc ++ [(k, d')]) hs'.2 (fun e he x hx => by
      rcases List.mem_append.1 he with he | he
      · exact ha e he x (by simp [hx])
      · obtain rfl := List.mem_singleton.1 he
        exact hs'.1 x hx)
    simp only [decDynObj, h2, D.bind, hi, this]
    simp
end

theorem comes_keys {m m' : List (Str × Dyn)} (h : ComesEntries m m') (key : Str) :
    (amLookup key m = none ∧ amLookup key m' = none) ∨
      ∃ d d', amLookup key m = some d ∧ amLookup key m' = some d' ∧ Comes d d' := by
  cases h with
  | nil => exact .inl ⟨rfl, rfl⟩
  | @cons k d d' m m' h1 h2 =>
    by_cases hk : k = key
    · exact .inr ⟨d, d', by simp [amLookup, hk], by simp [amLookup, hk], h1⟩
    · simpa [amLookup, hk] using comes_keys h2 key

theorem comes_get {m m' : List (Str × Dyn)} (h : ComesEntries m m') (key : Str) :
    Comes (Custom.get (some m) key) (Custom.get (some m') key) := by
  unfold Custom.get
  rcases comes_keys h key with ⟨h1, h2⟩ | ⟨d, d', h1, h2, h3⟩
  · simpa [h1, h2] using Comes.nil
  · simpa [h1, h2] using h3

/-! ### Objects -/

theorem comes_str {d' : Dyn} {s : Str} (h : Comes (.str s) d') : d' = .str s := by cases h; rfl

theorem stored_ident {m m' : List (Str × Dyn)} (h : StoredCustom m) (hc : ComesEntries m m') :
    ∃ t id, Identifies t id ∧ (∀ s, (t, s) ∉ goTypes) ∧
      (amLookup (b!"type") m = some (.str t) ∧ amLookup (b!"id") m = some (.str id)) ∧
      amLookup (b!"type") m' = some (.str t) ∧ amLookup (b!"id") m' = some (.str id) := by
  obtain ⟨t, id, h1, h2, h3, h4⟩ := h.ident
  have e1 := lookup_member h.sorted h1
  have e2 := lookup_member h.sorted h2
  refine ⟨t, id, h3, h4, ⟨e1, e2⟩, ?_, ?_⟩
  · rcases comes_keys hc (b!"type") with ⟨g, -⟩ | ⟨d, d', g1, g2, g3⟩
    · rw [e1] at g; cases g
    · rw [e1] at g1; cases g1
      rw [g2, comes_str g3]
  · rcases comes_keys hc (b!"id") with ⟨g, -⟩ | ⟨d, d', g1, g2, g3⟩
    · rw [e2] at g; cases g
    · rw [e2] at g1; cases g1
      rw [g2, comes_str g3]

theorem ident_custom {m : List (Str × Dyn)} {t id : Str} (h1 : amLookup (b!"type") m = some (.str t))
    (h2 : amLookup (b!"id") m = some (.str id)) (h3 : Identifies t id) :
    (Any.custom (some m) : Any U).panics = false ∧ Acceptable (Any.custom (some m) : Any U) ∧
      getID (Any.custom (some m) : Any U) = id := by
  have e1 : customText (some m) (b!"type") = .ok t := by simp only [customText, Option.getD_some, h1]
  have e2 : customText (some m) (b!"id") = .ok id := by simp only [customText, Option.getD_some, h2]
  refine ⟨by simp [Any.panics, e1, e2], ?_, by simp only [getID, e2]⟩
  show Identifies _ _
  simp only [getID, getType, e1, e2]
  exact h3

/-- A stored custom object is written, and read as what its values come to. -/
theorem stored_step {opts : List (CollOption U)} (hn : NoParsers opts) (hd : CollOption.dropCustom ∉ opts)
    {m : List (Str × Dyn)} (h : StoredCustom m) : ∃ j m', marshalAny (U := U) strconv (.custom (some m)) = some j ∧
      ComesEntries m m' ∧ ∀ p : Peak, ∃ p', parseOne strconv (Config.new opts) p j = .ok (p', some (.custom (some m'))) := by
  obtain ⟨ms, m', h1, h2, h3⟩ := stored_entries m h.members
  have h2 := h2 [] h.sorted (fun e he => by simp at he)
  rw [decDynObj_eq] at h2
  simp only [List.nil_append, D.ok.injEq] at h2
  obtain ⟨h2, h4⟩ := h2
  obtain ⟨t, id, -, hs, -, ht, -⟩ := stored_ident h h3
  refine ⟨.obj ms, m', by simp only [marshalAny, encDyn, h1, Option.map_some], h3, fun p => ?_⟩
  have hlook : amLookup (b!"type") (dynMerge strconv (p.getD []) ms) = some (.str t) := by
    have := amLookup_dynMerge (F := strconv) (b!"type") [] ms
    rw [h2, ht] at this
    rw [amLookup_dynMerge]
    cases hm : member (b!"type") ms with
    | none => rw [hm] at this; simp [amLookup] at this
    | some w => rw [hm] at this; exact this.symm
  have hdr : (Config.new opts).dropCustom = false := by
    rw [← Bool.not_eq_true, dropCustom_iff]; exact hd
  refine ⟨some (dynMerge strconv (p.getD []) ms), ?_⟩
  simp only [parseOne, decCustom_obj, h4, D.res, Res.bind, Option.getD_some, hlook, newObject, handlers_none hn,
    (dispatch_none t).2 hs, hdr]
  simp [decAny, decCustom_obj, h4, h2, D.bind, extend]

theorem stored_steps {opts : List (CollOption U)} (hn : NoParsers opts) (hd : CollOption.dropCustom ∉ opts)
    {ms : List (List (Str × Dyn))} (h : ∀ m ∈ ms, StoredCustom m) : ∃ js ms',
      List.Forall₂ (fun a j => marshalAny (U := U) strconv a = some j) (ms.map fun m => .custom (some m)) js ∧
      List.Forall₂ ComesEntries ms ms' ∧
      ∀ p : Peak, ∃ p', Steps strconv (Config.new opts) p js (ms'.map fun m => some (.custom (some m))) p' := by
  induction ms with
  | nil => exact ⟨[], [], .nil, .nil, fun p => ⟨p, .nil p⟩⟩
  | cons m ms ih =>
    obtain ⟨js, ms', h1, h2, h3⟩ := ih fun m hm => h m (by simp [hm])
    obtain ⟨j, m', g1, g2, g3⟩ := stored_step (U := U) hn hd (h m (by simp))
    refine ⟨j :: js, m' :: ms', .cons g1 h1, .cons g2 h2, fun p => ?_⟩
    obtain ⟨p1, g4⟩ := g3 p
    obtain ⟨p2, h4⟩ := h3 p1
    refine ⟨p2, .cons g4 (fun x e => ?_) h4⟩
    cases e
    obtain ⟨t, id, i1, -, -, i2, i3⟩ := stored_ident (h m (by simp)) g2
    exact ⟨(ident_custom i2 i3 i1).1, (ident_custom i2 i3 i1).2.1⟩

/-- **C90.** Custom objects with values of any of the types that the accessors know, put in one bundle, are
received under their ids, and what is in them is what JSON makes of the values: integers are the nearest
doubles, lists of texts are lists of values, everything else is the same. -/
theorem c90_arrives (ms : List (List (Str × Dyn))) (h : ∀ m ∈ ms, StoredCustom m)
    (hnd : (ms.map fun m => getID (Any.custom (some m) : Any U)).Nodup)
    (rnd : List UInt8) (hr : rnd.length = 16)
    (hh : ∀ v doc, newBundle strconv rnd (ms.map fun m => some (Any.custom (U := U) (some m))) = .ok v →
      enc strconv tyBundle v = some doc → height doc ≤ 10000)
    (opts : List (CollOption U)) (hn : NoParsers opts) (hd : CollOption.dropCustom ∉ opts) :
    ∃ v doc c, newBundle strconv rnd (ms.map fun m => some (Any.custom (U := U) (some m))) = .ok v ∧
      enc strconv tyBundle v = some doc ∧ fromJSONText strconv opts doc.raw = .ok c ∧
      ∀ m ∈ ms, ∃ m', c.get (getID (Any.custom (some m) : Any U)) = some (.custom (some m')) ∧ ComesEntries m m' := by
  obtain ⟨js, ms', h1, h2, h3⟩ := stored_steps (U := U) hn hd h
  replace h3 := h3 none
  obtain ⟨p', h3⟩ := h3
  have hb := bundle_made rnd h1
  rw [List.map_map] at hb
  have hpr : ∀ j ∈ js, Text.Printable j := fun j hj => by
    obtain ⟨a, ha, e⟩ := forall₂_mem_right h1 hj
    obtain ⟨m, -, rfl⟩ := List.mem_map.1 ha
    exact Text.encDyn_printable Strconv.strconv_writes _ _ e
  have hht := hh _ _ hb (enc_bundle rnd _)
  have hsame : List.Forall₂ (fun m m' => ComesEntries m m' ∧ Acceptable (Any.custom (some m') : Any U) ∧
      getID (Any.custom (some m') : Any U) = getID (Any.custom (some m) : Any U)) ms ms' := by
    clear hnd hh h1 h3 hb hpr hht
    induction h2 with
    | nil => exact .nil
    | @cons m m' _ _ g _ ih =>
      obtain ⟨t, id, i1, -, ⟨i4, i5⟩, i2, i3⟩ := stored_ident (h m (by simp)) g
      obtain ⟨-, k1, k2⟩ := ident_custom (U := U) i2 i3 i1
      obtain ⟨-, -, k3⟩ := ident_custom (U := U) i4 i5 i1
      exact .cons ⟨g, k1, by rw [k2, k3]⟩ (ih fun m hm => h m (by simp [hm]))
  have hids : (ms'.map fun m => Any.custom (U := U) (some m)).map getID = ms.map fun m => getID (Any.custom (some m) : Any U) := by
    clear hnd hh h1 h2 h3 hb hpr hht h
    induction hsame with
    | nil => rfl
    | cons g _ ih => simp only [List.map_cons, g.2.2, ih]
  have hacc : ∀ a ∈ ms'.map fun m => Any.custom (U := U) (some m), Acceptable a := fun a ha => by
    obtain ⟨m', hm, rfl⟩ := List.mem_map.1 ha
    obtain ⟨m, -, g⟩ := forall₂_mem_right hsame hm
    exact g.2.1
  refine ⟨_, _, (Coll.new (Config.new opts).noSort).addAll (ms'.map fun m => .custom (some m)), hb, enc_bundle rnd _, ?_, ?_⟩
  · rw [c52_value opts (Text.isText_raw (printable_bundle rnd js hpr) hht), fromJSON_bundleDoc opts rnd hr,
      processObjects_ok]
    refine ⟨_, p', h3, ?_⟩
    congr 1
    simp [List.filterMap_map]
  · intro m hm
    obtain ⟨m', hm', g⟩ : ∃ m' ∈ ms', ComesEntries m m' ∧
        getID (Any.custom (some m') : Any U) = getID (Any.custom (some m) : Any U) := by
      clear hnd hh h1 h2 h3 hb hpr hht h hids hacc
      induction hsame with
      | nil => cases hm
      | cons g _ ih =>
        rcases List.mem_cons.1 hm with rfl | hm
        · exact ⟨_, by simp, g.1, g.2.2⟩
        · obtain ⟨m', k1, k2⟩ := ih hm
          exact ⟨m', by simp [k1], k2⟩
    refine ⟨m', ?_, g.1⟩
    rw [get_self _ _ hacc (by rw [hids]; exact hnd)]
    exact ⟨List.mem_map.2 ⟨m', hm', rfl⟩, g.2⟩

/-- **C90**, accessor by accessor: `GetAsString`, `GetCreated` and `GetModified` (`getTime` with their keys) give
the receiver what they gave the sender; so does `GetAsNumber` if the number is a float, or an integer of at most
`2 ^ 53`, and `GetAsStringSlice` if there is nothing.

Missing: other integers (`c90_false`), and all lists of texts (`c90_strings_panic`). -/
theorem c90_accessors_partial {m m' : List (Str × Dyn)} (h : ComesEntries m m') (key : Str) (other : F64 → Int) :
    Custom.getAsString (some m') key = Custom.getAsString (some m) key ∧
    Custom.getTime (some m') key = Custom.getTime (some m) key ∧
    ((∀ i, Custom.get (some m) key = .int i → i.natAbs ≤ 2 ^ 53) →
      Custom.getAsNumber other (some m') key = Custom.getAsNumber other (some m) key) ∧
    ((∀ l, Custom.get (some m) key ≠ .strs l) →
      Custom.getAsStringSlice (some m') key = Custom.getAsStringSlice (some m) key) := by
  have hg := comes_get h key
  refine ⟨?_, ?_, fun hi => ?_, fun hl => ?_⟩
  · unfold Custom.getAsString
    generalize Custom.get (some m) key = d, Custom.get (some m') key = d' at hg
    cases hg <;> rfl
  · unfold Custom.getTime
    rcases comes_keys h key with ⟨h1, h2⟩ | ⟨d, d', h1, h2, h3⟩
    · simp [h1, h2]
    · simp only [Option.getD_some, h1, h2]
      cases h3 <;> rfl
  · cases hd : Custom.get (some m) key with
    | int i =>
      rw [hd] at hg
      generalize hd' : Custom.get (some m') key = d' at hg
      cases hg with
      | int hr =>
        obtain ⟨g1, g2⟩ := rounded_exact hr (hi i hd)
        have hb := hi i hd
        rw [(c46_number other (some m) key).1 i hd]
        exact (c46_number other (some m') key).2.1 _ i hd' g1 g2 (by omega) (by omega)
    | _ =>
      rw [hd] at hg
      unfold Custom.getAsNumber
      rw [hd]
      generalize Custom.get (some m') key = d' at hg
      cases hg <;> rfl
  · unfold Custom.getAsStringSlice
    generalize Custom.get (some m) key = d, Custom.get (some m') key = d' at hg hl
    cases hg <;> first | rfl | exact absurd rfl (hl _)

/-- **C90**, what is wrong: every list of texts that a program stores, which `GetAsStringSlice` returns to the
sender, makes it panic for the receiver. -/
theorem c90_strings_panic {m m' : List (Str × Dyn)} (h : ComesEntries m m') (key : Str) (l : List Str)
    (hl : Custom.get (some m) key = .strs l) :
    Custom.getAsStringSlice (some m) key = .ok (some l) ∧ Custom.getAsStringSlice (some m') key = .panic := by
  have hg := comes_get h key
  rw [hl] at hg
  unfold Custom.getAsStringSlice
  rw [hl]
  generalize Custom.get (some m') key = d' at hg
  cases hg
  exact ⟨rfl, rfl⟩

/-- The two together: sender and receiver, each with their accessors. Missing from the full statement: lists of texts,
which panic (`c90_strings_panic`), and integers greater than `2 ^ 53`, which are rounded (`c90_false`). -/
theorem c90_receiver_partial (ms : List (List (Str × Dyn))) (h : ∀ m ∈ ms, StoredCustom m)
    (hnd : (ms.map fun m => getID (Any.custom (some m) : Any U)).Nodup)
    (rnd : List UInt8) (hr : rnd.length = 16)
    (hh : ∀ v doc, newBundle strconv rnd (ms.map fun m => some (Any.custom (U := U) (some m))) = .ok v →
      enc strconv tyBundle v = some doc → height doc ≤ 10000)
    (opts : List (CollOption U)) (hn : NoParsers opts) (hd : CollOption.dropCustom ∉ opts) :
    ∃ v doc c, newBundle strconv rnd (ms.map fun m => some (Any.custom (U := U) (some m))) = .ok v ∧
      enc strconv tyBundle v = some doc ∧ fromJSONText strconv opts doc.raw = .ok c ∧
      ∀ m ∈ ms, ∃ m', c.get (getID (Any.custom (some m) : Any U)) = some (.custom (some m')) ∧ ∀ key other,
        Custom.getAsString (some m') key = Custom.getAsString (some m) key ∧
        Custom.getTime (some m') key = Custom.getTime (some m) key ∧
        ((∀ i, Custom.get (some m) key = .int i → i.natAbs ≤ 2 ^ 53) →
          Custom.getAsNumber other (some m') key = Custom.getAsNumber other (some m) key) ∧
        ((∀ l, Custom.get (some m) key ≠ .strs l) →
          Custom.getAsStringSlice (some m') key = Custom.getAsStringSlice (some m) key) := by
  obtain ⟨v, doc, c, h1, h2, h3, h4⟩ := c90_arrives ms h hnd rnd hr hh opts hn hd
  refine ⟨v, doc, c, h1, h2, h3, fun m hm => ?_⟩
  obtain ⟨m', e, hc⟩ := h4 m hm
  exact ⟨m', e, fun key other => c90_accessors_partial hc key other⟩

/-! ### A case -/

/-- A custom object with texts and integers, one of them greater than `2 ^ 53`. -/
def exStored : List (Str × Dyn) :=
  [(b!"count", .int 42), (b!"id", .str (exId (b!"x-thing"))), (b!"names", .strs [b!"a", b!"b"]),
   (b!"size", .int 9007199254740993), (b!"type", .str (b!"x-thing"))]

theorem exStored_stored : StoredCustom exStored := by
  have hu : ∀ s : Str, s.all (fun c => c < 128) = true → Canon.Unicode s := fun s hs => unicode_ascii s hs
  refine ⟨by simp only [exStored, SortedKeys]; decide +kernel, ?_, b!"x-thing", exId (b!"x-thing"), by simp [exStored],
    by simp [exStored], ?_, fun s hs => ?_⟩
  · simp only [exStored, StorableEntries, Storable, and_true]
    refine ⟨⟨hu _ (by decide), by norm_num⟩, ⟨hu _ (by decide), hu _ (by decide +kernel)⟩,
      ⟨hu _ (by decide), ?_⟩, ⟨hu _ (by decide), by norm_num⟩, hu _ (by decide), hu _ (by decide)⟩
    intro s hs
    simp only [List.mem_cons, List.not_mem_nil, or_false] at hs
    rcases hs with rfl | rfl <;> exact hu _ (by decide)
  · rw [← hasValidIdentifier_iff]
    decide +kernel
  · have h : ∀ e ∈ goTypes, e.1 ≠ b!"x-thing" := by decide +kernel
    exact h _ hs rfl

/-- What the accessors give before and after the trip. -/
def exStoredTrip : Bool :=
  (newBundle (U := Empty) strconv exSevens [some (.custom (some exStored))]).okWith fun v =>
    match enc strconv tyBundle v with
    | none => false
    | some doc => decide (height doc ≤ 10000) && (fromJSONText (U := Empty) strconv [] doc.raw).okWith fun c =>
      match c.get (exId (b!"x-thing")) with
      | some (.custom m') =>
        (Custom.getAsNumber (fun _ => 0) m' (b!"count")).okWith (· == 42) &&
        (Custom.getAsNumber (fun _ => 0) m' (b!"size")).okWith (· == 9007199254740992) &&
        (match Custom.getAsStringSlice m' (b!"names") with
          | .panic => true
          | _ => false)
      | _ => false

theorem exStored_trip : exStoredTrip = true := by decide +kernel

/-- C90: the object is sent and received. -/
example : ∃ (v : GV) (doc : Json) (c : Coll (Any Empty)),
    newBundle (U := Empty) strconv exSevens [some (.custom (some exStored))] = .ok v ∧ enc strconv tyBundle v = some doc ∧
      fromJSONText strconv [] doc.raw = .ok c ∧
      ∃ m', c.get (exId (b!"x-thing")) = some (.custom (some m')) ∧ ComesEntries exStored m' := by
  have hid : getID (Any.custom (some exStored) : Any Empty) = exId (b!"x-thing") := by decide +kernel
  obtain ⟨v, doc, c, h1, h2, h3, h4⟩ := c90_arrives (U := Empty) [exStored]
    (fun m hm => by obtain rfl := List.mem_singleton.1 hm; exact exStored_stored) (by simp) exSevens (by decide)
    (fun v doc e1 e2 => by
      have h := exStored_trip
      unfold exStoredTrip at h
      obtain ⟨v', e, h⟩ := Res.okWith_iff.1 h
      have e1 : newBundle (U := Empty) strconv exSevens [some (.custom (some exStored))] = .ok v := e1
      rw [e] at e1
      cases e1
      simp only [e2, Bool.and_eq_true, decide_eq_true_eq] at h
      exact h.1) [] (fun o ho => by simp at ho) (by simp)
  obtain ⟨m', g1, g2⟩ := h4 exStored (by simp)
  rw [hid] at g1
  exact ⟨v, doc, c, h1, h2, h3, m', g1, g2⟩

/-- **C90** is false of the code: the integer `2 ^ 53 + 1` and the list of texts of an object that is sent are
not what the receiver reads: the first is `2 ^ 53`, the second a panic. -/
theorem c90_false : ∃ (v : GV) (doc : Json) (c : Coll (Any Empty)) (m' : Custom),
    newBundle (U := Empty) strconv exSevens [some (.custom (some exStored))] = .ok v ∧ enc strconv tyBundle v = some doc ∧
      fromJSONText strconv [] doc.raw = .ok c ∧ c.get (exId (b!"x-thing")) = some (.custom m') ∧
      Custom.getAsNumber (fun _ => 0) (some exStored) (b!"size") = .ok 9007199254740993 ∧
      Custom.getAsNumber (fun _ => 0) m' (b!"size") = .ok 9007199254740992 ∧
      Custom.getAsStringSlice (some exStored) (b!"names") = .ok (some [b!"a", b!"b"]) ∧
      Custom.getAsStringSlice m' (b!"names") = .panic := by
  have h := exStored_trip
  unfold exStoredTrip at h
  obtain ⟨v, e, h⟩ := Res.okWith_iff.1 h
  split at h
  · cases h
  · next doc hdoc =>
    simp only [Bool.and_eq_true] at h
    obtain ⟨c, hc, h⟩ := Res.okWith_iff.1 h.2
    split at h
    · next m' hm =>
      simp only [Bool.and_eq_true] at h
      obtain ⟨i, e1, h1⟩ := Res.okWith_iff.1 h.1.2
      refine ⟨v, doc, c, m', e, hdoc, hc, hm, by rfl, by rw [e1, beq_iff_eq.1 h1], by rfl, ?_⟩
      have h2 := h.2
      split at h2
      · assumption
      · cases h2
    · cases h

end Stix
