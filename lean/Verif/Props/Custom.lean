import Verif.Spec.Custom
import Verif.Props.NoPanic

/-!
# Custom objects and extensions (C45, C46, C51)
-/

namespace Stix
open Spec StixObject Stix.Canon Stix.Props.Canon

variable {F : Canon.FloatFmt} {U : Type} [UserType U]

/-! ## C46 -/

/-- A sequence of `Set` calls. -/
def Custom.setAll (c : Custom) : List (Str × Dyn) → Res Custom
  | [] => .ok c
  | (k, v) :: rest => (c.set k v).bind fun c => Custom.setAll c rest

/-- **C46.** After any sequence of `Set` calls on a custom object that is not nil, `Get` returns what
was last set for the key, or what was there before. -/
theorem c46_get_after_sets (m : List (Str × Dyn)) (sets : List (Str × Dyn)) :
    ∃ c, Custom.setAll (some m) sets = .ok c ∧
      ∀ key, c.get key = (lastAssigned key sets).getD (Custom.get (some m) key) := by
  induction sets generalizing m with
  | nil => exact ⟨some m, rfl, fun key => by simp [lastAssigned]⟩
  | cons e sets ih =>
    obtain ⟨k, v⟩ := e
    obtain ⟨c, h1, h2⟩ := ih (smInsert k v m)
    refine ⟨c, by simpa [Custom.setAll, Custom.set, Res.bind] using h1, fun key => ?_⟩
    rw [h2]
    cases hl : lastAssigned key sets with
    | some d => simp [lastAssigned, hl]
    | none =>
      simp only [lastAssigned, hl, Option.getD_none, Option.orElse, Custom.get, Option.getD_some,
        amLookup_smInsert]
      by_cases e : key = k
      · subst e; simp
      · simp [e, Ne.symm e]

/-- **C46.** On a nil custom object `Get` finds nothing and `Set` panics. -/
theorem c46_nil (key : Str) (v : Dyn) : Custom.get none key = .nil ∧ Custom.set none key v = .panic :=
  ⟨rfl, rfl⟩

/-- **C46.** `GetAsString` returns the text that is stored, or nothing if there is none; it panics
exactly when something else is stored. -/
theorem c46_string (c : Custom) (key : Str) :
    (∀ s, c.getAsString key = .ok s ↔ c.get key = .str s ∨ (c.get key = .nil ∧ s = [])) ∧
    (c.getAsString key = .panic ↔ c.get key ≠ .nil ∧ ∀ s, c.get key ≠ .str s) := by
  unfold Custom.getAsString
  cases c.get key <;> simp [eq_comm]

/-- **C46.** `GetAsStringSlice` likewise; what the parser makes of a JSON array is something else. -/
theorem c46_strings (c : Custom) (key : Str) :
    (∀ l, c.getAsStringSlice key = .ok l ↔
      (∃ x, c.get key = .strs x ∧ l = some x) ∨ (c.get key = .nil ∧ l = none)) ∧
    (c.getAsStringSlice key = .panic ↔ c.get key ≠ .nil ∧ ∀ x, c.get key ≠ .strs x) := by
  unfold Custom.getAsStringSlice
  cases c.get key <;> simp [eq_comm]

theorem natDiv_bounds (M p q r : Nat) (hp : 0 < p) (hr : 0 < r) (h : p * r = q) :
    M / p * q ≤ M * r ∧ M * r < (M / p + 1) * q := by
  subst h
  have h1 := Nat.div_mul_le_self M p
  have h2 := Nat.lt_mul_div_succ M hp
  constructor
  · calc M / p * (p * r) = (M / p * p) * r := by rw [Nat.mul_assoc]
      _ ≤ M * r := Nat.mul_le_mul_right _ h1
  · calc M * r < (p * (M / p + 1)) * r := (Nat.mul_lt_mul_right hr).2 h2
      _ = (M / p + 1) * (p * r) := by rw [Nat.mul_comm p (M / p + 1), Nat.mul_assoc]

theorem f64Trunc_integerPart (b : F64) : IntegerPart b (f64Trunc b) := by
  have key : ∃ n : Nat, f64Trunc b = (if b.toNat < 2 ^ 63 then (n : Int) else -(n : Int)) ∧
      n * 2 ^ 1074 ≤ scaledAbs b ∧ scaledAbs b < (n + 1) * 2 ^ 1074 := by
    refine ⟨_, rfl, ?_⟩
    simp only [scaledAbs]
    generalize b.toNat / 2 ^ 52 % 2048 = e
    generalize b.toNat % 2 ^ 52 = m
    by_cases h0 : e = 0
    · subst h0
      simp only [if_true]
      have := natDiv_bounds m (2 ^ 1074) (2 ^ 1074) 1 (Nat.two_pow_pos _) Nat.one_pos (Nat.mul_one _)
      rwa [Nat.mul_one] at this
    · simp only [if_neg h0]
      by_cases h1 : 1075 ≤ e
      · simp only [if_pos h1]
        have hp : 2 ^ (e - 1) = 2 ^ (e - 1075) * 2 ^ 1074 := by rw [← Nat.pow_add]; congr 1; omega
        rw [hp, ← Nat.mul_assoc]
        exact ⟨Nat.le_refl _, (Nat.mul_lt_mul_right (Nat.two_pow_pos _)).2 (Nat.lt_succ_self _)⟩
      · simp only [if_neg h1]
        exact natDiv_bounds (m + 2 ^ 52) (2 ^ (1075 - e)) (2 ^ 1074) (2 ^ (e - 1)) (Nat.two_pow_pos _)
          (Nat.two_pow_pos _) (by rw [← Nat.pow_add]; congr 1; omega)
  obtain ⟨n, h1, h2, h3⟩ := key
  rw [h1]
  unfold IntegerPart
  split
  · next hb =>
    refine ⟨by simpa using h2, by simpa using h3, fun _ => hb, fun hn => ?_⟩
    omega
  · next hb =>
    refine ⟨by simpa using h2, by simpa using h3, fun hn => ?_, fun _ => by omega⟩
    omega

/-- **C46.** `GetAsNumber` returns the integer that is stored, the integer part of the float that is
stored (that is how the parser stores a number) if it is within the range of an int64, or zero if
nothing is; it panics exactly when something else is stored. -/
theorem c46_number (other : F64 → Int) (c : Custom) (key : Str) :
    (∀ i, c.get key = .int i → c.getAsNumber other key = .ok i) ∧
    (∀ f n, c.get key = .num f → finite f = true → IntegerPart f n → -(2 ^ 63) ≤ n → n < 2 ^ 63 →
      c.getAsNumber other key = .ok n) ∧
    (c.get key = .nil → c.getAsNumber other key = .ok 0) ∧
    (c.getAsNumber other key = .panic ↔
      c.get key ≠ .nil ∧ (∀ i, c.get key ≠ .int i) ∧ ∀ f, c.get key ≠ .num f) := by
  have huniq : ∀ f n, IntegerPart f n → n = f64Trunc f := by
    intro f n ⟨h1, h2, h3, h4⟩
    obtain ⟨g1, g2, g3, g4⟩ := f64Trunc_integerPart f
    have e : n.natAbs = (f64Trunc f).natAbs := by
      have a1 := Nat.lt_of_mul_lt_mul_right (Nat.lt_of_le_of_lt h1 g2)
      have a2 := Nat.lt_of_mul_lt_mul_right (Nat.lt_of_le_of_lt g1 h2)
      omega
    omega
  unfold Custom.getAsNumber
  cases hc : c.get key with
  | num f =>
    refine ⟨by simp, ?_, by simp, by simp⟩
    intro f' n e hf hn h1 h2
    simp only [Dyn.num.injEq] at e
    subst e
    have := huniq f n hn
    subst this
    simp only [toInt64, if_pos (show finite f = true ∧ -(2 ^ 63) ≤ f64Trunc f ∧ f64Trunc f < 2 ^ 63
      from ⟨hf, h1, h2⟩)]
  | _ => simp

/-- **C46.** `GetCreated` and `GetModified` return nil if there is nothing under their key, and the
time, to the millisecond, if the text of a timestamp is; they panic exactly when something that is
no text is stored, nil included. -/
theorem c46_time (c : Custom) (key : Str) :
    (key ∉ amKeys (c.getD []) → c.getTime key = .ok none) ∧
    (∀ t : GoTime, 0 ≤ t.ns → t.ns < endOfTime → c.get key = .str (timestampString t) →
      c.getTime key = .ok (some { ns := t.ns / 1000000 * 1000000, off := 0 })) ∧
    (c.getTime key = .panic ↔ key ∈ amKeys (c.getD []) ∧ ∀ s, c.get key ≠ .str s) := by
  refine ⟨fun h => ?_, fun t h0 h1 h => ?_, ?_⟩
  · simp [Custom.getTime, (amLookup_eq_none_iff _ _).2 h]
  · have hl : amLookup key (c.getD []) = some (.str (timestampString t)) := by
      unfold Custom.get at h
      split at h
      · simp at h
      · next hl => rw [hl, h]
    obtain ⟨hv, hm, ht⟩ := civilOf_facts t.ns h0 h1
    have hs : timestampString t = (civilOf t.ns).text := ht
    simp only [Custom.getTime, hl, hs, goParse_text _ hv, hm]
  · unfold Custom.getTime Custom.get
    cases hl : amLookup key (c.getD []) with
    | none => simpa using (amLookup_eq_none_iff _ _).1 hl
    | some d =>
      have : key ∈ amKeys (c.getD []) := by
        by_contra hc
        rw [(amLookup_eq_none_iff _ _).2 hc] at hl
        simp at hl
      cases d <;> simp [this]

/-- C46: a custom object with a text, an integer, a float and a list, two of them set twice. -/
example : (Custom.setAll (some []) [(b!"a", .str (b!"x")), (b!"n", .int 3), (b!"a", .str (b!"y")),
    (b!"f", .num 0x4045800000000000), (b!"l", .strs [b!"p"]),
    (b!"created", .str (b!"2020-02-29T22:29:59.123Z"))]).okWith (fun c =>
      (c.getAsString (b!"a")).okWith (· = b!"y") && (c.getAsString (b!"zz")).okWith (· = []) &&
      (c.getAsNumber (fun _ => 0) (b!"n")).okWith (· = 3) &&
      (c.getAsNumber (fun _ => 0) (b!"f")).okWith (· = 43) &&
      (c.getAsStringSlice (b!"l")).okWith (· = some [b!"p"]) &&
      (c.getTime (b!"created")).okWith Option.isSome &&
      (c.getAsString (b!"n")).isPanic) = true := by decide +kernel

/-- C46: a float and its integer part. -/
example : IntegerPart 0xC045800000000000 (-43) ∧ finite 0xC045800000000000 = true :=
  ⟨(by decide +kernel : f64Trunc 0xC045800000000000 = -43) ▸ f64Trunc_integerPart _, by decide +kernel⟩

/-! ## C45 -/

theorem amLookup_smOfList {α} (ms : List (Str × α)) (k : Str) :
    ∀ acc, amLookup k (ms.foldl (fun m e => smInsert e.1 e.2 m) acc) =
      ((ms.reverse.find? fun e => e.1 == k).map Prod.snd).or (amLookup k acc) := by
  induction ms with
  | nil => intro acc; simp
  | cons e ms ih =>
    intro acc
    simp only [List.foldl_cons, List.reverse_cons, List.find?_append]
    rw [ih, amLookup_smInsert]
    cases h : ms.reverse.find? fun e => e.1 == k with
    | some x => simp
    | none =>
      by_cases e' : e.1 = k
      · simp [e']
      · simp [e', Ne.symm e']

theorem member_find (k : Str) (ms : List (Str × Json)) :
    member k ms = (ms.reverse.find? fun e => e.1 == k).map Prod.snd := by
  induction ms with
  | nil => rfl
  | cons e ms ih =>
    obtain ⟨k', j⟩ := e
    simp only [member, ih, List.reverse_cons, List.find?_append]
    cases h : ms.reverse.find? fun e => e.1 == k with
    | some x => simp
    | none => by_cases e : k' = k <;> simp [e]

theorem amLookup_smOfList_member (ms : List (Str × Json)) (k : Str) :
    amLookup k (smOfList ms) = member k ms := by
  rw [smOfList, amLookup_smOfList, member_find]
  simp [amLookup]

theorem decExts_ok {d : Str → Json → D GV} {ms : List (Str × Json)} {vs : List (Str × GV)} {s : Bool}
    (h : decExts d ms = .ok vs s) : s = false ∧
    List.Forall₂ (fun e e' => e.1 = e'.1 ∧ d e.1 e.2 = .ok e'.2 false) ms vs := by
  induction ms generalizing vs s with
  | nil =>
    simp only [decExts, D.ok.injEq] at h
    obtain ⟨rfl, rfl⟩ := h
    exact ⟨rfl, .nil⟩
  | cons e ms ih =>
    obtain ⟨k, j⟩ := e
    simp only [decExts] at h
    split at h
    · simp at h
    · simp at h
    · next v vs' h1 h2 =>
      simp only [D.ok.injEq] at h
      obtain ⟨rfl, rfl⟩ := h
      exact ⟨rfl, .cons ⟨rfl, h1⟩ (ih h2).2⟩
    · simp at h

theorem decExts_of {d : Str → Json → D GV} {ms : List (Str × Json)}
    (h : ∀ e ∈ ms, ∃ v, d e.1 e.2 = .ok v false) : ∃ vs, decExts d ms = .ok vs false := by
  induction ms with
  | nil => exact ⟨[], rfl⟩
  | cons e ms ih =>
    obtain ⟨vs, h2⟩ := ih fun x hx => h x (by simp [hx])
    obtain ⟨v, h1⟩ := h e (by simp)
    exact ⟨(e.1, v) :: vs, by simp [decExts, h1, h2]⟩

theorem lookup_forall₂ {d : Str → Json → D GV} {ms : List (Str × Json)} {vs : List (Str × GV)}
    (h : List.Forall₂ (fun e e' => e.1 = e'.1 ∧ d e.1 e.2 = .ok e'.2 false) ms vs) (k : Str) :
    (amLookup k vs = none ↔ amLookup k ms = none) ∧
      ∀ v, amLookup k vs = some v → ∃ j, amLookup k ms = some j ∧ d k j = .ok v false := by
  induction h with
  | nil => simp [amLookup]
  | cons h1 h2 ih =>
    rename_i e e' ms vs
    obtain ⟨k1, j⟩ := e
    obtain ⟨k2, v⟩ := e'
    obtain ⟨rfl, h1⟩ := h1
    simp only [amLookup]
    by_cases hk : k1 = k
    · subst hk; simpa using h1
    · simpa [hk] using ih

theorem sorted_forall₂ {d : Str → Json → D GV} {ms : List (Str × Json)} {vs : List (Str × GV)}
    (h : List.Forall₂ (fun e e' => e.1 = e'.1 ∧ d e.1 e.2 = .ok e'.2 false) ms vs)
    (hs : SortedKeys ms) : SortedKeys vs := by
  induction h with
  | nil => exact List.Pairwise.nil
  | cons h1 h2 ih =>
    rename_i e e' ms vs
    have hs' := List.pairwise_cons.1 hs
    refine List.pairwise_cons.2 ⟨fun x hx => ?_, ih hs'.2⟩
    obtain ⟨y, hy, hyx, _⟩ := forall₂_mem_right h2 hx
    rw [← h1.1, ← hyx]
    exact hs'.1 y hy

/-- Where `decExt` finds the struct. -/
theorem decExt_known {l : List (Str × Str × Fields)} (hn : (l.map Prod.fst).Nodup) {k n : Str}
    {fs : Fields} (h : (k, n, fs) ∈ l) (j : Json) :
    decExt F (mkKnown l) k j = match j with
      | .obj ms => (decStruct fs.toList (decField F fs) (zeroFields fs) ms).bind fun f =>
          .ok (.iface k (.struct f)) false
      | .null => .ok (.iface k (.struct (zeroFields fs))) false
      | _ => .ok (.iface k (.struct (zeroFields fs))) true := by
  induction l with
  | nil => simp at h
  | cons e l ih =>
    obtain ⟨k', n', fs'⟩ := e
    simp only [List.map_cons, List.nodup_cons] at hn
    rcases List.mem_cons.1 h with hm | hm
    · simp only [Prod.mk.injEq] at hm
      obtain ⟨rfl, rfl, rfl⟩ := hm
      simp only [mkKnown, decExt, if_true]
      cases j <;> rfl
    · have : k ≠ k' := by
        rintro rfl
        exact hn.1 (List.mem_map_of_mem (f := Prod.fst) hm)
      simp only [mkKnown, decExt, if_neg this]
      exact ih hn.2 hm

theorem decExt_custom {l : List (Str × Str × Fields)} {k : Str} (h : ∀ n fs, (k, n, fs) ∉ l)
    (j : Json) : decExt F (mkKnown l) k j =
      (decCustom F (some []) j).bind fun m => .ok (customExt m) false := by
  induction l with
  | nil => simp only [mkKnown, decExt]
  | cons e l ih =>
    obtain ⟨k', n', fs'⟩ := e
    have : k ≠ k' := by rintro rfl; exact h n' fs' (by simp)
    simp only [mkKnown, decExt, if_neg this]
    exact ih fun n fs hm => h n fs (by simp [hm])

/-- The list behind `knownExts`, in its own order. -/
def knownList : List (Str × Str × Fields) :=
  [(ExtArchive, b!"ArchiveFileExtension", fieldsArchiveFileExtension),
   (ExtHTTPRequest, b!"HTTPRequestExtension", fieldsHTTPRequestExtension),
   (ExtICMP, b!"ICMPExtension", fieldsICMPExtension),
   (ExtNTFS, b!"NTFSFileExtension", fieldsNTFSFileExtension),
   (ExtPDF, b!"PDFExtension", fieldsPDFExtension),
   (ExtRasterImage, b!"RasterImageExtension", fieldsRasterImageExtension),
   (ExtSocket, b!"SocketExtension", fieldsSocketExtension),
   (ExtTCP, b!"TCPExtension", fieldsTCPExtension),
   (ExtUnixAccount, b!"UNIXAccountExtension", fieldsUNIXAccountExtension),
   (ExtWindowsPEBinary, b!"WindowsPEBinaryExtension", fieldsWindowsPEBinaryExtension),
   (ExtWindowsProcess, b!"WindowsProcessExtension", fieldsWindowsProcessExtension),
   (ExtWindowsService, b!"WindowsServiceExtension", fieldsWindowsServiceExtension)]

theorem knownList_eq : knownExts = mkKnown knownList := rfl

theorem knownList_mem (e : Str × Str × Fields) : e ∈ knownList ↔ e ∈ extStructs := by
  simp only [knownList, extStructs, List.mem_cons, List.not_mem_nil, or_false, ExtArchive,
    ExtHTTPRequest, ExtICMP, ExtNTFS, ExtPDF, ExtRasterImage, ExtSocket, ExtTCP, ExtUnixAccount,
    ExtWindowsPEBinary, ExtWindowsProcess, ExtWindowsService]
  tauto

theorem knownList_nodup : (knownList.map Prod.fst).Nodup := by decide

/-- One extension is accepted exactly with the right Go value. -/
theorem decExt_iff (k : Str) (j : Json) (v : GV) :
    decExt F knownExts k j = .ok v false ↔ ExtValue F k j v := by
  rw [knownList_eq]
  by_cases hk : ∃ n fs, (k, n, fs) ∈ extStructs
  · obtain ⟨n, fs, hmem⟩ := hk
    have hmem' := (knownList_mem _).2 hmem
    rw [decExt_known knownList_nodup hmem']
    have huniq : ∀ {n' fs'}, (k, n', fs') ∈ extStructs → (n', fs') = (n, fs) := by
      intro n' fs' h'
      have := inj_of_nodup knownList_nodup ((knownList_mem _).2 h') hmem' rfl
      simp only [Prod.mk.injEq, true_and] at this
      rw [this.1, this.2]
    constructor
    · intro h
      cases j with
      | obj ms =>
        simp only [D.bind_ok_iff, D.ok.injEq, and_true] at h
        obtain ⟨f, h1, rfl⟩ := h
        exact .known hmem (by simp only [dec, zero, D.bind_ok_iff]; exact ⟨f, h1, rfl⟩)
      | null =>
        simp only [D.ok.injEq, and_true] at h
        subst h
        exact .knownNull hmem
      | _ => simp at h
    · intro h
      cases h with
      | known h1 h2 =>
        have := huniq h1
        simp only [Prod.mk.injEq] at this
        obtain ⟨rfl, rfl⟩ := this
        simp only [dec, zero, D.bind_ok_iff, D.ok.injEq, GV.struct.injEq, and_true] at h2
        obtain ⟨f, h3, rfl⟩ := h2
        simp only [D.bind_ok_iff]
        exact ⟨f, h3, rfl⟩
      | knownNull h1 =>
        have := huniq h1
        simp only [Prod.mk.injEq] at this
        obtain ⟨rfl, rfl⟩ := this
        rfl
      | custom h1 => exact absurd hmem (h1 n fs)
      | customNull h1 => exact absurd hmem (h1 n fs)
  · have hk' : ∀ n fs, (k, n, fs) ∉ extStructs := fun n fs h => hk ⟨n, fs, h⟩
    rw [decExt_custom fun n fs h => hk' n fs ((knownList_mem _).1 h)]
    constructor
    · intro h
      cases j with
      | obj ms =>
        rw [decCustom_obj] at h
        simp only [D.bind_ok_iff, D.ok.injEq, and_true] at h
        obtain ⟨m, ⟨rfl, hsoft⟩, rfl⟩ := h
        refine .custom hk' (sorted_dynMerge List.Pairwise.nil ms) (fun e he => ⟨_, by
          rw [decDyn_eq, show dynSoft F e.2 = false by simpa using List.any_eq_false.1 hsoft e he]⟩)
          fun x => ?_
        rw [Option.getD_some, amLookup_dynMerge]
        cases hm : member x ms with
        | none => simp [amLookup]
        | some w =>
          have hsv : dynSoft F w = false := by
            have := List.any_eq_false.1 hsoft _ (member_mem hm)
            simpa using this
          simp only [reduceCtorEq, Option.some.injEq, true_and]
          rintro d rfl
          exact ⟨w, rfl, by rw [decDyn_eq, hsv]⟩
      | null =>
        simp only [decCustom, D.bind_ok_iff, D.ok.injEq, and_true] at h
        obtain ⟨m, rfl, rfl⟩ := h
        exact .customNull hk'
      | _ => simp [decCustom, D.bind] at h
    · intro h
      cases h with
      | known h1 h2 => exact absurd h1 (hk' _ _)
      | knownNull h1 => exact absurd h1 (hk' _ _)
      | customNull h1 => rfl
      | custom h1 h2 h3 h4 =>
        rename_i ms m
        have hsoft : (ms.any fun e => dynSoft F e.2) = false := by
          refine List.any_eq_false.2 fun e he => ?_
          obtain ⟨d, hd⟩ := h3 e he
          rw [decDyn_eq] at hd
          simp only [D.ok.injEq] at hd
          simp [hd.2]
        have hm : dynMerge F [] ms = m := by
          refine sorted_ext (sorted_dynMerge List.Pairwise.nil ms) h2 fun x => ?_
          rw [amLookup_dynMerge]
          obtain ⟨g1, g2⟩ := h4 x
          cases hx : member x ms with
          | none => simp [g1.2 hx, amLookup]
          | some w =>
            cases hy : amLookup x m with
            | none => rw [g1.1 hy] at hx; simp at hx
            | some d =>
              obtain ⟨w', e1, e2⟩ := g2 d hy
              rw [hx] at e1
              simp only [Option.some.injEq] at e1
              subst e1
              rw [decDyn_eq] at e2
              simp only [D.ok.injEq] at e2
              simp [e2.1]
        rw [decCustom_obj]
        simp [D.bind, hsoft, hm, customExt]

/-- The extensions member as a map. -/
theorem decExtensions_iff {cur v : GV} {ms : List (Str × Json)} :
    dec F (.ext knownExts) cur (.obj ms) = .ok v false ↔
      ∃ m, v = .map (some m) ∧ decExts (decExt F knownExts) (smOfList ms) = .ok m false := by
  simp only [dec, D.bind_ok_iff, D.ok.injEq, and_true]
  exact ⟨fun ⟨m, h1, h2⟩ => ⟨m, h2.symm, h1⟩, fun ⟨m, h1, h2⟩ => ⟨m, h2, h1.symm⟩⟩

theorem mem_amKeys_iff_lookup {α} (k : Str) (m : List (Str × α)) :
    k ∈ amKeys m ↔ amLookup k m ≠ none := by
  rw [Ne, amLookup_eq_none_iff, not_not]

/-- **C45.** If an extensions member is decoded without error, the result is a map with exactly the
keys of the member, and under each key is the right Go value for it: the struct that belongs to the
key, or a custom object. -/
theorem c45_decode {cur v : GV} {ms : List (Str × Json)}
    (h : dec F (.ext knownExts) cur (.obj ms) = .ok v false) :
    ∃ m, v = .map (some m) ∧ SortedKeys m ∧ (∀ k, k ∈ amKeys m ↔ k ∈ amKeys ms) ∧
      ∀ k v, amLookup k m = some v → ∃ j, member k ms = some j ∧ ExtValue F k j v := by
  obtain ⟨m, rfl, h'⟩ := decExtensions_iff.1 h
  obtain ⟨-, h2⟩ := decExts_ok h'
  refine ⟨m, rfl, sorted_forall₂ h2 (sortedKeys_smOfList ms), fun k => ?_, fun k v hv => ?_⟩
  · rw [mem_amKeys_iff_lookup, Ne, (lookup_forall₂ h2 k).1, amLookup_smOfList_member, member_none_iff,
      not_not]
  · obtain ⟨j, h3, h4⟩ := (lookup_forall₂ h2 k).2 v hv
    rw [amLookup_smOfList_member] at h3
    exact ⟨j, h3, (decExt_iff k j v).1 h4⟩

/-- **C45.** An extensions member is decoded without error exactly when each of its keys has a
value that is right for it. -/
theorem c45_accept (cur : GV) (ms : List (Str × Json)) :
    (∃ v, dec F (.ext knownExts) cur (.obj ms) = .ok v false) ↔
      ∀ k j, member k ms = some j → ∃ v, ExtValue F k j v := by
  constructor
  · rintro ⟨v, h⟩ k j hj
    obtain ⟨m, -, -, h2, h3⟩ := c45_decode h
    have hk : k ∈ amKeys m := (h2 k).2 (by
      by_contra hc
      rw [(member_none_iff k ms).2 hc] at hj
      simp at hj)
    cases hv : amLookup k m with
    | none => exact absurd hv ((mem_amKeys_iff_lookup k m).1 hk)
    | some v =>
      obtain ⟨j', h4, h5⟩ := h3 k v hv
      rw [hj] at h4
      simp only [Option.some.injEq] at h4
      subst h4
      exact ⟨v, h5⟩
  · intro h
    obtain ⟨vs, hvs⟩ := decExts_of (d := decExt F knownExts) (ms := smOfList ms) fun e he => by
      have hl : amLookup e.1 (smOfList ms) = some e.2 := 
        amLookup_eq_some_of_mem _ _ _ ((sortedKeys_smOfList ms).nodup) he
      rw [amLookup_smOfList_member] at hl
      obtain ⟨v, hv⟩ := h _ _ hl
      exact ⟨v, (decExt_iff _ _ _).2 hv⟩
    exact ⟨_, decExtensions_iff.2 ⟨vs, rfl, hvs⟩⟩

/-- **C45.** An extension that is neither an object nor null makes the member an error, and so
does a member that is neither; null is taken for an empty member. -/
theorem c45_error (cur : GV) :
    (∀ ms k j v, member k ms = some j → (∀ l, j ≠ .obj l) → j ≠ .null →
      dec F (.ext knownExts) cur (.obj ms) ≠ .ok v false) ∧
    (∀ j v, (∀ l, j ≠ .obj l) → j ≠ .null → dec F (.ext knownExts) cur j ≠ .ok v false) ∧
    dec F (.ext knownExts) cur .null = .ok (.map (some [])) false := by
  refine ⟨fun ms k j v hj h1 h2 h => ?_, fun j v h1 h2 => ?_, by simp only [dec]⟩
  · obtain ⟨w, hw⟩ := (c45_accept cur ms).1 ⟨v, h⟩ k j hj
    cases hw with
    | known => exact h1 _ rfl
    | knownNull => exact h2 rfl
    | custom => exact h1 _ rfl
    | customNull => exact h2 rfl
  · cases j with
    | obj l => exact absurd rfl (h1 l)
    | null => exact absurd rfl h2
    | _ => simp [dec]

/-- C45: a predefined extension, one of another name and a null one. -/
def exExtensions : List (Str × Json) :=
  [(b!"tcp-ext", .obj [(b!"src_flags_hex", .ofStr (b!"00000002"))]),
   (b!"x-other-ext", .obj [(b!"n", .null), (b!"t", .bool true)]), (b!"icmp-ext", .null)]

example : ∃ v, dec toy (.ext knownExts) (.map none) (.obj exExtensions) = .ok v false := by
  have : (match dec toy (.ext knownExts) (.map none) (.obj exExtensions) with
    | .ok _ s => s == false
    | _ => false) = true := by decide +kernel
  revert this
  cases dec toy (.ext knownExts) (.map none) (.obj exExtensions) with
  | ok v s => intro h; exact ⟨v, by simpa using h⟩
  | _ => simp

/-! ## C51 -/

theorem decStruct_pred {fs : List FieldInfo} {d : Str → GV → Json → D GV} {n : Str}
    {P : GV → Prop} (hd : ∀ cur j v s, d n cur j = .ok v s → P v) (ms : List (Str × Json)) :
    ∀ (cur g : Str → GV) (s : Bool), P (cur n) → decStruct fs d cur ms = .ok g s → P (g n) := by
  induction ms with
  | nil =>
    intro cur g s hp h
    simp only [decStruct, D.ok.injEq] at h
    rw [← h.1]; exact hp
  | cons e ms ih =>
    obtain ⟨k, j⟩ := e
    intro cur g s hp h
    simp only [decStruct] at h
    cases hm : matchKey fs k with
    | none => rw [hm] at h; exact ih cur g s hp h
    | some f =>
      rw [hm] at h
      simp only at h
      cases hv : d f.name (cur f.name) j with
      | ok v s1 =>
        rw [hv] at h
        simp only [D.bind] at h
        cases hr : decStruct fs d (fun x => if x = f.name then v else cur x) ms with
        | ok g' s2 =>
          rw [hr] at h
          simp only [D.ok.injEq] at h
          rw [← h.1]
          refine ih _ _ _ ?_ hr
          by_cases e : n = f.name
          · simp only [e, if_true]; exact hd _ _ _ _ (e ▸ hv)
          · simpa [e] using hp
        | hard => rw [hr] at h; simp at h
        | panic => rw [hr] at h; simp at h
      | hard => rw [hv] at h; simp [D.bind] at h
      | panic => rw [hv] at h; simp [D.bind] at h

/-- An extensions map as the decoder makes it. -/
def GoodExtensions (v : GV) : Prop :=
  v = .map none ∨ ∃ m, v = .map (some m) ∧
    ∀ k w, amLookup k m = some w → ∀ n fs, (k, n, fs) ∈ extStructs → ∃ f, w = .iface k (.struct f)

theorem goodExtensions_dec {cur v : GV} {j : Json} {s : Bool}
    (h : dec F (.ext knownExts) cur j = .ok v s) : GoodExtensions v := by
  cases j with
  | obj ms =>
    have hs : s = false := by
      simp only [dec, D.bind] at h
      cases hd : decExts (decExt F knownExts) (smOfList ms) with
      | ok m s' =>
        rw [hd] at h
        have := (decExts_ok hd).1
        subst this
        simp only [Bool.or_self, D.ok.injEq] at h
        exact h.2.symm
      | hard => rw [hd] at h; simp at h
      | panic => rw [hd] at h; simp at h
    subst hs
    obtain ⟨m, rfl, -, -, h3⟩ := c45_decode h
    refine .inr ⟨m, rfl, fun k w hw n fs hk => ?_⟩
    obtain ⟨j, -, hx⟩ := h3 k w hw
    cases hx with
    | known => exact ⟨_, rfl⟩
    | knownNull => exact ⟨_, rfl⟩
    | custom h1 => exact absurd hk (h1 n fs)
    | customNull h1 => exact absurd hk (h1 n fs)
  | null =>
    simp only [dec, D.ok.injEq] at h
    rw [← h.1]
    exact .inr ⟨[], rfl, fun k w hw => by simp [amLookup] at hw⟩
  | _ => simp [dec] at h

theorem structName_known {l : List (Str × Str × Fields)} (hn : (l.map Prod.fst).Nodup) {k n : Str}
    {fs : Fields} (h : (k, n, fs) ∈ l) : (mkKnown l).structName k = some n := by
  induction l with
  | nil => simp at h
  | cons e l ih =>
    obtain ⟨k', n', fs'⟩ := e
    simp only [List.map_cons, List.nodup_cons] at hn
    rcases List.mem_cons.1 h with hm | hm
    · simp only [Prod.mk.injEq] at hm
      obtain ⟨rfl, rfl, rfl⟩ := hm
      simp [mkKnown, Known.structName]
    · have : k ≠ k' := by
        rintro rfl
        exact hn.1 (List.mem_map_of_mem (f := Prod.fst) hm)
      simp only [mkKnown, Known.structName, if_neg this]
      exact ih hn.2 hm

/-- The field of the extensions, in the types that have accessors for them. -/
theorem getter_rows {m : Str} {s : SId} {key name : Str} (h : (m, s, key, name) ∈ extGetters) :
    (∃ fs, (key, name, fs) ∈ extStructs) ∧
    ∃ r ∈ objFields s, r.name = b!"Extensions" ∧ r.key = b!"extensions" ∧ r.ty = .ext knownExts := by
  have h1 : ∀ e ∈ extGetters,
      (extStructs.any fun x => x.1 == e.2.2.1 && x.2.1 == e.2.2.2) = true := by decide +kernel
  have h2 : ∀ e ∈ extGetters, ∃ r ∈ objFields e.2.1,
      r.name = b!"Extensions" ∧ r.key = b!"extensions" ∧ r.ty = .ext knownExts := by
    intro e he
    have : ∀ s, s = .File ∨ s = .NetworkTraffic ∨ s = .Process ∨ s = .UserAccount →
        ∃ r ∈ objFields s, r.name = b!"Extensions" ∧ r.key = b!"extensions" ∧
          r.ty = .ext knownExts := by
      have hr : (⟨b!"Extensions", b!"extensions", true, .ext knownExts⟩ : FieldInfo) ∈
          fieldsSTIXCyberObservableObject.toList := by
        rw [fieldsSTIXCyberObservableObject, mkFields_toList]
        simp
      rintro s (rfl | rfl | rfl | rfl) <;>
        exact ⟨_, List.mem_append_left _ hr, rfl, rfl, rfl⟩
    apply this
    revert e
    decide +kernel
  refine ⟨?_, h2 _ h⟩
  have := h1 _ h
  simp only [List.any_eq_true, Bool.and_eq_true, beq_iff_eq] at this
  obtain ⟨⟨k, n, fs⟩, hx, e1, e2⟩ := this
  exact ⟨fs, by simp only at e1 e2; rw [← e1, ← e2]; exact hx⟩

theorem zeroVal_row {fs : List FieldInfo} (hn : (fs.map FieldInfo.name).Nodup) {r : FieldInfo}
    (hr : r ∈ fs) : zeroVal fs r.name = zero r.ty := by
  induction fs with
  | nil => simp at hr
  | cons f fs ih =>
    simp only [List.map_cons, List.nodup_cons] at hn
    simp only [zeroVal]
    rcases List.mem_cons.1 hr with rfl | hm
    · simp
    · rw [if_neg, ih hn.2 hm]
      intro e
      exact hn.1 (e ▸ List.mem_map_of_mem (f := FieldInfo.name) hm)

/-- **C51** (which extension).  The accessors are those of the table, for the types and with the
names of the standard. -/
theorem c51_names (m t k : Str) : (m, t, k) ∈ extensionAccessors ↔
    ∃ s name, (t, s) ∈ goTypes ∧ (m, s, k, name) ∈ extGetters := by
  have h1 : ∀ e ∈ extensionAccessors, ∃ g ∈ extGetters, g.1 = e.1 ∧ (e.2.1, g.2.1) ∈ goTypes ∧
      g.2.2.1 = e.2.2 := by decide +kernel
  have h2 : ∀ g ∈ extGetters, ∀ y ∈ goTypes, y.2 = g.2.1 →
      (g.1, y.1, g.2.2.1) ∈ extensionAccessors := by decide +kernel
  constructor
  · intro h
    obtain ⟨⟨m', s, k', name⟩, hg, rfl, ht, rfl⟩ := h1 _ h
    exact ⟨s, name, ht, hg⟩
  · rintro ⟨s, name, ht, hg⟩
    exact h2 _ hg _ ht rfl

/-- **C51.** On an object the parser has made of a document, none of the twelve typed extension
accessors panics; it returns nil exactly when the extensions map has nothing under its key, and
otherwise the struct stored there. -/
theorem c51_accessors (opts : List (CollOption U)) (hn : NoParsers opts) (doc : Option Json)
    (c : Coll (Any U)) (h : fromJSON F opts doc = .ok c) (id : Str) (o : Obj)
    (ho : c.get id = some (.lib o)) (method key name : Str)
    (hg : (method, o.sid, key, name) ∈ extGetters) :
    (o.val (b!"Extensions") = .map none ∧ extGetter o key name = .ok none) ∨
    ∃ m, o.val (b!"Extensions") = .map (some m) ∧
      ((amLookup key m = none ∧ extGetter o key name = .ok none) ∨
        ∃ f, amLookup key m = some (.iface key (.struct f)) ∧ extGetter o key name = .ok (some f)) := by
  obtain ⟨l, hl⟩ := fromJSON_ok h
  obtain ⟨-, -, j, -, p1, p2, hp⟩ := processObjects_mem hl ho
  obtain ⟨ms, typ, rfl, -, hk⟩ := parseOne_builtin hp
  rcases hk (handlers_none hn typ) with ⟨s, o', h1, h2, h3, -⟩ | ⟨-, -, hc⟩
  · simp only [core, Any.lib.injEq] at h3
    have hval : o.val = o'.val := by rw [← h3]
    have hsid : o.sid = s := by
      have := (decObj_ok h2).1
      rw [← h3] at this
      exact this
    obtain ⟨⟨fs, hmem⟩, r, hr, hrn, -, hrt⟩ := getter_rows hg
    rw [hsid] at hr
    have good : GoodExtensions (o.val (b!"Extensions")) := by
      rw [hval]
      simp only [decObj, D.bind_ok_iff, D.ok.injEq, and_true] at h2
      obtain ⟨g, h2, rfl⟩ := h2
      refine decStruct_pred (P := GoodExtensions) ?_ ms _ _ _ ?_ h2
      · intro cur j v s' hv
        rw [← hrn, decField_row (by rw [mkFields_toList]; exact objFields_names_nodup _)
          (by rw [mkFields_toList]; exact hr), hrt] at hv
        exact goodExtensions_dec hv
      · have hz : (zeroObj s).val (b!"Extensions") = zero r.ty := by
          rw [← hrn]
          exact zeroVal_row (objFields_names_nodup _) hr
        rw [hz, hrt]
        exact .inl rfl
    rcases good with hv | ⟨m, hv, hm⟩
    · exact .inl ⟨hv, by simp only [extGetter, hv]⟩
    · refine .inr ⟨m, hv, ?_⟩
      cases hx : amLookup key m with
      | none => exact .inl ⟨rfl, by simp only [extGetter, hv, hx]⟩
      | some w =>
        obtain ⟨f, rfl⟩ := hm key w hx name fs hmem
        have hs : knownExts.structName key = some name := by
          rw [knownList_eq]
          exact structName_known knownList_nodup ((knownList_mem _).2 hmem)
        exact .inr ⟨f, rfl, by simp only [extGetter, hv, hx, hs, if_true]⟩
  · simp at hc

theorem decObj_named {k : SId} {o : Obj} {ms : List (Str × Json)}
    (h : decObj F (zeroObj k) (.obj ms) = .ok o false) (hd : (amKeys ms).Nodup)
    (hv : NoVariant (.obj ms) (b!"id")) (hne : StixObject.getID o ≠ []) :
    Text (.obj ms) (b!"id") (StixObject.getID o) := by
  obtain ⟨⟨ri, hri, hrin, hrik, hrit⟩, -⟩ := id_type_rows k
  have hz : (zeroObj k).val ri.name = zero ri.ty := zeroVal_row (objFields_names_nodup _) hri
  have h' := h
  simp only [decObj, D.bind_ok_iff, D.ok.injEq, and_true] at h'
  obtain ⟨g, h', rfl⟩ := h'
  obtain ⟨i1, i2⟩ := decStruct_inv (objFields_names_nodup _) (objFields_keys_nodup _) hri ms _ _
    hd (by rw [hrik]; exact hv ms rfl) h'
  have hzs : zero ri.ty = .str [] := by
    revert hrit
    cases ri.ty <;> simp [Ty.isStr, zero]
  rw [hz, hzs] at i1 i2
  rw [hrik] at i1 i2
  have hg : ∀ t, g ri.name = .str t →
      StixObject.getID ({ zeroObj k with val := g } : Obj) = t := by
    intro t e
    rw [hrin] at e
    simp only [StixObject.getID, Obj.getStr, e]
  cases hm : member (b!"id") ms with
  | none => exact absurd (hg _ (i2 ((member_none_iff _ _).1 hm))) hne
  | some w =>
    have hw := i1 w (member_mem hm)
    rw [decField_row (by rw [mkFields_toList]; exact objFields_names_nodup _)
      (by rw [mkFields_toList]; exact hri)] at hw
    revert hw
    cases w with
    | str raw t =>
      intro hw
      have : g ri.name = .str t := by
        cases hty : ri.ty <;> rw [hty] at hrit <;> simp [Ty.isStr] at hrit <;>
          simp [hty, dec] at hw <;> exact hw.symm
      rw [hg t this]
      exact ⟨_, ⟨ms, rfl, hm⟩, raw, rfl⟩
    | null =>
      intro hw
      have : g ri.name = .str [] := by
        cases hty : ri.ty <;> rw [hty] at hrit <;> simp [Ty.isStr] at hrit <;>
          simp [hty, dec] at hw <;> exact hw.symm
      exact absurd (hg _ this) hne
    | _ =>
      intro hw
      cases hty : ri.ty <;> rw [hty] at hrit <;> simp [Ty.isStr] at hrit <;> simp [hty, dec] at hw

/-- **C51.** What a typed extension accessor returns is what the object has, in the document, under its key: nil if
there is no extensions member or no such key in it, an empty struct if the value is null, and
otherwise the value decoded into the struct. -/
theorem c51_document (opts : List (CollOption U)) (hn : NoParsers opts) (doc : Json) (l : List Json)
    (hl : Lists doc l) (hd : ∀ ms, .obj ms ∈ l → (amKeys ms).Nodup)
    (hv : ∀ j ∈ l, NoVariant j (b!"extensions") ∧ NoVariant j (b!"id"))
    (c : Coll (Any U)) (h : fromJSON F opts (some doc) = .ok c) (id : Str) (o : Obj)
    (ho : c.get id = some (.lib o)) (method key name : Str)
    (hg : (method, o.sid, key, name) ∈ extGetters) :
    ∃ ms, .obj ms ∈ l ∧ Text (.obj ms) (b!"id") id ∧
    ∃ fs, (key, name, fs) ∈ extStructs ∧
    ((member (b!"extensions") ms = none ∨ member (b!"extensions") ms = some .null) ∧
        extGetter o key name = .ok none ∨
      ∃ es, member (b!"extensions") ms = some (.obj es) ∧
        (member key es = none ∧ extGetter o key name = .ok none ∨
          member key es = some .null ∧ extGetter o key name = .ok (some (zeroFields fs)) ∨
          ∃ xs f, member key es = some (.obj xs) ∧
            dec F (.struct name fs) (zero (.struct name fs)) (.obj xs) = .ok (.struct f) false ∧
            extGetter o key name = .ok (some f))) := by
  have hacc := c51_accessors opts hn _ c h id o ho method key name hg
  rw [fromJSON_lists opts hl] at h
  obtain ⟨hac, hid, j, hj, p1, p2, hp⟩ := processObjects_mem h ho
  obtain ⟨ms, typ, rfl, -, hk⟩ := parseOne_builtin hp
  replace hd := hd ms hj
  obtain ⟨hv, hvi⟩ := hv _ hj
  refine ⟨ms, hj, ?_⟩
  rcases hk (handlers_none hn typ) with ⟨s, o', h1, h2, h3, -⟩ | ⟨-, -, hc⟩
  · simp only [core, Any.lib.injEq] at h3
    have hval : o.val = o'.val := by rw [← h3]
    have hsid : o.sid = s := by
      have := (decObj_ok h2).1
      rw [← h3] at this
      exact this
    obtain ⟨⟨fs, hmem⟩, r, hr, hrn, hrk, hrt⟩ := getter_rows hg
    rw [hsid] at hr
    refine ⟨?_, fs, hmem, ?_⟩
    · have hgi : StixObject.getID o' = id := by
        rw [← hid]
        show Obj.getStr o' _ = Obj.getStr o _
        simp only [Obj.getStr, hval]
      rw [← hgi]
      refine decObj_named h2 hd hvi fun e => ?_
      rw [hgi] at e
      simp only [Acceptable, hid, e] at hac
      exact identifies_ne_nil hac rfl
    simp only [decObj, D.bind_ok_iff, D.ok.injEq, and_true] at h2
    obtain ⟨g, h2, rfl⟩ := h2
    obtain ⟨i1, i2⟩ := decStruct_inv (objFields_names_nodup _) (objFields_keys_nodup _) hr ms _ _
      hd (by rw [hrk]; exact hv ms rfl) h2
    simp only at hval
    rw [hrn, ← hval] at i1 i2
    rw [hrk] at i1 i2
    cases hm : member (b!"extensions") ms with
    | none =>
      have hz : (zeroObj s).val (b!"Extensions") = zero r.ty := by
        rw [← hrn]
        exact zeroVal_row (objFields_names_nodup _) hr
      have := i2 ((member_none_iff _ _).1 hm)
      rw [hz, hrt] at this
      exact .inl ⟨.inl rfl, by simp only [extGetter, this, zero]⟩
    | some w =>
      have hw := i1 w (member_mem hm)
      rw [← hrn, decField_row (by rw [mkFields_toList]; exact objFields_names_nodup _)
        (by rw [mkFields_toList]; exact hr), hrt, hrn] at hw
      cases w with
      | obj es =>
        refine .inr ⟨es, rfl, ?_⟩
        obtain ⟨m, h4, h5, h6, h7⟩ := c45_decode hw
        rcases hacc with ⟨h8, h9⟩ | ⟨m', h8, h9⟩
        · rw [h8] at h4; simp at h4
        · rw [h8] at h4
          simp only [GV.map.injEq, Option.some.injEq] at h4
          subst h4
          rcases h9 with ⟨h9, h10⟩ | ⟨f, h9, h10⟩
          · refine .inl ⟨?_, h10⟩
            rw [member_none_iff, ← h6 key]
            exact (amLookup_eq_none_iff _ _).1 h9
          · refine .inr ?_
            obtain ⟨j, hj, hx⟩ := h7 _ _ h9
            have huniq : ∀ {n' fs'}, (key, n', fs') ∈ extStructs → n' = name ∧ fs' = fs := by
              intro n' fs' h'
              have := inj_of_nodup knownList_nodup ((knownList_mem _).2 h')
                ((knownList_mem _).2 hmem) rfl
              simpa using this
            generalize hw' : GV.iface key (GV.struct f) = w at hx
            cases hx with
            | known h11 h12 =>
              obtain ⟨rfl, rfl⟩ := huniq h11
              simp only [GV.iface.injEq, GV.struct.injEq, true_and] at hw'
              subst hw'
              exact .inr ⟨_, _, hj, h12, h10⟩
            | knownNull h11 =>
              obtain ⟨rfl, rfl⟩ := huniq h11
              simp only [GV.iface.injEq, GV.struct.injEq, true_and] at hw'
              subst hw'
              exact .inl ⟨hj, h10⟩
            | custom h11 => exact absurd hmem (h11 _ _)
            | customNull h11 => exact absurd hmem (h11 _ _)
      | null =>
        simp only [dec, D.ok.injEq, and_true] at hw
        exact .inl ⟨.inr rfl, by simp only [extGetter, ← hw, amLookup]⟩
      | _ => simp [dec] at hw
  · simp at hc

/-- C51: network traffic with two extensions; there are accessors for both. -/
def exTraffic : List (Str × Json) :=
  [(b!"type", exText (b!"network-traffic")), (b!"id", exText (exId (b!"network-traffic"))),
   (b!"extensions", .obj exExtensions)]

example : (amKeys exTraffic).Nodup ∧ NoVariant (.obj exTraffic) (b!"extensions") ∧
    NoVariant (.obj exTraffic) (b!"id") ∧
    (b!"TCPExtension", SId.NetworkTraffic, ExtTCP, b!"TCPExtension") ∈ extGetters ∧
    (fromJSON toy ([] : List (CollOption Empty)) (some (.arr [.obj exTraffic]))).okWith (fun c =>
      match c.get (exId (b!"network-traffic")) with
      | some (.lib o) => (o.sid == .NetworkTraffic) &&
        (extGetter o (b!"tcp-ext") (b!"TCPExtension")).okWith (fun f => match f with
          | some f => (match f (b!"SrcFlags") with
            | .str s => s == b!"00000002"
            | _ => false)
          | none => false)
      | _ => false) = true := by
  refine ⟨by decide +kernel, noVariant_of (by decide +kernel), noVariant_of (by decide +kernel),
    by decide +kernel, by decide +kernel⟩

end Stix
