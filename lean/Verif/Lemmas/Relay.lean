import Verif.Spec.Relay
import Verif.Props.Export
import Verif.Props.Enum
import Verif.Props.Stamp

/-!
# Objects of a STIX document can be sent on
-/

namespace Stix
open Stix.Spec StixObject

variable {F : Canon.FloatFmt} {U : Type} [UserType U]

theorem unicode_cons {c : UInt8} {s : Str} (h : c < 128) (hs : Canon.Unicode s) : Canon.Unicode (c :: s) := by
  obtain ⟨cs, rfl⟩ := hs
  obtain ⟨ds, e⟩ := unicode_ascii [c] (by simpa using h)
  exact ⟨ds ++ cs, by rw [← List.singleton_append, e]; simp [Canon.utf8]⟩

theorem unicode_char {c : Char} {s : Str} (hs : Canon.Unicode s) : Canon.Unicode (String.utf8EncodeChar c ++ s) := by
  obtain ⟨cs, rfl⟩ := hs
  exact ⟨c :: cs, by simp [Canon.utf8]⟩

/-- What a JSON string denotes is Unicode. -/
theorem reads_unicode {body s : Str} (h : Text.Reads body s) : Canon.Unicode s := by
  induction h with
  | nil => exact ⟨[], rfl⟩
  | ascii _ h2 _ _ _ ih => exact unicode_cons h2 ih
  | char _ _ ih => exact unicode_char ih
  | byte _ _ _ ih => exact unicode_char ih
  | short hm _ ih =>
    refine unicode_cons ?_ ih
    have : ∀ e ∈ Canon.shortEscapes, e.2 < 128 := by decide
    exact this _ hm
  | hex _ _ _ ih => exact unicode_char ih
  | pair _ _ _ _ ih => exact unicode_char ih
  | half _ _ _ _ _ ih => exact unicode_char ih

theorem written_str {raw s : Str} (h : Written (.str raw s)) : Text.Reads raw s := by
  obtain ⟨x, h1, h2⟩ := h
  cases x with
  | str b d => rw [Text.tree] at h2; cases h2; exact h1
  | lit t' => rw [Text.tree] at h2; split at h2 <;> [cases h2; (split at h2 <;> cases h2)]
  | _ => rw [Text.tree] at h2; cases h2

theorem written_names {ms : Spec.Canon.Members} (h : Spec.Text.ValidMembers ms) :
    ∀ x ∈ Spec.Text.treeMembers ms, Canon.Unicode x.1 := by
  match ms with
  | .nil => simp [Spec.Text.treeMembers]
  | .cons _ _ _ _ _ v _ r =>
    obtain ⟨-, h0, -, -, h1, -, h2⟩ := h
    intro x hx
    rcases List.mem_cons.1 hx with rfl | hx
    · exact reads_unicode h0
    · exact written_names h2 x hx

theorem written_name {ms : List (Str × Json)} (h : Written (.obj ms)) : ∀ e ∈ ms, Canon.Unicode e.1 := by
  obtain ⟨x, h1, h2⟩ := h
  cases x with
  | obj w es => rw [Text.tree] at h2; cases h2; exact written_names h1.2
  | lit t' => rw [Text.tree] at h2; split at h2 <;> [cases h2; (split at h2 <;> cases h2)]
  | _ => rw [Text.tree] at h2; cases h2

theorem parseInt64_range {l : Str} {i : Int} (h : parseInt64 l = some i) : -2 ^ 63 ≤ i ∧ i < 2 ^ 63 := by
  have key : ∀ (neg : Bool) (ds : Str), (if ds = [] ∨ ¬ ds.all (fun c => 48 ≤ c && c ≤ 57) then none else
      if -9223372036854775808 ≤ (if neg then -(litVal ds : Int) else litVal ds) ∧
        (if neg then -(litVal ds : Int) else litVal ds) ≤ 9223372036854775807 then
        some (if neg then -(litVal ds : Int) else litVal ds) else none) = some i → -2 ^ 63 ≤ i ∧ i < 2 ^ 63 := by
    intro neg ds h
    by_cases h0 : ds = [] ∨ ¬ ds.all (fun c => 48 ≤ c && c ≤ 57)
    · rw [if_pos h0] at h; cases h
    · rw [if_neg h0] at h
      generalize (if neg then -(litVal ds : Int) else litVal ds) = v at h
      by_cases hr : -9223372036854775808 ≤ v ∧ v ≤ 9223372036854775807
      · rw [if_pos hr, Option.some.injEq] at h
        subst h
        omega
      · rw [if_neg hr] at h; cases h
  unfold parseInt64 at h
  exact key _ _ h

theorem enumFind_mem (visit : List (UInt8 × Str)) (t : Str) : enumFind visit t = 0 ∨ (enumFind visit t, t) ∈ visit := by
  induction visit with
  | nil => exact .inl rfl
  | cons e rest ih =>
    obtain ⟨k, v⟩ := e
    rw [enumFind]
    split
    · next e => subst e; exact .inr (by simp)
    · rcases ih with h | h
      · exact .inl h
      · exact .inr (by simp [h])

theorem enumFind_declared (e : EnumId) (t : Str) :
    enumFind (enumTable e) t = 0 ∨ ∃ s, (enumFind (enumTable e) t, s) ∈ vocabulary e := by
  rcases enumFind_mem (enumTable e) t with h | h
  · exact .inl h
  · generalize enumFind (enumTable e) t = n at *
    rw [enumTable_eq] at h
    rcases List.mem_append.1 h with h | h
    · left
      split at h
      · simp at h
      · simp only [List.mem_singleton, Prod.mk.injEq] at h
        exact h.1
    · exact .inr ⟨t, h⟩

theorem enumUnmarshal_declared {e : EnumId} {j : Json} {n : UInt8} (h : enumUnmarshal (enumTable e) e j = .ok n) :
    n = 0 ∨ ∃ s, (n, s) ∈ vocabulary e := by
  unfold enumUnmarshal at h
  have key : ∀ {x : Res Str}, (x.bind fun t => .ok (enumFind (enumTable e) t)) = .ok n →
      n = 0 ∨ ∃ s, (n, s) ∈ vocabulary e := by
    intro x h
    obtain ⟨t, -, h2⟩ := Res.bind_ok_iff.1 h
    cases h2
    exact enumFind_declared e t
  split at h
  · exact key h
  · split at h
    · cases h; exact .inl rfl
    · exact key h
  · exact key h

/-- Read from a JSON text, with times in the years 0 to 9999. -/
def Relayed (j : Json) : Prop := Written j ∧ InYears j

theorem readOk_carriable (hF : ReadsFinite F) : ReadOk F true carriable Relayed where
  zero := carriable_zeroOk
  zeroTime := by
    constructor <;> simp [endOfYears, yearStart]
  str h := reads_unicode (written_str h.1)
  elem h x hx := ⟨h.1.arr x hx, fun raw dec hi => h.2 raw dec (.elem hx hi)⟩
  member h e he := ⟨written_name h.1 e he, h.1.obj e he, fun raw dec hi => h.2 raw dec (.member he hi)⟩
  int h := parseInt64_range h
  flt h hx := hF _ _ (written_num h.1) hx
  enum _ h := enumUnmarshal_declared h
  bytes h := by cases h
  time {j t} h ht := by
    obtain ⟨d, text, hj⟩ := h.1.isText
    obtain ⟨raw, dec, rfl⟩ := c55_only_strings d text j hj t ht
    obtain ⟨x, h1, h2, h3, rfl⟩ := ((c55_exact raw dec).1 t).1 ht
    exact h.2 raw dec .self x h1 h2 h3

end Stix
