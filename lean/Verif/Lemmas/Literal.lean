import Verif.Lemmas.Marshal
import Verif.Lemmas.Ctor
import Verif.Props.Custom

/-!
# Zero values and composite literals (lemmas)
-/

namespace Stix
open Spec


/-- The leaves of zero values are allowed. -/
structure ZeroOk (P : Leaves) : Prop where
  str : P.str []
  int : P.int 0
  flt : P.flt 0
  enum : ∀ e, P.enum e 0

theorem typed_zeroOk : ZeroOk typed := ⟨trivial, trivial, by simp only [typed]; decide, fun _ => trivial⟩

theorem carriable_zeroOk : ZeroOk carriable :=
  ⟨⟨[], rfl⟩, by simp [carriable], by simp only [carriable]; decide, fun _ => .inl rfl⟩

theorem sane_row : ∀ {fs : Fields}, fs.sane = true → ∀ {r}, r ∈ fs.toList → r.ty.sane = true
  | .nil, _, r, hr => by simp [Fields.toList] at hr
  | .cons n k o t rest, h, r, hr => by
    simp only [Fields.sane, Bool.and_eq_true] at h
    simp only [Fields.toList, List.mem_cons] at hr
    rcases hr with rfl | hr
    · exact h.1
    · exact sane_row h.2 hr

theorem val_zero_simple {P : Leaves} (hP : ZeroOk P) {t : Ty} (ht : t.simple = true) : Val P t (zero t) := by
  cases t <;> simp only [Ty.simple, Bool.false_eq_true] at ht <;> simp only [zero, Val]
  case str => exact ⟨_, rfl, hP.str⟩
  case bool => exact ⟨_, rfl⟩
  case int => exact ⟨_, rfl, hP.int⟩
  case flt => exact ⟨_, rfl, hP.flt⟩
  case enum => exact ⟨_, rfl, hP.enum _⟩
  case bin => exact ⟨_, rfl⟩
  case dyn => exact ⟨_, rfl, trivial⟩
  all_goals simp

theorem val_zero {P : Leaves} (hP : ZeroOk P) {t : Ty} (ht : t.plain = true) (hs : t.sane = true) :
    Val P t (zero t) := by
  cases t
  case struct n fs =>
    simp only [Ty.plain, List.all_eq_true] at ht
    simp only [Ty.sane, Bool.and_eq_true, decide_eq_true_eq] at hs
    refine ⟨_, rfl, (valFields_iff _ _ _).2 fun r hr => ?_⟩
    rw [zeroFields_row hs.1.1 hr]
    exact val_zero_simple hP (ht r hr)
  all_goals exact val_zero_simple hP ht

/-- The type of the field with the given Go name. -/
def fieldTy (s : SId) (n : Str) : Option Ty := ((objFields s).find? fun r => r.name = n).map FieldInfo.ty

/-- A composite literal whose listed fields have values of their types. -/
theorem lit_fields {P : Leaves} (hP : ZeroOk P) (s : SId) (fs : List (Str × GV))
    (h : ∀ e ∈ fs, ∀ t, fieldTy s e.1 = some t → Val P t e.2) :
    ∀ r ∈ objFields s, Val P r.ty ((Obj.lit s fs).val r.name) := by
  intro r hr
  rw [lit_val]
  cases hl : litLookup r.name fs with
  | none =>
    simp only [Option.getD_none]
    rw [zeroVal_row (objFields_names_nodup s) hr]
    exact val_zero hP (objFields_plain s r hr) (sane_row (objFields_sane s) (by rw [mkFields_toList]; exact hr))
  | some v =>
    simp only [Option.getD_some]
    have hm : (r.name, v) ∈ fs := by
      induction fs with
      | nil => simp [litLookup] at hl
      | cons e fs ih =>
        simp only [litLookup] at hl
        split at hl
        · next h1 =>
          rw [hl] at h1
          exact .tail _ (ih (fun e he => h e (.tail _ he)) h1)
        · split at hl
          · next h2 =>
            simp only [Option.some.injEq] at hl
            rw [h2, ← hl]
            exact .head _
          · simp at hl
    refine h _ hm r.ty ?_
    simp only [fieldTy, Option.map_eq_some_iff]
    cases hf : (objFields s).find? fun r' => r'.name = r.name with
    | none =>
      rw [List.find?_eq_none] at hf
      simpa using hf r hr
    | some r' =>
      have h1 := List.find?_some hf
      have h2 := List.mem_of_find?_eq_some hf
      simp only [decide_eq_true_eq] at h1
      exact ⟨r', rfl, by rw [inj_of_nodup (objFields_names_nodup s) h2 hr h1]⟩

/-! ### Plain text -/

/-- ASCII text is Unicode text. -/
theorem unicode_ascii (s : Str) (h : s.all (fun c => c < 128) = true) : Canon.Unicode s := by
  have key : ∀ n < 128, String.utf8EncodeChar (Char.ofNat n) = [UInt8.ofNat n] := by decide +kernel
  refine ⟨s.map fun c => Char.ofNat c.toNat, ?_⟩
  induction s with
  | nil => rfl
  | cons c s ih =>
    simp only [List.all_cons, Bool.and_eq_true, decide_eq_true_eq] at h
    have hc : c.toNat < 128 := h.1
    simp only [Canon.utf8, List.map_cons, List.flatMap_cons, key _ hc] at ih ⊢
    rw [← ih h.2]
    simp

end Stix
