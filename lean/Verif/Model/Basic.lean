/-!
# Basic vocabulary of the model

Go strings and byte slices are lists of bytes; a call that may fail or panic
returns a `Res`.
-/

namespace Stix

/-- A Go `string` (or `[]byte`): a finite sequence of bytes. -/
abbrev Str := List UInt8

open Lean in
/-- `b!"text"`: the UTF-8 bytes of a literal, as an explicit list. -/
macro "b!" s:str : term => do
  let bs := s.getString.toUTF8.toList
  let elems ← bs.mapM fun b => `(($(quote b.toNat) : UInt8))
  let arr := elems.toArray
  `(([$arr,*] : List UInt8))

/-- The errors of the library that callers can distinguish (error.go:8-17), plus
every other error, for which only "an error was returned" is kept (the texts made
by `fmt.Errorf` are not modelled). -/
inductive Err where
  /-- `ErrPropertyMissing`, error.go:11 -/
  | propertyMissing
  /-- `ErrInvalidProperty`, error.go:13 (also when wrapped with `%w`) -/
  | invalidProperty
  /-- `ErrInvalidParameter`, error.go:16 -/
  | invalidParameter
  /-- any other error value -/
  | other
  deriving DecidableEq, Repr

/-- Outcome of a Go call that returns `(α, error)`: a value with a nil error, an
error, or a run-time panic. -/
inductive Res (α : Type _) where
  | ok (a : α)
  | err (e : Err)
  | panic
  deriving DecidableEq, Repr

namespace Res

/-- Sequencing: errors and panics propagate. -/
def bind {α β} (x : Res α) (f : α → Res β) : Res β :=
  match x with
  | ok a => f a
  | err e => err e
  | panic => panic

instance : Monad Res where
  pure := ok
  bind := bind

@[simp] theorem pure_eq {α} (a : α) : (pure a : Res α) = ok a := rfl
@[simp] theorem bind_ok {α β} (a : α) (f : α → Res β) : (ok a >>= f) = f a := rfl
@[simp] theorem bind_err {α β} (e : Err) (f : α → Res β) : (err e >>= f) = err e := rfl
@[simp] theorem bind_panic {α β} (f : α → Res β) : (panic >>= f) = panic := rfl

/-- The call returned normally (value or error). -/
def NoPanic {α} : Res α → Prop
  | panic => False
  | _ => True

instance {α} (r : Res α) : Decidable r.NoPanic := by
  cases r <;> simp only [NoPanic] <;> infer_instance

/-- A panic. -/
def isPanic {α} : Res α → Bool
  | panic => true
  | _ => false

/-- A value that satisfies `p`. -/
def okWith {α} (p : α → Bool) : Res α → Bool
  | ok a => p a
  | _ => false

theorem isPanic_iff {α} {r : Res α} : r.isPanic = true ↔ r = panic := by cases r <;> simp [isPanic]

theorem okWith_iff {α} {p : α → Bool} {r : Res α} : r.okWith p = true ↔ ∃ a, r = ok a ∧ p a = true := by
  cases r <;> simp [okWith]

theorem bind_eq_ok {α β} {x : Res α} {f : α → Res β} {b : β} :
    (x >>= f) = ok b ↔ ∃ a, x = ok a ∧ f a = ok b := by
  cases x <;> simp

end Res

/-! ### Go maps as association lists -/

/-- Map read with comma-ok: `v, ok := m[k]`. -/
def amLookup {κ α} [DecidableEq κ] (k : κ) : List (κ × α) → Option α
  | [] => none
  | (k', v) :: m => if k' = k then some v else amLookup k m

/-- Map write `m[k] = v`. -/
def amInsert {κ α} [DecidableEq κ] (k : κ) (v : α) : List (κ × α) → List (κ × α)
  | [] => [(k, v)]
  | (k', v') :: m => if k' = k then (k, v) :: m else (k', v') :: amInsert k v m

/-- Map delete `delete(m, k)`. -/
def amDelete {κ α} [DecidableEq κ] (k : κ) (m : List (κ × α)) : List (κ × α) :=
  m.filter (fun e => !decide (e.1 = k))

/-- The keys of a map; a Go map has no duplicate keys. -/
def amKeys {κ α} (m : List (κ × α)) : List κ := m.map Prod.fst

end Stix
