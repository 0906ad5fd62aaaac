import Verif.Model.Sched

/-!
# Specification of concurrent use

What a call may return is said by the collection that the calls of `Add` before it make
(C01 to C05 say what that is in terms of the objects added).
-/

namespace Stix.Spec
open Stix StixObject Sched

variable {α : Type} [StixObject α]

/-- Goroutine `i` is in the middle of the call. -/
def Busy (s : Sys α) (i : Nat) (c : Call α) : Prop :=
  ∃ pc todo, s.threads[i]? = some ⟨some (c, pc), todo⟩

/-- An `Add` is going on while another goroutine is in the middle of a call, too. -/
def Overlap (s : Sys α) : Prop := ∃ i j o c, i ≠ j ∧ Busy s i (.add o) ∧ Busy s j c

/-- A run in which no `Add` ever overlaps another call.  A `sync.RWMutex` ensures this when each
`Add` is made between `Lock` and `Unlock` and each other call between `RLock` and `RUnlock`; so does a
`sync.Mutex`, or handing the collection over. -/
inductive Guarded : Sys α → Sys α → Prop
  | refl (s) : Guarded s s
  | step {s s' s''} (i k) : Guarded s s' → s'.step i k = some s'' → ¬ Overlap s'' → Guarded s s''

/-- A data race: two goroutines are about to touch the same place, and at least one to write to it. -/
def Race (s : Sys α) : Prop := ∃ (i j : Nat) (c c' : Call α) (pc pc' : PC α) (t t' : List (Call α)) (l : Loc) (w w' : Bool),
  i ≠ j ∧ s.threads[i]? = some ⟨some (c, pc), t⟩ ∧ s.threads[j]? = some ⟨some (c', pc'), t'⟩ ∧
    access pc = some (l, w) ∧ access pc' = some (l, w') ∧ (w = true ∨ w' = true)

/-- The call, made on this collection while nobody else uses it, may return this. -/
def Answers (c : Coll α) : Call α → Ans α → Prop
  | .add o, .err failed => failed = (c.add o).2
  | .get id, .obj r => r = c.get id
  | .one t id, .obj r => r = c.getObject t id
  | .allObjects, .objs l => c.AllObjects l
  | .getAll t, .all l => c.GetAll t l
  | .list t, .all l => ∃ l', c.GetAll t l' ∧ l = some (l'.getD [])
  | _, _ => False

/-- The objects that calls of `Add` gave, in the order in which these returned. -/
def added (log : List (Nat × Call α × Ans α)) : List α :=
  log.filterMap fun e => match e.2.1 with
    | .add o => some o
    | _ => none

/-- The calls of goroutine `i` that have returned. -/
def returned (i : Nat) (log : List (Nat × Call α × Ans α)) : List (Call α) :=
  (log.filter fun e => e.1 = i).map fun e => e.2.1

/-- The calls have returned what they may if they are made one after the other, in this order, on
a new collection. -/
def OneByOne (ns : Bool) (log : List (Nat × Call α × Ans α)) : Prop :=
  ∀ before i c a after, log = before ++ (i, c, a) :: after →
    Answers ((Coll.new ns).addAll (added before)) c a

end Stix.Spec
