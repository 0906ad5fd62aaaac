import Verif.Model.Collection

/-!
# Goroutines that use one collection

The methods of `Collection` (stix.go:87-181, 183-200, 939-949) cut into steps, each of which touches
at most one place in memory, so that the steps of several goroutines can be interleaved.  Places are
the fields of the collection and the maps they lead to; for the Go memory model a map is one place.
Objects are not changed here.

Simplified: memory is sequentially consistent, which the Go memory model promises only to programs
without data races (hence `Race`); the reads that only compute the capacity of a slice are left out
(they read what the loop after them reads); a slice is a value.
-/

namespace Stix.Sched
open Stix StixObject

/-- The memory of a collection (`Collection`, stix.go:75-85): `objects` is nil or a reference to a map
from types to references to buckets.  Maps are never freed, so a reference is a position. -/
structure Mem (α : Type) where
  noSort : Bool
  objects : Option Nat := none
  outers : List (List (Str × Nat)) := []
  buckets : List (List (Str × α)) := []
  order : List Str := []

/-- What can be shared: a field or a map. -/
inductive Loc where
  | noSort | objects | order
  | outer (p : Nat)
  | bucket (b : Nat)
  deriving DecidableEq, Repr

/-- A call of a method: `Add`, `Get`, `AllObjects` (also what `ToBundle` calls, stix.go:179-181),
`GetAll`, and the typed getters, `one` for the singular ones (stix.go:184-190) and `list` for the plural
ones (stix.go:193-199); the other 41 pairs are alike. -/
inductive Call (α : Type) where
  | add (o : α)
  | get (id : Str)
  | one (t id : Str)
  | allObjects
  | getAll (t : Str)
  | list (t : Str)
  deriving DecidableEq

/-- The call is one of `Add`. -/
def Call.writes {α} : Call α → Bool
  | .add _ => true
  | _ => false

/-- What a call returns: whether it is an error (`Add`), an object or nil, a slice that may have nil
elements, a slice or nil. -/
inductive Ans (α : Type) where
  | err (failed : Bool)
  | obj (o : Option α)
  | objs (l : List (Option α))
  | all (l : Option (List α))
  deriving DecidableEq

/-- What is done with the object that `getObject` finds: it is returned, or it is the next element of
the slice that `AllObjects` makes (stix.go:138-141), `rest` being the ids that come after it. -/
inductive Use (α : Type) where
  | ret
  | elem (rest : List Str) (acc : List (Option α))

/-- Where a goroutine is within a call, with its local variables. -/
inductive PC (α : Type) where
  | add1 (o : α)
  | add2 (o : α)
  | add3 (o : α)
  | add4 (o : α) (p : Nat)
  | add5 (o : α)
  | add6 (o : α) (p b : Nat)
  | add7 (o : α) (b : Nat)
  | add8 (o : α) (b : Nat) (update : Bool)
  | add9 (o : α) (update : Bool)
  | add10 (o : α)
  | add11 (o : α) (ord : List Str)
  | get1 (u : Use α) (t id : Str)
  | get2 (u : Use α) (p : Nat) (t id : Str)
  | get3 (u : Use α) (b : Nat) (id : Str)
  | all1
  | all2
  | all3
  | all4
  | all5 (p : Nat) (seen : List Str) (acc : List (Option α))
  | all6 (p : Nat) (seen : List Str) (b : Nat) (bseen : List Str) (acc : List (Option α))
  | type1 (plural : Bool) (t : Str)
  | type2 (plural : Bool) (p : Nat) (t : Str)
  | type3 (b : Nat) (seen : List Str) (acc : List α)
  | done (a : Ans α)
  | panic

variable {α : Type}

/-- `Get` for the next id (stix.go:89-95): the split touches no shared memory. -/
def nextGet : List Str → List (Option α) → PC α
  | [], acc => .done (.objs acc)
  | id :: rest, acc =>
    match splitDD id with
    | [t, _] => .get1 (.elem rest acc) t id
    | _ => nextGet rest (acc ++ [none])

/-- What comes after `getObject` (stix.go:96-101, 138-141). -/
def use (r : Option α) : Use α → PC α
  | .ret => .done (.obj r)
  | .elem rest acc => nextGet rest (acc ++ [r])

/-- The beginning of a call, up to the first access to shared memory: `Add` looks at the object only
(stix.go:104-107), `Get` at the id only (stix.go:89-94). -/
def start [StixObject α] : Call α → PC α
  | .add o => if hasValidIdentifier (getID o) (getType o) = false then .done (.err true) else .add1 o
  | .get id =>
    match splitDD id with
    | [t, _] => .get1 .ret t id
    | _ => .done (.obj none)
  | .one t id => .get1 .ret t id
  | .allObjects => .all1
  | .getAll t => .type1 false t
  | .list t => .type1 true t

/-- The place that the next step touches, and whether it is written to. -/
def access : PC α → Option (Loc × Bool)
  | .add1 _ => some (.objects, false)
  | .add2 _ => some (.objects, true)
  | .add3 _ => some (.objects, false)
  | .add4 _ p => some (.outer p, false)
  | .add5 _ => some (.objects, false)
  | .add6 _ p _ => some (.outer p, true)
  | .add7 _ b => some (.bucket b, false)
  | .add8 _ b _ => some (.bucket b, true)
  | .add9 _ _ => some (.noSort, false)
  | .add10 _ => some (.order, false)
  | .add11 _ _ => some (.order, true)
  | .get1 _ _ _ => some (.objects, false)
  | .get2 _ p _ _ => some (.outer p, false)
  | .get3 _ b _ => some (.bucket b, false)
  | .all1 => some (.noSort, false)
  | .all2 => some (.order, false)
  | .all3 => some (.order, false)
  | .all4 => some (.objects, false)
  | .all5 p _ _ => some (.outer p, false)
  | .all6 _ _ b _ _ => some (.bucket b, false)
  | .type1 _ _ => some (.objects, false)
  | .type2 _ p _ => some (.outer p, false)
  | .type3 b _ _ => some (.bucket b, false)
  | .done _ => none
  | .panic => none

/-- What `GetAll` and the plural getters return for a type without bucket: nil (stix.go:166-169) and
an empty slice (stix.go:193-199). -/
def noBucket (plural : Bool) : PC α := .done (.all (if plural then some [] else none))

/-- One step of a call.  A `range` over a map asks for one entry after the other: `k` is the key of the
entry that comes next, which can be any that has not been seen (another `k` is no step), and the loop
ends when all have been. -/
def step [StixObject α] (k : Str) (m : Mem α) : PC α → Option (Mem α × PC α)
  -- `c.objects == nil` (stix.go:109)
  | .add1 o => some (m, if m.objects = none then .add2 o else .add3 o)
  -- `c.objects = make(…)` (stix.go:110)
  | .add2 o => some ({ m with outers := m.outers ++ [[]], objects := some m.outers.length }, .add3 o)
  -- `bucket, ok := c.objects[obj.GetType()]` (stix.go:113): the field, then the map
  | .add3 o =>
    match m.objects with
    | none => some (m, .add5 o)
    | some p => some (m, .add4 o p)
  | .add4 o p =>
    match amLookup (getType o) (m.outers.getD p []) with
    | none => some (m, .add5 o)
    | some b => some (m, .add7 o b)
  -- `bucket = make(…)` and `c.objects[obj.GetType()] = bucket` (stix.go:115-116): the field, then the map;
  -- a nil map panics
  | .add5 o =>
    match m.objects with
    | none => some (m, .panic)
    | some p => some ({ m with buckets := m.buckets ++ [[]] }, .add6 o p m.buckets.length)
  | .add6 o p b =>
    some ({ m with outers := m.outers.set p (amInsert (getType o) b (m.outers.getD p [])) }, .add7 o b)
  -- `_, update := bucket[obj.GetID()]` (stix.go:120)
  | .add7 o b => some (m, .add8 o b (amLookup (getID o) (m.buckets.getD b [])).isSome)
  -- `bucket[obj.GetID()] = obj` (stix.go:122)
  | .add8 o b update =>
    some ({ m with buckets := m.buckets.set b (amInsert (getID o) o (m.buckets.getD b [])) }, .add9 o update)
  -- `if !c.noSort && !update` (stix.go:125)
  | .add9 o update =>
    some (m, if m.noSort = false ∧ update = false then .add10 o else .done (.err false))
  -- `c.order = append(c.order, obj.GetID())` (stix.go:126): read, then write
  | .add10 o => some (m, .add11 o m.order)
  | .add11 o ord => some ({ m with order := ord ++ [getID o] }, .done (.err false))
  -- `bucket, ok := c.objects[typ]` (stix.go:940): the field, then the map
  | .get1 u t id =>
    match m.objects with
    | none => some (m, use none u)
    | some p => some (m, .get2 u p t id)
  | .get2 u p t id =>
    match amLookup t (m.outers.getD p []) with
    | none => some (m, use none u)
    | some b => some (m, .get3 u b id)
  -- `obj, ok := bucket[id]` (stix.go:944)
  | .get3 u b id => some (m, use (amLookup id (m.buckets.getD b [])) u)
  -- `if !c.noSort && len(c.order) != 0` (stix.go:137)
  | .all1 => some (m, if m.noSort = false then .all2 else .all4)
  | .all2 => some (m, if m.order.length ≠ 0 then .all3 else .all4)
  -- `for _, id := range c.order` (stix.go:139)
  | .all3 => some (m, nextGet m.order [])
  -- `for _, v := range c.objects` (stix.go:154)
  | .all4 =>
    match m.objects with
    | none => some (m, .done (.objs []))
    | some p => some (m, .all5 p [] [])
  | .all5 p seen acc =>
    if ∀ x ∈ amKeys (m.outers.getD p []), x ∈ seen then some (m, .done (.objs acc))
    else if k ∈ seen then none
    else match amLookup k (m.outers.getD p []) with
      | none => none
      | some b => some (m, .all6 p (seen ++ [k]) b [] acc)
  -- `for _, vv := range v` (stix.go:155-157)
  | .all6 p seen b bseen acc =>
    if ∀ x ∈ amKeys (m.buckets.getD b []), x ∈ bseen then some (m, .all5 p seen acc)
    else if k ∈ bseen then none
    else match amLookup k (m.buckets.getD b []) with
      | none => none
      | some o => some (m, .all6 p seen b (bseen ++ [k]) (acc ++ [some o]))
  -- `bucket, ok := c.objects[typ]` (stix.go:166), `range c.objects[T]` (stix.go:195): the field, then the map
  | .type1 plural t =>
    match m.objects with
    | none => some (m, noBucket plural)
    | some p => some (m, .type2 plural p t)
  | .type2 plural p t =>
    match amLookup t (m.outers.getD p []) with
    | none => some (m, noBucket plural)
    | some b => some (m, .type3 b [] [])
  -- `for _, v := range bucket` (stix.go:172-174)
  | .type3 b seen acc =>
    if ∀ x ∈ amKeys (m.buckets.getD b []), x ∈ seen then some (m, .done (.all (some acc)))
    else if k ∈ seen then none
    else match amLookup k (m.buckets.getD b []) with
      | none => none
      | some o => some (m, .type3 b (seen ++ [k]) (acc ++ [o]))
  | .done _ => none
  | .panic => none

/-- A goroutine: the call it is in, and those it has still to make. -/
structure Thread (α : Type) where
  now : Option (Call α × PC α) := none
  todo : List (Call α)

/-- All goroutines, the memory they share, and what calls have returned what so far, in this order. -/
structure Sys (α : Type) where
  mem : Mem α
  threads : List (Thread α)
  log : List (Nat × Call α × Ans α) := []

/-- `New` (stix.go:65-73), and goroutines that are to make these calls. -/
def Sys.init (ns : Bool) (calls : List (List (Call α))) : Sys α :=
  { mem := { noSort := ns }, threads := calls.map fun l => { todo := l } }

/-- Goroutine `i` begins its next call, takes a step in it, or returns from it. -/
def Sys.step [StixObject α] (s : Sys α) (i : Nat) (k : Str) : Option (Sys α) :=
  match s.threads[i]? with
  | none => none
  | some { now := none, todo := [] } => none
  | some { now := none, todo := c :: cs } =>
    some { s with threads := s.threads.set i { now := some (c, start c), todo := cs } }
  | some { now := some (c, .done a), todo := cs } =>
    some { s with threads := s.threads.set i { now := none, todo := cs }, log := s.log ++ [(i, c, a)] }
  | some { now := some (c, pc), todo := cs } =>
    match Sched.step k s.mem pc with
    | none => none
    | some (m, pc') => some { s with mem := m, threads := s.threads.set i { now := some (c, pc'), todo := cs } }

/-- A run: which goroutine goes next, and which entry its `range` gives, is arbitrary. -/
inductive Run [StixObject α] : Sys α → Sys α → Prop
  | refl (s) : Run s s
  | step {s s' s''} (i k) : Run s s' → s'.step i k = some s'' → Run s s''

/-- The goroutines take a `sync.RWMutex` of the program around every call: `writer` says that it is
locked, `readers` by how many it is locked for reading. -/
structure Locked (α : Type) where
  sys : Sys α
  writer : Bool := false
  readers : Nat := 0

/-- A step under the lock.  A call of `Add` begins with `Lock`, another with `RLock`; both wait, that is,
there is no step, as long as the lock is taken (`RLock` only while it is locked for writing; that a
waiting `Lock` keeps later `RLock`s out is left out, it only takes runs away).  A call that returns
unlocks. -/
def Locked.step [StixObject α] (s : Locked α) (i : Nat) (k : Str) : Option (Locked α) :=
  (s.sys.step i k).bind fun sys =>
    match s.sys.threads[i]? with
    | some { now := none, todo := c :: _ } =>
      if c.writes then
        if s.writer = false ∧ s.readers = 0 then some { sys := sys, writer := true, readers := 0 } else none
      else if s.writer = false then some { sys := sys, writer := false, readers := s.readers + 1 } else none
    | some { now := some (c, .done _), todo := _ } =>
      if c.writes then some { sys := sys, writer := false, readers := s.readers }
      else some { sys := sys, writer := s.writer, readers := s.readers - 1 }
    | _ => some { s with sys := sys }

/-- A run under the lock. -/
inductive LockedRun [StixObject α] : Locked α → Locked α → Prop
  | refl (s) : LockedRun s s
  | step {s s' s''} (i k) : LockedRun s s' → s'.step i k = some s'' → LockedRun s s''

end Stix.Sched
