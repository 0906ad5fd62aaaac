import Verif.Model.Heap
import Verif.Model.Process

/-!
# The memory of bundles and listings

A program with a collection gets slices of objects from `AllObjects` and bundles from `ToBundle` and
`NewBundle`.  Here these are addresses of memory that the program can change in place, as it can change
its objects.  The maps and the order of the collection are not in this memory: the fields of
`Collection` (stix.go:77-85) are not exported, and no method returns one of them.
-/

namespace Stix.Snapshot

/-- A piece of memory: an object, the array of a `[]STIXObject`, the bytes of a `json.RawMessage` (as
the JSON text they are), the array of a `[]json.RawMessage`, a `Bundle` (bundle.go:15-25) with its type,
its id and the array of its objects. -/
inductive Cell (U : Type) where
  | obj (o : Any U)
  | ptrs (l : List (Option Nat))
  | bytes (j : Json)
  | msgs (l : List Nat)
  | bundle (typ id : Str) (objects : Nat)

/-- Memory; what is at `next` and above is free. -/
structure Memory (U : Type) where
  next : Nat
  cell : Nat → Cell U

variable {U : Type} [UserType U]

/-- `&T{…}`, `make(…)` -/
def Memory.alloc (m : Memory U) (c : Cell U) : Memory U :=
  ⟨m.next + 1, fun a => if a = m.next then c else m.cell a⟩

/-- A change in place. -/
def Memory.write (m : Memory U) (a : Nat) (c : Cell U) : Memory U :=
  { m with cell := fun b => if b = a then c else m.cell b }

/-- The object a `STIXObject` points to; none if it is nil.  (The types of Go exclude pointers to
anything else.) -/
def Memory.deref (m : Memory U) : Option Nat → Option (Any U)
  | none => none
  | some p =>
    match m.cell p with
    | .obj o => some o
    | _ => none

/-- The kinds of memory that Go's types tell apart. -/
inductive Kind where
  | obj | ptrs | bytes | msgs | bundle
  deriving DecidableEq

/-- The kind of a piece of memory. -/
def Cell.kind : Cell U → Kind
  | .obj _ => .obj
  | .ptrs _ => .ptrs
  | .bytes _ => .bytes
  | .msgs _ => .msgs
  | .bundle _ _ _ => .bundle

/-- There is something of the kind at the address. -/
def Memory.Is (m : Memory U) (t : Kind) (a : Nat) : Prop := a < m.next ∧ (m.cell a).kind = t

/-- The references in a piece of memory are to what their types say: a program has no others. -/
def Memory.Typed (m : Memory U) : Cell U → Prop
  | .obj _ | .bytes _ => True
  | .ptrs l => ∀ p, some p ∈ l → m.Is .obj p
  | .msgs l => ∀ a ∈ l, m.Is .bytes a
  | .bundle _ _ a => m.Is .msgs a

/-- `json.Marshal` of a `STIXObject`. -/
def jsonOf (F : Canon.FloatFmt) : Option (Any U) → Option Json
  | none => some .null
  | some o => marshalAny F o

/-- The loop of `NewBundle` (bundle.go:31-37): the memory afterwards and the raw messages.
`json.Marshal` returns bytes of its own.  It returns with an error, or panics, if an object cannot be
written. -/
def rawMessages (F : Canon.FloatFmt) (m : Memory U) : List (Option Nat) → Option (Memory U × List Nat)
  | [] => some (m, [])
  | p :: ps =>
    match jsonOf F (m.deref p) with
    | none => none
    | some j => (rawMessages F (m.alloc (.bytes j)) ps).map fun r => (r.1, m.next :: r.2)

/-- `NewBundle` (bundle.go:28-40): the memory afterwards and the pointer to the bundle, if it is
returned. -/
def newBundle (F : Canon.FloatFmt) (rnd : List UInt8) (m : Memory U) (ps : List (Option Nat)) :
    Option (Memory U × Nat) :=
  (rawMessages F m ps).map fun r =>
    ((r.1.alloc (.msgs r.2)).alloc (.bundle TypeBundle (newIdentifier rnd TypeBundle) r.1.next),
      r.1.next + 1)

/-- The text of a raw message. -/
def Memory.text (m : Memory U) (a : Nat) : Option Json :=
  match m.cell a with
  | .bytes j => some j
  | _ => none

/-- `json.Marshal` of a pointer to a bundle. -/
def marshalBundle (F : Canon.FloatFmt) (m : Memory U) (b : Nat) : Option Json :=
  match m.cell b with
  | .bundle typ id a =>
    match m.cell a with
    | .msgs l =>
      (allSome m.text l).bind fun js =>
        enc F tyBundle (.struct fun x =>
          if x = b!"Type" then .str typ
          else if x = b!"ID" then .str id
          else if x = b!"Objects" then .slice (some (js.map .raw))
          else default)
    | _ => none
  | _ => none

/-- A program's memory and its collection. -/
structure State (U : Type) where
  mem : Memory U
  coll : Coll Ref

/-- What a program does: make something, change something in place, call `Add`, `AllObjects`,
`NewBundle` with the objects of a slice, or `ToBundle`. -/
inductive Act (U : Type) where
  | alloc (c : Cell U)
  | write (a : Nat) (c : Cell U)
  | add (p : Nat)
  | allObjects
  | newBundle (slice : Nat)
  | toBundle

/-- `Collection.Add` (stix.go:104-130).  If it panics nothing has changed. -/
def State.add (s : State U) (p : Nat) : State U :=
  match s.mem.deref (some p) with
  | some o =>
    if o.panics then s
    else { s with coll := (s.coll.add ⟨p, StixObject.getID o, StixObject.getType o⟩).1 }
  | none => s

/-- The program goes from a state to another, with a new reference or not: `AllObjects`
(stix.go:133-160) makes its own slice, and `ToBundle` (stix.go:178-181) calls `NewBundle` with one. -/
inductive Step (F : Canon.FloatFmt) : State U → Act U → Option Nat → State U → Prop
  | alloc (s : State U) (c : Cell U) :
    s.mem.Typed c → Step F s (.alloc c) (some s.mem.next) { s with mem := s.mem.alloc c }
  | write (s : State U) (a : Nat) (c : Cell U) :
    s.mem.Is c.kind a → s.mem.Typed c → Step F s (.write a c) none { s with mem := s.mem.write a c }
  | add (s : State U) (p : Nat) : s.mem.Is .obj p → Step F s (.add p) none (s.add p)
  | allObjects (s : State U) (out : List (Option Ref)) :
    s.coll.AllObjects out →
    Step F s .allObjects (some s.mem.next)
      { s with mem := s.mem.alloc (.ptrs (out.map fun r => r.map Ref.ptr)) }
  | newBundle (s : State U) (a : Nat) (ps : List (Option Nat)) (rnd : List UInt8) (m : Memory U) (b : Nat) :
    a < s.mem.next → s.mem.cell a = .ptrs ps → Snapshot.newBundle F rnd s.mem ps = some (m, b) →
    Step F s (.newBundle a) (some b) { s with mem := m }
  | newBundleFails (s : State U) (a : Nat) (ps : List (Option Nat)) (rnd : List UInt8) :
    a < s.mem.next → s.mem.cell a = .ptrs ps → Snapshot.newBundle F rnd s.mem ps = none →
    Step F s (.newBundle a) none s
  | toBundle (s : State U) (out : List (Option Ref)) (rnd : List UInt8) (m : Memory U) (b : Nat) :
    s.coll.AllObjects out →
    Snapshot.newBundle F rnd (s.mem.alloc (.ptrs (out.map fun r => r.map Ref.ptr)))
      (out.map fun r => r.map Ref.ptr) = some (m, b) →
    Step F s .toBundle (some b) { s with mem := m }
  | toBundleFails (s : State U) (out : List (Option Ref)) (rnd : List UInt8) :
    s.coll.AllObjects out →
    Snapshot.newBundle F rnd (s.mem.alloc (.ptrs (out.map fun r => r.map Ref.ptr)))
      (out.map fun r => r.map Ref.ptr) = none →
    Step F s .toBundle none s

/-- A program makes any number of steps; each with the reference it gets, if it gets one. -/
inductive Run (F : Canon.FloatFmt) : State U → List (Act U × Option Nat) → State U → Prop
  | refl (s : State U) : Run F s [] s
  | step {s s' s'' : State U} {a : Act U} {r : Option Nat} {l : List (Act U × Option Nat)} :
    Step F s a r s' → Run F s' l s'' → Run F s ((a, r) :: l) s''

/-- The beginning: a new collection, nothing in memory. -/
def State.init (ns : Bool) : State U := ⟨⟨0, fun _ => .ptrs []⟩, Coll.new ns⟩

end Stix.Snapshot
