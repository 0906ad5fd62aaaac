import Verif.Lemmas.Ctor

/-!
# Memory shared between objects and the program

Pointers, slices and maps are references: an object keeps the ones that its constructor and options
were given, nothing is copied.  Here a field holds a value or the address of a block of memory, and a
program makes blocks, changes them and calls constructors.  A block is everything that is reached
through one reference.  (References inside blocks, such as the pointers in a list of external
references, are not told apart.)
-/

namespace Stix

/-- What a field holds: a value (also a nil pointer, slice or map), or the address of a block. -/
inductive Slot where
  | val (v : GV)
  | ref (a : Nat)

/-- Memory; the blocks from `next` on are free. -/
structure Mem where
  next : Nat
  cell : Nat → GV

/-- A change of a block in place, such as `obj.Modified.Time = t` or `labels[0] = s`. -/
def Mem.write (m : Mem) (a : Nat) (v : GV) : Mem := { m with cell := fun b => if b = a then v else m.cell b }

/-- `&T{…}`, `make(…)` -/
def Mem.alloc (m : Mem) (v : GV) : Mem := ⟨m.next + 1, fun b => if b = m.next then v else m.cell b⟩

/-- What is seen through a field. -/
def Slot.read (m : Mem) : Slot → GV
  | .val v => v
  | .ref a => m.cell a

/-- A pointer to an object struct, with what its fields hold. -/
structure RObj where
  sid : SId
  slot : Str → Slot

/-- The object as it is seen now. -/
def RObj.read (m : Mem) (o : RObj) : Obj := { sid := o.sid, val := fun n => (o.slot n).read m }

/-- Assignment to a field. -/
def RObj.set (o : RObj) (n : Str) (s : Slot) : RObj :=
  { o with slot := fun x => if x = n then s else o.slot x }

/-- A call of an option function of the library.  The closure keeps the reference it was given. -/
inductive ROpt where
  | field (row : OptRow) (s : Slot)
  | extension (name : Str) (value : GV)

/-- The option, with what is seen through its reference now. -/
def ROpt.at (m : Mem) : ROpt → Opt
  | .field row s => .field row (s.read m)
  | .extension n v => .extension n v

/-- The entries of a map; a nil map has none. -/
def mapOf : GV → List (Str × GV)
  | .map (some e) => e
  | _ => []

/-- Applying an option: `setField` (option.go:1462-1479) assigns the reference; `OptionExtension`
(option.go:147-174) changes the map of the object in place, or makes one if it is nil. -/
def ROpt.apply (o : RObj) (m : Mem) : ROpt → RObj × Mem × Res Unit
  | .field row s =>
    match getFieldFromBaseStruct o.sid row.field with
    | none => (o, m, .err .other)
    | some f =>
      if f.ty.kind ≠ row.kind then (o, m, .err .other)
      else if row.ty.assignable f.ty = false then (o, m, .panic)
      else (o.set f.name s, m, .ok ())
  | .extension n v =>
    match findFieldForExtension o.sid with
    | none => (o, m, .err .other)
    | some f =>
      match f.ty with
      | .ext _ =>
        let e := mapOf ((o.slot f.name).read m)
        match o.slot f.name with
        | .ref a => (o, m.write a (.map (some (smInsert n v e))), .ok ())
        | .val _ => (o.set f.name (.ref m.next), m.alloc (.map (some (smInsert n v e))), .ok ())
      | _ => (o, m, .panic)

/-- `applyOptions` (option.go:1450-1460) -/
def applyROptions (o : RObj) (m : Mem) : List (Option ROpt) → RObj × Mem × Res Unit
  | [] => (o, m, .ok ())
  | none :: opts => applyROptions o m opts
  | some opt :: opts =>
    match opt.apply o m with
    | (o', m', .ok ()) => applyROptions o' m' opts
    | r => r

/-- A call of a constructor.  `c` has the values of the arguments; `args` has, by the property that
the argument is for, the blocks that pointer, slice and map arguments refer to. -/
structure Call where
  env : Env
  c : Ctor
  args : Str → Option Nat
  opts : List (Option ROpt)

/-- Which of the timestamps a constructor makes it puts where.  `newSTIXDomainObject` and
`newSTIXRelationshipObject` make two (object.go:20-30, 158-168); `NewSighting` (sighting.go:113-120),
`NewLanguageContent` (meta.go:183-189) and `NewExtensionDefinition` (extension.go:179-186) make one
and put it in both fields; `NewMarkingDefinition` (meta.go:316-322) has only one field. -/
def Ctor.stamps : Ctor → List (Str × Nat)
  | .sighting _ => [(b!"Created", 0), (b!"Modified", 0)]
  | .languageContent _ _ => [(b!"Created", 0), (b!"Modified", 0)]
  | .extensionDefinition _ _ _ _ => [(b!"Created", 0), (b!"Modified", 0)]
  | .markingDefinition _ _ => [(b!"Created", 0)]
  | c => if baseOf c.kind = .sco then [] else [(b!"Created", 0), (b!"Modified", 1)]

/-- What the literal of the constructor puts into a field that an argument is for. -/
def Call.argSlot (k : Call) (n : Str) (v : GV) : Slot :=
  match (objFields k.c.kind).find? (fun f => f.name == n) with
  | some f =>
    match k.args f.key with
    | some a => .ref a
    | none => .val v
  | none => .val v

/-- The literal of the constructor. -/
def Call.base (k : Call) (m : Mem) : RObj where
  sid := k.c.kind
  slot n :=
    match amLookup n k.c.stamps with
    | some i => .ref (m.next + i)
    | none =>
      match amLookup n k.c.own with
      | some v => k.argSlot n v
      | none => .val ((k.c.base k.env).val n)

/-- Memory after the literal, with two new timestamps (some constructors make one or none). -/
def Call.mem (k : Call) (m : Mem) : Mem := (m.alloc (gvTime k.env.now)).alloc (gvTime k.env.now)

/-- A constructor: the object, if it is returned without error, and memory afterwards. -/
def Call.run (k : Call) (m : Mem) : Option RObj × Mem :=
  match k.c.pre k.opts.length with
  | some _ => (none, m)
  | none =>
    match applyROptions (k.base m) (k.mem m) k.opts with
    | (o, m', .ok ()) =>
      match k.c.post k.env (o.read m') none with
      | .ret (some x) none => (some (o.set (b!"ID") (.val (x.val (b!"ID")))), m')
      | _ => (none, m')
    | (_, m', _) => (none, m')

/-- What a program does: make a block, change one in place, call a constructor. -/
inductive Act where
  | alloc (v : GV)
  | write (a : Nat) (v : GV)
  | make (k : Call)

/-- A program: memory, the blocks it has made itself, and the objects it has got, each with the call. -/
structure Prog where
  mem : Mem
  own : List Nat
  objs : List (Call × RObj)

/-- One action. -/
def Prog.step (s : Prog) : Act → Prog
  | .alloc v => { s with mem := s.mem.alloc v, own := s.own ++ [s.mem.next] }
  | .write a v => { s with mem := s.mem.write a v }
  | .make k =>
    match k.run s.mem with
    | (some o, m) => { s with mem := m, objs := s.objs ++ [(k, o)] }
    | (none, m) => { s with mem := m }

/-- The beginning. -/
def Prog.init : Prog := ⟨⟨0, fun _ => default⟩, [], []⟩

end Stix
