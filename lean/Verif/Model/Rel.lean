import Verif.Gen.Rels
import Verif.Model.Ctor

/-!
# Relationship helpers

The `AddX` methods.  Their table (`Verif.Gen.Rels`) is read off the sources; here it is run.
-/

namespace Stix

/-- The condition in front of `return nil, ErrInvalidParameter` (e.g. attack.go:38, :47,
infrastructure.go:52). -/
def Guard.rejects : Guard → Str → Bool
  | .none, _ => false
  | .valid, id => !isValidIdentifier id
  | .types ts, id => !isValidIdentifier id || !forTypes id ts

/-- A call of a relationship helper on an object (e.g. attack.go:37-42, object.go:271-273).  A nil
receiver is not modelled. -/
def RelRow.run (row : RelRow) (env : Env) (recv : Obj) (id : Str) (opts : List (Option Opt)) : Ret :=
  if row.guard.rejects id then .fail .invalidParameter
  else newRelationship env row.rel (recv.getStr (b!"ID")) id opts

end Stix
