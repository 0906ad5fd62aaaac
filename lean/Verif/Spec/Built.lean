import Verif.Spec.CtorMarshal
import Verif.Spec.Value

/-!
# Objects that the constructors build (specification)
-/

namespace Stix.Spec
open Stix

/-- The object was returned without error by a constructor, called with options of the library between
the years 0 and 9999.  Arguments and parameters are values that JSON can carry, no option blanks a
required property, and what the constructor leaves to the caller is supplied. -/
def Built (o : Obj) : Prop :=
  ∃ (env : Env) (c : Ctor) (opts : List (Option Opt)),
    Sane env ∧ (0 ≤ env.now.ns ∧ env.now.ns < endOfYears) ∧ AllLibrary opts ∧
    ValArgs carriable c ∧ ValOpts carriable opts ∧ NoneBlanked (promise c).kind opts ∧
    Supplied opts c ∧ c.run env opts = .ret (some o) none

end Stix.Spec
