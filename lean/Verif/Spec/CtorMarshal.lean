import Verif.Spec.Marshal
import Verif.Spec.Ctor

/-!
# Constructed objects that can be marshalled (specification)
-/

namespace Stix.Spec
open Stix

/-- No option gives a required property its zero value. -/
def NoneBlanked (s : SId) (opts : List (Option Opt)) : Prop :=
  ∀ row v, some (Opt.field row v) ∈ opts → ∀ r ∈ objFields s, r.omitE = false →
    target s (.field row v) = some r.key → ¬ Unset r.ty v

/-- What three of the constructors leave to the caller: an identity needs its class, which only an
option can give, a note its content and an opinion its value. -/
def Supplied (opts : List (Option Opt)) : Ctor → Prop
  | .identity _ => ¬ Untouched .Identity opts (b!"identity_class")
  | .note content _ => content ≠ []
  | .opinion value _ => value ≠ 0
  | _ => True

/-- The arguments of the constructor are values of the types of the properties they are for, and
their leaves satisfy `P`. -/
def ValArgs (P : Leaves) (c : Ctor) : Prop :=
  ∀ e ∈ (promise c).args, ∀ r ∈ objFields (promise c).kind, r.key = e.1 → Val P r.ty e.2

/-- The same for the parameters of an option. -/
def ValOpt (P : Leaves) : Opt → Prop
  | .field row v => Val P row.ty v
  | .extension n v => P.str n ∧ ValExt P knownExts n v
  | .user _ => False

/-- The same for all options of a list. -/
def ValOpts (P : Leaves) (opts : List (Option Opt)) : Prop := ∀ opt, some opt ∈ opts → ValOpt P opt

end Stix.Spec
