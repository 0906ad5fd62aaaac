import Verif.Spec.Built
import Verif.Spec.ObsId

/-!
# Observables made again (specification)
-/

namespace Stix.Spec
open Stix

/-- The object is what a call of the constructor returns, in a program with this hash function and these
number formats, at any time and with any random bytes.  The options are of the library, and none of them
gives a mutex another name than the argument (`c10_mutex_renamed`). -/
def Makes (sha1 : Str → List UInt8) (F : Canon.FloatFmt) (c : Ctor) (opts : List (Option Opt)) (o : Obj) :
    Prop :=
  AllLibrary opts ∧ ((promise c).kind = .Mutex → Untouched .Mutex opts (b!"name")) ∧
    ∃ env : Env, Sane env ∧ (0 ≤ env.now.ns ∧ env.now.ns < endOfYears) ∧ env.sha1 = sha1 ∧ env.F = F ∧
      c.run env opts = .ret (some o) none

/-- The arguments of the call and the parameters of the options are values that JSON can carry, no option
blanks a required property, and what the constructor leaves to the caller is supplied. -/
def Sendable (c : Ctor) (opts : List (Option Opt)) : Prop :=
  ValArgs carriable c ∧ ValOpts carriable opts ∧ NoneBlanked (promise c).kind opts ∧ Supplied opts c

/-- Each of the properties is given in both objects or in none, and contributes the same to the
identifier. -/
def SameContributions (F : Canon.FloatFmt) (ps : List Str) (o o' : Obj) : Prop :=
  ∀ p ∈ ps, contribution F p (prop o p) = contribution F p (prop o' p) ∧
    (Given F p (prop o p) ↔ Given F p (prop o' p))

end Stix.Spec
