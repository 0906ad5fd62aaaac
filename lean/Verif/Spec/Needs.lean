import Verif.Spec.CtorMarshal
import Verif.Spec.Float

/-!
# What constructors need (specification)

From the documentation comments of the constructors and types.
-/

namespace Stix.Spec
open Stix

/-- The value that the arguments and the options together give to a property: that of the last option
for it, or else that of the argument for it. -/
def endsAs (c : Ctor) (opts : List (Option Opt)) (p : Str) : Option GV :=
  match lastSet (promise c).kind p opts with
  | some v => some v
  | none => amLookup p (promise c).args

/-- A property that is a text gets one. -/
def GetsText (c : Ctor) (opts : List (Option Opt)) (p : Str) : Prop :=
  ∃ s, s ≠ [] ∧ endsAs c opts p = some (.str s)

/-- A property that is a time gets it. -/
def GetsTime (c : Ctor) (opts : List (Option Opt)) (p : Str) (t : GoTime) : Prop :=
  endsAs c opts p = some (.ptr (some (.time t)))

/-- A property that holds bytes gets some. -/
def GetsBytes (c : Ctor) (opts : List (Option Opt)) (p : Str) : Prop :=
  ∃ b, endsAs c opts p = some (.bin (some b))

/-- A property that is a map gets one. -/
def GetsMap (c : Ctor) (opts : List (Option Opt)) (p : Str) : Prop :=
  ∃ m, endsAs c opts p = some (.map (some m))

/-- A list argument has elements. -/
def Filled {α : Type} (l : Option (List α)) : Prop := ∃ a as, l = some (a :: as)

/-- The first time is not after the last, if both are given (campaign.go:96-104, sighting.go:130-137). -/
def InOrder (c : Ctor) (opts : List (Option Opt)) : Prop :=
  ∀ f l, GetsTime c opts (b!"first_seen") f → GetsTime c opts (b!"last_seen") l → f.ns ≤ l.ns

/-- What a constructor needs to succeed, apart from options that apply. -/
def Needs (opts : List (Option Opt)) : Ctor → Prop
  | .attackPattern n => n ≠ []
  | .campaign n => n ≠ [] ∧ InOrder (.campaign n) opts
  | .courseOfAction n => n ≠ []
  | .grouping c os => c ≠ [] ∧ Filled os
  | .identity n => n ≠ []
  | .incident n => n ≠ []
  | .indicator p pt vf => p ≠ [] ∧ pt ≠ [] ∧ vf ≠ none
  | .infrastructure n => n ≠ []
  | .intrusionSet n => n ≠ []
  | .location r c lat long =>
    (r ≠ [] ∨ c ≠ [] ∨ f64Val lat ≠ 0) ∧ (f64Val lat = 0 ↔ f64Val long = 0) ∧
    (-90 ≤ f64Val lat ∧ f64Val lat ≤ 90) ∧ (-180 ≤ f64Val long ∧ f64Val long ≤ 180) ∧
    ∀ p, endsAs (.location r c lat long) opts (b!"precision") = some (.flt p) → f64Val p ≠ 0 →
      f64Val lat ≠ 0
  | .malware family => family = true → GetsText (.malware family) opts (b!"name")
  | .malwareAnalysis p r s => p ≠ [] ∧ (Filled s ∨ r ≠ [])
  | .note _ os => Filled os
  | .observedData f l n r => Filled r ∧ f ≠ none ∧ l ≠ none ∧ 1 ≤ n
  | .opinion _ os => Filled os
  | .report n p os => n ≠ [] ∧ p ≠ none ∧ Filled os
  | .threatActor n => n ≠ []
  | .tool n => n ≠ []
  | .vulnerability n => n ≠ []
  | .relationship r s t => r ≠ [] ∧ s ≠ [] ∧ t ≠ []
  | .sighting s => s ≠ [] ∧ InOrder (.sighting s) opts ∧
    ∀ n, endsAs (.sighting s) opts (b!"count") = some (.int n) → 0 ≤ n ∧ n ≤ 999999999
  | .languageContent o c => o ≠ [] ∧ c ≠ none
  | .markingDefinition t d => t ≠ [] ∧ d ≠ .nil
  | .extensionDefinition n s v e => n ≠ [] ∧ s ≠ [] ∧ v ≠ [] ∧ Filled e
  | .autonomousSystem n => n ≠ 0
  | .directory p => p ≠ []
  | .domainName v => v ≠ []
  | .emailAddress v => v ≠ []
  | .ipv4 v => v ≠ []
  | .ipv6 v => v ≠ []
  | .mac v => v ≠ []
  | .mutex v => v ≠ []
  | .url v => v ≠ []
  | .artifact =>
    (GetsBytes .artifact opts (b!"payload_bin") ↔ ¬ GetsText .artifact opts (b!"url")) ∧
    (GetsText .artifact opts (b!"url") → GetsMap .artifact opts (b!"hashes"))
  | .emailMessage _ => True
  | .file n h => n ≠ [] ∨ h ≠ none
  | .networkTraffic p => Filled p ∧
    (GetsText (.networkTraffic p) opts (b!"src_ref") ∨ GetsText (.networkTraffic p) opts (b!"dst_ref"))
  | .process => opts ≠ []
  | .registryKey => opts ≠ [] ∧
    ∀ l, endsAs .registryKey opts (b!"values") = some (.slice (some l)) → GV.ptr none ∉ l
  | .software n => n ≠ []
  | .userAccount => opts ≠ []
  | .x509 => opts ≠ []

/-- The first option that is for no property of the kind. -/
def obstacle (s : SId) (opts : List (Option Opt)) : Option Opt :=
  (opts.filterMap id).find? fun opt => (target s opt).isNone

/-- The options before it. -/
def beforeObstacle (s : SId) (opts : List (Option Opt)) : List (Option Opt) :=
  opts.takeWhile fun x => match x with
    | none => true
    | some opt => (target s opt).isSome

/-- The constructors that look at the error of an option before they return. -/
def Strict : Ctor → Prop
  | .sighting _ => True
  | .artifact => True
  | .networkTraffic _ => True
  | _ => False

end Stix.Spec
