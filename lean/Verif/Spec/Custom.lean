import Verif.Model.Custom
import Verif.Spec.Doc

/-!
# Custom objects and extensions (specification)
-/

namespace Stix.Spec
open Stix

/-- The value of the last of a sequence of assignments to a key, if there is one. -/
def lastAssigned (key : Str) : List (Str × Dyn) → Option Dyn
  | [] => none
  | (k, v) :: rest => (lastAssigned key rest).orElse fun _ => if k = key then some v else none

/-- `2 ^ 1074` times the absolute value of a finite double. -/
def scaledAbs (b : F64) : Nat :=
  let e := b.toNat / 2 ^ 52 % 2048
  let m := b.toNat % 2 ^ 52
  if e = 0 then m else (m + 2 ^ 52) * 2 ^ (e - 1)

/-- `n` is the finite double without its fraction. -/
def IntegerPart (b : F64) (n : Int) : Prop :=
  n.natAbs * 2 ^ 1074 ≤ scaledAbs b ∧ scaledAbs b < (n.natAbs + 1) * 2 ^ 1074 ∧
    (0 < n → b.toNat < 2 ^ 63) ∧ (n < 0 → 2 ^ 63 ≤ b.toNat)

/-- The predefined extensions: key, Go struct, and the fields of that. -/
def extStructs : List (Str × Str × Fields) :=
  [(b!"archive-ext", b!"ArchiveFileExtension", fieldsArchiveFileExtension),
   (b!"ntfs-ext", b!"NTFSFileExtension", fieldsNTFSFileExtension),
   (b!"pdf-ext", b!"PDFExtension", fieldsPDFExtension),
   (b!"raster-image-ext", b!"RasterImageExtension", fieldsRasterImageExtension),
   (b!"windows-pebinary-ext", b!"WindowsPEBinaryExtension", fieldsWindowsPEBinaryExtension),
   (b!"http-request-ext", b!"HTTPRequestExtension", fieldsHTTPRequestExtension),
   (b!"icmp-ext", b!"ICMPExtension", fieldsICMPExtension),
   (b!"socket-ext", b!"SocketExtension", fieldsSocketExtension),
   (b!"tcp-ext", b!"TCPExtension", fieldsTCPExtension),
   (b!"windows-process-ext", b!"WindowsProcessExtension", fieldsWindowsProcessExtension),
   (b!"windows-service-ext", b!"WindowsServiceExtension", fieldsWindowsServiceExtension),
   (b!"unix-account-ext", b!"UNIXAccountExtension", fieldsUNIXAccountExtension)]

/-- `v` is the right Go value for the extension `j` under the key `k`: a pointer to the struct that
belongs to the key, filled from `j`; or, for another key, a `*CustomObject` with the members of `j`.
Null gives an empty struct or a nil map. -/
inductive ExtValue (F : Canon.FloatFmt) (k : Str) : Json → GV → Prop
  | known {n fs ms f} : (k, n, fs) ∈ extStructs →
      dec F (.struct n fs) (zero (.struct n fs)) (.obj ms) = .ok (.struct f) false →
      ExtValue F k (.obj ms) (.iface k (.struct f))
  | knownNull {n fs} : (k, n, fs) ∈ extStructs →
      ExtValue F k .null (.iface k (.struct (zeroFields fs)))
  | custom {ms m} : (∀ n fs, (k, n, fs) ∉ extStructs) → SortedKeys m →
      (∀ e ∈ ms, ∃ d, decDyn F e.2 = .ok d false) →
      (∀ x, (amLookup x m = none ↔ member x ms = none) ∧
        ∀ d, amLookup x m = some d → ∃ w, member x ms = some w ∧ decDyn F w = .ok d false) →
      ExtValue F k (.obj ms) (.iface [] (.dyn (.obj m)))
  | customNull : (∀ n fs, (k, n, fs) ∉ extStructs) → ExtValue F k .null (.iface [] (.dyn .nil))

/-- The typed extension accessors: method, STIX type it is for, name of the extension in STIX 2.1. -/
def extensionAccessors : List (Str × Str × Str) :=
  [(b!"ArchiveExtension", b!"file", b!"archive-ext"), (b!"NTFSExtension", b!"file", b!"ntfs-ext"),
   (b!"PDFExtension", b!"file", b!"pdf-ext"), (b!"RasterImageExtension", b!"file", b!"raster-image-ext"),
   (b!"WindowsPEBinaryExtension", b!"file", b!"windows-pebinary-ext"),
   (b!"HTTPRequestExtension", b!"network-traffic", b!"http-request-ext"),
   (b!"ICMPExtension", b!"network-traffic", b!"icmp-ext"),
   (b!"SocketExtension", b!"network-traffic", b!"socket-ext"),
   (b!"TCPExtension", b!"network-traffic", b!"tcp-ext"),
   (b!"WindowsProcessExtension", b!"process", b!"windows-process-ext"),
   (b!"WindowsServiceExtension", b!"process", b!"windows-service-ext"),
   (b!"UNIXAccountExtension", b!"user-account", b!"unix-account-ext")]

end Stix.Spec
