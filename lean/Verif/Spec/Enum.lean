import Verif.Gen.Enums

/-!
# The STIX 2.1 vocabularies

The closed vocabularies of the enumerated properties as the STIX 2.1 specification lists them
(section 10), written out here independently of the library: name `i` (from 1) belongs to the
value `i` of the corresponding Go constant block; `extra` is the one value the library adds.
-/

namespace Stix.Spec
open Stix

/-- Defined values and their names. -/
def vocabulary : EnumId → List (UInt8 × Str)
  | .EncryptionAlgorithm =>
    [(1, b!"AES-256-GCM"), (2, b!"ChaCha20-Poly1305"), (3, b!"mime-type-indicated")]
  | .ExtensionType =>
    [(1, b!"new-sdo"), (2, b!"new-sco"), (3, b!"new-sro"), (4, b!"property-extension"),
     (5, b!"toplevel-property-extension")]
  | .SocketAddressFamily =>
    [(1, b!"AF_UNSPEC"), (2, b!"AF_INET"), (3, b!"AF_IPX"), (4, b!"AF_APPLETALK"),
     (5, b!"AF_NETBIOS"), (6, b!"AF_INET6"), (7, b!"AF_IRDA"), (8, b!"AF_BTH")]
  | .SocketType =>
    [(1, b!"SOCK_STREAM"), (2, b!"SOCK_DGRAM"), (3, b!"SOCK_RAW"), (4, b!"SOCK_RDM"),
     (5, b!"SOCK_SEQPACKET")]
  | .OpinionValue =>
    [(1, b!"strongly-disagree"), (2, b!"disagree"), (3, b!"neutral"), (4, b!"agree"),
     (5, b!"strongly-agree")]
  | .WindowsIntegrityLevel => [(1, b!"low"), (2, b!"medium"), (3, b!"high"), (4, b!"system")]
  | .WindowsServiceStartType =>
    [(1, b!"SERVICE_AUTO_START"), (2, b!"SERVICE_BOOT_START"), (3, b!"SERVICE_DEMAND_START"),
     (4, b!"SERVICE_DISABLED"), (5, b!"SERVICE_SYSTEM_ALERT")]
  | .WindowsServiceType =>
    [(1, b!"SERVICE_KERNEL_DRIVER"), (2, b!"SERVICE_FILE_SYSTEM_DRIVER"),
     (3, b!"SERVICE_WIN32_OWN_PROCESS"), (4, b!"SERVICE_WIN32_SHARE_PROCESS")]
  | .WindowsServiceStatusType =>
    [(1, b!"SERVICE_CONTINUE_PENDING"), (2, b!"SERVICE_PAUSE_PENDING"), (3, b!"SERVICE_PAUSED"),
     (4, b!"SERVICE_RUNNING"), (5, b!"SERVICE_START_PENDING"), (6, b!"SERVICE_STOP_PENDING"),
     (7, b!"SERVICE_STOPPED")]
  | .RegistryDataType =>
    [(1, b!"REG_NONE"), (2, b!"REG_SZ"), (3, b!"REG_EXPAND_SZ"), (4, b!"REG_BINARY"),
     (5, b!"REG_DWORD"), (6, b!"REG_DWORD_BIG_ENDIAN"), (7, b!"REG_DWORD_LITTLE_ENDIAN"),
     (8, b!"REG_LINK"), (9, b!"REG_MULTI_SZ"), (10, b!"REG_RESOURCE_LIST"),
     (11, b!"REG_FULL_RESOURCE_DESCRIPTION"), (12, b!"REG_RESOURCE_REQUIREMENTS_LIST"),
     (13, b!"REG_QWORD"), (14, b!"REG_INVALID_TYPE")]

/-- `s` is a name of the enumeration. -/
def IsName (e : EnumId) (s : Str) : Prop := ∃ n, (n, s) ∈ vocabulary e

end Stix.Spec
