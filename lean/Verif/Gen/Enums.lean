import Verif.Model.Basic

/-! Generated from /repo by tools/gen.py; do not edit. -/

namespace Stix

/-- The enumerated types (defined types over `uint8`/`byte` with a name table). -/
inductive EnumId where
  /-- artifact.go:81 -/
  | EncryptionAlgorithm
  /-- extension.go:226 -/
  | ExtensionType
  /-- network.go:254 -/
  | SocketAddressFamily
  /-- network.go:318 -/
  | SocketType
  /-- opinion.go:70 -/
  | OpinionValue
  /-- process.go:116 -/
  | WindowsIntegrityLevel
  /-- process.go:191 -/
  | WindowsServiceStartType
  /-- process.go:250 -/
  | WindowsServiceType
  /-- process.go:301 -/
  | WindowsServiceStatusType
  /-- regkey.go:94 -/
  | RegistryDataType
  deriving DecidableEq, Repr

/-- How `UnmarshalJSON` of an enumeration gets at the name. -/
inductive EnumMode where
  /-- `b[1:len(b)-1]` with no length check -/
  | sliced
  /-- `len(b) < 3` yields the zero value, otherwise `b[1:len(b)-1]` -/
  | guarded
  /-- decodes a JSON string first, errors included -/
  | viaString
  deriving DecidableEq, Repr

/-- The name tables (value, name), in source order.
  EncryptionAlgorithm: artifact.go:122-127
  ExtensionType: extension.go:276-283
  SocketAddressFamily: network.go:305-315
  SocketType: network.go:369-376
  OpinionValue: opinion.go:90-96
  WindowsIntegrityLevel: process.go:158-164
  WindowsServiceStartType: process.go:240-247
  WindowsServiceType: process.go:292-298
  WindowsServiceStatusType: process.go:349-358
  RegistryDataType: regkey.go:170-186
-/
def enumTable : EnumId → List (UInt8 × Str)
  | .EncryptionAlgorithm => [(0, []), (1, b!"AES-256-GCM"), (2, b!"ChaCha20-Poly1305"), (3, b!"mime-type-indicated")]
  | .ExtensionType => [(0, []), (1, b!"new-sdo"), (2, b!"new-sco"), (3, b!"new-sro"), (4, b!"property-extension"), (5, b!"toplevel-property-extension")]
  | .SocketAddressFamily => [(0, []), (1, b!"AF_UNSPEC"), (2, b!"AF_INET"), (3, b!"AF_IPX"), (4, b!"AF_APPLETALK"), (5, b!"AF_NETBIOS"), (6, b!"AF_INET6"), (7, b!"AF_IRDA"), (8, b!"AF_BTH")]
  | .SocketType => [(0, []), (1, b!"SOCK_STREAM"), (2, b!"SOCK_DGRAM"), (3, b!"SOCK_RAW"), (4, b!"SOCK_RDM"), (5, b!"SOCK_SEQPACKET")]
  | .OpinionValue => [(1, b!"strongly-disagree"), (2, b!"disagree"), (3, b!"neutral"), (4, b!"agree"), (5, b!"strongly-agree")]
  | .WindowsIntegrityLevel => [(0, []), (1, b!"low"), (2, b!"medium"), (3, b!"high"), (4, b!"system")]
  | .WindowsServiceStartType => [(0, []), (1, b!"SERVICE_AUTO_START"), (2, b!"SERVICE_BOOT_START"), (3, b!"SERVICE_DEMAND_START"), (4, b!"SERVICE_DISABLED"), (5, b!"SERVICE_SYSTEM_ALERT")]
  | .WindowsServiceType => [(0, []), (1, b!"SERVICE_KERNEL_DRIVER"), (2, b!"SERVICE_FILE_SYSTEM_DRIVER"), (3, b!"SERVICE_WIN32_OWN_PROCESS"), (4, b!"SERVICE_WIN32_SHARE_PROCESS")]
  | .WindowsServiceStatusType => [(0, []), (1, b!"SERVICE_CONTINUE_PENDING"), (2, b!"SERVICE_PAUSE_PENDING"), (3, b!"SERVICE_PAUSED"), (4, b!"SERVICE_RUNNING"), (5, b!"SERVICE_START_PENDING"), (6, b!"SERVICE_STOP_PENDING"), (7, b!"SERVICE_STOPPED")]
  | .RegistryDataType => [(0, []), (1, b!"REG_NONE"), (2, b!"REG_SZ"), (3, b!"REG_EXPAND_SZ"), (4, b!"REG_BINARY"), (5, b!"REG_DWORD"), (6, b!"REG_DWORD_BIG_ENDIAN"), (7, b!"REG_DWORD_LITTLE_ENDIAN"), (8, b!"REG_LINK"), (9, b!"REG_MULTI_SZ"), (10, b!"REG_RESOURCE_LIST"), (11, b!"REG_FULL_RESOURCE_DESCRIPTION"), (12, b!"REG_RESOURCE_REQUIREMENTS_LIST"), (13, b!"REG_QWORD"), (14, b!"REG_INVALID_TYPE")]

/-- The decoding style of each enumeration.
  EncryptionAlgorithm: artifact.go:94-104
  ExtensionType: extension.go:239-255
  SocketAddressFamily: network.go:267-281
  SocketType: network.go:331-345
  OpinionValue: opinion.go:112-122
  WindowsIntegrityLevel: process.go:129-143
  WindowsServiceStartType: process.go:204-218
  WindowsServiceType: process.go:263-277
  WindowsServiceStatusType: process.go:314-328
  RegistryDataType: regkey.go:107-121
-/
def enumMode : EnumId → EnumMode
  | .EncryptionAlgorithm => .sliced
  | .ExtensionType => .viaString
  | .SocketAddressFamily => .guarded
  | .SocketType => .guarded
  | .OpinionValue => .sliced
  | .WindowsIntegrityLevel => .guarded
  | .WindowsServiceStartType => .guarded
  | .WindowsServiceType => .guarded
  | .WindowsServiceStatusType => .guarded
  | .RegistryDataType => .guarded

/-- The declared constants of each enumeration (the values of its `const` block). -/
def enumConsts : EnumId → List UInt8
  | .EncryptionAlgorithm => [0, 1, 2, 3]
  | .ExtensionType => [0, 1, 2, 3, 4, 5]
  | .SocketAddressFamily => [0, 1, 2, 3, 4, 5, 6, 7, 8]
  | .SocketType => [0, 1, 2, 3, 4, 5]
  | .OpinionValue => [1, 2, 3, 4, 5]
  | .WindowsIntegrityLevel => [0, 1, 2, 3, 4]
  | .WindowsServiceStartType => [0, 1, 2, 3, 4, 5]
  | .WindowsServiceType => [0, 1, 2, 3, 4]
  | .WindowsServiceStatusType => [0, 1, 2, 3, 4, 5, 6, 7]
  | .RegistryDataType => [0, 1, 2, 3, 4, 5, 6, 7, 8, 9, 10, 11, 12, 13, 14]

def allEnums : List EnumId := [.EncryptionAlgorithm, .ExtensionType, .SocketAddressFamily, .SocketType, .OpinionValue, .WindowsIntegrityLevel, .WindowsServiceStartType, .WindowsServiceType, .WindowsServiceStatusType, .RegistryDataType]

end Stix
