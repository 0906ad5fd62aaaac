import Verif.Props.StdId

/-!
# The identifiers that the tests of the repository expect

Not properties: a check that the model of SHA-1, of the texts that are hashed and of the identifiers
made of them gives, for every identifier that the tests of the repository fix, the one they expect.
The surroundings are `realEnv`.
-/

namespace Stix

/-- The identifier of what a constructor returns without an error. -/
def idOf (c : Ctor) (opts : List (Option Opt)) : Option Str :=
  match c.run realEnv opts with
  | .ret (some o) none => some (o.getStr (b!"ID"))
  | _ => none

/-- The extension of file_test.go:83. -/
def testArchive : GV := .iface ExtArchive (.struct fun n =>
  if n = b!"Contains" then gvStrs (some [b!"file--7c5c7956-5343-5a06-9710-db90e1331cac"])
  else if n = b!"Comment" then .str (b!"test string")
  else zeroFields fieldsArchiveFileExtension n)

/-- The registry value of regkey_test.go:18 (`RegSz` is 2, regkey.go). -/
def testRegistryValue : GV := .struct fun n =>
  if n = b!"Name" then .str (b!"name")
  else if n = b!"Data" then .str (b!"data")
  else if n = b!"DataType" then .enum 2
  else zeroFields fieldsRegistryValue n

/-- data-types_test.go:168 -/
example : newObservableIdentifier Sha1.sha1 (b!"198.51.100.3") (b!"ipv4-addr") =
    b!"ipv4-addr--0ec1740c-3e52-5d42-8659-da680987dff8" := by decide +kernel

/-- as_test.go:64 -/
example : idOf (.autonomousSystem 100)
    [] =
    some (b!"autonomous-system--0a68995b-d4b2-5f3e-810d-1aeeeb0d4b88") := by decide +kernel

/-- bundle_test.go:60 -/
example : idOf (.ipv4 (b!"10.0.0.1"))
    [] =
    some (b!"ipv4-addr--8e9dc7c8-b845-5cfb-9c37-cff3a18e08d6") := by decide +kernel

/-- ip_test.go:57 -/
example : idOf (.ipv4 (b!"10.0.0.2"))
    [] =
    some (b!"ipv4-addr--48a7c3d8-855f-547b-ad6e-a717a7ca79f1") := by decide +kernel

/-- ip_test.go:177 -/
example : idOf (.ipv6 (b!"2001:0db8:85a3:0000:0000:8a2e:0370:7334"))
    [] =
    some (b!"ipv6-addr--569e5b47-8700-54ed-a097-36262ace5b64") := by decide +kernel

/-- directory_test.go:72 -/
example : idOf (.directory (b!"C:\\\\Windows\\\\System32"))
    [] =
    some (b!"directory--4ba604fb-ee79-5983-bc76-49018d75c428") := by decide +kernel

/-- dns_test.go:60 -/
example : idOf (.domainName (b!"example.com"))
    [] =
    some (b!"domain-name--220a2699-5ebf-5b57-bf02-424964bb19c0") := by decide +kernel

/-- email_test.go:66 -/
example : idOf (.emailAddress (b!"john@example.com"))
    [] =
    some (b!"email-addr--bb25a0d1-62dc-5b80-8e8b-adc7867b2c0e") := by decide +kernel

/-- url_test.go:57 -/
example : idOf (.url (b!"https://example.com/research/index.html"))
    [] =
    some (b!"url--19cabd28-b056-5306-bf6c-9997c8ff59a7") := by decide +kernel

/-- mac_test.go:57 -/
example : idOf (.mac (b!"d2:fb:49:24:37:18"))
    [] =
    some (b!"mac-addr--08900593-0265-52fc-93c0-5b4a942f5887") := by decide +kernel

/-- mutex_test.go:57 -/
example : idOf (.mutex (b!"__CLEANSWEEP__"))
    [] =
    some (b!"mutex--840b4dcd-0db1-5190-89c1-1b664c5ab0ea") := by decide +kernel

/-- artifact_test.go:84 -/
example : idOf (.artifact)
    [some (.field OptionPayload (.bin (some (b!"Hello World")))),
     some (.field OptionHashes (gvHashes none))] =
    some (b!"artifact--2640de4e-9baf-5a92-8f14-dcc7628ec983") := by decide +kernel

/-- artifact_test.go:85 -/
example : idOf (.artifact)
    [some (.field OptionPayload (.bin (some (b!"Hello World")))),
     some (.field OptionHashes (gvHashes (some [(b!"SHA-256", b!"2cbb138d4097f05fffeb968b34a4e62884fc4755d7d043e2d3760950f1e1a9ee"), (b!"MD5", b!"0da609bd9ec46237557373f1c5cfcae9")])))] =
    some (b!"artifact--ead91fe9-8a76-5413-9feb-94292e1622ea") := by decide +kernel

/-- artifact_test.go:86 -/
example : idOf (.artifact)
    [some (.field OptionURL (.str (b!"url://"))),
     some (.field OptionHashes (gvHashes (some [(b!"SHA-256", b!"2cbb138d4097f05fffeb968b34a4e62884fc4755d7d043e2d3760950f1e1a9ee"), (b!"MD5", b!"0da609bd9ec46237557373f1c5cfcae9")])))] =
    some (b!"artifact--e9ad4fc1-2f44-538d-98c5-5e226ea95501") := by decide +kernel

/-- file_test.go:91 -/
example : idOf (.file (b!"bad.exe") none)
    [] =
    some (b!"file--77fc2ec7-ef85-57fa-9d5e-9e77693fc739") := by decide +kernel

/-- file_test.go:92 -/
example : idOf (.file (b!"bad.exe") (some [(b!"SHA-1", b!"0f01ed56a1e32a05e5ef96e4d779f34784af9a96")]))
    [] =
    some (b!"file--7c5c7956-5343-5a06-9710-db90e1331cac") := by decide +kernel

/-- file_test.go:93 -/
example : idOf (.file (b!"bad.exe") (some [(b!"SHA-1", b!"0f01ed56a1e32a05e5ef96e4d779f34784af9a96")]))
    [some (.extension ExtArchive testArchive)] =
    some (b!"file--893f22f2-e09e-50b6-b481-b94ac9b51a94") := by decide +kernel

/-- file_test.go:94 -/
example : idOf (.file (b!"bad.exe") (some [(b!"SHA-1", b!"0f01ed56a1e32a05e5ef96e4d779f34784af9a96")]))
    [some (.extension ExtArchive testArchive),
     some (.field OptionParentDirectory (.str (b!"some ref")))] =
    some (b!"file--d233087f-68da-5e20-b3cb-42ad9edb401c") := by decide +kernel

/-- email_test.go:167-194 -/
example : idOf (.emailMessage false)
    [some (.field OptionFrom (.str (b!"email-addr--bb25a0d1-62dc-5b80-8e8b-adc7867b2c0e"))),
     some (.field OptionSubject (.str (b!"Email subject"))),
     some (.field OptionBody (.str (b!"email body")))] =
    some (b!"email-message--a9bd5119-6529-5269-82e3-42e74ba8d35b") := by decide +kernel

/-- email_test.go:167-194 -/
example : idOf (.emailMessage false)
    [some (.field OptionFrom (.str (b!""))),
     some (.field OptionSubject (.str (b!"Email subject"))),
     some (.field OptionBody (.str (b!"email body")))] =
    some (b!"email-message--585c9070-c0c4-54ad-82d0-77516bc0581f") := by decide +kernel

/-- email_test.go:167-194 -/
example : idOf (.emailMessage false)
    [some (.field OptionFrom (.str (b!""))),
     some (.field OptionSubject (.str (b!""))),
     some (.field OptionBody (.str (b!"email body")))] =
    some (b!"email-message--ee3480c0-689f-59d0-b044-333119b86190") := by decide +kernel

/-- email_test.go:167-194 -/
example : idOf (.emailMessage false)
    [some (.field OptionFrom (.str (b!""))),
     some (.field OptionSubject (.str (b!"Email subject"))),
     some (.field OptionBody (.str (b!"")))] =
    some (b!"email-message--af1cb084-05fe-5cfc-a2c8-88248b66eb4d") := by decide +kernel

/-- email_test.go:167-194 -/
example : idOf (.emailMessage false)
    [some (.field OptionFrom (.str (b!"email-addr--bb25a0d1-62dc-5b80-8e8b-adc7867b2c0e"))),
     some (.field OptionSubject (.str (b!""))),
     some (.field OptionBody (.str (b!"")))] =
    some (b!"email-message--7736448c-44b5-5eb1-bca6-f8655f8260d7") := by decide +kernel

/-- network_test.go:116-160 -/
example : idOf (.networkTraffic (some [b!"ipv4", b!"tcp", b!"ssl", b!"https"]))
    [some (.field OptionDst (.str (b!"mac-addr--08900593-0265-52fc-93c0-5b4a942f5887")))] =
    some (b!"network-traffic--bdf93ebb-19c1-58db-9d4d-2375e5b0d4da") := by decide +kernel

/-- network_test.go:116-160 -/
example : idOf (.networkTraffic (some [b!"ipv4", b!"tcp", b!"ssl", b!"https"]))
    [some (.field OptionSrc (.str (b!"mac-addr--08900593-0265-52fc-93c0-5b4a942f5888"))),
     some (.field OptionDst (.str (b!"mac-addr--08900593-0265-52fc-93c0-5b4a942f5887")))] =
    some (b!"network-traffic--f0d9b382-d3dd-5a34-bca5-a9d985971248") := by decide +kernel

/-- network_test.go:116-160 -/
example : idOf (.networkTraffic (some [b!"ipv4", b!"tcp", b!"ssl", b!"https"]))
    [some (.field OptionSrc (.str (b!"mac-addr--08900593-0265-52fc-93c0-5b4a942f5888"))),
     some (.field OptionDst (.str (b!"mac-addr--08900593-0265-52fc-93c0-5b4a942f5887"))),
     some (.field OptionDstPort (.int 443))] =
    some (b!"network-traffic--5346eef2-e610-5cff-8d69-051731f9d256") := by decide +kernel

/-- network_test.go:116-160 -/
example : idOf (.networkTraffic (some [b!"ipv4", b!"tcp", b!"ssl", b!"https"]))
    [some (.field OptionSrc (.str (b!"mac-addr--08900593-0265-52fc-93c0-5b4a942f5888"))),
     some (.field OptionDst (.str (b!"mac-addr--08900593-0265-52fc-93c0-5b4a942f5887"))),
     some (.field OptionSrcPort (.int 1443)),
     some (.field OptionDstPort (.int 443))] =
    some (b!"network-traffic--e85613bc-7c91-54f2-ac60-a424b9db67fe") := by decide +kernel

/-- network_test.go:116-160 -/
example : idOf (.networkTraffic (some [b!"ipv4", b!"tcp", b!"ssl", b!"https"]))
    [some (.field OptionStart (.ptr (some (.time ⟨63620512272123000000, 0⟩)))),
     some (.field OptionSrc (.str (b!"mac-addr--08900593-0265-52fc-93c0-5b4a942f5888"))),
     some (.field OptionDst (.str (b!"mac-addr--08900593-0265-52fc-93c0-5b4a942f5887"))),
     some (.field OptionSrcPort (.int 1443)),
     some (.field OptionDstPort (.int 443))] =
    some (b!"network-traffic--57c9c61e-d5ed-5ea5-91b4-c46d45fd1efb") := by decide +kernel

/-- regkey_test.go:76 -/
example : idOf (.registryKey)
    [some (.field OptionKey (.str (b!"test string")))] =
    some (b!"windows-registry-key--95c4c7a8-d804-505a-be56-e48cf0907412") := by decide +kernel

/-- regkey_test.go:81 -/
example : idOf (.registryKey)
    [some (.field OptionKey (.str (b!"test string"))),
     some (.field OptionValues (.slice (some [.ptr (some testRegistryValue)])))] =
    some (b!"windows-registry-key--a292f379-2da1-5606-a5ae-36124b43ef1b") := by decide +kernel

/-- software_test.go:71-98 -/
example : idOf (.software (b!"Word"))
    [] =
    some (b!"software--b2ad0d37-3ded-5b98-96f6-8fbb994ba540") := by decide +kernel

/-- software_test.go:71-98 -/
example : idOf (.software (b!"Word"))
    [some (.field OptionCPE (.str (b!"cpe:2.3:a:microsoft:word:2000:*:*:*:*:*:*:*")))] =
    some (b!"software--2a04f5b2-6a03-5762-bb36-5fd126e20d6c") := by decide +kernel

/-- software_test.go:71-98 -/
example : idOf (.software (b!"Word"))
    [some (.field OptionCPE (.str (b!"cpe:2.3:a:microsoft:word:2000:*:*:*:*:*:*:*"))),
     some (.field OptionVendor (.str (b!"Microsoft")))] =
    some (b!"software--cfdedf86-ec9c-5769-ae75-2062f68c3313") := by decide +kernel

/-- software_test.go:71-98 -/
example : idOf (.software (b!"Word"))
    [some (.field OptionCPE (.str (b!"cpe:2.3:a:microsoft:word:2000:*:*:*:*:*:*:*"))),
     some (.field OptionVendor (.str (b!"Microsoft"))),
     some (.field OptionVersion (.str (b!"2002")))] =
    some (b!"software--c9ce663b-b8f8-5256-8cd9-3c0db09808dd") := by decide +kernel

/-- user_test.go:89-106 -/
example : idOf (.userAccount)
    [some (.field OptionAccountType (.str (b!"unix")))] =
    some (b!"user-account--5e8f515f-35db-5c9b-b413-65cc81740e1b") := by decide +kernel

/-- user_test.go:89-106 -/
example : idOf (.userAccount)
    [some (.field OptionAccountType (.str (b!"unix"))),
     some (.field OptionUserID (.str (b!"1001")))] =
    some (b!"user-account--d7498183-59da-5cbd-98a3-d9c95ea4276c") := by decide +kernel

/-- user_test.go:89-106 -/
example : idOf (.userAccount)
    [some (.field OptionAccountType (.str (b!"unix"))),
     some (.field OptionUserID (.str (b!"1001"))),
     some (.field OptionAccountLogin (.str (b!"jdoe")))] =
    some (b!"user-account--ac9fed0c-94ad-5651-8630-7ac1f6ea0c67") := by decide +kernel

/-- x509_test.go:92 -/
example : idOf (.x509)
    [some (.field OptionSerialNumber (.str (b!"test string")))] =
    some (b!"x509-certificate--95c4c7a8-d804-505a-be56-e48cf0907412") := by decide +kernel

/-- x509_test.go:97 -/
example : idOf (.x509)
    [some (.field OptionSerialNumber (.str (b!"test string"))),
     some (.field OptionHashes (gvHashes (some [(b!"SHA-1", b!"0f01ed56a1e32a05e5ef96e4d779f34784af9a96")])))] =
    some (b!"x509-certificate--72619740-49d8-56c5-a082-639ff2c8f0a6") := by decide +kernel

end Stix
