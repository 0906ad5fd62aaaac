import Verif.Gen.Structs

/-! Generated from /repo by tools/gen.py; do not edit. -/

namespace Stix

/-- Methods that return an extension (file.go:60-66, file.go:69-75,
file.go:78-84, file.go:87-93, file.go:97-103, network.go:97-103, network.go:106-112,
network.go:115-121, network.go:124-130, process.go:53-59, process.go:63-69, user.go:73-79): method, receiver, key, Go type asserted. -/
def extGetters : List (Str × SId × Str × Str) :=
  [(b!"ArchiveExtension", .File, ExtArchive, b!"ArchiveFileExtension"),
   (b!"NTFSExtension", .File, ExtNTFS, b!"NTFSFileExtension"),
   (b!"PDFExtension", .File, ExtPDF, b!"PDFExtension"),
   (b!"RasterImageExtension", .File, ExtRasterImage, b!"RasterImageExtension"),
   (b!"WindowsPEBinaryExtension", .File, ExtWindowsPEBinary, b!"WindowsPEBinaryExtension"),
   (b!"HTTPRequestExtension", .NetworkTraffic, ExtHTTPRequest, b!"HTTPRequestExtension"),
   (b!"ICMPExtension", .NetworkTraffic, ExtICMP, b!"ICMPExtension"),
   (b!"SocketExtension", .NetworkTraffic, ExtSocket, b!"SocketExtension"),
   (b!"TCPExtension", .NetworkTraffic, ExtTCP, b!"TCPExtension"),
   (b!"WindowsProcessExtension", .Process, ExtWindowsProcess, b!"WindowsProcessExtension"),
   (b!"WindowsServiceExtension", .Process, ExtWindowsService, b!"WindowsServiceExtension"),
   (b!"UNIXAccountExtension", .UserAccount, ExtUnixAccount, b!"UNIXAccountExtension")]

end Stix
