import Verif.Props.Messages

/-! # C05: the groups of extensions that no message the client reads uses

`HelloRetryRequestExtension` is declared and not used (C90: a HelloRetryRequest is taken for a ServerHello);
`ClientHelloExtension` is only read back in tests (C75). -/

namespace ETls

/-- RFC 8446 section 4.2, the rows of the table marked HRR. -/
def Spec.permittedInHelloRetryRequest : List ExtensionType := [.keyShare, .cookie, .supportedVersions]

/-- RFC 8446 section 4.2, the rows marked CH, and RFC 8879. -/
def Spec.permittedInClientHello : List ExtensionType :=
  [.serverName, .maxFragmentLength, .statusRequest, .supportedGroups, .signatureAlgorithms, .useSrtp, .heartbeat, .alpn,
   .signedCertificateTimestamp, .clientCertificateType, .serverCertificateType, .padding, .keyShare, .preSharedKey,
   .pskKeyExchangeModes, .earlyData, .cookie, .supportedVersions, .certificateAuthorities, .postHandshakeAuth,
   .signatureAlgorithmsCert, .compressCertificate]

/-- **C05** `HelloRetryRequestExtension` has the types that RFC 8446 permits in a HelloRetryRequest. -/
theorem C05_helloRetryRequest (t : ExtensionType) :
    (helloRetryRequestGroup t).isSome ↔ t ∈ Spec.permittedInHelloRetryRequest := by
  cases t <;> decide

/-- **C05** `ClientHelloExtension` has those permitted in a ClientHello, except that `oid_filters` is there too and
`compress_certificate` is not. -/
theorem C05_clientHello (t : ExtensionType) :
    (clientHelloGroup t).isSome ↔ (t ∈ Spec.permittedInClientHello ∧ t ≠ .compressCertificate) ∨ t = .oidFilters := by
  cases t <;> decide

example : (helloRetryRequestGroup .cookie).isSome ∧ ¬ (helloRetryRequestGroup .serverName).isSome := by decide

end ETls
