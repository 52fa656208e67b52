import Verif.Spec.CodePoints

/-! # Wire format of the messages a TLS 1.3 server sends (RFC 8446 section 4), as byte strings

Independent of the model's parsers: only big-endian numbers and concatenation. -/

namespace ETls.Spec

/-- An extension: 16-bit type and opaque data (RFC 8446 section 4.2). -/
structure RawExt where
  ty : Nat
  data : Bytes
deriving DecidableEq, Repr

/-- `ExtensionType extension_type; opaque extension_data<0..2^16-1>;` -/
def RawExt.bytes (e : RawExt) : Bytes := be16 e.ty ++ (be16 e.data.length ++ e.data)

/-- `Extension extensions<0..2^16-1>;` -/
def extVec (xs : List RawExt) : Bytes := be16 (xs.flatMap RawExt.bytes).length ++ xs.flatMap RawExt.bytes

/-- The numbers and lengths fit their fields. -/
def ExtsSized (xs : List RawExt) : Prop :=
  (∀ e ∈ xs, e.ty < 65536 ∧ e.data.length < 65536) ∧ (xs.flatMap RawExt.bytes).length < 65536

instance (xs : List RawExt) : Decidable (ExtsSized xs) := by unfold ExtsSized; infer_instance

/-- The server messages that carry extensions. -/
inductive ExtMsg where
  | serverHello | encryptedExtensions | certificateRequest | certificate | newSessionTicket
deriving DecidableEq, Repr

/-- RFC 8446 section 4.2: which of the known extension types are permitted in which server message (ServerHello
and HelloRetryRequest share the handshake type, hence `cookie`; `compress_certificate` is RFC 8879). -/
def permitted : ExtMsg → List ExtensionType
  | .serverHello => [.keyShare, .preSharedKey, .cookie, .supportedVersions]
  | .encryptedExtensions =>
    [.serverName, .maxFragmentLength, .supportedGroups, .useSrtp, .heartbeat, .alpn, .clientCertificateType,
     .serverCertificateType, .earlyData]
  | .certificateRequest =>
    [.statusRequest, .signatureAlgorithms, .signedCertificateTimestamp, .certificateAuthorities, .oidFilters,
     .signatureAlgorithmsCert, .compressCertificate]
  | .certificate => [.statusRequest, .signedCertificateTimestamp]
  | .newSessionTicket => [.earlyData]

/-- A server handshake message as its fields. -/
inductive RawMsg where
  | serverHello (version : Nat) (random sessionId : Bytes) (cipherSuite : Nat) (compression : UInt8)
      (exts : List RawExt)
  | encryptedExtensions (exts : List RawExt)
  | certificateRequest (context : Bytes) (exts : List RawExt)
  | certificate (context : Bytes) (entries : List (Bytes × List RawExt))
  | certificateVerify (scheme : Nat) (signature : Bytes)
  | finished (verify : Bytes)
  | newSessionTicket (lifetime ageAdd : Nat) (nonce ticket : Bytes) (exts : List RawExt)
deriving DecidableEq, Repr

/-- Handshake type (RFC 8446 section 4). -/
def RawMsg.type : RawMsg → UInt8
  | .serverHello .. => 2
  | .encryptedExtensions _ => 8
  | .certificateRequest .. => 13
  | .certificate .. => 11
  | .certificateVerify .. => 15
  | .finished _ => 20
  | .newSessionTicket .. => 4

/-- `opaque cert_data<1..2^24-1>; Extension extensions<0..2^16-1>;` -/
def certEntryBytes (e : Bytes × List RawExt) : Bytes := be24 e.1.length ++ (e.1 ++ extVec e.2)

/-- The body of the message. -/
def RawMsg.body : RawMsg → Bytes
  | .serverHello v r sid cs comp xs =>
    be16 v ++ (r ++ (UInt8.ofNat sid.length :: (sid ++ (be16 cs ++ (comp :: extVec xs)))))
  | .encryptedExtensions xs => extVec xs
  | .certificateRequest ctx xs => UInt8.ofNat ctx.length :: (ctx ++ extVec xs)
  | .certificate ctx es =>
    UInt8.ofNat ctx.length :: (ctx ++ (be24 (es.flatMap certEntryBytes).length ++ es.flatMap certEntryBytes))
  | .certificateVerify s sig => be16 s ++ (be16 sig.length ++ sig)
  | .finished v => v
  | .newSessionTicket lt aa n t xs =>
    be32 lt ++ (be32 aa ++ (UInt8.ofNat n.length :: (n ++ (be16 t.length ++ (t ++ extVec xs)))))

/-- `HandshakeType msg_type; uint24 length; body`. -/
def RawMsg.bytes (m : RawMsg) : Bytes := m.type :: (be24 m.body.length ++ m.body)

/-- All numbers and lengths fit their fields, and the parts with a fixed size or a closed set of values are as RFC
8446 prescribes for the hash length `hl`. -/
def RawMsg.WellSized (hl : Nat) : RawMsg → Prop
  | .serverHello v r sid cs _ xs =>
    v < 65536 ∧ r.length = 32 ∧ sid.length < 256 ∧ (∃ c, (c, cs) ∈ cipherSuites) ∧ ExtsSized xs
  | .encryptedExtensions xs => ExtsSized xs
  | .certificateRequest ctx xs => ctx.length < 256 ∧ ExtsSized xs
  | .certificate ctx es =>
    ctx.length < 256 ∧ (∀ e ∈ es, e.1.length < 16777216 ∧ ExtsSized e.2) ∧
      (es.flatMap certEntryBytes).length < 16777216
  | .certificateVerify s sig => (∃ c, (c, s) ∈ signatureSchemes) ∧ sig.length < 65536
  | .finished v => v.length = hl
  | .newSessionTicket lt aa n t xs =>
    lt < 4294967296 ∧ aa < 4294967296 ∧ n.length < 256 ∧ t.length < 65536 ∧ ExtsSized xs

end ETls.Spec
