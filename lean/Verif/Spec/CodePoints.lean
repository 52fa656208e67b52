import Verif.Model.Codec

/-! # Code points of RFC 8446 (and the IANA registries it points to), written down independently of the model's
tables: lists of (value, number). -/

namespace ETls.Spec

/-- RFC 8446 section 5.1. -/
def contentTypes : List (ContentType × Nat) :=
  [(.invalid, 0), (.changeCipherSpec, 20), (.alert, 21), (.handshake, 22), (.applicationData, 23)]

/-- RFC 8446 section 6. -/
def alertLevels : List (AlertLevel × Nat) := [(.warning, 1), (.fatal, 2)]

/-- RFC 8446 section 6. -/
def alertDescriptions : List (AlertDescription × Nat) :=
  [(.closeNotify, 0), (.unexpectedMessage, 10), (.badRecordMac, 20), (.recordOverflow, 22), (.handshakeFailure, 40),
   (.badCertificate, 42), (.unsupportedCertificate, 43), (.certificateRevoked, 44), (.certificateExpired, 45),
   (.certificateUnknown, 46), (.illegalParameter, 47), (.unknownCa, 48), (.accessDenied, 49), (.decodeError, 50),
   (.decryptError, 51), (.protocolVersion, 70), (.insufficientSecurity, 71), (.internalError, 80),
   (.inappropriateFallback, 86), (.userCanceled, 90), (.missingExtension, 109), (.unsupportedExtension, 110),
   (.unrecognizedName, 112), (.badCertificateStatusResponse, 113), (.unknownPskIdentity, 115),
   (.certificateRequired, 116), (.noApplicationProtocol, 120)]

/-- RFC 8446 section 4. -/
def handshakeTypes : List (HandshakeType × Nat) :=
  [(.clientHello, 1), (.serverHello, 2), (.newSessionTicket, 4), (.endOfEarlyData, 5), (.encryptedExtensions, 8),
   (.certificate, 11), (.certificateRequest, 13), (.certificateVerify, 15), (.finished, 20), (.keyUpdate, 24),
   (.messageHash, 254)]

/-- RFC 8446 section 4.2 and RFC 8879 (compress_certificate). -/
def extensionTypes : List (ExtensionType × Nat) :=
  [(.serverName, 0), (.maxFragmentLength, 1), (.statusRequest, 5), (.supportedGroups, 10), (.signatureAlgorithms, 13),
   (.useSrtp, 14), (.heartbeat, 15), (.alpn, 16), (.signedCertificateTimestamp, 18), (.clientCertificateType, 19),
   (.serverCertificateType, 20), (.padding, 21), (.compressCertificate, 27), (.preSharedKey, 41), (.earlyData, 42),
   (.supportedVersions, 43), (.cookie, 44), (.pskKeyExchangeModes, 45), (.certificateAuthorities, 47),
   (.oidFilters, 48), (.postHandshakeAuth, 49), (.signatureAlgorithmsCert, 50), (.keyShare, 51)]

/-- RFC 8446 section 4.2.7 and the hybrid groups of draft-ietf-tls-ecdhe-mlkem. -/
def namedGroups : List (NamedGroup × Nat) :=
  [(.secp256r1, 23), (.secp384r1, 24), (.secp521r1, 25), (.x25519, 29), (.x448, 30), (.ffdhe2048, 256),
   (.ffdhe3072, 257), (.ffdhe4096, 258), (.ffdhe6144, 259), (.ffdhe8192, 260), (.secP256r1MLKEM768, 4587),
   (.x25519MLKEM768, 4588), (.secP384r1MLKEM1024, 4589)]

/-- RFC 8446 section 4.2.3, RFC 8734 (Brainpool), IANA (ML-DSA, SHA-224). -/
def signatureSchemes : List (SignatureScheme × Nat) :=
  [(.rsaPkcs1Sha256, 1025), (.rsaPkcs1Sha384, 1281), (.rsaPkcs1Sha512, 1537), (.ecdsaSecp256r1Sha256, 1027),
   (.ecdsaSecp384r1Sha384, 1283), (.ecdsaSecp521r1Sha512, 1539), (.rsaPssRsaeSha256, 2052),
   (.rsaPssRsaeSha384, 2053), (.rsaPssRsaeSha512, 2054), (.ed25519, 2055), (.ed448, 2056), (.rsaPssPssSha256, 2057),
   (.rsaPssPssSha384, 2058), (.rsaPssPssSha512, 2059), (.sha224Ecdsa, 771), (.sha224Rsa, 769), (.sha224Dsa, 770),
   (.rsaPkcs1Sha1, 513), (.ecdsaSha1, 515), (.sha256BrainpoolP256r1, 2074), (.sha384BrainpoolP384r1, 2075),
   (.sha512BrainpoolP512r1, 2076), (.mlDsa44, 2308), (.mlDsa65, 2309), (.mlDsa87, 2310)]

/-- RFC 8446 appendix B.4 and RFC 5487. -/
def cipherSuites : List (CipherSuite × Nat) :=
  [(.tlsAes128GcmSha256, 4865), (.tlsAes256GcmSha384, 4866), (.tlsChacha20Poly1305Sha256, 4867),
   (.tlsAes128CcmSha256, 4868), (.tlsAes128Ccm8Sha256, 4869), (.tlsPskAes128GcmSha256, 168)]

/-- RFC 6066 section 4. -/
def maxFragmentLengths : List (MaxFragmentLength × Nat) := [(.bits9, 1), (.bits10, 2), (.bits11, 3), (.bits12, 4)]

/-- RFC 8446 section 4.2.9. -/
def pskModes : List (PskKeyExchangeMode × Nat) := [(.pskKe, 0), (.pskDheKe, 1)]

/-- What it means for an encoder `code` and a decoder `of` to realise a table: they are inverse to each other, they
are the table, and everything else is rejected. -/
structure Realises {α : Type} (table : List (α × Nat)) (code : α → Nat) (of : Nat → Option α) : Prop where
  encode_table : ∀ x, (x, code x) ∈ table
  decode_encode : ∀ x, of (code x) = some x
  encode_decode : ∀ n x, of n = some x → code x = n
  reject : ∀ n, (∀ x, (x, n) ∉ table) → of n = none
  accept : ∀ n x, (x, n) ∈ table → of n = some x

end ETls.Spec
