import Verif.Model.ParseBuffer
import Verif.Model.CryptoBuffer

/-! # Enumerations with wire code points, and alerts

`X.code` is the number written on the wire, `X.of` the table used when parsing. -/

namespace ETls

/-- `alert.rs:7-10` discriminants. -/
def AlertLevel.code : AlertLevel → Nat
  | .warning => 1
  | .fatal => 2

/-- `alert.rs:14-20` `AlertLevel::of`. -/
def AlertLevel.of (n : Nat) : Option AlertLevel :=
  match n with
  | 1 => some .warning
  | 2 => some .fatal
  | _ => none

/-- `alert.rs:25-53` discriminants. -/
def AlertDescription.code : AlertDescription → Nat
  | .closeNotify => 0
  | .unexpectedMessage => 10
  | .badRecordMac => 20
  | .recordOverflow => 22
  | .handshakeFailure => 40
  | .badCertificate => 42
  | .unsupportedCertificate => 43
  | .certificateRevoked => 44
  | .certificateExpired => 45
  | .certificateUnknown => 46
  | .illegalParameter => 47
  | .unknownCa => 48
  | .accessDenied => 49
  | .decodeError => 50
  | .decryptError => 51
  | .protocolVersion => 70
  | .insufficientSecurity => 71
  | .internalError => 80
  | .inappropriateFallback => 86
  | .userCanceled => 90
  | .missingExtension => 109
  | .unsupportedExtension => 110
  | .unrecognizedName => 112
  | .badCertificateStatusResponse => 113
  | .unknownPskIdentity => 115
  | .certificateRequired => 116
  | .noApplicationProtocol => 120

/-- `alert.rs:57-88` `AlertDescription::of`. -/
def AlertDescription.of (n : Nat) : Option AlertDescription :=
  match n with
  | 0 => some .closeNotify
  | 10 => some .unexpectedMessage
  | 20 => some .badRecordMac
  | 22 => some .recordOverflow
  | 40 => some .handshakeFailure
  | 42 => some .badCertificate
  | 43 => some .unsupportedCertificate
  | 44 => some .certificateRevoked
  | 45 => some .certificateExpired
  | 46 => some .certificateUnknown
  | 47 => some .illegalParameter
  | 48 => some .unknownCa
  | 49 => some .accessDenied
  | 50 => some .decodeError
  | 51 => some .decryptError
  | 70 => some .protocolVersion
  | 71 => some .insufficientSecurity
  | 80 => some .internalError
  | 86 => some .inappropriateFallback
  | 90 => some .userCanceled
  | 109 => some .missingExtension
  | 110 => some .unsupportedExtension
  | 112 => some .unrecognizedName
  | 113 => some .badCertificateStatusResponse
  | 115 => some .unknownPskIdentity
  | 116 => some .certificateRequired
  | 120 => some .noApplicationProtocol
  | _ => none

/-- `content_types.rs:3-9` `ContentType`. -/
inductive ContentType where
  | invalid
  | changeCipherSpec
  | alert
  | handshake
  | applicationData
deriving DecidableEq, Repr

/-- `content_types.rs:3-9` discriminants. -/
def ContentType.code : ContentType → Nat
  | .invalid => 0
  | .changeCipherSpec => 20
  | .alert => 21
  | .handshake => 22
  | .applicationData => 23

/-- `content_types.rs:12-21` `ContentType::of`. -/
def ContentType.of (n : Nat) : Option ContentType :=
  match n with
  | 0 => some .invalid
  | 20 => some .changeCipherSpec
  | 21 => some .alert
  | 22 => some .handshake
  | 23 => some .applicationData
  | _ => none

/-- `handshake/mod.rs:34-46` `HandshakeType`. -/
inductive HandshakeType where
  | clientHello
  | serverHello
  | newSessionTicket
  | endOfEarlyData
  | encryptedExtensions
  | certificate
  | certificateRequest
  | certificateVerify
  | finished
  | keyUpdate
  | messageHash
deriving DecidableEq, Repr

/-- `handshake/mod.rs:34-46` discriminants. -/
def HandshakeType.code : HandshakeType → Nat
  | .clientHello => 1
  | .serverHello => 2
  | .newSessionTicket => 4
  | .endOfEarlyData => 5
  | .encryptedExtensions => 8
  | .certificate => 11
  | .certificateRequest => 13
  | .certificateVerify => 15
  | .finished => 20
  | .keyUpdate => 24
  | .messageHash => 254

/-- `handshake/mod.rs:49-64` the table of `HandshakeType::parse`. -/
def HandshakeType.of (n : Nat) : Option HandshakeType :=
  match n with
  | 1 => some .clientHello
  | 2 => some .serverHello
  | 4 => some .newSessionTicket
  | 5 => some .endOfEarlyData
  | 8 => some .encryptedExtensions
  | 11 => some .certificate
  | 13 => some .certificateRequest
  | 15 => some .certificateVerify
  | 20 => some .finished
  | 24 => some .keyUpdate
  | 254 => some .messageHash
  | _ => none

/-- `extensions/mod.rs:14-38` `ExtensionType` (`alpn` is `ApplicationLayerProtocolNegotiation`). -/
inductive ExtensionType where
  | serverName
  | maxFragmentLength
  | statusRequest
  | supportedGroups
  | signatureAlgorithms
  | useSrtp
  | heartbeat
  | alpn
  | signedCertificateTimestamp
  | clientCertificateType
  | serverCertificateType
  | padding
  | compressCertificate
  | preSharedKey
  | earlyData
  | supportedVersions
  | cookie
  | pskKeyExchangeModes
  | certificateAuthorities
  | oidFilters
  | postHandshakeAuth
  | signatureAlgorithmsCert
  | keyShare
deriving DecidableEq, Repr

/-- `extensions/mod.rs:14-38` discriminants. -/
def ExtensionType.code : ExtensionType → Nat
  | .serverName => 0
  | .maxFragmentLength => 1
  | .statusRequest => 5
  | .supportedGroups => 10
  | .signatureAlgorithms => 13
  | .useSrtp => 14
  | .heartbeat => 15
  | .alpn => 16
  | .signedCertificateTimestamp => 18
  | .clientCertificateType => 19
  | .serverCertificateType => 20
  | .padding => 21
  | .compressCertificate => 27
  | .preSharedKey => 41
  | .earlyData => 42
  | .supportedVersions => 43
  | .cookie => 44
  | .pskKeyExchangeModes => 45
  | .certificateAuthorities => 47
  | .oidFilters => 48
  | .postHandshakeAuth => 49
  | .signatureAlgorithmsCert => 50
  | .keyShare => 51

/-- `extensions/mod.rs:41-75` the table of `ExtensionType::parse`. -/
def ExtensionType.of (n : Nat) : Option ExtensionType :=
  match n with
  | 0 => some .serverName
  | 1 => some .maxFragmentLength
  | 5 => some .statusRequest
  | 10 => some .supportedGroups
  | 13 => some .signatureAlgorithms
  | 14 => some .useSrtp
  | 15 => some .heartbeat
  | 16 => some .alpn
  | 18 => some .signedCertificateTimestamp
  | 19 => some .clientCertificateType
  | 20 => some .serverCertificateType
  | 21 => some .padding
  | 27 => some .compressCertificate
  | 41 => some .preSharedKey
  | 42 => some .earlyData
  | 43 => some .supportedVersions
  | 44 => some .cookie
  | 45 => some .pskKeyExchangeModes
  | 47 => some .certificateAuthorities
  | 48 => some .oidFilters
  | 49 => some .postHandshakeAuth
  | 50 => some .signatureAlgorithmsCert
  | 51 => some .keyShare
  | _ => none

/-- `extension_data/supported_groups.rs:11-30` `NamedGroup`. -/
inductive NamedGroup where
  | secp256r1
  | secp384r1
  | secp521r1
  | x25519
  | x448
  | ffdhe2048
  | ffdhe3072
  | ffdhe4096
  | ffdhe6144
  | ffdhe8192
  | secP256r1MLKEM768
  | x25519MLKEM768
  | secP384r1MLKEM1024
deriving DecidableEq, Repr

/-- `supported_groups.rs:55-73` `as_u16`. -/
def NamedGroup.code : NamedGroup → Nat
  | .secp256r1 => 0x0017
  | .secp384r1 => 0x0018
  | .secp521r1 => 0x0019
  | .x25519 => 0x001D
  | .x448 => 0x001E
  | .ffdhe2048 => 0x0100
  | .ffdhe3072 => 0x0101
  | .ffdhe4096 => 0x0102
  | .ffdhe6144 => 0x0103
  | .ffdhe8192 => 0x0104
  | .secP256r1MLKEM768 => 0x11EB
  | .x25519MLKEM768 => 0x11EC
  | .secP384r1MLKEM1024 => 0x11ED

/-- `supported_groups.rs:33-53` the table of `NamedGroup::parse`. -/
def NamedGroup.of (n : Nat) : Option NamedGroup :=
  match n with
  | 0x0017 => some .secp256r1
  | 0x0018 => some .secp384r1
  | 0x0019 => some .secp521r1
  | 0x001D => some .x25519
  | 0x001E => some .x448
  | 0x0100 => some .ffdhe2048
  | 0x0101 => some .ffdhe3072
  | 0x0102 => some .ffdhe4096
  | 0x0103 => some .ffdhe6144
  | 0x0104 => some .ffdhe8192
  | 0x11EB => some .secP256r1MLKEM768
  | 0x11EC => some .x25519MLKEM768
  | 0x11ED => some .secP384r1MLKEM1024
  | _ => none

/-- `extension_data/signature_algorithms.rs:11-56` `SignatureScheme`. -/
inductive SignatureScheme where
  | rsaPkcs1Sha256
  | rsaPkcs1Sha384
  | rsaPkcs1Sha512
  | ecdsaSecp256r1Sha256
  | ecdsaSecp384r1Sha384
  | ecdsaSecp521r1Sha512
  | rsaPssRsaeSha256
  | rsaPssRsaeSha384
  | rsaPssRsaeSha512
  | ed25519
  | ed448
  | rsaPssPssSha256
  | rsaPssPssSha384
  | rsaPssPssSha512
  | sha224Ecdsa
  | sha224Rsa
  | sha224Dsa
  | rsaPkcs1Sha1
  | ecdsaSha1
  | sha256BrainpoolP256r1
  | sha384BrainpoolP384r1
  | sha512BrainpoolP512r1
  | mlDsa44
  | mlDsa65
  | mlDsa87
deriving DecidableEq, Repr

/-- `signature_algorithms.rs:100-136` `as_u16`. -/
def SignatureScheme.code : SignatureScheme → Nat
  | .rsaPkcs1Sha256 => 0x0401
  | .rsaPkcs1Sha384 => 0x0501
  | .rsaPkcs1Sha512 => 0x0601
  | .ecdsaSecp256r1Sha256 => 0x0403
  | .ecdsaSecp384r1Sha384 => 0x0503
  | .ecdsaSecp521r1Sha512 => 0x0603
  | .rsaPssRsaeSha256 => 0x0804
  | .rsaPssRsaeSha384 => 0x0805
  | .rsaPssRsaeSha512 => 0x0806
  | .ed25519 => 0x0807
  | .ed448 => 0x0808
  | .rsaPssPssSha256 => 0x0809
  | .rsaPssPssSha384 => 0x080a
  | .rsaPssPssSha512 => 0x080b
  | .sha224Ecdsa => 0x0303
  | .sha224Rsa => 0x0301
  | .sha224Dsa => 0x0302
  | .rsaPkcs1Sha1 => 0x0201
  | .ecdsaSha1 => 0x0203
  | .sha256BrainpoolP256r1 => 0x081A
  | .sha384BrainpoolP384r1 => 0x081B
  | .sha512BrainpoolP512r1 => 0x081C
  | .mlDsa44 => 0x0904
  | .mlDsa65 => 0x0905
  | .mlDsa87 => 0x0906

/-- `signature_algorithms.rs:59-97` the table of `SignatureScheme::parse`. -/
def SignatureScheme.of (n : Nat) : Option SignatureScheme :=
  match n with
  | 0x0401 => some .rsaPkcs1Sha256
  | 0x0501 => some .rsaPkcs1Sha384
  | 0x0601 => some .rsaPkcs1Sha512
  | 0x0403 => some .ecdsaSecp256r1Sha256
  | 0x0503 => some .ecdsaSecp384r1Sha384
  | 0x0603 => some .ecdsaSecp521r1Sha512
  | 0x0804 => some .rsaPssRsaeSha256
  | 0x0805 => some .rsaPssRsaeSha384
  | 0x0806 => some .rsaPssRsaeSha512
  | 0x0807 => some .ed25519
  | 0x0808 => some .ed448
  | 0x0809 => some .rsaPssPssSha256
  | 0x080a => some .rsaPssPssSha384
  | 0x080b => some .rsaPssPssSha512
  | 0x0303 => some .sha224Ecdsa
  | 0x0301 => some .sha224Rsa
  | 0x0302 => some .sha224Dsa
  | 0x0201 => some .rsaPkcs1Sha1
  | 0x0203 => some .ecdsaSha1
  | 0x081A => some .sha256BrainpoolP256r1
  | 0x081B => some .sha384BrainpoolP384r1
  | 0x081C => some .sha512BrainpoolP512r1
  | 0x0904 => some .mlDsa44
  | 0x0905 => some .mlDsa65
  | 0x0906 => some .mlDsa87
  | _ => none

/-- `cipher_suites.rs:5-12` `CipherSuite`. -/
inductive CipherSuite where
  | tlsAes128GcmSha256
  | tlsAes256GcmSha384
  | tlsChacha20Poly1305Sha256
  | tlsAes128CcmSha256
  | tlsAes128Ccm8Sha256
  | tlsPskAes128GcmSha256
deriving DecidableEq, Repr

/-- `cipher_suites.rs:5-12` discriminants. -/
def CipherSuite.code : CipherSuite → Nat
  | .tlsAes128GcmSha256 => 0x1301
  | .tlsAes256GcmSha384 => 0x1302
  | .tlsChacha20Poly1305Sha256 => 0x1303
  | .tlsAes128CcmSha256 => 0x1304
  | .tlsAes128Ccm8Sha256 => 0x1305
  | .tlsPskAes128GcmSha256 => 0x00A8

/-- `cipher_suites.rs:15-25` the table of `CipherSuite::parse`. -/
def CipherSuite.of (n : Nat) : Option CipherSuite :=
  match n with
  | 0x1301 => some .tlsAes128GcmSha256
  | 0x1302 => some .tlsAes256GcmSha384
  | 0x1303 => some .tlsChacha20Poly1305Sha256
  | 0x1304 => some .tlsAes128CcmSha256
  | 0x1305 => some .tlsAes128Ccm8Sha256
  | 0x00A8 => some .tlsPskAes128GcmSha256
  | _ => none

/-- `extension_data/max_fragment_length.rs:16-25` `MaxFragmentLength`. -/
inductive MaxFragmentLength where
  | bits9
  | bits10
  | bits11
  | bits12
deriving DecidableEq, Repr

/-- `max_fragment_length.rs:16-25` discriminants. -/
def MaxFragmentLength.code : MaxFragmentLength → Nat
  | .bits9 => 1
  | .bits10 => 2
  | .bits11 => 3
  | .bits12 => 4

/-- `max_fragment_length.rs:28-39` the table of `MaxFragmentLength::parse`. -/
def MaxFragmentLength.of (n : Nat) : Option MaxFragmentLength :=
  match n with
  | 1 => some .bits9
  | 2 => some .bits10
  | 3 => some .bits11
  | 4 => some .bits12
  | _ => none

/-- `extension_data/psk_key_exchange_modes.rs:10-13` `PskKeyExchangeMode`. -/
inductive PskKeyExchangeMode where
  | pskKe
  | pskDheKe
deriving DecidableEq, Repr

/-- `psk_key_exchange_modes.rs:10-13` discriminants. -/
def PskKeyExchangeMode.code : PskKeyExchangeMode → Nat
  | .pskKe => 0
  | .pskDheKe => 1

/-- `psk_key_exchange_modes.rs:15-24` the table of `PskKeyExchangeMode::parse`. -/
def PskKeyExchangeMode.of (n : Nat) : Option PskKeyExchangeMode :=
  match n with
  | 0 => some .pskKe
  | 1 => some .pskDheKe
  | _ => none

/-- The common shape of the `X::parse` functions: read a number, look it up, `InvalidData` if unknown. -/
def parseCode {α : Type} (read : P Nat) (tbl : Nat → Option α) : P α := do
  let n ← read
  match tbl n with
  | some a => pure a
  | none => M.fail .invalidData

/-- `handshake/mod.rs:49-64`. -/
def HandshakeType.parse : P HandshakeType := parseCode PB.readU8 HandshakeType.of
/-- `extensions/mod.rs:41-75`. -/
def ExtensionType.parse : P ExtensionType := parseCode PB.readU16 ExtensionType.of
/-- `supported_groups.rs:33-53`. -/
def NamedGroup.parse : P NamedGroup := parseCode PB.readU16 NamedGroup.of
/-- `signature_algorithms.rs:59-97`. -/
def SignatureScheme.parse : P SignatureScheme := parseCode PB.readU16 SignatureScheme.of
/-- `cipher_suites.rs:15-25`. -/
def CipherSuite.parse : P CipherSuite := parseCode PB.readU16 CipherSuite.of
/-- `max_fragment_length.rs:28-39`. -/
def MaxFragmentLength.parse : P MaxFragmentLength := parseCode PB.readU8 MaxFragmentLength.of
/-- `psk_key_exchange_modes.rs:15-24`. -/
def PskKeyExchangeMode.parse : P PskKeyExchangeMode := parseCode PB.readU8 PskKeyExchangeMode.of

/-- `alert.rs:93-96` `Alert`. -/
structure Alert where
  level : AlertLevel
  description : AlertDescription
deriving DecidableEq, Repr

/-- `alert.rs:104-112` `Alert::parse`. -/
def Alert.parse : PT Alert := do
  let level ← PB.readU8.toT
  let desc ← PB.readU8.toT
  match AlertLevel.of level with
  | none => M.fail .decodeError
  | some l =>
    match AlertDescription.of desc with
    | none => M.fail .decodeError
    | some d => pure ⟨l, d⟩

/-- `alert.rs:114-120` `Alert::encode`. -/
def Alert.encode (a : Alert) : Enc Unit := do
  (CB.push (UInt8.ofNat a.level.code)).orEncodeError
  (CB.push (UInt8.ofNat a.description.code)).orEncodeError

/-- `change_cipher_spec.rs:15-19` `ChangeCipherSpec::read`: content is not looked at. -/
def changeCipherSpecRead : Bytes → Res TlsError Unit := fun _ => .ok ()

end ETls
