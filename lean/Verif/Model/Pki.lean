import Verif.Model.Conn
import Verif.Model.Hostname

/-!
# The native certificate verifier (`pki.rs`, `der_certificate.rs`)

The ASN.1 decoder (crate `der`) and the signature algorithms (crates `p256`, `p384`, `ed25519-dalek`, `rsa`) are
parameters, collected in `PkiLib`.
-/

namespace ETls

/-- An object identifier as the list of its arcs. -/
abbrev Oid := List Nat

/-- `der_certificate.rs:18-22` `AlgorithmIdentifier`; `AnyRef` is a tag byte and a value. -/
structure AlgId where
  oid : Oid
  params : Option (UInt8 × Bytes)
deriving DecidableEq, Repr

/-- `der_certificate.rs:94-98` `AttributeTypeAndValue`: identifier and value bytes. -/
structure Attr where
  oid : Oid
  value : Bytes
deriving DecidableEq, Repr

/-- `der_certificate.rs:112-117` `ExtensionIdAndValue`; `extn_value` is a tag byte and a value. -/
structure CertExt where
  id : Oid
  critical : Option Bool
  tag : UInt8
  value : Bytes
deriving DecidableEq, Repr

/-- `der_certificate.rs:86-92,169-191` `DecodedCertificate` with its `TbsCertificate`: the fields the code reads, and the
issuer.  `publicKey` and `signature` are `BitStringRef::as_bytes`, i.e. `none` if the number of bits is not a multiple of
eight; times are the seconds `get_cert_time` (`pki.rs:283-288`) computes. -/
structure DecodedCert where
  issuer : List (List Attr)
  subject : List (List Attr)
  notBefore : Nat
  notAfter : Nat
  publicKey : Option Bytes
  extensions : Option (List CertExt)
  sigAlg : AlgId
  signature : Option Bytes
deriving DecidableEq, Repr

/-- The signature algorithms `pki.rs` uses. -/
inductive SigAlgo where
  | ecdsaP256Sha256 | ecdsaP384Sha384 | ed25519
  | rsaPkcs1Sha256 | rsaPkcs1Sha384 | rsaPkcs1Sha512
  | rsaPssSha256 | rsaPssSha384 | rsaPssSha512
deriving DecidableEq, Repr

/-- The external libraries. -/
structure PkiLib where
  /-- `DecodedCertificate::from_der` (derived by the crate `der`) -/
  fromDer : Bytes → Option DecodedCert
  /-- `der::Header::decode` at the start of the bytes: how long the header is and the length it announces -/
  header : Bytes → Option (Nat × Nat)
  /-- a header is not empty and is read from the bytes -/
  header_pos : ∀ b h n, header b = some (h, n) → 1 ≤ h ∧ h ≤ b.length
  /-- `core::str::from_utf8` succeeds -/
  utf8 : Bytes → Bool
  /-- the verifying key can be decoded -/
  keyOk : SigAlgo → Bytes → Bool
  /-- the signature can be decoded -/
  sigOk : SigAlgo → Bytes → Bool
  /-- the signature (last argument) of the message verifies under the key -/
  verify : SigAlgo → Bytes → Bytes → Bytes → Bool

/-- `Cargo.toml:63-66`: the features that add algorithms. -/
structure Features where
  p384 : Bool
  ed25519 : Bool
  rsa : Bool
deriving DecidableEq, Repr

/-- `der_certificate.rs:15` -/
def oidCommonName : Oid := [2, 5, 4, 3]
/-- `der_certificate.rs:16` -/
def oidSubjectAltName : Oid := [2, 5, 29, 17]
/-- `der_certificate.rs:31-34` -/
def algEcdsaSha256 : AlgId := ⟨[1, 2, 840, 10045, 4, 3, 2], none⟩
/-- `der_certificate.rs:35-39` -/
def algEcdsaSha384 : AlgId := ⟨[1, 2, 840, 10045, 4, 3, 3], none⟩
/-- `der_certificate.rs:40-44` -/
def algEd25519 : AlgId := ⟨[1, 3, 101, 112], none⟩
/-- `der_certificate.rs:46-49`; `AnyRef::NULL` has tag 5 and no content. -/
def algRsaSha256 : AlgId := ⟨[1, 2, 840, 113549, 1, 1, 11], some (5, [])⟩
/-- `der_certificate.rs:50-54` -/
def algRsaSha384 : AlgId := ⟨[1, 2, 840, 113549, 1, 1, 12], some (5, [])⟩
/-- `der_certificate.rs:55-59` -/
def algRsaSha512 : AlgId := ⟨[1, 2, 840, 113549, 1, 1, 13], some (5, [])⟩

variable (L : PkiLib)

/-- `der_certificate.rs:200-221` `extract_common_name`: the loop over the subject, with the name found so far. -/
def extractCommonName : List (List Attr) → Option Bytes → Res Unit (Option Bytes)
  | [], cn => .ok cn
  | elems :: rest, cn =>
    match elems with
    | [] => .err ()
    | a :: _ =>
      if a.oid = oidCommonName then
        if a.value.length ≤ 64 then extractCommonName rest (if L.utf8 a.value then some a.value else none)
        else .err ()
      else extractCommonName rest cn

/-- `Reader::read_slice`. -/
def derSlice (n : Nat) (b : Bytes) : Option (Bytes × Bytes) :=
  if n ≤ b.length then some (b.take n, b.drop n) else none

/-- `der_certificate.rs:251-277`: the loop over the GeneralNames. -/
def sanLoop : Nat → Bytes → List Bytes → Res Unit (List Bytes)
  | 0, _, _ => .panic
  | fuel + 1, b, names =>
    match b with
    | [] => .ok names
    | tag :: _ =>
      match L.header b with
      | none => .err ()
      | some (h, n) =>
        match derSlice n (b.drop h) with
        | none => .err ()
        | some (value, rest) =>
          if tag = 0x82 then
            if L.utf8 value && value.length ≤ 64 then
              let names := if names.length < 3 then names ++ [value] else names
              if names.length = 3 then .ok names else sanLoop fuel rest names
            else .err ()
          else sanLoop fuel rest names

/-- `der_certificate.rs:245-250`: one subjectAltName extension. -/
def extractSan (e : CertExt) (names : List Bytes) : Res Unit (List Bytes) :=
  if e.tag ≠ 0x04 then .err ()
  else
    match L.header e.value with
    | none => .err ()
    | some (h, n) =>
      if e.value.head? ≠ some 0x30 then .err ()
      else
        match derSlice n (e.value.drop h) with
        | none => .err ()
        | some (content, _) => sanLoop L (content.length + 1) content names

/-- `der_certificate.rs:240-279`: the loop over the extensions. -/
def sanExtensions : List CertExt → List Bytes → Res Unit (List Bytes)
  | [], names => .ok names
  | e :: rest, names =>
    if e.id ≠ oidSubjectAltName then sanExtensions rest names
    else
      match extractSan L e names with
      | .ok names => sanExtensions rest names
      | .err e => .err e
      | .panic => .panic

/-- `der_certificate.rs:230-281` `extract_san_dns_names`. -/
def extractSanDnsNames (c : DecodedCert) : Res Unit (List Bytes) :=
  match c.extensions with
  | none => .ok []
  | some xs => sanExtensions L xs []

/-- `pki.rs:270-281` `get_certificate_tlv_bytes`: the bytes of the first element of the outer SEQUENCE, which must be a
SEQUENCE itself. -/
def certTlvBytes (b : Bytes) : Option Bytes :=
  match L.header b with
  | none => none
  | some (h, _) =>
    if b.head? ≠ some 0x30 then none
    else
      match L.header (b.drop h) with
      | none => none
      | some (h2, n2) =>
        if (b.drop h).head? ≠ some 0x30 then none
        else (derSlice (h2 + n2) (b.drop h)).map (·.1)

/-- The algorithms of certificate signatures (`pki.rs:336-463`); `none` is the last arm. -/
def certAlgo (F : Features) (a : AlgId) : Option SigAlgo :=
  if a = algEcdsaSha256 then some .ecdsaP256Sha256
  else if F.p384 ∧ a = algEcdsaSha384 then some .ecdsaP384Sha384
  else if F.ed25519 ∧ a = algEd25519 then some .ed25519
  else if F.rsa ∧ a = algRsaSha256 then some .rsaPkcs1Sha256
  else if F.rsa ∧ a = algRsaSha384 then some .rsaPkcs1Sha384
  else if F.rsa ∧ a = algRsaSha512 then some .rsaPkcs1Sha512
  else none

/-- One arm of `pki.rs:336-463`: decode the key, then the signature, then verify.  The Ed25519 arm unwraps the
conversion of the key to 32 bytes. -/
def checkCertSignature (algo : SigAlgo) (key : Bytes) (data : Bytes) (signature : Option Bytes) : Res TlsError Bool :=
  if algo = .ed25519 ∧ key.length ≠ 32 then .panic
  else if !L.keyOk algo key then .err .decodeError
  else
    match signature with
    | none => .err (.parseError .invalidData)
    | some sig => if !L.sigOk algo sig then .err (.parseError .invalidData) else .ok (L.verify algo key data sig)

/-- `pki.rs:324-331`: the validity period, if there is a clock. -/
def outOfPeriod (now : Option Nat) (c : DecodedCert) : Bool :=
  match now with
  | some t => decide (t < c.notBefore) || decide (c.notAfter < t)
  | none => false

/-- `pki.rs:290-475` `verify_certificate`: `certificate` under the key of `verifier`. -/
def verifyCertEntry (F : Features) (verifier certificate : CertEntry) (now : Option Nat) : Res TlsError CertNames :=
  match verifier with
  | .rawPublicKey _ => .err .decodeError
  | .x509 ca =>
    match L.fromDer ca with
    | none => .err .decodeError
    | some caCert =>
      match certificate with
      | .rawPublicKey _ => .err .invalidCertificate
      | .x509 der =>
        match L.fromDer der with
        | none => .err .decodeError
        | some cert =>
          match caCert.publicKey with
          | none => .err .decodeError
          | some key =>
            match extractCommonName L cert.subject none with
            | .err _ => .err .decodeError
            | .panic => .panic
            | .ok cn =>
              match extractSanDnsNames L cert with
              | .err _ => .err .decodeError
              | .panic => .panic
              | .ok sans =>
                if outOfPeriod now cert then .err .invalidCertificate
                else
                  match certTlvBytes L der with
                  | none => .err .decodeError
                  | some data =>
                    match certAlgo F cert.sigAlg with
                    | none => .err .invalidSignatureScheme
                    | some algo =>
                      match checkCertSignature L algo key data cert.signature with
                      | .err e => .err e
                      | .panic => .panic
                      | .ok verified => if verified then .ok ⟨cn, sans⟩ else .err .invalidCertificate

/-- `pki.rs:31-63,117-119`: the loop over `CertificateChain`, from the last entry to the first; the list is the rest
of the entries in that order, `prev` the entry before.  `Clock::now()` is read for every certificate; here the clock does
not move within one call. -/
def verifyChain (F : Features) (now : Option Nat) : CertEntry → List CertEntry → CertNames → Res TlsError CertNames
  | _, [], names => .ok names
  | prev, cur :: rest, _ =>
    match verifyCertEntry L F prev cur now with
    | .ok names => verifyChain F now cur rest names
    | .err e => .err e
    | .panic => .panic

/-- `pki.rs:65-75` `CertVerifier`; the transcript as the bytes hashed, the stored certificate as context and raw
entries (`handshake/certificate.rs:132-135`). -/
structure PkiVerifier where
  ca : CertEntry
  host : Option Bytes
  transcript : Option Bytes
  certificate : Option (Bytes × Bytes)
deriving DecidableEq, Repr

/-- `pki.rs:83-91` `CertVerifier::new`. -/
def PkiVerifier.new (ca : CertEntry) : PkiVerifier := ⟨ca, none, none, none⟩

/-- `pki.rs:100-105` and `webpki.rs:156-161` `set_hostname_verification`: a `String<64>`. -/
def pkiSetHostname (name : Bytes) : M TlsError PkiVerifier Unit := do
  if name.length ≤ 64 then M.modify fun v => { v with host := some name }
  else M.fail .insufficientSpace

/-- `handshake/certificate.rs:143-160` `Certificate::<N>::try_from`. -/
def certOwned (N : Nat) (c : CertMsg) : Res TlsError (Bytes × Bytes) :=
  if c.requestContext.length ≤ 256 then
    if c.rawEntries.length ≤ N then .ok (c.requestContext, c.rawEntries) else .err .outOfMemory
  else .err .outOfMemory

/-- `pki.rs:107-132` `CertVerifier::verify_certificate`. -/
def pkiVerifyCertificate (F : Features) (now : Option Nat) (N : Nat) (transcript : Bytes) (c : CertMsg) :
    M TlsError PkiVerifier Unit := do
  let v ← M.get
  let names ← M.lift (verifyChain L F now v.ca c.entries.reverse ⟨none, []⟩)
  if hostnameMatch names v.host then do
    let stored ← M.lift (certOwned N c)
    M.modify fun v => { v with certificate := some stored, transcript := some transcript }
  else M.fail .invalidCertificate

/-- `pki.rs:136-142` and `webpki.rs:176-182`: the signed content, in a `Vec` of capacity `cap`. -/
def serverSigned (S : Suite) (cap : Nat) (transcript : Bytes) : Res TlsError Bytes :=
  let msg := List.replicate 64 0x20 ++ (ascii "TLS 1.3, server CertificateVerify" ++ [0]) ++ S.hash transcript
  if msg.length ≤ cap then .ok msg else .err .encodeError

/-- The schemes `pki.rs:174-261` handles; `none` is the last arm. -/
def schemeAlgo (F : Features) : SignatureScheme → Option SigAlgo
  | .ecdsaSecp256r1Sha256 => some .ecdsaP256Sha256
  | .ecdsaSecp384r1Sha384 => if F.p384 then some .ecdsaP384Sha384 else none
  | .ed25519 => if F.ed25519 then some .ed25519 else none
  | .rsaPssRsaeSha256 => if F.rsa then some .rsaPssSha256 else none
  | .rsaPssRsaeSha384 => if F.rsa then some .rsaPssSha384 else none
  | .rsaPssRsaeSha512 => if F.rsa then some .rsaPssSha512 else none
  | _ => none

/-- `pki.rs:150-268` `verify_signature`.  The key is unwrapped in the Ed25519 arm (length) and in the RSA-PSS-SHA256 arm
(decoding). -/
def verifyPkiSignature (F : Features) (message : Bytes) (entries : List CertEntry) (cv : CertVerify) :
    Res TlsError Unit :=
  match entries with
  | .x509 der :: _ =>
    match L.fromDer der with
    | none => .err .decodeError
    | some cert =>
      match cert.publicKey with
      | none => .err .decodeError
      | some key =>
        match schemeAlgo F cv.scheme with
        | none => .err .invalidSignatureScheme
        | some algo =>
          if algo = .ed25519 ∧ key.length ≠ 32 then .panic
          else if !L.keyOk algo key then (if algo = .rsaPssSha256 then .panic else .err .decodeError)
          else if !L.sigOk algo cv.signature then .err .decodeError
          else if L.verify algo key message cv.signature then .ok () else .err .invalidSignature
  | _ => .err .decodeError

/-- `pki.rs:134-147` `CertVerifier::verify_signature`: the transcript is taken (and unwrapped), the stored certificate is
unwrapped and its entries are parsed again (`handshake/certificate.rs:162-174`). -/
def pkiVerifySignature (S : Suite) (F : Features) (cv : CertVerify) : M TlsError PkiVerifier Unit := do
  let v ← M.get
  match v.transcript with
  | none => M.crash
  | some transcript => do
    M.modify fun v => { v with transcript := none }
    let msg ← M.lift (serverSigned S 146 transcript)
    match v.certificate with
    | none => M.crash
    | some (_, raw) => do
      let entries ← M.lift (CertEntry.parseVector 16 ⟨raw, 0⟩)
      M.lift (verifyPkiSignature L F msg entries cv)

/-- The native verifier as a `TlsVerifier` (`pki.rs:94-148`). -/
def pkiOps (S : Suite) (F : Features) (now : Option Nat) (N : Nat) : VerifierOps PkiVerifier where
  setHostname := pkiSetHostname
  verifyCertificate := pkiVerifyCertificate L F now N
  verifySignature := pkiVerifySignature L S F

end ETls
