import Verif.Model.Pki

/-!
# The webpki verifier (`webpki.rs`)

The crate `rustls-webpki` is a parameter.
-/

namespace ETls

/-- The signature algorithms `webpki.rs` names (`webpki::SignatureAlgorithm`). -/
inductive WebAlgo where
  | ecdsaP256Sha256 | ecdsaP384Sha384 | ed25519
  | rsaPkcs1Sha256 | rsaPkcs1Sha384 | rsaPkcs1Sha512
  | rsaPssSha256 | rsaPssSha384 | rsaPssSha512
deriving DecidableEq, Repr

/-- The crate `rustls-webpki`. -/
structure WebLib where
  /-- `TrustAnchor::try_from_cert_der` succeeds -/
  anchorOk : Bytes → Bool
  /-- `EndEntityCert::try_from` succeeds -/
  leafOk : Bytes → Bool
  /-- `verify_for_usage` of a leaf under an anchor at a time, for server authentication, without intermediates and with
  the algorithms of `webpki.rs:113-119` -/
  chainOk : Bytes → Bytes → Nat → Bool
  /-- `SubjectNameRef::try_from_ascii` succeeds -/
  nameOk : Bytes → Bool
  /-- `verify_is_valid_for_subject_name` -/
  validFor : Bytes → Bytes → Bool
  /-- `EndEntityCert::verify_signature` of the leaf over a message -/
  verify : WebAlgo → Bytes → Bytes → Bytes → Bool

/-- `webpki.rs:13-111` `SignatureScheme::try_into`, without and with the feature `alloc`. -/
def webAlgo (alloc : Bool) : SignatureScheme → Option WebAlgo
  | .rsaPkcs1Sha256 => if alloc then some .rsaPkcs1Sha256 else none
  | .rsaPkcs1Sha384 => if alloc then some .rsaPkcs1Sha384 else none
  | .rsaPkcs1Sha512 => if alloc then some .rsaPkcs1Sha512 else none
  | .ecdsaSecp256r1Sha256 => some .ecdsaP256Sha256
  | .ecdsaSecp384r1Sha384 => some .ecdsaP384Sha384
  | .rsaPssRsaeSha256 => if alloc then some .rsaPssSha256 else none
  | .rsaPssRsaeSha384 => if alloc then some .rsaPssSha384 else none
  | .rsaPssRsaeSha512 => if alloc then some .rsaPssSha512 else none
  | .ed25519 => some .ed25519
  | _ => none

variable (W : WebLib)

/-- `webpki.rs:226-296` `verify_certificate`. -/
def webVerifyChain (host : Option Bytes) (ca : CertEntry) (entries : List CertEntry) (now : Option Nat) :
    Res TlsError Unit :=
  match ca with
  | .rawPublicKey _ => .err .invalidCertificate
  | .x509 anchor =>
    if !W.anchorOk anchor then .err .decodeError
    else
      match entries with
      | .x509 leaf :: _ =>
        if !W.leafOk leaf then .err .decodeError
        else
          let verified := W.chainOk anchor leaf (now.getD 0)
          let hostVerified := match host with
            | some name => W.nameOk name && W.validFor leaf name
            | none => false
          if !verified then .err .invalidCertificate
          else if !hostVerified && host.isSome then .err .invalidCertificate
          else .ok ()
      | _ => .err .invalidCertificate

/-- `webpki.rs:163-172` `CertVerifier::verify_certificate`; the struct (`webpki.rs:121-131`) is that of `pki.rs`. -/
def webVerifyCertificate (now : Option Nat) (N : Nat) (transcript : Bytes) (c : CertMsg) : M TlsError PkiVerifier Unit := do
  let v ← M.get
  M.lift (webVerifyChain W v.host v.ca c.entries now)
  let stored ← M.lift (certOwned N c)
  M.modify fun v => { v with certificate := some stored, transcript := some transcript }

/-- `webpki.rs:190-224` `verify_signature`. -/
def webCheckSignature (alloc : Bool) (message : Bytes) (entries : List CertEntry) (cv : CertVerify) : Res TlsError Unit :=
  match entries with
  | .x509 leaf :: _ =>
    if !W.leafOk leaf then .err .decodeError
    else
      match webAlgo alloc cv.scheme with
      | none => .err .invalidSignatureScheme
      | some algo => if W.verify algo leaf message cv.signature then .ok () else .err .invalidSignature
  | _ => .err .invalidSignature

/-- `webpki.rs:174-187` `CertVerifier::verify_signature`: as in `pki.rs`, but the content has room for 130 bytes. -/
def webVerifySignature (S : Suite) (alloc : Bool) (cv : CertVerify) : M TlsError PkiVerifier Unit := do
  let v ← M.get
  match v.transcript with
  | none => M.crash
  | some transcript => do
    M.modify fun v => { v with transcript := none }
    let msg ← M.lift (serverSigned S 130 transcript)
    match v.certificate with
    | none => M.crash
    | some (_, raw) => do
      let entries ← M.lift (CertEntry.parseVector 16 ⟨raw, 0⟩)
      M.lift (webCheckSignature W alloc msg entries cv)

/-- The webpki verifier as a `TlsVerifier` (`webpki.rs:150-188`). -/
def webOps (S : Suite) (alloc : Bool) (now : Option Nat) (N : Nat) : VerifierOps PkiVerifier where
  setHostname := pkiSetHostname
  verifyCertificate := webVerifyCertificate W now N
  verifySignature := webVerifySignature W S alloc

end ETls
