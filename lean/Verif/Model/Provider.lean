import Verif.Model.Conn

/-! # The providers of `config.rs` -/

namespace ETls

variable {V : Type}

/-- `config.rs:94-116` `NoVerify`: every call succeeds and does nothing. -/
def noVerify : VerifierOps V where
  setHostname := fun _ => pure ()
  verifyCertificate := fun _ _ => pure ()
  verifySignature := fun _ => pure ()

/-- `config.rs:131-139` `NoClock::now`. -/
def noClock : Option Nat := none

/-- `config.rs:141-171` `CryptoProvider` with its default methods; `random` and `secret` are what is drawn from `rng()`. -/
def defaultProvider (random secret : Bytes) : Provider V where
  random := random
  secret := secret
  verifier := none
  signer := .err .unimplemented
  clientCert := none

/-- What is used of the crate `p256`: `SecretKey::from_sec1_der` and `SigningKey::try_sign` giving a `DerSignature`. -/
structure P256Lib where
  Key : Type
  fromSec1Der : Bytes → Option Key
  sign : Key → Bytes → Option Bytes

/-- Assumed of `p256`: signing succeeds, and a DER signature has at most 72 bytes (two integers of at most 33 bytes with
two bytes of header each, and a header of two bytes). -/
structure P256Lib.Lawful (L : P256Lib) : Prop where
  sign : ∀ k m, ∃ sig, L.sign k m = some sig ∧ sig.length ≤ 72

/-- `config.rs:206-211` `UnsecureProvider`; `random` and `secret` are what is drawn from the generator. -/
structure UnsecureProvider where
  random : Bytes
  secret : Bytes
  privKey : Option Bytes
  clientCert : Option CertEntry

/-- `config.rs:213-224` `UnsecureProvider::new`. -/
def UnsecureProvider.new (random secret : Bytes) : UnsecureProvider := ⟨random, secret, none, none⟩

/-- `config.rs:227-230` `with_priv_key`. -/
def UnsecureProvider.withPrivKey (u : UnsecureProvider) (key : Bytes) : UnsecureProvider := { u with privKey := some key }

/-- `config.rs:232-235` `with_cert`. -/
def UnsecureProvider.withCert (u : UnsecureProvider) (cert : CertEntry) : UnsecureProvider := { u with clientCert := some cert }

/-- `config.rs:248-260` `UnsecureProvider::signer`. -/
def UnsecureProvider.signer (L : P256Lib) (u : UnsecureProvider) : Res TlsError ((Bytes → Option Bytes) × SignatureScheme) :=
  match u.privKey with
  | none => .err .invalidPrivateKey
  | some der =>
    match L.fromSec1Der der with
    | none => .err .invalidPrivateKey
    | some key => .ok (L.sign key, .ecdsaSecp256r1Sha256)

/-- `config.rs:238-265` `impl CryptoProvider for UnsecureProvider`; `verifier` is the default method, which fails. -/
def UnsecureProvider.provider (L : P256Lib) (u : UnsecureProvider) : Provider V where
  random := u.random
  secret := u.secret
  verifier := none
  signer := u.signer L
  clientCert := u.clientCert

end ETls
