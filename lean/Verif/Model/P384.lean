import Verif.Model.Libs
import Verif.Spec.P384

/-! # Concrete ECDSA on P-384 for the native verifier

`pki.rs:183-191,352-367` with the feature `p384` uses the crate `p384`; here this is ECDSA with SHA-384 as published. -/

namespace ETls

open Crypto

/-- `p384::ecdsa::Signature::from_der`: ECDSA-Sig-Value (RFC 3279 §2.2.3) with both numbers between 1 and n - 1. -/
def Crypto.P384.ecdsaSig (T : DerTags) (bs : Bytes) : Option (Nat × Nat) :=
  match Der.inside (Der.elem T 0x30 do
    let r ← derUint T
    let s ← derUint T
    return (r, s)) bs with
  | some (r, s) => if 0 < r ∧ r < P384.p384n ∧ 0 < s ∧ s < P384.p384n then some (r, s) else none
  | none => none

/-- The libraries with concrete ECDSA on P-384: `VerifyingKey::from_sec1_bytes`, `Signature::from_der` and `verify`. -/
def PkiLib.withP384 (L : PkiLib) (T : DerTags) : PkiLib :=
  { L with
    keyOk := fun a k => if a = .ecdsaP384Sha384 then (P384.sec1Decode k).isSome else L.keyOk a k
    sigOk := fun a s => if a = .ecdsaP384Sha384 then (P384.ecdsaSig T s).isSome else L.sigOk a s
    verify := fun a k m s =>
      if a = .ecdsaP384Sha384 then
        match P384.ecdsaSig T s with
        | some (r, s) => P384.ecdsaVerify k (sha384 m) r s
        | none => false
      else L.verify a k m s }

end ETls
