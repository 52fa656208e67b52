import Verif.Model.Libs

/-! # RSA for the native verifier (feature `rsa`)

`pki.rs:202-254` checks CertificateVerify with `rsa::pss::VerifyingKey` and `pki.rs:385-456` certificates with
`rsa::pkcs1v15::VerifyingKey`.  The crate `rsa` is not in the repository: here are RSASSA-PSS-VERIFY and
RSASSA-PKCS1-V1_5-VERIFY of RFC 8017, with a salt as long as the digest (the default of `pss::VerifyingKey::from`) and the limits
the crate documents for public keys (at most 4096 bits, exponent below 2^33). -/

namespace ETls

namespace Crypto

/-- FIPS 180-4 §5.3.5. -/
def sha512Iv : HState :=
  ⟨0x6a09e667f3bcc908, 0xbb67ae8584caa73b, 0x3c6ef372fe94f82b, 0xa54ff53a5f1d36f1,
   0x510e527fade682d1, 0x9b05688c2b3e6c1f, 0x1f83d9abfb41bd6b, 0x5be0cd19137e2179⟩

def sha512 (m : Bytes) : Bytes := sha2w64.hashFrom sha512Iv m

theorem sha512_length (m : Bytes) : (sha512 m).length = 64 := HState.bytes_length _ 8

def hSha512 : Hash := ⟨sha512, 64, 128, sha512_length⟩

/-- A public key: modulus and exponent. -/
structure RsaPublic where
  n : Nat
  e : Nat
deriving DecidableEq, Repr

/-- The length of the modulus in bits and in bytes. -/
def RsaPublic.bits (k : RsaPublic) : Nat := Nat.log2 k.n + 1
def RsaPublic.size (k : RsaPublic) : Nat := (k.bits + 7) / 8

/-- RSAVP1 (RFC 8017 §5.2.2): `s ^ e mod n`, for exponents below 2^34. -/
def RsaPublic.pow (k : RsaPublic) (s : Nat) : Nat := mpowAux k.n s k.e 34 1

/-- DigestInfo without the digest (RFC 8017 §9.2, note 1). -/
def digestInfo : SigAlgo → Bytes
  | .rsaPkcs1Sha256 => [0x30, 0x31, 0x30, 0x0d, 0x06, 0x09, 0x60, 0x86, 0x48, 0x01, 0x65, 0x03, 0x04, 0x02, 0x01, 0x05, 0x00, 0x04, 0x20]
  | .rsaPkcs1Sha384 => [0x30, 0x41, 0x30, 0x0d, 0x06, 0x09, 0x60, 0x86, 0x48, 0x01, 0x65, 0x03, 0x04, 0x02, 0x02, 0x05, 0x00, 0x04, 0x30]
  | _ => [0x30, 0x51, 0x30, 0x0d, 0x06, 0x09, 0x60, 0x86, 0x48, 0x01, 0x65, 0x03, 0x04, 0x02, 0x03, 0x05, 0x00, 0x04, 0x40]

/-- EMSA-PKCS1-v1_5 (RFC 8017 §9.2): `none` if the message does not fit. -/
def emsaPkcs1 (info digest : Bytes) (emLen : Nat) : Option Bytes :=
  let t := info ++ digest
  if emLen < t.length + 11 then none
  else some (0 :: 1 :: (List.replicate (emLen - t.length - 3) 0xff ++ 0 :: t))

/-- RSASSA-PKCS1-V1_5-VERIFY (RFC 8017 §8.2.2). -/
def RsaPublic.pkcs1Verify (k : RsaPublic) (info digest sig : Bytes) : Bool :=
  decide (sig.length = k.size) && decide (ofBE sig < k.n) &&
    decide (emsaPkcs1 info digest k.size = some (toBE k.size (k.pow (ofBE sig))))

/-- MGF1 (RFC 8017 §B.2.1). -/
def Hash.mgf1 (H : Hash) (seed : Bytes) (len : Nat) : Bytes :=
  ((List.range ((len + H.len - 1) / H.len)).flatMap fun i => H.run (seed ++ toBE 4 i)).take len

/-- The leftmost `k` bits set to zero. -/
def clearTop (k : Nat) : Bytes → Bytes
  | [] => []
  | b :: r => (b &&& (255 >>> UInt8.ofNat k)) :: r

/-- EMSA-PSS-VERIFY (RFC 8017 §9.1.2) with a salt as long as the digest. -/
def Hash.pssVerify (H : Hash) (m em : Bytes) (emBits : Nat) : Bool :=
  let emLen := (emBits + 7) / 8
  let dbLen := emLen - H.len - 1
  let top := 8 * emLen - emBits
  let masked := em.take dbLen
  let h := (em.drop dbLen).take H.len
  let db := clearTop top (List.zipWith (· ^^^ ·) masked (H.mgf1 h dbLen))
  decide (H.len + H.len + 2 ≤ emLen) && decide (em.getLast? = some 0xbc) && decide (clearTop top masked = masked) &&
    decide (db.take (dbLen - H.len) = List.replicate (dbLen - H.len - 1) 0 ++ [1]) &&
    decide (h = H.run (List.replicate 8 0 ++ H.run m ++ db.drop (dbLen - H.len)))

/-- RSASSA-PSS-VERIFY (RFC 8017 §8.1.2). -/
def RsaPublic.pssVerify (k : RsaPublic) (H : Hash) (m sig : Bytes) : Bool :=
  let emLen := (k.bits - 1 + 7) / 8
  let em := k.pow (ofBE sig)
  decide (sig.length = k.size) && decide (ofBE sig < k.n) && decide (em < 256 ^ emLen) && H.pssVerify m (toBE emLen em) (k.bits - 1)

end Crypto

open Crypto

/-- `RsaPublicKey::from_pkcs1_der`: RSAPublicKey (RFC 8017 §A.1.1), and `RsaPublicKey::new`: an odd modulus of at most 4096 bits
and an odd exponent, at least 2, below 2^33 and below the modulus. -/
def rsaPublic (T : DerTags) (bs : Bytes) : Option RsaPublic :=
  match Der.inside (Der.elem T 0x30 do
    let n ← derUint T
    let e ← derUint T
    return (n, e)) bs with
  | some (n, e) =>
    if n < 2 ^ 4096 ∧ n % 2 = 1 ∧ e % 2 = 1 ∧ 2 ≤ e ∧ e < 2 ^ 33 ∧ e < n then some ⟨n, e⟩ else none
  | none => none

/-- The digest that goes with an algorithm. -/
def rsaHash : SigAlgo → Hash
  | .rsaPkcs1Sha256 | .rsaPssSha256 => hSha256
  | .rsaPkcs1Sha384 | .rsaPssSha384 => hSha384
  | _ => hSha512

/-- How RSA signatures are made. -/
inductive RsaPadding where
  | pkcs1 | pss
deriving DecidableEq, Repr

/-- The RSA algorithms of `pki.rs:202-254,385-456`. -/
def rsaPadding : SigAlgo → Option RsaPadding
  | .rsaPkcs1Sha256 | .rsaPkcs1Sha384 | .rsaPkcs1Sha512 => some .pkcs1
  | .rsaPssSha256 | .rsaPssSha384 | .rsaPssSha512 => some .pss
  | _ => none

/-- A signature of the message under the encoded key. -/
def rsaVerify (T : DerTags) (algo : SigAlgo) (pad : RsaPadding) (key m sig : Bytes) : Bool :=
  match rsaPublic T key with
  | none => false
  | some k =>
    match pad with
    | .pkcs1 => k.pkcs1Verify (digestInfo algo) ((rsaHash algo).run m) sig
    | .pss => k.pssVerify (rsaHash algo) m sig

/-- The libraries with concrete RSA; every byte string is a `Signature`. -/
def PkiLib.withRsa (L : PkiLib) (T : DerTags) : PkiLib :=
  { L with
    keyOk := fun a k => if (rsaPadding a).isSome then (rsaPublic T k).isSome else L.keyOk a k
    sigOk := fun a s => if (rsaPadding a).isSome then true else L.sigOk a s
    verify := fun a k m s =>
      match rsaPadding a with
      | some pad => rsaVerify T a pad k m s
      | none => L.verify a k m s }

end ETls
