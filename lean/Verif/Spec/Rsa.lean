import Verif.Model.Rsa
import Mathlib.Data.Nat.Prime.Defs
import Mathlib.Data.Nat.ModEq

/-! # RSA key pairs and signatures (RFC 8017) -/

namespace ETls.Spec
open Crypto

/-- `d` is a private exponent for the public key (RFC 8017 section 3.2, with two primes). -/
structure IsRsaPair (k : RsaPublic) (d : Nat) : Prop where
  primes : ∃ p q, p.Prime ∧ q.Prime ∧ p ≠ q ∧ k.n = p * q ∧ k.e * d ≡ 1 [MOD p - 1] ∧ k.e * d ≡ 1 [MOD q - 1]

/-- RSASSA-PKCS1-V1_5-SIGN (section 8.2.1): the encoded message is 00 01 FF…FF 00, DigestInfo and the digest, with at least
eight bytes FF and as long as the modulus. -/
def Pkcs1Signed (k : RsaPublic) (d : Nat) (info digest sig : Bytes) : Prop :=
  ∃ j, 8 ≤ j ∧ ([0, 1] ++ List.replicate j 0xff ++ [0] ++ info ++ digest).length = k.size ∧
    sig = toBE k.size (ofBE ([0, 1] ++ List.replicate j 0xff ++ [0] ++ info ++ digest) ^ d % k.n)

/-- `n` rounds of MGF1 (section B.2.1): each appends the digest of the seed and the counter. -/
def mgfRounds (H : Hash) (seed : Bytes) : Nat → Bytes
  | 0 => []
  | n + 1 => mgfRounds H seed n ++ H.run (seed ++ be32 n)

/-- EMSA-PSS-ENCODE (section 9.1.1). -/
def PssEncoded (H : Hash) (m salt : Bytes) (emBits : Nat) (em : Bytes) : Prop :=
  ∃ emLen ps rounds h, emLen = (emBits + 7) / 8 ∧ ps + 1 + salt.length + H.len + 1 = emLen ∧
    h = H.run (List.replicate 8 0 ++ H.run m ++ salt) ∧ emLen - H.len - 1 ≤ rounds * H.len ∧
    em = clearTop (8 * emLen - emBits)
      (List.zipWith (· ^^^ ·) (List.replicate ps 0 ++ [1] ++ salt) (mgfRounds H h rounds)) ++ h ++ [0xbc]

/-- RSASSA-PSS-SIGN (section 8.1.1) with a salt as long as the digest, as RFC 8446 section 4.2.3 asks. -/
def PssSigned (k : RsaPublic) (d : Nat) (H : Hash) (m sig : Bytes) : Prop :=
  ∃ salt em, salt.length = H.len ∧ PssEncoded H m salt (k.bits - 1) em ∧ sig = toBE k.size (ofBE em ^ d % k.n)

/-- `sig` is a signature of `m` with the private exponent `d`: RSASSA-PSS with the digest of the name (RFC 8446 section 4.2.3), or
RSASSA-PKCS1-v1_5 with the digest and the DigestInfo of RFC 8017 section 9.2. -/
def RsaSigned (k : RsaPublic) (d : Nat) : SigAlgo → Bytes → Bytes → Prop
  | .rsaPssSha256, m, sig => PssSigned k d hSha256 m sig
  | .rsaPssSha384, m, sig => PssSigned k d hSha384 m sig
  | .rsaPssSha512, m, sig => PssSigned k d hSha512 m sig
  | .rsaPkcs1Sha256, m, sig => Pkcs1Signed k d (toBE 19 0x3031300d060960864801650304020105000420) (sha256 m) sig
  | .rsaPkcs1Sha384, m, sig => Pkcs1Signed k d (toBE 19 0x3041300d060960864801650304020205000430) (sha384 m) sig
  | .rsaPkcs1Sha512, m, sig => Pkcs1Signed k d (toBE 19 0x3051300d060960864801650304020305000440) (sha512 m) sig
  | _, _, _ => False

/-- rsa_pss_rsae_sha256, -sha384 and -sha512 (RFC 8446 section 4.2.3). -/
def rsaPssSchemes : List (Nat × SigAlgo) := [(0x0804, .rsaPssSha256), (0x0805, .rsaPssSha384), (0x0806, .rsaPssSha512)]

end ETls.Spec
