import Verif.Model.Suites
import Verif.Model.Der
import Verif.Model.Provider

/-! # Concrete libraries for the native verifier and the client's signature

`pki.rs` with its default features uses ECDSA on P-256 with SHA-256 (`pki.rs:175-186,337-351`), `core::str::from_utf8` and the
decoder of certificates (`Model/Der`); `config.rs:206-265` `UnsecureProvider` signs with `p256::ecdsa::SigningKey`.  Here
these are the published algorithms.  The algorithms behind other features stay parameters. -/

namespace ETls

open Crypto

/-- A continuation byte of UTF-8 in a range. -/
def utf8Cont (lo hi : Nat) (b : UInt8) : Bool := decide (lo ≤ b.toNat) && decide (b.toNat ≤ hi)

/-- Well-formed UTF-8 (RFC 3629 §4, the grammar `UTF8-octets`), on at most `fuel` characters. -/
def utf8Aux : Nat → Bytes → Bool
  | _, [] => true
  | 0, _ => false
  | n + 1, a :: r =>
    let x := a.toNat
    if x < 0x80 then utf8Aux n r
    else if 0xC2 ≤ x ∧ x ≤ 0xDF then
      match r with
      | b :: r => utf8Cont 0x80 0xBF b && utf8Aux n r
      | _ => false
    else if 0xE0 ≤ x ∧ x ≤ 0xEF then
      match r with
      | b :: c :: r =>
        utf8Cont (if x = 0xE0 then 0xA0 else 0x80) (if x = 0xED then 0x9F else 0xBF) b && utf8Cont 0x80 0xBF c &&
          utf8Aux n r
      | _ => false
    else if 0xF0 ≤ x ∧ x ≤ 0xF4 then
      match r with
      | b :: c :: d :: r =>
        utf8Cont (if x = 0xF0 then 0x90 else 0x80) (if x = 0xF4 then 0x8F else 0xBF) b && utf8Cont 0x80 0xBF c &&
          utf8Cont 0x80 0xBF d && utf8Aux n r
      | _ => false
    else false

/-- `core::str::from_utf8` succeeds. -/
def utf8Valid (bs : Bytes) : Bool := utf8Aux bs.length bs

/-- An ASN.1 INTEGER that is not negative, as a number. -/
def derUint (T : DerTags) : Der Nat := do
  let bs ← Der.elem T 0x02 Der.integerContent
  if (bs.headD 0).toNat < 128 then return ofBE bs else Der.fail

/-- `p256::ecdsa::Signature::from_der`: ECDSA-Sig-Value (RFC 3279 §2.2.3) with both numbers between 1 and n - 1. -/
def ecdsaSig (T : DerTags) (bs : Bytes) : Option (Nat × Nat) :=
  match Der.inside (Der.elem T 0x30 do
    let r ← derUint T
    let s ← derUint T
    return (r, s)) bs with
  | some (r, s) => if 0 < r ∧ r < p256n ∧ 0 < s ∧ s < p256n then some (r, s) else none
  | none => none

/-- The libraries with concrete UTF-8, certificates and ECDSA on P-256; `L` stands for the other algorithms. -/
def PkiLib.concrete (L : PkiLib) (T : DerTags) : PkiLib :=
  { L.withDer T with
    utf8 := utf8Valid
    keyOk := fun a k => if a = .ecdsaP256Sha256 then (sec1Decode k).isSome else L.keyOk a k
    sigOk := fun a s => if a = .ecdsaP256Sha256 then (ecdsaSig T s).isSome else L.sigOk a s
    verify := fun a k m s =>
      if a = .ecdsaP256Sha256 then
        match ecdsaSig T s with
        | some (r, s) => ecdsaVerify k (sha256 m) r s
        | none => false
      else L.verify a k m s }

/-- A non-negative INTEGER. -/
def derUintBytes (n : Nat) : Bytes :=
  let body := (toBE 33 n).dropWhile (· = 0)
  let body := if body.isEmpty ∨ 128 ≤ (body.headD 0).toNat then 0 :: body else body
  0x02 :: UInt8.ofNat body.length :: body

/-- ECDSA-Sig-Value. -/
def ecdsaSigBytes (r s : Nat) : Bytes :=
  let body := derUintBytes r ++ derUintBytes s
  0x30 :: UInt8.ofNat body.length :: body

/-- The candidates for the nonce of RFC 6979 §3.2 (h), and the signature with the first that works. -/
def rfc6979Loop (d z : Nat) : Nat → Bytes → Bytes → Option (Nat × Nat)
  | 0, _, _ => none
  | fuel + 1, K, V =>
    let V := hSha256.hmac K V
    let k := ofBE V
    let r := (smul k p256g).affine.1 % p256n
    let s := mmul p256n (minv p256n k) (z + r * d)
    if 0 < k ∧ k < p256n ∧ r ≠ 0 ∧ s ≠ 0 then some (r, s)
    else
      let K := hSha256.hmac K (V ++ [0])
      rfc6979Loop d z fuel K (hSha256.hmac K V)

/-- Deterministic ECDSA with SHA-256 (RFC 6979); gives up after eight nonces. -/
def ecdsaSign (d : Nat) (m : Bytes) : Option Bytes :=
  let h := sha256 m
  let x := toBE 32 d ++ toBE 32 (ofBE h % p256n)
  let V := List.replicate 32 1
  let K := hSha256.hmac (List.replicate 32 0) (V ++ [0] ++ x)
  let V := hSha256.hmac K V
  let K := hSha256.hmac K (V ++ [1] ++ x)
  let V := hSha256.hmac K V
  (rfc6979Loop d (ofBE h) 8 K V).map fun rs => ecdsaSigBytes rs.1 rs.2

/-- `SecretKey::from_sec1_der`: ECPrivateKey (RFC 5915); the optional fields are skipped without looking. -/
def sec1Der (T : DerTags) (bs : Bytes) : Option Nat :=
  match Der.inside (Der.elem T 0x30 do
    let v ← derUint T
    let k ← Der.elem T 0x04 fun b => some (b, [])
    let _ ← (fun _ => some ((), []) : Der Unit)
    return (v, k)) bs with
  | some (v, k) => if v = 1 ∧ k.length = 32 ∧ 0 < ofBE k ∧ ofBE k < p256n then some (ofBE k) else none
  | none => none

/-- The crate `p256` for `UnsecureProvider`. -/
def p256Lib (T : DerTags) : P256Lib where
  Key := Nat
  fromSec1Der := sec1Der T
  sign := ecdsaSign

end ETls
