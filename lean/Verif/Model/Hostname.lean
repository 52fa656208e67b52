import Verif.Model.Basic

/-! # Host name matching (`pki.rs:477-584`) -/

namespace ETls

/-- `pki.rs:26-29` `CertificateNames`: the names as bytes. -/
structure CertNames where
  commonName : Option Bytes
  sans : List Bytes
deriving DecidableEq, Repr

/-- `pki.rs:512,525`: `b'a'..=b'z' | b'A'..=b'Z' | b'0'..=b'9' | b'-' | b'.'`. -/
def hostByte (b : UInt8) : Bool :=
  (0x61 ≤ b && b ≤ 0x7a) || (0x41 ≤ b && b ≤ 0x5a) || (0x30 ≤ b && b ≤ 0x39) || b == 0x2d || b == 0x2e

/-- `u8::to_ascii_lowercase` (core library): only `A` to `Z` change. -/
def asciiLower (b : UInt8) : UInt8 := if 0x41 ≤ b && b ≤ 0x5a then b + 0x20 else b

/-- `pki.rs:510-521`: the loop over the certificate name; `none` is `return false`. -/
def scanName : Bytes → Nat → Nat → Option (Nat × Nat)
  | [], labels, stars => some (labels, stars)
  | b :: rest, labels, stars =>
    if hostByte b || b == 0x2a then
      scanName rest (if b == 0x2e then labels + 1 else labels) (if b == 0x2a then stars + 1 else stars)
    else none

/-- `pki.rs:523-531`: the loop over the host name. -/
def scanHost : Bytes → Nat → Option Nat
  | [], labels => some labels
  | b :: rest, labels => if hostByte b then scanHost rest (if b == 0x2e then labels + 1 else labels) else none

/-- `pki.rs:534-541` and `pki.rs:573-583`: unequal lengths are `false`, then the bytes are compared one by one.  The
index loop is a recursion on both lists; the indices are in range because the lengths are equal. -/
def ciEqual : Bytes → Bytes → Bool
  | [], [] => true
  | a :: as, b :: bs => asciiLower a == asciiLower b && ciEqual as bs
  | _, _ => false

/-- `pki.rs:560-571`: the index of the first dot and the bytes after it. -/
def afterDot : Bytes → Option Bytes
  | [] => none
  | b :: rest => if b == 0x2e then some rest else afterDot rest

/-- `pki.rs:505-584` `tls_hostname_match_impl`. -/
def hostnameMatchImpl (cn host : Bytes) : Bool :=
  match scanName cn 1 0 with
  | none => false
  | some (cnLabels, stars) =>
    match scanHost host 1 with
    | none => false
    | some hostLabels =>
      if stars == 0 then ciEqual cn host
      else if stars != 1 then false
      else if !([0x2a, 0x2e].isPrefixOf cn) then false
      else if cnLabels < 3 then false
      else if cnLabels != hostLabels then false
      else
        match afterDot host with
        | none => false
        | some hostSuffix => ciEqual (cn.drop 2) hostSuffix

/-- `pki.rs:482-503` `tls_hostname_match`. -/
def hostnameMatch (names : CertNames) : Option Bytes → Bool
  | none => names.commonName.isNone && names.sans.isEmpty
  | some host =>
    if names.sans.any (hostnameMatchImpl · host) then true
    else
      match names.commonName with
      | some cn => hostnameMatchImpl cn host
      | none => false

end ETls
