import Verif.Spec.Server
import Verif.Spec.Reader
import Verif.Spec.ClientMessages

/-! # RFC 8446 rules about offers, answers and key updates, as far as a client is concerned (C86-C93) -/

namespace ETls.Spec

/-- The types of the extensions of a ClientHello, in order; `none` if it is not one. -/
def offered (hello : Bytes) : Option (List Nat) := (dClientHello hello).map fun m => m.extensions.map ChExt.type

/-- The extensions of a ServerHello or EncryptedExtensions. -/
def answers : RawMsg → List RawExt
  | .serverHello _ _ _ _ _ xs => xs
  | .encryptedExtensions xs => xs
  | _ => []

/-- Section 4.1.3: the random of a HelloRetryRequest (SHA-256 of "HelloRetryRequest"). -/
def retryRandom : Bytes :=
  [0xCF, 0x21, 0xAD, 0x74, 0xE5, 0x9A, 0x61, 0x11, 0xBE, 0x1D, 0x8C, 0x02, 0x1E, 0x65, 0xB8, 0x91,
   0xC2, 0xA2, 0x11, 0x16, 0x7A, 0xBB, 0x8C, 0x5E, 0x07, 0x9E, 0x09, 0xE2, 0xC8, 0xA8, 0x33, 0x9C]

/-- A HelloRetryRequest (section 4.1.4): the key_share extension (section 4.2.8), if there is one, names a group only. -/
def IsRetry (r : RawMsg) : Prop :=
  ∃ v sid cs comp xs, r = .serverHello v retryRandom sid cs comp xs ∧ ∀ e ∈ xs, e.ty = 51 → ∃ g, e.data = be16 g

/-- RFC 6066 section 4: the limit for each code. -/
def fragmentLimit (code : Nat) : Nat := 2 ^ (8 + code)

/-- Section 4.6.3: a KeyUpdate message. -/
def keyUpdate (request : UInt8) : Bytes := [24, 0, 0, 1, request]

/-- Section 7.2: the next generation of a traffic secret. -/
def nextSecret (S : Suite) (secret : Bytes) : Bytes := expandLabel S secret "traffic upd" [] S.hashLen

/-- What a sender protects with `secret`, beginning with record number 0. -/
def protectedWith (S : Suite) (secret : Bytes) (fs : List Fragment) : Bytes :=
  protectAll S (writeKey S secret) (writeIv S secret) 0 fs

end ETls.Spec
