import Verif.Model.Basic

/-! # Cryptographic primitives as parameters -/

namespace ETls

/-- A cipher suite (`config.rs:33-63` `TlsCipherSuite` with its two implementations) together with the primitives it
brings: hash, HMAC, HKDF, AEAD and the P-256 key agreement.  All functions are arbitrary; facts about them are only
ever assumed through `Suite.Lawful` (and never as axioms). -/
structure Suite where
  /-- `CODE_POINT` -/
  codePoint : Nat
  /-- `KeyLen` -/
  keyLen : Nat
  /-- `IvLen` -/
  ivLen : Nat
  /-- the crate is compiled with the feature `rsa` -/
  rsa : Bool
  /-- output size of `Hash` -/
  hashLen : Nat
  hash : Bytes → Bytes
  /-- HKDF-Extract(salt, ikm) -/
  extract : Bytes → Bytes → Bytes
  /-- HKDF-Expand(prk, info, length) -/
  expand : Bytes → Bytes → Nat → Bytes
  /-- HMAC(key, message) -/
  hmac : Bytes → Bytes → Bytes
  /-- AEAD ciphertext (without tag) of key, nonce, additional data, plaintext -/
  sealCt : Bytes → Bytes → Bytes → Bytes → Bytes
  /-- AEAD tag of key, nonce, additional data, plaintext -/
  sealTag : Bytes → Bytes → Bytes → Bytes → Bytes
  /-- AEAD decryption of key, nonce, additional data, ciphertext with tag -/
  open_ : Bytes → Bytes → Bytes → Bytes → Option Bytes
  /-- SEC1 encoding of the public key of an ephemeral secret -/
  pubKey : Bytes → Bytes
  /-- shared secret of an ephemeral secret and a peer public key; `none` if `PublicKey::from_sec1_bytes` fails -/
  dh : Bytes → Bytes → Option Bytes

/-- The 16-byte tag of AES-GCM (`TagSize`). -/
def tagLen : Nat := 16

/-- The facts about the primitives that the theorems may assume: output lengths, that opening a sealed message
gives the message back, and that a successful opening yields a plaintext exactly one tag shorter. -/
structure Suite.Lawful (S : Suite) : Prop where
  ivLen_eq : S.ivLen = 12
  hashLen_pos : 1 ≤ S.hashLen
  hashLen_le : S.hashLen ≤ 48
  keyLen_le : S.keyLen ≤ 32
  hash_length : ∀ m, (S.hash m).length = S.hashLen
  hmac_length : ∀ k m, (S.hmac k m).length = S.hashLen
  extract_length : ∀ s i, (S.extract s i).length = S.hashLen
  expand_length : ∀ p i n, (S.expand p i n).length = n
  sealCt_length : ∀ k n a p, (S.sealCt k n a p).length = p.length
  sealTag_length : ∀ k n a p, (S.sealTag k n a p).length = tagLen
  open_length : ∀ k n a c p, S.open_ k n a c = some p → p.length + tagLen = c.length
  open_seal : ∀ k n a p, S.open_ k n a (S.sealCt k n a p ++ S.sealTag k n a p) = some p
  pubKey_length : ∀ s, (S.pubKey s).length = 65

/-- The part of these facts that the sending side needs: the nonce and the sealed message have their lengths.  Unlike
`Lawful` it can hold of a cipher that ignores the message (C97). -/
structure Suite.Sized (S : Suite) : Prop where
  ivLen_eq : S.ivLen = 12
  sealCt_length : ∀ k n a p, (S.sealCt k n a p).length = p.length
  sealTag_length : ∀ k n a p, (S.sealTag k n a p).length = tagLen

theorem Suite.Lawful.sized {S : Suite} (h : S.Lawful) : S.Sized := ⟨h.ivLen_eq, h.sealCt_length, h.sealTag_length⟩

instance (S : Suite) : CoeOut S.Lawful S.Sized := ⟨Suite.Lawful.sized⟩

end ETls
