import Verif.Model.Suite
import Verif.Spec.Gcm
import Verif.Spec.P256

/-! # The two cipher suites of the crate with their real primitives

`config.rs:44-63` names the primitives: AES-128-GCM with SHA-256 and AES-256-GCM with SHA-384; the key agreement is
P-256 (`connection.rs:21`, `key_share.rs`).  The Rust implementations live in other crates (`aes-gcm`, `sha2`, `hmac`,
`hkdf`, `p256`); here the primitives are the published algorithms (`Spec/Sha2`, `Spec/Gcm`, `Spec/P256`). -/

namespace ETls

open Crypto

/-- `Aes128GcmSha256` (`config.rs:44-53`). -/
def aes128GcmSha256 (rsa : Bool) : Suite where
  codePoint := 0x1301
  keyLen := 16
  ivLen := 12
  rsa := rsa
  hashLen := 32
  hash := sha256
  extract := hSha256.extract
  expand := hSha256.expand
  hmac := hSha256.hmac
  sealCt := gcmCt
  sealTag k n a p := gcmTagOf k n a (gcmCt k n a p)
  open_ := gcmOpen
  pubKey := p256Public
  dh := p256Dh

/-- `Aes256GcmSha384` (`config.rs:55-63`). -/
def aes256GcmSha384 (rsa : Bool) : Suite where
  codePoint := 0x1302
  keyLen := 32
  ivLen := 12
  rsa := rsa
  hashLen := 48
  hash := sha384
  extract := hSha384.extract
  expand := hSha384.expand
  hmac := hSha384.hmac
  sealCt := gcmCt
  sealTag k n a p := gcmTagOf k n a (gcmCt k n a p)
  open_ := gcmOpen
  pubKey := p256Public
  dh := p256Dh

/-- What the theorems assume about a suite holds for the first suite. -/
theorem aes128GcmSha256_lawful (rsa : Bool) : (aes128GcmSha256 rsa).Lawful where
  ivLen_eq := rfl
  hashLen_pos := by simp [aes128GcmSha256]
  hashLen_le := by simp [aes128GcmSha256]
  keyLen_le := by simp [aes128GcmSha256]
  hash_length := sha256_length
  hmac_length := hSha256.hmac_length
  extract_length := hSha256.hmac_length
  expand_length := hSha256.expand_length (by decide)
  sealCt_length := gcmCt_length
  sealTag_length := fun _ _ _ _ => gcmTagOf_length _ _ _ _
  open_length := gcmOpen_length
  open_seal := gcmOpen_seal
  pubKey_length := p256Public_length

/-- … and for the second. -/
theorem aes256GcmSha384_lawful (rsa : Bool) : (aes256GcmSha384 rsa).Lawful where
  ivLen_eq := rfl
  hashLen_pos := by simp [aes256GcmSha384]
  hashLen_le := by simp [aes256GcmSha384]
  keyLen_le := by simp [aes256GcmSha384]
  hash_length := sha384_length
  hmac_length := hSha384.hmac_length
  extract_length := hSha384.hmac_length
  expand_length := hSha384.expand_length (by decide)
  sealCt_length := gcmCt_length
  sealTag_length := fun _ _ _ _ => gcmTagOf_length _ _ _ _
  open_length := gcmOpen_length
  open_seal := gcmOpen_seal
  pubKey_length := p256Public_length

end ETls
