import Verif.Spec.KeySchedule

/-! # RFC 8446 section 5: records -/

namespace ETls.Spec

variable (S : Suite)

/-- `uint16`, big-endian. -/
def u16 (n : Nat) : Bytes := [UInt8.ofNat (n / 256), UInt8.ofNat n]

/-- Section 5.1 `TLSPlaintext`: type, legacy version, length, fragment. -/
def plaintextRecord (type : UInt8) (version : Bytes) (fragment : Bytes) : Bytes :=
  [type] ++ version ++ u16 fragment.length ++ fragment

/-- Section 5.2 `TLSInnerPlaintext` without padding: content followed by the real content type. -/
def innerPlaintext (type : UInt8) (content : Bytes) : Bytes := content ++ [type]

/-- Section 5.2 the header of a `TLSCiphertext`, which is the additional data: `application_data`, 0x0303, length of
the encrypted record (inner plaintext and 16-byte tag). -/
def ciphertextHeader (innerLength : Nat) : Bytes := [23, 3, 3] ++ u16 (innerLength + 16)

/-- Section 5.2 `TLSCiphertext` of `content` with sequence number `seq` under `key` and `iv`. -/
def ciphertextRecord (key iv : Bytes) (seq : Nat) (type : UInt8) (content : Bytes) : Bytes :=
  let inner := innerPlaintext type content
  let aad := ciphertextHeader inner.length
  aad ++ (S.sealCt key (nonce iv seq) aad inner ++ S.sealTag key (nonce iv seq) aad inner)

/-- The records a sender produces for a sequence of fragments (content type and content), numbered consecutively
from `seq`. -/
def ciphertextRecords (key iv : Bytes) (seq : Nat) : List (UInt8 × Bytes) → List Bytes
  | [] => []
  | f :: fs => ciphertextRecord S key iv seq f.1 f.2 :: ciphertextRecords key iv (seq + 1) fs

/-- A receiver (section 5.2) expecting the record with number `seq`: check the header against what follows, open the
AEAD with the header as additional data, and split off the content type. `none` if anything is wrong. -/
def receiveRecord (key iv : Bytes) (seq : Nat) (record : Bytes) : Option (UInt8 × Bytes) :=
  let header := record.take 5
  let body := record.drop 5
  if header = [23, 3, 3] ++ u16 body.length ∧ body.length < 65536 then
    match S.open_ key (nonce iv seq) header body with
    | none => none
    | some inner =>
      match inner.getLast? with
      | none => none
      | some t => some (t, inner.dropLast)
  else none

/-- The receiver run on consecutive records. -/
def receiveRecords (key iv : Bytes) (seq : Nat) : List Bytes → Option (List (UInt8 × Bytes))
  | [] => some []
  | r :: rs =>
    match receiveRecord S key iv seq r, receiveRecords key iv (seq + 1) rs with
    | some f, some fs => some (f :: fs)
    | _, _ => none

/-- Section 5.2 `TLSInnerPlaintext`: content, real content type, any number of zeros. -/
structure Fragment where
  type : UInt8
  content : Bytes
  padding : Nat
deriving DecidableEq, Repr

/-- The inner plaintext of a fragment. -/
def Fragment.inner (f : Fragment) : Bytes := f.content ++ [f.type] ++ List.replicate f.padding 0

/-- The application data of a fragment. -/
def Fragment.appData (f : Fragment) : Bytes := if f.type = 23 then f.content else []

/-- Section 5.2 `TLSCiphertext` of a fragment. -/
def protect (key iv : Bytes) (seq : Nat) (f : Fragment) : Bytes :=
  let aad := ciphertextHeader f.inner.length
  aad ++ (S.sealCt key (nonce iv seq) aad f.inner ++ S.sealTag key (nonce iv seq) aad f.inner)

/-- Consecutive records, numbered from `seq`. -/
def protectAll (key iv : Bytes) (seq : Nat) : List Fragment → Bytes
  | [] => []
  | f :: fs => protect S key iv seq f ++ protectAll key iv (seq + 1) fs

end ETls.Spec
