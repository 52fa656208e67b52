import Verif.Model.Pki

/-!
# Decoding of certificates (`der_certificate.rs`)

The structures of `der_certificate.rs` derive their decoders with the crate `der`; this is what those decoders do
(`DecodedCertificate::from_der`), field by field in the order of the structures.  The primitives (lengths, object
identifiers, integers, bit strings, times) are those of the crates `der` and `const-oid`, whose source is not part of the
repository: they follow X.690 (DER), with the limits of the crates.  All errors of the decoder become one
(`map_err(|_| TlsError::DecodeError)`), so a decoder gives a value or nothing.
-/

namespace ETls

/-- The tags the crate knows, as a parameter; those that `der_certificate.rs` names are among them.  Tags of more than one
octet are not modelled. -/
structure DerTags where
  known : UInt8 → Bool
  schema : ∀ t ∈ [0x01, 0x02, 0x03, 0x04, 0x05, 0x06, 0x17, 0x18, 0x30, 0x31, 0x81, 0x82, 0xA0, 0xA3], known t = true

/-- `der::AnyRef`. -/
structure Any where
  tag : UInt8
  value : Bytes
deriving DecidableEq, Repr

/-- `der::asn1::BitStringRef`: number of unused bits and the octets. -/
structure BitStr where
  unused : Nat
  bytes : Bytes
deriving DecidableEq, Repr

/-- `BitStringRef::as_bytes`. -/
def BitStr.asBytes (s : BitStr) : Option Bytes := if s.unused = 0 then some s.bytes else none

/-- `der_certificate.rs:94-98` `AttributeTypeAndValue`. -/
structure AttrTv where
  oid : Oid
  value : Any
deriving DecidableEq, Repr

/-- `der_certificate.rs:167-192` `TbsCertificate`; times as `get_cert_time` (`pki.rs:283-288`) computes them. -/
structure Tbs where
  version : Nat
  serial : Bytes
  signature : AlgId
  issuer : List (List AttrTv)
  notBefore : Nat
  notAfter : Nat
  subject : List (List AttrTv)
  keyAlgorithm : AlgId
  key : BitStr
  issuerUid : Option BitStr
  subjectUid : Option BitStr
  extensions : Option (List CertExt)
deriving DecidableEq, Repr

/-- `der_certificate.rs:86-92` `DecodedCertificate`. -/
structure Cert where
  tbs : Tbs
  sigAlg : AlgId
  signature : BitStr
deriving DecidableEq, Repr

/-- What `pki.rs` reads of it. -/
def Cert.view (c : Cert) : DecodedCert where
  issuer := c.tbs.issuer.map (·.map fun a => ⟨a.oid, a.value.value⟩)
  subject := c.tbs.subject.map (·.map fun a => ⟨a.oid, a.value.value⟩)
  notBefore := c.tbs.notBefore
  notAfter := c.tbs.notAfter
  publicKey := c.tbs.key.asBytes
  extensions := c.tbs.extensions
  sigAlg := c.sigAlg
  signature := c.signature.asBytes

/-- How many elements `SetOf` and `SequenceOf` hold. -/
structure DerCaps where
  rdn : Nat
  name : Nat
  exts : Nat

/-- `der_certificate.rs:177,180,190`: the capacities in the types. -/
def codeCaps : DerCaps := ⟨1, 7, 12⟩

/-- A decoder reads from the front of what is left. -/
def Der (α : Type) := Bytes → Option (α × Bytes)

namespace Der

/-- Sequencing with `?`. -/
def bind {α β : Type} (p : Der α) (f : α → Der β) : Der β := fun b =>
  match p b with
  | none => none
  | some (a, r) => f a r

instance : Monad Der where
  pure a := fun b => some (a, b)
  bind := bind

/-- Failure. -/
def fail {α : Type} : Der α := fun _ => none

/-- A value or failure. -/
def lift {α : Type} : Option α → Der α
  | none => fail
  | some a => pure a

/-- `Reader::read_byte`. -/
def byte : Der UInt8
  | [] => none
  | x :: r => some (x, r)

/-- `Length::decode`: short form, or one to four octets, and no shorter form. -/
def length : Der Nat
  | [] => none
  | x :: r =>
    if x.toNat < 0x80 then some (x.toNat, r)
    else if x.toNat = 0x81 then
      match r with
      | a :: r => if 0x80 ≤ a.toNat then some (a.toNat, r) else none
      | _ => none
    else if x.toNat = 0x82 then
      match r with
      | a :: b :: r => if 1 ≤ a.toNat then some (a.toNat * 256 + b.toNat, r) else none
      | _ => none
    else if x.toNat = 0x83 then
      match r with
      | a :: b :: c :: r => if 1 ≤ a.toNat then some ((a.toNat * 256 + b.toNat) * 256 + c.toNat, r) else none
      | _ => none
    else if x.toNat = 0x84 then
      match r with
      | a :: b :: c :: d :: r =>
        if 1 ≤ a.toNat then some (((a.toNat * 256 + b.toNat) * 256 + c.toNat) * 256 + d.toNat, r) else none
      | _ => none
    else none

/-- `Reader::read_slice`. -/
def slice (n : Nat) : Der Bytes := fun b => derSlice n b

variable (T : DerTags)

/-- `Header::decode`, then the content. -/
def any : Der Any := do
  let tag ← byte
  let n ← length
  let value ← slice n
  if T.known tag then return ⟨tag, value⟩ else fail

/-- `Reader::read_nested` and `Reader::finish`: `p` has to read everything. -/
def inside {α : Type} (p : Der α) (b : Bytes) : Option α :=
  match p b with
  | some (x, []) => some x
  | _ => none

/-- An element with a given tag whose content is read by `p` (`Decode` for a type with fixed tag: `Tag::assert_eq`,
`read_nested`). -/
def elem {α : Type} (tag : UInt8) (p : Der α) : Der α := do
  let a ← any T
  if a.tag = tag then lift (inside p a.value) else fail

/-- `Option<T>` with fixed tag, and the optional context-specific fields: present iff the next tag is `tag`. -/
def opt {α : Type} (tag : UInt8) (p : Der α) : Der (Option α) := fun b =>
  match b with
  | [] => some (none, [])
  | x :: _ =>
    if x = tag then
      match p b with
      | some (a, r) => some (some a, r)
      | none => none
    else some (none, b)

/-- The loop of `SequenceOf` and `SetOf`: elements until the content ends. -/
def loop {α : Type} (p : Der α) : Nat → Der (List α)
  | 0, _ => none
  | fuel + 1, b =>
    match b with
    | [] => some ([], [])
    | _ =>
      match p b with
      | none => none
      | some (a, r) =>
        match loop p fuel r with
        | none => none
        | some (as, r) => some (a :: as, r)

/-- `SequenceOf<T, N>` and `SetOf<T, N>`, the content: one element more than fits is an error. -/
def upTo {α : Type} (cap : Nat) (p : Der α) : Der (List α) := fun b =>
  match loop p (b.length + 1) b with
  | none => none
  | some (as, r) => if as.length ≤ cap then some (as, r) else none

/-- What is left, without reading it (`Reader::is_finished`). -/
def peek : Der Bytes := fun b => some (b, b)

/-- The arcs after the first octet (`const_oid::ObjectIdentifier::from_bytes`); `cur` is the arc begun. -/
def arcs : Option Nat → Bytes → Option (List Nat)
  | none, [] => some []
  | some _, [] => none
  | cur, b :: bs =>
    if cur = none ∧ b.toNat = 128 then none
    else if 2 ^ 32 ≤ cur.getD 0 * 128 + b.toNat % 128 then none
    else if b.toNat < 128 then (arcs none bs).map ((cur.getD 0 * 128 + b.toNat % 128) :: ·)
    else arcs (some (cur.getD 0 * 128 + b.toNat % 128)) bs

/-- Content of an OBJECT IDENTIFIER. -/
def oidContent : Der Oid := fun b =>
  match b with
  | [] => none
  | x :: bs =>
    if x.toNat < 120 ∧ bs.length < 39 then
      match arcs none bs with
      | none => none
      | some as => some (x.toNat / 40 :: x.toNat % 40 :: as, [])
    else none

/-- `ObjectIdentifier`. -/
def oid : Der Oid := elem T 0x06 oidContent

/-- Content of an INTEGER (`IntRef`): not empty and no shorter form. -/
def integerContent : Der Bytes := fun b =>
  match b with
  | [] => none
  | [x] => some ([x], [])
  | x :: y :: r =>
    if (x.toNat = 0 ∧ y.toNat < 128) ∨ (x.toNat = 255 ∧ 128 ≤ y.toNat) then none else some (x :: y :: r, [])

/-- Content of a BIT STRING. -/
def bitContent : Der BitStr := fun b =>
  match b with
  | [] => none
  | x :: r => if x.toNat ≤ 7 ∧ (r = [] → x.toNat = 0) then some (⟨x.toNat, r⟩, []) else none

/-- Content of a BOOLEAN. -/
def boolContent : Der Bool := do
  let x ← byte
  if x.toNat = 0 then return false
  else if x.toNat = 255 then return true
  else fail

/-- `der_certificate.rs:61-72` `Version`, an INTEGER. -/
def versionContent : Der Nat := do
  let x ← byte
  if x.toNat ≤ 2 then return x.toNat else fail

/-- A decimal digit. -/
def digit : Der Nat := do
  let x ← byte
  if 48 ≤ x.toNat ∧ x.toNat ≤ 57 then return x.toNat - 48 else fail

/-- Two decimal digits. -/
def digits : Der Nat := do
  let a ← digit
  let b ← digit
  return a * 10 + b

/-- Leap years. -/
def isLeap (year : Nat) : Bool := year % 4 == 0 && (year % 100 != 0 || year % 400 == 0)

/-- Days before a month in an ordinary year, and its length. -/
def monthDays (leap : Bool) (month : Nat) : Option (Nat × Nat) :=
  [(0, 31), (31, if leap then 29 else 28), (59, 31), (90, 30), (120, 31), (151, 30), (181, 31), (212, 31), (243, 30), (273, 31),
   (304, 30), (334, 31)][month - 1]?

/-- `der::DateTime::new(..).unix_duration()`: the seconds since 1970. -/
def unixTime (year month day hour minute second : Nat) : Option Nat :=
  if year < 1970 ∨ month < 1 ∨ 12 < month ∨ day < 1 ∨ 23 < hour ∨ 59 < minute ∨ 59 < second then none
  else
    match monthDays (isLeap year) month with
    | none => none
    | some (before, n) =>
      if n < day then none
      else
        let leaps := (year - 1 - 1968) / 4 + (year - 1 - 1600) / 400 - (year - 1 - 1900) / 100
        let ydays := before + (day - 1) + if isLeap year && decide (2 < month) then 1 else 0
        some (((year - 1970) * 365 + leaps + ydays) * 86400 + hour * 3600 + minute * 60 + second)

/-- Month to second and the final `Z`. -/
def timeTail (year : Nat) : Der Nat := do
  let month ← digits
  let day ← digits
  let hour ← digits
  let minute ← digits
  let second ← digits
  let z ← byte
  if z.toNat = 90 then lift (unixTime year month day hour minute second) else fail

/-- Content of a UTCTime; two-digit years from 50 are those of the twentieth century. -/
def utcContent : Der Nat := do
  let yy ← digits
  timeTail (if 50 ≤ yy then 1900 + yy else 2000 + yy)

/-- Content of a GeneralizedTime. -/
def generalizedContent : Der Nat := do
  let hi ← digits
  let lo ← digits
  timeTail (hi * 100 + lo)

/-- `der_certificate.rs:131-139` `Time`. -/
def time : Der Nat := fun b =>
  match b with
  | [] => none
  | x :: _ => if x = 0x17 then elem T 0x17 utcContent b else elem T 0x18 generalizedContent b

/-- `der_certificate.rs:18-22` `AlgorithmIdentifier`, the content. -/
def algContent : Der AlgId := do
  let o ← oid T
  let b ← peek
  match b with
  | [] => return ⟨o, none⟩
  | _ => do
    let a ← any T
    return ⟨o, some (a.tag, a.value)⟩

/-- `der_certificate.rs:94-98` `AttributeTypeAndValue`, the content. -/
def attrContent : Der AttrTv := do
  let o ← oid T
  let v ← any T
  return ⟨o, v⟩

variable (K : DerCaps)

/-- `der_certificate.rs:177,180` `SequenceOf<SetOf<AttributeTypeAndValue, 1>, 7>`. -/
def name : Der (List (List AttrTv)) := elem T 0x30 (upTo K.name (elem T 0x31 (upTo K.rdn (elem T 0x30 (attrContent T)))))

/-- `der_certificate.rs:112-117` `ExtensionIdAndValue`, the content. -/
def extContent : Der CertExt := do
  let o ← oid T
  let c ← opt 0x01 (elem T 0x01 boolContent)
  let v ← any T
  return ⟨o, c, v.tag, v.value⟩

/-- `der_certificate.rs:155-160` `Validity`, the content. -/
def validityContent : Der (Nat × Nat) := do
  let nb ← time T
  let na ← time T
  return (nb, na)

/-- `der_certificate.rs:162-167` `SubjectPublicKeyInfoRef`, the content. -/
def keyContent : Der (AlgId × BitStr) := do
  let a ← elem T 0x30 (algContent T)
  let k ← elem T 0x03 bitContent
  return (a, k)

/-- `der_certificate.rs:189-190`: `[3] EXPLICIT SequenceOf<ExtensionIdAndValue, 12>`. -/
def extensions : Der (List CertExt) := elem T 0xA3 (elem T 0x30 (upTo K.exts (elem T 0x30 (extContent T))))

/-- `der_certificate.rs:169-191` `TbsCertificate`, the content. -/
def tbsContent : Der Tbs := do
  let version ← opt 0xA0 (elem T 0xA0 (elem T 0x02 versionContent))
  let serial ← elem T 0x02 integerContent
  let signature ← elem T 0x30 (algContent T)
  let issuer ← name T K
  let validity ← elem T 0x30 (validityContent T)
  let subject ← name T K
  let key ← elem T 0x30 (keyContent T)
  let issuerUid ← opt 0x81 (elem T 0x81 bitContent)
  let subjectUid ← opt 0x82 (elem T 0x82 bitContent)
  let exts ← opt 0xA3 (extensions T K)
  return ⟨version.getD 0, serial, signature, issuer, validity.1, validity.2, subject, key.1, key.2, issuerUid, subjectUid, exts⟩

/-- `der_certificate.rs:86-92` `DecodedCertificate`, the content. -/
def certContent : Der Cert := do
  let tbs ← elem T 0x30 (tbsContent T K)
  let alg ← elem T 0x30 (algContent T)
  let sig ← elem T 0x03 bitContent
  return ⟨tbs, alg, sig⟩

/-- `DecodedCertificate::from_der`, with these capacities. -/
def certificateOf (b : Bytes) : Option Cert := inside (elem T 0x30 (certContent T K)) b

/-- `DecodedCertificate::from_der` (`pki.rs:164,301,308`). -/
def certificate (b : Bytes) : Option Cert := certificateOf T codeCaps b

/-- `Header::decode` at the start of the bytes. -/
def header (b : Bytes) : Option (Nat × Nat) :=
  match b with
  | [] => none
  | tag :: r =>
    match length r with
    | none => none
    | some (n, r') => if T.known tag then some (1 + (r.length - r'.length), n) else none

end Der

/-- The libraries with this decoder of certificates; the signature algorithms stay parameters. -/
def PkiLib.withDer (L : PkiLib) (T : DerTags) : PkiLib :=
  { L with
    fromDer := fun b => (Der.certificate T b).map Cert.view
    header := Der.header T
    header_pos := by
      intro b h n hb
      unfold Der.header at hb
      split at hb
      · cases hb
      · split at hb
        · cases hb
        · split at hb
          · simp only [Option.some.injEq, Prod.mk.injEq] at hb
            simp only [List.length_cons]
            omega
          · cases hb }

end ETls
