import Verif.Model.Der
import Verif.Spec.Pki

/-!
# DER encodings of certificates (X.690, RFC 5280 section 4.1 and appendix A.1)

Relations between values and their encodings.  Only data types are used from the model.
-/

namespace ETls.Spec

/-! ## X.690 -/

/-- Base 256, most significant first, no leading zero. -/
def octets (n : Nat) : Bytes := if _h : n = 0 then [] else octets (n / 256) ++ [UInt8.ofNat (n % 256)]
termination_by n
decreasing_by omega

/-- X.690 8.1.3 and 10.1: the shortest form of a length. -/
def derLength (n : Nat) : Bytes := if n < 128 then [UInt8.ofNat n] else UInt8.ofNat (128 + (octets n).length) :: octets n

/-- `b` is an element with this tag and content (the length has at most four octets). -/
def Element (tag : UInt8) (content b : Bytes) : Prop := content.length < 2 ^ 32 ∧ b = tag :: derLength content.length ++ content

/-- `b` is an element with this tag whose content encodes `a`. -/
def Tagged {α : Type} (tag : UInt8) (E : α → Bytes → Prop) (a : α) (b : Bytes) : Prop := ∃ c, Element tag c b ∧ E a c

/-- `b` is the concatenation of encodings of the elements of a list. -/
inductive Each {α : Type} (E : α → Bytes → Prop) : List α → Bytes → Prop where
  | nil : Each E [] []
  | cons (a : α) (as : List α) (e b : Bytes) (h : E a e) (hs : Each E as b) : Each E (a :: as) (e ++ b)

/-- Base 128, all octets but the last with the high bit (X.690 8.19.2); here all octets have it. -/
def septetsHi (n : Nat) : Bytes :=
  if n < 128 then [UInt8.ofNat (128 + n)] else septetsHi (n / 128) ++ [UInt8.ofNat (128 + n % 128)]
termination_by n
decreasing_by omega

/-- One arc of an object identifier. -/
def septets (n : Nat) : Bytes := if n < 128 then [UInt8.ofNat n] else septetsHi (n / 128) ++ [UInt8.ofNat (n % 128)]

/-- X.690 8.19: the content of an OBJECT IDENTIFIER.  (The library limits arcs to 32 bits, the whole to 39 octets, and
the second arc to 39 also under the first arc 2.) -/
def IsOid (o : Oid) (c : Bytes) : Prop :=
  ∃ x y arcs, o = x :: y :: arcs ∧ x ≤ 2 ∧ y < 40 ∧ (∀ a ∈ arcs, a < 2 ^ 32) ∧
    c = UInt8.ofNat (40 * x + y) :: arcs.flatMap septets ∧ c.length ≤ 39

/-- X.690 8.3.2: the shortest two's complement form of an integer. -/
def IsInteger (c : Bytes) : Prop :=
  c ≠ [] ∧ (∀ x r, c = 0 :: x :: r → 128 ≤ x.toNat) ∧ ∀ x r, c = 255 :: x :: r → x.toNat < 128

/-- X.690 8.6: number of unused bits, then the octets. -/
def IsBitString (s : BitStr) (c : Bytes) : Prop :=
  s.unused ≤ 7 ∧ (s.bytes = [] → s.unused = 0) ∧ c = UInt8.ofNat s.unused :: s.bytes

/-! ## Time (RFC 5280 section 4.1.2.5) -/

def leap (y : Nat) : Bool := y % 4 == 0 && (y % 100 != 0 || y % 400 == 0)

def daysOfYear (y : Nat) : Nat := if leap y then 366 else 365

/-- Days of the months of a year, from January. -/
def monthLengths (y : Nat) : List Nat := [31, if leap y then 29 else 28, 31, 30, 31, 30, 31, 31, 30, 31, 30, 31]

/-- A date and time (UTC). -/
structure Civil where
  year : Nat
  month : Nat
  day : Nat
  hour : Nat
  minute : Nat
  second : Nat

/-- It exists. -/
structure Civil.Valid (t : Civil) : Prop where
  year : 1970 ≤ t.year
  month : 1 ≤ t.month ∧ t.month ≤ 12
  day : 1 ≤ t.day ∧ ∀ n, (monthLengths t.year)[t.month - 1]? = some n → t.day ≤ n
  hour : t.hour ≤ 23
  minute : t.minute ≤ 59
  second : t.second ≤ 59

/-- Days between 1970-01-01 and the first of January of a year. -/
def daysBefore : Nat → Nat
  | 0 => 0
  | n + 1 => daysBefore n + daysOfYear (1970 + n)

/-- Seconds since 1970-01-01T00:00:00Z. -/
def Civil.seconds (t : Civil) : Nat :=
  (daysBefore (t.year - 1970) + ((monthLengths t.year).take (t.month - 1)).sum + (t.day - 1)) * 86400 +
    t.hour * 3600 + t.minute * 60 + t.second

/-- Two decimal digits. -/
def two (n : Nat) : Bytes := [UInt8.ofNat (48 + n / 10), UInt8.ofNat (48 + n % 10)]

/-- What follows the year. -/
def Civil.tail (t : Civil) : Bytes := two t.month ++ two t.day ++ two t.hour ++ two t.minute ++ two t.second ++ [90]

/-- UTCTime `YYMMDDHHMMSSZ`, for years up to 2049; GeneralizedTime `YYYYMMDDHHMMSSZ`. -/
inductive IsTime (s : Nat) : Bytes → Prop where
  | utc (t : Civil) (b : Bytes) (h : t.Valid) (hy : t.year < 2050) (hb : Element 0x17 (two (t.year % 100) ++ t.tail) b)
      (hs : s = t.seconds) : IsTime s b
  | generalized (t : Civil) (b : Bytes) (h : t.Valid) (hy : t.year < 10000)
      (hb : Element 0x18 (two (t.year / 100) ++ two (t.year % 100) ++ t.tail) b) (hs : s = t.seconds) : IsTime s b

/-! ## Certificates -/

variable (T : DerTags)

/-- Any element, with a tag the library knows. -/
def IsAny (a : Any) (b : Bytes) : Prop := T.known a.tag = true ∧ Element a.tag a.value b

/-- Content of AlgorithmIdentifier. -/
def IsAlgorithm (a : AlgId) (c : Bytes) : Prop :=
  ∃ oid params, Tagged 0x06 IsOid a.oid oid ∧ c = oid ++ params ∧
    match a.params with
    | none => params = []
    | some p => IsAny T ⟨p.1, p.2⟩ params

/-- Content of AttributeTypeAndValue. -/
def IsAttribute (a : AttrTv) (c : Bytes) : Prop :=
  ∃ oid value, Tagged 0x06 IsOid a.oid oid ∧ IsAny T a.value value ∧ c = oid ++ value

/-- RDNSequence: content of the SEQUENCE of SETs. -/
def IsName (n : List (List AttrTv)) (c : Bytes) : Prop := Each (Tagged 0x31 (Each (Tagged 0x30 (IsAttribute T)))) n c

/-- Content of Extension.  If `critical` is absent the value cannot be a BOOLEAN. -/
def IsExtension (e : CertExt) (c : Bytes) : Prop :=
  ∃ oid critical value, Tagged 0x06 IsOid e.id oid ∧ IsAny T ⟨e.tag, e.value⟩ value ∧ c = oid ++ critical ++ value ∧
    match e.critical with
    | none => critical = [] ∧ e.tag ≠ 0x01
    | some b => Element 0x01 [if b then 255 else 0] critical

/-- Content of Validity. -/
def IsValidity (nb na : Nat) (c : Bytes) : Prop := ∃ x y, IsTime nb x ∧ IsTime na y ∧ c = x ++ y

/-- Content of SubjectPublicKeyInfo. -/
def IsKeyInfo (alg : AlgId) (key : BitStr) (c : Bytes) : Prop :=
  ∃ x y, Tagged 0x30 (IsAlgorithm T) alg x ∧ Tagged 0x03 IsBitString key y ∧ c = x ++ y

/-- An optional element. -/
def Optionally {α : Type} (E : α → Bytes → Prop) : Option α → Bytes → Prop
  | none, b => b = []
  | some a, b => E a b

/-- The version: absent for version 1 (or, against X.690 11.5, present). -/
def IsVersion (v : Nat) (b : Bytes) : Prop :=
  (v = 0 ∧ b = []) ∨ (v ≤ 2 ∧ ∃ c, Element 0xA0 c b ∧ Element 0x02 [UInt8.ofNat v] c)

/-- Content of TBSCertificate. -/
def IsTbs (t : Tbs) (c : Bytes) : Prop :=
  ∃ version serial signature issuer validity subject keyInfo issuerUid subjectUid extensions,
    IsVersion t.version version ∧
    Element 0x02 t.serial serial ∧ IsInteger t.serial ∧
    Tagged 0x30 (IsAlgorithm T) t.signature signature ∧
    Tagged 0x30 (IsName T) t.issuer issuer ∧
    (∃ v, Element 0x30 v validity ∧ IsValidity t.notBefore t.notAfter v) ∧
    Tagged 0x30 (IsName T) t.subject subject ∧
    (∃ k, Element 0x30 k keyInfo ∧ IsKeyInfo T t.keyAlgorithm t.key k) ∧
    Optionally (Tagged 0x81 IsBitString) t.issuerUid issuerUid ∧
    Optionally (Tagged 0x82 IsBitString) t.subjectUid subjectUid ∧
    Optionally (fun xs b => ∃ e, Element 0xA3 e b ∧ Tagged 0x30 (Each (Tagged 0x30 (IsExtension T))) xs e) t.extensions
      extensions ∧
    c = version ++ serial ++ signature ++ issuer ++ validity ++ subject ++ keyInfo ++ issuerUid ++ subjectUid ++ extensions

/-- A certificate is the SEQUENCE of the to-be-signed part `tbs`, the signature algorithm and the signature. -/
def IsCertificate (c : Cert) (tbs b : Bytes) : Prop :=
  Tagged 0x30 (IsTbs T) c.tbs tbs ∧
    ∃ alg sig, Tagged 0x30 (IsAlgorithm T) c.sigAlg alg ∧ Tagged 0x03 IsBitString c.signature sig ∧
      Element 0x30 (tbs ++ alg ++ sig) b

/-- The certificate has at most so many elements in a name, attributes in an element of a name, and extensions. -/
structure Fits (K : DerCaps) (c : Cert) : Prop where
  issuer : c.tbs.issuer.length ≤ K.name ∧ ∀ rdn ∈ c.tbs.issuer, rdn.length ≤ K.rdn
  subject : c.tbs.subject.length ≤ K.name ∧ ∀ rdn ∈ c.tbs.subject, rdn.length ≤ K.rdn
  extensions : ∀ xs, c.tbs.extensions = some xs → xs.length ≤ K.exts

/-- The limits of the library: at most seven elements of a name, each with at most one attribute, and at most twelve
extensions. -/
structure WithinLimits (c : Cert) : Prop where
  issuer : c.tbs.issuer.length ≤ 7 ∧ ∀ rdn ∈ c.tbs.issuer, rdn.length ≤ 1
  subject : c.tbs.subject.length ≤ 7 ∧ ∀ rdn ∈ c.tbs.subject, rdn.length ≤ 1
  extensions : ∀ xs, c.tbs.extensions = some xs → xs.length ≤ 12

/-! ## Chains of certificates -/

/-- `name` is a dNSName ([2]) in a subjectAltName extension (2.5.29.17) of the certificate, an OCTET STRING whose content
begins with a SEQUENCE of elements. -/
def HasDnsName (c : Cert) (name : Bytes) : Prop :=
  ∃ xs e names after content as before dns rest, c.tbs.extensions = some xs ∧ e ∈ xs ∧ e.id = [2, 5, 29, 17] ∧ e.tag = 0x04 ∧
    Element 0x30 content names ∧ e.value = names ++ after ∧
    Each (IsAny T) as before ∧ Element 0x82 name dns ∧ content = before ++ dns ++ rest

/-- `name` is a common name (2.5.4.3) in the subject of the certificate. -/
def HasCommonName (c : Cert) (name : Bytes) : Prop :=
  ∃ rdn ∈ c.tbs.subject, ∃ a ∈ rdn, a.oid = [2, 5, 4, 3] ∧ a.value.value = name

/-- The signature of the certificate `c`, with the to-be-signed part `tbs`, verifies under the key in `issuer`, by the
algorithm that `c` names (outside the signed part). -/
def SignedUnder (L : PkiLib) (issuer c : Cert) (tbs : Bytes) : Prop :=
  ∃ algo, (c.sigAlg, algo) ∈ certificateAlgorithms ∧ issuer.tbs.key.unused = 0 ∧ c.signature.unused = 0 ∧
    ValidSignature L algo issuer.tbs.key.bytes tbs c.signature.bytes

/-- The byte strings, the leaf first, are DER certificates that lead to the CA: each is within its validity period (if there
is a clock), and its signature over its own to-be-signed part verifies under the key of the next one, the last one under that
of the CA; and if a host is expected, a name of the leaf matches it. -/
def DerLeadsTo (L : PkiLib) (now : Option Nat) (ca : CertEntry) (host : Option Bytes) (certs : List Bytes) : Prop :=
  (∀ (i : Nat) (cert : Bytes), certs[i]? = some cert →
    ∃ c tbs issuer ci tbsi, IsCertificate T c tbs cert ∧
      (certs.map CertEntry.x509 ++ [ca])[i + 1]? = some (.x509 issuer) ∧ IsCertificate T ci tbsi issuer ∧
      (∀ t, now = some t → c.tbs.notBefore ≤ t ∧ t ≤ c.tbs.notAfter) ∧ SignedUnder L ci c tbs) ∧
  ∀ name, host = some name → ∃ leaf rest c tbs n, certs = leaf :: rest ∧ IsCertificate T c tbs leaf ∧
    (HasDnsName T c n ∨ HasCommonName c n) ∧ HostMatches n name

/-- A signature with the scheme of this code, valid under the key in the first certificate. -/
def DerSignedByLeaf (L : PkiLib) (certs : List Bytes) (code : Nat) (content sig : Bytes) : Prop :=
  ∃ leaf rest c tbs scheme algo, certs = leaf :: rest ∧ IsCertificate T c tbs leaf ∧ c.tbs.key.unused = 0 ∧
    (scheme, code) ∈ signatureSchemes ∧ (scheme, algo) ∈ schemeAlgorithms ∧
    ValidSignature L algo c.tbs.key.bytes content sig

/-! ## Chains within the limits of the verifier -/

/-- The dNSNames among elements. -/
def dnsValues (as : List Any) : List Bytes := (as.filter (·.tag = 0x82)).map (·.value)

/-- The DNS names of a certificate with at most one subjectAltName extension. -/
inductive DerSan (c : Cert) : List Bytes → Prop where
  | absent (h : ∀ xs, c.tbs.extensions = some xs → ∀ e ∈ xs, e.id ≠ [2, 5, 29, 17]) : DerSan c []
  | present (pre post : List CertExt) (e : CertExt) (content : Bytes) (as : List Any)
      (h : c.tbs.extensions = some (pre ++ e :: post)) (hid : e.id = [2, 5, 29, 17])
      (hothers : ∀ x ∈ pre ++ post, x.id ≠ [2, 5, 29, 17]) (htag : e.tag = 0x04) (hvalue : Element 0x30 content e.value)
      (hnames : Each (IsAny T) as content) : DerSan c (dnsValues as)

/-- The names of the certificate can be read by the verifier: the DNS names are these, in UTF-8 and of at most 64 bytes;
every element of the subject has an attribute and common names have at most 64 bytes. -/
structure NamesReadable (L : PkiLib) (c : Cert) (names : List Bytes) : Prop where
  san : DerSan T c names
  fit : ∀ n ∈ names, L.utf8 n = true ∧ n.length ≤ 64
  subject : ∀ rdn ∈ c.tbs.subject, ∃ a as, rdn = a :: as ∧ (a.oid = [2, 5, 4, 3] → a.value.value.length ≤ 64)

/-- `name` is the last common name of the subject, in UTF-8. -/
def DerLastCommonName (L : PkiLib) (c : Cert) (name : Bytes) : Prop :=
  ∃ pre a as post, c.tbs.subject = pre ++ (a :: as) :: post ∧ a.oid = [2, 5, 4, 3] ∧ a.value.value = name ∧
    L.utf8 name = true ∧ ∀ rdn ∈ post, ∀ a ∈ rdn, a.oid ≠ [2, 5, 4, 3]

/-- The byte strings are DER certificates within the limits of the library that lead to the CA by algorithms that are compiled
in, and one of the first three DNS names of the leaf, or its last common name, matches the host. -/
structure DerChain (L : PkiLib) (F : Features) (now : Option Nat) (ca : CertEntry) (host : Bytes) (certs : List Bytes) :
    Prop where
  chain : ∀ (i : Nat) (cert : Bytes), certs[i]? = some cert →
    ∃ c tbs issuer ci tbsi names, IsCertificate T c tbs cert ∧ WithinLimits c ∧
      (certs.map CertEntry.x509 ++ [ca])[i + 1]? = some (.x509 issuer) ∧ IsCertificate T ci tbsi issuer ∧ WithinLimits ci ∧
      (∀ t, now = some t → c.tbs.notBefore ≤ t ∧ t ≤ c.tbs.notAfter) ∧ SignedUnder L ci c tbs ∧
      (∀ algo, (c.sigAlg, algo) ∈ certificateAlgorithms → Enabled F algo) ∧ NamesReadable T L c names
  leaf : ∃ leaf rest c tbs names name, certs = leaf :: rest ∧ IsCertificate T c tbs leaf ∧ WithinLimits c ∧
    NamesReadable T L c names ∧ HostMatches name host ∧ (name ∈ names.take 3 ∨ DerLastCommonName L c name)

end ETls.Spec
