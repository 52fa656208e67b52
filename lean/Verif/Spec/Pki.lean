import Verif.Model.Webpki
import Verif.Spec.Hostname
import Verif.Spec.CodePoints

/-!
# What a verified certificate chain is

Only the data types of the decoded certificate and the external libraries (`PkiLib`, `WebLib`) are used from the model.
-/

namespace ETls.Spec

variable (L : PkiLib)

/-- Signature algorithms of certificates: RFC 5758 section 3.2, RFC 8410 section 3, RFC 4055 section 5. -/
def certificateAlgorithms : List (AlgId × SigAlgo) :=
  [(⟨[1, 2, 840, 10045, 4, 3, 2], none⟩, .ecdsaP256Sha256),
   (⟨[1, 2, 840, 10045, 4, 3, 3], none⟩, .ecdsaP384Sha384),
   (⟨[1, 3, 101, 112], none⟩, .ed25519),
   (⟨[1, 2, 840, 113549, 1, 1, 11], some (5, [])⟩, .rsaPkcs1Sha256),
   (⟨[1, 2, 840, 113549, 1, 1, 12], some (5, [])⟩, .rsaPkcs1Sha384),
   (⟨[1, 2, 840, 113549, 1, 1, 13], some (5, [])⟩, .rsaPkcs1Sha512)]

/-- Signature algorithms of TLS 1.3 signature schemes: RFC 8446 section 4.2.3 (code points are in `signatureSchemes`). -/
def schemeAlgorithms : List (SignatureScheme × SigAlgo) :=
  [(.ecdsaSecp256r1Sha256, .ecdsaP256Sha256), (.ecdsaSecp384r1Sha384, .ecdsaP384Sha384), (.ed25519, .ed25519),
   (.rsaPssRsaeSha256, .rsaPssSha256), (.rsaPssRsaeSha384, .rsaPssSha384), (.rsaPssRsaeSha512, .rsaPssSha512)]

/-- `sig` is a valid signature of `msg` under `key`. -/
def ValidSignature (algo : SigAlgo) (key msg sig : Bytes) : Prop :=
  L.keyOk algo key = true ∧ L.sigOk algo sig = true ∧ L.verify algo key msg sig = true

/-- `tbs` is the first element of the SEQUENCE `der`, itself a SEQUENCE: in a certificate the to-be-signed part. -/
def FirstElement (der tbs : Bytes) : Prop :=
  ∃ outer rest n h m, der = outer ++ tbs ++ rest ∧ L.header der = some (outer.length, n) ∧ der.head? = some 0x30 ∧
    L.header (tbs ++ rest) = some (h, m) ∧ tbs.length = h + m ∧ tbs.head? = some 0x30

/-- The signature of the certificate `cert` verifies under the key of the certificate `issuer`. -/
def IssuedBy (issuer cert : Bytes) : Prop :=
  ∃ di dc key algo tbs sig, L.fromDer issuer = some di ∧ L.fromDer cert = some dc ∧ di.publicKey = some key ∧
    (dc.sigAlg, algo) ∈ certificateAlgorithms ∧ dc.signature = some sig ∧ FirstElement L cert tbs ∧
    ValidSignature L algo key tbs sig

/-- The certificate is within its validity period, if there is a clock. -/
def ValidAt (now : Option Nat) (cert : Bytes) : Prop :=
  ∃ dc, L.fromDer cert = some dc ∧ ∀ t, now = some t → dc.notBefore ≤ t ∧ t ≤ dc.notAfter

/-- `name` is a dNSName ([2], RFC 5280 section 4.2.1.6) among the GeneralNames encoded in the bytes. -/
inductive HasDns (name : Bytes) : Bytes → Prop where
  | here (hd rest : Bytes) (h : L.header (hd ++ name ++ rest) = some (hd.length, name.length))
      (ht : hd.head? = some 0x82) : HasDns name (hd ++ name ++ rest)
  | later (hd value rest : Bytes) (h : L.header (hd ++ value ++ rest) = some (hd.length, value.length))
      (hr : HasDns name rest) : HasDns name (hd ++ value ++ rest)

/-- `name` is a DNS name in a subjectAltName extension (2.5.29.17, an OCTET STRING) of the certificate. -/
def DnsNameOf (dc : DecodedCert) (name : Bytes) : Prop :=
  ∃ xs e hd content rest, dc.extensions = some xs ∧ e ∈ xs ∧ e.id = [2, 5, 29, 17] ∧ e.tag = 4 ∧
    e.value = hd ++ content ++ rest ∧ L.header e.value = some (hd.length, content.length) ∧ hd.head? = some 0x30 ∧ HasDns L name content

/-- `name` is a common name (2.5.4.3) in the subject of the certificate. -/
def CommonNameOf (dc : DecodedCert) (name : Bytes) : Prop :=
  ∃ rdn ∈ dc.subject, ∃ a ∈ rdn, a.oid = [2, 5, 4, 3] ∧ a.value = name

/-- RFC 8446 section 4.4.3: what the server signs, given all messages up to its Certificate. -/
def serverSignedContent (S : Suite) (messages : Bytes) : Bytes :=
  List.replicate 64 32 ++ ascii "TLS 1.3, server CertificateVerify" ++ [0] ++ S.hash messages

/-- The certificates, the leaf first, lead to the CA: each is within its validity period (if there is a clock) and its
signature verifies under the key of the next one, the last one under that of the CA; and if a host is expected, a name of
the leaf matches it. -/
def LeadsTo (now : Option Nat) (ca : CertEntry) (host : Option Bytes) (certs : List Bytes) : Prop :=
  (∀ (i : Nat) (cert : Bytes), certs[i]? = some cert → ValidAt L now cert ∧
    ∃ issuer, (certs.map CertEntry.x509 ++ [ca])[i + 1]? = some (.x509 issuer) ∧ IssuedBy L issuer cert) ∧
  ∀ name, host = some name → ∃ leaf rest dc cn, certs = leaf :: rest ∧ L.fromDer leaf = some dc ∧
    (DnsNameOf L dc cn ∨ CommonNameOf dc cn) ∧ HostMatches cn name

/-- A signature with the scheme of this code, valid under the key of the first certificate. -/
def SignedByLeaf (certs : List Bytes) (code : Nat) (content sig : Bytes) : Prop :=
  ∃ leaf rest dc key scheme algo, certs = leaf :: rest ∧ L.fromDer leaf = some dc ∧ dc.publicKey = some key ∧
    (scheme, code) ∈ signatureSchemes ∧ (scheme, algo) ∈ schemeAlgorithms ∧ ValidSignature L algo key content sig

/-! ## Certificates within the limits of the library -/

/-- The algorithms compiled in. -/
def Enabled (F : Features) : SigAlgo → Prop
  | .ecdsaP256Sha256 => True
  | .ecdsaP384Sha384 => F.p384 = true
  | .ed25519 => F.ed25519 = true
  | .rsaPkcs1Sha256 | .rsaPkcs1Sha384 | .rsaPkcs1Sha512 => F.rsa = true
  | .rsaPssSha256 | .rsaPssSha384 | .rsaPssSha512 => F.rsa = true

/-- The bytes are encodings of GeneralNames with these tags and values, one after the other. -/
inductive GeneralNames : Bytes → List (UInt8 × Bytes) → Prop where
  | nil : GeneralNames [] []
  | cons (hd value rest : Bytes) (tag : UInt8) (gs : List (UInt8 × Bytes))
      (h : L.header (hd ++ value ++ rest) = some (hd.length, value.length)) (ht : hd.head? = some tag)
      (hr : GeneralNames rest gs) : GeneralNames (hd ++ value ++ rest) ((tag, value) :: gs)

/-- The DNS names among GeneralNames. -/
def dnsNames : List (UInt8 × Bytes) → List Bytes
  | [] => []
  | (tag, value) :: gs => if tag = 0x82 then value :: dnsNames gs else dnsNames gs

/-- The DNS names of a certificate that has at most one subjectAltName extension. -/
inductive SanNames (dc : DecodedCert) : List Bytes → Prop where
  | absent (h : ∀ xs, dc.extensions = some xs → ∀ e ∈ xs, e.id ≠ [2, 5, 29, 17]) : SanNames dc []
  | present (pre post : List CertExt) (e : CertExt) (hd content rest : Bytes) (gs : List (UInt8 × Bytes))
      (h : dc.extensions = some (pre ++ e :: post)) (hid : e.id = [2, 5, 29, 17])
      (hothers : ∀ x ∈ pre ++ post, x.id ≠ [2, 5, 29, 17]) (htag : e.tag = 4) (hvalue : e.value = hd ++ content ++ rest)
      (hheader : L.header e.value = some (hd.length, content.length)) (hseq : hd.head? = some 0x30)
      (hnames : GeneralNames L content gs) : SanNames dc (dnsNames gs)

/-- The subject can be read: no empty element, and a common name (as first attribute of an element) has at most 64
bytes. -/
def SubjectFits (dc : DecodedCert) : Prop :=
  ∀ rdn ∈ dc.subject, ∃ a as, rdn = a :: as ∧ (a.oid = [2, 5, 4, 3] → a.value.length ≤ 64)

/-- The DNS names are UTF-8 of at most 64 bytes. -/
def NamesFit (names : List Bytes) : Prop := ∀ n ∈ names, L.utf8 n = true ∧ n.length ≤ 64

/-- `name` is the common name in the last element of the subject that has one, and is UTF-8. -/
def LastCommonName (dc : DecodedCert) (name : Bytes) : Prop :=
  ∃ pre as post, dc.subject = pre ++ (⟨[2, 5, 4, 3], name⟩ :: as) :: post ∧ L.utf8 name = true ∧
    ∀ rdn ∈ post, ∀ a ∈ rdn, a.oid ≠ [2, 5, 4, 3]

/-- As `IssuedBy`, with an algorithm compiled in. -/
def IssuedWith (F : Features) (issuer cert : Bytes) : Prop :=
  ∃ di dc key algo tbs sig, L.fromDer issuer = some di ∧ L.fromDer cert = some dc ∧ di.publicKey = some key ∧
    (dc.sigAlg, algo) ∈ certificateAlgorithms ∧ Enabled F algo ∧ dc.signature = some sig ∧ FirstElement L cert tbs ∧
    ValidSignature L algo key tbs sig

/-! ## webpki -/

/-- Signature algorithms of webpki for TLS 1.3 signature schemes: RFC 8446 section 4.2.3. -/
def webpkiAlgorithms : List (SignatureScheme × WebAlgo) :=
  [(.ecdsaSecp256r1Sha256, .ecdsaP256Sha256), (.ecdsaSecp384r1Sha384, .ecdsaP384Sha384), (.ed25519, .ed25519),
   (.rsaPkcs1Sha256, .rsaPkcs1Sha256), (.rsaPkcs1Sha384, .rsaPkcs1Sha384), (.rsaPkcs1Sha512, .rsaPkcs1Sha512),
   (.rsaPssRsaeSha256, .rsaPssSha256), (.rsaPssRsaeSha384, .rsaPssSha384), (.rsaPssRsaeSha512, .rsaPssSha512)]

/-- webpki accepts the first certificate for server authentication under the CA at the current time (the epoch without a
clock) and, if a host is expected, for that host. -/
def WebAccepts (W : WebLib) (now : Option Nat) (ca : CertEntry) (host : Option Bytes) (certs : List Bytes) : Prop :=
  ∃ anchor leaf rest, ca = .x509 anchor ∧ certs = leaf :: rest ∧ W.chainOk anchor leaf (now.getD 0) = true ∧
    ∀ name, host = some name → W.nameOk name = true ∧ W.validFor leaf name = true

/-- webpki verifies a signature with the scheme of this code with the first certificate. -/
def WebSigned (W : WebLib) (certs : List Bytes) (code : Nat) (content sig : Bytes) : Prop :=
  ∃ leaf rest scheme algo, certs = leaf :: rest ∧ (scheme, code) ∈ signatureSchemes ∧
    (scheme, algo) ∈ webpkiAlgorithms ∧ W.verify algo leaf content sig = true

end ETls.Spec
