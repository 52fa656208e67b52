import Verif.Spec.Pki

/-!
# What is wrong with a certificate, a chain, a signature, and which error says so

Only the external libraries and the data types are used from the model.
-/

namespace ETls.Spec

variable (L : PkiLib)

/-- The names of a certificate can be read. -/
def NamesCanBeRead (dc : DecodedCert) : Prop := SubjectFits dc ∧ ∃ names, SanNames L dc names ∧ NamesFit L names

/-- What is wrong with an entry of a Certificate message under its issuer, and the error that says so.  Later constructors
are about certificates to which the earlier ones do not apply (but see `unreadable`: not every unreadable name is
read). -/
inductive Defect (F : Features) (now : Option Nat) : CertEntry → CertEntry → TlsError → Prop where
  | issuerNotX509 (k : Bytes) (cert : CertEntry) : Defect F now (.rawPublicKey k) cert .decodeError
  | issuerUndecodable (issuer : Bytes) (cert : CertEntry) (h : L.fromDer issuer = none) :
      Defect F now (.x509 issuer) cert .decodeError
  | notX509 (issuer k : Bytes) (hi : L.fromDer issuer ≠ none) :
      Defect F now (.x509 issuer) (.rawPublicKey k) .invalidCertificate
  | undecodable (issuer cert : Bytes) (hi : L.fromDer issuer ≠ none) (h : L.fromDer cert = none) :
      Defect F now (.x509 issuer) (.x509 cert) .decodeError
  | issuerWithoutKey (issuer cert : Bytes) (di dc : DecodedCert) (hi : L.fromDer issuer = some di)
      (hc : L.fromDer cert = some dc) (h : di.publicKey = none) : Defect F now (.x509 issuer) (.x509 cert) .decodeError
  | unreadable (issuer cert key : Bytes) (di dc : DecodedCert) (hi : L.fromDer issuer = some di)
      (hc : L.fromDer cert = some dc) (hk : di.publicKey = some key) (h : ¬ NamesCanBeRead L dc) :
      Defect F now (.x509 issuer) (.x509 cert) .decodeError
  | expired (issuer cert key : Bytes) (di dc : DecodedCert) (hi : L.fromDer issuer = some di)
      (hc : L.fromDer cert = some dc) (hk : di.publicKey = some key) (h : ¬ ValidAt L now cert) :
      Defect F now (.x509 issuer) (.x509 cert) .invalidCertificate
  | nothingSigned (issuer cert key : Bytes) (di dc : DecodedCert) (hi : L.fromDer issuer = some di)
      (hc : L.fromDer cert = some dc) (hk : di.publicKey = some key) (hv : ValidAt L now cert)
      (h : ∀ tbs, ¬ FirstElement L cert tbs) : Defect F now (.x509 issuer) (.x509 cert) .decodeError
  | unknownAlgorithm (issuer cert key tbs : Bytes) (di dc : DecodedCert) (hi : L.fromDer issuer = some di)
      (hc : L.fromDer cert = some dc) (hk : di.publicKey = some key) (hv : ValidAt L now cert)
      (ht : FirstElement L cert tbs) (h : ∀ algo, (dc.sigAlg, algo) ∈ certificateAlgorithms → ¬ Enabled F algo) :
      Defect F now (.x509 issuer) (.x509 cert) .invalidSignatureScheme
  | badKey (issuer cert key tbs : Bytes) (di dc : DecodedCert) (algo : SigAlgo) (hi : L.fromDer issuer = some di)
      (hc : L.fromDer cert = some dc) (hk : di.publicKey = some key) (hv : ValidAt L now cert)
      (ht : FirstElement L cert tbs) (ha : (dc.sigAlg, algo) ∈ certificateAlgorithms) (he : Enabled F algo)
      (h32 : algo = .ed25519 → key.length = 32) (h : L.keyOk algo key = false) :
      Defect F now (.x509 issuer) (.x509 cert) .decodeError
  | badSignature (issuer cert key tbs : Bytes) (di dc : DecodedCert) (algo : SigAlgo) (hi : L.fromDer issuer = some di)
      (hc : L.fromDer cert = some dc) (hk : di.publicKey = some key) (hv : ValidAt L now cert)
      (ht : FirstElement L cert tbs) (ha : (dc.sigAlg, algo) ∈ certificateAlgorithms) (he : Enabled F algo)
      (h32 : algo = .ed25519 → key.length = 32) (hok : L.keyOk algo key = true)
      (h : ∀ sig, dc.signature = some sig → L.sigOk algo sig = false) :
      Defect F now (.x509 issuer) (.x509 cert) (.parseError .invalidData)
  | forged (issuer cert key tbs sig : Bytes) (di dc : DecodedCert) (algo : SigAlgo) (hi : L.fromDer issuer = some di)
      (hc : L.fromDer cert = some dc) (hk : di.publicKey = some key) (hv : ValidAt L now cert)
      (ht : FirstElement L cert tbs) (ha : (dc.sigAlg, algo) ∈ certificateAlgorithms) (he : Enabled F algo)
      (h32 : algo = .ed25519 → key.length = 32) (hok : L.keyOk algo key = true) (hs : dc.signature = some sig)
      (hsok : L.sigOk algo sig = true) (h : L.verify algo key tbs sig = false) :
      Defect F now (.x509 issuer) (.x509 cert) .invalidCertificate

/-- All certificates are within their period and issued by the next one, the last one by the CA, with algorithms compiled
in. -/
def Vouched (F : Features) (now : Option Nat) (ca : CertEntry) (certs : List Bytes) : Prop :=
  ∀ (i : Nat) (cert : Bytes), certs[i]? = some cert → ValidAt L now cert ∧
    ∃ issuer, (certs.map CertEntry.x509 ++ [ca])[i + 1]? = some (.x509 issuer) ∧ IssuedWith L F issuer cert

/-- `name` is one of the names of the certificate that count: one of the first three DNS names or the last common name. -/
def Counts (dc : DecodedCert) (name : Bytes) : Prop :=
  (∃ names, SanNames L dc names ∧ name ∈ names.take 3) ∨ LastCommonName L dc name

/-- The first certificate is not for the host: no name of it that counts matches; or no host is expected, but the
certificate has a name. -/
def WrongHost (host : Option Bytes) (certs : List Bytes) : Prop :=
  match host with
  | some h => ∀ leaf rest dc name, certs = leaf :: rest → L.fromDer leaf = some dc → NamesCanBeRead L dc →
      Counts L dc name → ¬ HostMatches name h
  | none => ∃ leaf rest dc name, certs = leaf :: rest ∧ L.fromDer leaf = some dc ∧
      (DnsNameOf L dc name ∨ CommonNameOf dc name)

/-- What is wrong with a Certificate message for a verifier with this CA, host and storage of `N` bytes, and the error that
says so: a defect of an entry after which (toward the CA) everything is in order; or all entries are in order, but the
first is not for the host; or, all in order, the message does not fit into the storage. -/
inductive Complaint (F : Features) (now : Option Nat) (N : Nat) (ca : CertEntry) (host : Option Bytes) (c : CertMsg) :
    TlsError → Prop where
  | entry (front : List CertEntry) (bad : CertEntry) (certs : List Bytes) (e : TlsError)
      (hc : c.entries = front ++ bad :: certs.map .x509) (hv : Vouched L F now ca certs)
      (h : Defect L F now ((certs.map CertEntry.x509 ++ [ca]).headD ca) bad e) : Complaint F now N ca host c e
  | host (certs : List Bytes) (hc : c.entries = certs.map .x509) (hv : Vouched L F now ca certs)
      (h : WrongHost L host certs) : Complaint F now N ca host c .invalidCertificate
  | storage (certs : List Bytes) (hc : c.entries = certs.map .x509) (hv : Vouched L F now ca certs)
      (hh : ∀ h, host = some h → ∃ leaf rest dc name, certs = leaf :: rest ∧ L.fromDer leaf = some dc ∧
        (DnsNameOf L dc name ∨ CommonNameOf dc name) ∧ HostMatches name h)
      (h : 256 < c.requestContext.length ∨ N < c.rawEntries.length) : Complaint F now N ca host c .outOfMemory

/-- What is wrong with the signature of the server, and the error that says so. -/
inductive SignatureDefect (F : Features) (entries : List CertEntry) (content : Bytes) (cv : CertVerify) :
    TlsError → Prop where
  | noCertificate (h : ∀ leaf rest, entries ≠ .x509 leaf :: rest) : SignatureDefect F entries content cv .decodeError
  | undecodable (leaf : Bytes) (rest : List CertEntry) (hl : entries = .x509 leaf :: rest) (h : L.fromDer leaf = none) :
      SignatureDefect F entries content cv .decodeError
  | withoutKey (leaf : Bytes) (rest : List CertEntry) (dc : DecodedCert) (hl : entries = .x509 leaf :: rest)
      (hd : L.fromDer leaf = some dc) (h : dc.publicKey = none) : SignatureDefect F entries content cv .decodeError
  | unknownScheme (leaf key : Bytes) (rest : List CertEntry) (dc : DecodedCert) (hl : entries = .x509 leaf :: rest)
      (hd : L.fromDer leaf = some dc) (hk : dc.publicKey = some key)
      (h : ∀ algo, (cv.scheme, algo) ∈ schemeAlgorithms → ¬ Enabled F algo) :
      SignatureDefect F entries content cv .invalidSignatureScheme
  | badKey (leaf key : Bytes) (rest : List CertEntry) (dc : DecodedCert) (algo : SigAlgo)
      (hl : entries = .x509 leaf :: rest) (hd : L.fromDer leaf = some dc) (hk : dc.publicKey = some key)
      (ha : (cv.scheme, algo) ∈ schemeAlgorithms) (he : Enabled F algo) (h32 : algo = .ed25519 → key.length = 32)
      (hpss : algo ≠ .rsaPssSha256) (h : L.keyOk algo key = false) : SignatureDefect F entries content cv .decodeError
  | badSignature (leaf key : Bytes) (rest : List CertEntry) (dc : DecodedCert) (algo : SigAlgo)
      (hl : entries = .x509 leaf :: rest) (hd : L.fromDer leaf = some dc) (hk : dc.publicKey = some key)
      (ha : (cv.scheme, algo) ∈ schemeAlgorithms) (he : Enabled F algo) (h32 : algo = .ed25519 → key.length = 32)
      (hok : L.keyOk algo key = true) (h : L.sigOk algo cv.signature = false) :
      SignatureDefect F entries content cv .decodeError
  | forged (leaf key : Bytes) (rest : List CertEntry) (dc : DecodedCert) (algo : SigAlgo)
      (hl : entries = .x509 leaf :: rest) (hd : L.fromDer leaf = some dc) (hk : dc.publicKey = some key)
      (ha : (cv.scheme, algo) ∈ schemeAlgorithms) (he : Enabled F algo) (h32 : algo = .ed25519 → key.length = 32)
      (hok : L.keyOk algo key = true) (hsok : L.sigOk algo cv.signature = true)
      (h : L.verify algo key content cv.signature = false) : SignatureDefect F entries content cv .invalidSignature

/-- The same for webpki, which looks only at the first entry. -/
inductive WebComplaint (W : WebLib) (now : Option Nat) (N : Nat) (ca : CertEntry) (host : Option Bytes) (c : CertMsg) :
    TlsError → Prop where
  | caNotX509 (k : Bytes) (h : ca = .rawPublicKey k) : WebComplaint W now N ca host c .invalidCertificate
  | badAnchor (anchor : Bytes) (hca : ca = .x509 anchor) (h : W.anchorOk anchor = false) :
      WebComplaint W now N ca host c .decodeError
  | noCertificate (anchor : Bytes) (hca : ca = .x509 anchor) (ha : W.anchorOk anchor = true)
      (h : ∀ leaf rest, c.entries ≠ .x509 leaf :: rest) : WebComplaint W now N ca host c .invalidCertificate
  | badLeaf (anchor leaf : Bytes) (rest : List CertEntry) (hca : ca = .x509 anchor) (ha : W.anchorOk anchor = true)
      (hl : c.entries = .x509 leaf :: rest) (h : W.leafOk leaf = false) : WebComplaint W now N ca host c .decodeError
  | chain (anchor leaf : Bytes) (rest : List CertEntry) (hca : ca = .x509 anchor) (ha : W.anchorOk anchor = true)
      (hl : c.entries = .x509 leaf :: rest) (hok : W.leafOk leaf = true) (h : W.chainOk anchor leaf (now.getD 0) = false) :
      WebComplaint W now N ca host c .invalidCertificate
  | host (anchor leaf name : Bytes) (rest : List CertEntry) (hca : ca = .x509 anchor) (ha : W.anchorOk anchor = true)
      (hl : c.entries = .x509 leaf :: rest) (hok : W.leafOk leaf = true) (hch : W.chainOk anchor leaf (now.getD 0) = true)
      (hh : host = some name) (h : ¬ (W.nameOk name = true ∧ W.validFor leaf name = true)) :
      WebComplaint W now N ca host c .invalidCertificate
  | storage (anchor leaf : Bytes) (rest : List CertEntry) (hca : ca = .x509 anchor) (ha : W.anchorOk anchor = true)
      (hl : c.entries = .x509 leaf :: rest) (hok : W.leafOk leaf = true) (hch : W.chainOk anchor leaf (now.getD 0) = true)
      (hh : ∀ name, host = some name → W.nameOk name = true ∧ W.validFor leaf name = true)
      (h : 256 < c.requestContext.length ∨ N < c.rawEntries.length) : WebComplaint W now N ca host c .outOfMemory

/-- The schemes webpki verifies without its feature `alloc`: no RSA. -/
def WebEnabled (alloc : Bool) : WebAlgo → Prop
  | .ecdsaP256Sha256 | .ecdsaP384Sha384 | .ed25519 => True
  | _ => alloc = true

/-- What is wrong with the signature of the server for webpki, and the error that says so. -/
inductive WebSignatureDefect (W : WebLib) (alloc : Bool) (entries : List CertEntry) (content : Bytes) (cv : CertVerify) :
    TlsError → Prop where
  | noCertificate (h : ∀ leaf rest, entries ≠ .x509 leaf :: rest) : WebSignatureDefect W alloc entries content cv .invalidSignature
  | badLeaf (leaf : Bytes) (rest : List CertEntry) (hl : entries = .x509 leaf :: rest) (h : W.leafOk leaf = false) :
      WebSignatureDefect W alloc entries content cv .decodeError
  | unknownScheme (leaf : Bytes) (rest : List CertEntry) (hl : entries = .x509 leaf :: rest) (hok : W.leafOk leaf = true)
      (h : ∀ algo, (cv.scheme, algo) ∈ webpkiAlgorithms → ¬ WebEnabled alloc algo) :
      WebSignatureDefect W alloc entries content cv .invalidSignatureScheme
  | forged (leaf : Bytes) (rest : List CertEntry) (algo : WebAlgo) (hl : entries = .x509 leaf :: rest)
      (hok : W.leafOk leaf = true) (ha : (cv.scheme, algo) ∈ webpkiAlgorithms) (he : WebEnabled alloc algo)
      (h : W.verify algo leaf content cv.signature = false) : WebSignatureDefect W alloc entries content cv .invalidSignature

end ETls.Spec
