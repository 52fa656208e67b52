import Verif.Props.OpenUnique
import Verif.Props.Rsa
import Verif.Props.Complaint
import Verif.Proofs.EcdsaOnly

/-! # C130: the verdict of the verifier is the result of `open` -/

namespace ETls

open Spec Crypto

variable {V : Type}

namespace Spec

/-- What a verifier says of the certificates of a server, and then of its signature over the handshake up to them; `x` is the
signature scheme that the server names. -/
def Textbook.judged (t : Textbook) (S : Suite) (hello : Bytes) (x : SignatureScheme) (ops : VerifierOps V) (v : V) :
    Res TlsError Unit :=
  match ops.verifyCertificate (t.toCertificate S hello)
      ⟨(t.certs.map fun c => (c, ([] : List RawExt))).flatMap certEntryBytes, [], t.certs.map .x509⟩ v with
  | (.ok (), v1) => (ops.verifySignature ⟨x, t.sign (serverSignedContent S (t.toCertificate S hello))⟩ v1).1
  | (.err e, _) => .err e
  | (.panic, _) => .panic

/-- What the native verifier says of a signature under the key of the leaf, by the scheme. -/
inductive SignatureVerdict (L : PkiLib) (F : Features) (key : Bytes) (x : SignatureScheme) (content sig : Bytes) :
    Res TlsError Unit → Prop where
  /-- the scheme is not compiled in -/
  | unknown (h : ∀ algo, (x, algo) ∈ schemeAlgorithms → ¬ Enabled F algo) :
      SignatureVerdict L F key x content sig (.err .invalidSignatureScheme)
  /-- the key is not one for the scheme; two schemes panic then -/
  | ed25519 (h : (x, .ed25519) ∈ schemeAlgorithms) (he : Enabled F .ed25519) (hk : key.length ≠ 32) :
      SignatureVerdict L F key x content sig .panic
  | rsa (h : (x, .rsaPssSha256) ∈ schemeAlgorithms) (he : Enabled F .rsaPssSha256) (hk : L.keyOk .rsaPssSha256 key = false) :
      SignatureVerdict L F key x content sig .panic
  | key (algo : SigAlgo) (h : (x, algo) ∈ schemeAlgorithms) (he : Enabled F algo) (hk : L.keyOk algo key = false)
      (h1 : algo = .ed25519 → key.length = 32) (h2 : algo ≠ .rsaPssSha256) :
      SignatureVerdict L F key x content sig (.err .decodeError)
  /-- the signature cannot be read -/
  | unreadable (algo : SigAlgo) (h : (x, algo) ∈ schemeAlgorithms) (he : Enabled F algo) (hk : L.keyOk algo key = true)
      (h1 : algo = .ed25519 → key.length = 32) (hs : L.sigOk algo sig = false) :
      SignatureVerdict L F key x content sig (.err .decodeError)
  | wrong (algo : SigAlgo) (h : (x, algo) ∈ schemeAlgorithms) (he : Enabled F algo) (hk : L.keyOk algo key = true)
      (h1 : algo = .ed25519 → key.length = 32) (hs : L.sigOk algo sig = true) (hv : ¬ ValidSignature L algo key content sig) :
      SignatureVerdict L F key x content sig (.err .invalidSignature)
  | right (algo : SigAlgo) (h : (x, algo) ∈ schemeAlgorithms) (he : Enabled F algo) (h1 : algo = .ed25519 → key.length = 32)
      (hv : ValidSignature L algo key content sig) : SignatureVerdict L F key x content sig (.ok ())

end Spec

section
variable {S : Suite}

/-- A protected record with one message, as a frame. -/
theorem one_framed (hS : S.Lawful) (key iv : Bytes) (seq cap : Nat) (r : RawMsg) (rest : Bytes)
    (hl : r.bytes.length + 17 ≤ cap) (hl' : r.bytes.length + 17 < 65536) :
    ∃ hdr body, Framed cap (protect S key iv seq (flightFragment [r] 0) ++ rest) (.record 23 hdr body rest) ∧
      S.open_ key (nonce iv seq) hdr body = some (Fragment.inner ⟨22, r.bytes, 0⟩) := by
  have hi : (flightFragment [r] 0).inner = Fragment.inner ⟨22, r.bytes, 0⟩ := by simp [flightFragment]
  have hil : (Fragment.inner ⟨22, r.bytes, 0⟩).length = r.bytes.length + 1 := by simp [Fragment.inner]
  unfold protect
  simp only [hi]
  generalize Fragment.inner ⟨22, r.bytes, 0⟩ = pt at hil
  refine ⟨ciphertextHeader pt.length, S.sealCt key (nonce iv seq) (ciphertextHeader pt.length) pt ++
    S.sealTag key (nonce iv seq) (ciphertextHeader pt.length) pt, ?_, hS.open_seal _ _ _ _⟩
  have hb : (S.sealCt key (nonce iv seq) (ciphertextHeader pt.length) pt ++
    S.sealTag key (nonce iv seq) (ciphertextHeader pt.length) pt).length = pt.length + 16 := by
    rw [List.length_append, hS.sealCt_length, hS.sealTag_length]; rfl
  have hh : ciphertextHeader pt.length = header 23 3 3 (S.sealCt key (nonce iv seq) (ciphertextHeader pt.length) pt ++
    S.sealTag key (nonce iv seq) (ciphertextHeader pt.length) pt).length := by rw [hb]; rfl
  generalize S.sealCt key (nonce iv seq) (ciphertextHeader pt.length) pt ++
    S.sealTag key (nonce iv seq) (ciphertextHeader pt.length) pt = body at hb hh
  rw [hh]
  exact .record 23 3 3 body rest ⟨.applicationData, by decide⟩ (by omega) (by omega)

theorem Begins.self {r : RawMsg} (h1 : r.WellSized S.hashLen) (h2 : r.body.length < 16777216) (h3 : r.Readable) :
    Begins S.hashLen r [] (r.bytes ++ []) := ⟨h1, h3, _, h2, rfl⟩

variable {p : Provider V} {secret : Bytes} {cap : Nat}

/-- A record whose message is taken note of. -/
theorem one_more (hS : S.Lawful) {seq : Nat} {r : RawMsg} {rest left : Bytes} {f f1 : Flight V} {g : Got V}
    (hl : r.bytes.length + 17 ≤ cap) (hl' : r.bytes.length + 17 < 65536) (h1 : r.WellSized S.hashLen)
    (h2 : r.body.length < 16777216) (h3 : r.Readable) (hh : Hears S p secret f r.bytes r (.ok f1)) (hw : f1.after = .waiting)
    (hs : seq + 1 < 2 ^ 64) (hm : Flights S p secret cap (seq + 1) rest f1 g left) :
    Flights S p secret cap seq (protect S (writeKey S secret) (writeIv S secret) seq (flightFragment [r] 0) ++ rest) f g left := by
  obtain ⟨hdr, body, hf, ho⟩ := one_framed hS (writeKey S secret) (writeIv S secret) seq cap r rest hl hl'
  refine .more seq (seq + 1) _ f f1 23 hdr body rest left g hf (.authentic hdr body _ f1 ho ?_ hs) hw hm
  refine .handshake r.bytes 0 _ ?_
  rw [← List.append_nil r.bytes]
  exact .next r r.bytes [] f f1 _ (Begins.self h1 h2 h3) hh (.done f1)

/-- A record whose message is not. -/
theorem one_stop (hS : S.Lawful) {seq : Nat} {r : RawMsg} {rest : Bytes} {f : Flight V} {x : Res TlsError (Flight V)}
    (hl : r.bytes.length + 17 ≤ cap) (hl' : r.bytes.length + 17 < 65536) (h1 : r.WellSized S.hashLen)
    (h2 : r.body.length < 16777216) (h3 : r.Readable) (hh : Hears S p secret f r.bytes r x) (hx : ∀ f1, x ≠ .ok f1) :
    Flights S p secret cap seq (protect S (writeKey S secret) (writeIv S secret) seq (flightFragment [r] 0) ++ rest) f (.of x) [] := by
  obtain ⟨hdr, body, hf, ho⟩ := one_framed hS (writeKey S secret) (writeIv S secret) seq cap r rest hl hl'
  have hg : ∀ f1, Got.of x ≠ .ok f1 := by
    intro f1 h
    cases x with
    | ok f => exact hx f rfl
    | err e => cases h
    | panic => cases h
  refine .stop seq seq _ f 23 hdr body rest _ hf (.refused hdr body _ _ ho ?_ hg) hg
  refine .handshake r.bytes 0 _ ?_
  rw [← List.append_nil r.bytes]
  exact .stop r r.bytes [] f x (Begins.self h1 h2 h3) hh hx

/-- Certificate, CertificateVerify and Finished of a server. -/
theorem textbook_tail (hS : S.Lawful) {t : Textbook} (ht : t.Sized) (hne : t.certs ≠ []) {hello : Bytes} {x : SignatureScheme}
    (hx : (x, t.scheme) ∈ signatureSchemes) {ops : VerifierOps V} (hv : p.verifier = some ops)
    (hcap : 97 ≤ cap) (hcert : t.certificate.bytes.length + 17 ≤ cap) (v : V) (rest : Bytes) (seq : Nat) (hseq : seq < 8)
    (rq : Option Bytes) {key iv : Bytes} (hkey : key = writeKey S (t.handshakeSecret S hello)) (hiv : iv = writeIv S (t.handshakeSecret S hello)) :
    ∃ g left, Flights S p (t.handshakeSecret S hello) cap seq
        (protect S key iv seq (flightFragment [t.certificate] 0) ++
          (protect S key iv (seq + 1) (flightFragment [.certificateVerify t.scheme (t.sign (serverSignedContent S (t.toCertificate S hello)))] 0) ++
            (protect S key iv (seq + 1 + 1) (flightFragment [t.finished S hello] 0) ++ rest)))
        ⟨hello ++ (t.serverHello S).bytes ++ t.parameters.flatMap RawMsg.bytes, rq, v, .waiting⟩ g left ∧
      match t.judged S hello x ops v with
      | .ok () => ∃ f, g = .ok f ∧ f.transcript = t.transcript S hello ∧ f.request = rq ∧
          f.after = (if rq = none then .finished (t.transcript S hello) else .certificate) ∧ left = rest
      | .err e => g = .refused (some e)
      | .panic => g = .abort := by
  subst hkey hiv
  have hms : t.msgs S hello = t.parameters ++
      [t.certificate, .certificateVerify t.scheme (t.sign (serverSignedContent S (t.toCertificate S hello)))] := by
    unfold Textbook.msgs; rw [if_neg hne]
  have hmax := ht.certificate
  obtain ⟨c0, c1, c2, -, c3⟩ := textbook_msgs (S := S) (hello := hello) ht (r := t.certificate) (by rw [hms]; simp)
  obtain ⟨w0, w1, w2, -, w3⟩ := textbook_msgs (S := S) (hello := hello) ht
    (r := .certificateVerify t.scheme (t.sign (serverSignedContent S (t.toCertificate S hello)))) (by rw [hms]; simp)
  have hfl := textbook_finished t hello hS
  have hhl := hS.hashLen_le
  have htr : t.toCertificate S hello = hello ++ (t.serverHello S).bytes ++ t.parameters.flatMap RawMsg.bytes ++ t.certificate.bytes := rfl
  have hbf : t.beforeFinished S hello = t.toCertificate S hello ++
      (RawMsg.certificateVerify t.scheme (t.sign (serverSignedContent S (t.toCertificate S hello)))).bytes := by
    unfold Textbook.beforeFinished
    rw [hms, htr]
    simp
  have hf1 : (t.finished S hello).WellSized S.hashLen := hS.hmac_length _ _
  have hf2 : (t.finished S hello).body.length < 16777216 := by
    have : (t.finished S hello).body.length ≤ (t.finished S hello).bytes.length := by
      simp only [RawMsg.bytes, List.length_cons, List.length_append]; omega
    omega
  have hh := Hears.certificate (S := S) (p := p) (secret := t.handshakeSecret S hello)
    (f := ⟨hello ++ (t.serverHello S).bytes ++ t.parameters.flatMap RawMsg.bytes, rq, v, .waiting⟩) (m := t.certificate.bytes) []
    (t.certs.map fun c => (c, ([] : List RawExt))) ops hv
  simp only [List.map_map, Function.comp_def] at hh
  rw [← htr] at hh
  unfold Textbook.judged
  rcases hvc : ops.verifyCertificate (t.toCertificate S hello)
      ⟨(t.certs.map fun c => (c, ([] : List RawExt))).flatMap certEntryBytes, [], t.certs.map .x509⟩ v with ⟨_ | e | _, v1⟩
  · rw [hvc] at hh
    simp only [Flight.judged, Flight.heard] at hh
    rw [← htr] at hh
    have hg := Hears.signature (S := S) (p := p) (secret := t.handshakeSecret S hello) (f := ⟨t.toCertificate S hello, rq, v1, .waiting⟩)
      (m := (RawMsg.certificateVerify t.scheme (t.sign (serverSignedContent S (t.toCertificate S hello)))).bytes)
      t.scheme (t.sign (serverSignedContent S (t.toCertificate S hello))) x ops hv hx
    have go : ∀ {g left}, Flights S p (t.handshakeSecret S hello) cap (seq + 1)
        (protect S (writeKey S (t.handshakeSecret S hello)) (writeIv S (t.handshakeSecret S hello)) (seq + 1)
          (flightFragment [.certificateVerify t.scheme (t.sign (serverSignedContent S (t.toCertificate S hello)))] 0) ++
            (protect S (writeKey S (t.handshakeSecret S hello)) (writeIv S (t.handshakeSecret S hello)) (seq + 1 + 1)
              (flightFragment [t.finished S hello] 0) ++ rest)) ⟨t.toCertificate S hello, rq, v1, .waiting⟩ g left → _ :=
      fun {g left} h => one_more (left := left) hS hcert (by omega) c1 c2 c3 hh rfl (by omega) h
    rcases hvs : ops.verifySignature ⟨x, t.sign (serverSignedContent S (t.toCertificate S hello))⟩ v1 with ⟨_ | e | _, v2⟩
    · rw [hvs] at hg
      simp only [Flight.judged, Flight.heard] at hg
      rw [← hbf] at hg
      obtain ⟨hdr, body, hfr, ho⟩ := one_framed hS (writeKey S (t.handshakeSecret S hello)) (writeIv S (t.handshakeSecret S hello))
        (seq + 1 + 1) cap (t.finished S hello) rest (by omega) (by omega)
      have hfin : ∃ f : Flight V, Hears S p (t.handshakeSecret S hello) ⟨t.beforeFinished S hello, rq, v2, .waiting⟩
          (t.finished S hello).bytes (t.finished S hello) (.ok f) ∧ f.transcript = t.transcript S hello ∧ f.request = rq ∧
          f.after = (if rq = none then .finished (t.transcript S hello) else .certificate) := by
        by_cases hr : rq = none
        · exact ⟨_, .finished _ rfl hr, rfl, rfl, by rw [if_pos hr]; rfl⟩
        · exact ⟨_, .finishedRequested _ rfl hr, rfl, rfl, by rw [if_neg hr]⟩
      obtain ⟨f, hf, q1, q2, q3⟩ := hfin
      refine ⟨.ok f, rest, go (one_more hS (by omega) (by omega) w1 w2 w3 hg rfl (by omega) ?_),
        by simp only [hvs]; exact ⟨f, rfl, q1, q2, q3, trivial⟩⟩
      refine .last _ (seq + 1 + 1 + 1) _ _ f 23 hdr body rest hfr (.authentic hdr body _ f ho ?_ (by omega)) ?_
      · refine .handshake _ 0 _ ?_
        rw [← List.append_nil (t.finished S hello).bytes]
        exact .next _ _ [] _ f _ (Begins.self hf1 hf2 trivial) hf (.done f)
      · rw [q3]; split <;> simp
    · rw [hvs] at hg
      exact ⟨.refused (some e), [], go (one_stop hS (by omega) (by omega) w1 w2 w3 hg (by simp [Flight.judged])), by simp only [hvs]⟩
    · rw [hvs] at hg
      exact ⟨.abort, [], go (one_stop hS (by omega) (by omega) w1 w2 w3 hg (by simp [Flight.judged])), by simp only [hvs]⟩
  · rw [hvc] at hh
    exact ⟨.refused (some e), [], one_stop hS hcert (by omega) c1 c2 c3 hh (by simp [Flight.judged]), rfl⟩
  · rw [hvc] at hh
    exact ⟨.abort, [], one_stop hS hcert (by omega) c1 c2 c3 hh (by simp [Flight.judged]), rfl⟩

/-- The flight of a server with certificates. -/
theorem textbook_flights (hS : S.Lawful) {t : Textbook} (ht : t.Sized) (hne : t.certs ≠ []) {hello : Bytes} {x : SignatureScheme}
    (hx : (x, t.scheme) ∈ signatureSchemes) {ops : VerifierOps V} (hv : p.verifier = some ops)
    (hcap : 97 ≤ cap) (hcert : t.certificate.bytes.length + 17 ≤ cap) (v : V) (rest : Bytes) :
    ∃ g left, Flights S p (t.handshakeSecret S hello) cap 0
        ((flightRecords S (writeKey S (t.handshakeSecret S hello)) (writeIv S (t.handshakeSecret S hello)) 0
          (t.flight S hello).records).flatten ++ rest) ⟨hello ++ (t.serverHello S).bytes, none, v, .waiting⟩ g left ∧
      match t.judged S hello x ops v with
      | .ok () => ∃ f, g = .ok f ∧ f.transcript = t.transcript S hello ∧ f.request = (if t.request then some [] else none) ∧
          f.after = (if t.request then .certificate else .finished (t.transcript S hello)) ∧ left = rest
      | .err e => g = .refused (some e)
      | .panic => g = .abort := by
  have hms : t.msgs S hello = t.parameters ++
      [t.certificate, .certificateVerify t.scheme (t.sign (serverSignedContent S (t.toCertificate S hello)))] := by
    unfold Textbook.msgs; rw [if_neg hne]
  have hmax := ht.certificate
  have hpar : t.parameters = .encryptedExtensions [] :: if t.request then [Textbook.certificateRequest] else [] := rfl
  have hee : (RawMsg.encryptedExtensions []).bytes.length = 6 := by decide
  have hcr : Textbook.certificateRequest.bytes.length = 15 := by decide
  obtain ⟨-, e1, e2, -, e3⟩ := textbook_msgs (S := S) (hello := hello) ht (r := .encryptedExtensions []) (by rw [hms, hpar]; simp)
  have hh := Hears.extensions (S := S) (p := p) (secret := t.handshakeSecret S hello)
    (f := ⟨hello ++ (t.serverHello S).bytes, none, v, .waiting⟩) (m := (RawMsg.encryptedExtensions []).bytes) []
  by_cases hr : t.request = true
  · rw [if_pos hr] at hpar
    obtain ⟨-, r1, r2, -, r3⟩ := textbook_msgs (S := S) (hello := hello) ht (r := Textbook.certificateRequest) (by rw [hms, hpar]; simp)
    obtain ⟨g, left, h1, h2⟩ := textbook_tail hS ht hne (hello := hello) hx hv hcap hcert v rest 2 (by omega) (some []) rfl rfl
    refine ⟨g, left, ?_, ?_⟩
    · have hrec : (t.flight S hello).records = [.messages [.encryptedExtensions []] 0, .messages [Textbook.certificateRequest] 0,
          .messages [t.certificate] 0, .messages [.certificateVerify t.scheme (t.sign (serverSignedContent S (t.toCertificate S hello)))] 0,
          .messages [t.finished S hello] 0] := by
        unfold Textbook.flight
        simp only [hms, hpar]
        rfl
      rw [hrec]
      simp only [flightRecords, List.flatten_cons, List.flatten_nil, List.append_nil, List.append_assoc]
      refine one_more hS (by omega) (by omega) e1 e2 e3 hh rfl (by omega) ?_
      refine one_more hS (by omega) (by omega) r1 r2 r3 (.request [] _) rfl (by omega) ?_
      rw [hpar] at h1
      simpa [Flight.heard] using h1
    · simp only [hr, if_true]
      simpa using h2
  · rw [if_neg hr] at hpar
    obtain ⟨g, left, h1, h2⟩ := textbook_tail hS ht hne (hello := hello) hx hv hcap hcert v rest 1 (by omega) none rfl rfl
    refine ⟨g, left, ?_, ?_⟩
    · have hrec : (t.flight S hello).records = [.messages [.encryptedExtensions []] 0,
          .messages [t.certificate] 0, .messages [.certificateVerify t.scheme (t.sign (serverSignedContent S (t.toCertificate S hello)))] 0,
          .messages [t.finished S hello] 0] := by
        unfold Textbook.flight
        simp only [hms, hpar]
        rfl
      rw [hrec]
      simp only [flightRecords, List.flatten_cons, List.flatten_nil, List.append_nil, List.append_assoc]
      refine one_more hS (by omega) (by omega) e1 e2 e3 hh rfl (by omega) ?_
      rw [hpar] at h1
      simpa [Flight.heard] using h1
    · simp only [hr]
      simpa using h2

/-- **C130** A client with whatever verifier, and a server of TLS 1.3 with whatever certificates and signature (of lengths that
fit): the result of `open` is what the verifier says, when it is shown the handshake messages up to the certificates and the
certificates, and then the signature over these messages.  If the verifier refuses with an error, the client has sent its
ClientHello and at most one alert, and the connection is not open. -/
theorem C130_verdict (hs : Shipped S) (cfg : Config) (p : Provider V) (v v0 : V) (t : Textbook) (ht : t.Sized) (hne : t.certs ≠ [])
    (hpsk : t.psk = cfg.psk.map (·.1)) (hfit : HelloFits S cfg p) (ha : scalarOf p.secret ≠ 0) (hb : scalarOf t.secret ≠ 0)
    {ops : VerifierOps V} (hv : p.verifier = some ops) (hname : Named p v cfg.serverName (.ok v0))
    {x : SignatureScheme} (hx : (x, t.scheme) ∈ signatureSchemes) (hc : p.clientCert = none)
    {rx : Rx} {tx : Tx} {rb wb : Bytes} {c : Conn} (hn : Conn.new S rx tx rb wb = .ok c) (hclean : rx.Clean) (hrel : Reliable tx)
    {rest : Bytes} (hrx : rx.bytes = t.answer S (helloMsg S cfg p) ++ rest)
    (hhello : 5 + helloLength S cfg p ≤ wb.length) (hwb : 286 ≤ wb.length) (hrb : 192 ≤ rb.length)
    (hcert : t.certificate.bytes.length + 17 ≤ rb.length) :
    (Conn.open_ S cfg p v c).1 = t.judged S (helloMsg S cfg p) x ops v0 ∧
      ∀ e, t.judged S (helloMsg S cfg p) x ops v0 = .err e → (Conn.open_ S cfg p v c).2.opened = false ∧ ∃ told, Told e told ∧
        (Conn.open_ S cfg p v c).2.tx.log = tx.log ++ sentRecords (plaintextRecord 22 [3, 1] (helloMsg S cfg p) :: told) := by
  have hS := C95_lawful S hs
  obtain ⟨f1, f2, f3⟩ := Conn.new_fresh S hn
  have hl : c.wb.buffer.length = wb.length ∧ c.rr.buf.length = rb.length := by
    unfold Conn.new WB.new at hn
    split at hn
    · simp only [Res.map, Res.ok.injEq] at hn
      subst hn
      exact ⟨rfl, rfl⟩
    · cases hn
  obtain ⟨l1, l2⟩ := hl
  have hle := hS.hashLen_le
  have hroom : Roomy S cfg p c.wb.buffer.length := by
    rw [l1]
    exact ⟨hhello, by omega, hwb, (by rw [hc]; intro cert h; cases h), fun h => absurd hc h⟩
  have hsh := textbook_shaped (helloMsg S cfg p) hs ht
  have hd := (C98_conforming hs cfg p hfit ha hb (x := t.flight S (helloMsg S cfg p)) (by rw [← hpsk]; exact hsh)
    (dheFrom_agrees hs cfg p hfit t.secret ha hb)).dhe
  have hlen := textbook_hello_length (S := S) t
  rw [ht.random] at hlen
  obtain ⟨g, left, hg, hj⟩ := textbook_flights (cap := rb.length) hS ht hne (hello := helloMsg S cfg p) hx hv (by omega) hcert v0 rest
  have hfr : Framed rb.length c.rx.bytes (.record 22 (header 22 3 3 (t.serverHello S).bytes.length) ((t.serverHello S).bytes ++ [])
      ((flightRecords S (writeKey S (t.handshakeSecret S (helloMsg S cfg p))) (writeIv S (t.handshakeSecret S (helloMsg S cfg p))) 0
          (t.flight S (helloMsg S cfg p)).records).flatten ++ rest)) := by
    rw [f2, hrx, List.append_nil]
    have : t.answer S (helloMsg S cfg p) ++ rest = header 22 3 3 (t.serverHello S).bytes.length ++ (t.serverHello S).bytes ++
        ((flightRecords S (writeKey S (t.handshakeSecret S (helloMsg S cfg p))) (writeIv S (t.handshakeSecret S (helloMsg S cfg p))) 0
          (t.flight S (helloMsg S cfg p)).records).flatten ++ rest) := by
      unfold Textbook.answer ServerFlight.bytes plaintextRecord
      simp only [List.append_assoc]
      rfl
    rw [this]
    exact .record 22 3 3 _ _ ⟨.handshake, by decide⟩ (by omega) (by omega)
  have hhr : HelloRecord S p.secret 22 ((t.serverHello S).bytes ++ []) (.ok (t.serverHello S).bytes (t.dhe (helloMsg S cfg p))) := by
    refine .serverHello (t.serverHello S) _ [] (p256Public t.secret) _ (Begins.self hsh.serverHello.1 ?_ (textbook_hello_readable t))
      hsh.share hd
    have : (t.serverHello S).body.length ≤ (t.serverHello S).bytes.length := by
      simp only [RawMsg.bytes, List.length_cons, List.length_append]; omega
    omega
  have exact_ := fun e => C77_exact S hS cfg p v f1 (by rw [f2]; exact hclean) (by rw [f3]; exact hrel) hroom (e := e)
  have hsec : t.handshakeSecret S (helloMsg S cfg p) = serverHandshakeTraffic S (cfg.psk.map (·.1)) (t.dhe (helloMsg S cfg p))
      (helloMsg S cfg p ++ (t.serverHello S).bytes) := by unfold Textbook.handshakeSecret; rw [hpsk]
  rw [hsec] at hg hfr
  rw [l2] at exact_
  rcases hjd : t.judged S (helloMsg S cfg p) x ops v0 with _ | e | _
  · rw [hjd] at hj
    obtain ⟨f, rfl, j1, j2, j3, -⟩ := hj
    have hrep : ∃ ms tr, Replies S p f (.done ms tr) := by
      by_cases hr : t.request = true
      · rw [if_pos hr] at j2 j3
        exact ⟨_, _, .noCertificate [] j3 j2 hc⟩
      · rw [if_neg hr] at j3
        exact ⟨_, _, .finished _ j3⟩
    obtain ⟨ms, tr, hrep⟩ := hrep
    have := exact_ _ (.opened v0 22 _ _ _ _ _ left _ tr f ms hname hfr hhr hg hrep rfl)
    exact ⟨this.1, by simp⟩
  · rw [hjd] at hj
    simp only at hj
    subst hj
    obtain ⟨y, told, h1, h2, h3, h4, h5⟩ := exact_ _ (.flightRefused v0 22 _ _ _ _ _ left _ hname hfr hhr hg)
    have h2 : y = e := h2
    subst h2
    refine ⟨h1, ?_⟩
    intro e he
    injection he with he
    subst he
    exact ⟨h5, told, h3, by rw [h4, f3]; rfl⟩
  · rw [hjd] at hj
    simp only at hj
    subst hj
    exact ⟨(exact_ _ (.flightAbort v0 22 _ _ _ _ _ left hname hfr hhr hg)).1, by simp⟩

/-! ## The native verifier -/

theorem schemeAlgo_spec {F : Features} {x : SignatureScheme} {algo : SigAlgo} (h : schemeAlgo F x = some algo) :
    (x, algo) ∈ schemeAlgorithms ∧ Enabled F algo := by
  refine ⟨schemeAlgo_mem h, ?_⟩
  unfold schemeAlgo at h
  split at h
  any_goals (split at h)
  all_goals first
    | cases h; done
    | (injection h with h; subst h; trivial)

theorem verifyPkiSignature_verdict {L : PkiLib} {F : Features} {msg leaf key sig : Bytes} {rest : List CertEntry} {dc : DecodedCert}
    {x : SignatureScheme} (h1 : L.fromDer leaf = some dc) (h2 : dc.publicKey = some key) :
    SignatureVerdict L F key x msg sig (verifyPkiSignature L F msg (.x509 leaf :: rest) ⟨x, sig⟩) := by
  unfold verifyPkiSignature
  simp only [h1, h2]
  cases ha : schemeAlgo F x with
  | none =>
    refine .unknown fun algo hm he => ?_
    rw [schemeAlgo_enabled hm he] at ha
    cases ha
  | some algo =>
    obtain ⟨m, he⟩ := schemeAlgo_spec ha
    simp only
    by_cases hed : algo = .ed25519 ∧ key.length ≠ 32
    · rw [if_pos hed]
      obtain ⟨rfl, hl⟩ := hed
      exact .ed25519 m he hl
    · rw [if_neg hed]
      have hed' : algo = .ed25519 → key.length = 32 := fun h => by
        by_contra hc
        exact hed ⟨h, hc⟩
      cases hk : L.keyOk algo key with
      | false =>
        simp only [Bool.not_false, if_true]
        by_cases hr : algo = .rsaPssSha256
        · rw [if_pos hr]; subst hr; exact .rsa m he hk
        · rw [if_neg hr]; exact .key algo m he hk hed' hr
      | true =>
        cases hs : L.sigOk algo sig with
        | false => simp only [Bool.not_true, Bool.not_false, if_true, Bool.false_eq_true, if_false]; exact .unreadable algo m he hk hed' hs
        | true =>
          cases hv : L.verify algo key msg sig with
          | false =>
            simp only [Bool.not_true, Bool.false_eq_true, if_false]
            exact .wrong algo m he hk hed' hs fun h => by rw [h.2.2] at hv; cases hv
          | true =>
            simp only [Bool.not_true, Bool.false_eq_true, if_false, if_true]
            exact .right algo m he hed' ⟨hk, hs, hv⟩

/-- The certificates as the verifier stores them can be read again. -/
theorem textbook_parsed (hs : Shipped S) {t : Textbook} (ht : t.Sized) (hello : Bytes) (hne : t.certs ≠ []) :
    CertEntry.parseVector 16 ⟨(t.certs.map fun c => (c, ([] : List RawExt))).flatMap certEntryBytes, 0⟩ = .ok (t.certs.map .x509) := by
  have hmem : t.certificate ∈ (t.flight S hello).msgs := by
    show _ ∈ t.msgs S hello
    unfold Textbook.msgs
    rw [if_neg hne]
    simp
  obtain ⟨-, c1, c2, -, c3⟩ := textbook_msgs (S := S) (hello := hello) ht hmem
  have hpv := (textbook_accepted hello hs ht _ (List.mem_cons_of_mem _ hmem)).parsed c1 c2
  have hmap : ((t.certs.map fun c => (c, ([] : List RawExt))).map fun e => CertEntry.x509 e.1) = t.certs.map .x509 := by
    simp [Function.comp_def]
  rw [hmap] at hpv
  exact hpv

/-- What the native verifier says of a server whose certificates are valid. -/
theorem native_judged (hs : Shipped S) {L : PkiLib} {F : Features} {now : Option Nat} {N : Nat} {ca : CertEntry} {host : Bytes} {t : Textbook}
    (ht : t.Sized) (hello : Bytes) (hEd : ∀ k, L.keyOk .ed25519 k = true → k.length = 32) (hchain : ValidChain L F now ca host t.certs)
    (hN : t.certificate.bytes.length ≤ N) (x : SignatureScheme) :
    t.judged S hello x (pkiOps L S F now N) { PkiVerifier.new ca with host := some host } =
      verifyPkiSignature L F (serverSignedContent S (t.toCertificate S hello)) (t.certs.map .x509)
        ⟨x, t.sign (serverSignedContent S (t.toCertificate S hello))⟩ := by
  have hS := C95_lawful S hs
  obtain ⟨leaf, rest', dc, names, name, k1, k2, k3, k4, k5, k6, k7⟩ := hchain.leaf
  have hne : t.certs ≠ [] := by rw [k1]; simp
  have hpv := textbook_parsed hs ht hello hne
  have hcert : ((pkiOps L S F now N).verifyCertificate (t.toCertificate S hello)
      ⟨(t.certs.map fun c => (c, ([] : List RawExt))).flatMap certEntryBytes, [], t.certs.map .x509⟩
      { PkiVerifier.new ca with host := some host }).1 = .ok () := by
    refine C64_valid_chain_accepted S now N _ _ _ t.certs leaf rest' dc names host name hEd rfl (show 0 ≤ 256 by decide) ?_ hchain.chain
      k1 k2 k3 k4 k5 rfl k6 k7
    refine le_trans ?_ hN
    simp only [Textbook.certificate, RawMsg.bytes, RawMsg.body, List.length_cons, List.length_append]
    omega
  unfold Textbook.judged
  rcases hvc : (pkiOps L S F now N).verifyCertificate (t.toCertificate S hello)
      ⟨(t.certs.map fun c => (c, ([] : List RawExt))).flatMap certEntryBytes, [], t.certs.map .x509⟩
      { PkiVerifier.new ca with host := some host } with ⟨r, v1⟩
  rw [hvc] at hcert
  simp only at hcert
  subst hcert
  obtain ⟨_, _, _, hv1⟩ := pkiVerifyCertificate_ok hvc
  subst hv1
  have hle := hS.hashLen_le
  simp only [pkiOps, pkiVerifySignature, M.get_bind, M.modify_bind]
  rw [serverSigned_eq S hS, if_pos (by omega), M.lift_ok_bind, hpv, M.lift_ok_bind, M.lift_apply]

/-- **C130, the native verifier** If the certificates are valid for the host and lead to the CA, the result of `open` is decided by
the signature: success if it is one of the key of the leaf, by a scheme that is compiled in; else an error, or a panic. -/
theorem C130_native (hs : Shipped S) {L : PkiLib} {F : Features} {now : Option Nat} {N : Nat} (cfg : Config) (p : Provider PkiVerifier)
    (ca : CertEntry) (hv : p.verifier = some (pkiOps L S F now N)) (hEd : ∀ k, L.keyOk .ed25519 k = true → k.length = 32)
    {host : Bytes} (hname : cfg.serverName = some host) (hlen : host.length ≤ 64)
    (t : Textbook) (ht : t.Sized) (hchain : ValidChain L F now ca host t.certs) (hN : t.certificate.bytes.length ≤ N)
    (hpsk : t.psk = cfg.psk.map (·.1)) (hfit : HelloFits S cfg p) (ha : scalarOf p.secret ≠ 0) (hb : scalarOf t.secret ≠ 0)
    {x : SignatureScheme} (hx : (x, t.scheme) ∈ signatureSchemes) (hc : p.clientCert = none)
    {leaf key : Bytes} {dc : DecodedCert} (hleaf : t.certs.head? = some leaf) (hdc : L.fromDer leaf = some dc) (hkey : dc.publicKey = some key)
    {rx : Rx} {tx : Tx} {rb wb : Bytes} {c : Conn} (hn : Conn.new S rx tx rb wb = .ok c) (hclean : rx.Clean) (hrel : Reliable tx)
    {rest : Bytes} (hrx : rx.bytes = t.answer S (helloMsg S cfg p) ++ rest)
    (hhello : 5 + helloLength S cfg p ≤ wb.length) (hwb : 286 ≤ wb.length) (hrb : 192 ≤ rb.length)
    (hcert : t.certificate.bytes.length + 17 ≤ rb.length) :
    SignatureVerdict L F key x (serverSignedContent S (t.toCertificate S (helloMsg S cfg p)))
      (t.sign (serverSignedContent S (t.toCertificate S (helloMsg S cfg p)))) (Conn.open_ S cfg p (PkiVerifier.new ca) c).1 := by
  obtain ⟨l, rest', h⟩ : ∃ l rest', t.certs = l :: rest' := by
    cases ht : t.certs with
    | nil => rw [ht] at hleaf; cases hleaf
    | cons l r => exact ⟨l, r, rfl⟩
  have hl : l = leaf := by rw [h] at hleaf; injection hleaf
  subst hl
  rw [(C130_verdict hs cfg p (PkiVerifier.new ca) { PkiVerifier.new ca with host := some host } t ht (by rw [h]; simp) hpsk hfit ha hb hv
      (by rw [hname]; exact .accepted _ _ _ hv (pkiSetHostname_fits hlen _)) hx hc hn hclean hrel hrx hhello hwb hrb hcert).1,
    native_judged hs ht _ hEd hchain hN x, h]
  exact verifyPkiSignature_verdict hdc hkey

/-- **C130, exactly the owner** If the certificates are valid, `open` succeeds if and only if the signature is one of the key of the
leaf, of the handshake up to the certificates, by a scheme that is compiled in. -/
theorem C130_owner (hs : Shipped S) {L : PkiLib} {F : Features} {now : Option Nat} {N : Nat} (cfg : Config) (p : Provider PkiVerifier)
    (ca : CertEntry) (hv : p.verifier = some (pkiOps L S F now N)) (hEd : ∀ k, L.keyOk .ed25519 k = true → k.length = 32)
    {host : Bytes} (hname : cfg.serverName = some host) (hlen : host.length ≤ 64)
    (t : Textbook) (ht : t.Sized) (hchain : ValidChain L F now ca host t.certs) (hN : t.certificate.bytes.length ≤ N)
    (hpsk : t.psk = cfg.psk.map (·.1)) (hfit : HelloFits S cfg p) (ha : scalarOf p.secret ≠ 0) (hb : scalarOf t.secret ≠ 0)
    (hc : p.clientCert = none)
    {rx : Rx} {tx : Tx} {rb wb : Bytes} {c : Conn} (hn : Conn.new S rx tx rb wb = .ok c) (hclean : rx.Clean) (hrel : Reliable tx)
    {rest : Bytes} (hrx : rx.bytes = t.answer S (helloMsg S cfg p) ++ rest)
    (hhello : 5 + helloLength S cfg p ≤ wb.length) (hwb : 286 ≤ wb.length) (hrb : 192 ≤ rb.length)
    (hcert : t.certificate.bytes.length + 17 ≤ rb.length) :
    (Conn.open_ S cfg p (PkiVerifier.new ca) c).1 = .ok () ↔
      SignedWith L F t.certs t.scheme (serverSignedContent S (t.toCertificate S (helloMsg S cfg p)))
        (t.sign (serverSignedContent S (t.toCertificate S (helloMsg S cfg p)))) := by
  obtain ⟨leaf, rest', dc0, names, name, k1, k2, -⟩ := hchain.leaf
  obtain ⟨x, hx⟩ := ht.scheme
  rw [(C130_verdict hs cfg p (PkiVerifier.new ca) { PkiVerifier.new ca with host := some host } t ht (by rw [k1]; simp) hpsk hfit ha hb hv
      (by rw [hname]; exact .accepted _ _ _ hv (pkiSetHostname_fits hlen _)) hx hc hn hclean hrel hrx hhello hwb hrb hcert).1,
    native_judged hs ht _ hEd hchain hN x]
  constructor
  · intro h
    obtain ⟨leaf', rest'', dc, key, algo, g1, g2, g3, -⟩ := verifyPkiSignature_ok h
    rw [g1] at h
    have hvd := verifyPkiSignature_verdict (L := L) (F := F) (rest := rest'') (x := x)
      (msg := serverSignedContent S (t.toCertificate S (helloMsg S cfg p)))
      (sig := t.sign (serverSignedContent S (t.toCertificate S (helloMsg S cfg p)))) g2 g3
    rw [h] at hvd
    have g4 : leaf' = leaf := by
      rw [k1, List.map_cons] at g1
      injection g1 with g1
      injection g1 with g1
      exact g1.symm
    subst g4
    cases hvd with
    | right algo m he h1 hval => exact ⟨leaf', rest', dc, key, x, algo, k1, g2, g3, hx, m, he, hval⟩
  · rintro ⟨leaf', rest'', dc, key, y, algo, g1, g2, g3, g4, g5, g6, g7⟩
    have : y = x := by
      have h1 := C04_signature_scheme.accept _ _ g4
      rw [C04_signature_scheme.accept _ _ hx] at h1
      injection h1 with h1
      exact h1.symm
    subst this
    rw [g1, List.map_cons]
    refine verifyPkiSignature_complete g2 g3 g5 g6 g7 ?_
    rintro rfl
    exact hEd key g7.1

theorem rsaPublic_first {T : DerTags} {bs : Bytes} {k : RsaPublic} (h : rsaPublic T bs = some k) : bs.head? = some 0x30 := by
  unfold rsaPublic at h
  split at h
  · next n e hi =>
    obtain ⟨body, -, h2⟩ := Der.elem_only T 0x30 _ (T.schema _ (by simp)) (Der.inside_iff.1 hi)
    rw [h2]
    rfl
  · cases h

/-- **C130, what was wrong** An error of `open` with the native verifier and such a server names what is wrong with the certificates
(in the sense of C100), or what is wrong with the signature under the first of them. -/
theorem C130_complaint (hs : Shipped S) {L : PkiLib} {F : Features} {now : Option Nat} {N : Nat} (cfg : Config) (p : Provider PkiVerifier)
    (ca : CertEntry) (hv : p.verifier = some (pkiOps L S F now N))
    {host : Bytes} (hname : cfg.serverName = some host) (hlen : host.length ≤ 64)
    (t : Textbook) (ht : t.Sized) (hne : t.certs ≠ [])
    (hpsk : t.psk = cfg.psk.map (·.1)) (hfit : HelloFits S cfg p) (ha : scalarOf p.secret ≠ 0) (hb : scalarOf t.secret ≠ 0)
    {x : SignatureScheme} (hx : (x, t.scheme) ∈ signatureSchemes) (hc : p.clientCert = none)
    {rx : Rx} {tx : Tx} {rb wb : Bytes} {c : Conn} (hn : Conn.new S rx tx rb wb = .ok c) (hclean : rx.Clean) (hrel : Reliable tx)
    {rest : Bytes} (hrx : rx.bytes = t.answer S (helloMsg S cfg p) ++ rest)
    (hhello : 5 + helloLength S cfg p ≤ wb.length) (hwb : 286 ≤ wb.length) (hrb : 192 ≤ rb.length)
    (hcert : t.certificate.bytes.length + 17 ≤ rb.length) {e : TlsError} (he : (Conn.open_ S cfg p (PkiVerifier.new ca) c).1 = .err e) :
    Complaint L F now N ca (some host)
        ⟨(t.certs.map fun c => (c, ([] : List RawExt))).flatMap certEntryBytes, [], t.certs.map .x509⟩ e ∨
      SignatureDefect L F (t.certs.map .x509) (serverSignedContent S (t.toCertificate S (helloMsg S cfg p)))
        ⟨x, t.sign (serverSignedContent S (t.toCertificate S (helloMsg S cfg p)))⟩ e := by
  have hS := C95_lawful S hs
  rw [(C130_verdict hs cfg p (PkiVerifier.new ca) { PkiVerifier.new ca with host := some host } t ht hne hpsk hfit ha hb hv
      (by rw [hname]; exact .accepted _ _ _ hv (pkiSetHostname_fits hlen _)) hx hc hn hclean hrel hrx hhello hwb hrb hcert).1] at he
  unfold Textbook.judged at he
  rcases hvc : (pkiOps L S F now N).verifyCertificate (t.toCertificate S (helloMsg S cfg p))
      ⟨(t.certs.map fun c => (c, ([] : List RawExt))).flatMap certEntryBytes, [], t.certs.map .x509⟩
      { PkiVerifier.new ca with host := some host } with ⟨r, v1⟩
  rw [hvc] at he
  cases r with
  | panic => cases he
  | err e' =>
    injection he with he
    subst he
    exact .inl (C100_native S N _ _ _ _ (by rw [hvc]))
  | ok =>
    exact .inr ((C100_native_signature S N _ _ _ _ _ e hvc (textbook_parsed hs ht (helloMsg S cfg p) hne)
      (by rw [hS.hash_length]; exact hS.hashLen_le)).1 he)

/-- **C130, webpki** The same with the webpki verifier, exactly: the result of `open` is the complaint about the certificates if there
is one; else, with a suite with SHA-384, `EncodeError` whatever the server did; else what is wrong with the signature; else success.
It never panics. -/
theorem C130_webpki (hs : Shipped S) {W : WebLib} {alloc : Bool} {now : Option Nat} {N : Nat} (cfg : Config) (p : Provider PkiVerifier)
    (ca : CertEntry) (hv : p.verifier = some (webOps W S alloc now N))
    {host : Bytes} (hname : cfg.serverName = some host) (hlen : host.length ≤ 64)
    (t : Textbook) (ht : t.Sized) (hne : t.certs ≠ [])
    (hpsk : t.psk = cfg.psk.map (·.1)) (hfit : HelloFits S cfg p) (ha : scalarOf p.secret ≠ 0) (hb : scalarOf t.secret ≠ 0)
    {x : SignatureScheme} (hx : (x, t.scheme) ∈ signatureSchemes) (hc : p.clientCert = none)
    {rx : Rx} {tx : Tx} {rb wb : Bytes} {c : Conn} (hn : Conn.new S rx tx rb wb = .ok c) (hclean : rx.Clean) (hrel : Reliable tx)
    {rest : Bytes} (hrx : rx.bytes = t.answer S (helloMsg S cfg p) ++ rest)
    (hhello : 5 + helloLength S cfg p ≤ wb.length) (hwb : 286 ≤ wb.length) (hrb : 192 ≤ rb.length)
    (hcert : t.certificate.bytes.length + 17 ≤ rb.length) :
    let msg : CertMsg := ⟨(t.certs.map fun c => (c, ([] : List RawExt))).flatMap certEntryBytes, [], t.certs.map .x509⟩
    let content := serverSignedContent S (t.toCertificate S (helloMsg S cfg p))
    (∀ e, (Conn.open_ S cfg p (PkiVerifier.new ca) c).1 = .err e ↔ WebComplaint W now N ca (some host) msg e ∨
      (¬ ∃ e', WebComplaint W now N ca (some host) msg e') ∧
        if S.hashLen ≤ 32 then WebSignatureDefect W alloc (t.certs.map .x509) content ⟨x, t.sign content⟩ e else e = .encodeError) ∧
    ((Conn.open_ S cfg p (PkiVerifier.new ca) c).1 = .ok () ↔ WebAccepts W now ca (some host) t.certs ∧
      (¬ ∃ e', WebComplaint W now N ca (some host) msg e') ∧ S.hashLen ≤ 32 ∧ WebSignedWith W alloc t.certs t.scheme content (t.sign content)) ∧
    (Conn.open_ S cfg p (PkiVerifier.new ca) c).1 ≠ .panic := by
  intro msg content
  have hS := C95_lawful S hs
  rw [(C130_verdict hs cfg p (PkiVerifier.new ca) { PkiVerifier.new ca with host := some host } t ht hne hpsk hfit ha hb hv
      (by rw [hname]; exact .accepted _ _ _ hv (pkiSetHostname_fits hlen _)) hx hc hn hclean hrel hrx hhello hwb hrb hcert).1]
  have hw : ∀ e, ((webOps W S alloc now N).verifyCertificate (t.toCertificate S (helloMsg S cfg p)) msg
      { PkiVerifier.new ca with host := some host }).1 = .err e ↔ WebComplaint W now N ca (some host) msg e :=
    fun e => C100_webpki S alloc N _ msg { PkiVerifier.new ca with host := some host } e
  have hpv := textbook_parsed hs ht (helloMsg S cfg p) hne
  unfold Textbook.judged
  rcases hvc : (webOps W S alloc now N).verifyCertificate (t.toCertificate S (helloMsg S cfg p)) msg
      { PkiVerifier.new ca with host := some host } with ⟨r, v1⟩
  rw [hvc] at hw
  cases r with
  | panic =>
    simp only [webOps, webVerifyCertificate, M.get_bind] at hvc
    rcases webVerifyChain_total (W := W) (now := now) (c := msg) (ca := ca) (host := some host) with h1 | ⟨y, h1⟩
    · rw [show (PkiVerifier.new ca).ca = ca from rfl, h1, M.lift_ok_bind] at hvc
      rcases certOwned_cases N msg with h3 | h3
      · rw [h3, M.lift_ok_bind] at hvc; cases hvc
      · rw [h3, M.lift_err_bind] at hvc; cases hvc
    · rw [show (PkiVerifier.new ca).ca = ca from rfl, h1, M.lift_err_bind] at hvc
      cases hvc
  | err e' =>
    have h1 := (hw e').1 rfl
    refine ⟨fun e => Iff.intro (fun h => .inl ((hw e).1 h)) ?_, ⟨fun h => (by cases h), fun h => absurd ⟨e', h1⟩ h.2.1⟩, by simp⟩
    rintro (h | ⟨h, -⟩)
    · exact (hw e).2 h
    · exact absurd ⟨e', h1⟩ h
  | ok =>
    have hno : ¬ ∃ e', WebComplaint W now N ca (some host) msg e' := by
      rintro ⟨e', h⟩
      cases (hw e').2 h
    have hsig := fun e => C100_webpki_signature S alloc N _ msg _ v1 ⟨x, t.sign content⟩ e hvc hpv
    simp only [hS.hash_length] at hsig
    have hres : ((webOps W S alloc now N).verifySignature ⟨x, t.sign content⟩ v1).1 =
        if S.hashLen ≤ 32 then webCheckSignature W alloc content (t.certs.map .x509) ⟨x, t.sign content⟩ else .err .encodeError := by
      obtain ⟨-, rfl⟩ := webVerifyCertificate_ok hvc
      simp only [webOps, webVerifySignature, M.get_bind, M.modify_bind]
      rw [serverSigned_eq S hS]
      by_cases h32 : S.hashLen ≤ 32
      · rw [if_pos (by omega), if_pos h32, M.lift_ok_bind, hpv, M.lift_ok_bind, M.lift_apply]
      · rw [if_neg (by omega), if_neg h32, M.lift_err_bind]
    refine ⟨fun e => ⟨fun h => .inr ⟨hno, (hsig e).1 h⟩, ?_⟩, ?_, ?_⟩
    · rintro (h | ⟨-, h⟩)
      · exact absurd ⟨e, h⟩ hno
      · exact (hsig e).2 h
    · obtain ⟨g1, rfl⟩ := webVerifyCertificate_ok hvc
      obtain ⟨anchor, leaf, es, k1, k2, k3, k4, k5⟩ := webVerifyChain_ok g1
      obtain ⟨leaf', rest', hcs⟩ : ∃ leaf' rest', t.certs = leaf' :: rest' := by
        cases h : t.certs with
        | nil => exact absurd h hne
        | cons a b => exact ⟨a, b, rfl⟩
      have hl : leaf' = leaf := by
        have k2' : t.certs.map CertEntry.x509 = .x509 leaf :: es := k2
        rw [hcs, List.map_cons] at k2'
        injection k2' with k2' _
        injection k2'
      subst hl
      refine Iff.trans (Iff.of_eq (congrArg (· = Res.ok ()) hres)) ?_
      constructor
      · intro h
        by_cases h32 : S.hashLen ≤ 32
        · rw [if_pos h32, hcs, List.map_cons] at h
          simp only [webCheckSignature, k3] at h
          cases hal : webAlgo alloc x with
          | none => rw [hal] at h; cases h
          | some algo =>
            rw [hal] at h
            cases hver : W.verify algo leaf' content (t.sign content) with
            | false => simp [hver] at h
            | true =>
              obtain ⟨q1, q2⟩ := webAlgo_iff.1 hal
              refine ⟨⟨anchor, leaf', rest', k1, hcs, k4, k5⟩, hno, h32, leaf', rest', x, algo, hcs, hx, q1, ?_, hver⟩
              cases algo <;> first | exact .inr (by decide) | exact .inl q2
        · rw [if_neg h32] at h
          cases h
      · rintro ⟨-, -, h32, leaf, rest, y, algo, q1, q2, q3, q4, q5⟩
        have hy : y = x := Option.some.inj ((C04_signature_scheme.accept _ _ q2).symm.trans (C04_signature_scheme.accept _ _ hx))
        subst hy
        rw [hcs] at q1
        injection q1 with q1 _
        subst q1
        rw [if_pos h32, hcs, List.map_cons]
        simp [webCheckSignature, k3, webAlgo_enabled q3 q4, q5]
    · intro h
      have h := hres.symm.trans h
      revert h
      split
      · unfold webCheckSignature
        repeat' split
        all_goals simp
      · simp

/-- **C130, the wrong scheme** A client with the feature `rsa`: a server with valid certificates whose leaf has a key that is not an RSA
key, for instance one on P-256, only has to name rsa_pss_rsae_sha256 in CertificateVerify and the client panics, whatever the
signature. -/
theorem C130_panic (hs : Shipped S) {L : PkiLib} {T : DerTags} {F : Features} (hF : F.rsa = true) {now : Option Nat} {N : Nat}
    (cfg : Config) (p : Provider PkiVerifier)
    (ca : CertEntry) (hv : p.verifier = some (pkiOps ((L.withRsa T).concrete T) S F now N))
    (hEd : ∀ k, L.keyOk .ed25519 k = true → k.length = 32)
    {host : Bytes} (hname : cfg.serverName = some host) (hlen : host.length ≤ 64)
    (t : Textbook) (ht : t.Sized) (hchain : ValidChain ((L.withRsa T).concrete T) F now ca host t.certs) (hN : t.certificate.bytes.length ≤ N)
    (hpsk : t.psk = cfg.psk.map (·.1)) (hfit : HelloFits S cfg p) (ha : scalarOf p.secret ≠ 0) (hb : scalarOf t.secret ≠ 0)
    (hc : p.clientCert = none)
    (hscheme : t.scheme = 0x0804) {leaf key : Bytes} {dc : DecodedCert} (hleaf : t.certs.head? = some leaf)
    (hdc : ((L.withRsa T).concrete T).fromDer leaf = some dc) (hkey : dc.publicKey = some key) (hk : rsaPublic T key = none)
    {rx : Rx} {tx : Tx} {rb wb : Bytes} {c : Conn} (hn : Conn.new S rx tx rb wb = .ok c) (hclean : rx.Clean) (hrel : Reliable tx)
    {rest : Bytes} (hrx : rx.bytes = t.answer S (helloMsg S cfg p) ++ rest)
    (hhello : 5 + helloLength S cfg p ≤ wb.length) (hwb : 286 ≤ wb.length) (hrb : 192 ≤ rb.length)
    (hcert : t.certificate.bytes.length + 17 ≤ rb.length) :
    (Conn.open_ S cfg p (PkiVerifier.new ca) c).1 = .panic := by
  have hvd := C130_native hs cfg p ca hv hEd hname hlen t ht hchain hN hpsk hfit ha hb (x := .rsaPssRsaeSha256)
    (by rw [hscheme]; decide) hc hleaf hdc hkey hn hclean hrel hrx hhello hwb hrb hcert
  have hm : ∀ algo, (SignatureScheme.rsaPssRsaeSha256, algo) ∈ schemeAlgorithms → algo = .rsaPssSha256 := by
    intro algo h
    cases algo <;> first | rfl | (revert h; decide)
  have hbad : ((L.withRsa T).concrete T).keyOk .rsaPssSha256 key = false := by
    simp [PkiLib.concrete, PkiLib.withRsa, PkiLib.withDer, rsaPadding, hk]
  generalize (Conn.open_ S cfg p (PkiVerifier.new ca) c).1 = r at hvd
  cases hvd with
  | unknown h => exact absurd hF (h .rsaPssSha256 (by decide))
  | ed25519 h => cases hm _ h
  | rsa => rfl
  | key algo h he hk h1 h2 => exact absurd (hm _ h) h2
  | unreadable algo h he hk => rw [hm _ h, hbad] at hk; cases hk
  | wrong algo h he hk => rw [hm _ h, hbad] at hk; cases hk
  | right algo h he h1 hv => rw [hm _ h] at hv; have := hv.1; rw [hbad] at this; cases this

/-- **C130, the wrong scheme, Ed25519** A client with the feature `ed25519`: a server with valid certificates whose leaf has a key of
another length than 32 bytes, for instance one on P-256, only has to name ed25519 in CertificateVerify and the client panics. -/
theorem C130_panic_ed25519 (hs : Shipped S) {L : PkiLib} {F : Features} (hF : F.ed25519 = true) {now : Option Nat} {N : Nat}
    (cfg : Config) (p : Provider PkiVerifier)
    (ca : CertEntry) (hv : p.verifier = some (pkiOps L S F now N)) (hEd : ∀ k, L.keyOk .ed25519 k = true → k.length = 32)
    {host : Bytes} (hname : cfg.serverName = some host) (hlen : host.length ≤ 64)
    (t : Textbook) (ht : t.Sized) (hchain : ValidChain L F now ca host t.certs) (hN : t.certificate.bytes.length ≤ N)
    (hpsk : t.psk = cfg.psk.map (·.1)) (hfit : HelloFits S cfg p) (ha : scalarOf p.secret ≠ 0) (hb : scalarOf t.secret ≠ 0)
    (hc : p.clientCert = none)
    (hscheme : t.scheme = 0x0807) {leaf key : Bytes} {dc : DecodedCert} (hleaf : t.certs.head? = some leaf)
    (hdc : L.fromDer leaf = some dc) (hkey : dc.publicKey = some key) (hk : key.length ≠ 32)
    {rx : Rx} {tx : Tx} {rb wb : Bytes} {c : Conn} (hn : Conn.new S rx tx rb wb = .ok c) (hclean : rx.Clean) (hrel : Reliable tx)
    {rest : Bytes} (hrx : rx.bytes = t.answer S (helloMsg S cfg p) ++ rest)
    (hhello : 5 + helloLength S cfg p ≤ wb.length) (hwb : 286 ≤ wb.length) (hrb : 192 ≤ rb.length)
    (hcert : t.certificate.bytes.length + 17 ≤ rb.length) :
    (Conn.open_ S cfg p (PkiVerifier.new ca) c).1 = .panic := by
  have hvd := C130_native hs cfg p ca hv hEd hname hlen t ht hchain hN hpsk hfit ha hb (x := .ed25519)
    (by rw [hscheme]; decide) hc hleaf hdc hkey hn hclean hrel hrx hhello hwb hrb hcert
  have hm : ∀ algo, (SignatureScheme.ed25519, algo) ∈ schemeAlgorithms → algo = .ed25519 := by
    intro algo h
    cases algo <;> first | rfl | (revert h; decide)
  generalize (Conn.open_ S cfg p (PkiVerifier.new ca) c).1 = r at hvd
  cases hvd with
  | unknown h => exact absurd hF (h .ed25519 (by decide))
  | ed25519 => rfl
  | rsa => rfl
  | key algo h he hk' h1 h2 => exact absurd (h1 (hm _ h)) hk
  | unreadable algo h he hk' h1 => exact absurd (h1 (hm _ h)) hk
  | wrong algo h he hk' h1 => exact absurd (h1 (hm _ h)) hk
  | right algo h he h1 => exact absurd (h1 (hm _ h)) hk

end

/-! ## Examples -/

set_option maxRecDepth 100000 in
/-- The certificate of `selfServer`, with a key on P-256, read by a client with the feature `rsa`. -/
theorem selfCert_rsa (F : Features) : ∃ dc, rsaPki.fromDer selfCert = some dc ∧ dc.publicKey = some (p256Key recClientSecret) ∧
    ValidChain rsaPki F none (.x509 selfCert) (ascii "example.com") [selfCert] := by
  obtain ⟨dc, h1, h2, -, h4, h5, -⟩ := selfCert_reads
  have e1 : rsaPki.fromDer selfCert = some dc := h1
  have a2 : SanNames rsaPki dc [ascii "example.com"] := by
    have hx : dc.extensions = some ([⟨[2, 5, 29, 14], none, 4, toBE 22 0x0414a0c8ece1f294e6a1b00b8233c04c66e68532ccfd⟩,
        ⟨[2, 5, 29, 35], none, 4, toBE 24 0x30168014a0c8ece1f294e6a1b00b8233c04c66e68532ccfd⟩,
        ⟨[2, 5, 29, 19], some true, 4, [0x30, 3, 1, 1, 0xff]⟩] ++
        ⟨[2, 5, 29, 17], none, 4, [0x30, 13] ++ ([0x82, 11] ++ ascii "example.com" ++ []) ++ []⟩ :: []) := by
      have hx : ((noPki.concrete derTags).fromDer selfCert).any (fun dc =>
          dc.extensions = some ([⟨[2, 5, 29, 14], none, 4, toBE 22 0x0414a0c8ece1f294e6a1b00b8233c04c66e68532ccfd⟩,
            ⟨[2, 5, 29, 35], none, 4, toBE 24 0x30168014a0c8ece1f294e6a1b00b8233c04c66e68532ccfd⟩,
            ⟨[2, 5, 29, 19], some true, 4, [0x30, 3, 1, 1, 0xff]⟩] ++
            ⟨[2, 5, 29, 17], none, 4, [0x30, 13] ++ ([0x82, 11] ++ ascii "example.com" ++ []) ++ []⟩ :: [])) = true := by decide +kernel
      rw [h1] at hx
      simpa using hx
    exact .present _ [] _ [0x30, 13] ([0x82, 11] ++ ascii "example.com" ++ []) [] [(0x82, ascii "example.com")] hx rfl
      (by decide) rfl rfl (by decide +kernel) rfl (.cons [0x82, 11] (ascii "example.com") [] 0x82 [] (by decide +kernel) rfl .nil)
  have a3 : NamesFit rsaPki [ascii "example.com"] := by
    intro n hn
    rw [List.mem_singleton] at hn
    subst hn
    exact ⟨by decide +kernel, by decide⟩
  refine ⟨dc, e1, h2, ?_, selfCert, [], dc, _, ascii "example.com", rfl, e1, a2, a3, h4, ?_, .inl (by simp)⟩
  · intro i cert hi
    have hc : cert = selfCert ∧ i = 0 := by
      cases i with
      | zero => simpa using hi.symm
      | succ n => simp at hi
    obtain ⟨rfl, rfl⟩ := hc
    refine ⟨⟨dc, e1, fun t ht => by cases ht⟩, ⟨_, ⟨dc, e1, h4, a2, a3⟩⟩, selfCert, rfl, ?_⟩
    have h := selfCert_decodes
    rw [h1] at h
    simp only [Option.any_some, decide_eq_true_eq] at h
    exact C99_certificate (noPki.withRsa derTags) derTags _ (by constructor <;> decide +kernel) e1 e1 h.1 h.2.1
      ⟨selfCert.take 4, selfCert.drop 313, 395, 4, 305, by decide +kernel, by decide +kernel, by decide +kernel, by decide +kernel,
        by decide +kernel, by decide +kernel⟩ h.2.2 selfCert_signed
  · rw [← C49_hostname_match]; decide +kernel

/-- This server, now with rsa_pss_rsae_sha256 and three bytes instead of a signature. -/
def crashServer : Textbook := ⟨[7], List.replicate 32 5, none, true, [selfCert], 0x0804, fun _ => [1, 2, 3]⟩

/-- The same with ecdsa_secp256r1_sha256. -/
def wrongServer : Textbook := { crashServer with scheme := 0x0403 }

set_option maxRecDepth 100000 in
theorem crashServer_certificate : crashServer.certificate.bytes.length ≤ 1024 := by
  show (RawMsg.certificate [] [(selfCert, [])]).bytes.length ≤ 1024
  decide +kernel

theorem crashServer_sized : crashServer.Sized ∧ wrongServer.Sized := by
  have := crashServer_certificate
  exact ⟨⟨List.length_replicate .., by omega, by show [selfCert].length ≤ 16; decide, ⟨.rsaPssRsaeSha256, by decide⟩,
      fun _ => le_trans (show 3 + 8 ≤ 80 by decide) (le_max_left _ _)⟩,
    ⟨List.length_replicate .., le_trans this (by decide), by show [selfCert].length ≤ 16; decide, ⟨.ecdsaSecp256r1Sha256, by decide⟩,
      fun _ => le_trans (show 3 + 8 ≤ 80 by decide) (le_max_left _ _)⟩⟩

theorem answer_clean (t : Textbook) (S : Suite) (hello : Bytes) : Rx.Clean [.data (t.answer S hello)] := by
  intro e he
  exact ⟨_, by simp [Textbook.answer, ServerFlight.bytes, plaintextRecord], List.mem_singleton.1 he⟩

-- C130_panic: the client with the feature `rsa` and this server
example : ∃ c, Conn.new (aes128GcmSha256 true) [.data (crashServer.answer (aes128GcmSha256 true)
      (helloMsg (aes128GcmSha256 true) (recCfg []) rsaClient))] ⟨[], []⟩ (List.replicate 2048 0) (List.replicate 2048 0) = .ok c ∧
    (Conn.open_ (aes128GcmSha256 true) (recCfg []) rsaClient (PkiVerifier.new (.x509 selfCert)) c).1 = .panic := by
  obtain ⟨c, hc⟩ := new_exists (aes128GcmSha256 true) [.data (crashServer.answer (aes128GcmSha256 true)
      (helloMsg (aes128GcmSha256 true) (recCfg []) rsaClient))] 2048 (by decide)
  obtain ⟨dc, h1, h2, h3⟩ := selfCert_rsa ⟨false, false, true⟩
  have hm := crashServer_certificate
  refine ⟨c, hc, C130_panic ⟨true, .inl rfl⟩ (L := noPki) (T := derTags) (F := ⟨false, false, true⟩) rfl (recCfg []) rsaClient
    (.x509 selfCert) rfl (by intro k hk; cases hk) rec_name.2 (by decide) crashServer crashServer_sized.1 h3 hm
    (by rw [rec_name.1]; rfl) rsa_hello.1 rec_scalar (by show scalarOf [7] ≠ 0; decide +kernel) rfl rfl rfl h1 h2 ?_ hc
    (answer_clean _ _ _) (by intro a ha; cases ha) (rest := []) (by simp [Rx.bytes])
    (by rw [List.length_replicate]; exact rsa_hello.2) (by rw [List.length_replicate]; decide) (by rw [List.length_replicate]; decide)
    (by rw [List.length_replicate]; omega)⟩
  cases hk : rsaPublic derTags (p256Key recClientSecret) with
  | none => rfl
  | some k => cases rsaPublic_first hk

/-- A client with the feature `ed25519`. -/
def edClient : Provider PkiVerifier := { rsaClient with verifier := some (pkiOps rsaPki (aes128GcmSha256 true) ⟨false, true, false⟩ none 1024) }

-- C130_panic_ed25519: this client and the same server naming ed25519
example : ∃ c, Conn.new (aes128GcmSha256 true) [.data (({ crashServer with scheme := 0x0807 } : Textbook).answer (aes128GcmSha256 true)
      (helloMsg (aes128GcmSha256 true) (recCfg []) edClient))] ⟨[], []⟩ (List.replicate 2048 0) (List.replicate 2048 0) = .ok c ∧
    (Conn.open_ (aes128GcmSha256 true) (recCfg []) edClient (PkiVerifier.new (.x509 selfCert)) c).1 = .panic := by
  obtain ⟨c, hc⟩ := new_exists (aes128GcmSha256 true) [.data (({ crashServer with scheme := 0x0807 } : Textbook).answer
      (aes128GcmSha256 true) (helloMsg (aes128GcmSha256 true) (recCfg []) edClient))] 2048 (by decide)
  obtain ⟨dc, h1, h2, h3⟩ := selfCert_rsa ⟨false, true, false⟩
  have hm : ({ crashServer with scheme := 0x0807 } : Textbook).certificate.bytes.length ≤ 1024 := crashServer_certificate
  have he : helloLength (aes128GcmSha256 true) (recCfg []) edClient = helloLength (aes128GcmSha256 true) (recCfg []) rsaClient := rfl
  exact ⟨c, hc, C130_panic_ed25519 ⟨true, .inl rfl⟩ (L := rsaPki) (F := ⟨false, true, false⟩) rfl (recCfg []) edClient
    (.x509 selfCert) rfl (by intro k hk; cases hk) rec_name.2 (by decide) { crashServer with scheme := 0x0807 }
    ⟨List.length_replicate .., le_trans hm (by decide), by show [selfCert].length ≤ 16; decide, ⟨.ed25519, by decide⟩,
      fun _ => le_trans (show 3 + 8 ≤ 80 by decide) (le_max_left _ _)⟩ h3 hm
    (by rw [rec_name.1]; rfl) ⟨rsa_hello.1.random, rsa_hello.1.alpn, rsa_hello.1.length⟩ rec_scalar (by show scalarOf [7] ≠ 0; decide +kernel) rfl rfl rfl h1 h2 (by decide +kernel) hc
    (answer_clean _ _ _) (by intro a ha; cases ha) (rest := []) (by simp [Rx.bytes])
    (by rw [List.length_replicate]; rw [he]; exact rsa_hello.2) (by rw [List.length_replicate]; decide) (by rw [List.length_replicate]; decide)
    (by rw [List.length_replicate]; omega)⟩

-- C130_owner, C130_verdict, C130_native: the same client refuses the server that cannot sign
example : ∃ c, Conn.new (aes128GcmSha256 true) [.data (wrongServer.answer (aes128GcmSha256 true)
      (helloMsg (aes128GcmSha256 true) (recCfg []) rsaClient))] ⟨[], []⟩ (List.replicate 2048 0) (List.replicate 2048 0) = .ok c ∧
    (Conn.open_ (aes128GcmSha256 true) (recCfg []) rsaClient (PkiVerifier.new (.x509 selfCert)) c).1 ≠ .ok () := by
  obtain ⟨c, hc⟩ := new_exists (aes128GcmSha256 true) [.data (wrongServer.answer (aes128GcmSha256 true)
      (helloMsg (aes128GcmSha256 true) (recCfg []) rsaClient))] 2048 (by decide)
  obtain ⟨dc, h1, h2, h3⟩ := selfCert_rsa ⟨false, false, true⟩
  have hm : wrongServer.certificate.bytes.length ≤ 1024 := crashServer_certificate
  refine ⟨c, hc, fun h => ?_⟩
  obtain ⟨leaf, rest, dc', key, x, algo, g1, g2, g3, g4, g5, g6, g7⟩ := (C130_owner ⟨true, .inl rfl⟩ (recCfg []) rsaClient
    (.x509 selfCert) rfl (by intro k hk; cases hk) rec_name.2 (by decide) wrongServer crashServer_sized.2 h3 hm
    (by rw [rec_name.1]; rfl) rsa_hello.1 rec_scalar (by show scalarOf [7] ≠ 0; decide +kernel) rfl hc
    (answer_clean _ _ _) (by intro a ha; cases ha) (rest := []) (by simp [Rx.bytes])
    (by rw [List.length_replicate]; exact rsa_hello.2) (by rw [List.length_replicate]; decide) (by rw [List.length_replicate]; decide)
    (by rw [List.length_replicate]; omega)).1 h
  have hx : x = .ecdsaSecp256r1Sha256 := by
    have e1 := C04_signature_scheme.accept _ _ g4
    have e2 : SignatureScheme.of wrongServer.scheme = some .ecdsaSecp256r1Sha256 := by decide
    exact Option.some.inj (e1.symm.trans e2)
  subst hx
  have ha : algo = .ecdsaP256Sha256 := by cases algo <;> first | rfl | (revert g5; decide)
  subst ha
  have hbad : rsaPki.sigOk .ecdsaP256Sha256 [1, 2, 3] = false := by decide +kernel
  have h9 := g7.2.1
  rw [show wrongServer.sign _ = [1, 2, 3] from rfl, hbad] at h9
  cases h9

-- C130_verdict, C130_native, C130_complaint: which error
example : ∃ c, Conn.new (aes128GcmSha256 true) [.data (wrongServer.answer (aes128GcmSha256 true)
      (helloMsg (aes128GcmSha256 true) (recCfg []) rsaClient))] ⟨[], []⟩ (List.replicate 2048 0) (List.replicate 2048 0) = .ok c ∧
    (Conn.open_ (aes128GcmSha256 true) (recCfg []) rsaClient (PkiVerifier.new (.x509 selfCert)) c).1 = .err .decodeError ∧
    ∃ content, SignatureDefect rsaPki ⟨false, false, true⟩ [.x509 selfCert] content ⟨.ecdsaSecp256r1Sha256, [1, 2, 3]⟩ .decodeError := by
  obtain ⟨c, hc⟩ := new_exists (aes128GcmSha256 true) [.data (wrongServer.answer (aes128GcmSha256 true)
      (helloMsg (aes128GcmSha256 true) (recCfg []) rsaClient))] 2048 (by decide)
  obtain ⟨dc, h1, h2, h3⟩ := selfCert_rsa ⟨false, false, true⟩
  have hm : wrongServer.certificate.bytes.length ≤ 1024 := crashServer_certificate
  have hbad : rsaPki.sigOk .ecdsaP256Sha256 [1, 2, 3] = false := by decide +kernel
  have hgood : rsaPki.keyOk .ecdsaP256Sha256 (p256Key recClientSecret) = true := by decide +kernel
  have hmm : ∀ algo, (SignatureScheme.ecdsaSecp256r1Sha256, algo) ∈ schemeAlgorithms → algo = .ecdsaP256Sha256 := by
    intro algo h
    cases algo <;> first | rfl | (revert h; decide)
  have hvd := C130_native ⟨true, .inl rfl⟩ (recCfg []) rsaClient
    (.x509 selfCert) rfl (by intro k hk; cases hk) rec_name.2 (by decide) wrongServer crashServer_sized.2 h3 hm
    (by rw [rec_name.1]; rfl) rsa_hello.1 rec_scalar (by show scalarOf [7] ≠ 0; decide +kernel) (x := .ecdsaSecp256r1Sha256)
    (show (_, 0x0403) ∈ _ by decide) rfl (leaf := selfCert) rfl h1 h2 hc
    (answer_clean _ _ _) (by intro a ha; cases ha) (rest := []) (by simp [Rx.bytes])
    (by rw [List.length_replicate]; exact rsa_hello.2) (by rw [List.length_replicate]; decide) (by rw [List.length_replicate]; decide)
    (by rw [List.length_replicate]; omega)
  have he : (Conn.open_ (aes128GcmSha256 true) (recCfg []) rsaClient (PkiVerifier.new (.x509 selfCert)) c).1 = .err .decodeError := by
    rw [show wrongServer.sign _ = [1, 2, 3] from rfl] at hvd
    generalize (Conn.open_ (aes128GcmSha256 true) (recCfg []) rsaClient (PkiVerifier.new (.x509 selfCert)) c).1 = r at hvd
    cases hvd with
    | unknown h => exact absurd trivial (h .ecdsaP256Sha256 (by decide))
    | ed25519 h => cases hmm _ h
    | rsa h => cases hmm _ h
    | key algo h he hk => rfl
    | unreadable algo h he hk => rfl
    | wrong algo h he hk h1 hs => rw [hmm _ h, hbad] at hs; cases hs
    | right algo h he h1 hv => rw [hmm _ h] at hv; have := hv.2.1; rw [hbad] at this; cases this
  refine ⟨c, hc, he, ?_⟩
  rcases C130_complaint ⟨true, .inl rfl⟩ (recCfg []) rsaClient
    (.x509 selfCert) rfl rec_name.2 (by decide) wrongServer crashServer_sized.2 (by show [selfCert] ≠ []; simp)
    (by rw [rec_name.1]; rfl) rsa_hello.1 rec_scalar (by show scalarOf [7] ≠ 0; decide +kernel) (x := .ecdsaSecp256r1Sha256)
    (show (_, 0x0403) ∈ _ by decide) rfl hc
    (answer_clean _ _ _) (by intro a ha; cases ha) (rest := []) (by simp [Rx.bytes])
    (by rw [List.length_replicate]; exact rsa_hello.2) (by rw [List.length_replicate]; decide) (by rw [List.length_replicate]; decide)
    (by rw [List.length_replicate]; omega) he with h | h
  · exact ⟨[], .badSignature selfCert (p256Key recClientSecret) [] dc .ecdsaP256Sha256 rfl h1 h2 (show (SignatureScheme.ecdsaSecp256r1Sha256, _) ∈ _ by decide) trivial
      (by intro h; cases h) hgood hbad⟩
  · exact ⟨_, h⟩

set_option maxRecDepth 100000 in
-- C130_webpki: the client with webpki refuses it for the signature
example : ∃ c, Conn.new (aes128GcmSha256 false) [.data (wrongServer.answer (aes128GcmSha256 false)
      (helloMsg (aes128GcmSha256 false) (recCfg []) webClient))] ⟨[], []⟩ (List.replicate 2048 0) (List.replicate 2048 0) = .ok c ∧
    (Conn.open_ (aes128GcmSha256 false) (recCfg []) webClient (PkiVerifier.new (.x509 selfCert)) c).1 = .err .invalidSignature := by
  obtain ⟨c, hc⟩ := new_exists (aes128GcmSha256 false) [.data (wrongServer.answer (aes128GcmSha256 false)
      (helloMsg (aes128GcmSha256 false) (recCfg []) webClient))] 2048 (by decide)
  have hm : wrongServer.certificate.bytes.length ≤ 1024 := crashServer_certificate
  have hl : 5 + helloLength (aes128GcmSha256 false) (recCfg []) webClient ≤ 1024 := trusting_fits.2
  refine ⟨c, hc, ((C130_webpki ⟨false, .inl rfl⟩ (recCfg []) webClient (.x509 selfCert) rfl rec_name.2 (by decide) wrongServer
    crashServer_sized.2 (by show [selfCert] ≠ []; simp)
    (by rw [rec_name.1]; rfl) ⟨trusting_fits.1.random, trusting_fits.1.alpn, trusting_fits.1.length⟩ rec_scalar
    (by show scalarOf [7] ≠ 0; decide +kernel) (x := .ecdsaSecp256r1Sha256)
    (show (_, 0x0403) ∈ _ by decide) rfl hc
    (answer_clean _ _ _) (by intro a ha; cases ha) (rest := []) (by simp [Rx.bytes])
    (by rw [List.length_replicate]; omega) (by rw [List.length_replicate]; decide) (by rw [List.length_replicate]; decide)
    (by rw [List.length_replicate]; omega)).1 _).2 (.inr ⟨?_, ?_⟩)⟩
  · rintro ⟨e, h⟩
    cases h with
    | caNotX509 k h => cases h
    | badAnchor anchor hca h => cases h
    | noCertificate anchor hca ha h => exact absurd rfl (h selfCert [])
    | badLeaf anchor leaf rest hca ha hl h => cases h
    | chain anchor leaf rest hca ha hl hok h =>
      cases hca
      have hl' : [CertEntry.x509 selfCert] = .x509 leaf :: rest := hl
      injection hl' with hl' _
      injection hl' with hl'
      subst hl'
      simp [selfWeb] at h
    | host anchor leaf name rest hca ha hl hok hch hh h =>
      injection hh with hh
      subst hh
      exact absurd ⟨rfl, by simp [selfWeb]⟩ h
    | storage anchor leaf rest hca ha hl hok hch hh h =>
      rcases h with h | h
      · exact absurd h (by simp)
      · have hb : (RawMsg.certificate [] [(selfCert, [])]).bytes.length ≤ 1024 := crashServer_certificate
        have hr : 1024 < (([selfCert].map fun c => (c, ([] : List RawExt))).flatMap certEntryBytes).length := h
        simp only [List.map_cons, List.map_nil] at hr
        simp only [RawMsg.bytes, RawMsg.body, List.length_cons, List.length_append] at hb
        omega
  · rw [if_pos (by decide)]
    refine .forged selfCert [] .ecdsaP256Sha256 rfl rfl (show (SignatureScheme.ecdsaSecp256r1Sha256, _) ∈ _ by decide) trivial ?_
    obtain ⟨dc, h1, h2, -⟩ := selfCert_reads
    show selfWeb.verify .ecdsaP256Sha256 selfCert _ [1, 2, 3] = false
    simp only [selfWeb, h1, Option.bind_some, h2]
    generalize (serverSignedContent _ _) = m
    have hbad : ecdsaSig derTags [1, 2, 3] = none := by decide +kernel
    simp [PkiLib.concrete, hbad]

end ETls
