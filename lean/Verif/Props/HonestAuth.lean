import Verif.Props.HonestServer
import Verif.Props.NativeAuth
import Verif.Props.PkiComplete

/-! # C69: a conforming server with a valid certificate is accepted by the native and webpki verifiers -/

namespace ETls
open Spec

variable {V : Type} {L : PkiLib} {F : Features}

namespace Spec

/-- The certificates lead to the CA `ca`, with algorithms compiled in and names that the library can read, and the leaf is
for `host`: one of its first three DNS names, or its last common name, matches. -/
structure ValidChain (L : PkiLib) (F : Features) (now : Option Nat) (ca : CertEntry) (host : Bytes) (certs : List Bytes) :
    Prop where
  chain : ∀ (i : Nat) (cert : Bytes), certs[i]? = some cert → ValidAt L now cert ∧ (∃ names, Readable L cert names) ∧
    ∃ issuer, (certs.map CertEntry.x509 ++ [ca])[i + 1]? = some (.x509 issuer) ∧ IssuedWith L F issuer cert
  leaf : ∃ leaf rest dc names name, certs = leaf :: rest ∧ L.fromDer leaf = some dc ∧ SanNames L dc names ∧
    NamesFit L names ∧ SubjectFits dc ∧ HostMatches name host ∧ (name ∈ names.take 3 ∨ LastCommonName L dc name)

/-- As `SignedByLeaf`, with a scheme that is compiled in. -/
def SignedWith (L : PkiLib) (F : Features) (certs : List Bytes) (code : Nat) (content sig : Bytes) : Prop :=
  ∃ leaf rest dc key scheme algo, certs = leaf :: rest ∧ L.fromDer leaf = some dc ∧ dc.publicKey = some key ∧
    (scheme, code) ∈ signatureSchemes ∧ (scheme, algo) ∈ schemeAlgorithms ∧ Enabled F algo ∧
    ValidSignature L algo key content sig

/-- As `WebSigned`, with a scheme that is compiled in: RSA takes the feature `alloc`. -/
def WebSignedWith (W : WebLib) (alloc : Bool) (certs : List Bytes) (code : Nat) (content sig : Bytes) : Prop :=
  ∃ leaf rest scheme algo, certs = leaf :: rest ∧ (scheme, code) ∈ signatureSchemes ∧
    (scheme, algo) ∈ webpkiAlgorithms ∧ (alloc = true ∨ algo ∈ [.ecdsaP256Sha256, .ecdsaP384Sha384, .ed25519]) ∧
    W.verify algo leaf content sig = true

/-- The flight is authenticated: one Certificate, with certificates that satisfy `chain`, and after it one
CertificateVerify, with a signature that satisfies `signed` over what RFC 8446 section 4.4.3 prescribes.  `hello` is the
ClientHello, `N` the storage for the list of certificates. -/
def AuthFlight (chain : List Bytes → Prop) (signed : List Bytes → Nat → Bytes → Bytes → Prop) (S : Suite) (N : Nat)
    (hello : Bytes) (x : ServerFlight) : Prop :=
  ∃ pre mid post ctx es code sig,
    x.msgs = pre ++ .certificate ctx es :: mid ++ .certificateVerify code sig :: post ∧
    (∀ m ∈ pre ++ mid ++ post, m.type ≠ 11 ∧ m.type ≠ 15) ∧
    (es.flatMap certEntryBytes).length ≤ N ∧ chain (es.map (·.1)) ∧
    signed (es.map (·.1)) code (serverSignedContent S (hello ++ x.sh.bytes ++ pre.flatMap RawMsg.bytes ++
      (RawMsg.certificate ctx es).bytes)) sig

end Spec

/-- A fresh connection over a reliable transport, whose peer sends the flight of a conforming server and then `rest`; the
messages are accepted by the decoder, records and messages fit the buffers, and the client has the answer `ms` to a
certificate request: the hypotheses of C46 apart from those on the verifier. -/
structure Meets (S : Suite) {V : Type} (cfg : Config) (p : Provider V) (c : Conn) (x : ServerFlight) (ms : List Bytes)
    (rest : Bytes) : Prop where
  fresh : c.Fresh S
  clean : c.rx.Clean
  reliable : Reliable c.tx
  conforming : x.Conforming S (cfg.psk.map (·.1)) (helloMsg S cfg p) p.secret
  accepted : ∀ r ∈ x.sh :: x.msgs, Accepted S r
  reply : clientReply S p (x.transcript S (cfg.psk.map (·.1)) (helloMsg S cfg p)) (lastRequest (withBytes x.msgs)) = some ms
  signature : ∀ sign scheme, p.signer = .ok (sign, scheme) → ∀ m sig, sign m = some sig → sig.length ≤ signatureSize S
  helloFits : 5 + helloLength S cfg p ≤ c.wb.buffer.length
  finishedFits : S.hashLen + 26 ≤ c.wb.buffer.length
  replyFits : ∀ m ∈ ms, m.length + 22 ≤ c.wb.buffer.length
  serverHelloFits : x.sh.bytes.length ≤ c.rr.buf.length
  recordsFit : ∀ r ∈ x.records, r.size ≤ c.rr.buf.length
  count : x.records.length < 2 ^ 64
  bytes : c.rx.bytes = x.bytes S (cfg.psk.map (·.1)) (helloMsg S cfg p) ++ rest

theorem verifierRun_skip (ops : VerifierOps V) : ∀ (a b : List (Bytes × RawMsg)) (tr : Bytes), noAuth a →
    verifierRun ops tr (a ++ b) = verifierRun ops (tr ++ Session.bytesOf a) b := by
  intro a
  induction a with
  | nil => intro b tr _; simp [Session.bytesOf]
  | cons x xs ih =>
    intro b tr h
    obtain ⟨m, r⟩ := x
    have hx := h (m, r) List.mem_cons_self
    have hxs : noAuth xs := fun y hy => h y (List.mem_cons_of_mem _ hy)
    have hb : tr ++ Session.bytesOf ((m, r) :: xs) = (tr ++ m) ++ Session.bytesOf xs := by
      simp [Session.bytesOf]
    rw [hb, ← ih b (tr ++ m) hxs]
    cases r with
    | certificate ctx es => exact absurd rfl (hx.1 ctx es)
    | certificateVerify s sig => exact absurd rfl (hx.2 s sig)
    | _ => rfl

theorem schemeAlgo_enabled {x : SignatureScheme} {algo : SigAlgo} (h : (x, algo) ∈ schemeAlgorithms) (he : Enabled F algo) :
    schemeAlgo F x = some algo := by
  simp only [schemeAlgorithms, List.mem_cons, Prod.mk.injEq, List.not_mem_nil, or_false] at h
  rcases h with ⟨rfl, rfl⟩ | ⟨rfl, rfl⟩ | ⟨rfl, rfl⟩ | ⟨rfl, rfl⟩ | ⟨rfl, rfl⟩ | ⟨rfl, rfl⟩ <;>
    simp_all [Enabled, schemeAlgo]

theorem verifyPkiSignature_complete {msg leaf key : Bytes} {rest : List CertEntry} {dc : DecodedCert} {algo : SigAlgo}
    {cv : CertVerify} (h1 : L.fromDer leaf = some dc) (h2 : dc.publicKey = some key)
    (h3 : (cv.scheme, algo) ∈ schemeAlgorithms) (h4 : Enabled F algo) (h5 : ValidSignature L algo key msg cv.signature)
    (hEd : algo = .ed25519 → key.length = 32) : verifyPkiSignature L F msg (.x509 leaf :: rest) cv = .ok () := by
  unfold verifyPkiSignature
  simp only [h1, h2, schemeAlgo_enabled h3 h4]
  rw [if_neg (by rintro ⟨a, b⟩; exact b (hEd a))]
  simp [h5.1, h5.2.1, h5.2.2]

theorem webAlgo_enabled {alloc : Bool} {x : SignatureScheme} {algo : WebAlgo} (h : (x, algo) ∈ webpkiAlgorithms)
    (ha : alloc = true ∨ algo ∈ [WebAlgo.ecdsaP256Sha256, .ecdsaP384Sha384, .ed25519]) : webAlgo alloc x = some algo := by
  simp only [webpkiAlgorithms, List.mem_cons, Prod.mk.injEq, List.not_mem_nil, or_false] at h
  rcases h with ⟨rfl, rfl⟩ | ⟨rfl, rfl⟩ | ⟨rfl, rfl⟩ | ⟨rfl, rfl⟩ | ⟨rfl, rfl⟩ | ⟨rfl, rfl⟩ | ⟨rfl, rfl⟩ | ⟨rfl, rfl⟩ |
    ⟨rfl, rfl⟩ <;> simp_all [webAlgo]

theorem noAuth_of_types {ms : List RawMsg} (h : ∀ m ∈ ms, m.type ≠ 11 ∧ m.type ≠ 15) : noAuth (withBytes ms) := by
  intro m hm
  obtain ⟨r, hr, rfl⟩ := List.mem_map.1 hm
  obtain ⟨h1, h2⟩ := h r hr
  exact ⟨fun ctx es he => h1 (by simp only at he; rw [he]; rfl), fun s sig he => h2 (by simp only at he; rw [he]; rfl)⟩

/-- The stored entries of a Certificate that the decoder accepts, parsed again. -/
theorem Accepted.parsed {S : Suite} {ctx : Bytes} {es : List (Bytes × List RawExt)} (h : Accepted S (.certificate ctx es))
    (hw : (RawMsg.certificate ctx es).WellSized S.hashLen) (hb : (RawMsg.certificate ctx es).body.length < 16777216) :
    CertEntry.parseVector 16 ⟨es.flatMap certEntryBytes, 0⟩ = .ok (es.map fun e => .x509 e.1) := by
  obtain ⟨hd, hdec⟩ := h.decoded S hw hb
  have h1 := certLoop_reads 16 es hw.2.1 [] ((es.flatMap certEntryBytes).length + 1) []
    (by have := flatMap_length_ge certEntryBytes es (fun e _ => by simp [certEntryBytes, be24]); omega)
  have h2 : CertEntry.parseVector 16 ⟨es.flatMap certEntryBytes, 0⟩ = certSpec 16 [] es := h1
  rw [h2]
  simp only [ETls.decoded] at hdec
  cases hcs : certSpec 16 [] es with
  | ok entries => rw [show es.map (fun e => CertEntry.x509 e.1) = entries by simpa using (certSpec_inv _ _ _ _ hcs).symm]
  | err e => rw [hcs] at hdec; cases hdec
  | panic => rw [hcs] at hdec; cases hdec

/-- A verifier that accepts the host name, the certificate and the signature of the flight accepts the flight. -/
theorem run_authenticated (S : Suite) (N : Nat) (cfg : Config) (p : Provider V) (v v0 : V)
    (ops : VerifierOps V) (hv : p.verifier = some ops) {x : ServerFlight}
    (hx : x.Conforming S (cfg.psk.map (·.1)) (helloMsg S cfg p) p.secret) (hacc : ∀ r ∈ x.sh :: x.msgs, Accepted S r) (host : Bytes) (hn : cfg.serverName = some host)
    (hset : ops.setHostname host v = (.ok (), v0)) {chain : List Bytes → Prop}
    {signed : List Bytes → Nat → Bytes → Bytes → Prop} (ha : AuthFlight chain signed S N (helloMsg S cfg p) x)
    (hops : ∀ ctx es tr, (RawMsg.certificate ctx es).WellSized S.hashLen → chain (es.map (·.1)) →
      (es.flatMap certEntryBytes).length ≤ N →
      CertEntry.parseVector 16 ⟨es.flatMap certEntryBytes, 0⟩ = .ok (es.map fun e => .x509 e.1) →
      ∃ v1, ops.verifyCertificate tr (certOf ctx es) v0 = (.ok (), v1) ∧
        ∀ code sig, signed (es.map (·.1)) code (serverSignedContent S tr) sig →
          ∃ scheme v2, (scheme, code) ∈ signatureSchemes ∧ ops.verifySignature ⟨scheme, sig⟩ v1 = (.ok (), v2)) :
    ∀ ops, p.verifier = some ops → ∃ v',
      verifierRun ops (x.tr0 (helloMsg S cfg p)) (withBytes x.msgs) (hostVst cfg p v) = (.ok (), v') := by
  have hvst : hostVst cfg p v = v0 := by
    unfold hostVst
    rw [hv, hn]
    simp only [hset]
  intro ops' ho
  rw [hv] at ho
  injection ho with ho
  subst ho
  obtain ⟨pre, mid, post, ctx, es, code, sig, hmsgs, htypes, hN, hchain, hsigned⟩ := ha
  have hcm : RawMsg.certificate ctx es ∈ x.msgs := by rw [hmsgs]; simp
  obtain ⟨hw, hbl, -⟩ := hx.msgs _ hcm
  have hpv := (hacc _ (List.mem_cons_of_mem _ hcm)).parsed hw hbl
  have htr : x.tr0 (helloMsg S cfg p) ++ Session.bytesOf (withBytes pre) ++ (RawMsg.certificate ctx es).bytes =
      helloMsg S cfg p ++ x.sh.bytes ++ pre.flatMap RawMsg.bytes ++ (RawMsg.certificate ctx es).bytes := by
    rw [withBytes_bytes]; rfl
  obtain ⟨v1, hvc, hvs⟩ := hops ctx es (x.tr0 (helloMsg S cfg p) ++ Session.bytesOf (withBytes pre) ++
    (RawMsg.certificate ctx es).bytes) hw hchain hN hpv
  rw [← htr] at hsigned
  obtain ⟨scheme, v2, hsc, hvs⟩ := hvs code sig hsigned
  have hof : SignatureScheme.of code = some scheme := C04_signature_scheme.accept _ _ hsc
  refine ⟨v2, ?_⟩
  have hsplit : withBytes x.msgs = withBytes pre ++ ((RawMsg.certificate ctx es).bytes, .certificate ctx es) ::
      (withBytes mid ++ ((RawMsg.certificateVerify code sig).bytes, .certificateVerify code sig) ::
        (withBytes post ++ [])) := by
    rw [hmsgs]; simp [withBytes]
  have hna : ∀ l : List RawMsg, (∀ m ∈ l, m ∈ pre ++ mid ++ post) → noAuth (withBytes l) :=
    fun l hl => noAuth_of_types fun m h => htypes m (hl m h)
  rw [hvst, hsplit, verifierRun_skip _ _ _ _ (hna pre (by simp +contextual))]
  simp only [verifierRun]
  rw [M.bind_ok hvc, verifierRun_skip _ _ _ _ (hna mid (by simp +contextual))]
  simp only [verifierRun, hof]
  rw [M.bind_ok hvs, verifierRun_skip _ _ _ _ (hna post (by simp +contextual))]
  rfl

/-- `open` with a verifier that accepts the host name, the certificate and the signature of the flight. -/
theorem open_authenticated (S : Suite) (hS : S.Lawful) (N : Nat) (cfg : Config) (p : Provider V) (v v0 : V)
    (ops : VerifierOps V) (hv : p.verifier = some ops) {c : Conn} {x : ServerFlight} {ms : List Bytes} {rest : Bytes}
    (hm : Meets S cfg p c x ms rest) (host : Bytes) (hn : cfg.serverName = some host)
    (hset : ops.setHostname host v = (.ok (), v0)) {chain : List Bytes → Prop}
    {signed : List Bytes → Nat → Bytes → Bytes → Prop} (ha : AuthFlight chain signed S N (helloMsg S cfg p) x)
    (hops : ∀ ctx es tr, (RawMsg.certificate ctx es).WellSized S.hashLen → chain (es.map (·.1)) →
      (es.flatMap certEntryBytes).length ≤ N →
      CertEntry.parseVector 16 ⟨es.flatMap certEntryBytes, 0⟩ = .ok (es.map fun e => .x509 e.1) →
      ∃ v1, ops.verifyCertificate tr (certOf ctx es) v0 = (.ok (), v1) ∧
        ∀ code sig, signed (es.map (·.1)) code (serverSignedContent S tr) sig →
          ∃ scheme v2, (scheme, code) ∈ signatureSchemes ∧ ops.verifySignature ⟨scheme, sig⟩ v1 = (.ok (), v2)) :
    ∃ c', Conn.open_ S cfg p v c = (.ok (), c') ∧ c'.opened = true ∧ c'.rx.bytes = rest := by
  have hver := run_authenticated S N cfg p v v0 ops hv hm.conforming hm.accepted host hn hset ha hops
  obtain ⟨c', h1, h2, h3, -⟩ := C46_honest_server_partial S hS cfg p v hm.fresh hm.clean hm.reliable x hm.conforming
    hm.accepted
    (fun ops' name ho hnn => by
      rw [hv] at ho
      injection ho with ho
      subst ho
      rw [hn] at hnn
      injection hnn with hnn
      subst hnn
      exact ⟨_, hset⟩) hver hm.reply hm.signature hm.helloFits hm.finishedFits hm.replyFits hm.serverHelloFits
    hm.recordsFit hm.count hm.bytes
  exact ⟨c', h1, h2, h3⟩

theorem pkiSetHostname_fits {host : Bytes} (hlen : host.length ≤ 64) (v : PkiVerifier) :
    pkiSetHostname host v = (.ok (), { v with host := some host }) := by
  unfold pkiSetHostname
  rw [if_pos hlen]
  rfl

/-- The native verifier accepts a valid chain and signature. -/
theorem native_accepts (S : Suite) (hS : S.Lawful) (now : Option Nat) (N : Nat) (ca : CertEntry)
    (hEd : ∀ k, L.keyOk .ed25519 k = true → k.length = 32) (host : Bytes) (ctx : Bytes) (es : List (Bytes × List RawExt)) (tr : Bytes)
    (hw : (RawMsg.certificate ctx es).WellSized S.hashLen) (hchain : ValidChain L F now ca host (es.map (·.1)))
    (hN : (es.flatMap certEntryBytes).length ≤ N)
    (hpv : CertEntry.parseVector 16 ⟨es.flatMap certEntryBytes, 0⟩ = .ok (es.map fun e => .x509 e.1)) :
    ∃ v1, (pkiOps L S F now N).verifyCertificate tr (certOf ctx es) { PkiVerifier.new ca with host := some host } = (.ok (), v1) ∧
      ∀ code sig, SignedWith L F (es.map (·.1)) code (serverSignedContent S tr) sig →
        ∃ scheme v2, (scheme, code) ∈ signatureSchemes ∧
          (pkiOps L S F now N).verifySignature ⟨scheme, sig⟩ v1 = (.ok (), v2) := by
  have hcert : ((pkiOps L S F now N).verifyCertificate tr (certOf ctx es)
      { PkiVerifier.new ca with host := some host }).1 = .ok () := by
    obtain ⟨leaf, rest', dc, names, name, k1, k2, k3, k4, k5, k6, k7⟩ := hchain.leaf
    refine C64_valid_chain_accepted S now N _ _ _ (es.map (·.1)) leaf rest' dc names host name hEd ?_ ?_ hN hchain.chain
      k1 k2 k3 k4 k5 rfl k6 k7
    · simp [certOf]
    · have := hw.1
      simp only [certOf]
      omega
  rcases hvc : (pkiOps L S F now N).verifyCertificate tr (certOf ctx es)
      { PkiVerifier.new ca with host := some host } with ⟨r, v1⟩
  rw [hvc] at hcert
  simp only at hcert
  subst hcert
  obtain ⟨_, _, _, hv1⟩ := pkiVerifyCertificate_ok hvc
  refine ⟨v1, rfl, ?_⟩
  rintro code sig ⟨leaf, rest', dc, key, scheme, algo, s1, s2, s3, s4, s5, s6, s7⟩
  refine ⟨scheme, { v1 with transcript := none }, s4, ?_⟩
  subst hv1
  have hle := hS.hashLen_le
  simp only [pkiOps, pkiVerifySignature, M.get_bind, M.modify_bind]
  rw [serverSigned_eq S hS, if_pos (by omega), M.lift_ok_bind]
  simp only [certOf]
  rw [hpv, M.lift_ok_bind, M.lift_apply]
  have he : (es.map fun e => CertEntry.x509 e.1) = .x509 leaf :: rest'.map .x509 := by
    have := congrArg (List.map CertEntry.x509) s1
    simpa [Function.comp_def] using this
  rw [he, verifyPkiSignature_complete s2 s3 s5 s6 s7]
  intro ha
  subst ha
  exact hEd key s7.1

/-- **C69 (native), the part that holds** A conforming server (as in C46) whose flight has one Certificate, with a chain valid for the configured host and
the CA, and after it one CertificateVerify, with a signature under the key of the leaf of what RFC 8446 section 4.4.3
prescribes, is accepted by a client with the native verifier: `open` returns Ok and has consumed exactly the flight.
Missing: what C46 lacks (fragmented messages, unknown extension payloads) and a host matching only a later DNS name (C59). -/
theorem C69_native_partial (S : Suite) (hS : S.Lawful) (now : Option Nat) (N : Nat) (cfg : Config) (p : Provider PkiVerifier)
    (ca : CertEntry) {c : Conn} {x : ServerFlight} {ms : List Bytes} {rest : Bytes} (hm : Meets S cfg p c x ms rest)
    (hv : p.verifier = some (pkiOps L S F now N)) (hEd : ∀ k, L.keyOk .ed25519 k = true → k.length = 32)
    (host : Bytes) (hn : cfg.serverName = some host) (hlen : host.length ≤ 64)
    (ha : AuthFlight (ValidChain L F now ca host) (SignedWith L F) S N (helloMsg S cfg p) x) :
    ∃ c', Conn.open_ S cfg p (PkiVerifier.new ca) c = (.ok (), c') ∧ c'.opened = true ∧ c'.rx.bytes = rest :=
  open_authenticated S hS N cfg p _ _ _ hv hm host hn (pkiSetHostname_fits hlen _) ha (native_accepts S hS now N ca hEd host)

/-- The webpki verifier accepts. -/
theorem web_accepts (S : Suite) (hS : S.Lawful) (W : WebLib) (alloc : Bool) (now : Option Nat) (N : Nat) (ca : CertEntry)
    (hparse : ∀ anchor leaf, W.chainOk anchor leaf (now.getD 0) = true → W.anchorOk anchor = true ∧ W.leafOk leaf = true)
    (h32 : S.hashLen ≤ 32) (host : Bytes) : ∀ ctx es tr, (RawMsg.certificate ctx es).WellSized S.hashLen →
      WebAccepts W now ca (some host) (es.map (·.1)) → (es.flatMap certEntryBytes).length ≤ N →
      CertEntry.parseVector 16 ⟨es.flatMap certEntryBytes, 0⟩ = .ok (es.map fun e => .x509 e.1) →
      ∃ v1, (webOps W S alloc now N).verifyCertificate tr (certOf ctx es) { PkiVerifier.new ca with host := some host } = (.ok (), v1) ∧
        ∀ code sig, WebSignedWith W alloc (es.map (·.1)) code (serverSignedContent S tr) sig →
          ∃ scheme v2, (scheme, code) ∈ signatureSchemes ∧ (webOps W S alloc now N).verifySignature ⟨scheme, sig⟩ v1 = (.ok (), v2) := by
  rintro ctx es tr hw ⟨anchor, leaf, rest', k1, k2, k3, k4⟩ hN hpv
  obtain ⟨k5, k6⟩ := hparse _ _ k3
  obtain ⟨k7, k8⟩ := k4 host rfl
  have he : (es.map fun e => CertEntry.x509 e.1) = .x509 leaf :: rest'.map .x509 := by
    have := congrArg (List.map CertEntry.x509) k2
    simpa [Function.comp_def] using this
  have hctx : ctx.length ≤ 256 := by have := hw.1; omega
  refine ⟨{ ca := ca, host := some host, transcript := some tr, certificate := some (ctx, es.flatMap certEntryBytes) }, ?_, ?_⟩
  · simp only [webOps, webVerifyCertificate, M.get_bind, certOf, PkiVerifier.new]
    rw [he, k1]
    have : webVerifyChain W (some host) (.x509 anchor) (.x509 leaf :: rest'.map .x509) now = .ok () := by
      simp [webVerifyChain, k3, k5, k6, k7, k8]
    rw [this, M.lift_ok_bind]
    unfold certOwned
    rw [if_pos hctx, if_pos hN, M.lift_ok_bind]
    rfl
  · rintro code sig ⟨leaf', rest'', scheme, algo, s1, s2, s3, s4, s5⟩
    rw [k2] at s1
    simp only [List.cons.injEq] at s1
    obtain ⟨rfl, rfl⟩ := s1
    refine ⟨scheme, { ca := ca, host := some host, transcript := none, certificate := some (ctx, es.flatMap certEntryBytes) },
      s2, ?_⟩
    simp only [webOps, webVerifySignature, M.get_bind, M.modify_bind]
    rw [serverSigned_eq S hS, if_pos (by omega), M.lift_ok_bind, hpv, M.lift_ok_bind, M.lift_apply, he]
    simp only [webCheckSignature, k6, webAlgo_enabled s3 s4, s5]
    rfl

/-- **C69 (webpki), the part that holds** The same with the webpki verifier, if webpki accepts the first certificate on its own
for the host and verifies the signature.  Missing: suites with SHA-384 (never accepted, C53) and servers whose certificate
takes intermediates (they are not given to webpki). -/
theorem C69_webpki_partial (S : Suite) (hS : S.Lawful) (W : WebLib) (alloc : Bool) (now : Option Nat) (N : Nat)
    (cfg : Config) (p : Provider PkiVerifier) (ca : CertEntry) {c : Conn} {x : ServerFlight} {ms : List Bytes}
    {rest : Bytes} (hm : Meets S cfg p c x ms rest) (hv : p.verifier = some (webOps W S alloc now N))
    (hparse : ∀ anchor leaf, W.chainOk anchor leaf (now.getD 0) = true → W.anchorOk anchor = true ∧ W.leafOk leaf = true)
    (h32 : S.hashLen ≤ 32) (host : Bytes) (hn : cfg.serverName = some host) (hlen : host.length ≤ 64)
    (ha : AuthFlight (WebAccepts W now ca (some host)) (WebSignedWith W alloc) S N (helloMsg S cfg p) x) :
    ∃ c', Conn.open_ S cfg p (PkiVerifier.new ca) c = (.ok (), c') ∧ c'.opened = true ∧ c'.rx.bytes = rest :=
  open_authenticated S hS N cfg p _ _ _ hv hm host hn (pkiSetHostname_fits hlen _) ha (web_accepts S hS W alloc now N ca hparse h32 host)

/-! ## Examples -/

/-- The messages of the toy server with these certificates. -/
def exAuthMsgs (certs : List Bytes) : List RawMsg :=
  [.encryptedExtensions [], exCertMsg certs, exCertVerify certs]

/-- The flight of the toy server with these certificates: the messages in one record, Finished in another. -/
def exAuth (certs : List Bytes) : ServerFlight where
  sh := exSH
  share := exShare
  dhe := exDhe
  msgs := exAuthMsgs certs
  records :=
    [.changeCipherSpec, .messages (exAuthMsgs certs) 5,
     .messages [.finished (verifyData toySuite (serverHandshakeTraffic toySuite none exDhe (exHelloMsg exCfg ++ exSH.bytes))
         (exHelloMsg exCfg ++ exSH.bytes ++ (exAuthMsgs certs).flatMap RawMsg.bytes))] 0]

set_option maxRecDepth 10000 in
/-- The setting of C69 for the toy server, with a chain of two certificates and with a single one. -/
theorem exAuth_meets (ops : VerifierOps PkiVerifier) (certs : List Bytes)
    (hc : certs = [exLeaf, toyInter] ∨ certs = [exDirect]) :
    Meets toySuite exCfg (authProv ops)
      (exNew 600 [.data ((exAuth certs).bytes toySuite none (exHelloMsg exCfg) ++ [1, 2, 3])]) (exAuth certs) [] [1, 2, 3] where
  fresh := exNew_fresh _ _ (by decide)
  clean := by
    intro e he
    replace he := List.mem_singleton.1 he
    exact ⟨_, by rcases hc with rfl | rfl <;> decide +kernel, he⟩
  reliable := by intro a ha; cases ha
  conforming := {
    serverHello := ⟨⟨by decide, by decide, by decide, ⟨.tlsAes128GcmSha256, by decide⟩, by decide⟩, (by decide : exSH.bytes.length ≤ 16384)⟩
    share := ⟨0x0303, List.replicate 32 7, [], 0x1301, 0, [⟨43, [3, 4]⟩], .secp256r1, 23, [], [], rfl, by decide,
      (by decide : exShare.length < 65536), by decide⟩
    dhe := (by decide : toySuite.dh [1] exShare = some exDhe)
    msgs := by
      intro r hr
      simp only [exAuth, exAuthMsgs, List.mem_cons, List.not_mem_nil, or_false] at hr
      rcases hr with rfl | rfl | rfl
      · refine ⟨?_, by decide, by decide⟩
        show ExtsSized []; decide
      · rcases hc with rfl | rfl <;> refine ⟨?_, by decide +kernel, by decide +kernel⟩ <;>
          exact ⟨by decide, by decide +kernel, by decide +kernel⟩
      · refine ⟨⟨⟨.ecdsaSecp256r1Sha256, by decide⟩, ?_⟩, ?_, .inr (.inr (.inr rfl))⟩
        · rcases hc with rfl | rfl <;> decide +kernel
        · rcases hc with rfl | rfl <;> decide +kernel
    records := rfl
    last := ⟨[.changeCipherSpec, .messages (exAuthMsgs certs) 5], _, 0, rfl, by simp⟩
    sizes := by
      rcases hc with rfl | rfl <;> decide +kernel }
  accepted := by
    intro r hr
    simp only [exAuth, exAuthMsgs, List.mem_cons, List.not_mem_nil, or_false] at hr
    rcases hr with rfl | rfl | rfl | rfl
    · exact ⟨_, rfl⟩
    · exact ⟨_, rfl⟩
    · rcases hc with rfl | rfl <;> exact ⟨_, rfl⟩
    · rcases hc with rfl | rfl <;> exact ⟨_, rfl⟩
  reply := rfl
  signature := by intro sign scheme h; cases h
  helloFits := (by decide +kernel : 5 + helloLength toySuite exCfg (authProv toyNative) ≤ 600)
  finishedFits := (by decide : 32 + 26 ≤ 600)
  replyFits := by simp
  serverHelloFits := (by decide : exSH.bytes.length ≤ 600)
  recordsFit := by rcases hc with rfl | rfl <;> decide +kernel
  count := (by decide : 3 < 2 ^ 64)
  bytes := by
    show _ ++ [] = _
    rw [List.append_nil]
    rfl

/-- The certificate of example.com, decoded. -/
theorem exLeaf_readable : ∃ dc, toyPki.fromDer exLeaf = some dc ∧ dc.publicKey = some [3] ∧ SubjectFits dc ∧
    SanNames toyPki dc [ascii "example.com"] ∧ NamesFit toyPki [ascii "example.com"] := by
  refine ⟨⟨[], [], 10, 50, some [3], some [⟨[2, 5, 29, 17], none, 4, [48, 13, 130, 11] ++ ascii "example.com"⟩],
    ⟨[1, 2, 840, 10045, 4, 3, 2], none⟩, some [22, 196, 142, 0]⟩, by decide +kernel, rfl, ?_, ?_, ?_⟩
  · intro rdn hr
    cases hr
  · refine .present [] [] _ [48, 13] ([130, 11] ++ ascii "example.com") [] [(130, ascii "example.com")] rfl rfl (by simp) rfl
      (by decide) (by decide) rfl ?_
    exact .cons [130, 11] (ascii "example.com") [] 130 [] (by decide) rfl .nil
  · intro n hn
    rw [List.mem_singleton] at hn
    subst hn
    decide

set_option maxRecDepth 10000 in
theorem exChain_valid : ValidChain toyPki allFeatures (some 20) (.x509 toyCa) (ascii "example.com") [exLeaf, toyInter] := by
  obtain ⟨dc, h1, h2, h3, h4, h5⟩ := exLeaf_readable
  have hl : LeadsTo toyPki (some 20) (.x509 toyCa) (some (ascii "example.com")) [exLeaf, toyInter] := by
    obtain ⟨certs, k1, k2, k3⟩ := C51_chain toySuite (some 20) 1000 [] (toyMsg [exLeaf, toyInter]) (toyVerifier "example.com") _
      (Prod.ext (by decide +kernel : ((pkiOps toyPki toySuite allFeatures (some 20) 1000).verifyCertificate []
        (toyMsg [exLeaf, toyInter]) (toyVerifier "example.com")).1 = .ok ()) rfl)
    have : certs = [exLeaf, toyInter] := by
      have : List.map CertEntry.x509 [exLeaf, toyInter] = List.map CertEntry.x509 certs := k1
      exact ((List.map_inj_right (fun a b hab => by injection hab)).1 this).symm
    subst this
    exact ⟨k2, k3⟩
  refine ⟨?_, exLeaf, [toyInter], dc, _, ascii "example.com", rfl, h1, h4, h5, h3, ?_, .inl (by simp)⟩
  · intro i cert hi
    obtain ⟨k1, issuer, k2, k3⟩ := hl.1 i cert hi
    refine ⟨k1, ?_, issuer, k2, issuedWith_all k3⟩
    have : cert = exLeaf ∨ cert = toyInter := by simpa using List.mem_of_getElem? hi
    rcases this with rfl | rfl
    · exact ⟨_, dc, h1, h3, h4, h5⟩
    · refine ⟨[], ⟨[], [[⟨[2, 5, 4, 3], ascii "inter"⟩]], 0, 100, some [2], none, ⟨[1, 2, 840, 10045, 4, 3, 2], none⟩,
        some [12, 138, 248, 0]⟩, by decide +kernel, ?_, .absent (by simp), by simp [NamesFit]⟩
      intro rdn hr
      rw [List.mem_singleton] at hr
      subst hr
      exact ⟨_, _, rfl, fun _ => by decide⟩
  · rw [← C49_hostname_match]; decide +kernel

set_option maxRecDepth 10000 in
/-- C69 with the native verifier: the toy server with a chain of two certificates. -/
example : ∃ c', Conn.open_ toySuite exCfg (authProv toyNative) (PkiVerifier.new (.x509 toyCa))
    (exNew 600 [.data ((exAuth [exLeaf, toyInter]).bytes toySuite none (exHelloMsg exCfg) ++ [1, 2, 3])]) = (.ok (), c') ∧
    c'.opened = true ∧ c'.rx.bytes = [1, 2, 3] := by
  refine C69_native_partial toySuite toySuite_lawful (some 20) 1000 exCfg (authProv toyNative) (.x509 toyCa)
    (exAuth_meets toyNative _ (.inl rfl)) rfl (by intro k hk; simpa [toyPki] using hk) (ascii "example.com") rfl (by decide) ?_
  obtain ⟨dc, h1, h2, -⟩ := exLeaf_readable
  refine ⟨[.encryptedExtensions []], [], [], [], [(exLeaf, []), (toyInter, [])], 0x0403, _, rfl, by simp [RawMsg.type],
    by decide +kernel, exChain_valid, exLeaf, [toyInter], dc, [3], .ecdsaSecp256r1Sha256, .ecdsaP256Sha256, rfl, h1, h2, by decide,
    by decide, by simp [Enabled], rfl, by decide +kernel, ?_⟩
  simp only [toyPki, decide_eq_true_eq]
  rfl

set_option maxRecDepth 10000 in
/-- C69 with the webpki verifier. -/
example : ∃ c', Conn.open_ toySuite exCfg (authProv toyWebOps) (PkiVerifier.new (.x509 toyCa))
    (exNew 600 [.data ((exAuth [exDirect]).bytes toySuite none (exHelloMsg exCfg) ++ [1, 2, 3])]) = (.ok (), c') ∧
    c'.opened = true ∧ c'.rx.bytes = [1, 2, 3] := by
  refine C69_webpki_partial toySuite toySuite_lawful toyWeb false (some 20) 1000 exCfg (authProv toyWebOps) (.x509 toyCa)
    (exAuth_meets toyWebOps _ (.inr rfl)) rfl ?_ (by decide) (ascii "example.com") rfl (by decide) ?_
  · intro anchor leaf h
    simp only [toyWeb, verifyCertEntry] at h ⊢
    change (match toyDecode anchor with | none => _ | some _ => _ : Res TlsError CertNames).isOk = true at h
    cases h1 : toyDecode anchor with
    | none => rw [h1] at h; cases h
    | some d1 =>
      rw [h1] at h
      simp only at h
      change (match toyDecode leaf with | none => _ | some _ => _ : Res TlsError CertNames).isOk = true at h
      cases h2 : toyDecode leaf with
      | none => rw [h2] at h; cases h
      | some d2 => simp
  refine ⟨[.encryptedExtensions []], [], [], [], [(exDirect, [])], 0x0403, _, rfl, by simp [RawMsg.type],
    by decide +kernel, ⟨toyCa, exDirect, [], rfl, rfl, by decide +kernel, ?_⟩, exDirect, [], .ecdsaSecp256r1Sha256,
    .ecdsaP256Sha256, rfl, by decide, by decide, .inr (by decide), ?_⟩
  · intro name h
    injection h with h
    subst h
    exact ⟨rfl, by decide +kernel⟩
  · decide +kernel

end ETls
