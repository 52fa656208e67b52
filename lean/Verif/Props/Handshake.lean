import Verif.Proofs.ExServer
import Verif.Props.WritePath
import Verif.Props.ReadSafety

/-! # The handshake: C33, C34, C37, C39, C41, C42, C45, C56 -/

namespace ETls

variable (S : Suite) {V : Type}
open Spec

/-! ## C56 -/

/-- **C56** A message the decoder accepts (wherever it stands) is, byte for byte, the RFC 8446 encoding of a message with
all fields in range, up to the value of the 24-bit length field, which is not looked at; and the decoder's answer for it
is the one C55 describes (`decoded`). -/
theorem C56_decoder_sound (A m B : Bytes) (h : ServerHs)
    (hp : ServerHs.parse S ⟨A ++ (m ++ B), A.length⟩ = (.ok h, ⟨A ++ (m ++ B), A.length + m.length⟩)) :
    ∃ raw : RawMsg, raw.WellSized S.hashLen ∧ Encodes m raw ∧ decoded raw = .ok h := by
  obtain ⟨raw, n, h1, h2, h3, h4⟩ := parse_sound S A m B h hp
  exact ⟨raw, h1, ⟨n, h2, h3⟩, h4⟩

/-- **C56** and the fields are those of that message. -/
theorem C56_fields {raw : RawMsg} {h : ServerHs} (hd : decoded raw = .ok h) :
    (∀ v, h = .finished v → raw = .finished v.verify) ∧
    (∀ ctx, h = .certificateRequest ctx → ∃ xs, raw = .certificateRequest ctx xs) ∧
    (∀ c, h = .certificate c → ∃ es, raw = .certificate c.requestContext es ∧ c.entries = es.map fun e => .x509 e.1) ∧
    (∀ c, h = .certificateVerify c → ∃ code, raw = .certificateVerify code c.signature ∧
      (c.scheme, code) ∈ signatureSchemes) ∧
    (h = .encryptedExtensions → ∃ xs, raw = .encryptedExtensions xs) ∧
    (h = .newSessionTicket → ∃ lt aa n t xs, raw = .newSessionTicket lt aa n t xs) := by
  have hk := decoded_kind hd
  cases raw with
  | serverHello v rnd sid cs comp xs => obtain ⟨e, rfl⟩ := hk; simp
  | encryptedExtensions xs => simp only at hk; subst hk; simp
  | certificateRequest ctx xs => simp only at hk; subst hk; simp
  | certificate ctx es =>
    simp only at hk
    subst hk
    refine ⟨by simp, by simp, ?_, by simp, by simp, by simp⟩
    intro c hc
    simp only [ServerHs.certificate.injEq] at hc
    subst hc
    exact ⟨es, rfl, rfl⟩
  | certificateVerify s sig =>
    obtain ⟨x, hx, rfl⟩ := hk
    refine ⟨by simp, by simp, by simp, ?_, by simp, by simp⟩
    intro c hc
    simp only [ServerHs.certificateVerify.injEq] at hc
    subst hc
    exact ⟨s, rfl, hx⟩
  | finished v =>
    simp only at hk
    subst hk
    refine ⟨?_, by simp, by simp, by simp, by simp, by simp⟩
    intro c hc
    simp only [ServerHs.finished.injEq] at hc
    subst hc
    rfl
  | newSessionTicket lt aa n t xs => simp only at hk; subst hk; simp

example : ∃ h, ServerHs.parse toySuite ⟨[1] ++ ([20, 9, 9, 9] ++ List.replicate 32 5 ++ [7]), 1⟩ =
    (.ok h, ⟨[1] ++ ([20, 9, 9, 9] ++ List.replicate 32 5 ++ [7]), 1 + 36⟩) :=
  ⟨.finished ⟨List.replicate 32 5, none⟩, by decide +kernel⟩

/-! ## C33 -/

/-- **C33** If `open` returns Ok, the bytes received start with a ServerHello and records that carry handshake messages;
among these is a Finished, and every Finished among them has exactly the MAC RFC 8446 prescribes: keyed with the
server handshake traffic secret derived from the configured PSK and the Diffie-Hellman result of this handshake, over all
handshake messages before it (ClientHello as sent, ServerHello and the server's messages as received). -/
theorem C33_finished_gate (hS : S.Lawful) (cfg : Config) (p : Provider V) (v : V) {c c' : Conn} (hf : c.Fresh S)
    (h : Conn.open_ S cfg p v c = (.ok (), c')) :
    ∃ x : Session, x.Received S (cfg.psk.map (·.1)) p.secret ∧ c.rx.bytes = x.received ++ c'.rx.bytes ∧
      (∃ more, c'.tx.log = c.tx.log ++ (.wrote (plaintextRecord 22 [3, 1] x.hello) :: .flushed :: more)) ∧
      (∃ before fm vd after, x.msgs = before ++ (fm, .finished vd) :: after) ∧
      ∀ before fm vd after, x.msgs = before ++ (fm, .finished vd) :: after →
        vd = verifyData S (serverHandshakeTraffic S (cfg.psk.map (·.1)) x.dhe (x.hello ++ x.sh))
          (x.hello ++ x.sh ++ before.flatMap Prod.fst) := by
  obtain ⟨x, hx⟩ := open_session S hS cfg p v hf h
  obtain ⟨a, fm, vd, b, h1, _⟩ := hx.ending
  exact ⟨x, hx.received, hx.bytes, ⟨_, hx.sent⟩, ⟨a, fm, vd, b, h1⟩, hx.finished⟩

set_option maxRecDepth 10000 in
example : (exNew 400 [.data (exServer exCfg exSH exMin)]).Fresh toySuite ∧
    (Conn.open_ toySuite exCfg exProv () (exNew 400 [.data (exServer exCfg exSH exMin)])).1 = .ok () :=
  ⟨exNew_fresh _ _ (by decide), exMin_ok⟩

/-! ## C37 -/

theorem handshakeRecords_append (key iv : Bytes) (a b : List Bytes) : ∀ n, handshakeRecords S key iv n (a ++ b) =
    handshakeRecords S key iv n a ++ handshakeRecords S key iv (n + a.length) b := by
  induction a with
  | nil => intro n; simp [handshakeRecords, ciphertextRecords]
  | cons m a ih =>
    intro n
    have := ih (n + 1)
    simp only [handshakeRecords] at this
    simp only [handshakeRecords, List.cons_append, List.map_cons, ciphertextRecords, this, List.length_cons]
    rw [show n + 1 + a.length = n + (a.length + 1) by omega]

/-- **C37** If `open` returns Ok, the last record sent is the client's Finished, protected with the client handshake key
and numbered consecutively after the other protected records of the client; its MAC is the one RFC 8446 prescribes, over
all handshake messages exchanged before it. -/
theorem C37_client_finished (hS : S.Lawful) (cfg : Config) (p : Provider V) (v : V) {c c' : Conn} (hf : c.Fresh S)
    (h : Conn.open_ S cfg p v c = (.ok (), c')) :
    ∃ x : Session, x.Received S (cfg.psk.map (·.1)) p.secret ∧ c.rx.bytes = x.received ++ c'.rx.bytes ∧
      ∃ clientSecret, clientSecret = clientHandshakeTraffic S (cfg.psk.map (·.1)) x.dhe (x.hello ++ x.sh) ∧
        c'.tx.log = c.tx.log ++ sentRecords
          ([plaintextRecord 22 [3, 1] x.hello] ++
            handshakeRecords S (writeKey S clientSecret) (writeIv S clientSecret) 0 x.clientMsgs ++
            [ciphertextRecord S (writeKey S clientSecret) (writeIv S clientSecret) x.clientMsgs.length 22
              (finishedMsg (verifyData S clientSecret
                (x.hello ++ x.sh ++ x.msgs.flatMap Prod.fst ++ x.clientMsgs.flatten)))]) := by
  obtain ⟨x, hx⟩ := open_session S hS cfg p v hf h
  refine ⟨x, hx.received, hx.bytes, _, rfl, ?_⟩
  rw [hx.sent]
  rw [handshakeRecords_append]
  simp [handshakeRecords, ciphertextRecords, Session.clientSecret, Session.tr0, Session.beforeFinished, Session.bytesOf]

/-! ## C34 -/

/-- A verifier that accepts nothing. -/
def rejecting : VerifierOps Unit := ⟨fun _ => pure (), fun _ _ => M.fail .invalidCertificate, fun _ => M.fail .invalidSignature⟩

/-- `exProv` with that verifier. -/
def exRejecting : Provider Unit := { exProv with verifier := some rejecting }

set_option maxRecDepth 10000 in
/-- **C34, refuted** With a verifier that accepts nothing and without PSK, `open` succeeds against a server that sends
neither Certificate nor CertificateVerify. -/
theorem C34_refuted : ∃ (cfg : Config) (ops : VerifierOps Unit) (p : Provider Unit) (c : Conn), cfg.psk = none ∧
    p.verifier = some ops ∧ c.Fresh toySuite ∧
    (∀ t m s, (ops.verifyCertificate t m s).1 = .err .invalidCertificate) ∧
    (∀ m s, (ops.verifySignature m s).1 = .err .invalidSignature) ∧
    (Conn.open_ toySuite cfg p () c).1 = .ok () :=
  ⟨exCfg, rejecting, exRejecting, exNew 400 [.data (exServer exCfg exSH exMin)], rfl, rfl, exNew_fresh _ _ (by decide),
    fun _ _ _ => rfl, fun _ _ => rfl, by decide +kernel⟩

/-- **C34, the part that holds** With a verifier, `open` succeeds only if the verifier accepted every Certificate (shown
together with all handshake messages up to and including it) and every CertificateVerify that the server sent, in the
order sent.  Missing: that the server must send them at all. -/
theorem C34_server_auth_partial (hS : S.Lawful) (cfg : Config) (p : Provider V) (v : V) {c c' : Conn} (hf : c.Fresh S)
    (ops : VerifierOps V) (hv : p.verifier = some ops) (h : Conn.open_ S cfg p v c = (.ok (), c')) :
    ∃ x : Session, x.Received S (cfg.psk.map (·.1)) p.secret ∧ c.rx.bytes = x.received ++ c'.rx.bytes ∧
      ∃ v', verifierRun ops (x.hello ++ x.sh) x.msgs (hostVst cfg p v) = (.ok (), v') := by
  obtain ⟨x, hx⟩ := open_session S hS cfg p v hf h
  exact ⟨x, hx.received, hx.bytes, hx.verifier ops hv⟩

/-- A verifier run that succeeds has accepted each Certificate. -/
theorem verifierRun_certificate (ops : VerifierOps V) : ∀ (a b : List (Bytes × RawMsg)) (tr m ctx : Bytes)
    (es : List (Bytes × List RawExt)) (v v' : V),
    verifierRun ops tr (a ++ (m, .certificate ctx es) :: b) v = (.ok (), v') →
    ∃ v1 v2, ops.verifyCertificate (tr ++ a.flatMap Prod.fst ++ m) (certOf ctx es) v1 = (.ok (), v2) := by
  intro a
  induction a with
  | nil =>
    intro b tr m ctx es v v' h
    simp only [List.nil_append, verifierRun] at h
    obtain ⟨_, v2, h1, _⟩ := M.bind_inv h
    exact ⟨v, v2, by simpa using h1⟩
  | cons y a ih =>
    intro b tr m ctx es v v' h
    obtain ⟨ym, yr⟩ := y
    have step : ∀ w, verifierRun ops (tr ++ ym) (a ++ (m, .certificate ctx es) :: b) w = (.ok (), v') →
        ∃ v1 v2, ops.verifyCertificate (tr ++ ((ym, yr) :: a).flatMap Prod.fst ++ m) (certOf ctx es) v1 = (.ok (), v2) := by
      intro w hw
      obtain ⟨v1, v2, h1⟩ := ih b (tr ++ ym) m ctx es w v' hw
      exact ⟨v1, v2, by simpa using h1⟩
    simp only [List.cons_append, verifierRun] at h
    cases yr with
    | certificate ctx' es' => obtain ⟨_, v2, _, h2⟩ := M.bind_inv h; exact step _ h2
    | certificateVerify s sig =>
      simp only at h
      cases hs : SignatureScheme.of s with
      | some y => rw [hs] at h; obtain ⟨_, v2, _, h2⟩ := M.bind_inv h; exact step _ h2
      | none => rw [hs] at h; exact step _ h
    | _ => exact step _ h

/-- **C34, the part that holds** In particular a Certificate in the server's flight was accepted. -/
theorem C34_certificate_accepted_partial (hS : S.Lawful) (cfg : Config) (p : Provider V) (v : V) {c c' : Conn}
    (hf : c.Fresh S) (ops : VerifierOps V) (hv : p.verifier = some ops) (h : Conn.open_ S cfg p v c = (.ok (), c')) :
    ∃ x : Session, x.Received S (cfg.psk.map (·.1)) p.secret ∧ c.rx.bytes = x.received ++ c'.rx.bytes ∧
      ∀ before m ctx es after, x.msgs = before ++ (m, .certificate ctx es) :: after →
        ∃ v1 v2, ops.verifyCertificate (x.hello ++ x.sh ++ before.flatMap Prod.fst ++ m) (certOf ctx es) v1 =
          (.ok (), v2) := by
  obtain ⟨x, hx⟩ := open_session S hS cfg p v hf h
  obtain ⟨v', hr⟩ := hx.verifier ops hv
  refine ⟨x, hx.received, hx.bytes, fun before m ctx es after hm => ?_⟩
  rw [hm] at hr
  exact verifierRun_certificate ops before after _ m ctx es _ _ hr

/-! ## C41 -/

/-- A ServerHello with another cipher suite (TLS_AES_256_GCM_SHA384), another group (secp384r1) and no
supported_versions extension, i.e. a TLS 1.2 ServerHello with a key share. -/
def exOddSH : RawMsg := .serverHello 0x0303 (List.replicate 32 7) [1, 2, 3] 0x1302 0 [⟨51, be16 24 ++ (be16 65 ++ exShare)⟩]

set_option maxRecDepth 10000 in
/-- **C41, refuted** `open` succeeds although the ServerHello selects a cipher suite and a group that were not offered,
does not select TLS 1.3 and echoes a session id that was not sent. -/
theorem C41_refuted : ∃ (cfg : Config) (p : Provider Unit) (c : Conn), cfg.namedGroups = [.secp256r1] ∧
    toySuite.codePoint = 0x1301 ∧ c.Fresh toySuite ∧
    (∃ rest, c.rx.bytes = plaintextRecord 22 [3, 3] exOddSH.bytes ++ rest) ∧
    (Conn.open_ toySuite cfg p () c).1 = .ok () :=
  ⟨exCfg, exProv, exNew 400 [.data (exServer exCfg exOddSH exMin)], rfl, rfl, exNew_fresh _ _ (by decide),
    ⟨_, by simp only [exNew, Rx.bytes, exServer]; rw [List.append_nil]⟩, by decide +kernel⟩

/-- **C41, the part that holds** `open` succeeds only if the ServerHello is well-formed, names one of the five TLS 1.3
cipher suites, and has a key share with a known group whose key the offered group's Diffie-Hellman accepts.  Missing:
that version, cipher suite, session id and group are the offered ones. -/
theorem C41_negotiated_partial (hS : S.Lawful) (cfg : Config) (p : Provider V) (v : V) {c c' : Conn} (hf : c.Fresh S)
    (h : Conn.open_ S cfg p v c = (.ok (), c')) :
    ∃ x : Session, x.Received S (cfg.psk.map (·.1)) p.secret ∧ c.rx.bytes = x.received ++ c'.rx.bytes ∧
      ∃ ver rnd sid cs comp xs group g trailing suite, Encodes x.sh (.serverHello ver rnd sid cs comp xs) ∧
        (suite, cs) ∈ cipherSuites ∧ (group, g) ∈ namedGroups ∧
        ⟨51, be16 g ++ (be16 x.share.length ++ (x.share ++ trailing))⟩ ∈ xs ∧ S.dh p.secret x.share = some x.dhe := by
  obtain ⟨x, hx⟩ := open_session S hS cfg p v hf h
  obtain ⟨r, h1, h2, ver, rnd, sid, cs, comp, pre, group, g, tr, post, rfl, h3, h4, h5⟩ := hx.received.serverHello
  obtain ⟨_, _, _, ⟨suite, h6⟩, _⟩ := h1
  exact ⟨x, hx.received, hx.bytes, ver, rnd, sid, cs, comp, _, group, g, tr, suite, h2, h6, h3, by simp, hx.received.dhe⟩

/-! ## C39 -/

/-- CertificateRequest with context `[7, 8]` and no extensions. -/
def exCR : SrvMsg := .msg (.certificateRequest [7, 8] [])

set_option maxRecDepth 10000 in
/-- **C39, refuted** A CertificateRequest that follows the Finished in the same record is accepted, but no client
Certificate is sent: two records in all, ClientHello and client Finished. -/
theorem C39_refuted : ∃ c : Conn, c.Fresh toySuite ∧
    c.rx.bytes = exServer exCfg exSH [[exEE, .finished, exCR]] ∧
    (Conn.open_ toySuite exCfg exProv () c).1 = .ok () ∧
    ((Conn.open_ toySuite exCfg exProv () c).2.tx.log.filter (· ≠ .flushed)).length = 2 :=
  ⟨exNew 400 [.data (exServer exCfg exSH [[exEE, .finished, exCR]])], exNew_fresh _ _ (by decide),
    by simp [exNew, Rx.bytes], by decide +kernel, by decide +kernel⟩

/-- **C39, the part that holds** If no CertificateRequest follows the last Finished, then after a successful `open` the
client has sent, between ClientHello and Finished: nothing if there was no CertificateRequest; a Certificate with the
context of the (last) request and an empty list if no certificate is configured; else a Certificate with that context
and the configured certificate followed by a CertificateVerify made by the configured signer over 64 spaces, the RFC 8446
client context string, a zero byte and the hash of all messages up to and including the client's Certificate.
Missing: a CertificateRequest after the Finished in the same record (it is accepted and ignored). -/
theorem C39_client_auth_partial (hS : S.Lawful) (cfg : Config) (p : Provider V) (v : V) {c c' : Conn} (hf : c.Fresh S)
    (h : Conn.open_ S cfg p v c = (.ok (), c')) :
    ∃ (x : Session) (fin : Bytes), x.Received S (cfg.psk.map (·.1)) p.secret ∧
      c.rx.bytes = x.received ++ c'.rx.bytes ∧
      (∃ secret, c'.tx.log = c.tx.log ++ sentRecords (plaintextRecord 22 [3, 1] x.hello ::
        handshakeRecords S (writeKey S secret) (writeIv S secret) 0 (x.clientMsgs ++ [finishedMsg fin]))) ∧
      ((∀ a fm vd b, x.msgs = a ++ (fm, .finished vd) :: b → noFinished b → lastRequest b = none) →
        match lastRequest x.msgs with
        | none => x.clientMsgs = []
        | some ctx =>
          match p.clientCert with
          | none => x.clientMsgs = [certificateMsg ctx []]
          | some (.x509 cert) => ∃ sign scheme sig, p.signer = .ok (sign, scheme) ∧
              sign (List.replicate 64 32 ++ ascii "TLS 1.3, client CertificateVerify" ++ [0] ++
                S.hash (x.hello ++ x.sh ++ x.msgs.flatMap Prod.fst ++ certificateMsg ctx [cert])) = some sig ∧
              x.clientMsgs = [certificateMsg ctx [cert], certificateVerifyMsg scheme.code sig]
          | some (.rawPublicKey _) => False) := by
  obtain ⟨x, hx⟩ := open_session S hS cfg p v hf h
  refine ⟨x, _, hx.received, hx.bytes, ⟨_, hx.sent⟩, fun hn => ?_⟩
  obtain ⟨a, fm, vd, b, h1, h2, h3⟩ := hx.ending
  have happ : ∀ l b : List (Bytes × RawMsg), lastRequest (l ++ b) = (lastRequest b).or (lastRequest l) := by
    intro l b
    induction l with
    | nil => simp [lastRequest]
    | cons y l ih =>
      obtain ⟨m, r⟩ := y
      cases r <;> simp [lastRequest, ih]
  have hlr : lastRequest x.msgs = lastRequest a := by
    rw [h1, happ, show lastRequest ((fm, RawMsg.finished vd) :: b) = lastRequest b from rfl, hn a fm vd b h1 h2]
    rfl
  rcases h3 with ⟨k1, k2, _⟩ | ⟨k1, _, ctx, k2, k3⟩
  · rw [hlr, k1]; exact k2
  · rw [k2]
    simp only
    rcases k3 with ⟨m1, m2⟩ | ⟨cert, sign, scheme, sig, m1, m2, m3, m4⟩
    · rw [m1]; exact m2
    · rw [m1]; exact ⟨sign, scheme, sig, m2, m3, m4⟩

set_option maxRecDepth 10000 in
example : (exNew 400 [.data (exServer exCfg exSH [[exEE, exCR], [.finished]])]).Fresh toySuite ∧
    (Conn.open_ toySuite exCfg exProv () (exNew 400 [.data (exServer exCfg exSH [[exEE, exCR], [.finished]])])).1 = .ok () :=
  ⟨exNew_fresh _ _ (by decide), by decide +kernel⟩

/-- A client certificate and a signer. -/
def exClient : Provider Unit :=
  { exProv with signer := .ok (fun m => some (m.drop 98), .ecdsaSecp256r1Sha256), clientCert := some (.x509 [0x30, 1, 2]) }

set_option maxRecDepth 10000 in
example : (Conn.open_ toySuite exCfg exClient ()
      (exNew 400 [.data (exServer exCfg exSH [[exEE, exCR], [.finished]])])).1 = .ok () ∧
    ((Conn.open_ toySuite exCfg exClient ()
      (exNew 400 [.data (exServer exCfg exSH [[exEE, exCR], [.finished]])])).2.tx.log.filter (· ≠ .flushed)).length = 4 := by
  decide +kernel

/-! ## C45 -/

/-- The client state machine of RFC 8446 appendix A.1 in terms of this client's states: start; wait for ServerHello;
wait for EncryptedExtensions, CertificateRequest, Certificate, CertificateVerify, Finished (one state, left only by
Finished); send Certificate; send CertificateVerify; send Finished; connected. -/
inductive Successor : State → State → Prop where
  | sentHello : Successor .clientHello .serverHello
  | gotServerHello : Successor .serverHello .serverVerify
  | waiting : Successor .serverVerify .serverVerify
  | gotFinishedWithRequest : Successor .serverVerify .clientCert
  | gotFinished : Successor .serverVerify .clientFinished
  | sentCertificate : Successor .clientCert .clientCertVerify
  | sentEmptyCertificate : Successor .clientCert .clientFinished
  | sentCertificateVerify : Successor .clientCertVerify .clientFinished
  | sentFinished : Successor .clientFinished .applicationData
  | connected : Successor .applicationData .applicationData

theorem handshakeLoop_ext {τ : Type} {P : τ → Prop} (cb : ServerRecord → M TlsError (ReadKS × τ) Unit)
    (hc : ∀ rec k t, P t → P (cb rec (k, t)).2.2) (fuel : Nat) : ∀ (q : PB) (k : ReadKS) (t : τ), P t →
    P (handshakeLoop S cb fuel q (k, t)).2.2 := by
  induction fuel with
  | zero => intro q k t h; exact h
  | succ fuel ih =>
    intro q k t h
    unfold handshakeLoop
    simp only
    split
    · split
      · next hh p' tr hr =>
        have := hc (.handshake hh) { k with transcript := tr } t h
        split
        · next kt hk =>
          obtain ⟨k2, t2⟩ := kt
          rw [hk] at this
          exact ih _ _ _ this
        · next e kt hk => rw [hk] at this; exact this
        · next kt hk => rw [hk] at this; exact this
      · exact h
      · exact h
    · exact h

theorem decryptRecord_ext {τ : Type} {P : τ → Prop} (cb : ServerRecord → M TlsError (ReadKS × τ) Unit)
    (hc : ∀ rec k t, P t → P (cb rec (k, t)).2.2) (rec : ServerRecord) (s : DSt τ) (h : P s.ext) :
    P (decryptRecord S cb rec s).2.ext := by
  have hd : ∀ hdr start pt k t, P t → P (dispatchInner S cb hdr start pt (k, t)).2.2 := by
    intro hdr start pt k t ht
    unfold dispatchInner
    cases (stripPadding pt).getLast? with
    | none => exact ht
    | some b =>
      simp only
      cases ContentType.of b.toNat with
      | none => exact ht
      | some ct =>
        cases ct with
        | handshake => exact handshakeLoop_ext S cb hc _ _ _ _ ht
        | applicationData => exact hc _ _ _ ht
        | alert =>
          simp only
          cases (Alert.parse (PB.new (stripPadding pt).dropLast)).1 with
          | ok a => rw [M.lift_ok_bind]; exact hc _ _ _ ht
          | err e => rw [M.lift_err_bind]; exact ht
          | panic => rw [M.lift_panic_bind]; exact ht
        | _ => exact ht
  unfold decryptRecord
  split
  · next hdr start data =>
    split
    · exact h
    · next pt ho =>
      have := hd hdr start pt s.rks s.ext h
      simp only
      split
      · next hx => rw [hx] at this; exact this
      · next hx => rw [hx] at this; exact this
      · next hx => rw [hx] at this; exact this
  · exact hc _ _ _ h

theorem serverVerifyHandler_state (p : Provider V) (rec : ServerRecord) (k : ReadKS) (t : HsData V × State)
    (h : t.2 = .serverVerify ∨ t.2 = .clientCert ∨ t.2 = .clientFinished) :
    (serverVerifyHandler S p rec (k, t)).2.2.2 = .serverVerify ∨ (serverVerifyHandler S p rec (k, t)).2.2.2 = .clientCert ∨
      (serverVerifyHandler S p rec (k, t)).2.2.2 = .clientFinished := by
  obtain ⟨hd, st⟩ := t
  cases rec with
  | handshake m =>
    cases m with
    | certificate c =>
      rw [serverVerifyHandler_cert]
      cases p.verifier with
      | none => exact h
      | some ops => exact h
    | certificateVerify c =>
      simp only [serverVerifyHandler]
      cases p.verifier with
      | none => exact h
      | some ops => exact h
    | certificateRequest ctx =>
      simp only [serverVerifyHandler]
      cases hc : certRequestOwned ctx with
      | ok o => rw [M.lift_ok_bind]; exact h
      | err e => rw [M.lift_err_bind]; exact h
      | panic => rw [M.lift_panic_bind]; exact h
    | finished f =>
      simp only [serverVerifyHandler]
      rw [M.get_bind]
      simp only
      cases k.verifyServerFinished S f with
      | ok b =>
        rw [M.lift_ok_bind]
        cases b with
        | false => exact h
        | true =>
          simp only [if_true]
          split
          · exact .inr (.inl rfl)
          · exact .inr (.inr rfl)
      | err e => rw [M.lift_err_bind]; exact h
      | panic => rw [M.lift_panic_bind]; exact h
    | _ => exact h
  | _ => exact h

/-- Every value the operation returns satisfies `Q`. -/
def Returns {ε σ α : Type} (m : M ε σ α) (Q : α → Prop) : Prop := ∀ s a s', m s = (.ok a, s') → Q a

namespace Returns
variable {ε σ α β : Type} {P : α → Prop} {Q : β → Prop}

theorem bind {m : M ε σ α} {g : α → M ε σ β} (h : Returns m P) (hg : ∀ a, P a → Returns (g a) Q) : Returns (m >>= g) Q := by
  intro s b s' hb
  obtain ⟨a, s1, h1, h2⟩ := M.bind_inv hb
  exact hg a (h s a s1 h1) s1 b s' h2

theorem bind' {m : M ε σ α} {g : α → M ε σ β} (hg : ∀ a, Returns (g a) Q) : Returns (m >>= g) Q :=
  bind (P := fun _ => True) (fun _ _ _ _ => trivial) fun a _ => hg a

theorem pure {a : α} (h : P a) : Returns (Pure.pure a : M ε σ α) P := by
  intro s b s' hb
  simp only [M.pure_apply, Prod.mk.injEq, Res.ok.injEq] at hb
  exact hb.1 ▸ h

theorem fail (e : ε) : Returns (M.fail e : M ε σ α) P := by intro s b s' hb; simp at hb
theorem crash : Returns (M.crash : M ε σ α) P := by intro s b s' hb; simp at hb

theorem lift {r : Res ε α} (h : ∀ a, r = .ok a → P a) : Returns (M.lift r : M ε σ α) P := by
  intro s b s' hb
  simp only [M.lift_apply, Prod.mk.injEq] at hb
  exact h b hb.1

end Returns

theorem returns_errorHandling {m : M TlsError (HSt V) State} {Q : State → Prop} (h : Returns m Q) :
    Returns (withErrorHandling S m) Q := fun s a s' hs => h s a s' (withErrorHandling_ok S hs)

/-- **C45** A handshake step that succeeds moves to a successor of the state it was in; whatever the connection, the
configuration, the provider and the transport. -/
theorem C45_step (cfg : Config) (p : Provider V) (st st' : State) (s s' : HSt V)
    (h : process S cfg p st s = (.ok st', s')) : Successor st st' := by
  suffices Returns (process S cfg p st) (Successor st) from this s st' s' h
  cases st with
  | clientHello =>
    unfold process clientHello
    refine Returns.bind (P := fun x => x.1 = .serverHello) ?_ fun x hx => Returns.bind' fun _ => Returns.pure ?_
    · exact Returns.bind' fun _ => Returns.bind' fun _ => Returns.bind' fun _ => Returns.pure rfl
    · rw [hx]; exact .sentHello
  | serverHello =>
    unfold process
    refine Returns.bind' fun rec => returns_errorHandling S ?_
    unfold processServerHello
    split
    · refine Returns.bind' fun s => ?_
      split
      · exact Returns.fail _
      · refine Returns.bind' fun _ => ?_
        split
        · exact Returns.fail _
        · exact Returns.bind' fun _ => Returns.pure .gotServerHello
    · exact Returns.fail _
    · exact Returns.fail _
    · exact Returns.fail _
  | serverVerify =>
    unfold process
    refine Returns.bind' fun rec => returns_errorHandling S ?_
    intro s1 a s2 h2
    unfold processServerVerify at h2
    have he := decryptRecord_ext S (P := fun t : HsData V × State => t.2 = .serverVerify ∨ t.2 = .clientCert ∨ t.2 = .clientFinished)
      (serverVerifyHandler S p) (fun rec k t ht => serverVerifyHandler_state S p rec k t ht) rec
      ⟨s1.c.ks.server, s1.c.rr.buf, (s1.h, State.serverVerify)⟩ (.inl rfl)
    rcases hd : decryptRecord S (serverVerifyHandler S p) rec ⟨s1.c.ks.server, s1.c.rr.buf, (s1.h, State.serverVerify)⟩
      with ⟨r, d⟩
    rw [hd] at h2 he
    simp only [Prod.mk.injEq] at h2 he
    cases r with
    | ok u =>
      simp only [Res.map, Res.ok.injEq] at h2
      rw [← h2.1]
      rcases he with he | he | he <;> rw [he]
      · exact .waiting
      · exact .gotFinishedWithRequest
      · exact .gotFinished
    | err e => simp [Res.map] at h2
    | panic => simp [Res.map] at h2
  | clientCert =>
    unfold process clientCert
    refine Returns.bind (P := fun x => x.1 = nextAfterCert p.clientCert) ?_ fun x hx =>
      Returns.bind' fun _ => Returns.pure ?_
    · refine Returns.bind' fun s => Returns.bind' fun _ => ?_
      split
      · exact Returns.fail _
      · exact Returns.bind' fun _ => Returns.pure rfl
    · rw [hx]
      cases p.clientCert with
      | none => exact .sentEmptyCertificate
      | some c => exact .sentCertificate
  | clientCertVerify =>
    unfold process clientCertVerify
    refine Returns.bind (P := fun x => ∀ a, x.1 = .ok a → a = .clientFinished) ?_ fun x hx =>
      Returns.bind' fun _ => Returns.lift fun a ha => ?_
    · refine Returns.bind' fun s => ?_
      split
      · exact Returns.crash
      · simp only
        split
        · exact Returns.fail _
        · split
          · exact Returns.crash
          · split
            · exact Returns.crash
            · exact Returns.bind' fun _ => Returns.pure fun a ha => by
                simp only [Res.ok.injEq] at ha; exact ha.symm
      · exact Returns.bind' fun _ => Returns.pure fun a ha => by simp at ha
    · rw [hx a ha]; exact .sentCertificateVerify
  | clientFinished =>
    unfold process clientFinishedFinalize
    refine Returns.bind' fun _ => Returns.bind' fun _ => Returns.bind' fun s => ?_
    split
    · exact Returns.fail _
    · exact Returns.bind' fun _ => Returns.bind' fun _ => Returns.bind' fun _ => Returns.pure .sentFinished
  | applicationData => exact Returns.pure .connected

/-- **C45** If `open` returns Ok then ClientHello was the first thing sent, a ServerHello and a Finished were received,
and the client's Finished was the last thing sent. -/
theorem C45_open (hS : S.Lawful) (cfg : Config) (p : Provider V) (v : V) {c c' : Conn} (hf : c.Fresh S)
    (h : Conn.open_ S cfg p v c = (.ok (), c')) :
    ∃ (x : Session) (secret fin : Bytes) (n : Nat), x.Received S (cfg.psk.map (·.1)) p.secret ∧
      c.rx.bytes = x.received ++ c'.rx.bytes ∧ x.hello.head? = some 1 ∧
      (∃ fm vd, (fm, RawMsg.finished vd) ∈ x.msgs) ∧
      ∃ middle, c'.tx.log = c.tx.log ++ sentRecords ([plaintextRecord 22 [3, 1] x.hello] ++ middle ++
        [ciphertextRecord S (writeKey S secret) (writeIv S secret) n 22 (finishedMsg fin)]) := by
  obtain ⟨x, hx⟩ := open_session S hS cfg p v hf h
  obtain ⟨a, fm, vd, b, h1, _⟩ := hx.ending
  obtain ⟨binders, hh, _⟩ := hx.hello
  refine ⟨x, x.clientSecret S (cfg.psk.map (·.1)),
    verifyData S (x.clientSecret S (cfg.psk.map (·.1))) x.beforeFinished, x.clientMsgs.length, hx.received, hx.bytes, ?_,
    ⟨fm, vd, by rw [h1]; simp⟩,
    handshakeRecords S (writeKey S (x.clientSecret S (cfg.psk.map (·.1))))
      (writeIv S (x.clientSecret S (cfg.psk.map (·.1)))) 0 x.clientMsgs, ?_⟩
  · rw [hh]; rfl
  · rw [hx.sent, handshakeRecords_append, Nat.zero_add]
    rfl

/-! ## C42 -/

/-- An operation that never changes a part of the state. -/
def Keeps {ε σ α β : Type} (f : σ → β) (m : M ε σ α) : Prop := ∀ s, f (m s).2 = f s

namespace Keeps
variable {ε σ α β γ : Type} {f : σ → γ}

theorem bind {m : M ε σ α} {g : α → M ε σ β} (h : Keeps f m) (hg : ∀ a, Keeps f (g a)) : Keeps f (m >>= g) := by
  intro s
  have h1 := h s
  rcases hm : m s with ⟨r, s1⟩
  rw [hm] at h1
  cases r with
  | ok a => rw [M.bind_ok hm]; exact (hg a s1).trans h1
  | err e => rw [M.bind_err hm]; exact h1
  | panic => rw [M.bind_panic hm]; exact h1

theorem pure (a : α) : Keeps (ε := ε) f (Pure.pure a) := fun _ => rfl
theorem fail (e : ε) : Keeps f (M.fail e : M ε σ α) := fun _ => rfl
theorem crash : Keeps f (M.crash : M ε σ α) := fun _ => rfl
theorem lift (r : Res ε α) : Keeps f (M.lift r) := fun _ => rfl
theorem get : Keeps f (M.get : M ε σ σ) := fun _ => rfl

end Keeps

/-- The open flag during the handshake. -/
def HSt.openedFlag (s : HSt V) : Bool := s.c.opened

theorem keeps_onConn {α : Type} {m : M TlsError Conn α} (h : Keeps Conn.opened m) :
    Keeps HSt.openedFlag (onConn (V := V) m) := fun s => h s.c

theorem keeps_onKs {α : Type} (m : M TlsError KeySchedule α) : Keeps HSt.openedFlag (onKs (V := V) m) := fun _ => rfl

theorem keeps_modHs (f : HsData V → HsData V) : Keeps HSt.openedFlag (modHs f) := fun _ => rfl

theorem keeps_writeRecord (rec : ClientRecord) : Keeps Conn.opened (Conn.writeRecord S rec) := fun _ => rfl

theorem keeps_respond (bs : Bytes) : Keeps Conn.opened (respond bs) := by
  have h : ∀ {α : Type} (m : M TlsError WrHalf α), Keeps WrHalf.opened m → Keeps Conn.opened (onWr m) := fun m hm c => hm c.wr
  unfold respond
  exact (h _ fun _ => rfl).bind fun _ => (h _ fun _ => rfl).bind fun _ => h _ fun _ => rfl

theorem keeps_hsRead : Keeps HSt.openedFlag (onConn (V := V) (onRd (RdHalf.readRecord S))) :=
  keeps_onConn fun _ => rfl

theorem keeps_errorHandling {m : M TlsError (HSt V) State} (h : Keeps HSt.openedFlag m) :
    Keeps HSt.openedFlag (withErrorHandling S m) := by
  intro s
  unfold withErrorHandling
  have h1 := h s
  rcases hm : m s with ⟨r, s1⟩
  rw [hm] at h1
  simp only
  refine Eq.trans ?_ h1
  refine keeps_onConn ?_ s1
  unfold handleProcessingError
  split
  · exact (keeps_writeRecord S _).bind fun _ => (keeps_respond _).bind fun _ => Keeps.lift _
  · exact Keeps.lift _

theorem keeps_process (cfg : Config) (p : Provider V) (st : State) : Keeps HSt.openedFlag (process S cfg p st) := by
  cases st with
  | clientHello =>
    unfold process clientHello
    exact ((keeps_onKs _).bind fun _ => (keeps_onConn (keeps_writeRecord S _)).bind fun _ => (keeps_modHs _).bind
      fun _ => Keeps.pure _).bind fun _ => (keeps_onConn (keeps_respond _)).bind fun _ => Keeps.pure _
  | serverHello =>
    unfold process
    refine (keeps_hsRead S).bind fun rec => keeps_errorHandling S ?_
    unfold processServerHello
    split
    · refine Keeps.get.bind fun s => ?_
      split
      · exact Keeps.fail _
      · refine (keeps_modHs _).bind fun _ => ?_
        split
        · exact Keeps.fail _
        · exact (keeps_onKs _).bind fun _ => Keeps.pure _
    · exact Keeps.fail _
    · exact Keeps.fail _
    · exact Keeps.fail _
  | serverVerify =>
    unfold process
    refine (keeps_hsRead S).bind fun rec => keeps_errorHandling S fun s => rfl
  | clientCert =>
    unfold process clientCert
    refine Keeps.bind ?_ fun _ => (keeps_onConn (keeps_respond _)).bind fun _ => Keeps.pure _
    refine Keeps.get.bind fun s => (keeps_modHs _).bind fun _ => ?_
    split
    · exact Keeps.fail _
    · exact (keeps_onConn (keeps_writeRecord S _)).bind fun _ => Keeps.pure _
  | clientCertVerify =>
    unfold process clientCertVerify
    refine Keeps.bind ?_ fun _ => (keeps_onConn (keeps_respond _)).bind fun _ => Keeps.lift _
    refine Keeps.get.bind fun s => ?_
    split
    · exact Keeps.crash
    · simp only
      split
      · exact Keeps.fail _
      · split
        · exact Keeps.crash
        · split
          · exact Keeps.crash
          · exact (keeps_onConn (keeps_writeRecord S _)).bind fun _ => Keeps.pure _
    · exact (keeps_onConn (keeps_writeRecord S _)).bind fun _ => Keeps.pure _
  | clientFinished =>
    unfold process clientFinished clientFinishedFinalize
    refine (Keeps.get.bind fun s => (Keeps.lift _).bind fun _ => keeps_onConn (keeps_writeRecord S _)).bind fun _ =>
      (keeps_onConn (keeps_respond _)).bind fun _ => ?_
    refine Keeps.get.bind fun s => ?_
    split
    · exact Keeps.fail _
    · exact (keeps_modHs _).bind fun _ => (keeps_onKs _).bind fun _ => (keeps_onKs _).bind fun _ => Keeps.pure _
  | applicationData => exact Keeps.pure _

theorem keeps_openLoop (cfg : Config) (p : Provider V) (fuel : Nat) : ∀ st, Keeps HSt.openedFlag (openLoop S cfg p fuel st) := by
  induction fuel with
  | zero => intro st; exact Keeps.crash
  | succ fuel ih =>
    intro st
    unfold openLoop
    split
    · exact Keeps.pure _
    · exact (keeps_process S cfg p st).bind fun st' => ih st'

/-- The flag is only raised by an `open` that returns Ok. -/
theorem open_opened (cfg : Config) (p : Provider V) (v : V) (c : Conn) :
    ((Conn.open_ S cfg p v c).1 = .ok () ∧ (Conn.open_ S cfg p v c).2.opened = true) ∨
      ((Conn.open_ S cfg p v c).1 ≠ .ok () ∧ (Conn.open_ S cfg p v c).2.opened = c.opened) := by
  unfold Conn.open_
  rcases ho : openSt S cfg p ⟨c, ⟨none, none, none, v⟩⟩ with ⟨r, s'⟩
  simp only
  unfold openSt at ho
  have hset : Keeps HSt.openedFlag (setHostname cfg p) := by
    intro s
    unfold setHostname
    cases p.verifier with
    | none => rfl
    | some ops => cases cfg.serverName <;> rfl
  rcases h1 : setHostname cfg p ⟨c, ⟨none, none, none, v⟩⟩ with ⟨r1, s1⟩
  have k1 := hset ⟨c, ⟨none, none, none, v⟩⟩
  rw [h1] at k1
  simp only [HSt.openedFlag] at k1
  cases r1 with
  | err e => rw [M.bind_err h1] at ho; cases ho; exact .inr ⟨by simp, k1⟩
  | panic => rw [M.bind_panic h1] at ho; cases ho; exact .inr ⟨by simp, k1⟩
  | ok u =>
    rw [M.bind_ok h1, M.get_bind] at ho
    rcases h2 : openLoop S cfg p (s1.c.rx.size + 8) .clientHello s1 with ⟨r2, s2⟩
    have k2 := keeps_openLoop S cfg p (s1.c.rx.size + 8) .clientHello s1
    rw [h2] at k2
    simp only [HSt.openedFlag] at k2
    cases r2 with
    | err e => rw [M.bind_err h2] at ho; cases ho; exact .inr ⟨by simp, k2.trans k1⟩
    | panic => rw [M.bind_panic h2] at ho; cases ho; exact .inr ⟨by simp, k2.trans k1⟩
    | ok u =>
      rw [M.bind_ok h2] at ho
      simp only [M.modify_apply, Prod.mk.injEq] at ho
      rw [← ho.2, ← ho.1]
      exact .inl ⟨rfl, rfl⟩

/-- **C42** If `open` on a connection that is not open returns an error, the connection is still not open; and from
then on, whatever is called on it, in whatever order, every read and write reports the missing handshake. -/
theorem C42_failed_open (cfg : Config) (p : Provider V) (v : V) (c c' : Conn) (hc : c.opened = false) (e : TlsError)
    (h : Conn.open_ S cfg p v c = (.err e, c')) :
    c'.opened = false ∧ (∀ bs, Conn.write S bs c' = (.err .missingHandshake, c')) ∧
    (∀ n, 0 < n → Conn.read S n c' = (.err .missingHandshake, c')) ∧
    Conn.fillBuf S c' = (.err .missingHandshake, c') ∧
    ∀ ops, (runAny S ops c').2.opened = false ∧ List.Forall₂ Refused ops (runAny S ops c').1 := by
  have ho : c'.opened = false := by
    have := open_opened S cfg p v c
    rw [h] at this
    rcases this with ⟨h1, _⟩ | ⟨_, h1⟩
    · simp at h1
    · exact h1.trans hc
  obtain ⟨a1, a2, _, a3, _⟩ := C13_not_open S c' ho
  exact ⟨ho, a1, a2, a3, fun ops => C28_final S ops c' ho⟩

set_option maxRecDepth 10000 in
example : (exNew 400 [.data (exServer exCfg exSH [[exEE, exEE]])]).opened = false ∧
    (Conn.open_ toySuite exCfg exProv () (exNew 400 [.data (exServer exCfg exSH [[exEE, exEE]])])).1 =
      .err .ioError := by
  decide +kernel

set_option maxRecDepth 10000 in
example : (process toySuite exCfg exProv .clientHello ⟨exNew 400 [], ⟨none, none, none, ()⟩⟩).1 = .ok .serverHello := by
  decide +kernel

end ETls
