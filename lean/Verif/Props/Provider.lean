import Verif.Model.Provider
import Verif.Props.HonestServer
import Verif.Props.OpenPanics

/-! # C70, C71: the providers of the crate, and client authentication that fails -/

namespace ETls

variable (S : Suite) {V : Type}
open Spec

/-! ## C70: no verification -/

/-- The provider `p` with another verifier. -/
def Provider.withVerifier (p : Provider V) (o : Option (VerifierOps V)) : Provider V := { p with verifier := o }

/-- A provider's steps depend on the verifier only through its two calls. -/
theorem process_noVerify (cfg : Config) (p : Provider V) (st : State) :
    process S cfg (p.withVerifier (some noVerify)) st = process S cfg (p.withVerifier none) st := by
  have hh : serverVerifyHandler S (p.withVerifier (some noVerify)) =
      serverVerifyHandler S (p.withVerifier none) := by
    funext rec
    cases rec with
    | handshake h =>
      cases h with
      | certificate c => rfl
      | certificateVerify v => rfl
      | _ => rfl
    | _ => rfl
  cases st with
  | serverVerify =>
    unfold process processServerVerify
    rw [hh]
  | _ => rfl

theorem openLoop_noVerify (cfg : Config) (p : Provider V) (n : Nat) : ∀ (st : State) (s : HSt V),
    openLoop S cfg (p.withVerifier (some noVerify)) n st s = openLoop S cfg (p.withVerifier none) n st s := by
  induction n with
  | zero => intro st s; rfl
  | succ n ih =>
    intro st s
    unfold openLoop
    split
    · rfl
    · have : (fun st' => openLoop S cfg (p.withVerifier (some noVerify)) n st') =
          fun st' => openLoop S cfg (p.withVerifier none) n st' := funext fun st' => funext fun s' => ih st' s'
      rw [process_noVerify, this]

/-- **C70, `NoVerify`** A provider whose verifier is `NoVerify` behaves exactly like one without verifier: same result, same
bytes sent and same connection, whatever the server sends and however the transport behaves. -/
theorem C70_noVerify (cfg : Config) (p : Provider V) (v : V) (c : Conn) :
    Conn.open_ S cfg (p.withVerifier (some noVerify)) v c = Conn.open_ S cfg (p.withVerifier none) v c := by
  have h1 : ∀ s : HSt V, setHostname cfg (p.withVerifier (some noVerify)) s = (.ok (), s) := by
    intro s
    unfold setHostname
    cases cfg.serverName <;> rfl
  have h2 : ∀ s : HSt V, setHostname cfg (p.withVerifier none) s = (.ok (), s) := fun s => rfl
  unfold Conn.open_ openSt
  rw [M.bind_ok (h1 _), M.bind_ok (h2 _), M.get_bind, M.get_bind]
  simp only
  rw [M.bind_def, M.bind_def, openLoop_noVerify]

/-- The connection `c` gets to read a conforming flight `x` (and `rest` after it) that the decoder and the verifier accept,
over a transport without failures and with buffers that are large enough. -/
structure Serves (cfg : Config) (p : Provider V) (v : V) (c : Conn) (x : ServerFlight) (rest : Bytes) : Prop where
  fresh : c.Fresh S
  clean : c.rx.Clean
  reliable : Reliable c.tx
  conforming : x.Conforming S (cfg.psk.map (·.1)) (helloMsg S cfg p) p.secret
  accepted : ∀ r ∈ x.sh :: x.msgs, Accepted S r
  host : ∀ ops name, p.verifier = some ops → cfg.serverName = some name → ∃ v', ops.setHostname name v = (.ok (), v')
  verified : ∀ ops, p.verifier = some ops → ∃ v',
    verifierRun ops (x.tr0 (helloMsg S cfg p)) (withBytes x.msgs) (hostVst cfg p v) = (.ok (), v')
  helloFits : 5 + helloLength S cfg p ≤ c.wb.buffer.length
  finishedFits : S.hashLen + 26 ≤ c.wb.buffer.length
  serverHelloFits : x.sh.bytes.length ≤ c.rr.buf.length
  recordsFit : ∀ r ∈ x.records, r.size ≤ c.rr.buf.length
  count : x.records.length < 2 ^ 64
  bytes : c.rx.bytes = x.bytes S (cfg.psk.map (·.1)) (helloMsg S cfg p) ++ rest

/-- **C70, `UnsecureProvider`** With `UnsecureProvider` every conforming server is accepted, with whatever Certificate and
CertificateVerify it sends or without any, as long as it does not ask for a certificate the client has no key for: the
provider authenticates nobody. -/
theorem C70_unsecure (hS : S.Lawful) (L : P256Lib) (hL : L.Lawful) (cfg : Config) (u : UnsecureProvider) (v : V) {c : Conn}
    (x : ServerFlight) {rest : Bytes}
    (hf : c.Fresh S) (hclean : c.rx.Clean) (hrel : Reliable c.tx)
    (hx : x.Conforming S (cfg.psk.map (·.1)) (helloMsg S cfg (u.provider (V := V) L)) u.secret)
    (hacc : ∀ r ∈ x.sh :: x.msgs, Accepted S r)
    {ms : List Bytes}
    (hms : clientReply S (u.provider (V := V) L) (x.transcript S (cfg.psk.map (·.1)) (helloMsg S cfg (u.provider (V := V) L)))
      (lastRequest (withBytes x.msgs)) = some ms)
    (hfh : 5 + helloLength S cfg (u.provider (V := V) L) ≤ c.wb.buffer.length) (hff : S.hashLen + 26 ≤ c.wb.buffer.length)
    (hfm : ∀ m ∈ ms, m.length + 22 ≤ c.wb.buffer.length)
    (hfs : x.sh.bytes.length ≤ c.rr.buf.length) (hfr : ∀ r ∈ x.records, r.size ≤ c.rr.buf.length)
    (hcnt : x.records.length < 2 ^ 64)
    (hb : c.rx.bytes = x.bytes S (cfg.psk.map (·.1)) (helloMsg S cfg (u.provider (V := V) L)) ++ rest) :
    ∃ c', Conn.open_ S cfg (u.provider L) v c = (.ok (), c') ∧ c'.opened = true ∧ c'.rx.bytes = rest := by
  obtain ⟨c', h1, h2, h3, _⟩ := C46_honest_server_partial S hS cfg (u.provider L) v hf hclean hrel x hx hacc
    (fun _ _ h => by cases h) (fun _ h => by cases h) hms
    (by
      intro sign scheme h m sig hm
      simp only [UnsecureProvider.provider, UnsecureProvider.signer] at h
      split at h
      · cases h
      · split at h
        · cases h
        · next key _ =>
          cases h
          obtain ⟨sig', k1, k2⟩ := hL.sign key m
          rw [hm] at k1
          cases k1
          unfold signatureSize
          split <;> omega)
    hfh hff hfm hfs hfr hcnt hb
  exact ⟨c', h1, h2, h3⟩

/-- **C70, default methods** A provider that only has a generator (all other methods being the defaults of the trait)
accepts every conforming server; a request for a certificate is answered with an empty list. -/
theorem C70_default (hS : S.Lawful) (cfg : Config) (random secret : Bytes) (v : V) {c : Conn} {x : ServerFlight} {rest : Bytes}
    (h : Serves S cfg (defaultProvider random secret) v c x rest)
    (hfit : ∀ ctx, lastRequest (withBytes x.msgs) = some ctx → (certificateMsg ctx []).length + 22 ≤ c.wb.buffer.length) :
    ∃ c', Conn.open_ S cfg (defaultProvider random secret) v c = (.ok (), c') ∧ c'.opened = true ∧ c'.rx.bytes = rest := by
  cases hr : lastRequest (withBytes x.msgs) with
  | none =>
    obtain ⟨c', h1, h2, h3, _⟩ := C46_honest_server_partial S hS cfg (defaultProvider random secret) v h.fresh h.clean
      h.reliable x h.conforming h.accepted h.host h.verified (ms := []) (by rw [hr]; rfl) (fun _ _ k => by cases k) h.helloFits
      h.finishedFits (by simp) h.serverHelloFits h.recordsFit h.count h.bytes
    exact ⟨c', h1, h2, h3⟩
  | some ctx =>
    obtain ⟨c', h1, h2, h3, _⟩ := C46_honest_server_partial S hS cfg (defaultProvider random secret) v h.fresh h.clean
      h.reliable x h.conforming h.accepted h.host h.verified (ms := [certificateMsg ctx []]) (by rw [hr]; rfl)
      (fun _ _ k => by cases k) h.helloFits
      h.finishedFits (by simpa using hfit ctx hr) h.serverHelloFits h.recordsFit h.count h.bytes
    exact ⟨c', h1, h2, h3⟩

/-! ## C71: client authentication that fails -/

theorem openLoop_err (cfg : Config) (p : Provider V) {fuel : Nat} {st : State} {s s1 : HSt V} {e : TlsError}
    (hne : st ≠ .applicationData) (h : process S cfg p st s = (.err e, s1)) :
    openLoop S cfg p (fuel + 1) st s = (.err e, s1) := by
  unfold openLoop
  rw [if_neg hne]
  exact M.bind_err h

theorem openLoop_panic (cfg : Config) (p : Provider V) {fuel : Nat} {st : State} {s s1 : HSt V}
    (hne : st ≠ .applicationData) (h : process S cfg p st s = (.panic, s1)) :
    openLoop S cfg p (fuel + 1) st s = (.panic, s1) := by
  unfold openLoop
  rw [if_neg hne]
  exact M.bind_panic h

/-- A provider without signer: a close_notify alert is sent and the error returned. -/
theorem step_noSigner_fwd (hS : S.Lawful) (cfg : Config) (p : Provider V) (s : HSt V) {e : TlsError}
    (hi : s.c.wb.Idle) (hL : 24 ≤ s.c.wb.buffer.length) (hiv : s.c.ks.client.st.iv.length = S.ivLen)
    (hr : Reliable s.c.tx) (hcnt : s.c.ks.client.st.counter + 1 < 2 ^ 64) (hsig : p.signer = .err e) :
    ∃ s', process S cfg p .clientCertVerify s = (.err e, s') ∧
      s'.c.tx.log = s.c.tx.log ++ [.wrote (ciphertextRecord S s.c.ks.client.st.key s.c.ks.client.st.iv
        s.c.ks.client.st.counter 21 (alertMsg 1 0)), .flushed] ∧ s'.c.opened = s.c.opened ∧ s'.c.rx = s.c.rx := by
  obtain ⟨wb, h1, h2, h3⟩ := writeRecord_ok S hS (.alert ⟨.warning, .closeNotify⟩ true) s.c.ks.client s.c.wb (alertMsg 1 0)
    s.c.ks.server.transcript _ _ hi (by omega) (alert_appends ⟨.warning, .closeNotify⟩) (finishes_alert S _ _ _ _ _)
    (by simpa [recordRoom, ClientRecord.header, ClientRecordHeader.isEncrypted, alertMsg] using hL)
  obtain ⟨ctl, h4, h5⟩ := respond_fwd (c := s.c.wrote wb s.c.ks.server.transcript)
    (bytes := recordBytes S s.c.ks.client (ClientRecord.alert ⟨.warning, .closeNotify⟩ true).header (alertMsg 1 0)) hcnt hr
  simp only [process]
  have hcc : clientCertVerify S p s = (.ok (.err e, recordBytes S s.c.ks.client
      (ClientRecord.alert ⟨.warning, .closeNotify⟩ true).header (alertMsg 1 0)), ⟨s.c.wrote wb s.c.ks.server.transcript, s.h⟩) := by
    unfold clientCertVerify
    rw [M.get_bind]
    simp only [hsig]
    rw [M.bind_ok (onConn_ok (Conn.writeRecord_of S h1))]
    rfl
  rw [M.bind_ok hcc]
  simp only
  rw [M.bind_ok (onConn_ok h5)]
  refine ⟨_, rfl, ?_, rfl, rfl⟩
  rw [recordBytes_spec S hS _ hiv _ rfl]
  rfl

/-- **C71, no signer** If a conforming server asks for a certificate and the client has one but no signer for it, `open`
returns the error of the signer; the client has sent its ClientHello, its Certificate and a protected close_notify alert,
and no Finished. -/
theorem C71_no_signer (hS : S.Lawful) (cfg : Config) (p : Provider V) (v : V) {c : Conn} {x : ServerFlight} {rest : Bytes}
    (h : Serves S cfg p v c x rest) {ctx cert : Bytes} {e : TlsError} (hreq : lastRequest (withBytes x.msgs) = some ctx)
    (hcert : p.clientCert = some (.x509 cert)) (hsig : p.signer = .err e)
    (hfit : (certificateMsg ctx [cert]).length + 22 ≤ c.wb.buffer.length) :
    ∃ c', Conn.open_ S cfg p v c = (.err e, c') ∧
      (∃ secret, secret = clientHandshakeTraffic S (cfg.psk.map (·.1)) x.dhe (x.tr0 (helloMsg S cfg p)) ∧
        c'.tx.log = c.tx.log ++ sentRecords (plaintextRecord 22 [3, 1] (helloMsg S cfg p) ::
          ciphertextRecords S (writeKey S secret) (writeIv S secret) 0 [(22, certificateMsg ctx [cert]), (21, [1, 0])])) := by
  obtain ⟨s, st, extra, v', a1, a2, a3, a4, a5, a6, a7, a8, a9, _⟩ := honest_flight S hS cfg p v h.fresh h.clean
    h.reliable x h.conforming h.accepted h.verified h.helloFits h.serverHelloFits h.recordsFit h.count h.bytes
  rw [hreq] at a2
  simp only [afterFlight, Prod.mk.injEq] at a2
  obtain ⟨hh, rfl⟩ := a2
  have hiv := trafficState_iv S hS (clientHandshakeTraffic S (cfg.psk.map (·.1)) x.dhe (x.tr0 (helloMsg S cfg p)))
  have hL5 := h.fresh.room
  obtain ⟨wb, ctl, w1, w2, w3, w4⟩ := step_clientCert_fwd S hS cfg p s (ctx := ctx) (certs := [cert]) a3 (by rw [a4]; exact hL5)
    (by rw [a7]; exact hiv) a5 (by rw [a7]; exact (by decide : 0 + 1 < 2 ^ 64)) (by rw [hh]) (by rw [hcert]; rfl)
    (by rw [a4]; exact hfit)
  rw [hcert] at w4
  obtain ⟨s', u1, u2, _⟩ := step_noSigner_fwd S hS cfg p
    ⟨s.c.sent wb ctl (s.c.ks.server.transcript ++ certificateMsg ctx [cert])
        (ciphertextRecord S s.c.ks.client.st.key s.c.ks.client.st.iv s.c.ks.client.st.counter 22
          (certificateMsg ctx [cert])), { s.h with trafficHash := some s.c.ks.server.transcript }⟩ w1
    (by simp only [w2, a4]; have := h.finishedFits; omega)
    (by simp only [WriteKS.next, a7]; exact hiv) w3 (by simp only [WriteKS.next, a7]; exact (by decide : 0 + 1 + 1 < 2 ^ 64)) hsig
  refine ⟨s'.c, open_of_loop_err S cfg p v h.host (a1.trans ((openLoop_step S cfg p (by simp) w4).trans
    (openLoop_err S cfg p (by simp [nextAfterCert]) u1))), _, rfl, ?_⟩
  rw [u2]
  simp [a6, a7, sentRecords, ciphertextRecords, trafficState, WriteKS.next, alertMsg]

/-- **C71, the signer fails** If a conforming server asks for a certificate, the client has one, and its signer fails (or
signs with more bytes than the crate reserves), `open` panics. -/
theorem C71_signer_fails (hS : S.Lawful) (cfg : Config) (p : Provider V) (v : V) {c : Conn} {x : ServerFlight} {rest : Bytes}
    (h : Serves S cfg p v c x rest) {ctx cert : Bytes} {sign : Bytes → Option Bytes} {scheme : SignatureScheme}
    (hreq : lastRequest (withBytes x.msgs) = some ctx)
    (hcert : p.clientCert = some (.x509 cert)) (hsig : p.signer = .ok (sign, scheme))
    (hbad : ∀ sig, sign (clientSigned S (x.transcript S (cfg.psk.map (·.1)) (helloMsg S cfg p) ++ certificateMsg ctx [cert])) =
      some sig → (if S.rsa then 512 else 104) < sig.length)
    (hfit : (certificateMsg ctx [cert]).length + 22 ≤ c.wb.buffer.length) :
    (Conn.open_ S cfg p v c).1 = .panic := by
  obtain ⟨s, st, extra, v', a1, a2, a3, a4, a5, a6, a7, a8, a9, _⟩ := honest_flight S hS cfg p v h.fresh h.clean
    h.reliable x h.conforming h.accepted h.verified h.helloFits h.serverHelloFits h.recordsFit h.count h.bytes
  rw [hreq] at a2
  simp only [afterFlight, Prod.mk.injEq] at a2
  obtain ⟨hh, rfl⟩ := a2
  have hiv := trafficState_iv S hS (clientHandshakeTraffic S (cfg.psk.map (·.1)) x.dhe (x.tr0 (helloMsg S cfg p)))
  have hL5 := h.fresh.room
  obtain ⟨wb, ctl, w1, w2, w3, w4⟩ := step_clientCert_fwd S hS cfg p s (ctx := ctx) (certs := [cert]) a3 (by rw [a4]; exact hL5)
    (by rw [a7]; exact hiv) a5 (by rw [a7]; exact (by decide : 0 + 1 < 2 ^ 64)) (by rw [hh]) (by rw [hcert]; rfl)
    (by rw [a4]; exact hfit)
  rw [hcert] at w4
  generalize hs1 : (⟨s.c.sent wb ctl (s.c.ks.server.transcript ++ certificateMsg ctx [cert])
        (ciphertextRecord S s.c.ks.client.st.key s.c.ks.client.st.iv s.c.ks.client.st.counter 22
          (certificateMsg ctx [cert])), { s.h with trafficHash := some s.c.ks.server.transcript }⟩ : HSt V) = s1 at w4
  have htr : s1.c.ks.server.transcript = x.transcript S (cfg.psk.map (·.1)) (helloMsg S cfg p) ++ certificateMsg ctx [cert] := by
    rw [← hs1, ← a9]
  have hsg : clientSignedContent S s1.c.ks.server.transcript =
      clientSigned S (x.transcript S (cfg.psk.map (·.1)) (helloMsg S cfg p) ++ certificateMsg ctx [cert]) := by
    rw [htr]
    simp [clientSignedContent, clientSigned]
  have hlen : (clientSignedContent S s1.c.ks.server.transcript).length ≤ 146 := by
    have h0 : (ascii "TLS 1.3, client CertificateVerify").length = 33 := by decide
    have := hS.hashLen_le
    simp only [clientSignedContent, List.length_append, List.length_replicate, h0, List.length_cons, List.length_nil,
      hS.hash_length]
    omega
  have hcv : clientCertVerify S p s1 = (.panic, s1) := by
    unfold clientCertVerify
    rw [M.get_bind]
    simp only [hsig]
    rw [if_neg (by omega), hsg]
    cases hs : sign (clientSigned S (x.transcript S (cfg.psk.map (·.1)) (helloMsg S cfg p) ++ certificateMsg ctx [cert])) with
    | none => rfl
    | some sig =>
      have := hbad sig hs
      simp only
      rw [if_pos (by unfold signatureSize; omega)]
      rfl
  have hpr : process S cfg p .clientCertVerify s1 = (.panic, s1) := by
    simp only [process]
    rw [M.bind_panic hcv]
  rw [open_of_loop_panic S cfg p v h.host (a1.trans ((openLoop_step S cfg p (by simp) w4).trans
    (openLoop_panic S cfg p (by simp [nextAfterCert]) hpr)))]

/-- **C71, `UnsecureProvider`** With `UnsecureProvider`, a certificate, and a private key that is missing or is not the DER
form of a P-256 key, a server that asks for the certificate gets `open` to fail with InvalidPrivateKey. -/
theorem C71_unsecure (hS : S.Lawful) (L : P256Lib) (cfg : Config) (u : UnsecureProvider) (v : V) {c : Conn}
    {x : ServerFlight} {rest : Bytes} (h : Serves S cfg (u.provider L) v c x rest) {ctx cert : Bytes}
    (hreq : lastRequest (withBytes x.msgs) = some ctx) (hcert : u.clientCert = some (.x509 cert))
    (hkey : ∀ der, u.privKey = some der → L.fromSec1Der der = none)
    (hfit : (certificateMsg ctx [cert]).length + 22 ≤ c.wb.buffer.length) :
    (Conn.open_ S cfg (u.provider L) v c).1 = .err .invalidPrivateKey := by
  obtain ⟨c', h1, _⟩ := C71_no_signer S hS cfg (u.provider L) v h hreq hcert (e := .invalidPrivateKey)
    (by
      simp only [UnsecureProvider.provider, UnsecureProvider.signer]
      cases hk : u.privKey with
      | none => rfl
      | some der => simp only [hkey der hk]) hfit
  rw [h1]

/-- **C71, default signer** With a provider that overrides `client_cert` but not `signer`, a server that asks for the
certificate gets `open` to fail with Unimplemented. -/
theorem C71_default (hS : S.Lawful) (cfg : Config) (random secret : Bytes) (v : V) {c : Conn} {x : ServerFlight}
    {rest ctx cert : Bytes}
    (h : Serves S cfg { defaultProvider random secret with clientCert := some (.x509 cert) } v c x rest)
    (hreq : lastRequest (withBytes x.msgs) = some ctx)
    (hfit : (certificateMsg ctx [cert]).length + 22 ≤ c.wb.buffer.length) :
    (Conn.open_ S cfg { defaultProvider random secret with clientCert := some (.x509 cert) } v c).1 =
      .err .unimplemented := by
  obtain ⟨c', h1, _⟩ := C71_no_signer S hS cfg _ v h hreq rfl (e := .unimplemented) rfl hfit
  rw [h1]

/-- A call of a builder method of `UnsecureProvider`. -/
inductive ProviderCall where
  | withPrivKey (key : Bytes)
  | withCert (cert : CertEntry)

/-- What the call makes of a provider. -/
def ProviderCall.apply (u : UnsecureProvider) : ProviderCall → UnsecureProvider
  | .withPrivKey key => u.withPrivKey key
  | .withCert cert => u.withCert cert

/-- The key that a call gives. -/
def ProviderCall.key? : ProviderCall → Option Bytes
  | .withPrivKey key => some key
  | .withCert _ => none

/-- The certificate that a call gives. -/
def ProviderCall.cert? : ProviderCall → Option CertEntry
  | .withPrivKey _ => none
  | .withCert cert => some cert

theorem ProviderCall.foldl_eq (calls : List ProviderCall) : ∀ u : UnsecureProvider,
    calls.foldl ProviderCall.apply u = ⟨u.random, u.secret, ((calls.filterMap ProviderCall.key?).getLast?).or u.privKey,
      ((calls.filterMap ProviderCall.cert?).getLast?).or u.clientCert⟩ := by
  induction calls with
  | nil => intro u; rfl
  | cons x xs ih =>
    intro u
    rw [List.foldl_cons, ih]
    cases x <;>
      simp [ProviderCall.apply, ProviderCall.key?, ProviderCall.cert?, UnsecureProvider.withPrivKey, UnsecureProvider.withCert,
        List.getLast?_cons, List.filterMap_cons]

/-- **C71, building `UnsecureProvider`** Whatever the order of the builder calls: what is drawn from the generator stays, the
key is the last key given, and the certificate the last certificate given. -/
theorem C71_builder (random secret : Bytes) (calls : List ProviderCall) :
    calls.foldl ProviderCall.apply (UnsecureProvider.new random secret) =
      ⟨random, secret, (calls.filterMap ProviderCall.key?).getLast?, (calls.filterMap ProviderCall.cert?).getLast?⟩ := by
  rw [ProviderCall.foldl_eq]
  simp [UnsecureProvider.new]

example : [ProviderCall.withCert (.x509 [5]), .withPrivKey [1], .withCert (.x509 [6])].foldl ProviderCall.apply
    (UnsecureProvider.new [7] [8]) = ⟨[7], [8], some [1], some (.x509 [6])⟩ := C71_builder _ _ _

/-- **C66, `UnsecureProvider`** With `UnsecureProvider` and no raw public key, `open` panics only if the server sends an
empty inner plaintext. -/
theorem C66_unsecure_partial (hS : S.Lawful) (L : P256Lib) (hL : L.Lawful) (cfg : Config) (u : UnsecureProvider) (v : V)
    {c : Conn} (hf : c.Fresh S) (hsize : c.rx.bytes.length < 2 ^ 64) (hraw : ∀ key, u.clientCert ≠ some (.rawPublicKey key))
    (h : (Conn.open_ S cfg (u.provider L) v c).1 = .panic) : EmptyRecord S cfg (u.provider (V := V) L) c := by
  refine C66_without_verifier_partial S hS cfg (u.provider L) v hf hsize rfl hraw ?_ ?_ h
  · simp only [UnsecureProvider.provider, UnsecureProvider.signer]
    split
    · simp
    · split <;> simp
  · intro sign scheme m hs
    simp only [UnsecureProvider.provider, UnsecureProvider.signer] at hs
    split at hs
    · cases hs
    · split at hs
      · cases hs
      · next key _ =>
        cases hs
        obtain ⟨sig, k1, k2⟩ := hL.sign key m
        exact ⟨sig, k1, by omega⟩

/-! ## Examples -/

/-- A toy P-256: the only key is `[1]`, and signatures have 70 bytes. -/
def toyP256 : P256Lib where
  Key := Unit
  fromSec1Der := fun der => if der = [1] then some () else none
  sign := fun _ m => some (m.take 1 ++ List.replicate 69 2)

theorem toyP256_lawful : toyP256.Lawful :=
  ⟨fun _ m => ⟨_, rfl, by simp only [List.length_append, List.length_replicate, List.length_take]; omega⟩⟩

/-- `UnsecureProvider` with the generator of the examples and a certificate. -/
def exUnsecure (key : Option Bytes) : UnsecureProvider := ⟨exProv.random, exProv.secret, key, some (.x509 [5, 6])⟩

/-- A transport that delivers the flight `exFlight`, which asks for a certificate. -/
def exAsking : Conn := exNew 400 [.data (exFlight.bytes toySuite none (helloMsg toySuite exCfg exProv))]

set_option maxRecDepth 10000 in
theorem exAsking_serves (p : Provider Unit) (h1 : p.random = exProv.random) (h2 : p.secret = exProv.secret)
    (h3 : p.verifier = none) : Serves toySuite exCfg p () exAsking exFlight [] where
  fresh := exNew_fresh _ _ (by decide)
  clean := by
    intro e he
    rw [exAsking, exNew, List.mem_singleton] at he
    exact ⟨_, by decide +kernel, he⟩
  reliable := by intro a ha; cases ha
  conforming := by
    have := exFlight_conforming
    have hh : helloMsg toySuite exCfg p = helloMsg toySuite exCfg exProv := by
      unfold helloMsg helloBinder
      rw [h1, h2]
    rw [hh, h2]
    exact this
  accepted := by
    intro r hr
    simp only [exFlight, List.mem_cons, List.not_mem_nil, or_false] at hr
    rcases hr with rfl | rfl | rfl
    · exact ⟨_, rfl⟩
    · exact ⟨_, rfl⟩
    · exact ⟨_, rfl⟩
  host := by intro ops name h; rw [h3] at h; cases h
  verified := by intro ops h; rw [h3] at h; cases h
  helloFits := by
    have : helloLength toySuite exCfg p = helloLength toySuite exCfg exProv := by
      unfold helloLength
      rw [h1, h2]
    rw [this]
    decide +kernel
  finishedFits := by decide +kernel
  serverHelloFits := by decide +kernel
  recordsFit := by decide +kernel
  count := by decide
  bytes := by
    have hh : helloMsg toySuite exCfg p = helloMsg toySuite exCfg exProv := by
      unfold helloMsg helloBinder
      rw [h1, h2]
    rw [hh]
    rfl

-- C71_unsecure: no key, and a key that does not parse
set_option maxRecDepth 10000 in
example : (Conn.open_ toySuite exCfg ((exUnsecure none).provider toyP256) () exAsking).1 = .err .invalidPrivateKey :=
  C71_unsecure toySuite toySuite_lawful toyP256 exCfg (exUnsecure none) () (exAsking_serves _ rfl rfl rfl) (ctx := [7, 8]) rfl rfl
    (by intro der h; cases h) (by decide +kernel)

set_option maxRecDepth 10000 in
example : (Conn.open_ toySuite exCfg ((exUnsecure (some [2])).provider toyP256) () exAsking).1 = .err .invalidPrivateKey :=
  C71_unsecure toySuite toySuite_lawful toyP256 exCfg (exUnsecure (some [2])) () (exAsking_serves _ rfl rfl rfl) (ctx := [7, 8]) rfl rfl
    (by intro der h; cases h; rfl) (by decide +kernel)

-- C71_default
set_option maxRecDepth 10000 in
example : (Conn.open_ toySuite exCfg { defaultProvider exProv.random exProv.secret with clientCert := some (.x509 [5, 6]) } ()
    exAsking).1 = .err .unimplemented :=
  C71_default toySuite toySuite_lawful exCfg exProv.random exProv.secret () (exAsking_serves _ rfl rfl rfl) (ctx := [7, 8]) rfl
    (by decide +kernel)

-- C71_signer_fails: a signer that fails
set_option maxRecDepth 10000 in
example : (Conn.open_ toySuite exCfg ⟨exProv.random, exProv.secret, none, .ok (fun _ => none, .ed25519), some (.x509 [5, 6])⟩ ()
    exAsking).1 = .panic :=
  C71_signer_fails toySuite toySuite_lawful exCfg _ () (exAsking_serves _ rfl rfl rfl) (ctx := [7, 8]) rfl rfl rfl
    (by intro sig h; cases h) (by decide +kernel)

-- C70_unsecure: with the key the same server is accepted
set_option maxRecDepth 10000 in
example : ∃ c', Conn.open_ toySuite exCfg ((exUnsecure (some [1])).provider toyP256) () exAsking = (.ok (), c') := by
  have h : Serves toySuite exCfg ((exUnsecure (some [1])).provider toyP256) () exAsking exFlight [] :=
    exAsking_serves _ rfl rfl rfl
  obtain ⟨c', h1, _⟩ := C70_unsecure toySuite toySuite_lawful toyP256 toyP256_lawful exCfg (exUnsecure (some [1])) ()
    exFlight h.fresh h.clean h.reliable h.conforming h.accepted rfl h.helloFits h.finishedFits (by decide +kernel)
    h.serverHelloFits h.recordsFit h.count h.bytes
  exact ⟨c', h1⟩

-- C70_default
set_option maxRecDepth 10000 in
example : ∃ c', Conn.open_ toySuite exCfg (defaultProvider exProv.random exProv.secret) () exAsking = (.ok (), c') := by
  obtain ⟨c', h1, _⟩ := C70_default toySuite toySuite_lawful exCfg exProv.random exProv.secret () (exAsking_serves _ rfl rfl rfl)
    (by intro ctx h; cases h; decide +kernel)
  exact ⟨c', h1⟩

-- `UnsecureProvider` accepts a server whose certificate is for another host and whose CertificateVerify is not a signature
set_option maxRecDepth 20000 in
example : (Conn.open_ toySuite exCfg ((exUnsecure none).provider toyP256) () (exNew 600 [.data (exServer exCfg exSH
    [[exEE, .msg (exCertMsg [toyCert 2 3 10 50 "" ["example.org"]])], [.msg (.certificateVerify 0x0403 []), .finished]])])).1 =
      .ok () := by decide +kernel

-- with `NoClock` the native verifier accepts a certificate that has expired (at 15; the clock of the examples is at 20)
set_option maxRecDepth 10000 in
example : exAuthOpen toyNative (exAuthFlight [toyCert 1 3 10 15 "" ["example.com"]]) = .err .invalidCertificate ∧
    exAuthOpen (pkiOps toyPki toySuite allFeatures noClock 1000) (exAuthFlight [toyCert 1 3 10 15 "" ["example.com"]]) = .ok () := by
  decide +kernel

end ETls
