import Verif.Proofs.HandshakeFwd

/-! # A whole handshake that succeeds -/

namespace ETls

variable (S : Suite) {V : Type}
open Spec

/-! ## The ClientHello is determined by the configuration -/

/-- The PSK binder of the ClientHello of `cfg` (all binders are the same, and the truncated ClientHello does not
contain them). -/
def helloBinder (cfg : Config) (p : Provider V) : Bytes :=
  verifyData S (binderKey S (cfg.psk.map (·.1)))
    (expectedHello cfg S.codePoint p.random (S.pubKey p.secret)
      (List.replicate cfg.identities (List.replicate S.hashLen 0))).truncated

/-- The ClientHello message sent with `cfg`. -/
def helloMsg (cfg : Config) (p : Provider V) : Bytes :=
  (expectedHello cfg S.codePoint p.random (S.pubKey p.secret)
    (List.replicate cfg.identities (helloBinder S cfg p))).bytes

/-- `Truncate(ClientHello)` does not depend on the binders. -/
theorem truncated_eq (cfg : Config) (random secret : Bytes) (a b : List Bytes) (ha : ∀ x ∈ a, x.length = S.hashLen)
    (hb : ∀ x ∈ b, x.length = S.hashLen) (hla : a.length = cfg.identities) (hlb : b.length = cfg.identities) :
    (expectedHello cfg S.codePoint random (S.pubKey secret) a).truncated =
      (expectedHello cfg S.codePoint random (S.pubKey secret) b).truncated := by
  have hflat : ∀ c : List Bytes, (∀ x ∈ c, x.length = S.hashLen) → (c.flatMap vec8).length = c.length * (1 + S.hashLen) := by
    intro c hc
    induction c with
    | nil => simp
    | cons x c ih =>
      simp only [List.flatMap_cons, List.length_append, List.length_cons, vec8, hc x List.mem_cons_self,
        ih fun y hy => hc y (List.mem_cons_of_mem _ hy), Nat.succ_mul]
      omega
  rcases hp : cfg.psk with _ | ⟨k, ids⟩
  · have h1 := helloBytes_none S ⟨cfg, random, secret⟩ hp (a.flatMap vec8) (b.flatMap vec8)
    rw [helloBytes_spec, helloBytes_spec] at h1
    simp only at h1
    have h2 : ∀ c, (expectedHello cfg S.codePoint random (S.pubKey secret) c).bindersLength = 0 := by
      intro c
      simp only [Config.identities, hp] at hla hlb
      simp only [ChMsg.bindersLength, expectedHello, hp]
      split
      · next h =>
        exfalso
        have := List.mem_of_getLast? h
        simp [helloExtensions] at this
      · rfl
    unfold ChMsg.truncated
    rw [h1, h2, h2]
  · obtain ⟨P, hP⟩ := helloBytes_split S ⟨cfg, random, secret⟩ k ids hp (ids.length * (1 + S.hashLen))
    have hid : cfg.identities = ids.length := by simp [Config.identities, hp]
    have key : ∀ c : List Bytes, (∀ x ∈ c, x.length = S.hashLen) → c.length = cfg.identities →
        (expectedHello cfg S.codePoint random (S.pubKey secret) c).truncated = P := by
      intro c hc hlc
      have htl : (c.flatMap vec8).length = ids.length * (1 + S.hashLen) := by rw [hflat c hc, hlc, hid]
      unfold ChMsg.truncated
      have hs := helloBytes_spec S ⟨cfg, random, secret⟩ c
      simp only at hs
      rw [← hs, hP _ htl]
      have hlast : (expectedHello cfg S.codePoint random (S.pubKey secret) c).bindersLength =
          2 + ids.length * (1 + S.hashLen) := by
        simp [ChMsg.bindersLength, expectedHello, hp, vec16_length, htl]; omega
      rw [hlast]
      have : (P ++ (u16 (ids.length * (1 + S.hashLen)) ++ c.flatMap vec8)).length -
          (2 + ids.length * (1 + S.hashLen)) = P.length := by
        simp only [List.length_append, htl]
        simp [u16]
      rw [this, List.take_left]
    rw [key a ha hla, key b hb hlb]

/-- There is only one ClientHello with RFC binders. -/
theorem hello_unique (cfg : Config) (p : Provider V) (binders : List Bytes)
    (hl : binders.length = cfg.identities)
    (hb : ∀ b ∈ binders, b.length = S.hashLen ∧ b = verifyData S (binderKey S (cfg.psk.map (·.1)))
      (expectedHello cfg S.codePoint p.random (S.pubKey p.secret) binders).truncated) :
    (expectedHello cfg S.codePoint p.random (S.pubKey p.secret) binders).bytes = helloMsg S cfg p := by
  have ht := truncated_eq S cfg p.random p.secret binders (List.replicate cfg.identities (List.replicate S.hashLen 0))
    (fun x hx => (hb x hx).1) (fun x hx => by rw [List.eq_of_mem_replicate hx]; simp) hl (by simp)
  have : binders = List.replicate cfg.identities (helloBinder S cfg p) := by
    rw [← hl]
    refine List.eq_replicate_iff.2 ⟨rfl, fun b h => ?_⟩
    rw [(hb b h).2, ht]
    rfl
  unfold helloMsg
  rw [← this]

/-! ## The whole run -/

theorem setHostname_fwd (cfg : Config) (p : Provider V) (s : HSt V)
    (hh : ∀ ops name, p.verifier = some ops → cfg.serverName = some name → ∃ v', ops.setHostname name s.h.vst = (.ok (), v')) :
    setHostname cfg p s = (.ok (), ⟨s.c, { s.h with vst := hostVst cfg p s.h.vst }⟩) := by
  unfold setHostname hostVst
  rcases hv : p.verifier with _ | ops <;> rcases hn : cfg.serverName with _ | name
  · rfl
  · rfl
  · rfl
  · obtain ⟨v', hv'⟩ := hh ops name hv hn
    simp only [hv']

theorem openLoop_done (cfg : Config) (p : Provider V) (fuel : Nat) (s : HSt V) :
    openLoop S cfg p (fuel + 1) .applicationData s = (.ok (), s) := by
  unfold openLoop
  rfl

/-- What the client must be able to do after the server's flight. -/
inductive CanFinish (p : Provider V) (room : Nat) (tr1 : Bytes) (hd : HsData V) : State → List Bytes → Bytes → Prop where
  | plain (t : Bytes) (ht : hd.trafficHash = some t) : CanFinish p room tr1 hd .clientFinished [] t
  | noCert (ctx : Bytes) (hc : hd.certReq = some ctx) (hp : p.clientCert = none)
      (hfit : (certificateMsg ctx []).length + 22 ≤ room) :
      CanFinish p room tr1 hd .clientCert [certificateMsg ctx []] tr1
  | cert (ctx cert : Bytes) (sign : Bytes → Option Bytes) (scheme : SignatureScheme) (sig : Bytes) (hc : hd.certReq = some ctx)
      (hp : p.clientCert = some (.x509 cert)) (hs : p.signer = .ok (sign, scheme))
      (hfit : (certificateMsg ctx [cert]).length + 22 ≤ room)
      (hsg : sign (clientSignedContent S (tr1 ++ certificateMsg ctx [cert])) = some sig)
      (hsl : sig.length ≤ signatureSize S) (hfit2 : (certificateVerifyMsg scheme.code sig).length + 22 ≤ room) :
      CanFinish p room tr1 hd .clientCert [certificateMsg ctx [cert], certificateVerifyMsg scheme.code sig] tr1

/-- From the end of the server's flight to the end. -/
theorem finish_fwd (hS : S.Lawful) (cfg : Config) (p : Provider V) (s : HSt V) (psk : Option Bytes)
    (dhe secret t : Bytes) {st : State} {ms : List Bytes} (fuel : Nat)
    (hi : s.c.wb.Idle) (hL : 5 ≤ s.c.wb.buffer.length) (hr : Reliable s.c.tx)
    (hk : s.c.ks.client.st = trafficState S secret)
    (hsh : s.c.ks.shared.secret = Spec.deriveSecret S (handshakeSecret S psk dhe) "derived" [])
    (hcan : CanFinish S p s.c.wb.buffer.length s.c.ks.server.transcript s.h st ms t)
    (hfit : S.hashLen + 26 ≤ s.c.wb.buffer.length) :
    ∃ s', openLoop S cfg p (fuel + 4) st s = (.ok (), s') ∧ s'.c.wb.Idle ∧
      s'.c.wb.buffer.length = s.c.wb.buffer.length ∧ Reliable s'.c.tx ∧
      s'.c.tx.log = s.c.tx.log ++ sentMsgs S secret 0
        (ms ++ [finishedMsg (verifyData S secret (s.c.ks.server.transcript ++ ms.flatten))]) ∧
      s'.c.rx = s.c.rx ∧ s'.c.rr = s.c.rr ∧ s'.c.dec = s.c.dec ∧ s'.c.fp = s.c.fp ∧ s'.c.opened = s.c.opened ∧
      s'.c.ks.client.st = trafficState S (clientApplicationTraffic S psk dhe t) ∧
      s'.c.ks.server = ⟨trafficState S (serverApplicationTraffic S psk dhe t), t⟩ := by
  have hiv := trafficState_iv S hS secret
  cases hcan with
  | plain _ ht =>
    obtain ⟨wb, ctl, w1, w2, w3, w4⟩ := step_clientFinished_fwd S hS cfg p s psk dhe secret t hi hL (by rw [hk]; exact hiv) hr
      (by rw [hk]; exact (by decide : 0 + 1 < 2 ^ 64)) (by rw [hk]; rfl) hsh ht hfit
    refine ⟨_, (openLoop_step S cfg p (by simp) w4).trans (openLoop_done S cfg p _ _), w1, w2, w3, ?_, rfl, rfl, rfl, rfl,
      rfl, rfl, rfl⟩
    simp [sentMsgs, hk, trafficState]
  | noCert ctx hc hp hf =>
    obtain ⟨wb, ctl, w1, w2, w3, w4⟩ := step_clientCert_fwd S hS cfg p s (ctx := ctx) (certs := []) hi hL
      (by rw [hk]; exact hiv) hr (by rw [hk]; exact (by decide : 0 + 1 < 2 ^ 64)) hc (by rw [hp]; rfl) hf
    rw [hp] at w4
    obtain ⟨wb2, ctl2, u1, u2, u3, u4⟩ := step_clientFinished_fwd S hS cfg p
      ⟨s.c.sent wb ctl (s.c.ks.server.transcript ++ certificateMsg ctx [])
              (ciphertextRecord S s.c.ks.client.st.key s.c.ks.client.st.iv s.c.ks.client.st.counter 22
                (certificateMsg ctx [])), { s.h with trafficHash := some s.c.ks.server.transcript }⟩ psk dhe secret
      s.c.ks.server.transcript w1 (by simp only [w2]; exact hL) (by simp only [WriteKS.next, hk]; exact hiv) w3
      (by simp only [WriteKS.next, hk]; exact (by decide : 0 + 1 + 1 < 2 ^ 64)) (by simp only [WriteKS.next, hk]; rfl) hsh rfl
      (by simp only [w2]; exact hfit)
    refine ⟨_, (openLoop_step S cfg p (by simp) w4).trans ((openLoop_step S cfg p (by simp) u4).trans
      (openLoop_done S cfg p _ _)), u1, by rw [u2]; exact w2, u3, ?_, rfl, rfl, rfl, rfl, rfl, rfl, rfl⟩
    simp [sentMsgs, hk, trafficState, WriteKS.next]
  | cert ctx cert sign scheme sig hc hp hs hf hsg hsl hf2 =>
    obtain ⟨wb, ctl, w1, w2, w3, w4⟩ := step_clientCert_fwd S hS cfg p s (ctx := ctx) (certs := [cert]) hi hL
      (by rw [hk]; exact hiv) hr (by rw [hk]; exact (by decide : 0 + 1 < 2 ^ 64)) hc (by rw [hp]; rfl) hf
    rw [hp] at w4
    obtain ⟨wb1, ctl1, v1, v2, v3, v4⟩ := step_clientCertVerify_fwd S hS cfg p
      ⟨s.c.sent wb ctl (s.c.ks.server.transcript ++ certificateMsg ctx [cert])
              (ciphertextRecord S s.c.ks.client.st.key s.c.ks.client.st.iv s.c.ks.client.st.counter 22
                (certificateMsg ctx [cert])), { s.h with trafficHash := some s.c.ks.server.transcript }⟩
      (sign := sign) (scheme := scheme) w1 (by simp only [w2]; exact hL)
      (by simp only [WriteKS.next, hk]; exact hiv) w3 (by simp only [WriteKS.next, hk]; exact (by decide : 0 + 1 + 1 < 2 ^ 64)) hs hS.hashLen_le hsg hsl
      (by simp only [w2]; exact hf2)
    obtain ⟨wb2, ctl2, u1, u2, u3, u4⟩ := step_clientFinished_fwd S hS cfg p
      ⟨(s.c.sent wb ctl (s.c.ks.server.transcript ++ certificateMsg ctx [cert])
              (ciphertextRecord S s.c.ks.client.st.key s.c.ks.client.st.iv s.c.ks.client.st.counter 22
                (certificateMsg ctx [cert]))).sent wb1 ctl1
              (s.c.ks.server.transcript ++ certificateMsg ctx [cert] ++ certificateVerifyMsg scheme.code sig)
              (ciphertextRecord S s.c.ks.client.next.st.key s.c.ks.client.next.st.iv s.c.ks.client.next.st.counter 22
                (certificateVerifyMsg scheme.code sig)),
        { s.h with trafficHash := some s.c.ks.server.transcript }⟩ psk dhe secret
      s.c.ks.server.transcript v1 (by simp only [v2, w2]; exact hL) (by simp only [WriteKS.next, hk]; exact hiv) v3
      (by simp only [WriteKS.next, hk]; exact (by decide : 0 + 1 + 1 + 1 < 2 ^ 64)) (by simp only [WriteKS.next, hk]; rfl) hsh rfl
      (by simp only [v2, w2]; exact hfit)
    refine ⟨_, (openLoop_step S cfg p (by simp) w4).trans ((openLoop_step S cfg p (by simp) v4).trans
      ((openLoop_step S cfg p (by simp) u4).trans
      (openLoop_done S cfg p _ _))), u1, by rw [u2]; simp only [v2, w2], u3, ?_, rfl, rfl, rfl, rfl, rfl, rfl, rfl⟩
    simp [sentMsgs, hk, trafficState, WriteKS.next]

/-- `open` up to the end of the server's flight. -/
theorem open_flight_fwd (hS : S.Lawful) (cfg : Config) (p : Provider V) (v : V) {c : Conn} (hf : c.Fresh S)
    (hclean : c.rx.Clean) (hrel : Reliable c.tx)
    (hroom : 5 + helloLength S cfg p ≤ c.wb.buffer.length)
    {hdr m junk rest dhe : Bytes} {rh : RecordHeader} {exts : List Ext} (hd : RecordHeader.decode hdr = .ok rh)
    (hty : rh.contentType = .handshake) (hl : rh.contentLength = (m ++ junk).length)
    (hpa : ParsedAs S m (.serverHello exts)) (hdh : serverHelloSharedSecret S exts p.secret = some dhe)
    (hfit : (m ++ junk).length ≤ c.rr.buf.length)
    {fl : List (Bytes × List (Bytes × ServerHs))} {k' : KsState} {hd' : HsData V} {st' : State}
    (hr : Received S (trafficState S (serverHandshakeTraffic S (cfg.psk.map (·.1)) dhe (helloMsg S cfg p ++ m))) fl k')
    (ht : TookAll S p (serverHandshakeTraffic S (cfg.psk.map (·.1)) dhe (helloMsg S cfg p ++ m)) (helloMsg S cfg p ++ m)
      (⟨none, none, none, hostVst cfg p v⟩, .serverVerify) (flightMsgs fl) (hd', st'))
    (hne : fl ≠ []) (hnf : ∀ g ∈ fl.dropLast, ∀ m ∈ g.2, ∀ f, m.2 ≠ .finished f)
    (hfl : ∀ g ∈ fl, g.1.length ≤ c.rr.buf.length + 5) (hcnt : fl.length < 2 ^ 64)
    (hb : c.rx.bytes = hdr ++ (m ++ junk) ++ (flightBytes fl ++ rest)) :
    ∃ (s : HSt V) (extra : Nat),
      openLoop S cfg p (c.rx.size + 8) .clientHello ⟨c, ⟨none, none, none, hostVst cfg p v⟩⟩ = openLoop S cfg p (extra + 4) st' s ∧
      s.h = hd' ∧ s.c.wb.Idle ∧ s.c.wb.buffer.length = c.wb.buffer.length ∧ Reliable s.c.tx ∧
      s.c.tx.log = c.tx.log ++ [.wrote (plaintextRecord 22 [3, 1] (helloMsg S cfg p)), .flushed] ∧
      s.c.ks.client.st = trafficState S (clientHandshakeTraffic S (cfg.psk.map (·.1)) dhe (helloMsg S cfg p ++ m)) ∧
      s.c.ks.shared.secret = Spec.deriveSecret S (handshakeSecret S (cfg.psk.map (·.1)) dhe) "derived" [] ∧
      s.c.ks.server.transcript = helloMsg S cfg p ++ m ++ msgBytes (flightMsgs fl) ∧
      s.c.rx.bytes = rest ∧ s.c.rx.Clean ∧ s.c.rr.Inv ∧ s.c.rr.pending = 0 ∧ s.c.rr.buf.length = c.rr.buf.length ∧
      s.c.dec = c.dec ∧ s.c.fp = c.fp := by
  obtain ⟨binders, msg, wb1, ctl1, a1, a2, a3, a4, a5, a6, a7⟩ := step_hello_fwd S hS cfg p
    ⟨c, ⟨none, none, none, hostVst cfg p v⟩⟩ hf.idle hf.keys hrel hroom
  have hmsg : msg = helloMsg S cfg p := by rw [a1]; exact hello_unique S cfg p binders a2 a3
  clear a1 a2 a3
  subst hmsg
  generalize hs1 : (⟨{ c with
              tx := ⟨ctl1, c.tx.log ++ [.wrote (plaintextRecord 22 [3, 1] (helloMsg S cfg p)), .flushed]⟩
              wb := wb1
              ks := ⟨⟨deriveSecret S (earlySecret S (cfg.psk.map (·.1))) "derived" [],
                      some (earlySecret S (cfg.psk.map (·.1)))⟩,
                     WriteKS.next { (KeySchedule.new S).client with binderKey := some (binderKey S (cfg.psk.map (·.1))) },
                     ⟨(KeySchedule.new S).server.st, helloMsg S cfg p⟩⟩ },
            ⟨none, some p.secret, none, hostVst cfg p v⟩⟩ : HSt V) = s1
  have a7 : process S cfg p .clientHello ⟨c, ⟨none, none, none, hostVst cfg p v⟩⟩ = (.ok .serverHello, s1) := by
    rw [a7, ← hs1]
  obtain ⟨rr2, rx2, b1, b2, b3, b4, b5, b6⟩ := step_serverHello_fwd S hS cfg p s1 (cfg.psk.map (·.1))
    (by rw [← hs1]; exact hf.reader) (by rw [← hs1]; exact hf.nothingRead) (by rw [← hs1]; exact hclean)
    (by rw [← hs1]) hd hty hl hpa (by rw [← hs1]) hdh (by rw [← hs1]; exact hb) (by rw [← hs1]; exact hfit)
  generalize hs2 : (⟨{ s1.c with
              rx := rx2, rr := rr2
              ks := ⟨⟨Spec.deriveSecret S (handshakeSecret S (cfg.psk.map (·.1)) dhe) "derived" [],
                  some (handshakeSecret S (cfg.psk.map (·.1)) dhe)⟩,
                { s1.c.ks.client with
                  st := trafficState S (clientHandshakeTraffic S (cfg.psk.map (·.1)) dhe (s1.c.ks.server.transcript ++ m)) },
                ⟨trafficState S (serverHandshakeTraffic S (cfg.psk.map (·.1)) dhe (s1.c.ks.server.transcript ++ m)),
                  s1.c.ks.server.transcript ++ m⟩⟩ },
            { s1.h with secret := none }⟩ : HSt V) = s2 at b6
  have e2 : s2.c.rr = rr2 ∧ s2.c.rx = rx2 ∧ s2.h = ⟨none, none, none, hostVst cfg p v⟩ ∧ s2.c.wb = wb1 ∧
      s2.c.tx = ⟨ctl1, c.tx.log ++ [.wrote (plaintextRecord 22 [3, 1] (helloMsg S cfg p)), .flushed]⟩ ∧
      s2.c.ks.server = ⟨trafficState S (serverHandshakeTraffic S (cfg.psk.map (·.1)) dhe (helloMsg S cfg p ++ m)),
        helloMsg S cfg p ++ m⟩ ∧
      s2.c.ks.client.st = trafficState S (clientHandshakeTraffic S (cfg.psk.map (·.1)) dhe (helloMsg S cfg p ++ m)) ∧
      s2.c.ks.shared.secret = Spec.deriveSecret S (handshakeSecret S (cfg.psk.map (·.1)) dhe) "derived" [] ∧
      s2.c.dec = c.dec ∧ s2.c.fp = c.fp := by
    rw [← hs2, ← hs1]; exact ⟨rfl, rfl, rfl, rfl, rfl, rfl, rfl, rfl, rfl, rfl⟩
  have hbuf2 : rr2.buf.length = c.rr.buf.length := by rw [b3, ← hs1]
  clear hs2 hs1
  obtain ⟨g1, g2, g3, g4, g5, g6, g7, g8, g9, g10⟩ := e2
  have hbl : fl.length ≤ (flightBytes fl).length := by
    clear hb b5 ht hfl hnf hne hcnt
    generalize trafficState S (serverHandshakeTraffic S (cfg.psk.map (·.1)) dhe (helloMsg S cfg p ++ m)) = k at hr
    induction hr with
    | nil => simp
    | cons k k' record ms n rest h _ ih =>
      have h5 : ∀ {hdr : Bytes} {rh : RecordHeader}, RecordHeader.decode hdr = .ok rh → hdr.length = 5 := by
        intro hdr rh hd
        unfold RecordHeader.decode at hd
        split at hd
        · rfl
        · simp at hd
      have : 1 ≤ record.length := by
        cases h with
        | plain hdr m junk h rh hd => have := h5 hd; simp; omega
        | protected_ hdr ct rh hd => have := h5 hd; simp; omega
        | changeCipherSpec hdr data rh hd => have := h5 hd; simp; omega
      simp only [flightBytes, List.flatMap_cons, List.length_append, List.length_cons] at ih ⊢
      omega
  have hsz : ∃ extra, c.rx.size + 8 = extra + 4 + fl.length + 1 + 1 := by
    have h1 := Rx.bytes_le_size c.rx
    rw [hb] at h1
    simp only [List.length_append] at h1
    exact ⟨c.rx.size + 8 - fl.length - 6, by omega⟩
  obtain ⟨extra, hextra⟩ := hsz
  obtain ⟨rr3, rx3, d1, d2, d3, d4, d5, d6⟩ := flight_fwd S hS cfg p (secret := serverHandshakeTraffic S (cfg.psk.map (·.1)) dhe
      (helloMsg S cfg p ++ m)) (rest := rest) fl s2 k' hd' st' (extra + 4)
    (by rw [g1]; exact b1) (by rw [g1]; exact b2) (by rw [g2]; exact b4) (by rw [g6]; rfl) (by rw [g6]; simpa [trafficState] using hcnt)
    (by rw [g6]; exact hr) (by rw [g6, g3]; exact ht) hne hnf (by rw [g2]; exact b5) (by rw [g1, hbuf2]; exact hfl)
  refine ⟨⟨s2.c.readTo rr3 rx3 ⟨k', s2.c.ks.server.transcript ++ msgBytes (flightMsgs fl)⟩, hd'⟩, extra, ?_, rfl, ?_, ?_, ?_, ?_,
    g7, g8, ?_, d5, d4, d1, d2, ?_, g9, g10⟩
  · rw [hextra, openLoop_step S cfg p (by simp) a7, openLoop_step S cfg p (by simp) b6, d6]
  · simp only [g4]; exact a4
  · simp only [g4]; exact a5
  · simp only [g5]; exact a6
  · simp only [g5]
  · simp only [g6]
  · simp only [d3, g1]; exact hbuf2

/-- `open` from its loop. -/
theorem open_of_loop (cfg : Config) (p : Provider V) (v : V) {c : Conn} {s9 : HSt V}
    (hhost : ∀ ops name, p.verifier = some ops → cfg.serverName = some name → ∃ v', ops.setHostname name v = (.ok (), v'))
    (hloop : openLoop S cfg p (c.rx.size + 8) .clientHello ⟨c, ⟨none, none, none, hostVst cfg p v⟩⟩ = (.ok (), s9)) :
    Conn.open_ S cfg p v c = (.ok (), { s9.c with opened := true }) := by
  have hopen : openSt S cfg p ⟨c, ⟨none, none, none, v⟩⟩ = (.ok (), { s9 with c := { s9.c with opened := true } }) := by
    unfold openSt
    rw [M.bind_ok (setHostname_fwd cfg p ⟨c, ⟨none, none, none, v⟩⟩ hhost), M.get_bind]
    simp only
    rw [M.bind_ok hloop]
    rfl
  unfold Conn.open_
  rw [hopen]

/-- `open` from its loop, if that fails. -/
theorem open_of_loop_err (cfg : Config) (p : Provider V) (v : V) {c : Conn} {s9 : HSt V} {e : TlsError}
    (hhost : ∀ ops name, p.verifier = some ops → cfg.serverName = some name → ∃ v', ops.setHostname name v = (.ok (), v'))
    (hloop : openLoop S cfg p (c.rx.size + 8) .clientHello ⟨c, ⟨none, none, none, hostVst cfg p v⟩⟩ = (.err e, s9)) :
    Conn.open_ S cfg p v c = (.err e, s9.c) := by
  have hopen : openSt S cfg p ⟨c, ⟨none, none, none, v⟩⟩ = (.err e, s9) := by
    unfold openSt
    rw [M.bind_ok (setHostname_fwd cfg p ⟨c, ⟨none, none, none, v⟩⟩ hhost), M.get_bind]
    simp only
    rw [M.bind_err hloop]
  unfold Conn.open_
  rw [hopen]

/-- `open` from its loop, if that panics. -/
theorem open_of_loop_panic (cfg : Config) (p : Provider V) (v : V) {c : Conn} {s9 : HSt V}
    (hhost : ∀ ops name, p.verifier = some ops → cfg.serverName = some name → ∃ v', ops.setHostname name v = (.ok (), v'))
    (hloop : openLoop S cfg p (c.rx.size + 8) .clientHello ⟨c, ⟨none, none, none, hostVst cfg p v⟩⟩ = (.panic, s9)) :
    Conn.open_ S cfg p v c = (.panic, s9.c) := by
  have hopen : openSt S cfg p ⟨c, ⟨none, none, none, v⟩⟩ = (.panic, s9) := by
    unfold openSt
    rw [M.bind_ok (setHostname_fwd cfg p ⟨c, ⟨none, none, none, v⟩⟩ hhost), M.get_bind]
    simp only
    rw [M.bind_panic hloop]
  unfold Conn.open_
  rw [hopen]

/-- The converse of `open_describes`. -/
theorem open_fwd (hS : S.Lawful) (cfg : Config) (p : Provider V) (v : V) {c : Conn} (hf : c.Fresh S)
    (hclean : c.rx.Clean) (hrel : Reliable c.tx)
    (hhost : ∀ ops name, p.verifier = some ops → cfg.serverName = some name → ∃ v', ops.setHostname name v = (.ok (), v'))
    (hroom : 5 + helloLength S cfg p ≤ c.wb.buffer.length) (hroom2 : S.hashLen + 26 ≤ c.wb.buffer.length)
    {hdr m junk rest dhe : Bytes} {rh : RecordHeader} {exts : List Ext} (hd : RecordHeader.decode hdr = .ok rh)
    (hty : rh.contentType = .handshake) (hl : rh.contentLength = (m ++ junk).length)
    (hpa : ParsedAs S m (.serverHello exts)) (hdh : serverHelloSharedSecret S exts p.secret = some dhe)
    (hfit : (m ++ junk).length ≤ c.rr.buf.length)
    {fl : List (Bytes × List (Bytes × ServerHs))} {k' : KsState} {hd' : HsData V} {st' : State} {ms : List Bytes} {t : Bytes}
    (hr : Received S (trafficState S (serverHandshakeTraffic S (cfg.psk.map (·.1)) dhe (helloMsg S cfg p ++ m))) fl k')
    (ht : TookAll S p (serverHandshakeTraffic S (cfg.psk.map (·.1)) dhe (helloMsg S cfg p ++ m)) (helloMsg S cfg p ++ m)
      (⟨none, none, none, hostVst cfg p v⟩, .serverVerify) (flightMsgs fl) (hd', st'))
    (hne : fl ≠ []) (hnf : ∀ g ∈ fl.dropLast, ∀ m ∈ g.2, ∀ f, m.2 ≠ .finished f)
    (hfl : ∀ g ∈ fl, g.1.length ≤ c.rr.buf.length + 5) (hcnt : fl.length < 2 ^ 64)
    (hcan : CanFinish S p c.wb.buffer.length (helloMsg S cfg p ++ m ++ msgBytes (flightMsgs fl)) hd' st' ms t)
    (hb : c.rx.bytes = hdr ++ (m ++ junk) ++ (flightBytes fl ++ rest)) :
    ∃ c', Conn.open_ S cfg p v c = (.ok (), c') ∧ c'.rx.bytes = rest ∧ c'.rx.Clean ∧ c'.opened = true ∧
      c'.tx.log = c.tx.log ++ [.wrote (plaintextRecord 22 [3, 1] (helloMsg S cfg p)), .flushed] ++
        sentMsgs S (clientHandshakeTraffic S (cfg.psk.map (·.1)) dhe (helloMsg S cfg p ++ m)) 0
          (ms ++ [finishedMsg (verifyData S (clientHandshakeTraffic S (cfg.psk.map (·.1)) dhe (helloMsg S cfg p ++ m))
            (helloMsg S cfg p ++ m ++ msgBytes (flightMsgs fl) ++ ms.flatten))]) ∧
      c'.ks.client.st = trafficState S (clientApplicationTraffic S (cfg.psk.map (·.1)) dhe t) ∧
      c'.ks.server = ⟨trafficState S (serverApplicationTraffic S (cfg.psk.map (·.1)) dhe t), t⟩ ∧
      Reliable c'.tx ∧ c'.wb.Idle ∧ c'.wb.buffer.length = c.wb.buffer.length ∧
      c'.rr.Inv ∧ c'.rr.pending = 0 ∧ c'.rr.buf.length = c.rr.buf.length ∧ c'.dec = c.dec ∧ c'.fp = c.fp := by
  obtain ⟨s, extra, a1, rfl, a3, a4, a5, a6, a7, a8, a9, a10, a11, a12, a13, a14, a15, a16⟩ := open_flight_fwd S hS cfg p v hf hclean hrel
    hroom hd hty hl hpa hdh hfit hr ht hne hnf hfl hcnt hb
  obtain ⟨s9, f1, f2, f3, f4, f5, f6, f7, f8, f9, f10, f11, f12⟩ := finish_fwd S hS cfg p s (cfg.psk.map (·.1)) dhe
    (clientHandshakeTraffic S (cfg.psk.map (·.1)) dhe (helloMsg S cfg p ++ m)) t extra
    a3 (by rw [a4]; exact hf.room) a5 a7 a8 (by rw [a4, a9]; exact hcan) (by rw [a4]; exact hroom2)
  refine ⟨{ s9.c with opened := true }, open_of_loop S cfg p v hhost (a1.trans f1), ?_, ?_, rfl, ?_, f11, f12, f4, f2, ?_, ?_, ?_, ?_, ?_, ?_⟩
  · simp only [f6]; exact a10
  · simp only [f6]; exact a11
  · simp only [f5, a6, a9]
  · simp only [f3]; exact a4
  · simp only [f7]; exact a12
  · simp only [f7]; exact a13
  · simp only [f7]; exact a14
  · simp only [f8]; exact a15
  · simp only [f9]; exact a16

end ETls
