import Verif.Props.Termination

/-! # An invariant of every handshake, successful or not

After any number of successful steps from a new connection the state says what was sent and received so far. -/

namespace ETls

variable (S : Suite) {V : Type}
open Spec

theorem Received.snoc {k k1 : KsState} {fl : List (Bytes × List (Bytes × ServerHs))} (h : Received S k fl k1)
    {record : Bytes} {ms : List (Bytes × ServerHs)} {n : Nat} (hi : Incoming S k1 record ms n) :
    Received S k (fl ++ [(record, ms)]) { k1 with counter := k1.counter + n } := by
  induction h with
  | nil k => exact .cons _ _ _ _ _ _ hi (.nil _)
  | cons k k' record' ms' n' rest h' hr ih => exact .cons _ _ _ _ _ _ h' (ih hi)

/-- What is known between ServerHello and the client's Finished; `cm` are the client's messages sent after ServerHello. -/
structure Later (cfg : Config) (p : Provider V) (c : Conn) (hello shRecord sh : Bytes) (exts : List Ext) (dhe : Bytes)
    (fl : List (Bytes × List (Bytes × ServerHs))) (cm : List Bytes) (s : HSt V) : Prop where
  isHello : ∃ binders, hello = (expectedHello cfg S.codePoint p.random (S.pubKey p.secret) binders).bytes ∧
    binders.length = cfg.identities ∧
    ∀ b ∈ binders, b.length = S.hashLen ∧ b = verifyData S (binderKey S (cfg.psk.map (·.1)))
      (expectedHello cfg S.codePoint p.random (S.pubKey p.secret) binders).truncated
  serverHello : ∃ hdr rh junk, RecordHeader.decode hdr = .ok rh ∧ rh.contentType = .handshake ∧
    rh.contentLength = (sh ++ junk).length ∧ shRecord = hdr ++ (sh ++ junk)
  parsed : ParsedAs S sh (.serverHello exts)
  shared : serverHelloSharedSecret S exts p.secret = some dhe
  received : Received S (trafficState S (serverHandshakeTraffic S (cfg.psk.map (·.1)) dhe (hello ++ sh))) fl
    s.c.ks.server.st
  transcript : s.c.ks.server.transcript = hello ++ sh ++ msgBytes (flightMsgs fl) ++ cm.flatten
  bytes : c.rx.bytes = shRecord ++ flightBytes fl ++ s.c.rx.bytes
  sent : s.c.tx.log = c.tx.log ++ [.wrote (plaintextRecord 22 [3, 1] hello), .flushed] ++
    sentMsgs S (clientHandshakeTraffic S (cfg.psk.map (·.1)) dhe (hello ++ sh)) 0 cm
  clientKeys : s.c.ks.client.st = { trafficState S (clientHandshakeTraffic S (cfg.psk.map (·.1)) dhe (hello ++ sh)) with
    counter := cm.length }
  sharedSecret : s.c.ks.shared.secret =
    Spec.deriveSecret S (handshakeSecret S (cfg.psk.map (·.1)) dhe) "derived" []
  reader : s.c.rr.Inv ∧ s.c.rr.pending = 0 ∧ s.c.rr.buf.length = c.rr.buf.length
  writer : s.c.wb.Idle ∧ s.c.wb.buffer.length = c.wb.buffer.length
  opened : s.c.opened = c.opened

/-- Where a handshake on the new connection `c` is. -/
inductive HsAt (cfg : Config) (p : Provider V) (c : Conn) : State → HSt V → Prop where
  | start (s : HSt V) (h : s.c = c) : HsAt cfg p c .clientHello s
  | hello (s : HSt V) (msg : Bytes)
      (hello : ∃ binders, msg = (expectedHello cfg S.codePoint p.random (S.pubKey p.secret) binders).bytes ∧
        binders.length = cfg.identities ∧
        ∀ b ∈ binders, b.length = S.hashLen ∧ b = verifyData S (binderKey S (cfg.psk.map (·.1)))
          (expectedHello cfg S.codePoint p.random (S.pubKey p.secret) binders).truncated)
      (transcript : s.c.ks.server.transcript = msg)
      (sharedSecret : s.c.ks.shared.secret = Spec.deriveSecret S (earlySecret S (cfg.psk.map (·.1))) "derived" [])
      (input : s.c.rx = c.rx)
      (sent : s.c.tx.log = c.tx.log ++ [.wrote (plaintextRecord 22 [3, 1] msg), .flushed])
      (secret : s.h.secret = some p.secret)
      (reader : s.c.rr = c.rr)
      (writer : s.c.wb.Idle ∧ s.c.wb.buffer.length = c.wb.buffer.length)
      (opened : s.c.opened = c.opened) : HsAt cfg p c .serverHello s
  | waiting (s : HSt V) (hello shRecord sh : Bytes) (exts : List Ext) (dhe : Bytes)
      (fl : List (Bytes × List (Bytes × ServerHs)))
      (h : Later S cfg p c hello shRecord sh exts dhe fl [] s) : HsAt cfg p c .serverVerify s
  | replying (st : State) (s : HSt V) (hello shRecord sh : Bytes) (exts : List Ext) (dhe : Bytes)
      (fl : List (Bytes × List (Bytes × ServerHs))) (cm : List Bytes)
      (hst : (st = .clientCert ∧ cm = []) ∨ st = .clientCertVerify ∨ st = .clientFinished)
      (h : Later S cfg p c hello shRecord sh exts dhe fl cm s) : HsAt cfg p c st s
  | done (s : HSt V) (hello shRecord sh : Bytes) (exts : List Ext) (dhe : Bytes)
      (fl : List (Bytes × List (Bytes × ServerHs))) (cm : List Bytes) (s1 : HSt V) (t : Bytes)
      (h : Later S cfg p c hello shRecord sh exts dhe fl cm s1)
      (ht : s1.h.trafficHash = some t)
      (sent : s.c.tx.log = s1.c.tx.log ++ sentMsgs S (clientHandshakeTraffic S (cfg.psk.map (·.1)) dhe (hello ++ sh)) cm.length
        [finishedMsg (verifyData S (clientHandshakeTraffic S (cfg.psk.map (·.1)) dhe (hello ++ sh))
          s1.c.ks.server.transcript)])
      (input : s.c.rx = s1.c.rx)
      (reader : s.c.rr = s1.c.rr)
      (writer : s.c.wb.Idle ∧ s.c.wb.buffer.length = c.wb.buffer.length)
      (opened : s.c.opened = c.opened)
      (clientKeys : s.c.ks.client.st = trafficState S (clientApplicationTraffic S (cfg.psk.map (·.1)) dhe t))
      (serverKeys : s.c.ks.server = ⟨trafficState S (serverApplicationTraffic S (cfg.psk.map (·.1)) dhe t), t⟩) :
      HsAt cfg p c .applicationData s

/-- A successful step keeps the invariant. -/
theorem HsAt.step (hS : S.Lawful) (cfg : Config) (p : Provider V) {c : Conn} (hf : c.Fresh S) {st st' : State} {s s' : HSt V}
    (ha : HsAt S cfg p c st s) (hst : st ≠ .applicationData) (h : process S cfg p st s = (.ok st', s')) :
    HsAt S cfg p c st' s' := by
  cases ha with
  | start s hs =>
    obtain ⟨sc, sh⟩ := s
    simp only at hs
    subst hs
    obtain ⟨binders, msg, wb, ctl, a1, a2, a3, a4, a5, rfl, rfl⟩ := step_hello S hS cfg p hf.idle hf.room hf.keys h
    exact .hello _ msg ⟨binders, a1, a2, a3⟩ rfl rfl rfl rfl rfl rfl ⟨a4, a5⟩ rfl
  | hello s msg hh htr hsh hin hsent hsec hrd hwr hop =>
    obtain ⟨hdr, rh, m, junk, exts, secret, dhe, rr', rx', b1, b2, b3, b4, b5, b6, b7, b8, b9, b10, b11, b12, rfl, rfl⟩ :=
      step_serverHello S hS cfg p (cfg.psk.map (·.1)) (by rw [hrd]; exact hf.reader) (by rw [hrd]; exact hf.nothingRead)
        hsh h
    rw [hsec] at b5
    cases b5
    rw [hin] at b7
    rw [hrd] at b11
    refine .waiting _ msg (hdr ++ (m ++ junk)) m exts dhe [] ⟨hh, ⟨hdr, rh, junk, b1, b2, b3, rfl⟩, b4, b6, ?_, ?_, ?_, ?_, ?_,
      rfl, ⟨b9, b10, b11⟩, hwr, hop⟩
    · simp only [htr]; exact .nil _
    · simp [htr, flightMsgs, msgBytes]
    · simp only [b7, flightBytes, List.flatMap_nil, List.append_nil]
    · simp only [hsent, sentMsgs, List.append_nil]
    · simp only [htr]; rfl
  | waiting s hello shRecord sh exts dhe fl hl =>
    have hk := hl.received.keys S
    obtain ⟨record, ms, n, rr', rx', hd', i1, i2, i3, i4, i5, i6, i7, i8, rfl⟩ := step_verify S hS cfg p
      (secret := serverHandshakeTraffic S (cfg.psk.map (·.1)) dhe (hello ++ sh)) hl.reader.1 hl.reader.2.1
      (by rw [hk]; rfl) h
    have hl' : Later S cfg p c hello shRecord sh exts dhe (fl ++ [(record, ms)]) []
        ⟨s.c.readTo rr' rx' ⟨{ s.c.ks.server.st with counter := s.c.ks.server.st.counter + n },
              s.c.ks.server.transcript ++ msgBytes ms⟩, hd'⟩ := by
      refine ⟨hl.isHello, hl.serverHello, hl.parsed, hl.shared, hl.received.snoc S i1, ?_, ?_, hl.sent, hl.clientKeys,
        hl.sharedSecret, ⟨i5, i6, i7.trans hl.reader.2.2⟩, hl.writer, hl.opened⟩
      · simp only [hl.transcript, flightMsgs, msgBytes]; simp
      · rw [hl.bytes, i3]; simp [flightBytes]
    rcases i2.state S (.inl rfl) with hst' | hst' | hst'
    · simp only at hst'; subst hst'
      exact .waiting _ _ _ _ _ _ _ hl'
    · simp only at hst'; subst hst'
      exact .replying _ _ _ _ _ _ _ _ _ (.inl ⟨rfl, rfl⟩) hl'
    · simp only at hst'; subst hst'
      exact .replying _ _ _ _ _ _ _ _ _ (.inr (.inr rfl)) hl'
  | replying st s hello shRecord sh exts dhe fl cm hs hl =>
    have hiv : s.c.ks.client.st.iv.length = S.ivLen := by rw [hl.clientKeys]; exact trafficState_iv S hS _
    have hroom : 5 ≤ s.c.wb.buffer.length := by rw [hl.writer.2]; exact hf.room
    -- the connection after one more protected message
    have hsent : ∀ (m : Bytes) (wb : WB) (ctl : List OutCtl) (hd : HsData V), wb.Idle →
        wb.buffer.length = s.c.wb.buffer.length →
        Later S cfg p c hello shRecord sh exts dhe fl (cm ++ [m])
          ⟨s.c.sent wb ctl (s.c.ks.server.transcript ++ m)
            (ciphertextRecord S s.c.ks.client.st.key s.c.ks.client.st.iv s.c.ks.client.st.counter 22 m), hd⟩ := by
      intro m wb ctl hd w1 w2
      refine ⟨hl.isHello, hl.serverHello, hl.parsed, hl.shared, hl.received, ?_, hl.bytes, ?_, ?_, hl.sharedSecret, hl.reader,
        ⟨w1, w2.trans hl.writer.2⟩, hl.opened⟩
      · simp only [hl.transcript, List.flatten_append, List.flatten_cons, List.flatten_nil, List.append_nil,
          List.append_assoc]
      · simp only [hl.sent, sentMsgs_append, hl.clientKeys, sentMsgs, Nat.zero_add, List.append_assoc]
        rfl
      · simp only [WriteKS.next, hl.clientKeys, List.length_append, List.length_cons, List.length_nil]
    rcases hs with ⟨rfl, rfl⟩ | rfl | rfl
    · obtain ⟨ctx, certs, wb, ctl, c1, c2, c3, c4, c5, c6, rfl⟩ := step_clientCert S hS cfg p hl.writer.1 hroom hiv h
      refine .replying _ _ _ _ _ _ _ _ _ ?_ (hsent (certificateMsg ctx certs) wb ctl _ c4 c5)
      rw [c6]; split
      · exact .inr (.inr rfl)
      · exact .inr (.inl rfl)
    · obtain ⟨sign, scheme, sig, wb, ctl, e1, e2, e3, e4, e5, rfl, rfl⟩ := step_clientCertVerify S hS cfg p hl.writer.1 hroom hiv h
      exact .replying _ _ _ _ _ _ _ _ _ (.inr (.inr rfl)) (hsent _ wb ctl _ e2 e3)
    · obtain ⟨t, wb, ctl, d1, d2, d3, rfl, rfl⟩ := step_clientFinished S hS cfg p (cfg.psk.map (·.1)) dhe
        (clientHandshakeTraffic S (cfg.psk.map (·.1)) dhe (hello ++ sh)) hl.writer.1 hroom hiv
        (by rw [hl.clientKeys]; rfl) hl.sharedSecret h
      refine .done _ hello shRecord sh exts dhe fl cm s t hl d1 ?_ rfl rfl ⟨d2, d3.trans hl.writer.2⟩ hl.opened rfl rfl
      simp only [sentMsgs, hl.clientKeys]
      rfl
  | done => exact absurd rfl hst

/-- The invariant holds after any number of steps. -/
theorem HsAt.steps (hS : S.Lawful) (cfg : Config) (p : Provider V) {c : Conn} (hf : c.Fresh S) {n : Nat} {st st' : State}
    {s s' : HSt V} (h : HsSteps S cfg p n st s st' s') (ha : HsAt S cfg p c st s) : HsAt S cfg p c st' s' := by
  induction h with
  | none st s => exact ha
  | more hst hp _ ih => exact ih (ha.step S hS cfg p hf hst hp)

/-- A `Later` state in the terms of the wire. -/
theorem Later.session (hS : S.Lawful) {cfg : Config} {p : Provider V} {c : Conn} {hello shRecord sh : Bytes} {exts : List Ext}
    {dhe : Bytes} {fl : List (Bytes × List (Bytes × ServerHs))} {cm : List Bytes} {s : HSt V}
    (hl : Later S cfg p c hello shRecord sh exts dhe fl cm s) (t : Bytes) :
    ∃ x : Session, x.Received S (cfg.psk.map (·.1)) p.secret ∧ c.rx.bytes = x.received ++ s.c.rx.bytes ∧
      x.hello = hello ∧ x.sh = sh ∧ x.dhe = dhe ∧ x.clientMsgs = cm ∧ x.traffic = t ∧
      s.c.ks.server.transcript = x.beforeFinished ∧
      s.c.tx.log = c.tx.log ++ sentRecords (plaintextRecord 22 [3, 1] x.hello ::
        handshakeRecords S (writeKey S (x.clientSecret S (cfg.psk.map (·.1))))
          (writeIv S (x.clientSecret S (cfg.psk.map (·.1)))) 0 x.clientMsgs) := by
  obtain ⟨rs, hm⟩ := ParsedAs.list S (hl.received.parsed S)
  obtain ⟨r, share, q1, q2, q3, q4, -⟩ := serverHello_share S hl.parsed hl.shared
  have hb := Matches.msgBytes S hm
  have hc := hl.received.carries S hS (trafficState_iv S hS _)
  rw [Matches.bytes S hm] at hc
  refine ⟨⟨hello, shRecord, sh, share, dhe, fl.map Prod.fst, rs, cm, t⟩,
    ⟨?_, ⟨r, q1, q2, q3⟩, q4, hc, Matches.encoded S hm⟩, ?_, rfl, rfl, rfl, rfl, rfl, ?_, ?_⟩
  · obtain ⟨hdr, rh, junk, e1, e2, e3, e4⟩ := hl.serverHello
    obtain ⟨v1, v2, rfl, hlen⟩ := header_shape e1
    rw [e2, e3] at e4
    exact ⟨v1, v2, junk, by rw [← e3]; exact hlen, e4⟩
  · rw [hl.bytes]
    simp [Session.received, flightBytes, List.flatMap]
  · rw [hl.transcript, hb]
    rfl
  · rw [hl.sent, sentMsgs_records]
    simp [sentRecords, Session.clientSecret, Session.tr0]

end ETls
