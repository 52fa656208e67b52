import Verif.Proofs.HandshakeRun

/-! # The description of a successful `open` -/

namespace ETls

variable (S : Suite) {V : Type}
open Spec

/-- A connection as `TlsConnection::new` makes it. -/
structure Conn.Fresh (c : Conn) : Prop where
  closed : c.opened = false
  keys : c.ks = KeySchedule.new S
  reader : c.rr.Inv
  nothingRead : c.rr.pending = 0
  idle : c.wb.Idle
  room : 5 ≤ c.wb.buffer.length

theorem Conn.new_fresh {rx : Rx} {tx : Tx} {rb wb : Bytes} {c : Conn} (h : Conn.new S rx tx rb wb = .ok c) :
    c.Fresh S ∧ c.rx = rx ∧ c.tx = tx := by
  unfold Conn.new WB.new at h
  split at h
  · simp only [Res.map, Res.ok.injEq] at h
    subst h
    next hl =>
    refine ⟨⟨rfl, rfl, ?_, rfl, ⟨rfl, rfl⟩, ?_⟩, rfl, rfl⟩
    · unfold RR.Inv RR.new; simp
    · simp only [TLS_RECORD_OVERHEAD] at hl; simp only; omega
  · simp [Res.map] at h

/-- The records received in state `ServerVerify`, in order, and the read keys after them. -/
inductive Received : KsState → List (Bytes × List (Bytes × ServerHs)) → KsState → Prop where
  | nil (k : KsState) : Received k [] k
  | cons (k k' : KsState) (record : Bytes) (ms : List (Bytes × ServerHs)) (n : Nat)
      (rest : List (Bytes × List (Bytes × ServerHs))) (h : Incoming S k record ms n)
      (hr : Received { k with counter := k.counter + n } rest k') : Received k ((record, ms) :: rest) k'

theorem Received.keys {k k' : KsState} {fl : List (Bytes × List (Bytes × ServerHs))} (h : Received S k fl k') :
    k' = { k with counter := k'.counter } := by
  induction h with
  | nil k => rfl
  | cons k k' record ms n rest _ _ ih => rw [ih]

/-- The messages of a list of records. -/
def flightMsgs (fl : List (Bytes × List (Bytes × ServerHs))) : List (Bytes × ServerHs) := fl.flatMap Prod.snd
/-- The bytes of a list of records. -/
def flightBytes (fl : List (Bytes × List (Bytes × ServerHs))) : Bytes := fl.flatMap Prod.fst

theorem header_length {hdr : Bytes} {rh : RecordHeader} (hd : RecordHeader.decode hdr = .ok rh) : hdr.length = 5 := by
  unfold RecordHeader.decode at hd
  split at hd
  · rfl
  · simp at hd

theorem Took.state {p : Provider V} {secret tr m : Bytes} {h : ServerHs} {t t' : HsData V × State}
    (ht : Took S p secret tr m h t t') (hs : t.2 = .serverVerify ∨ t.2 = .clientCert ∨ t.2 = .clientFinished) :
    t'.2 = .serverVerify ∨ t'.2 = .clientCert ∨ t'.2 = .clientFinished := by
  cases ht <;> simp_all

theorem TookAll.state {p : Provider V} {secret tr : Bytes} {ms : List (Bytes × ServerHs)} {t t' : HsData V × State}
    (ht : TookAll S p secret tr t ms t') (hs : t.2 = .serverVerify ∨ t.2 = .clientCert ∨ t.2 = .clientFinished) :
    t'.2 = .serverVerify ∨ t'.2 = .clientCert ∨ t'.2 = .clientFinished := by
  induction ht with
  | nil tr t => exact hs
  | cons tr t t1 t2 m h ms h1 _ ih => exact ih (h1.state S hs)

theorem Took.left {p : Provider V} {secret tr m : Bytes} {h : ServerHs} {t t' : HsData V × State}
    (ht : Took S p secret tr m h t t') (hs : t'.2 = .serverVerify) : t.2 = .serverVerify ∧ ∀ f, h ≠ .finished f := by
  cases ht <;> simp_all

/-- The handshake only stays in `ServerVerify` if no Finished was accepted. -/
theorem TookAll.unfinished {p : Provider V} {secret tr : Bytes} {ms : List (Bytes × ServerHs)} {t t' : HsData V × State}
    (ht : TookAll S p secret tr t ms t') (hs : t'.2 = .serverVerify) :
    ∀ m ∈ ms, ∀ f, m.2 ≠ .finished f := by
  have key : t.2 = .serverVerify ∧ ∀ m ∈ ms, ∀ f, m.2 ≠ .finished f := by
    induction ht with
    | nil tr t => exact ⟨hs, by simp⟩
    | cons tr t t1 t2 m h ms h1 _ ih =>
      obtain ⟨k1, k2⟩ := ih hs
      obtain ⟨k3, k4⟩ := h1.left S k1
      refine ⟨k3, fun x hx => ?_⟩
      rcases List.mem_cons.1 hx with rfl | hx
      · exact k4
      · exact k2 x hx
  exact key.2

theorem openLoop_inv (cfg : Config) (p : Provider V) {fuel : Nat} {st : State} {s s' : HSt V}
    (h : openLoop S cfg p fuel st s = (.ok (), s')) :
    (st = .applicationData ∧ s' = s) ∨ (st ≠ .applicationData ∧ ∃ fuel' st1 s1, fuel = fuel' + 1 ∧
      process S cfg p st s = (.ok st1, s1) ∧ openLoop S cfg p fuel' st1 s1 = (.ok (), s')) := by
  cases fuel with
  | zero => simp [openLoop] at h
  | succ fuel =>
    unfold openLoop at h
    by_cases hst : st = .applicationData
    · rw [if_pos hst] at h
      simp only [M.pure_apply, Prod.mk.injEq, true_and] at h
      exact .inl ⟨hst, h.symm⟩
    · rw [if_neg hst] at h
      obtain ⟨st1, s1, h1, h2⟩ := M.bind_inv h
      exact .inr ⟨hst, fuel, st1, s1, rfl, h1, h2⟩

/-- The server's flight in a successful handshake. -/
theorem flight_ok (hS : S.Lawful) (cfg : Config) (p : Provider V) {secret : Bytes} (fuel : Nat) : ∀ {s s' : HSt V},
    s.c.rr.Inv → s.c.rr.pending = 0 → s.c.ks.server.st.trafficSecret = some secret →
    openLoop S cfg p fuel .serverVerify s = (.ok (), s') →
    ∃ fl k' rr' rx' hd' st' fuel', Received S s.c.ks.server.st fl k' ∧
      TookAll S p secret s.c.ks.server.transcript (s.h, .serverVerify) (flightMsgs fl) (hd', st') ∧
      s.c.rx.bytes = flightBytes fl ++ rx'.bytes ∧ rr'.Inv ∧ rr'.pending = 0 ∧
      rr'.buf.length = s.c.rr.buf.length ∧ (st' = .clientCert ∨ st' = .clientFinished) ∧
      ((∀ g ∈ fl, g.1.length ≤ s.c.rr.buf.length + 5) ∧ fl ≠ [] ∧
        ∀ g ∈ fl.dropLast, ∀ m ∈ g.2, ∀ f, m.2 ≠ .finished f) ∧
      openLoop S cfg p fuel' st'
        ⟨s.c.readTo rr' rx' ⟨k', s.c.ks.server.transcript ++ msgBytes (flightMsgs fl)⟩, hd'⟩ = (.ok (), s') := by
  induction fuel with
  | zero => intro s s' _ _ _ h; simp [openLoop] at h
  | succ fuel ih =>
    intro s s' hi hp hk h
    rcases openLoop_inv S cfg p h with ⟨h1, _⟩ | ⟨_, fuel', st1, s1, hf, h1, h2⟩
    · cases h1
    · have hf : fuel = fuel' := by omega
      subst hf
      obtain ⟨record, ms, n, rr', rx', hd', i1, i2, i3, i4, i5, i6, i7, i8, rfl⟩ := step_verify S hS cfg p hi hp hk h1
      rcases i2.state S (.inl rfl) with hst | hst
      · simp only at hst
        subst hst
        obtain ⟨fl, k', rr2, rx2, hd2, st2, fuel2, j1, j2, j3, j4, j5, j6, j7, j9, j8⟩ := ih i5 i6 (by exact hk) h2
        refine ⟨(record, ms) :: fl, k', rr2, rx2, hd2, st2, fuel2, .cons _ _ _ _ _ _ i1 j1, ?_, ?_, j4, j5, ?_, j7, ⟨?_, by simp, ?_⟩, ?_⟩
        · exact i2.append S j2
        · rw [i3, j3]; simp [flightBytes]
        · rw [j6, i7]
        · intro g hg
          rcases List.mem_cons.1 hg with rfl | hg
          · exact i8
          · have := j9.1 g hg
            simp only [i7] at this
            exact this
        · intro g hg m hm f
          rw [List.dropLast_cons_of_ne_nil j9.2.1] at hg
          rcases List.mem_cons.1 hg with rfl | hg
          · exact i2.unfinished S rfl m hm f
          · exact j9.2.2 g hg m hm f
        · rw [← j8]
          simp [flightMsgs, msgBytes]
      · refine ⟨[(record, ms)], _, rr', rx', hd', st1, fuel, .cons _ _ _ _ _ _ i1 (.nil _), ?_, ?_, i5, i6, i7, hst,
          ⟨by simpa using i8, by simp, by simp⟩, ?_⟩
        · simpa [flightMsgs] using i2
        · rw [i3]; simp [flightBytes]
        · rw [← h2]
          simp [flightMsgs]

/-- Everything a handshake consisted of. -/
structure HsView (V : Type) where
  /-- the ClientHello message -/
  hello : Bytes
  /-- the record with the ServerHello -/
  shRecord : Bytes
  /-- the ServerHello message and its extensions -/
  sh : Bytes
  exts : List Ext
  /-- the Diffie-Hellman result -/
  dhe : Bytes
  /-- the records received after the ServerHello, with the messages in each -/
  flight : List (Bytes × List (Bytes × ServerHs))
  /-- the handshake data and the state after these records -/
  data : HsData V
  state : State
  /-- client Certificate and CertificateVerify, if any -/
  clientMsgs : List Bytes
  /-- the transcript from which the application secrets are derived -/
  traffic : Bytes

namespace HsView
variable (cfg : Config) (w : HsView V)
/-- The messages after the ServerHello. -/
def msgs : List (Bytes × ServerHs) := flightMsgs w.flight
/-- ClientHello...ServerHello -/
def tr0 : Bytes := w.hello ++ w.sh
/-- ClientHello...end of the server's flight -/
def tr1 : Bytes := w.tr0 ++ msgBytes w.msgs
/-- everything before the client Finished -/
def tr2 : Bytes := w.tr1 ++ w.clientMsgs.flatten
/-- The client's handshake traffic secret. -/
def clientSecret : Bytes := clientHandshakeTraffic S (cfg.psk.map (·.1)) w.dhe w.tr0
/-- The server's handshake traffic secret. -/
def serverSecret : Bytes := serverHandshakeTraffic S (cfg.psk.map (·.1)) w.dhe w.tr0
end HsView

/-- The transport events of sending handshake messages under the keys of `secret`, numbered from `n`. -/
def sentMsgs (secret : Bytes) : Nat → List Bytes → List OutEv
  | _, [] => []
  | n, m :: ms => .wrote (ciphertextRecord S (writeKey S secret) (writeIv S secret) n 22 m) :: .flushed ::
      sentMsgs secret (n + 1) ms

theorem sentMsgs_append (secret : Bytes) (a b : List Bytes) (n : Nat) :
    sentMsgs S secret n (a ++ b) = sentMsgs S secret n a ++ sentMsgs S secret (n + a.length) b := by
  induction a generalizing n with
  | nil => simp [sentMsgs]
  | cons x a ih => simp [sentMsgs, ih, Nat.add_assoc, Nat.add_comm 1]

/-- The verifier state after the host name was announced. -/
def hostVst (cfg : Config) (p : Provider V) (v : V) : V := match p.verifier, cfg.serverName with
  | some ops, some name => (ops.setHostname name v).2
  | _, _ => v

/-- `w` describes the successful handshake that led from `c` to `c'`. -/
structure Describes (cfg : Config) (p : Provider V) (v : V) (c : Conn) (w : HsView V) (c' : Conn) : Prop where
  /-- the ClientHello is the one RFC 8446 prescribes for the configuration -/
  hello : ∃ binders, w.hello = (expectedHello cfg S.codePoint p.random (S.pubKey p.secret) binders).bytes ∧
    binders.length = cfg.identities ∧
    ∀ b ∈ binders, b.length = S.hashLen ∧ b = verifyData S (binderKey S (cfg.psk.map (·.1)))
      (expectedHello cfg S.codePoint p.random (S.pubKey p.secret) binders).truncated
  /-- the ServerHello came in a plaintext handshake record -/
  serverHello : ∃ hdr rh junk, RecordHeader.decode hdr = .ok rh ∧ rh.contentType = .handshake ∧
    rh.contentLength = (w.sh ++ junk).length ∧ w.shRecord = hdr ++ (w.sh ++ junk)
  parsed : ParsedAs S w.sh (.serverHello w.exts)
  shared : serverHelloSharedSecret S w.exts p.secret = some w.dhe
  /-- the records after it -/
  received : ∃ k', Received S (trafficState S (w.serverSecret S cfg)) w.flight k'
  took : TookAll S p (w.serverSecret S cfg) w.tr0 (⟨none, none, none, hostVst cfg p v⟩, .serverVerify) w.msgs
    (w.data, w.state)
  /-- the client's messages -/
  client : (w.state = .clientFinished ∧ w.clientMsgs = [] ∧ w.data.trafficHash = some w.traffic) ∨
    (w.state = .clientCert ∧ w.traffic = w.tr1 ∧ ∃ ctx, w.data.certReq = some ctx ∧
      ((p.clientCert = none ∧ w.clientMsgs = [certificateMsg ctx []]) ∨
       (∃ cert sign scheme sig, p.clientCert = some (.x509 cert) ∧ p.signer = .ok (sign, scheme) ∧
          sign (clientSignedContent S (w.tr1 ++ certificateMsg ctx [cert])) = some sig ∧
          w.clientMsgs = [certificateMsg ctx [cert], certificateVerifyMsg scheme.code sig])))
  /-- what was sent -/
  sent : c'.tx.log = c.tx.log ++ [.wrote (plaintextRecord 22 [3, 1] w.hello), .flushed] ++
    sentMsgs S (w.clientSecret S cfg) 0 (w.clientMsgs ++ [finishedMsg (verifyData S (w.clientSecret S cfg) w.tr2)])
  /-- what was received -/
  bytes : c.rx.bytes = w.shRecord ++ flightBytes w.flight ++ c'.rx.bytes
  /-- the keys -/
  clientKeys : c'.ks.client.st = trafficState S (clientApplicationTraffic S (cfg.psk.map (·.1)) w.dhe w.traffic)
  serverKeys : c'.ks.server =
    ⟨trafficState S (serverApplicationTraffic S (cfg.psk.map (·.1)) w.dhe w.traffic), w.traffic⟩
  opened : c'.opened = true
  reader : c'.rr.Inv ∧ c'.rr.pending = 0 ∧ c'.rr.buf.length = c.rr.buf.length
  writer : c'.wb.Idle ∧ c'.wb.buffer.length = c.wb.buffer.length
  rest : c'.dec = c.dec ∧ c'.fp = c.fp
  /-- every record fits the read buffer -/
  sizes : w.shRecord.length ≤ c.rr.buf.length + 5 ∧ ∀ g ∈ w.flight, g.1.length ≤ c.rr.buf.length + 5
  /-- no Finished before the last record -/
  finishedLast : w.flight ≠ [] ∧ ∀ g ∈ w.flight.dropLast, ∀ m ∈ g.2, ∀ f, m.2 ≠ .finished f

theorem setHostname_inv (cfg : Config) (p : Provider V) {s s' : HSt V} (h : setHostname cfg p s = (.ok (), s')) :
    s' = ⟨s.c, { s.h with vst := hostVst cfg p s.h.vst }⟩ := by
  unfold setHostname at h
  unfold hostVst
  rcases hv : p.verifier with _ | ops <;> rcases hn : cfg.serverName with _ | name <;> simp only [hv, hn] at h ⊢
  · simp only [M.pure_apply, Prod.mk.injEq, true_and] at h; exact h.symm
  · simp only [M.pure_apply, Prod.mk.injEq, true_and] at h; exact h.symm
  · simp only [M.pure_apply, Prod.mk.injEq, true_and] at h; exact h.symm
  · simp only [Prod.mk.injEq] at h; exact h.2.symm

theorem trafficState_iv (hS : S.Lawful) (secret : Bytes) : (trafficState S secret).iv.length = S.ivLen :=
  hS.expand_length _ _ _

/-- From `ClientFinished` to the end. -/
theorem finish_ok (hS : S.Lawful) (cfg : Config) (p : Provider V) {fuel : Nat} {s s' : HSt V}
    (psk : Option Bytes) (dhe secret : Bytes)
    (hi : s.c.wb.Idle) (hL : 5 ≤ s.c.wb.buffer.length)
    (hk : s.c.ks.client.st = { trafficState S secret with counter := s.c.ks.client.st.counter })
    (hsh : s.c.ks.shared.secret = Spec.deriveSecret S (handshakeSecret S psk dhe) "derived" [])
    (h : openLoop S cfg p fuel .clientFinished s = (.ok (), s')) :
    ∃ t, s.h.trafficHash = some t ∧ s'.c.wb.Idle ∧ s'.c.wb.buffer.length = s.c.wb.buffer.length ∧
      s'.c.tx.log = s.c.tx.log ++ sentMsgs S secret s.c.ks.client.st.counter
        [finishedMsg (verifyData S secret s.c.ks.server.transcript)] ∧
      s'.c.rx = s.c.rx ∧ s'.c.rr = s.c.rr ∧ s'.c.dec = s.c.dec ∧ s'.c.fp = s.c.fp ∧ s'.c.opened = s.c.opened ∧
      s'.c.ks.client.st = trafficState S (clientApplicationTraffic S psk dhe t) ∧
      s'.c.ks.server = ⟨trafficState S (serverApplicationTraffic S psk dhe t), t⟩ := by
  rcases openLoop_inv S cfg p h with ⟨h1, _⟩ | ⟨_, fuel', st1, s1, _, h1, h2⟩
  · cases h1
  · obtain ⟨t, wb, ctl, ht, w1, w2, rfl, rfl⟩ := step_clientFinished S hS cfg p psk dhe secret hi hL
      (by rw [hk]; exact trafficState_iv S hS secret) (by rw [hk]; rfl) hsh h1
    rcases openLoop_inv S cfg p h2 with ⟨_, rfl⟩ | ⟨hne, _⟩
    · refine ⟨t, ht, w1, w2, ?_, rfl, rfl, rfl, rfl, rfl, rfl, rfl⟩
      simp only [sentMsgs]
      rw [hk]
      rfl
    · exact absurd rfl hne

/-- Every successful `open` on a fresh connection has a description. -/
theorem open_describes (hS : S.Lawful) (cfg : Config) (p : Provider V) (v : V) {c c' : Conn} (hf : c.Fresh S)
    (h : Conn.open_ S cfg p v c = (.ok (), c')) : ∃ w, Describes S cfg p v c w c' := by
  unfold Conn.open_ at h
  rcases ho : openSt S cfg p ⟨c, ⟨none, none, none, v⟩⟩ with ⟨r, s'⟩
  rw [ho] at h
  simp only [Prod.mk.injEq] at h
  obtain ⟨rfl, rfl⟩ := h
  unfold openSt at ho
  obtain ⟨_, s0, h0, ho⟩ := M.bind_inv ho
  rw [setHostname_inv cfg p h0] at ho
  rw [M.get_bind] at ho
  obtain ⟨_, s9, h9, ho⟩ := M.bind_inv ho
  simp only [M.modify_apply, Prod.mk.injEq, true_and] at ho
  subst ho
  simp only at h9
  generalize c.rx.size + 8 = fuel at h9
  -- ClientHello
  rcases openLoop_inv S cfg p h9 with ⟨h1, _⟩ | ⟨_, fuel1, st1, s1, _, h1, h2⟩
  · cases h1
  obtain ⟨binders, msg, wb1, ctl1, a1, a2, a3, a4, a5, rfl, rfl⟩ := step_hello S hS cfg p hf.idle hf.room hf.keys h1
  -- ServerHello
  rcases openLoop_inv S cfg p h2 with ⟨h3, _⟩ | ⟨_, fuel2, st2, s2, _, h3, h4⟩
  · cases h3
  obtain ⟨hdr, rh, m, junk, exts, secret, dhe, rr2, rx2, b1, b2, b3, b4, b5, b6, b7, b8, b9, b10, b11, b12, rfl, rfl⟩ :=
    step_serverHello S hS cfg p (cfg.psk.map (·.1)) hf.reader hf.nothingRead rfl h3
  simp only [Option.some.injEq] at b5
  subst b5
  -- the server's flight
  obtain ⟨fl, k', rr3, rx3, hd3, st3, fuel3, f1, f2, f3, f4, f5, f6, f7, f9, f8⟩ :=
    flight_ok S hS cfg p fuel2 b9 b10 rfl h4
  simp only [b11] at f1 f2 f3 f6 f9
  have hk' := f1.keys S
  have hshl : (hdr ++ (m ++ junk)).length ≤ c.rr.buf.length + 5 := by
    have h5 := (header_length b1)
    simp only [List.length_append] at b12 ⊢
    omega
  rcases f7 with rfl | rfl
  · -- a certificate was requested
    rcases openLoop_inv S cfg p f8 with ⟨h5, _⟩ | ⟨_, fuel4, st4, s4, _, h5, h6⟩
    · cases h5
    obtain ⟨ctx, certs, wb4, ctl4, c1, c2, c3, c4, c5, c6, rfl⟩ := step_clientCert S hS cfg p a4
      (by simp only [a5]; exact hf.room) (trafficState_iv S hS _) h5
    simp only at c1 c5
    rcases certs with _ | ⟨cert, _ | ⟨cert2, more⟩⟩
    · simp only [if_true] at c6
      subst c6
      obtain ⟨t, d1, d2, d3, d4, d5, d6, d7, d8, d9, d10, d11⟩ := finish_ok S hS cfg p (cfg.psk.map (·.1)) dhe
        (clientHandshakeTraffic S (cfg.psk.map (·.1)) dhe (msg ++ m)) c4
        (by simp only [c5, a5]; exact hf.room) rfl rfl h6
      simp only [Option.some.injEq] at d1
      subst d1
      refine ⟨⟨msg, hdr ++ (m ++ junk), m, exts, dhe, fl, hd3, .clientCert, [certificateMsg ctx []], _⟩,
        ⟨binders, a1, a2, a3⟩, ⟨hdr, rh, junk, b1, b2, b3, rfl⟩, b4, b6, ⟨k', f1⟩, f2, .inr ⟨rfl, rfl, ctx, c1, .inl ⟨c2, rfl⟩⟩,
        ?_, ?_, d10, d11, rfl, ⟨by rw [d6]; exact f4, by rw [d6]; exact f5, by rw [d6]; simp only [f6]⟩,
        ⟨d2, by rw [d3]; simp only [c5, a5]⟩, ⟨d7, d8⟩, ⟨hshl, f9.1⟩, f9.2⟩
      · simp only [d4]
        simp [sentMsgs, HsView.clientSecret, HsView.tr0, HsView.tr1, HsView.tr2, HsView.msgs, WriteKS.next, trafficState]
      · simp only [d5]
        rw [b7, f3]
        simp
    · simp only [reduceCtorEq, if_false] at c6
      subst c6
      rcases openLoop_inv S cfg p h6 with ⟨h7, _⟩ | ⟨_, fuel5, st5, s5, _, h7, h8⟩
      · cases h7
      obtain ⟨sign, scheme, sig, wb5, ctl5, e1, e2, e3, e4, -, rfl, rfl⟩ := step_clientCertVerify S hS cfg p c4
        (by simp only [c5, a5]; exact hf.room) (trafficState_iv S hS _) h7
      simp only at e3
      obtain ⟨t, d1, d2, d3, d4, d5, d6, d7, d8, d9, d10, d11⟩ := finish_ok S hS cfg p (cfg.psk.map (·.1)) dhe
        (clientHandshakeTraffic S (cfg.psk.map (·.1)) dhe (msg ++ m)) e2
        (by simp only [e3, c5, a5]; exact hf.room) rfl rfl h8
      simp only [Option.some.injEq] at d1
      subst d1
      refine ⟨⟨msg, hdr ++ (m ++ junk), m, exts, dhe, fl, hd3, .clientCert,
          [certificateMsg ctx [cert], certificateVerifyMsg scheme.code sig], _⟩,
        ⟨binders, a1, a2, a3⟩, ⟨hdr, rh, junk, b1, b2, b3, rfl⟩, b4, b6, ⟨k', f1⟩, f2,
        .inr ⟨rfl, rfl, ctx, c1, .inr ⟨cert, sign, scheme, sig, c2, e1, e4, rfl⟩⟩,
        ?_, ?_, d10, d11, rfl, ⟨by rw [d6]; exact f4, by rw [d6]; exact f5, by rw [d6]; simp only [f6]⟩,
        ⟨d2, by rw [d3]; simp only [e3, c5, a5]⟩, ⟨d7, d8⟩, ⟨hshl, f9.1⟩, f9.2⟩
      · simp only [d4]
        simp [sentMsgs, HsView.clientSecret, HsView.tr0, HsView.tr1, HsView.tr2, HsView.msgs, WriteKS.next, trafficState]
      · simp only [d5]
        rw [b7, f3]
        simp
    · simp at c3
  · obtain ⟨t, d1, d2, d3, d4, d5, d6, d7, d8, d9, d10, d11⟩ := finish_ok S hS cfg p (cfg.psk.map (·.1)) dhe
      (clientHandshakeTraffic S (cfg.psk.map (·.1)) dhe (msg ++ m)) a4
      (by simp only [a5]; exact hf.room) rfl rfl f8
    simp only at d1
    refine ⟨⟨msg, hdr ++ (m ++ junk), m, exts, dhe, fl, hd3, .clientFinished, [], t⟩,
      ⟨binders, a1, a2, a3⟩, ⟨hdr, rh, junk, b1, b2, b3, rfl⟩, b4, b6, ⟨k', f1⟩, f2, .inl ⟨rfl, rfl, d1⟩,
      ?_, ?_, d10, d11, rfl, ⟨by rw [d6]; exact f4, by rw [d6]; exact f5, by rw [d6]; simp only [f6]⟩,
      ⟨d2, by rw [d3]; simp only [a5]⟩, ⟨d7, d8⟩, ⟨hshl, f9.1⟩, f9.2⟩
    · simp only [d4]
      simp [sentMsgs, HsView.clientSecret, HsView.tr0, HsView.tr1, HsView.tr2, HsView.msgs, trafficState]
    · simp only [d5]
      rw [b7, f3]
      simp

end ETls
