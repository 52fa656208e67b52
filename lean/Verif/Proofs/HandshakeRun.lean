import Verif.Proofs.Handshake

/-! # Successful handshakes

The steps that send, and the description of a whole successful `open`. -/

namespace ETls

variable (S : Suite) {V : Type}
open Spec

theorem M.bind_inv {ε σ α β : Type} {m : M ε σ α} {f : α → M ε σ β} {s s' : σ} {b : β}
    (h : (m >>= f) s = (.ok b, s')) : ∃ a s1, m s = (.ok a, s1) ∧ f a s1 = (.ok b, s') := by
  rcases hm : m s with ⟨r, s1⟩
  cases r with
  | err e => rw [M.bind_err hm] at h; cases h
  | panic => rw [M.bind_panic hm] at h; cases h
  | ok a => rw [M.bind_ok hm] at h; exact ⟨a, s1, rfl, h⟩

/-- An operation that cannot succeed. -/
def NeverOk {ε σ α : Type} (m : M ε σ α) : Prop := ∀ s a s', m s ≠ (.ok a, s')

theorem NeverOk.left {ε σ α β : Type} {m : M ε σ α} {f : α → M ε σ β} (h : NeverOk m) : NeverOk (m >>= f) := by
  intro s b s' hb
  obtain ⟨a, s1, h1, _⟩ := M.bind_inv hb
  exact h s a s1 h1

theorem NeverOk.right {ε σ α β : Type} {m : M ε σ α} {f : α → M ε σ β} (h : ∀ a, NeverOk (f a)) :
    NeverOk (m >>= f) := by
  intro s b s' hb
  obtain ⟨a, s1, _, h1⟩ := M.bind_inv hb
  exact h a s1 b s' h1

theorem neverOk_crash {ε σ α : Type} : NeverOk (M.crash : M ε σ α) := fun s a s' h => by simp at h

theorem neverOk_onFst {ε σ τ α : Type} {m : M ε σ α} (h : NeverOk m) : NeverOk (onFst (τ := τ) m) := by
  rintro ⟨s, t⟩ a ⟨s', t'⟩ hb
  unfold onFst at hb
  simp only [Prod.mk.injEq] at hb
  exact h s a _ (Prod.ext hb.1 rfl)

theorem neverOk_withU24 {α : Type} {op : Enc α} (h : NeverOk op) : NeverOk (CB.withU24Length op) := by
  unfold CB.withU24Length
  exact .right fun _ => .right fun _ => .right fun _ => .left h

theorem neverOk_withBuffer {τ : Type} {op : M TlsError (CB × τ) Unit} (h : NeverOk op) : NeverOk (WB.withBuffer op) := by
  rintro ⟨w, t⟩ a s' hb
  unfold WB.withBuffer at hb
  rcases hm : op (CB.wrapWithPos w.buffer w.pos, t) with ⟨r, c, t'⟩
  simp only [hm] at hb
  cases r with
  | ok u => exact h _ _ _ hm
  | err e => simp at hb
  | panic => simp at hb

/-- A raw public key as client certificate: encoding it is `todo!()`. -/
theorem rawCert_neverOk (raw ctx data : Bytes) (wks : WriteKS) :
    NeverOk (WB.writeRecord S (.handshake (.clientCert ⟨raw, ctx, [.rawPublicKey data]⟩) true) wks) := by
  have h1 : NeverOk (encAll CertEntry.encode [.rawPublicKey data]) := by
    unfold encAll
    exact .left neverOk_crash
  have h2 : NeverOk ((ClientHs.clientCert ⟨raw, ctx, [.rawPublicKey data]⟩).encode S) := by
    unfold ClientHs.encode
    refine .right fun _ => neverOk_withU24 ?_
    unfold ClientHs.encodeInner CertMsg.encode
    exact .right fun _ => neverOk_withU24 h1
  unfold WB.writeRecord
  refine .right fun x => ?_
  obtain ⟨w, t⟩ := x
  by_cases hw : w.header.isSome = true
  · simp only [hw, if_true]
    intro s a s' h
    simp at h
  · simp only [hw]
    refine .right fun _ => .left (neverOk_withBuffer ?_)
    exact .right fun _ => .left (neverOk_onFst h2)

/-! ## Steps that send -/

/-- The connection after a record was sent: new write buffer, transport log and counter, and transcript `tr`. -/
abbrev Conn.sent (c : Conn) (wb : WB) (ctl : List OutCtl) (tr record : Bytes) : Conn :=
  { c with wb := wb, tx := ⟨ctl, c.tx.log ++ [.wrote record, .flushed]⟩,
           ks := { c.ks with client := c.ks.client.next, server := { c.ks.server with transcript := tr } } }

/-- `write_record` succeeds on an idle buffer only if the record fits. -/
theorem Conn.writeRecord_inv (hS : S.Lawful) (rec : ClientRecord) {c c1 : Conn} {bs bs' tr' out : Bytes}
    (hi : c.wb.Idle) (hL : 5 ≤ c.wb.buffer.length) (ha : Appends (rec.encodePayload S) bs ())
    (hf : Finishes S rec c.ks.client bs c.ks.server.transcript bs' tr')
    (h : Conn.writeRecord S rec c = (.ok out, c1)) :
    ∃ wb, wb.Idle ∧ wb.buffer.length = c.wb.buffer.length ∧ out = recordBytes S c.ks.client rec.header bs' ∧
      c1 = c.wrote wb tr' ∧ recordRoom rec.header bs ≤ c.wb.buffer.length := by
  by_cases hfit : recordRoom rec.header bs ≤ c.wb.buffer.length
  · obtain ⟨wb, h1, h2, h3⟩ := writeRecord_ok S hS rec c.ks.client c.wb bs c.ks.server.transcript bs' tr' hi hL ha hf hfit
    rw [Conn.writeRecord_of S h1] at h
    simp only [Prod.mk.injEq, Res.ok.injEq] at h
    exact ⟨wb, h2, h3, h.1.symm, h.2.symm, hfit⟩
  · obtain ⟨e, w', tr'', h1, _⟩ := writeRecord_short S hS rec c.ks.client c.wb bs c.ks.server.transcript bs' tr' hi hL ha
      hf (by omega)
    rw [Conn.writeRecord_of S h1] at h
    simp at h

/-- Sending one protected handshake message. -/
theorem send_ok (hS : S.Lawful) (m : ClientHs) {c c1 c2 : Conn} {bs out : Bytes} (hi : c.wb.Idle)
    (hL : 5 ≤ c.wb.buffer.length) (hiv : c.ks.client.st.iv.length = S.ivLen) (ha : Appends (m.encode S) bs ())
    (h1 : Conn.writeRecord S (.handshake m true) c = (.ok out, c1)) (h2 : respond out c1 = (.ok (), c2)) :
    ∃ wb ctl, wb.Idle ∧ wb.buffer.length = c.wb.buffer.length ∧
      c2 = c.sent wb ctl (c.ks.server.transcript ++ bs)
        (ciphertextRecord S c.ks.client.st.key c.ks.client.st.iv c.ks.client.st.counter 22 bs) := by
  obtain ⟨wb, k1, k2, k3, rfl, _⟩ := Conn.writeRecord_inv S hS (.handshake m true) hi hL ha
    (finishes_encrypted S m _ bs _) h1
  obtain ⟨_, ctl, rfl⟩ := respond_ok h2
  refine ⟨wb, ctl, k1, k2, ?_⟩
  rw [k3, recordBytes_spec S hS _ hiv _ rfl]
  rfl

theorem onConn_inv {α : Type} {m : M TlsError Conn α} {s s' : HSt V} {a : α} (h : onConn m s = (.ok a, s')) :
    ∃ c, m s.c = (.ok a, c) ∧ s' = { s with c := c } := by
  simp only [onConn, Prod.mk.injEq] at h
  exact ⟨_, Prod.ext h.1 rfl, h.2.symm⟩

/-- A successful step in state `ClientHello`. -/
theorem step_hello (hS : S.Lawful) (cfg : Config) (p : Provider V) {s s' : HSt V} {st' : State}
    (hi : s.c.wb.Idle) (hL : 5 ≤ s.c.wb.buffer.length) (hks : s.c.ks = KeySchedule.new S)
    (h : process S cfg p .clientHello s = (.ok st', s')) :
    ∃ binders msg wb ctl, msg = (expectedHello cfg S.codePoint p.random (S.pubKey p.secret) binders).bytes ∧
      binders.length = cfg.identities ∧
      (∀ b ∈ binders, b.length = S.hashLen ∧ b = verifyData S (binderKey S (cfg.psk.map (·.1)))
          (expectedHello cfg S.codePoint p.random (S.pubKey p.secret) binders).truncated) ∧
      wb.Idle ∧ wb.buffer.length = s.c.wb.buffer.length ∧ st' = .serverHello ∧
      s' = ⟨{ s.c with
              tx := ⟨ctl, s.c.tx.log ++ [.wrote (plaintextRecord 22 [3, 1] msg), .flushed]⟩
              wb := wb
              ks := ⟨⟨deriveSecret S (earlySecret S (cfg.psk.map (·.1))) "derived" [],
                      some (earlySecret S (cfg.psk.map (·.1)))⟩,
                     WriteKS.next { (KeySchedule.new S).client with binderKey := some (binderKey S (cfg.psk.map (·.1))) },
                     ⟨(KeySchedule.new S).server.st, msg⟩⟩ },
            { s.h with secret := some p.secret }⟩ := by
  by_cases hfit : 5 + helloLength S cfg p ≤ s.c.wb.buffer.length
  · obtain ⟨binders, msg, wb, h1, h2, h3, h4, h5, h6, h7⟩ := clientHello_run S hS cfg p s hi (by rw [hks]; rfl) hfit
    rw [show s.c.ks.server.transcript = [] by rw [hks]; rfl] at h6 h7
    simp only [List.nil_append] at h6 h7
    rw [process_clientHello S cfg p h7] at h
    obtain ⟨u, s1, g1, g2⟩ := M.bind_inv h
    obtain ⟨c2, g3, rfl⟩ := onConn_inv g1
    obtain ⟨_, ctl, rfl⟩ := respond_ok g3
    simp only [M.pure_apply, Prod.mk.injEq, Res.ok.injEq] at g2
    obtain ⟨rfl, rfl⟩ := g2
    refine ⟨binders, msg, wb, ctl, h3, h5, h6, h1, h2, rfl, ?_⟩
    simp only [hks]
  · obtain ⟨e, h1, _⟩ := C07_client_hello S hS cfg p s hi hks hL (by omega)
    rw [h] at h1
    cases h1

/-- A successful step in state `ServerHello`. -/
theorem step_serverHello (hS : S.Lawful) (cfg : Config) (p : Provider V) {s s' : HSt V} {st' : State} (psk : Option Bytes)
    (hi : s.c.rr.Inv) (hp : s.c.rr.pending = 0)
    (hk : s.c.ks.shared.secret = Spec.deriveSecret S (earlySecret S psk) "derived" [])
    (h : process S cfg p .serverHello s = (.ok st', s')) :
    ∃ hdr rh m junk exts secret dhe rr' rx', RecordHeader.decode hdr = .ok rh ∧ rh.contentType = .handshake ∧
      rh.contentLength = (m ++ junk).length ∧ ParsedAs S m (.serverHello exts) ∧
      s.h.secret = some secret ∧ serverHelloSharedSecret S exts secret = some dhe ∧
      s.c.rx.bytes = hdr ++ (m ++ junk) ++ rx'.bytes ∧ rx'.size + 5 ≤ s.c.rx.size ∧
      rr'.Inv ∧ rr'.pending = 0 ∧ rr'.buf.length = s.c.rr.buf.length ∧ (m ++ junk).length ≤ s.c.rr.buf.length ∧ st' = .serverVerify ∧
      s' = ⟨{ s.c with
              rx := rx', rr := rr'
              ks := ⟨⟨Spec.deriveSecret S (handshakeSecret S psk dhe) "derived" [], some (handshakeSecret S psk dhe)⟩,
                { s.c.ks.client with
                  st := trafficState S (clientHandshakeTraffic S psk dhe (s.c.ks.server.transcript ++ m)) },
                ⟨trafficState S (serverHandshakeTraffic S psk dhe (s.c.ks.server.transcript ++ m)),
                  s.c.ks.server.transcript ++ m⟩⟩ },
            { s.h with secret := none }⟩ := by
  simp only [process] at h
  obtain ⟨rec, s1, h1, h2⟩ := M.bind_inv h
  have h2 := withErrorHandling_ok S h2
  obtain ⟨rr', rx', tr', hb, payload, hd, start, e1, e2, e3, e4, e5, e6, e7, e8, e9, e10, e11, e12⟩ := hsRead_ok S hi hp h1
  obtain ⟨t1, t2, t3, t4⟩ := serverRecordDecode_types S hd start payload _ _ _ e10
  subst e1
  cases rec with
  | alert a => simp [processServerHello] at h2
  | changeCipherSpec => simp [processServerHello] at h2
  | appData hdr st d => simp [processServerHello] at h2
  | handshake m =>
    obtain ⟨u1, q, u2⟩ := t2 m rfl
    obtain ⟨mb, h0, r1, r2, r3, r4, r5, r6, r7⟩ := read_ok S (by simp [PB.new]) u2
    subst r6
    simp only [PB.new, List.drop_zero] at r3
    cases m with
    | serverHello exts =>
      have hh0 : h0 = .serverHello exts := by
        cases h0 <;> simp [stamp] at r1
        rw [r1]
      subst hh0
      simp only [processServerHello] at h2
      rw [M.get_bind] at h2
      simp only at h2
      rcases hsec : s.h.secret with _ | secret
      · rw [hsec] at h2; simp at h2
      · rw [hsec] at h2
        simp only at h2
        unfold modHs at h2
        rw [M.modify_bind] at h2
        rcases hdh : serverHelloSharedSecret S exts secret with _ | dhe
        · rw [hdh] at h2; simp at h2
        · rw [hdh] at h2
          simp only at h2
          have hks := C35_handshake S hS { s.c.ks with
            server := { s.c.ks.server with transcript := s.c.ks.server.transcript ++ mb } } psk dhe hk
          rw [M.bind_ok (onKs_ok hks)] at h2
          simp only [M.pure_apply, Prod.mk.injEq, Res.ok.injEq] at h2
          obtain ⟨rfl, rfl⟩ := h2
          refine ⟨hb, hd, mb, q.buffer.drop q.pos, exts, secret, dhe, rr', rx', e7, u1, ?_, r2, rfl, hdh, ?_, e5, e2, e3, e4, ?_, rfl, rfl⟩
          · rw [← r3]; exact e8.symm
          · rw [← r3]; exact e9
          · rw [← r3]; exact e12
    | _ => simp [processServerHello] at h2

/-- A successful step in state `ClientCert`. -/
theorem step_clientCert (hS : S.Lawful) (cfg : Config) (p : Provider V) {s s' : HSt V} {st' : State}
    (hi : s.c.wb.Idle) (hL : 5 ≤ s.c.wb.buffer.length) (hiv : s.c.ks.client.st.iv.length = S.ivLen)
    (h : process S cfg p .clientCert s = (.ok st', s')) :
    ∃ ctx certs wb ctl, s.h.certReq = some ctx ∧ p.clientCert = (certs.head?).map .x509 ∧ certs.length ≤ 1 ∧
      wb.Idle ∧ wb.buffer.length = s.c.wb.buffer.length ∧
      st' = (if certs = [] then .clientFinished else .clientCertVerify) ∧
      s' = ⟨s.c.sent wb ctl (s.c.ks.server.transcript ++ certificateMsg ctx certs)
              (ciphertextRecord S s.c.ks.client.st.key s.c.ks.client.st.iv s.c.ks.client.st.counter 22
                (certificateMsg ctx certs)),
            { s.h with trafficHash := some s.c.ks.server.transcript }⟩ := by
  simp only [process] at h
  obtain ⟨⟨st, tx⟩, s1, h1, h2⟩ := M.bind_inv h
  simp only at h2
  obtain ⟨u, s2, h3, h4⟩ := M.bind_inv h2
  obtain ⟨c2, h5, rfl⟩ := onConn_inv h3
  simp only [M.pure_apply, Prod.mk.injEq, Res.ok.injEq] at h4
  obtain ⟨rfl, rfl⟩ := h4
  unfold clientCert at h1
  rw [M.get_bind] at h1
  unfold modHs at h1
  rw [M.modify_bind] at h1
  rcases hctx : s.h.certReq with _ | ctx
  · simp only [hctx] at h1; simp at h1
  · simp only [hctx] at h1
    obtain ⟨out, s3, k1, k2⟩ := M.bind_inv h1
    obtain ⟨c1, k3, rfl⟩ := onConn_inv k1
    simp only [M.pure_apply, Prod.mk.injEq, Res.ok.injEq] at k2
    obtain ⟨⟨rfl, rfl⟩, rfl⟩ := k2
    rcases hcert : p.clientCert with _ | ⟨cert⟩ | ⟨raw⟩
    · rw [hcert] at k3
      obtain ⟨wb, ctl, w1, w2, rfl⟩ := send_ok S hS _ hi hL hiv (clientCert_appends S [] ctx []) k3 h5
      exact ⟨ctx, [], wb, ctl, rfl, rfl, by simp, w1, w2, by simp [nextAfterCert], by simp only [hctx]⟩
    · rw [hcert] at k3
      obtain ⟨wb, ctl, w1, w2, rfl⟩ := send_ok S hS _ hi hL hiv (clientCert_appends S [] ctx [cert]) k3 h5
      exact ⟨ctx, [cert], wb, ctl, rfl, rfl, by simp, w1, w2, by simp [nextAfterCert], by simp only [hctx]⟩
    · rw [hcert] at k3
      exfalso
      have hno := rawCert_neverOk S [] ctx raw s.c.ks.client (s.c.wb, s.c.ks.server.transcript)
      rcases hw : WB.writeRecord S (.handshake (.clientCert ⟨[], ctx, [.rawPublicKey raw]⟩) true) s.c.ks.client
        (s.c.wb, s.c.ks.server.transcript) with ⟨r, wb, tr⟩
      have hw' := Conn.writeRecord_of S hw
      have hk : Conn.writeRecord S (.handshake (.clientCert ⟨[], ctx, [.rawPublicKey raw]⟩) true) s.c = (.ok out, c1) := k3
      rw [hw'] at hk
      simp only [Prod.mk.injEq] at hk
      exact hno out (wb, tr) (by rw [hw, hk.1])

/-- A successful step in state `ClientCertVerify`. -/
theorem step_clientCertVerify (hS : S.Lawful) (cfg : Config) (p : Provider V) {s s' : HSt V} {st' : State}
    (hi : s.c.wb.Idle) (hL : 5 ≤ s.c.wb.buffer.length) (hiv : s.c.ks.client.st.iv.length = S.ivLen)
    (h : process S cfg p .clientCertVerify s = (.ok st', s')) :
    ∃ sign scheme sig wb ctl, p.signer = .ok (sign, scheme) ∧ wb.Idle ∧ wb.buffer.length = s.c.wb.buffer.length ∧
      sign (clientSignedContent S s.c.ks.server.transcript) = some sig ∧ sig.length ≤ signatureSize S ∧
      st' = .clientFinished ∧
      s' = ⟨s.c.sent wb ctl (s.c.ks.server.transcript ++ certificateVerifyMsg scheme.code sig)
              (ciphertextRecord S s.c.ks.client.st.key s.c.ks.client.st.iv s.c.ks.client.st.counter 22
                (certificateVerifyMsg scheme.code sig)),
            s.h⟩ := by
  simp only [process] at h
  obtain ⟨⟨r, tx⟩, s1, h1, h2⟩ := M.bind_inv h
  simp only at h2
  obtain ⟨u, s2, h3, h4⟩ := M.bind_inv h2
  obtain ⟨c2, h5, rfl⟩ := onConn_inv h3
  simp only [M.lift_apply, Prod.mk.injEq] at h4
  obtain ⟨rfl, rfl⟩ := h4
  unfold clientCertVerify at h1
  rw [M.get_bind] at h1
  rcases hsig : p.signer with ⟨sign, scheme⟩ | e | _
  · simp only [hsig] at h1
    by_cases hm : 146 < (clientSignedContent S s.c.ks.server.transcript).length
    · rw [if_pos hm] at h1; simp at h1
    · rw [if_neg hm] at h1
      cases hsg : sign (clientSignedContent S s.c.ks.server.transcript) with
      | none => rw [hsg] at h1; cases h1
      | some sig =>
        rw [hsg] at h1
        simp only at h1
        by_cases hl : signatureSize S < sig.length
        · rw [if_pos hl] at h1; simp at h1
        · rw [if_neg hl] at h1
          obtain ⟨out, s3, k1, k2⟩ := M.bind_inv h1
          obtain ⟨c1, k3, rfl⟩ := onConn_inv k1
          simp only [M.pure_apply, Prod.mk.injEq, Res.ok.injEq] at k2
          obtain ⟨⟨rfl, rfl⟩, rfl⟩ := k2
          obtain ⟨wb, ctl, w1, w2, rfl⟩ := send_ok S hS _ hi hL hiv (certVerify_appends S scheme _) k3 h5
          exact ⟨sign, scheme, sig, wb, ctl, rfl, w1, w2, hsg, by omega, rfl, rfl⟩
  · simp only [hsig] at h1
    obtain ⟨out, s3, k1, k2⟩ := M.bind_inv h1
    simp only [M.pure_apply, Prod.mk.injEq, Res.ok.injEq] at k2
    exact absurd k2.1.1 (by simp)
  · simp only [hsig] at h1; simp at h1

/-- A successful step in state `ClientFinished`. -/
theorem step_clientFinished (hS : S.Lawful) (cfg : Config) (p : Provider V) {s s' : HSt V} {st' : State}
    (psk : Option Bytes) (dhe secret : Bytes)
    (hi : s.c.wb.Idle) (hL : 5 ≤ s.c.wb.buffer.length) (hiv : s.c.ks.client.st.iv.length = S.ivLen)
    (hk : s.c.ks.client.st.trafficSecret = some secret)
    (hsh : s.c.ks.shared.secret = Spec.deriveSecret S (handshakeSecret S psk dhe) "derived" [])
    (h : process S cfg p .clientFinished s = (.ok st', s')) :
    ∃ t wb ctl, s.h.trafficHash = some t ∧ wb.Idle ∧ wb.buffer.length = s.c.wb.buffer.length ∧
      st' = .applicationData ∧
      s' = ⟨{ s.c with
              wb := wb
              tx := ⟨ctl, s.c.tx.log ++ [.wrote (ciphertextRecord S s.c.ks.client.st.key s.c.ks.client.st.iv
                s.c.ks.client.st.counter 22 (finishedMsg (verifyData S secret s.c.ks.server.transcript))), .flushed]⟩
              ks := ⟨⟨Spec.deriveSecret S (masterSecret S psk dhe) "derived" [], some (masterSecret S psk dhe)⟩,
                { s.c.ks.client with st := trafficState S (clientApplicationTraffic S psk dhe t) },
                ⟨trafficState S (serverApplicationTraffic S psk dhe t), t⟩⟩ },
            { s.h with trafficHash := none }⟩ := by
  simp only [process] at h
  obtain ⟨tx, s1, h1, h2⟩ := M.bind_inv h
  obtain ⟨u, s2, h3, h4⟩ := M.bind_inv h2
  obtain ⟨c2, h5, rfl⟩ := onConn_inv h3
  unfold clientFinished at h1
  rw [M.get_bind, C35_client_finished S hS _ secret hk] at h1
  simp only [Res.mapErr] at h1
  rw [M.lift_ok_bind] at h1
  obtain ⟨c1, k3, rfl⟩ := onConn_inv h1
  obtain ⟨wb, ctl, w1, w2, rfl⟩ := send_ok S hS _ hi hL hiv (finished_appends S _ _) k3 h5
  unfold clientFinishedFinalize at h4
  rw [M.get_bind] at h4
  simp only at h4
  rcases ht : s.h.trafficHash with _ | t
  · rw [ht] at h4; simp at h4
  · rw [ht] at h4
    simp only at h4
    unfold modHs at h4
    rw [M.modify_bind] at h4
    simp only at h4
    obtain ⟨u, s4, k4, k5⟩ := M.bind_inv h4
    simp only [onKs, M.modify_apply, Prod.mk.injEq, true_and] at k4
    subst k4
    generalize htr : s.c.ks.server.transcript ++ finishedMsg (verifyData S secret s.c.ks.server.transcript) = tr at k5
    have happ := C35_application S hS (KeySchedule.replaceTranscript t
      ⟨s.c.ks.shared, s.c.ks.client.next, ⟨s.c.ks.server.st, tr⟩⟩) psk dhe hsh
    rw [M.bind_ok (onKs_ok happ)] at k5
    simp only [M.pure_apply, Prod.mk.injEq, Res.ok.injEq] at k5
    obtain ⟨rfl, rfl⟩ := k5
    exact ⟨t, wb, ctl, rfl, w1, w2, rfl, rfl⟩

end ETls
