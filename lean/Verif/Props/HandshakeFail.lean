import Verif.Proofs.Errors
import Verif.Props.HonestServer

/-! # Handshakes that need not succeed: C36, C40, C43, C44 -/

namespace ETls

variable (S : Suite) {V : Type}
open Spec

/-- `open` fails because the verifier refuses the host name, or reports the end of the loop of handshake steps, which starts
with the verifier as the host name left it. -/
theorem open_ends_host (cfg : Config) (p : Provider V) (v : V) (c : Conn) :
    (∃ ops name, p.verifier = some ops ∧ cfg.serverName = some name ∧ (∀ u, (ops.setHostname name v).1 ≠ .ok u) ∧
      Conn.open_ S cfg p v c = ((ops.setHostname name v).1, c)) ∨
    ∃ v' r s', setHostname cfg p ⟨c, ⟨none, none, none, v⟩⟩ = (.ok (), ⟨c, ⟨none, none, none, v'⟩⟩) ∧
      HsEnds S cfg p .clientHello ⟨c, ⟨none, none, none, v'⟩⟩ r s' ∧ (Conn.open_ S cfg p v c).1 = r ∧
      (Conn.open_ S cfg p v c).2 = { s'.c with opened := (Conn.open_ S cfg p v c).2.opened } := by
  have hrest : ∀ v', ∃ r s', HsEnds S cfg p .clientHello ⟨c, ⟨none, none, none, v'⟩⟩ r s' ∧
      ((openLoop S cfg p (c.rx.size + 8) .clientHello >>= fun _ =>
        M.modify fun s => { s with c := { s.c with opened := true } } : M TlsError (HSt V) Unit)
          ⟨c, ⟨none, none, none, v'⟩⟩).1 = r ∧
      ∃ o, ((openLoop S cfg p (c.rx.size + 8) .clientHello >>= fun _ =>
        M.modify fun s => { s with c := { s.c with opened := true } } : M TlsError (HSt V) Unit)
          ⟨c, ⟨none, none, none, v'⟩⟩).2.c = { s'.c with opened := o } := by
    intro v'
    obtain ⟨r, s', h1, _, _, h4⟩ := C32_open_terminates S cfg p ⟨c, ⟨none, none, none, v'⟩⟩
    simp only at h4
    refine ⟨r, s', h1, ?_⟩
    cases r with
    | ok u => rw [M.bind_ok h4]; exact ⟨rfl, true, rfl⟩
    | err e => rw [M.bind_err h4]; exact ⟨rfl, s'.c.opened, rfl⟩
    | panic => rw [M.bind_panic h4]; exact ⟨rfl, s'.c.opened, rfl⟩
  have hrun : ∀ v', setHostname cfg p ⟨c, ⟨none, none, none, v⟩⟩ = (.ok (), ⟨c, ⟨none, none, none, v'⟩⟩) →
      ∃ v' r s', setHostname cfg p ⟨c, ⟨none, none, none, v⟩⟩ = (.ok (), ⟨c, ⟨none, none, none, v'⟩⟩) ∧
      HsEnds S cfg p .clientHello ⟨c, ⟨none, none, none, v'⟩⟩ r s' ∧ (Conn.open_ S cfg p v c).1 = r ∧
      (Conn.open_ S cfg p v c).2 = { s'.c with opened := (Conn.open_ S cfg p v c).2.opened } := by
    intro v' hh
    obtain ⟨r, s', h1, h2, o, h3⟩ := hrest v'
    have e : openSt S cfg p ⟨c, ⟨none, none, none, v⟩⟩ =
        (openLoop S cfg p (c.rx.size + 8) .clientHello >>= fun _ =>
          M.modify fun s => { s with c := { s.c with opened := true } } : M TlsError (HSt V) Unit)
          ⟨c, ⟨none, none, none, v'⟩⟩ := by
      unfold openSt
      rw [M.bind_ok hh, M.get_bind]
    refine ⟨v', r, s', hh, h1, ?_, ?_⟩
    · unfold Conn.open_; simp only [e]; exact h2
    · unfold Conn.open_; simp only [e, h3]
  cases hv : p.verifier with
  | none => exact .inr (hrun v (by unfold setHostname; rw [hv]; rfl))
  | some ops =>
    cases hn : cfg.serverName with
    | none => exact .inr (hrun v (by unfold setHostname; rw [hv, hn]; rfl))
    | some name =>
      rcases hs : ops.setHostname name v with ⟨r, v'⟩
      have hset : setHostname cfg p ⟨c, ⟨none, none, none, v⟩⟩ = (r, ⟨c, ⟨none, none, none, v'⟩⟩) := by
        unfold setHostname; rw [hv, hn]; simp only [hs]
      cases r with
      | ok u => exact .inr (hrun v' hset)
      | err e =>
        refine .inl ⟨ops, name, rfl, rfl, by simp [hs], ?_⟩
        unfold Conn.open_ openSt
        rw [M.bind_err hset]
        simp [hs]
      | panic =>
        refine .inl ⟨ops, name, rfl, rfl, by simp [hs], ?_⟩
        unfold Conn.open_ openSt
        rw [M.bind_panic hset]
        simp [hs]

/-- `open` fails because the verifier refuses the host name, or reports the end of the loop of handshake steps. -/
theorem open_ends (cfg : Config) (p : Provider V) (v : V) (c : Conn) :
    (∃ ops name, p.verifier = some ops ∧ cfg.serverName = some name ∧ (∀ u, (ops.setHostname name v).1 ≠ .ok u) ∧
      Conn.open_ S cfg p v c = ((ops.setHostname name v).1, c)) ∨
    ∃ v' r s', HsEnds S cfg p .clientHello ⟨c, ⟨none, none, none, v'⟩⟩ r s' ∧ (Conn.open_ S cfg p v c).1 = r ∧
      (Conn.open_ S cfg p v c).2 = { s'.c with opened := (Conn.open_ S cfg p v c).2.opened } := by
  rcases open_ends_host S cfg p v c with h | ⟨v', r, s', _, h⟩
  · exact .inl h
  · exact .inr ⟨v', r, s', h⟩

/-! ## C36 -/

/-- **C36, the part that holds** After any number of successful steps of the handshake of a new connection — including
handshakes that fail later — the transcript is the concatenation, in order, of the bytes of the handshake messages sent
and received so far: nothing before ClientHello; ClientHello after it was sent; and then ClientHello, ServerHello, the
server's messages in the records received since then, and the client's messages in the records sent since then.
When the handshake is complete, the transcript that remains is that of the application keys (C35).
Missing: what follows the first message in the ServerHello record, or in another unprotected record
(`C36_refuted`), is neither processed nor hashed. -/
theorem C36_transcript_partial (hS : S.Lawful) (cfg : Config) (p : Provider V) {c : Conn} (hf : c.Fresh S) (h0 : HsData V)
    {n : Nat} {st : State} {s : HSt V} (h : HsSteps S cfg p n .clientHello ⟨c, h0⟩ st s) :
    (st = .clientHello ∧ s.c.ks.server.transcript = [] ∧ s.c.tx.log = c.tx.log ∧ s.c.rx.bytes = c.rx.bytes) ∨
    (st = .serverHello ∧ s.c.rx.bytes = c.rx.bytes ∧
      s.c.tx.log = c.tx.log ++ sentRecords [plaintextRecord 22 [3, 1] s.c.ks.server.transcript] ∧
      ∃ binders, s.c.ks.server.transcript =
        (expectedHello cfg S.codePoint p.random (S.pubKey p.secret) binders).bytes) ∨
    (∃ x : Session, x.Received S (cfg.psk.map (·.1)) p.secret ∧ c.rx.bytes = x.received ++ s.c.rx.bytes ∧
      (st ≠ .applicationData → 2 ≤ st.rank ∧
        s.c.tx.log = c.tx.log ++ sentRecords (plaintextRecord 22 [3, 1] x.hello ::
          handshakeRecords S (writeKey S (x.clientSecret S (cfg.psk.map (·.1))))
            (writeIv S (x.clientSecret S (cfg.psk.map (·.1)))) 0 x.clientMsgs) ∧
        s.c.ks.server.transcript = x.hello ++ x.sh ++ (x.msgs.map Prod.fst).flatten ++ x.clientMsgs.flatten) ∧
      (st = .applicationData →
        s.c.tx.log = c.tx.log ++ sentRecords (plaintextRecord 22 [3, 1] x.hello ::
          handshakeRecords S (writeKey S (x.clientSecret S (cfg.psk.map (·.1))))
            (writeIv S (x.clientSecret S (cfg.psk.map (·.1)))) 0 (x.clientMsgs ++
              [finishedMsg (verifyData S (x.clientSecret S (cfg.psk.map (·.1)))
                (x.hello ++ x.sh ++ (x.msgs.map Prod.fst).flatten ++ x.clientMsgs.flatten))])) ∧
        s.c.ks.server.transcript = x.traffic ∧
        s.c.ks.client.st = trafficState S (clientApplicationTraffic S (cfg.psk.map (·.1)) x.dhe x.traffic) ∧
        s.c.ks.server.st = trafficState S (serverApplicationTraffic S (cfg.psk.map (·.1)) x.dhe x.traffic))) := by
  have hbytes : ∀ x : Session, x.beforeFinished =
      x.hello ++ x.sh ++ (x.msgs.map Prod.fst).flatten ++ x.clientMsgs.flatten := by
    intro x
    simp [Session.beforeFinished, Session.tr0, Session.bytesOf, List.flatMap]
  have hlater : ∀ {hello shRecord sh exts dhe fl cm} {s : HSt V},
      Later S cfg p c hello shRecord sh exts dhe fl cm s →
      ∃ x : Session, x.Received S (cfg.psk.map (·.1)) p.secret ∧ c.rx.bytes = x.received ++ s.c.rx.bytes ∧
        s.c.tx.log = c.tx.log ++ sentRecords (plaintextRecord 22 [3, 1] x.hello ::
          handshakeRecords S (writeKey S (x.clientSecret S (cfg.psk.map (·.1))))
            (writeIv S (x.clientSecret S (cfg.psk.map (·.1)))) 0 x.clientMsgs) ∧
        s.c.ks.server.transcript = x.hello ++ x.sh ++ (x.msgs.map Prod.fst).flatten ++ x.clientMsgs.flatten := by
    intro hello shRecord sh exts dhe fl cm s hl
    obtain ⟨x, a1, a2, a3, a4, a5, a6, a7, a8, a9⟩ := hl.session S hS []
    exact ⟨x, a1, a2, a9, a8.trans (hbytes x)⟩
  cases HsAt.steps S hS cfg p hf h (.start _ rfl) with
  | start s hs =>
    refine .inl ⟨rfl, ?_, ?_, ?_⟩
    · rw [hs, hf.keys]; rfl
    · rw [hs]
    · rw [hs]
  | hello s msg hh htr hsh hin hsent hsec hrd hwr hop =>
    refine .inr (.inl ⟨rfl, by rw [hin], ?_, ?_⟩)
    · rw [hsent, htr]; rfl
    · obtain ⟨b, hb, _⟩ := hh
      exact ⟨b, by rw [htr, hb]⟩
  | waiting s hello shRecord sh exts dhe fl hl =>
    obtain ⟨x, a1, a2, a3, a4⟩ := hlater hl
    exact .inr (.inr ⟨x, a1, a2, fun _ => ⟨by decide, a3, a4⟩, fun h => absurd h (by decide)⟩)
  | replying st s hello shRecord sh exts dhe fl cm hst hl =>
    obtain ⟨x, a1, a2, a3, a4⟩ := hlater hl
    rcases hst with ⟨rfl, _⟩ | rfl | rfl <;>
      exact .inr (.inr ⟨x, a1, a2, fun _ => ⟨by decide, a3, a4⟩, fun h => absurd h (by decide)⟩)
  | done s hello shRecord sh exts dhe fl cm s1 t hl ht hsent hin hrd hwr hop hck hsk =>
    obtain ⟨x, a1, a2, a3, a4, a5, a6, a7, a8, a9⟩ := hl.session S hS t
    refine .inr (.inr ⟨x, a1, by rw [hin]; exact a2, fun h => absurd rfl h, fun _ => ⟨?_, ?_, ?_, ?_⟩⟩)
    · rw [hsent, a9, sentMsgs_records]
      have e : clientHandshakeTraffic S (cfg.psk.map (·.1)) dhe (hello ++ sh) = x.clientSecret S (cfg.psk.map (·.1)) := by
        rw [← a3, ← a4, ← a5]; rfl
      rw [e, a8, hbytes, ← a6, handshakeRecords_append]
      simp [sentRecords]
    · rw [hsk, a7]
    · rw [hck, a5, a7]
    · rw [hsk, a5, a7]

/-- The end of a run of the handshake loop. -/
theorem HsEnds.last {cfg : Config} {p : Provider V} {st : State} {s s' : HSt V} {r : Res TlsError Unit}
    (h : HsEnds S cfg p st s r s') :
    (r = .ok () ∧ ∃ n, HsSteps S cfg p n st s .applicationData s') ∨
    ∃ n st1 s1, HsSteps S cfg p n st s st1 s1 ∧ st1 ≠ .applicationData ∧ s' = (process S cfg p st1 s1).2 ∧
      ((∃ e, r = .err e ∧ (process S cfg p st1 s1).1 = .err e) ∨ (r = .panic ∧ (process S cfg p st1 s1).1 = .panic)) := by
  cases h with
  | complete h => exact .inl ⟨rfl, _, h⟩
  | failed h hst hp => exact .inr ⟨_, _, _, h, hst, by rw [hp], .inl ⟨_, rfl, by rw [hp]⟩⟩
  | panicked h hst hp => exact .inr ⟨_, _, _, h, hst, by rw [hp], .inr ⟨rfl, by rw [hp]⟩⟩

/-- The first step, whatever its outcome, sends at most one record, the ClientHello. -/
theorem process_hello_attempt (hS : S.Lawful) (cfg : Config) (p : Provider V) {s : HSt V} (hi : s.c.wb.Idle)
    (hL : 5 ≤ s.c.wb.buffer.length) (hks : s.c.ks = KeySchedule.new S) :
    ∃ binders evs, Attempt (plaintextRecord 22 [3, 1]
        (expectedHello cfg S.codePoint p.random (S.pubKey p.secret) binders).bytes) evs ∧
      (process S cfg p .clientHello s).2.c.tx.log = s.c.tx.log ++ evs := by
  by_cases hfit : 5 + helloLength S cfg p ≤ s.c.wb.buffer.length
  · obtain ⟨binders, msg, wb, h1, h2, h3, h4, h5, h6, h7⟩ := clientHello_run S hS cfg p s hi (by rw [hks]; rfl) hfit
    rw [process_clientHello S cfg p h7]
    generalize hgen : (HSt.mk _ _ : HSt V) = s1 at h7 ⊢
    have hlog : s1.c.tx.log = s.c.tx.log := by rw [← hgen]
    obtain ⟨evs, a1, a2, _⟩ := respond_attempt (plaintextRecord 22 [3, 1] msg) s1.c
    refine ⟨binders, evs, by rw [← h3]; exact a1, ?_⟩
    rcases hr : onConn (respond (plaintextRecord 22 [3, 1] msg)) s1 with ⟨r, s2⟩
    have hs2 : s2.c.tx.log = s.c.tx.log ++ evs := by
      rw [← hlog, ← a2]
      exact (congrArg (fun x => x.2.c.tx.log) hr).symm
    cases r with
    | ok u => rw [M.bind_ok hr]; exact hs2
    | err e => rw [M.bind_err hr]; exact hs2
    | panic => rw [M.bind_panic hr]; exact hs2
  · obtain ⟨e, _, h1⟩ := C07_client_hello S hS cfg p s hi hks hL (by omega)
    exact ⟨[], [], .nothing, by rw [h1, List.append_nil]⟩

/-! ## C40 -/

/-- **C40, the part that holds** Everything the client sends in `open`, whatever the outcome: before it has processed
ServerHello, ClientHello and possibly an alert in the clear; and afterwards (the first bytes received are then a
ServerHello record and further records carrying handshake messages) only records protected with the client's handshake
key of that ServerHello, numbered 0, 1, 2, …: first the ones of `x.clientMsgs`, then at most one more, possibly cut off
by the transport — except that, while the client still waits for the server's messages, an alert is sent in the clear
(`C40_refuted`). -/
theorem C40_protected_partial (hS : S.Lawful) (cfg : Config) (p : Provider V) (v : V) {c : Conn} (hf : c.Fresh S) :
    ∃ evs, (Conn.open_ S cfg p v c).2.tx.log = c.tx.log ++ evs ∧
    ((∃ hello, Attempt (plaintextRecord 22 [3, 1] hello) evs) ∨
     (∃ hello l d e, Attempt (plainAlert l d) e ∧ evs = sentRecords [plaintextRecord 22 [3, 1] hello] ++ e) ∨
     (∃ (x : Session) (e : List OutEv) (rest : Bytes), x.Received S (cfg.psk.map (·.1)) p.secret ∧
       c.rx.bytes = x.received ++ rest ∧
       evs = sentRecords (plaintextRecord 22 [3, 1] x.hello ::
          handshakeRecords S (writeKey S (x.clientSecret S (cfg.psk.map (·.1))))
            (writeIv S (x.clientSecret S (cfg.psk.map (·.1)))) 0 x.clientMsgs) ++ e ∧
       ((∃ ty content, Attempt (ciphertextRecord S (writeKey S (x.clientSecret S (cfg.psk.map (·.1))))
            (writeIv S (x.clientSecret S (cfg.psk.map (·.1)))) x.clientMsgs.length ty content) e) ∨
        (x.clientMsgs = [] ∧ ∃ l d, Attempt (plainAlert l d) e)))) := by
  rcases open_ends S cfg p v c with ⟨ops, name, _, _, _, h⟩ | ⟨v', r, s', h, _, h2⟩
  · exact ⟨[], by rw [h, List.append_nil], .inl ⟨[], .nothing⟩⟩
  have htx : (Conn.open_ S cfg p v c).2.tx = s'.c.tx := by rw [h2]
  rw [htx]
  clear h2 htx
  rcases h.last S with ⟨_, n, hd⟩ | ⟨n, st1, s1, hsteps, hst, rfl, _⟩
  · cases HsAt.steps S hS cfg p hf hd (.start _ rfl) with
    | replying st s hello shRecord sh exts dhe fl cm hst hl => simp at hst
    | done s hello shRecord sh exts dhe fl cm s1 t hl ht hsent hin hrd hwr hop hck hsk =>
      obtain ⟨x, a1, a2, a3, a4, a5, a6, a7, a8, a9⟩ := hl.session S hS t
      have e : clientHandshakeTraffic S (cfg.psk.map (·.1)) dhe (hello ++ sh) = x.clientSecret S (cfg.psk.map (·.1)) := by
        rw [← a3, ← a4, ← a5]; rfl
      rw [hsent, a9, e, List.append_assoc]
      refine ⟨_, rfl, .inr (.inr ⟨x, _, _, a1, a2, rfl, .inl ⟨22,
        finishedMsg (verifyData S (x.clientSecret S (cfg.psk.map (·.1))) s1.c.ks.server.transcript), ?_⟩⟩)⟩
      rw [a6]
      exact .sent
  · cases HsAt.steps S hS cfg p hf hsteps (.start _ rfl) with
    | start s hs =>
      obtain ⟨b, evs, h1, h2⟩ := process_hello_attempt S hS cfg p (s := s1) (by rw [hs]; exact hf.idle)
        (by rw [hs]; exact hf.room) (by rw [hs]; exact hf.keys)
      rw [hs] at h2
      exact ⟨evs, h2, .inl ⟨_, h1⟩⟩
    | hello s msg hh htr hsh hin hsent hsec hrd hwr hop =>
      rcases process_waiting S hS cfg p (.inl rfl) hwr.1 (by rw [hwr.2]; exact hf.room) with ⟨h1, _⟩ | ⟨l, d, evs, h1, h2, _⟩
      · rw [h1, hsent]
        exact ⟨_, rfl, .inr (.inl ⟨msg, .fatal, .internalError, [], .nothing, rfl⟩)⟩
      · rw [h2, hsent, List.append_assoc]
        exact ⟨_, rfl, .inr (.inl ⟨msg, l, d, evs, h1, rfl⟩)⟩
    | waiting s hello shRecord sh exts dhe fl hl =>
      obtain ⟨x, a1, a2, a3, a4, a5, a6, a7, a8, a9⟩ := hl.session S hS []
      rcases process_waiting S hS cfg p (.inr rfl) hl.writer.1 (by rw [hl.writer.2]; exact hf.room) with
        ⟨h1, _⟩ | ⟨l, d, evs, h1, h2, _⟩
      · rw [h1, a9]
        exact ⟨_, rfl, .inr (.inr ⟨x, [], _, a1, a2, (List.append_nil _).symm, .inl ⟨22, [], .nothing⟩⟩)⟩
      · rw [h2, a9, List.append_assoc]
        exact ⟨_, rfl, .inr (.inr ⟨x, evs, _, a1, a2, rfl, .inr ⟨a6, l, d, h1⟩⟩)⟩
    | replying st s hello shRecord sh exts dhe fl cm hst' hl =>
      obtain ⟨x, a1, a2, a3, a4, a5, a6, a7, a8, a9⟩ := hl.session S hS []
      have e : clientHandshakeTraffic S (cfg.psk.map (·.1)) dhe (hello ++ sh) = x.clientSecret S (cfg.psk.map (·.1)) := by
        rw [← a3, ← a4, ← a5]; rfl
      obtain ⟨ty, content, evs, h1, h2⟩ := process_replying S hS cfg p (s := s1) (st := st1)
        (by rcases hst' with ⟨h, _⟩ | h | h
            · exact .inl h
            · exact .inr (.inl h)
            · exact .inr (.inr h)) hl.writer.1 (by rw [hl.writer.2]; exact hf.room)
        (by rw [hl.clientKeys]; exact trafficState_iv S hS _)
      rw [h2, a9, List.append_assoc]
      rw [hl.clientKeys, e, ← a6] at h1
      exact ⟨_, rfl, .inr (.inr ⟨x, evs, _, a1, a2, rfl, .inl ⟨ty, content, h1⟩⟩)⟩
    | done => exact absurd rfl hst

/-- An EncryptedExtensions with a key_share extension, which is not allowed there. -/
def exBadEE : List (List SrvMsg) := [[.msg (.encryptedExtensions [⟨51, [0, 23]⟩]), .finished]]

set_option maxRecDepth 10000 in
/-- **C40, refuted** After ServerHello, an alert is sent in the clear: the second record the client sends is
`20, 3, 1, 0, 2, 2, 47`. -/
theorem C40_refuted : ∃ c : Conn, c.Fresh toySuite ∧ c.rx.bytes = exServer exCfg exSH exBadEE ∧ c.tx.log = [] ∧
    (Conn.open_ toySuite exCfg exProv () c).1 = .err (.abortHandshake .fatal .illegalParameter) ∧
    (Conn.open_ toySuite exCfg exProv () c).2.tx.log = sentRecords [plaintextRecord 22 [3, 1] (exHelloMsg exCfg),
      [20, 3, 1, 0, 2, 2, 47]] :=
  ⟨exNew 400 [.data (exServer exCfg exSH exBadEE)], exNew_fresh _ _ (by decide), by simp [exNew, Rx.bytes], rfl,
    by decide +kernel, by decide +kernel⟩

set_option maxRecDepth 10000 in
/-- A non-trivial case of the part that holds: a handshake with a protected Finished. -/
example : ∃ rec, (Conn.open_ toySuite exCfg exProv () (exNew 400 [.data (exServer exCfg exSH exMin)])).2.tx.log =
    sentRecords [plaintextRecord 22 [3, 1] (exHelloMsg exCfg), 23 :: 3 :: 3 :: rec] := by
  refine ⟨((Conn.open_ toySuite exCfg exProv () (exNew 400 [.data (exServer exCfg exSH exMin)])).2.tx.log.flatMap
    fun e => match e with | .wrote (23 :: 3 :: 3 :: r) => r | _ => []), ?_⟩
  decide +kernel

/-! ## C36: what is not hashed -/

/-- `n` steps of the handshake. -/
def stepN (cfg : Config) (p : Provider V) : Nat → State → HSt V → Option (State × HSt V)
  | 0, st, s => some (st, s)
  | n + 1, st, s =>
    if st = .applicationData then none
    else match process S cfg p st s with
      | (.ok st', s') => stepN cfg p n st' s'
      | _ => none

theorem stepN_steps (cfg : Config) (p : Provider V) : ∀ (n : Nat) (st st' : State) (s s' : HSt V),
    stepN S cfg p n st s = some (st', s') → HsSteps S cfg p n st s st' s' := by
  intro n
  induction n with
  | zero =>
    intro st st' s s' h
    simp only [stepN, Option.some.injEq, Prod.mk.injEq] at h
    obtain ⟨rfl, rfl⟩ := h
    exact .none _ _
  | succ n ih =>
    intro st st' s s' h
    unfold stepN at h
    by_cases hst : st = .applicationData
    · rw [if_pos hst] at h; simp at h
    · rw [if_neg hst] at h
      rcases hp : process S cfg p st s with ⟨r, s1⟩
      rw [hp] at h
      cases r with
      | ok st1 => exact .more hst hp (ih _ _ _ _ h)
      | err e => simp at h
      | panic => simp at h

theorem stepN_exists (cfg : Config) (p : Provider V) {n : Nat} {st : State} {s : HSt V} {α : Type} {f : State × HSt V → α}
    {a : α} (h : (stepN S cfg p n st s).map f = some a) : ∃ st' s', HsSteps S cfg p n st s st' s' ∧ f (st', s') = a := by
  rcases hr : stepN S cfg p n st s with _ | ⟨st', s'⟩
  · rw [hr] at h; simp at h
  · rw [hr] at h
    exact ⟨st', s', stepN_steps S cfg p _ _ _ _ _ hr, by simpa using h⟩

set_option maxRecDepth 10000 in
/-- **C36, refuted** A record with ServerHello and a second handshake message is accepted and consumed whole, but the
second message is not in the transcript. -/
theorem C36_refuted : ∃ (c : Conn) (m : Bytes), c.Fresh toySuite ∧ m = (RawMsg.encryptedExtensions []).bytes ∧
    c.rx.bytes = plaintextRecord 22 [3, 3] (exSH.bytes ++ m) ∧
    ∃ s', HsSteps toySuite exCfg exProv 2 .clientHello ⟨c, ⟨none, none, none, ()⟩⟩ .serverVerify s' ∧
      s'.c.rx.bytes = [] ∧ s'.c.ks.server.transcript = exHelloMsg exCfg ++ exSH.bytes := by
  refine ⟨exNew 400 [.data (plaintextRecord 22 [3, 3] (exSH.bytes ++ (RawMsg.encryptedExtensions []).bytes))], _,
    exNew_fresh _ _ (by decide), rfl, by simp [exNew, Rx.bytes], ?_⟩
  obtain ⟨st', s', h1, h2⟩ := stepN_exists toySuite exCfg exProv (n := 2) (st := .clientHello)
    (s := ⟨exNew 400 [.data (plaintextRecord 22 [3, 3] (exSH.bytes ++ (RawMsg.encryptedExtensions []).bytes))],
      ⟨none, none, none, ()⟩⟩)
    (f := fun x => (x.1, x.2.c.rx.bytes, x.2.c.ks.server.transcript))
    (a := (.serverVerify, [], exHelloMsg exCfg ++ exSH.bytes)) (by decide +kernel)
  simp only [Prod.mk.injEq] at h2
  obtain ⟨rfl, h3, h4⟩ := h2
  exact ⟨s', h1, h3, h4⟩

set_option maxRecDepth 10000 in
/-- A non-trivial case of `C36_transcript_partial`: four steps, to the end of a handshake. -/
example : ∃ st' s', HsSteps toySuite exCfg exProv 4 .clientHello
    ⟨exNew 400 [.data (exServer exCfg exSH exMin)], ⟨none, none, none, ()⟩⟩ st' s' ∧
    (st', s'.c.rx.bytes) = (State.applicationData, []) :=
  stepN_exists toySuite exCfg exProv (f := fun x => (x.1, x.2.c.rx.bytes)) (by decide +kernel)

/-! ## C44 -/

/-- **C44, the part that holds** When `open` of a new connection fails with an abort carrying an alert (and it is not an
error made up by the provider's own host-name check or signer), then either the alert's level and description are the
last thing sent and flushed — in a record with content type 20 instead of 21, unprotected (`C44_refuted`) — or reading
a record failed with it, and nothing was sent for it (`C44_refuted_serverHello`). -/
theorem C44_alert_partial (hS : S.Lawful) (cfg : Config) (p : Provider V) (v : V) {c c' : Conn} (hf : c.Fresh S)
    (hroom : 7 ≤ c.wb.buffer.length) {l : AlertLevel} {d : AlertDescription}
    (hhost : ∀ ops name, p.verifier = some ops → (ops.setHostname name v).1 ≠ .err (.abortHandshake l d))
    (hsign : ∀ l d, p.signer ≠ .err (.abortHandshake l d))
    (h : Conn.open_ S cfg p v c = (.err (.abortHandshake l d), c')) :
    ∃ hello, (c'.tx.log = c.tx.log ++ sentRecords [plaintextRecord 22 [3, 1] hello, plainAlert l d]) ∨
      (c'.tx.log = c.tx.log ++ sentRecords [plaintextRecord 22 [3, 1] hello] ∧
        ∃ r rx tr, (readRecord S ⟨r, rx, tr⟩).1 = .err (.abortHandshake l d) ∧ rx.bytes <:+ c.rx.bytes) := by
  rcases open_ends S cfg p v c with ⟨ops, name, ho, hn, _, h'⟩ | ⟨v', r, s', he, h1, h2⟩
  · rw [h] at h'
    exact absurd (congrArg Prod.fst h').symm (hhost ops name ho)
  rw [h] at h1 h2
  simp only at h1 h2
  subst h1
  have htx : c'.tx = s'.c.tx := by rw [h2]
  rw [htx]
  clear h2 htx h
  rcases he.last S with ⟨h, _⟩ | ⟨n, st1, s1, hsteps, hst, rfl, hres⟩
  · simp at h
  have hres : (process S cfg p st1 s1).1 = .err (.abortHandshake l d) := by
    rcases hres with ⟨e, he, hp⟩ | ⟨he, _⟩
    · rw [hp]; simp only [Res.err.injEq] at he ⊢; exact he.symm
    · simp at he
  have hsuf : ∀ (n : Nat) (st st' : State) (s s' : HSt V), HsSteps S cfg p n st s st' s' → s'.c.rx.bytes <:+ s.c.rx.bytes := by
    intro n st st' s s' h
    induction h with
    | none => exact List.suffix_refl _
    | @more n st st1 st2 s s1 s2 hst hp _ ih =>
      have := C32_consumes S cfg p st s
      rw [hp] at this
      exact ih.trans this
  have hsuf := hsuf _ _ _ _ _ hsteps
  have hnot : ¬ (st1 = .clientHello ∨ st1 = .clientCert ∨ st1 = .clientCertVerify ∨ st1 = .clientFinished) := fun hc =>
    sending_noAbort S cfg p st1 hc (fun _ => hsign) s1 l d hres
  have hwait : ∀ {hello : Bytes}, (st1 = .serverHello ∨ st1 = .serverVerify) → s1.c.wb.Idle →
      s1.c.wb.buffer.length = c.wb.buffer.length →
      s1.c.tx.log = c.tx.log ++ sentRecords [plaintextRecord 22 [3, 1] hello] →
      ∃ hello, ((process S cfg p st1 s1).2.c.tx.log =
          c.tx.log ++ sentRecords [plaintextRecord 22 [3, 1] hello, plainAlert l d]) ∨
        ((process S cfg p st1 s1).2.c.tx.log = c.tx.log ++ sentRecords [plaintextRecord 22 [3, 1] hello] ∧
        ∃ r rx tr, (readRecord S ⟨r, rx, tr⟩).1 = .err (.abortHandshake l d) ∧ rx.bytes <:+ c.rx.bytes) := by
    intro hello hst hi hL hlog
    refine ⟨hello, ?_⟩
    rcases process_waiting S hS cfg p hst hi (by rw [hL]; exact hf.room) with ⟨h1, h2⟩ | ⟨l', d', evs, h1, h2, h3, h4⟩
    · exact .inr ⟨h1.trans hlog, _, _, _, h2 (by rw [hL]; exact hroom) l d hres, hsuf⟩
    · obtain ⟨rfl, rfl⟩ := h4 l d hres
      rw [h2, h3 hres, hlog]
      exact .inl (by simp [sentRecords])
  cases HsAt.steps S hS cfg p hf hsteps (.start _ rfl) with
  | start s hs => exact absurd (.inl rfl) hnot
  | hello s msg hh htr hsh hin hsent hsec hrd hwr hop => exact hwait (.inl rfl) hwr.1 hwr.2 hsent
  | waiting s hello shRecord sh exts dhe fl hl =>
    refine hwait (hello := hello) (.inr rfl) hl.writer.1 hl.writer.2 ?_
    rw [hl.sent]
    simp [sentMsgs, sentRecords]
  | replying st s hello shRecord sh exts dhe fl cm hst' hl =>
    rcases hst' with ⟨h, _⟩ | h | h
    · exact absurd (.inr (.inl h)) hnot
    · exact absurd (.inr (.inr (.inl h))) hnot
    · exact absurd (.inr (.inr (.inr h))) hnot
  | done => exact absurd rfl hst

set_option maxRecDepth 10000 in
/-- **C44, refuted** The alert is sent in a record that is not an alert record: no record sent has content type 21. -/
theorem C44_refuted : ∃ (c : Conn) (rest : Bytes), c.Fresh toySuite ∧ 7 ≤ c.wb.buffer.length ∧ c.tx.log = [] ∧
    (Conn.open_ toySuite exCfg exProv () c).1 = .err (.abortHandshake .fatal .illegalParameter) ∧
    (Conn.open_ toySuite exCfg exProv () c).2.tx.log = sentRecords [22 :: rest, [20, 3, 1, 0, 2, 2, 47]] := by
  refine ⟨exNew 400 [.data (exServer exCfg exSH exBadEE)], (plaintextRecord 22 [3, 1] (exHelloMsg exCfg)).tail,
    exNew_fresh _ _ (by decide), by decide, rfl, by decide +kernel, by decide +kernel⟩

/-- A ServerHello with a server_name extension, which is not allowed there. -/
def exBadSH : RawMsg := .serverHello 0x0303 (List.replicate 32 7) [] 0x1301 0 [⟨43, [3, 4]⟩, ⟨0, []⟩, exKeyShare]

set_option maxRecDepth 10000 in
/-- **C44, refuted** When the decoder refuses the ServerHello with an alert, no alert is sent at all. -/
theorem C44_refuted_serverHello : ∃ c : Conn, c.Fresh toySuite ∧ 7 ≤ c.wb.buffer.length ∧ c.tx.log = [] ∧
    (Conn.open_ toySuite exCfg exProv () c).1 = .err (.abortHandshake .fatal .illegalParameter) ∧
    (Conn.open_ toySuite exCfg exProv () c).2.tx.log = sentRecords [plaintextRecord 22 [3, 1] (exHelloMsg exCfg)] :=
  ⟨exNew 400 [.data (plaintextRecord 22 [3, 3] exBadSH.bytes)], exNew_fresh _ _ (by decide), by decide, rfl,
    by decide +kernel, by decide +kernel⟩

/-! ## C43 -/

/-- **C43, the part that holds** If the server answers ClientHello with an alert record, `open` fails with
handshake-aborted carrying exactly that level and description; only the ClientHello was sent and only the alert record
was consumed.  For every way in which the transport delivers the bytes.
Missing: an alert after ServerHello, in the clear or protected, is reported as an invalid record
(`C43_refuted`, `C43_refuted_protected`). -/
theorem C43_alert_reported_partial (hS : S.Lawful) (cfg : Config) (p : Provider V) (v : V) {c : Conn} (hf : c.Fresh S)
    (hclean : c.rx.Clean) (hrel : Reliable c.tx)
    (hhost : ∀ ops name, p.verifier = some ops → cfg.serverName = some name → ∃ v', ops.setHostname name v = (.ok (), v'))
    (hfit : 5 + helloLength S cfg p ≤ c.wb.buffer.length) (hfr : 2 ≤ c.rr.buf.length)
    (l : AlertLevel) (d : AlertDescription) (v1 v2 : UInt8) (rest : Bytes)
    (hb : c.rx.bytes = plaintextRecord 21 [v1, v2] [UInt8.ofNat l.code, UInt8.ofNat d.code] ++ rest) :
    ∃ c' hello, Conn.open_ S cfg p v c = (.err (.handshakeAborted l d), c') ∧ c'.rx.bytes = rest ∧
      c'.tx.log = c.tx.log ++ sentRecords [plaintextRecord 22 [3, 1] hello] := by
  rcases open_ends S cfg p v c with ⟨ops, name, ho, hn, hne, _⟩ | ⟨v', r, s', he, h1, h2⟩
  · obtain ⟨v', hv⟩ := hhost ops name ho hn
    exact absurd (congrArg Prod.fst hv) (hne ())
  obtain ⟨binders, msg, wb1, ctl1, _, _, _, a4, a5, a6, a7⟩ := step_hello_fwd S hS cfg p
    ⟨c, ⟨none, none, none, v'⟩⟩ hf.idle hf.keys hrel hfit
  obtain ⟨s1, a7, e1, e2, e3⟩ : ∃ s1, process S cfg p .clientHello ⟨c, ⟨none, none, none, v'⟩⟩ = (.ok .serverHello, s1) ∧
      s1.c.rr = c.rr ∧ s1.c.rx = c.rx ∧
      s1.c.tx.log = c.tx.log ++ [.wrote (plaintextRecord 22 [3, 1] msg), .flushed] := ⟨_, a7, rfl, rfl, rfl⟩
  obtain ⟨rh, hd, hty, hl⟩ : ∃ rh, RecordHeader.decode ([21, v1, v2] ++ be16 2) = .ok rh ∧ rh.contentType = .alert ∧
      rh.contentLength = 2 := ⟨_, rfl, rfl, rfl⟩
  obtain ⟨rr', rx', start, _, _, _, _, b5, _, b7⟩ := hsRead_fwd S s1 (by rw [e1]; exact hf.reader)
    (by rw [e1]; exact hf.nothingRead) (by rw [e2]; exact hclean) ([21, v1, v2] ++ be16 2)
    [UInt8.ofNat l.code, UInt8.ofNat d.code] rest rh hd (by rw [hl]; rfl)
    (by rw [e2, hb]; simp [plaintextRecord]; rfl) (by rw [e1]; exact hfr)
  have hdec : ServerRecord.decode S rh start [UInt8.ofNat l.code, UInt8.ofNat d.code] s1.c.ks.server.transcript =
      (.ok (.alert ⟨l, d⟩), s1.c.ks.server.transcript) := by
    unfold ServerRecord.decode
    rw [if_neg (by rw [hl]; simp), hty]
    simp only
    have : (Alert.parse (PB.new [UInt8.ofNat l.code, UInt8.ofNat d.code])).1 = .ok ⟨l, d⟩ := by
      cases l <;> cases d <;> decide
    rw [this]
    rfl
  rw [hdec] at b7
  obtain ⟨s2, hp, f1, f2⟩ : ∃ s2, process S cfg p .serverHello s1 = (.err (.handshakeAborted l d), s2) ∧
      s2.c.rx = rx' ∧ s2.c.tx = s1.c.tx := by
    have hproc := M.bind_ok (f := fun rec => withErrorHandling S (processServerHello S rec)) b7
    refine ⟨?w, ?_, ?_⟩
    case w => exact { s1 with c := s1.c.readTo rr' rx' { s1.c.ks.server with transcript := s1.c.ks.server.transcript } }
    · simp only [process]
      exact hproc
    · exact ⟨rfl, rfl⟩
  obtain ⟨rfl, rfl⟩ := he.unique S (.failed (.more (by decide) a7 (.none _ _)) (by decide) hp)
  refine ⟨_, msg, Prod.ext h1 rfl, ?_, ?_⟩
  · have : (Conn.open_ S cfg p v c).2.rx = rx' := by rw [← f1, h2]
    exact (congrArg Rx.bytes this).trans b5
  · have : (Conn.open_ S cfg p v c).2.tx = s1.c.tx := by rw [← f2, h2]
    exact (congrArg Tx.log this).trans e3

set_option maxRecDepth 10000 in
/-- A fatal handshake_failure alert in two pieces, with more bytes after it. -/
example : ∃ c' hello, Conn.open_ toySuite exCfg exProv () (exNew 400 [.data [21, 3, 3], .data [0, 2, 2, 40, 1, 2, 3]]) =
      (.err (.handshakeAborted .fatal .handshakeFailure), c') ∧ c'.rx.bytes = [1, 2, 3] ∧
      c'.tx.log = [] ++ sentRecords [plaintextRecord 22 [3, 1] hello] :=
  C43_alert_reported_partial toySuite toySuite_lawful exCfg exProv () (exNew_fresh _ _ (by decide))
    (by
      intro e he
      rcases List.mem_cons.1 he with rfl | he
      · exact ⟨_, by decide, rfl⟩
      · rw [List.mem_singleton] at he
        exact ⟨_, by decide, he⟩)
    (by intro a ha; cases ha) (by intro ops name h; cases h) (by decide +kernel) (by decide +kernel)
    .fatal .handshakeFailure 3 3 [1, 2, 3] rfl

set_option maxRecDepth 10000 in
/-- **C43, refuted** An alert in the clear after ServerHello. -/
theorem C43_refuted : ∃ c : Conn, c.Fresh toySuite ∧
    c.rx.bytes = plaintextRecord 22 [3, 3] exSH.bytes ++ plaintextRecord 21 [3, 3] [2, 40] ∧
    (Conn.open_ toySuite exCfg exProv () c).1 = .err .invalidRecord :=
  ⟨exNew 400 [.data (plaintextRecord 22 [3, 3] exSH.bytes ++ plaintextRecord 21 [3, 3] [2, 40])],
    exNew_fresh _ _ (by decide), by simp [exNew, Rx.bytes], by decide +kernel⟩

set_option maxRecDepth 10000 in
/-- **C43, refuted** An alert protected with the server's handshake key. -/
theorem C43_refuted_protected : ∃ c : Conn, c.Fresh toySuite ∧
    c.rx.bytes = plaintextRecord 22 [3, 3] exSH.bytes ++ protect toySuite (writeKey toySuite (exSecret exCfg exSH))
      (writeIv toySuite (exSecret exCfg exSH)) 0 ⟨21, [2, 40], 0⟩ ∧
    (Conn.open_ toySuite exCfg exProv () c).1 = .err .invalidRecord :=
  ⟨exNew 400 [.data (plaintextRecord 22 [3, 3] exSH.bytes ++ protect toySuite (writeKey toySuite (exSecret exCfg exSH))
      (writeIv toySuite (exSecret exCfg exSH)) 0 ⟨21, [2, 40], 0⟩)],
    exNew_fresh _ _ (by decide), by simp [exNew, Rx.bytes], by decide +kernel⟩

end ETls
