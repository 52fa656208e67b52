import Verif.Proofs.ConnWrite

/-! # C06, C38, C07: what the client sends in the handshake -/

namespace ETls

variable (S : Suite) {V : Type}
open Spec

/-! ## C06 and C38 -/

/-- The ClientHello RFC 8446 has a client with this configuration send. -/
def expectedHello (cfg : Config) (suite : Nat) (random publicKey : Bytes) (binders : List Bytes) : ChMsg where
  legacyVersion := 0x0303
  random := random
  sessionId := []
  cipherSuites := [suite]
  compression := [0]
  extensions := helloExtensions cfg publicKey ++
    (cfg.psk.toList.map fun p => .preSharedKey (p.2.map fun i => (i, 0)) binders)

/-- Number of PSK identities. -/
def Config.identities (cfg : Config) : Nat := cfg.psk.elim 0 fun p => p.2.length

/-- Length of the ClientHello message (binders all have the size of the hash). -/
def helloLength (cfg : Config) (p : Provider V) : Nat :=
  (expectedHello cfg S.codePoint p.random (S.pubKey p.secret)
    (List.replicate cfg.identities (List.replicate S.hashLen 0))).bytes.length

theorem helloBytes_spec (h : ClientHello) (binders : List Bytes) :
    helloBytes S h (binders.flatMap vec8) =
      (expectedHello h.config S.codePoint h.random (S.pubKey h.secret) binders).bytes := by
  unfold helloBytes ChMsg.bytes ChMsg.body expectedHello
  simp only [List.flatMap_append, elim_map_bytes, List.flatMap_cons, List.flatMap_nil, List.append_nil, List.map_cons,
    List.map_nil]
  congr 3
  unfold helloExtBytes
  congr 1
  rcases h.config.psk with _ | ⟨k, ids⟩
  · rfl
  · simp only [Option.elim_some, pskExtBytes, ChExt.bytes, ChExt.type, ChExt.data, flatMap_map']

theorem SignatureScheme.code_lt (a : SignatureScheme) : a.code < 65536 := by cases a <;> decide
theorem NamedGroup.code_lt (a : NamedGroup) : a.code < 65536 := by cases a <;> decide

theorem hello_fits (hS : S.Lawful) (hcp : S.codePoint < 65536) (cfg : Config) (random secret : Bytes)
    (hr : random.length = 32) (binders : List Bytes) (hb : ∀ b ∈ binders, b.length = S.hashLen)
    (ha : ∀ ps, cfg.alpn = some ps → ∀ p ∈ ps, p.length < 256)
    (hl : (expectedHello cfg S.codePoint random (S.pubKey secret) binders).bytes.length < 65536) :
    (expectedHello cfg S.codePoint random (S.pubKey secret) binders).Fits := by
  refine ⟨?_, hr, ?_, ?_, ?_, ?_, ?_⟩
  · simp [expectedHello]
  · simp [expectedHello]
  · simp [expectedHello, u16, hcp]
  · simp [expectedHello]
  · intro e he
    simp only [expectedHello, helloExtensions, List.mem_append, List.mem_cons, List.not_mem_nil, or_false,
      List.mem_map, Option.mem_toList] at he
    rcases he with (((((rfl | rfl) | ⟨m, _, rfl⟩) | (rfl | rfl | rfl)) | ⟨n, _, rfl⟩) | ⟨ps, hps, rfl⟩) | ⟨p, _, rfl⟩
    · simp [ChExt.Fits, u16]
    · intro x hx
      obtain ⟨a, _, rfl⟩ := List.mem_map.1 hx
      exact SignatureScheme.code_lt a
    · show m.code < 256
      cases m <;> decide
    · intro x hx
      obtain ⟨a, _, rfl⟩ := List.mem_map.1 hx
      exact NamedGroup.code_lt a
    · simp [ChExt.Fits]
    · simp [ChExt.Fits]
    · trivial
    · exact ha ps hps
    · refine ⟨?_, fun b hb' => ?_⟩
      · intro i hi
        obtain ⟨a, _, rfl⟩ := List.mem_map.1 hi
        simp
      · rw [hb b hb']
        have := hS.hashLen_le
        omega
  · simp only [ChMsg.bytes, handshake, ChMsg.body, List.length_cons, vec24_length, List.length_append,
      vec16_length] at hl
    omega

/-- The length of the ClientHello does not depend on the binders. -/
theorem hello_length (h : ClientHello) (t t' : Bytes) (ht : t.length = t'.length) :
    (helloBytes S h t).length = (helloBytes S h t').length := by
  rcases hp : h.config.psk with _ | ⟨k, ids⟩
  · rw [helloBytes_none S h hp t t']
  · obtain ⟨P, hP⟩ := helloBytes_split S h k ids hp t'.length
    rw [hP t ht, hP t' rfl]
    simp [ht]

/-- `ClientHello::encode` followed by `finalize`: the message is the RFC one, with RFC binders. -/
theorem hello_final (hS : S.Lawful) (h : ClientHello) (w : WriteKS) (tr : Bytes)
    (hk : w.binderKey = some (binderKey S (h.config.psk.map (·.1)))) :
    ∃ binders : List Bytes, binders.length = h.config.identities ∧
      (∀ b ∈ binders, b.length = S.hashLen ∧ b = verifyData S (binderKey S (h.config.psk.map (·.1)))
        (tr ++ (expectedHello h.config S.codePoint h.random (S.pubKey h.secret) binders).truncated)) ∧
      (helloBytes S h (binders.flatMap vec8)).length =
        (helloBytes S h (List.replicate (bindersSize S h.config) 0)).length ∧
      h.finalize S w (helloBytes S h (List.replicate (bindersSize S h.config) 0), tr) =
        (.ok (), (helloBytes S h (binders.flatMap vec8), tr ++ helloBytes S h (binders.flatMap vec8))) := by
  rcases hp : h.config.psk with _ | ⟨k, ids⟩
  · refine ⟨[], by simp [Config.identities, hp], by simp, ?_, ?_⟩
    · rw [helloBytes_none S h hp]
    · rw [helloBytes_none S h hp _ (([] : List Bytes).flatMap vec8), finalize_none S h w hp]
  · rw [hp] at hk
    obtain ⟨P, hP⟩ := helloBytes_split S h k ids hp (ids.length * (1 + S.hashLen))
    have hb := C35_psk_binder S hS w _ hk (tr ++ P)
    generalize hbv : verifyData S (binderKey S (Option.map (fun x => x.fst) (some (k, ids)))) (tr ++ P) = b at hb
    have hbl : b.length = S.hashLen := by rw [← hbv]; exact hS.hmac_length _ _
    have htl : ((List.replicate ids.length b).flatMap vec8).length = ids.length * (1 + S.hashLen) := by
      rw [flatMap_replicate_length, hbl]
    have hsz : bindersSize S h.config = ids.length * (1 + S.hashLen) := by simp [bindersSize, hp]
    refine ⟨List.replicate ids.length b, by simp [Config.identities, hp], ?_, ?_, ?_⟩
    · intro x hx
      rw [(List.mem_replicate.1 hx).2]
      refine ⟨hbl, hbv.symm.trans ?_⟩
      congr 2
      unfold ChMsg.truncated
      rw [← helloBytes_spec, hP _ htl]
      have hlast : (expectedHello h.config S.codePoint h.random (S.pubKey h.secret)
          (List.replicate ids.length b)).bindersLength = 2 + ids.length * (1 + S.hashLen) := by
        simp [ChMsg.bindersLength, expectedHello, hp, vec16_length, htl]; omega
      rw [hlast]
      have : (P ++ (u16 (ids.length * (1 + S.hashLen)) ++ (List.replicate ids.length b).flatMap vec8)).length -
          (2 + ids.length * (1 + S.hashLen)) = P.length := by
        simp only [List.length_append, htl]
        simp [u16]
      rw [this, List.take_left]
    · exact hello_length S h _ _ (by rw [htl, hsz]; simp)
    · rw [hsz, hP _ (by simp), hP _ htl, finalize_some S h w k ids hp P tr b hb hbl]

/-- `client_hello` on a connection with an idle write buffer and a fresh key schedule, when the message fits. -/
theorem clientHello_run (hS : S.Lawful) (cfg : Config) (p : Provider V) (s : HSt V) (hi : s.c.wb.Idle)
    (hsh : s.c.ks.shared = SharedState.new S) (hfit : 5 + helloLength S cfg p ≤ s.c.wb.buffer.length) :
    ∃ (binders : List Bytes) (msg : Bytes) (wb : WB), wb.Idle ∧ wb.buffer.length = s.c.wb.buffer.length ∧
      msg = (expectedHello cfg S.codePoint p.random (S.pubKey p.secret) binders).bytes ∧
      msg.length = helloLength S cfg p ∧
      binders.length = cfg.identities ∧
      (∀ b ∈ binders, b.length = S.hashLen ∧ b = verifyData S (binderKey S (cfg.psk.map (·.1)))
        (s.c.ks.server.transcript ++
          (expectedHello cfg S.codePoint p.random (S.pubKey p.secret) binders).truncated)) ∧
      clientHello S cfg p s = (.ok (.serverHello, plaintextRecord 22 [3, 1] msg),
        { c := { s.c with
            wb := wb
            ks := { shared := ⟨deriveSecret S (earlySecret S (cfg.psk.map (·.1))) "derived" [],
                      some (earlySecret S (cfg.psk.map (·.1)))⟩
                    client := { s.c.ks.client with binderKey := some (binderKey S (cfg.psk.map (·.1))) }
                    server := { s.c.ks.server with transcript := s.c.ks.server.transcript ++ msg } } }
          h := { s.h with secret := some p.secret } }) := by
  generalize hh : (⟨cfg, p.random, p.secret⟩ : ClientHello) = h
  have hcfg : h.config = cfg := by rw [← hh]
  have hrnd : h.random = p.random := by rw [← hh]
  have hsec : h.secret = p.secret := by rw [← hh]
  have hlen : helloLength S cfg p = (helloBytes S h (List.replicate (bindersSize S h.config) 0)).length := by
    unfold helloLength
    have := helloBytes_spec S h (List.replicate cfg.identities (List.replicate S.hashLen 0))
    rw [hcfg, hrnd, hsec] at this
    rw [← this]
    apply hello_length
    rw [flatMap_replicate_length]
    simp [bindersSize, hcfg, Config.identities]
  obtain ⟨binders, b1, b2, b3, b4⟩ := hello_final S hS h
    { s.c.ks.client with binderKey := some (binderKey S (cfg.psk.map (·.1))) } s.c.ks.server.transcript (by rw [hcfg])
  rw [hcfg] at b1
  rw [hcfg, hrnd, hsec] at b2
  obtain ⟨wb, g1, g2, g3⟩ := writeRecord_ok S hS (.handshake (.clientHello h) false)
    { s.c.ks.client with binderKey := some (binderKey S (cfg.psk.map (·.1))) } s.c.wb _ s.c.ks.server.transcript _ _
    hi (by omega) (hello_appends S h) (finishes_hello S b4 b3)
    (by
      rw [hlen] at hfit
      simpa [recordRoom, ClientRecord.header, ClientRecordHeader.isEncrypted] using hfit)
  refine ⟨binders, helloBytes S h (binders.flatMap vec8), wb, g2, g3, ?_, by rw [b3, hlen], b1, b2, ?_⟩
  · rw [helloBytes_spec, hcfg, hrnd, hsec]
  · unfold clientHello
    rw [M.bind_ok (onKs_ok (C35_early S hS _ hsh _)), hh]
    generalize helloBytes S h (binders.flatMap vec8) = msg at g1
    have hrec : recordBytes S { s.c.ks.client with binderKey := some (binderKey S (cfg.psk.map (·.1))) }
        (ClientRecord.handshake (.clientHello h) false).header msg = plaintextRecord 22 [3, 1] msg := rfl
    rw [hrec] at g1
    generalize plaintextRecord 22 [3, 1] msg = rec at g1
    have g1' := Conn.writeRecord_of S (c := { s.c with ks :=
      { shared := ⟨deriveSecret S (earlySecret S (cfg.psk.map (·.1))) "derived" [],
          some (earlySecret S (cfg.psk.map (·.1)))⟩
        client := { s.c.ks.client with binderKey := some (binderKey S (cfg.psk.map (·.1))) }
        server := s.c.ks.server } }) g1
    rw [M.bind_ok (onConn_ok g1')]
    rfl

/-- A freshly created connection with room for the ClientHello and a transport that works. -/
structure HelloReady (cfg : Config) (p : Provider V) (s : HSt V) : Prop where
  idle : s.c.wb.Idle
  fresh : s.c.ks = KeySchedule.new S
  room : 5 + helloLength S cfg p ≤ s.c.wb.buffer.length
  reliable : Reliable s.c.tx

theorem process_clientHello (cfg : Config) (p : Provider V) {s s1 : HSt V} {st : State} {tx : Bytes}
    (h : clientHello S cfg p s = (.ok (st, tx), s1)) :
    process S cfg p .clientHello s = (onConn (respond tx) >>= fun _ => pure st) s1 := by
  simp only [process]
  rw [M.bind_ok h]

theorem process_hello (hS : S.Lawful) (cfg : Config) (p : Provider V) (s : HSt V) (h : HelloReady S cfg p s) :
    ∃ (binders : List Bytes) (msg : Bytes),
      msg = (expectedHello cfg S.codePoint p.random (S.pubKey p.secret) binders).bytes ∧
      msg.length = helloLength S cfg p ∧
      binders.length = cfg.identities ∧
      (∀ b ∈ binders, b.length = S.hashLen ∧ b = verifyData S (binderKey S (cfg.psk.map (·.1)))
          (expectedHello cfg S.codePoint p.random (S.pubKey p.secret) binders).truncated) ∧
      (process S cfg p .clientHello s).1 = .ok .serverHello ∧
      (process S cfg p .clientHello s).2.c.tx.log = s.c.tx.log ++ [.wrote (plaintextRecord 22 [3, 1] msg), .flushed] ∧
      (process S cfg p .clientHello s).2.c.ks.server.transcript = msg := by
  obtain ⟨binders, msg, wb, h1, h2, h3, h4, h5, h6, h7⟩ := clientHello_run S hS cfg p s h.idle
    (by rw [h.fresh]; rfl) h.room
  rw [show s.c.ks.server.transcript = [] by rw [h.fresh]; rfl] at h6 h7
  refine ⟨binders, msg, h3, h4, h5, h6, ?_⟩
  have hproc := process_clientHello S cfg p h7
  generalize hc : ({ s.c with wb := wb, ks := _ } : Conn) = c at hproc
  have hcnt : c.ks.client.st.counter + 1 < 2 ^ 64 := by
    rw [← hc, h.fresh]; simp [KeySchedule.new, KsState.new]
  have hcase := respond_cases (plaintextRecord 22 [3, 1] msg) c hcnt
  have hrel : Reliable c.tx := by rw [← hc]; exact h.reliable
  rcases hres : respond (plaintextRecord 22 [3, 1] msg) c with ⟨r, c'⟩
  rw [hres] at hcase
  cases hcase with
  | failed _ _ _ _ hn => exact absurd hrel hn
  | flushFailed _ _ hn => exact absurd hrel hn
  | done ctl' hr =>
    rw [M.bind_ok (onConn_ok hres)] at hproc
    rw [hproc]
    subst hc
    exact ⟨rfl, rfl, rfl⟩

/-- **C06** For every configuration whose ALPN names are below 256 bytes and whose ClientHello is below 2^16 bytes and
fits the write buffer, the first thing `open` sends is one plaintext handshake record, and an RFC 8446 decoder reads
the message in it, with no byte left over, as exactly the expected ClientHello. -/
theorem C06_client_hello (hS : S.Lawful) (hcp : S.codePoint < 65536) (cfg : Config) (p : Provider V) (s : HSt V)
    (hready : HelloReady S cfg p s) (hr : p.random.length = 32)
    (ha : ∀ ps, cfg.alpn = some ps → ∀ n ∈ ps, n.length < 256) (hl : helloLength S cfg p < 65536) :
    ∃ (msg : Bytes) (binders : List Bytes),
      (process S cfg p .clientHello s).1 = .ok .serverHello ∧
      (process S cfg p .clientHello s).2.c.tx.log = s.c.tx.log ++ [.wrote (plaintextRecord 22 [3, 1] msg), .flushed] ∧
      binders.length = cfg.identities ∧ (∀ b ∈ binders, b.length = S.hashLen) ∧
      dClientHello msg = some (expectedHello cfg S.codePoint p.random (S.pubKey p.secret) binders) := by
  obtain ⟨binders, msg, h1, h2, h3, h4, h5, h6, h7⟩ := process_hello S hS cfg p s hready
  refine ⟨msg, binders, h5, h6, h3, fun b hb => (h4 b hb).1, ?_⟩
  rw [h1]
  apply ChMsg.bytes_dec
  apply hello_fits S hS hcp cfg _ _ hr _ (fun b hb => (h4 b hb).1) ha
  rw [← h1, h2]
  exact hl

/-- **C38** With a PSK configured, every binder of the ClientHello sent is the HMAC, under the finished key of the
binder key of that PSK, of the hash of that very ClientHello truncated before the binder list; and the bytes absorbed
into the transcript are the bytes sent. -/
theorem C38_binder (hS : S.Lawful) (hcp : S.codePoint < 65536) (cfg : Config) (p : Provider V) (s : HSt V)
    (hready : HelloReady S cfg p s) (hr : p.random.length = 32)
    (ha : ∀ ps, cfg.alpn = some ps → ∀ n ∈ ps, n.length < 256) (hl : helloLength S cfg p < 65536)
    (psk : Bytes) (ids : List Bytes) (hpsk : cfg.psk = some (psk, ids)) :
    ∃ (msg : Bytes) (hello : ChMsg) (binders : List Bytes) (exts : List ChExt),
      (process S cfg p .clientHello s).2.c.tx.log = s.c.tx.log ++ [.wrote (plaintextRecord 22 [3, 1] msg), .flushed] ∧
      (process S cfg p .clientHello s).2.c.ks.server.transcript = msg ∧
      dClientHello msg = some hello ∧
      hello.extensions = exts ++ [.preSharedKey (ids.map fun i => (i, 0)) binders] ∧
      binders.length = ids.length ∧
      (∀ b ∈ binders, b = S.hmac (finishedKey S (binderKey S (some psk))) (S.hash hello.truncated)) := by
  obtain ⟨binders, msg, h1, h2, h3, h4, h5, h6, h7⟩ := process_hello S hS cfg p s hready
  refine ⟨msg, expectedHello cfg S.codePoint p.random (S.pubKey p.secret) binders, binders,
    helloExtensions cfg (S.pubKey p.secret), h6, h7, ?_, ?_, ?_, ?_⟩
  · rw [h1]
    apply ChMsg.bytes_dec
    apply hello_fits S hS hcp cfg _ _ hr _ (fun b hb => (h4 b hb).1) ha
    rw [← h1, h2]
    exact hl
  · simp [expectedHello, hpsk]
  · rw [h3]; simp [Config.identities, hpsk]
  · intro b hb
    have := (h4 b hb).2
    rw [hpsk] at this
    exact this

/-- A configuration with every optional extension. -/
def exConfig : Config where
  serverName := some (ascii "example.com")
  alpn := some [ascii "h2", ascii "http/1.1"]
  psk := some ([1, 2, 3], [ascii "id1", ascii "id2"])
  signatureSchemes := [.ecdsaSecp256r1Sha256]
  namedGroups := [.secp256r1]
  maxFragmentLength := some .bits10

/-- A provider without verifier and without client certificate. -/
def exProvider : Provider Unit := ⟨List.replicate 32 9, [1], none, .err .internalError, none⟩

/-- A new connection with a write buffer of `n` bytes. -/
def exHSt (n : Nat) : HSt Unit :=
  { c := { rx := [], tx := ⟨[], []⟩, opened := false, ks := KeySchedule.new toySuite, rr := RR.new [],
           wb := ⟨List.replicate n 0, 0, none⟩, dec := ⟨0, 0, 0⟩, fp := .strict }
    h := ⟨none, none, none, ()⟩ }

theorem exHello_length : helloLength toySuite exConfig exProvider = 286 := by decide +kernel

example : HelloReady toySuite exConfig exProvider (exHSt 400) :=
  ⟨⟨rfl, rfl⟩, rfl, by rw [exHello_length]; decide +kernel, by intro c hc; cases hc⟩

example : ∃ msg hello, (process toySuite exConfig exProvider .clientHello (exHSt 400)).2.c.tx.log =
    [.wrote (plaintextRecord 22 [3, 1] msg), .flushed] ∧ dClientHello msg = some hello ∧
    hello.extensions.length = 9 := by
  refine ⟨(process toySuite exConfig exProvider .clientHello (exHSt 400)).2.c.ks.server.transcript,
    (dClientHello (process toySuite exConfig exProvider .clientHello (exHSt 400)).2.c.ks.server.transcript).get
      (by decide +kernel), by decide +kernel, by decide +kernel, by decide +kernel⟩

/-! ## C07 -/

/-- `write_record` refuses a handshake message that does not fit. -/
theorem Conn.writeRecord_refused (hS : S.Lawful) (rec : ClientRecord) (c : Conn) (bs : Bytes) (hi : c.wb.Idle)
    (hL : 5 ≤ c.wb.buffer.length) (ha : Appends (rec.encodePayload S) bs ())
    (hf : ∀ tr, ∃ bs' tr', Finishes S rec c.ks.client bs tr bs' tr')
    (hfit : c.wb.buffer.length < recordRoom rec.header bs) :
    ∃ e c', Conn.writeRecord S rec c = (.err e, c') ∧ c'.tx = c.tx := by
  obtain ⟨bs', tr', hf⟩ := hf c.ks.server.transcript
  obtain ⟨e, w', tr'', h, _⟩ := writeRecord_short S hS rec c.ks.client c.wb bs c.ks.server.transcript bs' tr' hi hL ha
    hf hfit
  exact ⟨e, _, Conn.writeRecord_of S h, rfl⟩

/-- **C07** A ClientHello that does not fit the write buffer: the step fails and the transport has seen nothing. -/
theorem C07_client_hello (hS : S.Lawful) (cfg : Config) (p : Provider V) (s : HSt V) (hi : s.c.wb.Idle)
    (hks : s.c.ks = KeySchedule.new S) (hL : 5 ≤ s.c.wb.buffer.length)
    (hbig : s.c.wb.buffer.length < 5 + helloLength S cfg p) :
    ∃ e, (process S cfg p .clientHello s).1 = .err e ∧ (process S cfg p .clientHello s).2.c.tx = s.c.tx := by
  have hearly := C35_early S hS s.c.ks (by rw [hks]; rfl) (cfg.psk.map (·.1))
  generalize hks' : ({ shared := _, client := _, server := _ } : KeySchedule) = ks' at hearly
  have hbk : ks'.client.binderKey = some (binderKey S (cfg.psk.map (·.1))) := by rw [← hks']
  obtain ⟨e, c', h1, h2⟩ := Conn.writeRecord_refused S hS (.handshake (.clientHello ⟨cfg, p.random, p.secret⟩) false)
    { s.c with ks := ks' } _ hi hL (hello_appends S _)
    (fun tr => by
      obtain ⟨binders, _, _, b3, b4⟩ := hello_final S hS ⟨cfg, p.random, p.secret⟩ ks'.client tr hbk
      exact ⟨_, _, finishes_hello S b4 b3⟩)
    (by
      have hlen : helloLength S cfg p =
          (helloBytes S ⟨cfg, p.random, p.secret⟩ (List.replicate (bindersSize S cfg) 0)).length := by
        unfold helloLength
        have := helloBytes_spec S ⟨cfg, p.random, p.secret⟩ (List.replicate cfg.identities (List.replicate S.hashLen 0))
        rw [← this]
        apply hello_length
        rw [flatMap_replicate_length]
        simp [bindersSize, Config.identities]
      rw [hlen] at hbig
      simpa [recordRoom, ClientRecord.header, ClientRecordHeader.isEncrypted] using hbig)
  have hch : clientHello S cfg p s = (.err e, { s with c := c' }) := by
    unfold clientHello
    rw [M.bind_ok (onKs_ok hearly)]
    generalize ClientRecord.handshake (.clientHello ⟨cfg, p.random, p.secret⟩) false = rec at h1
    rw [M.bind_err (onConn_err h1)]
  refine ⟨e, ?_, ?_⟩
  · simp only [process]
    rw [M.bind_err hch]
  · simp only [process]
    rw [M.bind_err hch]
    exact h2

/-- **C07** A client Certificate that does not fit. -/
theorem C07_certificate (hS : S.Lawful) (cfg : Config) (p : Provider V) (s : HSt V) (hi : s.c.wb.Idle)
    (ctx : Bytes) (certs : List Bytes) (hctx : s.h.certReq = some ctx)
    (hcert : p.clientCert.toList = certs.map .x509) (hL : 5 ≤ s.c.wb.buffer.length)
    (hbig : s.c.wb.buffer.length < 5 + (certificateMsg ctx certs).length + 17) :
    ∃ e, (process S cfg p .clientCert s).1 = .err e ∧ (process S cfg p .clientCert s).2.c.tx = s.c.tx := by
  obtain ⟨e, c', h1, h2⟩ := Conn.writeRecord_refused S hS (.handshake (.clientCert ⟨[], ctx, certs.map .x509⟩) true)
    s.c _ hi hL (clientCert_appends S [] ctx certs) (fun tr => ⟨_, _, finishes_encrypted S _ _ _ _⟩)
    (by simpa [recordRoom, ClientRecord.header, ClientRecordHeader.isEncrypted] using hbig)
  have hch : clientCert S p s =
      (.err e, { c := c', h := { s.h with trafficHash := some s.c.ks.server.transcript } }) := by
    unfold clientCert
    rw [M.get_bind]
    unfold modHs
    rw [M.modify_bind]
    simp only [hctx]
    rw [hcert]
    generalize ClientRecord.handshake (.clientCert ⟨[], ctx, certs.map .x509⟩) true = rec at h1
    rw [M.bind_err (onConn_err (s := ⟨s.c, ⟨some s.c.ks.server.transcript, s.h.secret, some ctx, s.h.vst⟩⟩) h1)]
  refine ⟨e, ?_, ?_⟩
  · simp only [process]
    rw [M.bind_err hch]
  · simp only [process]
    rw [M.bind_err hch]
    exact h2

/-- **C07** A client CertificateVerify that does not fit. -/
theorem C07_certificate_verify (hS : S.Lawful) (cfg : Config) (p : Provider V) (s : HSt V) (hi : s.c.wb.Idle)
    (sign : Bytes → Option Bytes) (scheme : SignatureScheme) (hsig : p.signer = .ok (sign, scheme)) (sig : Bytes)
    (hsg : sign (clientSignedContent S s.c.ks.server.transcript) = some sig) (hlen : sig.length ≤ signatureSize S)
    (hL : 5 ≤ s.c.wb.buffer.length)
    (hbig : s.c.wb.buffer.length < 5 + (certificateVerifyMsg scheme.code sig).length + 17) :
    ∃ e, (process S cfg p .clientCertVerify s).1 = .err e ∧
      (process S cfg p .clientCertVerify s).2.c.tx = s.c.tx := by
  obtain ⟨e, c', h1, h2⟩ := Conn.writeRecord_refused S hS (.handshake (.clientCertVerify ⟨scheme, sig⟩) true)
    s.c _ hi hL (certVerify_appends S scheme _) (fun tr => ⟨_, _, finishes_encrypted S _ _ _ _⟩)
    (by simpa [recordRoom, ClientRecord.header, ClientRecordHeader.isEncrypted] using hbig)
  have hch : ∃ e' s', clientCertVerify S p s = (.err e', s') ∧ s'.c.tx = s.c.tx := by
    unfold clientCertVerify
    rw [M.get_bind]
    simp only [hsig]
    by_cases hm : 146 < (clientSignedContent S s.c.ks.server.transcript).length
    · rw [if_pos hm]
      exact ⟨_, _, rfl, rfl⟩
    · rw [if_neg hm, hsg]
      simp only
      rw [if_neg (by omega)]
      generalize ClientRecord.handshake (.clientCertVerify ⟨scheme, sig⟩) true = rec at h1
      rw [M.bind_err (onConn_err h1)]
      exact ⟨_, _, rfl, h2⟩
  obtain ⟨e', s', hch, htx⟩ := hch
  refine ⟨e', ?_, ?_⟩
  · simp only [process]
    rw [M.bind_err hch]
  · simp only [process]
    rw [M.bind_err hch]
    exact htx

/-- **C07** A client Finished that does not fit. -/
theorem C07_finished (hS : S.Lawful) (cfg : Config) (p : Provider V) (s : HSt V) (hi : s.c.wb.Idle)
    (secret : Bytes) (hk : s.c.ks.client.st.trafficSecret = some secret) (hL : 5 ≤ s.c.wb.buffer.length)
    (hbig : s.c.wb.buffer.length < 5 + (finishedMsg (verifyData S secret s.c.ks.server.transcript)).length + 17) :
    ∃ e, (process S cfg p .clientFinished s).1 = .err e ∧
      (process S cfg p .clientFinished s).2.c.tx = s.c.tx := by
  obtain ⟨e, c', h1, h2⟩ := Conn.writeRecord_refused S hS (.handshake (.finished
    ⟨verifyData S secret s.c.ks.server.transcript, none⟩) true)
    s.c _ hi hL (finished_appends S _ _) (fun tr => ⟨_, _, finishes_encrypted S _ _ _ _⟩)
    (by simpa [recordRoom, ClientRecord.header, ClientRecordHeader.isEncrypted] using hbig)
  have hch : clientFinished S s = (.err e, { s with c := c' }) := by
    unfold clientFinished
    rw [M.get_bind, C35_client_finished S hS _ secret hk]
    simp only [Res.mapErr]
    rw [M.lift_ok_bind]
    generalize ClientRecord.handshake (.finished ⟨verifyData S secret s.c.ks.server.transcript, none⟩) true = rec at h1
    exact onConn_err h1
  refine ⟨e, ?_, ?_⟩
  · simp only [process]
    rw [M.bind_err hch]
  · simp only [process]
    rw [M.bind_err hch]
    exact h2

example : (process toySuite exConfig exProvider .clientHello (exHSt 290)).1 = .err .encodeError ∧
    (process toySuite exConfig exProvider .clientHello (exHSt 290)).2.c.tx.log = [] := by decide +kernel

/-- The connection of `exHSt` after a ServerHello, with a certificate request (context `[7]`). -/
def exHSt' (n : Nat) : HSt Unit :=
  { exHSt n with
    c := { (exHSt n).c with ks := { (exHSt n).c.ks with
      client := ⟨⟨some (List.replicate 4 8), 0, List.replicate 16 1, List.replicate 12 2⟩, none⟩ } }
    h := ⟨none, none, some [7], ()⟩ }

/-- 5 + 9 + 17 bytes are needed for an empty certificate list with a context of one byte. -/
example : (process toySuite exConfig exProvider .clientCert (exHSt' 30)).1 = .err .invalidApplicationData ∧
    (process toySuite exConfig exProvider .clientCert (exHSt' 30)).2.c.tx.log = [] ∧
    (process toySuite exConfig exProvider .clientCert (exHSt' 31)).1 = .ok .clientFinished := by decide +kernel

/-- `exProvider` with a signer. -/
def exSigner : Provider Unit := { exProvider with signer := .ok (fun _ => some [1, 2, 3], .ed25519) }

example : ∃ e, (process toySuite exConfig exSigner .clientCertVerify (exHSt' 30)).1 = .err e ∧
    (process toySuite exConfig exSigner .clientCertVerify (exHSt' 30)).2.c.tx = (exHSt' 30).c.tx :=
  C07_certificate_verify toySuite toySuite_lawful exConfig exSigner (exHSt' 30) ⟨rfl, rfl⟩ (fun _ => some [1, 2, 3])
    .ed25519 rfl [1, 2, 3] rfl (by decide) (by decide +kernel) (by decide +kernel)

example : ∃ e, (process toySuite exConfig exProvider .clientFinished (exHSt' 29)).1 = .err e ∧
    (process toySuite exConfig exProvider .clientFinished (exHSt' 29)).2.c.tx = (exHSt' 29).c.tx :=
  C07_finished toySuite toySuite_lawful exConfig exProvider (exHSt' 29) ⟨rfl, rfl⟩ (List.replicate 4 8) rfl
    (by decide +kernel) (by decide +kernel)

end ETls
