import Verif.Props.NativeAuth
import Verif.Props.Reader
import Verif.Props.WholeLife
import Verif.Props.X509
import Verif.Props.Accept
import Verif.Props.Grammar
import Verif.Props.Config
import Verif.Spec.Negotiation

/-! # Offers and answers, key updates, retries (C86-C93)

Each section has what holds of the code and a concrete connection for which the rule of RFC 8446 fails. -/

namespace ETls
open Spec

variable (S : Suite) {V : Type}

/-! ## C86: declining the pre-shared key -/

/-- The client of the examples, with a pre-shared key. -/
def exPskCfg : Config := { exCfg with psk := some ([5, 6], [ascii "id"]) }

/-- A server that answers `hello` with `sh` and `records` and computes its keys with the pre-shared key `psk`. -/
def exAnswer (psk : Option Bytes) (hello : Bytes) (sh : RawMsg) (records : List (List SrvMsg)) : Bytes :=
  plaintextRecord 22 [3, 3] sh.bytes ++
    srvRecords (serverHandshakeTraffic toySuite psk exDhe (hello ++ sh.bytes)) 0 (hello ++ sh.bytes) records

/-- The ClientHello of `cfg` in the examples. -/
def exHello (cfg : Config) : Bytes := helloMsg toySuite cfg exProv

/-- The ServerHello that accepts the pre-shared key: pre_shared_key with identity 0. -/
def exSHpsk : RawMsg := .serverHello 0x0303 (List.replicate 32 7) [] 0x1301 0 [⟨43, [3, 4]⟩, exKeyShare, ⟨41, [0, 0]⟩]

/-- `open` with `cfg` against these bytes. -/
def exOpen (cfg : Config) (n : Nat) (rx : Bytes) : Res TlsError Unit × Conn :=
  Conn.open_ toySuite cfg exProv () (exNew n [.data rx])

set_option maxRecDepth 10000 in
/-- **C86, refuted** The client offers a pre-shared key and (EC)DHE.  A server that accepts the key is accepted; one that
declines it (no pre_shared_key in its ServerHello, keys without it) is refused.  A server that uses the key without saying
so is accepted. -/
theorem C86_refuted :
    offered (exHello exPskCfg) = some [43, 13, 10, 45, 51, 0, 41] ∧
    (exOpen exPskCfg 600 (exAnswer (some [5, 6]) (exHello exPskCfg) exSHpsk exMin)).1 = .ok () ∧
    (∀ e ∈ answers exSH, e.ty ≠ 41) ∧
    (exOpen exPskCfg 600 (exAnswer none (exHello exPskCfg) exSH exMin)).1 = .err .cryptoError ∧
    (exOpen exPskCfg 600 (exAnswer (some [5, 6]) (exHello exPskCfg) exSH exMin)).1 = .ok () := by
  refine ⟨by decide +kernel, by decide +kernel, by decide +kernel, by decide +kernel, by decide +kernel⟩

/-- **C86** (what the code does) With a pre-shared key configured, a successful handshake is always one in which the server's
records were protected, and its Finished computed, with keys derived from that key, whatever the ServerHello says. -/
theorem C86_always (hS : S.Lawful) (cfg : Config) (p : Provider V) (v : V) {c c' : Conn} (hf : c.Fresh S) (psk : Bytes)
    (ids : List Bytes) (hp : cfg.psk = some (psk, ids)) (h : Conn.open_ S cfg p v c = (.ok (), c')) :
    ∃ x : Session, c.rx.bytes = x.received ++ c'.rx.bytes ∧ x.Received S (some psk) p.secret ∧
      (∃ a m vd b, x.msgs = a ++ (m, .finished vd) :: b) ∧
      ∀ a m vd b, x.msgs = a ++ (m, .finished vd) :: b →
        vd = verifyData S (serverHandshakeTraffic S (some psk) x.dhe (x.hello ++ x.sh)) (x.hello ++ x.sh ++ Session.bytesOf a) := by
  obtain ⟨x, hx⟩ := open_session S hS cfg p v hf h
  have h1 := hx.received
  have h2 := hx.finished
  obtain ⟨a, m, vd, b, h3, -, -⟩ := hx.ending
  rw [hp] at h1 h2
  exact ⟨x, hx.bytes, h1, ⟨a, m, vd, b, h3⟩, h2⟩

/-! ## C87: extensions nobody asked for -/

/-- A ServerHello with pre_shared_key, identity 7. -/
def exSHunasked : RawMsg := .serverHello 0x0303 (List.replicate 32 7) [] 0x1301 0 [⟨43, [3, 4]⟩, exKeyShare, ⟨41, [0, 7]⟩]

/-- EncryptedExtensions with the application protocol "x" and the maximum fragment length 512. -/
def exEEunasked : RawMsg := .encryptedExtensions [⟨16, [0, 2, 1, 120]⟩, ⟨1, [1]⟩]

set_option maxRecDepth 10000 in
/-- **C87, refuted** (section 4.2: an extension that was not asked for ends the handshake) The client has offered neither a
pre-shared key nor an application protocol nor a maximum fragment length; a server that selects them is accepted. -/
theorem C87_refuted :
    offered (exHello exCfg) = some [43, 13, 10, 45, 51, 0] ∧
    (answers exSHunasked).map RawExt.ty = [43, 51, 41] ∧ (answers exEEunasked).map RawExt.ty = [16, 1] ∧
    (exOpen exCfg 600 (exAnswer none (exHello exCfg) exSHunasked [[.msg exEEunasked, .finished]])).1 = .ok () := by
  refine ⟨by decide +kernel, by decide +kernel, by decide +kernel, by decide +kernel⟩

/-- **C87** (partial) Missing: that the extensions were offered.  In a successful handshake every extension of known type in
ServerHello and EncryptedExtensions is one that RFC 8446 permits in that message and has readable content. -/
theorem C87_partial (hS : S.Lawful) (cfg : Config) (p : Provider V) (v : V) {c c' : Conn} (hf : c.Fresh S)
    (h : Conn.open_ S cfg p v c = (.ok (), c')) :
    ∃ x : ServerInput, Acceptable S cfg p v c.rr.buf.length x ∧ c.rx.bytes = x.bytes ++ c'.rx.bytes ∧
      (∀ e ∈ answers x.shMsg, ∀ t, (t, e.ty) ∈ extensionTypes →
        t ∈ permitted .serverHello ∧ ExtReadable .serverHello t e.data) ∧
      ∀ m xs, (m, .encryptedExtensions xs) ∈ x.msgs → ∀ e ∈ xs, ∀ t, (t, e.ty) ∈ extensionTypes →
        t ∈ permitted .encryptedExtensions ∧ ExtReadable .encryptedExtensions t e.data := by
  obtain ⟨x, hx, hb⟩ := open_acceptable S hS cfg p v hf h
  refine ⟨x, hx, hb, ?_, fun m xs hm => (hx.msgs _ hm).2.2.1.1⟩
  have h1 := hx.shEncoded.2.2
  obtain ⟨u1, u2, u3, u4, u5, pre, g, gn, tr, post, hr, -, -, -⟩ := hx.share
  rw [hr] at h1 ⊢
  exact h1.1

/-! ## C88: the maximum fragment length -/

def exMflCfg : Config := { exCfg with maxFragmentLength := some .bits9 }

/-- A server that agrees to records of 512 bytes. -/
def exMflServer : Bytes := exAnswer none (exHello exMflCfg) exSH [[.msg (.encryptedExtensions [⟨1, [1]⟩]), .finished]]

set_option maxRecDepth 10000 in
theorem exMfl_open : (exOpen exMflCfg 700 exMflServer).1 = .ok () ∧
    (exOpen exMflCfg 700 exMflServer).2.wb.buffer.length = 700 ∧ (exOpen exMflCfg 700 exMflServer).2.tx.ctl = [] := by
  decide +kernel

/-- **C88, refuted** (RFC 6066 section 4) Client and server have agreed on 512 bytes per record; one `write` sends a record with
more content. -/
theorem C88_refuted : ∃ (c c' : Conn) (bs content : Bytes) (evs : List OutEv), c.Fresh toySuite ∧
    c.rx.bytes = exMflServer ∧ offered (exHello exMflCfg) = some [43, 13, 1, 10, 45, 51, 0] ∧
    Conn.open_ toySuite exMflCfg exProv () c = (.ok (), c') ∧
    (Conn.write toySuite bs c').2.tx.log = c'.tx.log ++ evs ∧
    wrote evs = [ciphertextRecord toySuite c'.ks.client.st.key c'.ks.client.st.iv 0 23 content] ∧
    fragmentLimit 1 < content.length := by
  rcases hx : exOpen exMflCfg 700 exMflServer with ⟨r, c'⟩
  obtain ⟨h1, h2, h3⟩ := exMfl_open
  rw [hx] at h1 h2 h3
  obtain rfl : r = .ok () := h1
  obtain ⟨evs, k1, k2⟩ := write_fills_open toySuite toySuite_lawful exMflCfg exProv rfl () (exNew_fresh _ _ (by decide)) hx
    (by intro a ha; rw [h3] at ha; cases ha) (List.replicate 600 1) (by rw [h2, List.length_replicate]; decide)
  refine ⟨_, c', _, _, evs, exNew_fresh 700 [.data exMflServer] (by decide), ?_, by decide +kernel, hx, k1, k2, ?_⟩
  · show exMflServer ++ [] = _
    rw [List.append_nil]
  · rw [List.length_take, h2, List.length_replicate]; decide

/-- **C88** (partial) Missing: that the negotiated length is looked at at all.  The limit holds if the application gives the
connection a write buffer of at most the limit and 133 bytes: then no interleaving of calls after `open` sends a record with
more content. -/
theorem C88_partial (hS : S.Lawful) (cfg : Config) (p : Provider V) (hr : p.random.length = 32) (v : V) {c c' : Conn}
    (hf : c.Fresh S) (h : Conn.open_ S cfg p v c = (.ok (), c')) (limit : Nat) (hl : c'.wb.buffer.length ≤ limit + 133)
    (ops : List AnyOp) (hops : ops.length < 2 ^ 64) :
    ∃ (evs : List OutEv) (sent : List Bytes), (runAny S ops c').2.tx.log = c'.tx.log ++ evs ∧
      wrote evs = ciphertextRecords S c'.ks.client.st.key c'.ks.client.st.iv 0 (sent.map fun x => (23, x)) ∧
      ∀ x ∈ sent, x.length ≤ limit := by
  obtain ⟨h1, h2, h3, ho, h5⟩ := open_leaves S hS cfg p hr v hf h
  obtain ⟨content', evs, sent, hw⟩ := any_writes S hS ops c' []
    ⟨.idle h1, by show 133 ≤ c'.wb.buffer.length; omega, h3⟩ (by rw [h5]; omega)
  refine ⟨evs, sent, hw.log, by rw [hw.wrote, h5], fun x hx => ?_⟩
  have := hw.limit x hx
  omega

/-! ## C89: key updates -/

theorem keyUpdate_unread {r : RawMsg} {rest more : Bytes} {q : UInt8} : ¬ Begins S.hashLen r rest (keyUpdate q ++ more) := by
  rintro ⟨-, -, n, -, h⟩
  simp only [keyUpdate, List.cons_append, List.cons.injEq] at h
  have := h.1
  cases r <;> simp [RawMsg.type] at this

/-- An authentic record that is not dealt with: the call that meets it returns an error (or panics), the record is gone, and
the number of the next record has not changed. -/
theorem refused_call (hS : S.Lawful) (op : ROp) {h : RdHalf} (hs : Sane S h) (ho : h.opened = true) (hu : h.unread = [])
    (hf : op.Fills) (v w : UInt8) (body rest pt : Bytes) (e : Option TlsError) (hn : body.length < 65536)
    (hc : body.length ≤ h.rr.buf.length)
    (hopen : S.open_ h.rks.st.key (nonce h.rks.st.iv h.rks.st.counter) (header 23 v w body.length) body = some pt)
    (hi : Inner S.hashLen pt (.error e)) (hb : h.rx.bytes = header 23 v w body.length ++ body ++ rest) :
    ∃ x, (op.run S h).1 = .err x ∧ (∀ y, e = some y → x = y) ∧ Sane S (op.run S h).2 ∧ (op.run S h).2.opened = true ∧
      (op.run S h).2.unread = [] ∧ (op.run S h).2.rks.st.counter = h.rks.st.counter ∧ (op.run S h).2.rx.bytes = rest ∧
      (op.run S h).2.rks.st.key = h.rks.st.key ∧ (op.run S h).2.rks.st.iv = h.rks.st.iv ∧
      (op.run S h).2.rr.buf.length = h.rr.buf.length := by
  obtain ⟨res, s', c1, c2, c3⟩ := call_effect S hS op hs
  have hnx : Next S h.rks.st.key h.rks.st.iv h.rr.buf.length ⟨h.rks.st.counter, header 23 v w body.length ++ body ++ rest⟩
      (.error e) ⟨h.rks.st.counter, rest⟩ := .refused _ v w body rest pt _ hn hc hopen hi (fun hd => hd)
  have hcall : Call S h.rks.st.key h.rks.st.iv h.rr.buf.length op.spec (readerOf h) (.error e)
      ⟨true, [], ⟨h.rks.st.counter, rest⟩⟩ := by
    have : readerOf h = ⟨true, [], ⟨h.rks.st.counter, header 23 v w body.length ++ body ++ rest⟩⟩ := by
      rw [readerOf, ho, hu, placeOf, hb]
    rw [this]
    exact .error _ _ _ _ ((spec_waits op).2 hf) (.here _ _ _ hnx (by simp) (by simp))
  obtain ⟨rfl, rfl⟩ := call_unique S c1 hcall
  obtain ⟨d1, d2, d3, d4, d5⟩ := c3 (by simp)
  cases hr : (op.run S h).1 with
  | ok o => rw [hr] at c2; cases e <;> exact c2.elim
  | panic => rw [hr] at c2; cases e <;> exact c2.elim
  | err x =>
    rw [hr] at c2
    refine ⟨x, rfl, fun y hy => by rw [hy] at c2; exact c2, d1, ?_, ?_, ?_, ?_, d2, d3, d4⟩
    · exact (congrArg Reader.opened d5).symm
    · exact (congrArg Reader.cur d5).symm
    · exact (congrArg (fun r => r.place.seq) d5).symm
    · exact (congrArg (fun r => r.place.input) d5).symm

/-- **C89** (what the code does) The peer may not update its keys: every call that waits for data and meets a KeyUpdate
returns an error; the keys and the record number stay as they were, so nothing the peer sends with its new keys can be read
(as far as the AEAD keeps keys apart). -/
theorem C89_refused (hS : S.Lawful) (op : ROp) {h : RdHalf} (hs : Sane S h) (ho : h.opened = true) (hu : h.unread = [])
    (hf : op.Fills) (v w : UInt8) (body rest : Bytes) (q : UInt8) (more : Bytes) (padding : Nat) (hn : body.length < 65536)
    (hc : body.length ≤ h.rr.buf.length)
    (hopen : S.open_ h.rks.st.key (nonce h.rks.st.iv h.rks.st.counter) (header 23 v w body.length) body =
      some (Fragment.inner ⟨22, keyUpdate q ++ more, padding⟩))
    (hb : h.rx.bytes = header 23 v w body.length ++ body ++ rest) :
    (∃ x, (op.run S h).1 = .err x) ∧ (op.run S h).2.rx.bytes = rest ∧
      (op.run S h).2.rks.st.key = h.rks.st.key ∧ (op.run S h).2.rks.st.iv = h.rks.st.iv ∧
      (op.run S h).2.rks.st.counter = h.rks.st.counter := by
  obtain ⟨x, h1, -, -, -, -, h2, h3, h4, h5, -⟩ := refused_call S hS op hs ho hu hf v w body rest _ none hn hc hopen
    (.handshake _ _ _ (.unreadable _ (by simp [keyUpdate]) fun r rest => keyUpdate_unread S)) hb
  exact ⟨⟨x, h1⟩, h3, h4, h5, h2⟩

set_option maxRecDepth 20000 in
/-- **C89, refuted** (section 4.6.3) After the handshake the server sends a KeyUpdate and then data under its new keys, as it
may: the KeyUpdate is an error and the data is not delivered. -/
theorem C89_refuted :
    let rx : Rx := [.data (exApp 0 ⟨22, keyUpdate 0, 0⟩ ++ protectedWith toySuite (nextSecret toySuite exAppSecret) [⟨23, [7, 8], 0⟩])]
    (exOpened [] rx).1 = .ok () ∧
    (runReads toySuite [.read 10, .read 10, .read 10] (exOpened [] rx).2.rd).1 =
      [.err .unimplemented, .err .cryptoError, .err .ioError] := by
  decide +kernel

/-! ## C90: HelloRetryRequest -/

/-- **C90** (what the code does) A HelloRetryRequest is not understood: whatever follows it, `open` does not succeed. -/
theorem C90_retry_refused (hS : S.Lawful) (cfg : Config) (p : Provider V) (v : V) {c : Conn} (hf : c.Fresh S) (r : RawMsg)
    (hr : IsRetry r) (hw : r.WellSized S.hashLen) (v1 v2 : UInt8) (junk rest : Bytes) (hl : (r.bytes ++ junk).length < 65536)
    (hb : c.rx.bytes = plaintextRecord 22 [v1, v2] (r.bytes ++ junk) ++ rest) : (Conn.open_ S cfg p v c).1 ≠ .ok () := by
  intro hok
  rcases hx : Conn.open_ S cfg p v c with ⟨res, c'⟩
  rw [hx] at hok
  obtain rfl : res = .ok () := hok
  obtain ⟨x, he⟩ := open_session S hS cfg p v hf hx
  obtain ⟨w1, w2, junk', hl', hrec⟩ := he.received.shRecord
  obtain ⟨r', hw', ⟨n, -, hsh⟩, hks⟩ := he.received.serverHello
  have h1 := he.bytes
  rw [hb, Session.received, hrec] at h1
  have h2 : header 22 v1 v2 (r.bytes ++ junk).length ++ (r.bytes ++ junk ++ rest) =
      header 22 w1 w2 (x.sh ++ junk').length ++ (x.sh ++ junk' ++ (x.records.flatten ++ c'.rx.bytes)) := by
    simpa [plaintextRecord, header] using h1
  obtain ⟨-, -, -, h3, h4⟩ := header_injective hl hl' h2
  have h5 := (List.append_inj h4 h3).1
  obtain ⟨u1, u2, u3, u4, u5, pre, g, gn, tr, post, hr', -, -, -⟩ := hks
  obtain ⟨a1, a2, a3, a4, a5, hra, hxs⟩ := hr
  have ht : r.type = r'.type := by rw [hra, hr']; rfl
  rw [hsh, RawMsg.bytes] at h5
  simp only [List.cons_append, List.cons.injEq, List.append_assoc] at h5
  have h6 := (List.append_inj h5.2 (by simp [be24])).2
  obtain ⟨rfl, -⟩ := body_app hw hw' ht h6
  rw [hra] at hr'
  injection hr' with _ _ _ _ _ hx2
  obtain ⟨g', hg⟩ := hxs ⟨51, be16 gn ++ (be16 x.share.length ++ (x.share ++ tr))⟩ (by rw [hx2]; simp) rfl
  have := congrArg List.length hg
  simp [be16] at this

/-- A HelloRetryRequest that asks for X25519. -/
def exRetry : RawMsg := .serverHello 0x0303 retryRandom [] 0x1301 0 [⟨43, [3, 4]⟩, ⟨51, be16 29⟩]

/-- A message with the random of a HelloRetryRequest and a complete key share. -/
def exRetryShare : RawMsg := .serverHello 0x0303 retryRandom [] 0x1301 0 [⟨43, [3, 4]⟩, exKeyShare]

example : IsRetry exRetry := ⟨_, _, _, _, _, rfl, by
  intro e he h
  simp only [List.mem_cons, List.not_mem_nil, or_false] at he
  rcases he with rfl | rfl
  · cases h
  · exact ⟨29, rfl⟩⟩

set_option maxRecDepth 10000 in
/-- **C90, refuted** A server that asks for another group with a HelloRetryRequest is refused, and no second ClientHello is
sent; a message with the random of a HelloRetryRequest but with a key is taken for a ServerHello. -/
theorem C90_refuted :
    (exOpen exCfg 600 (plaintextRecord 22 [3, 3] exRetry.bytes)).1 = .err .decodeError ∧
    (exOpen exCfg 600 (plaintextRecord 22 [3, 3] exRetry.bytes)).2.tx.log =
      [.wrote (plaintextRecord 22 [3, 1] (exHello exCfg)), .flushed] ∧
    (exOpen exCfg 600 (exAnswer none (exHello exCfg) exRetryShare exMin)).1 = .ok () := by
  decide +kernel

/-! ## C91: the signature scheme -/

/-- A CertificateVerify of the key 3 with rsa_pss_rsae_sha256. -/
def exOtherScheme : RawMsg :=
  .certificateVerify 0x0804 (mix 4 ([3] ++ serverSignedContent toySuite
    (exHelloMsg exCfg ++ exSH.bytes ++ (RawMsg.encryptedExtensions []).bytes ++ (exCertMsg [exLeaf, toyInter]).bytes)))

set_option maxRecDepth 10000 in
/-- **C91, refuted** (section 4.4.3: the scheme must be one the client has offered) The client offers ecdsa_secp256r1_sha256 only;
a CertificateVerify with rsa_pss_rsae_sha256 is accepted. -/
theorem C91_refuted :
    (dClientHello (exHello exCfg)).map (fun m => m.extensions.filter fun e => e.type == 13) =
      some [.signatureAlgorithms [0x0403]] ∧
    exAuthOpen toyNative [[exEE, .msg (exCertMsg [exLeaf, toyInter])], [.msg exOtherScheme, .finished]] = .ok () := by
  decide +kernel

theorem schemeAlgo_sound {F : Features} {x : SignatureScheme} {algo : SigAlgo} (h : schemeAlgo F x = some algo) :
    (x, algo) ∈ schemeAlgorithms ∧ Enabled F algo := by
  cases x <;> simp [schemeAlgo] at h <;> (try obtain ⟨h, h'⟩ := h) <;> subst_vars <;> simp_all [schemeAlgorithms, Enabled]

/-- A signature is accepted only with a scheme whose algorithm is part of the build. -/
theorem pkiVerifySignature_enabled {L : PkiLib} {F : Features} {cv : CertVerify} {v v' : PkiVerifier}
    (h : pkiVerifySignature L S F cv v = (.ok (), v')) :
    ∃ algo, (cv.scheme, algo) ∈ schemeAlgorithms ∧ Enabled F algo := by
  obtain ⟨tr, ctx, raw, entries, -, -, -, h, -⟩ := pkiVerifySignature_ok h
  cases hs : schemeAlgo F cv.scheme with
  | some algo => exact ⟨algo, schemeAlgo_sound hs⟩
  | none =>
    exfalso
    unfold verifyPkiSignature at h
    cases entries with
    | nil => cases h
    | cons e rest =>
      cases e with
      | rawPublicKey _ => cases h
      | x509 leaf =>
        simp only at h
        cases h1 : L.fromDer leaf with
        | none => rw [h1] at h; cases h
        | some dc =>
          rw [h1] at h
          simp only at h
          cases h2 : dc.publicKey with
          | none => rw [h2] at h; cases h
          | some key => rw [h2] at h; simp only [hs] at h; cases h

/-- **C91** (partial) Missing: that the scheme was offered.  With the native verifier the scheme of every CertificateVerify is a
known one and its algorithm is part of the build. -/
theorem C91_partial (hS : S.Lawful) (L : PkiLib) (F : Features) (now : Option Nat) (N : Nat) (cfg : Config)
    (p : Provider PkiVerifier) (v : PkiVerifier) {c c' : Conn} (hf : c.Fresh S)
    (hv : p.verifier = some (pkiOps L S F now N)) (h : Conn.open_ S cfg p v c = (.ok (), c')) :
    ∃ x : Session, x.Received S (cfg.psk.map (·.1)) p.secret ∧ c.rx.bytes = x.received ++ c'.rx.bytes ∧
      ∀ m code sig, (m, .certificateVerify code sig) ∈ x.msgs →
        ∃ scheme algo, (scheme, code) ∈ signatureSchemes ∧ (scheme, algo) ∈ schemeAlgorithms ∧ Enabled F algo := by
  obtain ⟨x, hx⟩ := open_session S hS cfg p v hf h
  obtain ⟨v', hr⟩ := hx.verifier _ hv
  have key := verifierRun_induct (pkiOps L S F now N) x.tr0 S.hashLen (fun _ _ => True)
    (fun _ r => ∀ code sig, r.2 = .certificateVerify code sig →
      ∃ scheme algo, (scheme, code) ∈ signatureSchemes ∧ (scheme, algo) ∈ schemeAlgorithms ∧ Enabled F algo)
    (fun before m ctx es v w _ _ _ => ⟨trivial, fun code sig h => by cases h⟩)
    (fun before m code sig sch v w _ hs hc => ⟨trivial, fun code' sig' h => by
      injection h with h1 h2
      subst h1
      obtain ⟨algo, k1, k2⟩ := pkiVerifySignature_enabled S hc
      exact ⟨sch, algo, hs, k1, k2⟩⟩)
    (fun before m v hm _ => ⟨trivial, fun code sig h => absurd h ((hm m List.mem_cons_self).2 code sig)⟩)
    x.msgs [] _ v' (fun m hm => (hx.received.encoded m hm).1) trivial (by simpa [Session.bytesOf] using hr)
  refine ⟨x, hx.received, hx.bytes, fun m code sig hm => ?_⟩
  obtain ⟨a, b, hab⟩ := List.append_of_mem hm
  exact key.2 a _ b hab code sig rfl

set_option maxRecDepth 10000 in
/-- Without the RSA feature the server of `C91_refuted` is refused. -/
example : exAuthOpen (pkiOps toyPki toySuite { allFeatures with rsa := false } (some 20) 1000)
    [[exEE, .msg (exCertMsg [exLeaf, toyInter])], [.msg exOtherScheme, .finished]] = .err .invalidSignatureScheme := by
  decide +kernel

/-! ## C92: record numbers -/

/-- Records that do not open under number `seq`. -/
def Foreign (key iv : Bytes) (seq cap : Nat) (bodies : List Bytes) : Prop :=
  ∀ b ∈ bodies, b.length < 65536 ∧ b.length ≤ cap ∧ S.open_ key (nonce iv seq) (header 23 3 3 b.length) b = none

/-- The bytes of protected records with these bodies. -/
def recordsOf (bodies : List Bytes) : Bytes := bodies.flatMap fun b => header 23 3 3 b.length ++ b

theorem runReads_err {op : ROp} {ops : List ROp} {h : RdHalf} {x : TlsError} (hr : (op.run S h).1 = .err x) :
    (runReads S (op :: ops) h).1 = .err x :: (runReads S ops (op.run S h).2).1 := by
  rcases hx : op.run S h with ⟨r, h1⟩
  rw [hx] at hr
  obtain rfl : r = .err x := hr
  simp only [runReads, hx]

/-- Nothing but `CryptoError` comes out of records with other numbers. -/
theorem foreign_calls (hS : S.Lawful) (ops : List ROp) : ∀ (bodies : List Bytes) {h : RdHalf} (rest : Bytes), Sane S h →
    h.opened = true → h.unread = [] → (∀ op ∈ ops, op.Fills) → ops.length ≤ bodies.length →
    Foreign S h.rks.st.key h.rks.st.iv h.rks.st.counter h.rr.buf.length bodies → h.rx.bytes = recordsOf bodies ++ rest →
    (runReads S ops h).1 = List.replicate ops.length (.err .cryptoError) := by
  induction ops with
  | nil => intros; rfl
  | cons op ops ih =>
    intro bodies h rest hs ho hu hf hl hfor hb
    cases bodies with
    | nil => simp at hl
    | cons b bs =>
      obtain ⟨g1, g2, g3⟩ := hfor b List.mem_cons_self
      obtain ⟨res, s', c1, c2, c3⟩ := call_effect S hS op hs
      have hnx : Next S h.rks.st.key h.rks.st.iv h.rr.buf.length
          ⟨h.rks.st.counter, header 23 3 3 b.length ++ b ++ (recordsOf bs ++ rest)⟩
          (.error (some .cryptoError)) ⟨h.rks.st.counter, recordsOf bs ++ rest⟩ := .forged _ 3 3 b _ g1 g2 g3
      have hcall : Call S h.rks.st.key h.rks.st.iv h.rr.buf.length op.spec (readerOf h) (.error (some .cryptoError))
          ⟨true, [], ⟨h.rks.st.counter, recordsOf bs ++ rest⟩⟩ := by
        have : readerOf h = ⟨true, [], ⟨h.rks.st.counter, header 23 3 3 b.length ++ b ++ (recordsOf bs ++ rest)⟩⟩ := by
          rw [readerOf, ho, hu, placeOf, hb]
          simp [recordsOf]
        rw [this]
        exact .error _ _ _ _ ((spec_waits op).2 (hf op List.mem_cons_self)) (.here _ _ _ hnx (by simp) (by simp))
      obtain ⟨rfl, rfl⟩ := call_unique S c1 hcall
      obtain ⟨d1, d2, d3, d4, d5⟩ := c3 (by simp)
      have hr : (op.run S h).1 = .err .cryptoError := by
        cases hr : (op.run S h).1 with
        | ok o => rw [hr] at c2; exact c2.elim
        | panic => rw [hr] at c2; exact c2.elim
        | err x => rw [hr] at c2; exact congrArg _ c2
      have e1 : (op.run S h).2.opened = true := (congrArg Reader.opened d5).symm
      have e2 : (op.run S h).2.unread = [] := (congrArg Reader.cur d5).symm
      have e3 : (op.run S h).2.rks.st.counter = h.rks.st.counter := (congrArg (fun r => r.place.seq) d5).symm
      have e4 : (op.run S h).2.rx.bytes = recordsOf bs ++ rest := (congrArg (fun r => r.place.input) d5).symm
      have := ih bs rest d1 e1 e2 (fun o ho => hf o (List.mem_cons_of_mem _ ho)) (by simpa using hl)
        (by rw [d2, d3, e3, d4]; exact fun y hy => hfor y (List.mem_cons_of_mem _ hy)) e4
      rw [runReads_err S hr, this]
      rfl

/-- **C92** (what the code does) An authentic record that causes an error (for instance an alert, or a KeyUpdate) does not
advance the record number.  The peer goes on with the next number, so if its further records do not open under the old one,
every further call gives `CryptoError`. -/
theorem C92_deaf (hS : S.Lawful) (op : ROp) {h : RdHalf} (hs : Sane S h) (ho : h.opened = true) (hu : h.unread = [])
    (hf : op.Fills) (v w : UInt8) (body pt : Bytes) (e : Option TlsError) (hn : body.length < 65536)
    (hc : body.length ≤ h.rr.buf.length)
    (hopen : S.open_ h.rks.st.key (nonce h.rks.st.iv h.rks.st.counter) (header 23 v w body.length) body = some pt)
    (hi : Inner S.hashLen pt (.error e)) (bodies : List Bytes) (rest : Bytes)
    (hb : h.rx.bytes = header 23 v w body.length ++ body ++ (recordsOf bodies ++ rest))
    (hfor : Foreign S h.rks.st.key h.rks.st.iv h.rks.st.counter h.rr.buf.length bodies)
    (ops : List ROp) (hops : ∀ op ∈ ops, op.Fills) (hl : ops.length ≤ bodies.length) :
    ∃ x, (runReads S (op :: ops) h).1 = .err x :: List.replicate ops.length (.err .cryptoError) := by
  obtain ⟨x, h1, -, h3, h4, h5, h6, h7, h8, h9, h10⟩ := refused_call S hS op hs ho hu hf v w body _ pt e hn hc hopen hi hb
  have := foreign_calls S hS ops bodies rest h3 h4 h5 hops hl (by rw [h6, h8, h9, h10]; exact hfor) h7
  exact ⟨x, by rw [runReads_err S h1, this]⟩

set_option maxRecDepth 20000 in
/-- **C92, refuted** (section 5.3) The server sends a warning alert user_canceled, data and close_notify, in records 0, 1 and 2:
nothing of it can be read after the alert. -/
theorem C92_refuted :
    let rx : Rx := [.data (exApp 0 ⟨21, [1, 90], 0⟩ ++ exApp 1 ⟨23, [7, 8], 0⟩ ++ exApp 2 ⟨21, [1, 0], 0⟩)]
    (exOpened [] rx).1 = .ok () ∧
    (runReads toySuite [.read 10, .read 10, .read 10, .read 10] (exOpened [] rx).2.rd).1 =
      [.err .internalError, .err .cryptoError, .err .cryptoError, .err .ioError] := by
  decide +kernel

/-- `C92_deaf` on an open connection whose first record is such an alert; the second record is foreign. -/
example : ∃ x, (runReads toySuite [.read 5, .fillBuf] (exConn [.data (sealInner 0 [1, 90, 21] ++ sealInner 1 [7, 23])]).rd).1 =
    .err x :: List.replicate 1 (.err .cryptoError) := ⟨.internalError, by decide +kernel⟩
example : Foreign toySuite (List.replicate 16 3) (List.replicate 12 4) 0 200 [(sealInner 1 [7, 23]).drop 5] := by
  unfold Foreign
  decide +kernel

/-! ## C93: the algorithm of a key -/

/-- A certificate for a key that is said to be for Ed25519. -/
def exDerKey : Bytes :=
  let tbs := exTlv 0x30 (exTlv 0xA0 (exTlv 0x02 [2]) ++ exTlv 0x02 [0x2A] ++ exEcdsa ++ exTlv 0x30 (exRdn "ca") ++ exPeriod ++
    exTlv 0x30 (exRdn "x") ++ exTlv 0x30 (exEd25519 ++ exTlv 0x03 [0, 3]) ++ exTlv 0xA3 (exTlv 0x30 []))
  exTlv 0x30 (tbs ++ exEcdsa ++ exTlv 0x03 (0 :: mix 4 ([1] ++ tbs)))

set_option maxRecDepth 10000 in
/-- **C93, refuted** (RFC 5280 section 4.1.2.7) The key of a certificate is for Ed25519; it is used to verify an ECDSA signature. -/
theorem C93_refuted : ∃ (T : DerTags) (L : PkiLib) (m : CertMsg) (v v' : PkiVerifier) (leaf tbs tr : Bytes) (c : Cert) (cv : CertVerify),
    m.entries = [.x509 leaf] ∧ IsCertificate T c tbs leaf ∧ c.tbs.keyAlgorithm.oid = [1, 3, 101, 112] ∧
    (cv.scheme, SigAlgo.ecdsaP256Sha256) ∈ schemeAlgorithms ∧
    (pkiOps (L.withDer T) toySuite allFeatures (some 20) 1000).verifyCertificate tr m v = (.ok (), v') ∧
    ((pkiOps (L.withDer T) toySuite allFeatures (some 20) 1000).verifySignature cv v').1 = .ok () := by
  obtain ⟨c, tbs, h1, h2⟩ := decodes_any exTags (K := codeCaps) (b := exDerKey)
    (P := fun c => c.tbs.keyAlgorithm.oid = [1, 3, 101, 112]) (by decide +kernel)
  have h3 : ((pkiOps (toyPki.withDer exTags) toySuite allFeatures (some 20) 1000).verifyCertificate [] (toyMsg [exDerKey])
    (exDerVerifier "x")).1 = .ok () := by decide +kernel
  have h4 : ((pkiOps (toyPki.withDer exTags) toySuite allFeatures (some 20) 1000).verifySignature
      ⟨.ecdsaSecp256r1Sha256, mix 4 ([3] ++ serverSignedContent toySuite [])⟩
      ((pkiOps (toyPki.withDer exTags) toySuite allFeatures (some 20) 1000).verifyCertificate [] (toyMsg [exDerKey])
        (exDerVerifier "x")).2).1 = .ok () := by decide +kernel
  rcases hx : (pkiOps (toyPki.withDer exTags) toySuite allFeatures (some 20) 1000).verifyCertificate [] (toyMsg [exDerKey])
    (exDerVerifier "x") with ⟨r, v'⟩
  rw [hx] at h3 h4
  obtain rfl : r = .ok () := h3
  exact ⟨exTags, toyPki, toyMsg [exDerKey], exDerVerifier "x", v', _, tbs, [], c, _, rfl, h1, of_decide_eq_true h2, by decide, hx, h4⟩

/-- The object identifiers that name the keys of an algorithm in a certificate: id-ecPublicKey (RFC 5480), id-Ed25519 (RFC 8410),
rsaEncryption (RFC 3279) and, for PSS, id-RSASSA-PSS (RFC 4055). -/
def keyNames : SigAlgo → List (List Nat)
  | .ecdsaP256Sha256 | .ecdsaP384Sha384 => [[1, 2, 840, 10045, 2, 1]]
  | .ed25519 => [[1, 3, 101, 112]]
  | .rsaPkcs1Sha256 | .rsaPkcs1Sha384 | .rsaPkcs1Sha512 => [[1, 2, 840, 113549, 1, 1, 1]]
  | .rsaPssSha256 | .rsaPssSha384 | .rsaPssSha512 => [[1, 2, 840, 113549, 1, 1, 1], [1, 2, 840, 113549, 1, 1, 10]]

/-- Whoever made the certificate named the kind of its key correctly: bytes that can be read as a key for an algorithm are named
as a key for it. -/
def NamedRight (L : PkiLib) (c : Cert) : Prop :=
  ∀ algo, L.keyOk algo c.tbs.key.bytes = true → c.tbs.keyAlgorithm.oid ∈ keyNames algo

/-- **C93** (partial) Missing: that the name of the kind of key is looked at.  If `open` succeeds with the native verifier, then
the key of every certificate that signed something (the leaf a CertificateVerify, the others and the CA a certificate) can be
read as a key for the algorithm it was used with; so it was used with its own algorithm if the certificate names the kind of its
key correctly. -/
theorem C93_partial (T : DerTags) (L : PkiLib) (hS : S.Lawful) (F : Features) (now : Option Nat) (N : Nat) (cfg : Config)
    (p : Provider PkiVerifier) (ca : CertEntry) {c c' : Conn} (hf : c.Fresh S)
    (hv : p.verifier = some (pkiOps (L.withDer T) S F now N))
    (h : Conn.open_ S cfg p (PkiVerifier.new ca) c = (.ok (), c')) :
    ∃ x : Session, x.Received S (cfg.psk.map (·.1)) p.secret ∧ c.rx.bytes = x.received ++ c'.rx.bytes ∧
      (∀ before m code sig after, x.msgs = before ++ (m, .certificateVerify code sig) :: after →
        ∃ a mc ctx es b leaf rest k tbs scheme algo, before = a ++ (mc, .certificate ctx es) :: b ∧ noAuth b ∧
          es.map (·.1) = leaf :: rest ∧ IsCertificate T k tbs leaf ∧ (scheme, code) ∈ signatureSchemes ∧
          (scheme, algo) ∈ schemeAlgorithms ∧ L.keyOk algo k.tbs.key.bytes = true ∧
          (NamedRight L k → k.tbs.keyAlgorithm.oid ∈ keyNames algo)) ∧
      ∀ before m ctx es after, x.msgs = before ++ (m, .certificate ctx es) :: after →
        ∀ (i : Nat) (cert : Bytes), (es.map (·.1))[i]? = some cert →
          ∃ k tbs issuer ki tbsi algo, IsCertificate T k tbs cert ∧
            ((es.map (·.1)).map CertEntry.x509 ++ [ca])[i + 1]? = some (.x509 issuer) ∧ IsCertificate T ki tbsi issuer ∧
            (k.sigAlg, algo) ∈ certificateAlgorithms ∧ L.keyOk algo ki.tbs.key.bytes = true ∧
            (NamedRight L ki → ki.tbs.keyAlgorithm.oid ∈ keyNames algo) := by
  obtain ⟨x, h1, h2, h3, h4⟩ := C81_native T S hS F now N cfg p ca hf hv h
  refine ⟨x, h1, h2, ?_, ?_⟩
  · intro before m code sig after hm
    obtain ⟨a, mc, ctx, es, b, e1, e2, leaf, rest, k, tbs, scheme, algo, e3, e4, -, e5, e6, e7⟩ := h4 _ _ _ _ _ hm
    exact ⟨a, mc, ctx, es, b, leaf, rest, k, tbs, scheme, algo, e1, e2, e3, e4, e5, e6, e7.1, fun hn => hn algo e7.1⟩
  · intro before m ctx es after hm i cert hi
    obtain ⟨k, tbs, issuer, ki, tbsi, e1, e2, e3, -, algo, e4, -, -, e5⟩ := (h3 _ _ _ _ _ hm).1 i cert hi
    exact ⟨k, tbs, issuer, ki, tbsi, algo, e1, e2, e3, e4, e5.1, fun hn => hn algo e5.1⟩

/-! ## C94: offering what can be verified -/

/-- The schemes of RFC 8446 section 4.2.3 for certificates only, with their algorithms. -/
def certificateOnly : List (SignatureScheme × SigAlgo) :=
  [(.rsaPkcs1Sha256, .rsaPkcs1Sha256), (.rsaPkcs1Sha384, .rsaPkcs1Sha384), (.rsaPkcs1Sha512, .rsaPkcs1Sha512)]

/-- A build with these features can verify the scheme where it may be used. -/
def CanVerify (F : Features) (s : SignatureScheme) : Prop :=
  ∃ algo, (s, algo) ∈ schemeAlgorithms ++ certificateOnly ∧ Enabled F algo

/-- **C94** (partial) Missing: builds without these features.  A configuration made with the builder offers only schemes the
native verifier can verify exactly if P-384 and Ed25519 are part of the build, and RSA if its schemes are offered. -/
theorem C94_partial (F : Features) (alloc : Bool) (calls : List BuilderCall) (cfg : Config)
    (h : buildConfig alloc calls = .ok cfg) : (∀ s ∈ cfg.signatureSchemes, CanVerify F s) ↔
      F.p384 = true ∧ F.ed25519 = true ∧ ((alloc = true ∨ .enableRsa ∈ calls) → F.rsa = true) := by
  obtain ⟨-, -, -, -, -, hs, -⟩ := C54_builds_partial alloc calls cfg h
  have hrsa : rsaCalls calls ≠ 0 ↔ BuilderCall.enableRsa ∈ calls := by
    unfold rsaCalls
    rw [ne_eq, List.count_eq_zero, not_not]
  have hb : (∀ s ∈ baseSchemes, CanVerify F s) ↔ F.p384 = true ∧ F.ed25519 = true := by
    simp [baseSchemes, CanVerify, schemeAlgorithms, certificateOnly, Enabled]
  have hr : (∀ s ∈ rsaSchemes, CanVerify F s) ↔ F.rsa = true := by
    simp [rsaSchemes, CanVerify, schemeAlgorithms, certificateOnly, Enabled]
  rw [hs]
  have hrep : (∀ s ∈ (List.replicate (rsaCalls calls) rsaSchemes).flatten, CanVerify F s) ↔
      (BuilderCall.enableRsa ∈ calls → F.rsa = true) := by
    rw [← hrsa, ← hr]
    simp only [List.mem_flatten, List.mem_replicate]
    exact ⟨fun h h0 s hs => h s ⟨_, ⟨h0, rfl⟩, hs⟩, fun h s ⟨l, ⟨h0, h1⟩, hs⟩ => h h0 s (h1 ▸ hs)⟩
  have hal : (∀ s ∈ (if alloc then rsaSchemes else []), CanVerify F s) ↔ (alloc = true → F.rsa = true) := by
    cases alloc <;> simp [hr]
  simp only [List.mem_append, or_imp, forall_and, hb, hrep, hal]
  tauto

/-- The configuration of the examples, made with the builder. -/
def exBuilt : Config := { exCfg with signatureSchemes := [.ecdsaSecp256r1Sha256, .ecdsaSecp384r1Sha384, .ed25519] }

/-- Certificate and CertificateVerify with ed25519. -/
def exEdFlight : List (List SrvMsg) :=
  [[exEE, .msg (exCertMsg [exLeaf, toyInter])],
   [.msg (.certificateVerify 0x0807 (mix 4 ([3] ++ serverSignedContent toySuite (exHello exBuilt ++ exSH.bytes ++
      (RawMsg.encryptedExtensions []).bytes ++ (exCertMsg [exLeaf, toyInter]).bytes)))), .finished]]

set_option maxRecDepth 10000 in
/-- **C94, refuted** The default configuration offers ed25519 whatever the build; a server that takes the offer is refused for its
choice if the build has no Ed25519. -/
theorem C94_refuted : buildConfig false [.withServerName (ascii "example.com")] = .ok exBuilt ∧
    (Conn.open_ toySuite exBuilt (authProv (pkiOps toyPki toySuite ⟨false, false, false⟩ (some 20) 1000)) (PkiVerifier.new (.x509 toyCa))
      (exNew 600 [.data (exAnswer none (exHello exBuilt) exSH exEdFlight)])).1 = .err .invalidSignatureScheme := by
  decide +kernel

end ETls
