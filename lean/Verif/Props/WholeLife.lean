import Verif.Props.AfterOpen
import Verif.Props.Honest
import Verif.Props.HonestServer

/-! # Whole connections: `new`, `open`, any interleaving of calls, `close`

The theorems of the other files about the writing and the reading half start from a state of that half.  Here they are
put together: every statement starts from the constructor and a successful `open`. -/

namespace ETls
open Spec

variable (S : Suite) {V : Type}

/-! ## The writing side of any interleaving -/

/-- What an interleaving `ops` of calls that returns `rs` and leads from `c` (with `content` in the write buffer) to `c'`
does on the writing side. -/
structure Writes (ops : List AnyOp) (c : Conn) (content : Bytes) (rs : List AnyOut) (c' : Conn) (content' : Bytes)
    (evs : List OutEv) (sent : List Bytes) : Prop where
  ready : c'.wr.Ready S content'
  size : c'.wb.buffer.length = c.wb.buffer.length
  key : c'.ks.client.st.key = c.ks.client.st.key
  iv : c'.ks.client.st.iv = c.ks.client.st.iv
  log : c'.tx.log = c.tx.log ++ evs
  counter : c'.ks.client.st.counter = c.ks.client.st.counter + sent.length
  sentLe : sent.length ≤ ops.length
  wrote : wrote evs =
    ciphertextRecords S c.ks.client.st.key c.ks.client.st.iv c.ks.client.st.counter (sent.map fun x => (23, x))
  limit : ∀ x ∈ sent, x.length ≤ c.wb.buffer.length - 133
  accepts : Reliable c.tx → Reliable c'.tx ∧
    content ++ accepted (writerOps ops) (writerOuts rs) = sent.flatten ++ content'

theorem any_writes (hS : S.Lawful) (ops : List AnyOp) : ∀ (c : Conn) (content : Bytes), c.wr.Ready S content →
    c.ks.client.st.counter + ops.length < 2 ^ 64 →
    ∃ content' evs sent, Writes S ops c content (runAny S ops c).1 (runAny S ops c).2 content' evs sent := by
  induction ops with
  | nil =>
    intro c content h hc
    exact ⟨content, [], [], h, rfl, rfl, rfl, by simp [runAny], rfl, by simp, rfl, by simp,
      fun h => ⟨h, by simp [accepted, runAny, writerOps, writerOuts]⟩⟩
  | cons op ops ih =>
    intro c content h hc
    simp only [List.length_cons] at hc
    cases op with
    | reader op =>
      have h1 : (onRd (op.run S) c).2.wr.Ready S content := ⟨h.wb, h.size, h.iv⟩
      obtain ⟨c2, evs, sent, i⟩ := ih (onRd (op.run S) c).2 content h1 (by
        show c.ks.client.st.counter + ops.length < _; omega)
      refine ⟨c2, evs, sent, i.ready, i.size, i.key, i.iv, i.log, i.counter, ?_, i.wrote, i.limit, i.accepts⟩
      have := i.sentLe
      simp only [List.length_cons]; omega
    | writer op =>
      obtain ⟨c1, e1, s1, st⟩ := op_step S hS op c.wr content h (by
        show c.ks.client.st.counter + 1 < _; omega)
      have hcnt : (onWr (op.run S) c).2.ks.client.st.counter = c.ks.client.st.counter + s1.length := st.counter
      have hle := st.sentLe
      have hsz : (onWr (op.run S) c).2.wb.buffer.length = c.wb.buffer.length := st.size
      have hkey : (onWr (op.run S) c).2.ks.client.st.key = c.ks.client.st.key := st.key
      have hiv : (onWr (op.run S) c).2.ks.client.st.iv = c.ks.client.st.iv := st.iv
      have hlog : (onWr (op.run S) c).2.tx.log = c.tx.log ++ e1 := st.log
      obtain ⟨c2, e2, s2, i⟩ := ih (onWr (op.run S) c).2 c1 st.ready (by omega)
      refine ⟨c2, e1 ++ e2, s1 ++ s2, i.ready, i.size.trans hsz, i.key.trans hkey, i.iv.trans hiv, ?_, ?_, ?_, ?_, ?_, ?_⟩
      · have := i.log
        rw [hlog, List.append_assoc] at this
        exact this
      · have := i.counter
        rw [hcnt] at this
        rw [List.length_append, ← Nat.add_assoc]
        exact this
      · have := i.sentLe; simp only [List.length_append, List.length_cons]; omega
      · have h1 : ETls.wrote e1 = _ := st.wrote
        have h2 := i.wrote
        rw [hkey, hiv, hcnt] at h2
        rw [wrote_append, h1, h2, List.map_append, ciphertextRecords_append, List.length_map]
        rfl
      · intro x hx
        rcases List.mem_append.1 hx with hx | hx
        · exact st.limit x hx
        · have := i.limit x hx; rw [hsz] at this; exact this
      · intro hr
        obtain ⟨g1, g2⟩ := st.accepts hr
        obtain ⟨k1, k2⟩ := i.accepts g1
        refine ⟨k1, ?_⟩
        show content ++ (acceptedBy op (op.run S c.wr).1 ++
          accepted (writerOps ops) (writerOuts (runAny S ops (onWr (op.run S) c).2).1)) = _
        rw [← List.append_assoc, g2, List.append_assoc, k2, List.flatten_append, List.append_assoc]

theorem Conn.new_parts {rx : Rx} {tx : Tx} {rb wb : Bytes} {c : Conn} (h : Conn.new S rx tx rb wb = .ok c) :
    c.Fresh S ∧ c.rx = rx ∧ c.tx = tx ∧ c.rr = RR.new rb ∧ c.wb.buffer = wb ∧ c.dec = ⟨0, 0, 0⟩ ∧ c.fp = .strict := by
  obtain ⟨h1, h2, h3⟩ := Conn.new_fresh S h
  refine ⟨h1, h2, h3, ?_⟩
  unfold Conn.new WB.new at h
  split at h
  · simp only [Res.map, Res.ok.injEq] at h
    subst h
    exact ⟨rfl, rfl, rfl, rfl⟩
  · cases h

/-- **C10, C12, C18 for whole connections** A connection is made with `new` and `open` succeeds; then any calls of both
halves in any order, whatever the transport does.  The complete records sent after the handshake are protected with the
client's application key under the sequence numbers 0, 1, ... (with pairwise different nonces), each has at most the write
buffer's length minus 133 bytes of content; and if the sending side of the transport does not fail, their contents
followed by what is still in the write buffer are exactly the bytes accepted by the `write` calls, in order. -/
theorem C10_whole (hS : S.Lawful) (cfg : Config) (p : Provider V) (hr : p.random.length = 32) (v : V) {rx : Rx} {tx : Tx}
    {rb wb : Bytes} {c c' : Conn} (hn : Conn.new S rx tx rb wb = .ok c) (h : Conn.open_ S cfg p v c = (.ok (), c'))
    (ops : List AnyOp) (hops : ops.length < 2 ^ 64) :
    ∃ (evs : List OutEv) (sent : List Bytes), (runAny S ops c').2.tx.log = c'.tx.log ++ evs ∧
      wrote evs = ciphertextRecords S c'.ks.client.st.key c'.ks.client.st.iv 0 (sent.map fun x => (23, x)) ∧
      ((List.range sent.length).map fun i => Spec.nonce c'.ks.client.st.iv i).Nodup ∧
      (∀ x ∈ sent, x.length + 133 ≤ wb.length) ∧
      (Reliable c'.tx →
        sent.flatten ++ (runAny S ops c').2.wr.buffered = accepted (writerOps ops) (writerOuts (runAny S ops c').1)) := by
  obtain ⟨hf, _, _, _, hwb, _⟩ := Conn.new_parts S hn
  obtain ⟨h1, h2, h3, _, h5⟩ := open_leaves S hS cfg p hr v hf h
  have hsz : c'.wb.buffer.length = wb.length := by
    obtain ⟨w, hd⟩ := open_describes S hS cfg p v hf h
    rw [hd.writer.2, hwb]
  obtain ⟨content, evs, sent, i⟩ := any_writes S hS ops c' []
    ⟨.idle h1, by show 133 ≤ c'.wb.buffer.length; omega, h3⟩ (by omega)
  have hw := i.wrote
  rw [h5] at hw
  refine ⟨evs, sent, i.log, hw, ?_, ?_, ?_⟩
  · have := i.sentLe
    simpa using nonces_nodup S hS c'.ks.client.st.iv h3 0 sent.length (by omega)
  · intro x hx
    have := i.limit x hx
    omega
  · intro ht
    have := (i.accepts ht).2
    rw [ready_buffered _ _ i.ready.wb, ← this, List.nil_append]

/-- **C16 for whole connections** `new`, a successful `open`, any calls of both halves after which the connection is
still open, over a transport that does not fail, then `close`: it succeeds, and the records sent after the handshake are
the protected application data accepted by the `write` calls, each of at most the write buffer's length minus 133 bytes, then
exactly one protected `close_notify`; the transport was flushed last.  Missing: `close` after the peer's close (`C16_refuted_open`). -/
theorem C16_whole_partial (hS : S.Lawful) (cfg : Config) (p : Provider V) (hr : p.random.length = 32) (v : V) {rx : Rx}
    {tx : Tx} {rb wb : Bytes} {c c' : Conn} (hn : Conn.new S rx tx rb wb = .ok c)
    (h : Conn.open_ S cfg p v c = (.ok (), c')) (ht : Reliable c'.tx) (ops : List AnyOp) (hops : ops.length + 2 < 2 ^ 64)
    (ho : (runAny S ops c').2.opened = true) :
    ∃ (evs : List OutEv) (sent : List Bytes), (Conn.close S (runAny S ops c').2).1 = .ok () ∧
      (Conn.close S (runAny S ops c').2).2.tx.log = c'.tx.log ++ evs ∧ evs.getLast? = some .flushed ∧
      wrote evs = ciphertextRecords S c'.ks.client.st.key c'.ks.client.st.iv 0
        (sent.map (fun x => (23, x)) ++ [(21, alertMsg 1 0)]) ∧
      (∀ x ∈ sent, x.length + 133 ≤ wb.length) ∧
      sent.flatten = accepted (writerOps ops) (writerOuts (runAny S ops c').1) := by
  obtain ⟨hf, _, _, _, hwb, _⟩ := Conn.new_parts S hn
  obtain ⟨h1, h2, h3, _, h5⟩ := open_leaves S hS cfg p hr v hf h
  have hsz : c'.wb.buffer.length = wb.length := by
    obtain ⟨w, hd⟩ := open_describes S hS cfg p v hf h
    rw [hd.writer.2, hwb]
  obtain ⟨content, e1, s1, i⟩ := any_writes S hS ops c' []
    ⟨.idle h1, by show 133 ≤ c'.wb.buffer.length; omega, h3⟩ (by omega)
  obtain ⟨g1, g2⟩ := i.accepts ht
  have hcnt := i.counter
  have hle := i.sentLe
  obtain ⟨e2, s2, k1, k2, k3, k4, k5, k6⟩ := close_run S hS (runAny S ops c').2 content i.ready ho g1 (by omega)
  refine ⟨e1 ++ e2, s1 ++ s2, k1, ?_, ?_, ?_, ?_, ?_⟩
  · rw [k2, i.log, List.append_assoc]
  · rw [List.getLast?_append, k4]; rfl
  · rw [wrote_append, i.wrote, k5, i.key, i.iv, hcnt, h5, List.map_append, List.append_assoc,
      ciphertextRecords_append S _ _ _ (s1.map _), List.length_map]
  · intro x hx
    have hx' : x.length ≤ c'.wb.buffer.length - 133 := by
      rcases List.mem_append.1 hx with hx | hx
      · exact i.limit x hx
      · have := k6 x hx
        rw [i.size] at this
        exact this
    omega
  · rw [List.flatten_append, k3, ← g2, List.nil_append]

/-! ## The reading side -/

/-- What `open` leaves for the reading half. -/
theorem open_reader (hS : S.Lawful) (cfg : Config) (p : Provider V) (v : V) {rx : Rx} {tx : Tx}
    {rb wb : Bytes} {c c' : Conn} (hn : Conn.new S rx tx rb wb = .ok c) (h : Conn.open_ S cfg p v c = (.ok (), c')) :
    c'.rd.Good ∧ c'.rd.unread = [] ∧ c'.rr.pending = 0 ∧ c'.rr.buf.length = rb.length ∧
      c'.ks.server.st.iv.length = S.ivLen ∧ c'.ks.server.st.counter = 0 ∧ c'.opened = true := by
  obtain ⟨hf, _, _, hrr, _, hdec, _⟩ := Conn.new_parts S hn
  obtain ⟨w, hd⟩ := open_describes S hS cfg p v hf h
  obtain ⟨r1, r2, r3⟩ := hd.reader
  have hdec' : c'.rd.dec = ⟨0, 0, 0⟩ := hd.rest.1.trans hdec
  refine ⟨⟨r1, ?_, ?_⟩, ?_, r2, ?_, ?_, ?_, hd.opened⟩
  · rw [hdec']; exact Nat.zero_le _
  · rw [hdec']; exact Nat.le_refl _
  · unfold RdHalf.unread; rw [hdec']; rfl
  · rw [r3, hrr]; rfl
  · rw [hd.serverKeys]; exact trafficState_iv S hS _
  · rw [hd.serverKeys]; rfl

/-- **C21 for whole connections** `new`, a successful `open`, then any reading calls, whatever the transport delivers.  If
no record that the client takes is forged — those that open are the server's fragments `peer`, in place —, then what
the application is given is a prefix of the peer's application data. -/
theorem C21_whole (hS : S.Lawful) (hol : S.OpenLength) (cfg : Config) (p : Provider V) (v : V) {rx : Rx} {tx : Tx}
    {rb wb : Bytes} {c c' : Conn} (hn : Conn.new S rx tx rb wb = .ok c) (h : Conn.open_ S cfg p v c = (.ok (), c'))
    (h12 : S.ivLen = 12) (peer : List Fragment) (htypes : ∀ f ∈ peer, f.type ≠ 0)
    (ops : List ROp) (ha : Unforged S peer ops c'.rd) :
    delivered (runReads S ops c'.rd).1 <+: dataOf peer ∧
    ∀ i o, (runReads S ops c'.rd).1[i]? = some (.ok o) →
      delivered ((runReads S ops c'.rd).1.take i) ++ o.shown <+: dataOf peer := by
  obtain ⟨g1, g2, _, _, g5, g6, _⟩ := open_reader S hS cfg p v hn h
  have hc : c'.rd.rks.st.counter = 0 := g6
  have := C21_prefix S hol h12 peer htypes c'.rd g1 g2 g5 (by rw [hc]; decide) ops ha
  rw [hc, List.drop_zero] at this
  exact this

/-- **C20 and C46 together** A connection is made with `new` over a transport that works.  It delivers, in any pieces, the
flight of a conforming server of whole messages, followed by the records `fs` of the server under its application key.
Then `open` succeeds; every reading call afterwards returns data, except that it reports the end of the transport
(after which the application has everything); what has been delivered, what is buffered and what is still to come always
make up the data the server sent; and enough reads of at least one byte deliver all of it. -/
theorem C20_whole (hS : S.Lawful) (cfg : Config) (p : Provider V) (v : V) {rx : Rx} {tx : Tx}
    {rb wb : Bytes} {c : Conn} (hn : Conn.new S rx tx rb wb = .ok c)
    (hclean : rx.Clean) (hrel : Reliable tx) (x : ServerFlight)
    (hx : x.Conforming S (cfg.psk.map (·.1)) (helloMsg S cfg p) p.secret)
    (hacc : ∀ r ∈ x.sh :: x.msgs, Accepted S r)
    (hhost : ∀ ops name, p.verifier = some ops → cfg.serverName = some name → ∃ v', ops.setHostname name v = (.ok (), v'))
    (hver : ∀ ops, p.verifier = some ops → ∃ v',
      verifierRun ops (x.tr0 (helloMsg S cfg p)) (withBytes x.msgs) (hostVst cfg p v) = (.ok (), v'))
    {ms : List Bytes} (hms : clientReply S p (x.transcript S (cfg.psk.map (·.1)) (helloMsg S cfg p))
      (lastRequest (withBytes x.msgs)) = some ms)
    (hsig : ∀ sign scheme, p.signer = .ok (sign, scheme) → ∀ m sig, sign m = some sig → sig.length ≤ signatureSize S)
    (hfh : 5 + helloLength S cfg p ≤ wb.length) (hff : S.hashLen + 26 ≤ wb.length)
    (hfm : ∀ m ∈ ms, m.length + 22 ≤ wb.length)
    (hfs : x.sh.bytes.length ≤ rb.length) (hfr : ∀ r ∈ x.records, r.size ≤ rb.length)
    (hcnt : x.records.length < 2 ^ 64) (fs : List Fragment) (hfcnt : fs.length < 2 ^ 64)
    (hsend : ∀ f ∈ fs, Sendable S f) (hfit : ∀ f ∈ fs, f.inner.length + 16 ≤ rb.length ∧ f.inner.length + 16 < 65536)
    (secret : Bytes) (hsecret : secret = serverApplicationTraffic S (cfg.psk.map (·.1)) x.dhe
      (x.transcript S (cfg.psk.map (·.1)) (helloMsg S cfg p)))
    (hb : rx.bytes = x.bytes S (cfg.psk.map (·.1)) (helloMsg S cfg p) ++
      protectAll S (writeKey S secret) (writeIv S secret) 0 fs) :
    ∃ c', Conn.open_ S cfg p v c = (.ok (), c') ∧ ∀ ops : List ROp,
      (∀ r ∈ (runReads S ops c'.rd).1, (∃ o, r = .ok o) ∨ r = .err .ioError) ∧
      (∃ fs', delivered (runReads S ops c'.rd).1 ++ ((runReads S ops c'.rd).2.unread ++ dataOf fs') = dataOf fs) ∧
      (∀ i : Nat, (runReads S ops c'.rd).1[i]? = some (Res.err .ioError) →
        delivered ((runReads S ops c'.rd).1.take i) = dataOf fs) ∧
      ∀ sizes : List Nat, (∀ n ∈ sizes, n ≠ 0) → (dataOf fs).length ≤ sizes.length →
        delivered (runReads S (sizes.map .read) c'.rd).1 = dataOf fs := by
  obtain ⟨hf, hrx, htx, hrr, hwb, hdec, _⟩ := Conn.new_parts S hn
  have hrb : c.rr.buf.length = rb.length := by rw [hrr]; rfl
  obtain ⟨c', k1, k2, k3, k4, k5, k6, _⟩ := C46_honest_server_partial S hS cfg p v hf (by rw [hrx]; exact hclean)
    (by rw [htx]; exact hrel) x hx hacc hhost hver hms hsig (by rw [hwb]; exact hfh) (by rw [hwb]; exact hff)
    (by rw [hwb]; exact hfm) (by rw [hrb]; exact hfs) (by rw [hrb]; exact hfr) hcnt (by rw [hrx]; exact hb)
  obtain ⟨g1, g2, g3, g4, g5, g6, g7⟩ := open_reader S hS cfg p v hn k1
  have hh : Honest S fs c'.rd := by
    refine ⟨g1, g3, g7, k4, ?_, g5, ?_, hsend, ?_⟩
    · show c'.rx.bytes = protectAll S c'.ks.server.st.key c'.ks.server.st.iv c'.ks.server.st.counter fs
      rw [k3, g6, k6, hsecret]
      rfl
    · show c'.ks.server.st.counter + _ < _
      rw [g6, Nat.zero_add]; exact hfcnt
    · show ∀ f ∈ fs, f.inner.length + 16 ≤ c'.rr.buf.length ∧ _
      rw [g4]; exact hfit
  refine ⟨c', k1, fun ops => ?_⟩
  obtain ⟨r1, ⟨fs', _, r2⟩, r3⟩ := C20_honest S hS fs c'.rd hh g2 ops
  exact ⟨r1, ⟨fs', r2⟩, r3, fun sizes hsz hl => C20_complete S hS fs c'.rd hh g2 sizes hsz hl⟩

/-! ## Concrete connections, and what does not hold -/

theorem exNew_new (n : Nat) (hn : 129 ≤ n) (rx : Rx) :
    Conn.new toySuite rx ⟨[], []⟩ (List.replicate n 0) (List.replicate n 0) = .ok (exNew n rx) := by
  unfold Conn.new WB.new
  rw [if_pos (by rw [List.length_replicate]; exact hn)]
  rfl

/-- The server's messages in the examples: EncryptedExtensions and Finished, after the ClientHello and the ServerHello. -/
def exTranscript : Bytes :=
  exHelloMsg exCfg ++ exSH.bytes ++ srvBytes (exSecret exCfg exSH) (exHelloMsg exCfg ++ exSH.bytes) [exEE, .finished]

/-- The server's application traffic secret in the examples. -/
def exAppSecret : Bytes := serverApplicationTraffic toySuite none exDhe exTranscript

/-- A record of the server under its application key. -/
def exApp (seq : Nat) (f : Fragment) : Bytes :=
  protect toySuite (writeKey toySuite exAppSecret) (writeIv toySuite exAppSecret) seq f

/-- A new connection that receives the server's flight and then `rx`, with a transport that behaves as `ctl` says. -/
def exLife (ctl : List OutCtl) (rx : Rx) : Conn :=
  { exNew 400 (.data (exServer exCfg exSH exMin) :: rx) with tx := ⟨ctl, []⟩ }

/-- ... and after `open`. -/
def exOpened (ctl : List OutCtl) (rx : Rx) : Res TlsError Unit × Conn :=
  Conn.open_ toySuite exCfg exProv () (exLife ctl rx)

theorem exLife_new (ctl : List OutCtl) (rx : Rx) :
    Conn.new toySuite (.data (exServer exCfg exSH exMin) :: rx) ⟨ctl, []⟩ (List.replicate 400 0) (List.replicate 400 0) =
      .ok (exLife ctl rx) := by
  unfold Conn.new WB.new
  rw [if_pos (by rw [List.length_replicate]; decide)]
  rfl

set_option maxRecDepth 20000 in
/-- A case of `C10_whole`, `C16_whole_partial`, `C21_whole` and of the reading side: the application gets the data, `close`
after an unflushed `write` sends the data and `close_notify`. -/
example : (exOpened [] [.data (exApp 0 ⟨23, [7, 8], 2⟩)]).1 = .ok () ∧
    (runAny toySuite [.writer (.write [1, 2, 3]), .reader (.read 10)]
      (exOpened [] [.data (exApp 0 ⟨23, [7, 8], 2⟩)]).2).1 =
        [.wrote (.ok 3), .read (.ok ⟨[7, 8], [[7, 8]], [7, 8]⟩)] ∧
    (runAny toySuite [.writer (.write [1, 2, 3]), .reader (.read 10)]
      (exOpened [] [.data (exApp 0 ⟨23, [7, 8], 2⟩)]).2).2.opened = true := by
  decide +kernel

set_option maxRecDepth 20000 in
/-- **C12 is false** after an ordinary handshake (client's flight: four transport calls), if a write fails: all
bytes of a record with content `[1]` are handed to the transport, which fails; the record with content `[2]` follows under
the same key and nonce. -/
theorem C12_refuted_open : ∃ (ctl : List OutCtl) (rest : List OutEv),
    (exOpened ctl []).1 = .ok () ∧
    (runAny toySuite [.writer (.write [1]), .writer .flush, .writer (.write [2]), .writer .flush]
        (exOpened ctl []).2).2.tx.log = rest ++
      [.partialWrite (ciphertextRecord toySuite (exOpened [] []).2.ks.client.st.key (exOpened [] []).2.ks.client.st.iv 0 23 [1]),
       .wrote (ciphertextRecord toySuite (exOpened [] []).2.ks.client.st.key (exOpened [] []).2.ks.client.st.iv 0 23 [2]),
       .flushed] ∧
    ciphertextRecord toySuite (exOpened [] []).2.ks.client.st.key (exOpened [] []).2.ks.client.st.iv 0 23 [1] ≠
      ciphertextRecord toySuite (exOpened [] []).2.ks.client.st.key (exOpened [] []).2.ks.client.st.iv 0 23 [2] :=
  ⟨[.ok, .ok, .ok, .ok, .fail 0 1000], (exOpened [] []).2.tx.log, by decide +kernel, by decide +kernel, by decide +kernel⟩

set_option maxRecDepth 20000 in
/-- **C16 is false** after the peer has closed: `close` then sends `close_notify` in the clear, with record content type
20 (change_cipher_spec). -/
theorem C16_refuted_open : (exOpened [] [.data (exApp 0 ⟨21, [1, 0], 0⟩)]).1 = .ok () ∧
    (Conn.read toySuite 10 (exOpened [] [.data (exApp 0 ⟨21, [1, 0], 0⟩)]).2).1 = .err .connectionClosed ∧
    (Conn.close toySuite (Conn.read toySuite 10 (exOpened [] [.data (exApp 0 ⟨21, [1, 0], 0⟩)]).2).2).1 = .ok () ∧
    (Conn.close toySuite (Conn.read toySuite 10 (exOpened [] [.data (exApp 0 ⟨21, [1, 0], 0⟩)]).2).2).2.tx.log =
      (exOpened [] []).2.tx.log ++ [.wrote [20, 3, 1, 0, 2, 1, 0], .flushed] := by
  decide +kernel

set_option maxRecDepth 20000 in
/-- **C24 is false** after a transport error in the middle of a record: the next reading call panics (an out-of-range
slice). -/
theorem C24_refuted_open : ∃ rx : Rx, (exOpened [] rx).1 = .ok () ∧
    (runReads toySuite [.read 10, .read 10] (exOpened [] rx).2.rd).1 = [.err (.io 5), .panic] :=
  ⟨[.data ([23, 3, 3, 1, 144] ++ List.replicate 300 1), .err 5, .data ([23, 3, 3, 1, 54] ++ List.replicate 310 2)],
    by decide +kernel, by decide +kernel⟩

set_option maxRecDepth 20000 in
/-- **C25 is false** for an error in the middle of a record: without it everything is delivered, with it nothing. -/
theorem C25_refuted_open : ∃ a b : Bytes, a ++ b = exApp 0 ⟨23, [7, 8], 0⟩ ++ exApp 1 ⟨23, [9], 0⟩ ∧
    (exOpened [] [.data a, .data b]).1 = .ok () ∧ (exOpened [] [.data a, .err 5, .data b]).1 = .ok () ∧
    delivered (runReads toySuite [.read 10, .read 10] (exOpened [] [.data a, .data b]).2.rd).1 = [7, 8, 9] ∧
    delivered (runReads toySuite (List.replicate 12 (.read 10)) (exOpened [] [.data a, .err 5, .data b]).2.rd).1 = [] ∧
    (runReads toySuite (List.replicate 12 (.read 10)) (exOpened [] [.data a, .err 5, .data b]).2.rd).2.rx = [] :=
  ⟨(exApp 0 ⟨23, [7, 8], 0⟩ ++ exApp 1 ⟨23, [9], 0⟩).take 7, (exApp 0 ⟨23, [7, 8], 0⟩ ++ exApp 1 ⟨23, [9], 0⟩).drop 7,
    by decide +kernel, by decide +kernel, by decide +kernel, by decide +kernel, by decide +kernel, by decide +kernel⟩

set_option maxRecDepth 20000 in
/-- **C29 is false** After the handshake, seven unauthenticated bytes (a plaintext `close_notify`) close the connection
and keep the peer's data from being delivered; eleven others (a plaintext EncryptedExtensions) panic the reader. -/
theorem C29_refuted_open :
    (exOpened [] [.data ([21, 3, 3, 0, 2, 1, 0] ++ exApp 0 ⟨23, [7, 8], 0⟩)]).1 = .ok () ∧
    (runReads toySuite [.read 10, .read 10]
      (exOpened [] [.data ([21, 3, 3, 0, 2, 1, 0] ++ exApp 0 ⟨23, [7, 8], 0⟩)]).2.rd).1 =
        [.err .connectionClosed, .err .missingHandshake] ∧
    (exOpened [] [.data [22, 3, 3, 0, 6, 8, 0, 0, 2, 0, 0]]).1 = .ok () ∧
    (runReads toySuite [.read 10] (exOpened [] [.data [22, 3, 3, 0, 6, 8, 0, 0, 2, 0, 0]]).2.rd).1 = [.panic] := by
  decide +kernel

/-- A record of the server with inner plaintext `inner` under its application key. -/
def exInner (seq : Nat) (inner : Bytes) : Bytes :=
  let key := writeKey toySuite exAppSecret
  let n := Spec.nonce (writeIv toySuite exAppSecret) seq
  let aad := ciphertextHeader inner.length
  aad ++ (toySuite.sealCt key n aad inner ++ toySuite.sealTag key n aad inner)

set_option maxRecDepth 20000 in
/-- **C27 and C30 are false** After the handshake an authentic record of the server panics the reader if its inner plaintext
is empty, or if it is a handshake message other than NewSessionTicket, for instance CertificateRequest. -/
theorem C30_refuted_open :
    (exOpened [] [.data (exInner 0 [])]).1 = .ok () ∧
    (runReads toySuite [.read 10] (exOpened [] [.data (exInner 0 [])]).2.rd).1 = [.panic] ∧
    (exOpened [] [.data (exApp 0 ⟨22, (RawMsg.certificateRequest [1] []).bytes, 0⟩)]).1 = .ok () ∧
    (runReads toySuite [.read 10]
      (exOpened [] [.data (exApp 0 ⟨22, (RawMsg.certificateRequest [1] []).bytes, 0⟩)]).2.rd).1 = [.panic] := by
  decide +kernel

set_option maxRecDepth 10000 in
/-- With buffers of any size from 400 bytes on, `open` succeeds with the flight `exFlight` (this is also a case of
`C20_whole`, without application data). -/
theorem exFlight_open (n : Nat) (hn : 400 ≤ n) (rest : Bytes)
    (hrest : rest = exFlight.bytes toySuite none (helloMsg toySuite exCfg exProv)) :
    ∃ c', Conn.open_ toySuite exCfg exProv () (exNew n [.data rest]) = (.ok (), c') ∧ Reliable c'.tx ∧
      c'.wb.buffer.length = n := by
  have hne : rest ≠ [] := by rw [hrest]; decide +kernel
  have hwb : (exNew n [.data rest]).wb.buffer.length = n := by simp only [exNew, List.length_replicate]
  have hrr : (exNew n [.data rest]).rr.buf.length = n := by simp only [exNew, RR.new, List.length_replicate]
  have hh : 5 + helloLength toySuite exCfg exProv ≤ 400 := by decide +kernel
  have hs : exFlight.sh.bytes.length ≤ 400 := by decide +kernel
  have hr : ∀ r ∈ exFlight.records, r.size ≤ 400 := by decide +kernel
  obtain ⟨c', h1, _, _, _, _, _, _, h2, _, h3, _⟩ := C46_honest_server_partial toySuite toySuite_lawful exCfg exProv ()
    (c := exNew n [.data rest])
    (exNew_fresh _ _ (by omega))
    (by
      intro e he
      rw [List.mem_singleton.1 he]
      exact ⟨_, hne, rfl⟩)
    (by intro a ha; cases ha) exFlight exFlight_conforming
    (by
      intro r hr
      simp only [exFlight, List.mem_cons, List.not_mem_nil, or_false] at hr
      rcases hr with rfl | rfl | rfl
      · exact ⟨_, rfl⟩
      · exact ⟨_, rfl⟩
      · exact ⟨_, rfl⟩)
    (by intro ops name h; cases h) (by intro ops h; cases h) (ms := [certificateMsg [7, 8] []]) rfl
    (by intro sign scheme h; cases h) (by rw [hwb]; omega) (by rw [hwb]; show 32 + 26 ≤ n; omega)
    (by
      intro m hm
      rw [List.mem_singleton.1 hm, hwb]
      exact Nat.le_trans (by decide +kernel) hn)
    (by rw [hrr]; omega) (by intro r hr'; rw [hrr]; exact Nat.le_trans (hr r hr') hn) (by decide) (rest := [])
    (by
      show rest ++ [] = _ ++ []
      rw [hrest]
      rfl)
  exact ⟨c', h1, h2, h3.trans hwb⟩

/-- After a successful `open`, one `write` of a slice that fills the write buffer sends everything that fits, the
buffer's length minus 133 bytes, as one record. -/
theorem write_fills_open (hS : S.Lawful) (cfg : Config) (p : Provider V) (hr : p.random.length = 32) (v : V) {c c' : Conn}
    (hf : c.Fresh S) (h : Conn.open_ S cfg p v c = (.ok (), c')) (ht : Reliable c'.tx) (bs : Bytes)
    (hbs : c'.wb.buffer.length - 133 ≤ bs.length) :
    ∃ evs, (Conn.write S bs c').2.tx.log = c'.tx.log ++ evs ∧ wrote evs =
      [ciphertextRecord S c'.ks.client.st.key c'.ks.client.st.iv 0 23 (bs.take (c'.wb.buffer.length - 133))] := by
  obtain ⟨h1, h2, h3, ho, h5⟩ := open_leaves S hS cfg p hr v hf h
  have hcnt : c'.wr.wks.st.counter = 0 := h5
  obtain ⟨evs, r, k1, k2, k3, k4⟩ := (C15_write S hS c'.wr []
    ⟨.idle h1, by show 133 ≤ c'.wb.buffer.length; omega, h3⟩ ho (by rw [hcnt]; decide) bs).2 (by rw [List.length_nil, Nat.zero_add]; exact hbs)
  rw [k4 ht, hcnt, List.nil_append, List.length_nil, Nat.sub_zero] at k3
  refine ⟨evs, k1, ?_⟩
  change SendEvents (ciphertextRecord S c'.ks.client.st.key c'.ks.client.st.iv 0 23
    (bs.take (c'.wb.buffer.length - 133))) c'.fp (.ok ()) evs at k3
  generalize ciphertextRecord S c'.ks.client.st.key c'.ks.client.st.iv 0 23 (bs.take (c'.wb.buffer.length - 133)) = rec at *
  generalize c'.fp = fp at k3
  cases k3 <;> rfl

/-- **C18 is false** for every write buffer above 16517 bytes: after an ordinary handshake a single `write` sends a record
with more than 2^14 bytes of content. -/
theorem C18_refuted_open (n : Nat) (hn : 16517 < n) :
    ∃ (c c' : Conn) (bs content : Bytes) (evs : List OutEv), c.Fresh toySuite ∧ c.wb.buffer.length = n ∧
      Conn.open_ toySuite exCfg exProv () c = (.ok (), c') ∧
      (Conn.write toySuite bs c').2.tx.log = c'.tx.log ++ evs ∧
      wrote evs = [ciphertextRecord toySuite c'.ks.client.st.key c'.ks.client.st.iv 0 23 content] ∧
      content.length > 2 ^ 14 := by
  obtain ⟨c', h1, h2, h3⟩ := exFlight_open n (by omega) _ rfl
  have hf := exNew_fresh n [.data (exFlight.bytes toySuite none (helloMsg toySuite exCfg exProv))] (by omega)
  obtain ⟨evs, k1, k2⟩ := write_fills_open toySuite toySuite_lawful exCfg exProv (by decide) () hf h1 h2
    (List.replicate n 7) (by rw [List.length_replicate, h3]; omega)
  refine ⟨_, c', _, _, evs, hf, ?_, h1, k1, k2, ?_⟩
  · simp only [exNew, List.length_replicate]
  · rw [h3, List.length_take, List.length_replicate]; omega

example := C18_refuted_open 16640 (by decide)

/-- The server's application data in the example below. -/
def exData : List Fragment := [⟨23, [7, 8], 2⟩, ⟨23, [], 5⟩, ⟨23, [9], 0⟩]

/-- The server's application secret after `exFlight`. -/
def exFlightSecret : Bytes :=
  serverApplicationTraffic toySuite none exFlight.dhe (exFlight.transcript toySuite none (helloMsg toySuite exCfg exProv))

/-- Everything the server sends in the example below. -/
def exWire : Bytes := exFlight.bytes toySuite none (helloMsg toySuite exCfg exProv) ++ protectAll toySuite
  (writeKey toySuite exFlightSecret) (writeIv toySuite exFlightSecret) 0 exData

set_option maxRecDepth 10000 in
/-- The hypotheses of `C20_whole` are met: handshake and data arrive in pieces of 50 bytes and the rest. -/
example : ∃ c', Conn.open_ toySuite exCfg exProv () (exNew 400 [.data (exWire.take 50), .data (exWire.drop 50)]) =
      (.ok (), c') ∧ delivered (runReads toySuite [.read 1, .read 5, .read 5] c'.rd).1 = [7, 8, 9] := by
  obtain ⟨c', h1, h2⟩ := C20_whole toySuite toySuite_lawful exCfg exProv ()
    (exNew_new 400 (by decide) [.data (exWire.take 50), .data (exWire.drop 50)])
    (by
      intro e he
      rcases List.mem_cons.1 he with rfl | he
      · exact ⟨_, by decide +kernel, rfl⟩
      · rw [List.mem_singleton] at he
        exact ⟨_, by decide +kernel, he⟩)
    (by intro a ha; cases ha) exFlight exFlight_conforming
    (by
      intro r hr
      simp only [exFlight, List.mem_cons, List.not_mem_nil, or_false] at hr
      rcases hr with rfl | rfl | rfl
      · exact ⟨_, rfl⟩
      · exact ⟨_, rfl⟩
      · exact ⟨_, rfl⟩)
    (by intro ops name h; cases h) (by intro ops h; cases h) (ms := [certificateMsg [7, 8] []]) rfl
    (by intro sign scheme h; cases h) (by decide +kernel) (by decide +kernel) (by decide +kernel)
    (by decide +kernel) (by decide +kernel) (by decide) exData (by decide)
    (by
      intro f hf
      simp only [exData, List.mem_cons, List.not_mem_nil, or_false] at hf
      rcases hf with rfl | rfl | rfl <;> exact .inl rfl)
    (by decide) exFlightSecret rfl
    (by
      show exWire.take 50 ++ (exWire.drop 50 ++ []) = _
      rw [List.append_nil, List.take_append_drop]
      rfl)
  exact ⟨c', h1, (h2 []).2.2.2 [1, 5, 5] (by decide) (by decide)⟩

end ETls
