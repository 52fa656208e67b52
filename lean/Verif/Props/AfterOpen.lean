import Verif.Props.HandshakeFail
import Verif.Props.Split
import Verif.Props.Close

/-! # What the application can rely on after `open`: C14, C16, C17 for every history of calls -/

namespace ETls

variable (S : Suite) {V : Type}
open Spec

/-- The ClientHello has at least 147 bytes: 4 of header, 43 of fixed fields and 100 of the extensions that are always
sent. -/
theorem helloLength_ge (hS : S.Lawful) (cfg : Config) (p : Provider V) (hr : p.random.length = 32) :
    147 ≤ helloLength S cfg p := by
  have hp := hS.pubKey_length p.secret
  unfold helloLength
  simp only [ChMsg.bytes, handshake, vec24, ChMsg.body, expectedHello, helloExtensions, ChExt.bytes, ChExt.data, u16, vec16, vec8, u24,
    List.length_append, List.length_cons, List.length_nil, List.flatMap_append, List.flatMap_cons, List.flatMap_nil, hr, hp,
    List.length_map]
  omega

/-- A write buffer with which `open` succeeds has room for the record of the ClientHello. -/
theorem open_room (hS : S.Lawful) (cfg : Config) (p : Provider V) (v : V) {c c' : Conn} (hf : c.Fresh S)
    (h : Conn.open_ S cfg p v c = (.ok (), c')) : 5 + helloLength S cfg p ≤ c.wb.buffer.length := by
  rcases open_ends S cfg p v c with ⟨ops, name, _, _, hne, ho⟩ | ⟨v', r, s', he, h1, _⟩
  · rw [h] at ho
    exact absurd (congrArg Prod.fst ho).symm (hne ())
  · rw [h] at h1
    simp only at h1
    subst h1
    cases he with
    | complete hsteps =>
      cases hsteps with
      | more hst hp _ =>
        by_contra hc
        obtain ⟨e, g1, _⟩ := C07_client_hello S hS cfg p ⟨c, ⟨none, none, none, v'⟩⟩ hf.idle hf.keys hf.room (by
          simp only; omega)
        rw [hp] at g1
        cases g1

/-- The state in which a successful `open` leaves the writing side. -/
theorem open_leaves (hS : S.Lawful) (cfg : Config) (p : Provider V) (hr : p.random.length = 32) (v : V) {c c' : Conn}
    (hf : c.Fresh S) (h : Conn.open_ S cfg p v c = (.ok (), c')) :
    c'.wb.Idle ∧ 152 ≤ c'.wb.buffer.length ∧ c'.ks.client.st.iv.length = S.ivLen ∧ c'.opened = true ∧
      c'.ks.client.st.counter = 0 := by
  obtain ⟨w, hd⟩ := open_describes S hS cfg p v hf h
  have h1 := open_room S hS cfg p v hf h
  have h2 := helloLength_ge S hS cfg p hr
  refine ⟨hd.writer.1, ?_, ?_, hd.opened, ?_⟩
  · rw [hd.writer.2]; omega
  · rw [hd.clientKeys]; exact trafficState_iv S hS _
  · rw [hd.clientKeys]; rfl

/-! ## Histories of calls of both halves -/

/-- The writing side stays in order under any interleaving of calls, whatever both transports do, and no writing call
panics. -/
theorem any_ready (hS : S.Lawful) (ops : List AnyOp) : ∀ (c : Conn) (content : Bytes), c.wr.Ready S content →
    c.ks.client.st.counter + ops.length < 2 ^ 64 →
    ∃ content', (runAny S ops c).2.wr.Ready S content' ∧ (∀ r ∈ writerOuts (runAny S ops c).1, r ≠ .panic) ∧
      (runAny S ops c).2.ks.client.st.counter ≤ c.ks.client.st.counter + ops.length ∧
      (runAny S ops c).2.wb.buffer.length = c.wb.buffer.length ∧
      ((content.length = 0 ∨ content.length < c.wb.buffer.length - 133) →
        (content'.length = 0 ∨ content'.length < c.wb.buffer.length - 133)) := by
  induction ops with
  | nil =>
    intro c content h hc
    exact ⟨content, h, by simp [runAny, writerOuts], by simp [runAny], rfl, id⟩
  | cons op ops ih =>
    intro c content h hc
    simp only [List.length_cons] at hc
    cases op with
    | reader op =>
      have h1 : (onRd (op.run S) c).2.wr.Ready S content := ⟨h.wb, h.size, h.iv⟩
      obtain ⟨c2, i1, i2, i3, i4, i5⟩ := ih (onRd (op.run S) c).2 content h1 (by
        show c.ks.client.st.counter + ops.length < _; omega)
      refine ⟨c2, i1, i2, ?_, i4, i5⟩
      have i3' : (runAny S ops (onRd (op.run S) c).2).2.ks.client.st.counter ≤ c.ks.client.st.counter + ops.length := i3
      show (runAny S ops (onRd (op.run S) c).2).2.ks.client.st.counter ≤ c.ks.client.st.counter + (ops.length + 1)
      omega
    | writer op =>
      obtain ⟨c1, e1, s1, st⟩ := op_step S hS op c.wr content h (by
        show c.ks.client.st.counter + 1 < _; omega)
      have hcnt : (onWr (op.run S) c).2.ks.client.st.counter = c.ks.client.st.counter + s1.length := st.counter
      have hle := st.sentLe
      have hsz : (onWr (op.run S) c).2.wb.buffer.length = c.wb.buffer.length := st.size
      obtain ⟨c2, i1, i2, i3, i4, i5⟩ := ih (onWr (op.run S) c).2 c1 st.ready (by omega)
      refine ⟨c2, i1, ?_, ?_, i4.trans hsz, ?_⟩
      · intro r hr
        rcases List.mem_cons.1 hr with rfl | hr
        · exact st.noPanic
        · exact i2 r hr
      · show (runAny S ops (onWr (op.run S) c).2).2.ks.client.st.counter ≤ c.ks.client.st.counter + (ops.length + 1)
        omega
      · intro hnf
        rw [hsz] at i5
        exact i5 (st.notFull hnf)

/-- `close` never panics when the writing side is in order, whatever the transport does, open or not. -/
theorem close_noPanic (hS : S.Lawful) (c : Conn) (content : Bytes) (h : c.wr.Ready S content)
    (hc : c.ks.client.st.counter + 2 < 2 ^ 64) : (Conn.close S c).1 ≠ .panic := by
  obtain ⟨evs, sent, f1, f2, f3, f4, f5, f6, f7, f8, f9, f10, f11, f12, f13, f14⟩ :=
    flush_step S hS c.wr content h (by show c.ks.client.st.counter + 1 < _; omega)
  rcases hfl : WrHalf.flush S c.wr with ⟨r, w1⟩
  rw [hfl] at f1 f2 f3 f4 f10
  have hflush : Conn.flush S c = (r, c.setWr w1) := by simp only [Conn.flush, onWr, hfl]
  unfold Conn.close
  cases r with
  | panic => exact absurd rfl f1
  | err e => rw [M.bind_err hflush]; simp
  | ok u =>
    rw [M.bind_ok hflush, M.get_bind]
    have hcnt : w1.wks.st.counter + 1 < 2 ^ 64 := by
      rw [f10]; show c.ks.client.st.counter + sent.length + 1 < _; omega
    have hsz : 133 ≤ w1.wb.buffer.length := f2.size
    generalize hrec : ClientRecord.closeNotify (c.setWr w1).opened = rec
    obtain ⟨wb2, k1, k2, k3⟩ := writeRecord_ok S hS rec w1.wks w1.wb
      (alertMsg 1 0) (c.setWr w1).ks.server.transcript (alertMsg 1 0) (c.setWr w1).ks.server.transcript f3 (by omega)
      (by subst hrec; exact alert_appends ⟨.warning, .closeNotify⟩)
      (by subst hrec; exact finishes_alert S _ _ _ _ _)
      (by
        have : recordRoom rec.header (alertMsg 1 0) ≤ 24 := by
          subst hrec
          generalize (c.setWr w1).opened = o
          cases o <;>
          simp [recordRoom, ClientRecord.closeNotify, ClientRecord.header, ClientRecordHeader.isEncrypted, alertMsg]
        omega)
    have hwr := Conn.writeRecord_of S (c := c.setWr w1) k1
    rw [M.bind_ok hwr]
    have hcase := respond_cases (recordBytes S w1.wks rec.header (alertMsg 1 0))
      ((c.setWr w1).wrote wb2 (c.setWr w1).ks.server.transcript) hcnt
    change (respond (recordBytes S w1.wks rec.header (alertMsg 1 0))
      ((c.setWr w1).wrote wb2 (c.setWr w1).ks.server.transcript)).1 ≠ .panic
    generalize respond (recordBytes S w1.wks rec.header (alertMsg 1 0))
      ((c.setWr w1).wrote wb2 (c.setWr w1).ks.server.transcript) = res at hcase
    cases hcase <;> simp

/-- **C17, after a successful handshake** After a successful `open` of a new connection, no writing call in any
interleaving of reading and writing calls panics, and neither does a final `close`, whatever the transports do, until
2^64 records have been sent. -/
theorem C17_after_open_partial (hS : S.Lawful) (cfg : Config) (p : Provider V) (hr : p.random.length = 32) (v : V)
    {c c' : Conn} (hf : c.Fresh S) (h : Conn.open_ S cfg p v c = (.ok (), c')) (ops : List AnyOp)
    (hops : ops.length + 2 < 2 ^ 64) :
    (∀ r ∈ writerOuts (runAny S ops c').1, r ≠ .panic) ∧ (Conn.close S (runAny S ops c').2).1 ≠ .panic := by
  obtain ⟨h1, h2, h3, _, h5⟩ := open_leaves S hS cfg p hr v hf h
  obtain ⟨content, i1, i2, i3, _⟩ := any_ready S hS ops c' [] ⟨.idle h1, by show 133 ≤ c'.wb.buffer.length; omega, h3⟩ (by omega)
  exact ⟨i2, close_noPanic S hS _ content i1 (by omega)⟩

/-- **C14** After a successful `open` of a new connection and any interleaving of reading and writing calls with any
transport failures that leaves the connection open, `write` of a non-empty slice over a transport that works from now
on returns `n` with `0 < n ≤` slice length. -/
theorem C14_progress (hS : S.Lawful) (cfg : Config) (p : Provider V) (hr : p.random.length = 32) (v : V)
    {c c' : Conn} (hf : c.Fresh S) (h : Conn.open_ S cfg p v c = (.ok (), c')) (ops : List AnyOp)
    (hops : ops.length + 1 < 2 ^ 64) (ho : (runAny S ops c').2.opened = true) (ht : Reliable (runAny S ops c').2.tx)
    (bs : Bytes) (hbs : bs ≠ []) :
    ∃ n c'', Conn.write S bs (runAny S ops c').2 = (.ok n, c'') ∧ 0 < n ∧ n ≤ bs.length := by
  obtain ⟨h1, h2, h3, _, h5⟩ := open_leaves S hS cfg p hr v hf h
  obtain ⟨content, i1, i2, i3, i4, i5⟩ := any_ready S hS ops c' []
    ⟨.idle h1, by show 133 ≤ c'.wb.buffer.length; omega, h3⟩ (by omega)
  have hnf := i5 (.inl rfl)
  generalize (runAny S ops c').2 = c2 at *
  obtain ⟨wb', hb1, hb2, hb3⟩ := WrHalf.write_ready S c2.wr content i1.wb ho i1.size bs
  obtain ⟨c3, e2, s2, st⟩ := op_step S hS (.write bs) c2.wr content i1 (by
    show c2.ks.client.st.counter + 1 < _; omega)
  obtain ⟨_, ⟨n, hn⟩, _⟩ := st.reliable ht ho
  have hpos : 0 < bs.length := List.length_pos_iff.2 hbs
  refine ⟨n, (Conn.write S bs c2).2, Prod.ext hn rfl, ?_⟩
  have hn' : (WrHalf.write S bs c2.wr).1 = .ok n := hn
  rw [hb3] at hn'
  have := ok_of_bind_pure hn'
  have hl : c2.wr.wb.buffer.length = c'.wb.buffer.length := i4
  omega

/-- A connection on which the hypotheses of `C14_progress` and `C17_after_open_partial` hold. -/
example : (exNew 400 [.data (exServer exCfg exSH exMin)]).Fresh toySuite ∧ exProv.random.length = 32 ∧
    (Conn.open_ toySuite exCfg exProv () (exNew 400 [.data (exServer exCfg exSH exMin)])).1 = .ok () ∧
    (runAny toySuite [.writer (.write [1, 2]), .reader (.read 5), .writer .flush]
      (Conn.open_ toySuite exCfg exProv () (exNew 400 [.data (exServer exCfg exSH exMin)])).2).2.opened = true ∧
    (runAny toySuite [.writer (.write [1, 2]), .reader (.read 5), .writer .flush]
      (Conn.open_ toySuite exCfg exProv () (exNew 400 [.data (exServer exCfg exSH exMin)])).2).2.tx.ctl = [] :=
  ⟨exNew_fresh _ _ (by decide), by decide, by decide +kernel, by decide +kernel, by decide +kernel⟩

/-! ## C17 after a handshake that failed -/

/-- The write buffer is idle and has `L` bytes. -/
def WbIdle (L : Nat) (c : Conn) : Prop := c.wb.Idle ∧ c.wb.buffer.length = L

/-- The operation keeps a property of the state, whatever its outcome. -/
def Pres {ε σ α : Type} (P : σ → Prop) (m : M ε σ α) : Prop := ∀ s, P s → P (m s).2

theorem Pres.bind {ε σ α β : Type} {P : σ → Prop} {m : M ε σ α} {g : α → M ε σ β} (h : Pres P m)
    (hg : ∀ a, Pres P (g a)) : Pres P (m >>= g) := by
  intro s hs
  have h1 := h s hs
  rcases hm : m s with ⟨r, s1⟩
  rw [hm] at h1
  cases r with
  | ok a => rw [M.bind_ok hm]; exact hg a s1 h1
  | err e => rw [M.bind_err hm]; exact h1
  | panic => rw [M.bind_panic hm]; exact h1

theorem Pres.pure {ε σ α : Type} {P : σ → Prop} (a : α) : Pres (ε := ε) P (Pure.pure a) := fun _ h => h
theorem Pres.lift {ε σ α : Type} {P : σ → Prop} (r : Res ε α) : Pres P (M.lift r) := fun _ h => h

/-- The write buffer of a handshake state is idle. -/
def HsIdle (L : Nat) (s : HSt V) : Prop := WbIdle L s.c

theorem HsIdle.of_wb {L : Nat} {s s' : HSt V} (h : HsIdle L s) (hw : s'.c.wb = s.c.wb) : HsIdle L s' := by
  unfold HsIdle WbIdle at *
  rw [hw]
  exact h

theorem Pres.of_wb {L : Nat} {α : Type} {m : M TlsError (HSt V) α} (h : Keeps (fun s : HSt V => s.c.wb) m) :
    Pres (HsIdle L) m := fun s hs => hs.of_wb (h s)

/-- Sending a finished record does not touch the write buffer. -/
theorem respond_wb (bytes : Bytes) : Keeps (fun s : HSt V => s.c.wb) (onConn (respond bytes)) := by
  have h1 : ∀ (m : M TlsError Tx Unit), Keeps Conn.wb (onWr (WrHalf.onTx m)) := fun m c => rfl
  have h2 : Keeps Conn.wb (onWr WrHalf.increment) := fun c => rfl
  have h3 : Keeps Conn.wb (respond bytes) := by
    unfold respond
    exact (h1 _).bind fun _ => h2.bind fun _ => h1 _
  exact fun s => h3 s.c

/-- Encoding a record that fits. -/
theorem writeRecord_idle (hS : S.Lawful) (rec : ClientRecord) {L : Nat} {c : Conn} {bs bs' tr' : Bytes} (h : WbIdle L c)
    (hL : 5 ≤ L) (ha : Appends (rec.encodePayload S) bs ())
    (hf : Finishes S rec c.ks.client bs c.ks.server.transcript bs' tr') (hfit : recordRoom rec.header bs ≤ L) :
    ∃ out c1, Conn.writeRecord S rec c = (.ok out, c1) ∧ WbIdle L c1 := by
  obtain ⟨h1, rfl⟩ := h
  obtain ⟨wb, g1, g2, g3⟩ := writeRecord_ok S hS rec c.ks.client c.wb bs c.ks.server.transcript _ _ h1 hL ha hf hfit
  exact ⟨_, _, Conn.writeRecord_of S g1, g2, g3⟩

/-- Answering an error with an alert leaves the write buffer idle. -/
theorem handling_idle (hS : S.Lawful) {L : Nat} (hL : 7 ≤ L) {m : M TlsError (HSt V) State} (hm : Pres (HsIdle L) m) :
    Pres (HsIdle L) (withErrorHandling S m) := by
  intro s hs
  unfold withErrorHandling
  have h1 := hm s hs
  rcases hms : m s with ⟨r, s2⟩
  rw [hms] at h1
  simp only
  have hother : ∀ r', HsIdle L (onConn (M.lift r') s2 : Res TlsError State × HSt V).2 := fun r' => h1
  cases r with
  | ok a => exact hother _
  | panic => exact hother _
  | err e =>
    cases e with
    | abortHandshake l d =>
      obtain ⟨out, c1, k1, k2⟩ := writeRecord_idle S hS (.alert ⟨l, d⟩ false) (bs := [UInt8.ofNat l.code, UInt8.ofNat d.code])
        h1 (by omega) (alert_appends ⟨l, d⟩) (finishes_alert S _ _ _ _ _) (by
          simpa [recordRoom, ClientRecord.header, ClientRecordHeader.isEncrypted] using hL)
      have e1 : (onConn (handleProcessingError S (.err (.abortHandshake l d))) : M TlsError (HSt V) State) =
          (onConn (Conn.writeRecord S (.alert ⟨l, d⟩ false)) >>= fun tx => onConn (respond tx) >>= fun _ =>
            onConn (M.lift (.err (.abortHandshake l d)))) := by
        unfold handleProcessingError
        simp only
        rw [onConn_bind]
        congr 1
        funext tx
        rw [onConn_bind]
      rw [e1, M.bind_ok (onConn_ok k1)]
      exact (Pres.bind (Pres.of_wb (respond_wb out)) fun _ => fun _ h => h) _ k2
    | _ => exact hother _

/-- The rest of a sending step. -/
theorem send_idle {L : Nat} {α β : Type} {m : M TlsError (HSt V) α} {out : α → Bytes} {k : α → M TlsError (HSt V) β} {s : HSt V}
    (h : HsIdle L (m s).2) (hk : ∀ a, Keeps (fun s : HSt V => s.c.wb) (k a)) :
    HsIdle L ((m >>= fun a => onConn (respond (out a)) >>= fun _ => k a) s).2 := by
  rcases hm : m s with ⟨r, s1⟩
  rw [hm] at h
  cases r with
  | ok a =>
    rw [M.bind_ok hm]
    exact (Pres.bind (Pres.of_wb (respond_wb (out a))) fun _ => Pres.of_wb (hk a)) _ h
  | err e => rw [M.bind_err hm]; exact h
  | panic => rw [M.bind_panic hm]; exact h

/-- Room in the write buffer for everything a client with this configuration may have to send: its ClientHello, and a
Certificate message with a request context of up to 256 bytes and its certificate. -/
structure SendRoom (cfg : Config) (p : Provider V) (certs : List Bytes) (L : Nat) : Prop where
  isCert : p.clientCert.toList = certs.map .x509
  hello : 5 + helloLength S cfg p ≤ L
  cert : ∀ ctx : Bytes, ctx.length ≤ 256 → (certificateMsg ctx certs).length + 22 ≤ L
  signature : signatureSize S + 30 ≤ L

/-- Every step of a handshake, whatever its outcome, leaves the write buffer idle if there is room. -/
theorem process_idle (hS : S.Lawful) (cfg : Config) (p : Provider V) {certs : List Bytes} {L : Nat}
    (hroom : SendRoom S cfg p certs L) (st : State) (s : HSt V) (hs : HsIdle L s)
    (hks : st = .clientHello → s.c.ks.shared = SharedState.new S)
    (hctx : ∀ ctx, s.h.certReq = some ctx → ctx.length ≤ 256) : HsIdle L (process S cfg p st s).2 := by
  have hL : 270 ≤ L := by
    have := hroom.cert (List.replicate 256 0) (by rw [List.length_replicate]; exact Nat.le_refl _)
    simp only [certificateMsg, handshake, vec24, u24, vec8, List.length_append, List.length_cons, List.length_nil,
      List.length_replicate] at this
    omega
  have hread : Pres (HsIdle (V := V) L) (onConn (onRd (RdHalf.readRecord S))) := fun s h => h
  cases st with
  | clientHello =>
    obtain ⟨binders, msg, wb, h1, h2, h3, h4, h5, h6, h7⟩ := clientHello_run S hS cfg p s hs.1 (hks rfl) (by
      rw [hs.2]; exact hroom.hello)
    unfold process
    refine send_idle (out := Prod.snd) (k := fun a => Pure.pure a.1) ?_ fun _ => Keeps.pure _
    rw [h7]
    exact ⟨h1, h2.trans hs.2⟩
  | serverHello =>
    unfold process
    refine hread.bind (fun rec => handling_idle S hS (by omega) ?_) s hs
    apply Pres.of_wb
    unfold processServerHello
    split
    · refine Keeps.get.bind fun s => ?_
      split
      · exact Keeps.fail _
      · refine Keeps.bind (fun _ => rfl) fun _ => ?_
        split
        · exact Keeps.fail _
        · exact Keeps.bind (fun _ => rfl) fun _ => Keeps.pure _
    · exact Keeps.fail _
    · exact Keeps.fail _
    · exact Keeps.fail _
  | serverVerify =>
    unfold process
    exact hread.bind (fun rec => handling_idle S hS (by omega) (Pres.of_wb fun _ => rfl)) s hs
  | clientCert =>
    unfold process
    refine send_idle (out := Prod.snd) (k := fun a => Pure.pure a.1) ?_ fun _ => Keeps.pure _
    unfold clientCert
    rw [M.get_bind]
    unfold modHs
    rw [M.modify_bind]
    rcases hc : s.h.certReq with _ | ctx
    · exact hs
    · simp only [hc, hroom.isCert]
      obtain ⟨out, c1, k1, k2⟩ := writeRecord_idle S hS (.handshake (.clientCert ⟨[], ctx, certs.map .x509⟩) true)
        (c := s.c) hs (by omega) (clientCert_appends S [] ctx certs) (finishes_encrypted S _ _ _ _) (by
          have := hroom.cert ctx (hctx ctx hc)
          simp [recordRoom, ClientRecord.header, ClientRecordHeader.isEncrypted]; omega)
      rw [M.bind_ok (onConn_ok (s := ⟨s.c, ⟨some s.c.ks.server.transcript, s.h.secret, some ctx, s.h.vst⟩⟩) k1)]
      exact k2
  | clientCertVerify =>
    unfold process
    refine send_idle (out := Prod.snd) (k := fun a => M.lift a.1) ?_ fun _ => Keeps.lift _
    unfold clientCertVerify
    rw [M.get_bind]
    rcases hsig : p.signer with ⟨sign, scheme⟩ | e | _
    · simp only
      split
      · exact hs
      · cases sign (clientSignedContent S s.c.ks.server.transcript) with
        | none => exact hs
        | some sig =>
          simp only
          split
          · exact hs
          · next hsl =>
            obtain ⟨out, c1, k1, k2⟩ := writeRecord_idle S hS (.handshake (.clientCertVerify ⟨scheme, sig⟩) true)
              (c := s.c) hs (by omega) (certVerify_appends S scheme _) (finishes_encrypted S _ _ _ _) (by
                have := hroom.signature
                simp [recordRoom, ClientRecord.header, ClientRecordHeader.isEncrypted, certificateVerifyMsg, handshake,
                  vec24, u24, vec16, u16]
                omega)
            rw [M.bind_ok (onConn_ok k1)]
            exact k2
    · simp only
      obtain ⟨out, c1, k1, k2⟩ := writeRecord_idle S hS (.alert ⟨.warning, .closeNotify⟩ true)
        (bs := [UInt8.ofNat AlertLevel.warning.code, UInt8.ofNat AlertDescription.closeNotify.code])
        (c := s.c) hs (by omega) (alert_appends ⟨.warning, .closeNotify⟩) (finishes_alert S _ _ _ _ _) (by
          simp [recordRoom, ClientRecord.header, ClientRecordHeader.isEncrypted]; omega)
      rw [M.bind_ok (onConn_ok k1)]
      exact k2
    · exact hs
  | clientFinished =>
    unfold process
    refine send_idle (out := id) (k := fun _ => clientFinishedFinalize S) ?_ fun _ => ?_
    · unfold clientFinished
      rw [M.get_bind]
      rcases hcf : s.c.ks.createClientFinished S with f | e | _
      · have hvd : f.verify.length = S.hashLen ∧ f = ⟨f.verify, none⟩ := by
          unfold KeySchedule.createClientFinished at hcf
          rcases hml : makeLabel S s.c.ks.client.st.trafficSecret (ascii "finished") none S.hashLen with k | e | _ <;>
            rw [hml] at hcf <;> simp only [Res.map, Res.ok.injEq, reduceCtorEq] at hcf
          rw [← hcf]
          exact ⟨hS.hmac_length _ _, rfl⟩
        simp only [Res.mapErr]
        rw [M.lift_ok_bind]
        obtain ⟨out, c1, k1, k2⟩ := writeRecord_idle S hS (.handshake (.finished f) true)
          (c := s.c) (bs := finishedMsg f.verify) hs (by omega) (by rw [hvd.2]; exact finished_appends S _ _)
          (finishes_encrypted S _ _ _ _) (by
            have := hS.hashLen_le
            simp only [recordRoom, ClientRecord.header, ClientRecordHeader.isEncrypted, finishedMsg, handshake, vec24, u24,
              hvd.1, List.length_append, List.length_cons, List.length_nil, if_true]
            omega)
        rw [onConn_ok k1]
        exact k2
      · exact hs
      · exact hs
    · unfold clientFinishedFinalize
      refine Keeps.get.bind fun s => ?_
      split
      · exact Keeps.fail _
      · exact Keeps.bind (fun _ => rfl) fun _ => Keeps.bind (fun _ => rfl) fun _ => Keeps.bind (fun _ => rfl) fun _ => Keeps.pure _
  | applicationData => exact hs

/-- The context of the last CertificateRequest, if any, has at most 256 bytes. -/
def CtxSmall (h : HsData V) : Prop := ∀ ctx, h.certReq = some ctx → ctx.length ≤ 256

theorem Took.ctx {p : Provider V} {secret tr m : Bytes} {h : ServerHs} {t t' : HsData V × State}
    (ht : Took S p secret tr m h t t') (hs : CtxSmall t.1) : CtxSmall t'.1 := by
  cases ht with
  | certificateRequest ctx h st hl =>
    intro c hc
    simp only [Option.some.injEq] at hc
    rw [← hc]
    exact hl
  | _ => exact hs

theorem TookAll.ctx {p : Provider V} {secret tr : Bytes} {ms : List (Bytes × ServerHs)} {t t' : HsData V × State}
    (ht : TookAll S p secret tr t ms t') (hs : CtxSmall t.1) : CtxSmall t'.1 := by
  induction ht with
  | nil tr t => exact hs
  | cons tr t t1 t2 m h ms h1 _ ih => exact ih (h1.ctx S hs)

theorem HsAt.step_ctx (hS : S.Lawful) (cfg : Config) (p : Provider V) {c : Conn} (hf : c.Fresh S) {st st' : State} {s s' : HSt V}
    (ha : HsAt S cfg p c st s) (hst : st ≠ .applicationData) (h : process S cfg p st s = (.ok st', s')) (hs : CtxSmall s.h) :
    CtxSmall s'.h := by
  cases ha with
  | start s hs =>
    obtain ⟨sc, sh⟩ := s
    simp only at hs
    subst hs
    obtain ⟨binders, msg, wb, ctl, a1, a2, a3, a4, a5, rfl, rfl⟩ := step_hello S hS cfg p hf.idle hf.room hf.keys h
    exact hs
  | hello s msg hh htr hsh hin hsent hsec hrd hwr hop =>
    obtain ⟨hdr, rh, m, junk, exts, secret, dhe, rr', rx', b1, b2, b3, b4, b5, b6, b7, b8, b9, b10, b11, b12, rfl, rfl⟩ :=
      step_serverHello S hS cfg p (cfg.psk.map (·.1)) (by rw [hrd]; exact hf.reader) (by rw [hrd]; exact hf.nothingRead)
        hsh h
    exact hs
  | waiting s hello shRecord sh exts dhe fl hl =>
    have hk := hl.received.keys S
    obtain ⟨record, ms, n, rr', rx', hd', i1, i2, i3, i4, i5, i6, i7, i8, rfl⟩ := step_verify S hS cfg p
      (secret := serverHandshakeTraffic S (cfg.psk.map (·.1)) dhe (hello ++ sh)) hl.reader.1 hl.reader.2.1
      (by rw [hk]; rfl) h
    exact i2.ctx S hs
  | replying st s hello shRecord sh exts dhe fl cm hs' hl =>
    have hiv : s.c.ks.client.st.iv.length = S.ivLen := by rw [hl.clientKeys]; exact trafficState_iv S hS _
    have hroom : 5 ≤ s.c.wb.buffer.length := by rw [hl.writer.2]; exact hf.room
    rcases hs' with ⟨rfl, rfl⟩ | rfl | rfl
    · obtain ⟨ctx, certs, wb, ctl, c1, c2, c3, c4, c5, c6, rfl⟩ := step_clientCert S hS cfg p hl.writer.1 hroom hiv h
      exact hs
    · obtain ⟨sign, scheme, sig, wb, ctl, e1, e2, e3, e4, e5, rfl, rfl⟩ := step_clientCertVerify S hS cfg p hl.writer.1 hroom hiv h
      exact hs
    · obtain ⟨t, wb, ctl, d1, d2, d3, rfl, rfl⟩ := step_clientFinished S hS cfg p (cfg.psk.map (·.1)) dhe
        (clientHandshakeTraffic S (cfg.psk.map (·.1)) dhe (hello ++ sh)) hl.writer.1 hroom hiv
        (by rw [hl.clientKeys]; rfl) hl.sharedSecret h
      exact hs
  | done => exact absurd rfl hst

theorem HsAt.steps_ctx (hS : S.Lawful) (cfg : Config) (p : Provider V) {c : Conn} (hf : c.Fresh S) {n : Nat} {st st' : State}
    {s s' : HSt V} (h : HsSteps S cfg p n st s st' s') (ha : HsAt S cfg p c st s) (hs : CtxSmall s.h) : CtxSmall s'.h := by
  induction h with
  | none st s => exact hs
  | more hst hp _ ih => exact ih (ha.step S hS cfg p hf hst hp) (ha.step_ctx S hS cfg p hf hst hp hs)

theorem HsAt.idle {cfg : Config} {p : Provider V} {c : Conn} (hi : c.wb.Idle) {st : State} {s : HSt V}
    (ha : HsAt S cfg p c st s) : HsIdle c.wb.buffer.length s := by
  cases ha with
  | start s h => exact HsIdle.of_wb (s := s) (by unfold HsIdle WbIdle; rw [h]; exact ⟨hi, rfl⟩) rfl
  | hello s msg hh htr hsh hin hsent hsec hrd hwr hop => exact hwr
  | waiting s hello shRecord sh exts dhe fl h => exact h.writer
  | replying st s hello shRecord sh exts dhe fl cm hst h => exact h.writer
  | done s hello shRecord sh exts dhe fl cm s1 t h ht sent input reader writer => exact writer

/-- If there is room for the client's messages, `open` of a new connection leaves the write buffer idle, whatever its
outcome. -/
theorem open_idle (hS : S.Lawful) (cfg : Config) (p : Provider V) (v : V) {c : Conn} (hf : c.Fresh S) {certs : List Bytes}
    (hroom : SendRoom S cfg p certs c.wb.buffer.length) : WbIdle c.wb.buffer.length (Conn.open_ S cfg p v c).2 := by
  rcases open_ends S cfg p v c with ⟨ops, name, _, _, _, ho⟩ | ⟨v', r, s', he, _, h2⟩
  · rw [ho]; exact ⟨hf.idle, rfl⟩
  · rw [h2]
    suffices HsIdle c.wb.buffer.length s' from this
    have hstart : HsAt S cfg p c .clientHello ⟨c, ⟨none, none, none, v'⟩⟩ := .start _ rfl
    rcases he.last with ⟨_, n, hn⟩ | ⟨n, st1, s1, hn, hst, rfl, _⟩
    · exact (hstart.steps S hS cfg p hf hn).idle S hf.idle
    · have ha := hstart.steps S hS cfg p hf hn
      refine process_idle S hS cfg p hroom st1 s1 (ha.idle S hf.idle) ?_
        (hstart.steps_ctx S hS cfg p hf hn (by intro ctx hc; cases hc))
      intro hs
      subst hs
      cases ha with
      | start s h => rw [h, hf.keys]; rfl
      | replying _ s hello shRecord sh exts dhe fl cm hst' h => rcases hst' with ⟨h1, _⟩ | h1 | h1 <;> cases h1

/-- A connection that is not open and has nothing to send stays so. -/
theorem any_closed (ops : List AnyOp) : ∀ c : Conn, c.opened = false → c.wb.pos = 0 →
    (∀ r ∈ writerOuts (runAny S ops c).1, r ≠ .panic) ∧ (runAny S ops c).2.wb = c.wb ∧
      (runAny S ops c).2.ks.client = c.ks.client ∧ (runAny S ops c).2.opened = false := by
  induction ops with
  | nil => intro c ho hp; exact ⟨by simp [runAny, writerOuts], rfl, rfl, ho⟩
  | cons op ops ih =>
    intro c ho hp
    cases op with
    | reader op =>
      have h1 : (onRd (op.run S) c).2.opened = false := by
        have := ROp.never_opens S op c.rd
        cases h : (onRd (op.run S) c).2.opened with
        | false => rfl
        | true => rw [← ho]; exact (this h).symm
      exact ih (onRd (op.run S) c).2 h1 hp
    | writer op =>
      have hrun : ∃ r fp, op.run S c.wr = (r, { c.wr with fp := fp }) ∧ r ≠ .panic := by
        cases op with
        | setFlushPolicy f => exact ⟨_, f, rfl, by simp⟩
        | flush =>
          refine ⟨.ok 0, c.wr.fp, ?_, by simp⟩
          show (WrHalf.flush S >>= fun _ => pure 0) c.wr = _
          rw [M.bind_ok (WrHalf.flush_idle S c.wr hp)]
          rfl
        | write bs =>
          refine ⟨.err .missingHandshake, c.wr.fp, ?_, by simp⟩
          show WrHalf.write S bs c.wr = _
          unfold WrHalf.write
          rw [M.get_bind, if_neg (by simp [Conn.wr, ho])]; rfl
      obtain ⟨r, fp, h1, h2⟩ := hrun
      have hc : onWr (op.run S) c = (r, { c with fp := fp }) := by
        simp only [onWr, h1]; rfl
      obtain ⟨i1, i2, i3, i4⟩ := ih { c with fp := fp } ho hp
      have e : runAny S (.writer op :: ops) c =
          (.wrote r :: (runAny S ops { c with fp := fp }).1, (runAny S ops { c with fp := fp }).2) := by
        simp only [runAny, AnyOp.run, hc]
      rw [e]
      refine ⟨?_, i2, i3, i4⟩
      intro x hx
      rcases List.mem_cons.1 hx with rfl | hx
      · exact h2
      · exact i1 x hx

/-- **C17, after a handshake that failed** If the write buffer has room for the messages of the client (see
`SendRoom`), then after a failed `open` of a new connection no writing call in any interleaving of calls panics and
neither does a final `close`.  Missing: smaller write buffers, see `C17_refuted`. -/
theorem C17_failed_open_partial (hS : S.Lawful) (cfg : Config) (p : Provider V) (v : V)
    {c c' : Conn} (hf : c.Fresh S) {certs : List Bytes} (hroom : SendRoom S cfg p certs c.wb.buffer.length) {e : TlsError}
    (h : Conn.open_ S cfg p v c = (.err e, c')) (hcnt : c'.ks.client.st.counter + 1 < 2 ^ 64) (ops : List AnyOp) :
    (∀ r ∈ writerOuts (runAny S ops c').1, r ≠ .panic) ∧ (Conn.close S (runAny S ops c').2).1 ≠ .panic := by
  have hidle := open_idle S hS cfg p v hf hroom
  rw [h] at hidle
  have hop : c'.opened = false := (C42_failed_open S cfg p v c c' hf.closed e h).1
  obtain ⟨i1, i2, i3, i4⟩ := any_closed S ops c' hop hidle.1.pos
  refine ⟨i1, ?_⟩
  generalize (runAny S ops c').2 = c2 at *
  have hidle2 : WbIdle c.wb.buffer.length c2 := by unfold WbIdle; rw [i2]; exact hidle
  have hL : 7 ≤ c.wb.buffer.length := by
    have := hroom.cert [] (by simp)
    omega
  unfold Conn.close
  have hfl : Conn.flush S c2 = (.ok (), c2) := by
    unfold Conn.flush onWr
    rw [WrHalf.flush_idle S c2.wr hidle2.1.pos]; rfl
  rw [M.bind_ok hfl, M.get_bind, i4]
  obtain ⟨wb2, k1, k2, k3⟩ := writeRecord_ok S hS (ClientRecord.closeNotify false) c2.ks.client c2.wb
    (alertMsg 1 0) c2.ks.server.transcript _ _ hidle2.1 (by rw [hidle2.2]; omega) (alert_appends ⟨.warning, .closeNotify⟩)
    (finishes_alert S _ _ _ _ _) (by
      rw [hidle2.2]
      simp [recordRoom, ClientRecord.closeNotify, ClientRecord.header, ClientRecordHeader.isEncrypted, alertMsg]
      omega)
  rw [M.bind_ok (Conn.writeRecord_of S k1)]
  have hcase := respond_cases (recordBytes S c2.ks.client (ClientRecord.closeNotify false).header (alertMsg 1 0))
    (c2.wrote wb2 c2.ks.server.transcript) (by
      show c2.ks.client.st.counter + 1 < _
      rw [i3]; exact hcnt)
  change (respond (recordBytes S c2.ks.client (ClientRecord.closeNotify false).header (alertMsg 1 0))
    (c2.wrote wb2 c2.ks.server.transcript)).1 ≠ .panic
  generalize respond (recordBytes S c2.ks.client (ClientRecord.closeNotify false).header (alertMsg 1 0))
    (c2.wrote wb2 c2.ks.server.transcript) = res at hcase
  cases hcase <;> simp

/-- A server flight with a certificate request whose context has `n` bytes. -/
def exRequest (n : Nat) : List (List SrvMsg) :=
  [[exEE, .msg (.certificateRequest (List.replicate n 1) []), .finished]]

/-- A connection with a write buffer of `n` bytes on which such a flight arrives. -/
def exRequested (n m : Nat) : Conn :=
  { exNew m [.data (exServer exCfg exSH (exRequest n))] with rr := RR.new (List.replicate 800 0) }

theorem exRequested_fresh (n m : Nat) (hm : 5 ≤ m) : (exRequested n m).Fresh toySuite :=
  ⟨rfl, rfl, Nat.zero_le _, rfl, ⟨rfl, rfl⟩, by
    show 5 ≤ (List.replicate m (0 : UInt8)).length
    rw [List.length_replicate]; exact hm⟩

set_option maxRecDepth 20000 in
/-- **C17, refuted** With a write buffer of 280 bytes, which has room for the ClientHello, a server that asks for a
certificate with a context of 255 bytes makes `open` fail with an error and both `flush` and `close` panic after it. -/
theorem C17_refuted : ∃ c : Conn, c.Fresh toySuite ∧ c.wb.buffer.length = 280 ∧
    (Conn.open_ toySuite exCfg exProv () c).1 = .err .invalidApplicationData ∧
    (Conn.flush toySuite (Conn.open_ toySuite exCfg exProv () c).2).1 = .panic ∧
    (Conn.close toySuite (Conn.open_ toySuite exCfg exProv () c).2).1 = .panic :=
  ⟨exRequested 255 280, exRequested_fresh _ _ (by decide), by decide +kernel, by decide +kernel, by decide +kernel,
    by decide +kernel⟩

set_option maxRecDepth 20000 in
/-- With 260 bytes `open` fails too, and a `flush` after it sends a record nobody asked for: a protected record with
an empty message, which the peer has to refuse. -/
theorem C17_stray_record : ∃ c : Conn, c.Fresh toySuite ∧ c.wb.buffer.length = 260 ∧ c.tx.log = [] ∧
    (Conn.open_ toySuite exCfg exProv () c).1 = .err .insufficientSpace ∧
    (Conn.flush toySuite (Conn.open_ toySuite exCfg exProv () c).2).1 = .ok () ∧
    (wrote (Conn.open_ toySuite exCfg exProv () c).2.tx.log).length = 1 ∧
    (wrote (Conn.flush toySuite (Conn.open_ toySuite exCfg exProv () c).2).2.tx.log).length = 2 ∧
    (wrote (Conn.flush toySuite (Conn.open_ toySuite exCfg exProv () c).2).2.tx.log)[1]?.map (List.take 5) =
      some [23, 3, 3, 0, 17] :=
  ⟨exRequested 255 260, exRequested_fresh _ _ (by decide), by decide +kernel, by decide +kernel, by decide +kernel,
    by decide +kernel, by decide +kernel, by decide +kernel, by decide +kernel⟩

set_option maxRecDepth 20000 in
/-- A failing handshake that meets the hypotheses of `C17_failed_open_partial`. -/
example : (exNew 400 [.data (exServer exCfg exSH exBadEE)]).Fresh toySuite ∧ SendRoom toySuite exCfg exProv [] 400 ∧
    (exNew 400 [.data (exServer exCfg exSH exBadEE)]).wb.buffer.length = 400 ∧
    (Conn.open_ toySuite exCfg exProv () (exNew 400 [.data (exServer exCfg exSH exBadEE)])).1 = .err (.abortHandshake .fatal .illegalParameter) ∧
    (Conn.open_ toySuite exCfg exProv () (exNew 400 [.data (exServer exCfg exSH exBadEE)])).2.ks.client.st.counter + 1 < 2 ^ 64 := by
  refine ⟨exNew_fresh _ _ (by decide), ⟨rfl, by decide +kernel, ?_, by decide⟩, by decide +kernel, by decide +kernel, by decide +kernel⟩
  intro ctx h
  simp [certificateMsg, handshake, vec24, u24, vec8]
  omega

end ETls
