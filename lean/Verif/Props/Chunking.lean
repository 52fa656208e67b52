import Verif.Props.WholeLife
import Verif.Props.Termination

/-! # C19 for whole connections: how the transport cuts the input does not matter

Two runs are compared, on transports that deliver the same bytes in different chunks. -/

namespace ETls

variable (S : Suite) {V : Type}

/-- Two connections that differ only in how the transport cuts the same bytes. -/
structure Recut (c c' : Conn) : Prop where
  eq : c' = { c with rx := c'.rx }
  clean : c.rx.Clean
  clean' : c'.rx.Clean
  bytes : c'.rx.bytes = c.rx.bytes
  between : c.rr.Between c.rx.bytes

/-- The same for a connection during the handshake. -/
def RecutH (s s' : HSt V) : Prop := Recut s.c s'.c ∧ s'.h = s.h

/-- In related states the operation has the same result, and ends in related states. -/
def Twin {ε σ α : Type} (R : σ → σ → Prop) (m : M ε σ α) : Prop :=
  ∀ s s', R s s' → (m s').1 = (m s).1 ∧ R (m s).2 (m s').2

namespace Twin
variable {ε σ α β : Type} {R : σ → σ → Prop}

theorem bind {m : M ε σ α} {g : α → M ε σ β} (h : Twin R m) (hg : ∀ a, Twin R (g a)) : Twin R (m >>= g) := by
  intro s s' hs
  obtain ⟨h1, h2⟩ := h s s' hs
  rcases hm : m s with ⟨r, s1⟩
  rcases hm' : m s' with ⟨r', s1'⟩
  rw [hm, hm'] at h1 h2
  simp only at h1 h2
  subst h1
  cases r' with
  | ok a => rw [M.bind_ok hm, M.bind_ok hm']; exact hg a s1 s1' h2
  | err e => rw [M.bind_err hm, M.bind_err hm']; exact ⟨rfl, h2⟩
  | panic => rw [M.bind_panic hm, M.bind_panic hm']; exact ⟨rfl, h2⟩

theorem pure (a : α) : Twin (ε := ε) R (Pure.pure a) := fun _ _ h => ⟨rfl, h⟩
theorem fail (e : ε) : Twin R (M.fail e : M ε σ α) := fun _ _ h => ⟨rfl, h⟩
theorem crash : Twin R (M.crash : M ε σ α) := fun _ _ h => ⟨rfl, h⟩
theorem lift (r : Res ε α) : Twin R (M.lift r) := fun _ _ h => ⟨rfl, h⟩

/-- Reading the state, if what follows does not depend on where related states differ. -/
theorem get {g : σ → M ε σ α} (hg : ∀ s s', R s s' → g s' = g s) (h : ∀ s, Twin R (g s)) : Twin R (M.get >>= g) := by
  intro s s' hs
  rw [M.get_bind, M.get_bind, hg s s' hs]
  exact h s s s' hs

end Twin

theorem RecutH.split {s s' : HSt V} (h : RecutH s s') : s' = ⟨{ s.c with rx := s'.c.rx }, s.h⟩ := by
  obtain ⟨c, h'⟩ := s'
  obtain ⟨h1, rfl⟩ := h
  have := h1.eq
  simp only at this ⊢
  rw [← this]

theorem twin_onWr {α : Type} (m : M TlsError WrHalf α) : Twin Recut (onWr m) := by
  intro c c' h
  have e := h.eq
  have hw : c'.wr = c.wr := by rw [e]; rfl
  unfold onWr
  rw [hw]
  refine ⟨rfl, ⟨?_, h.clean, h.clean', h.bytes, h.between⟩⟩
  simp only [Conn.setWr]
  rw [e]

theorem twin_writeRecord (rec : ClientRecord) : Twin Recut (Conn.writeRecord S rec) := by
  intro c c' h
  obtain ⟨rx', tx, o, ks, rr, wb, d, f⟩ := c'
  obtain ⟨rx, tx2, o2, ks2, rr2, wb2, d2, f2⟩ := c
  have e := h.eq
  simp only [Conn.mk.injEq, true_and] at e
  obtain ⟨rfl, rfl, rfl, rfl, rfl, rfl, rfl⟩ := e
  exact ⟨rfl, ⟨rfl, h.clean, h.clean', h.bytes, h.between⟩⟩

theorem twin_respond (tx : Bytes) : Twin Recut (respond tx) :=
  (twin_onWr _).bind fun _ => (twin_onWr _).bind fun _ => twin_onWr _

theorem twin_onConn {α : Type} {m : M TlsError Conn α} (h : Twin Recut m) : Twin (RecutH (V := V)) (onConn m) := by
  intro s s' hs
  obtain ⟨h1, h2⟩ := h s.c s'.c hs.1
  exact ⟨h1, h2, hs.2⟩

theorem twin_onKs {α : Type} (m : M TlsError KeySchedule α) : Twin (RecutH (V := V)) (onKs m) := by
  intro s s' hs
  rw [hs.split]
  exact ⟨rfl, ⟨rfl, hs.1.clean, hs.1.clean', hs.1.bytes, hs.1.between⟩, rfl⟩

theorem twin_modHs (f : HsData V → HsData V) : Twin RecutH (modHs f) := by
  intro s s' hs
  rw [hs.split]
  exact ⟨rfl, ⟨rfl, hs.1.clean, hs.1.clean', hs.1.bytes, hs.1.between⟩, rfl⟩

/-- Reading a record. -/
theorem twin_readRecord : Twin Recut (onRd (RdHalf.readRecord S)) := by
  intro c c' h
  obtain ⟨rx', tx, o, ks, rr, wb, d, f⟩ := c'
  obtain ⟨rx, tx2, o2, ks2, rr2, wb2, d2, f2⟩ := c
  have e := h.eq
  simp only [Conn.mk.injEq, true_and] at e
  obtain ⟨rfl, rfl, rfl, rfl, rfl, rfl, rfl⟩ := e
  obtain ⟨-, hc, hc', hb, hbt⟩ := h
  simp only at hc hc' hb hbt
  obtain ⟨x, x1, x2, x3⟩ := readRecord_clean S rr rx ks.server.transcript hc hbt
  obtain ⟨y, y1, y2, y3⟩ := readRecord_clean S rr rx' ks.server.transcript hc' (by rw [hb]; exact hbt)
  rw [hb] at y2 y3
  obtain ⟨b1, -⟩ := pureRead_between S rr rx.bytes ks.server.transcript hbt
  simp only [onRd, Conn.rd, Conn.setRd, RdHalf.readRecord, x3, y3]
  exact ⟨trivial, ⟨rfl, x1, y1, by simp only; rw [y2, x2], by simp only; rw [x2]; exact b1⟩⟩

theorem decryptRecord_buf_le {τ : Type} (cb : ServerRecord → M TlsError (ReadKS × τ) Unit) (rec : ServerRecord) (s : DSt τ) :
    s.buf.length ≤ (decryptRecord S cb rec s).2.buf.length := by
  unfold decryptRecord
  cases rec with
  | appData hdr start data =>
    simp only
    split
    · exact Nat.le_refl _
    · next pt _ =>
      have := splice_ge s.buf pt start
      split <;> simpa using this
  | _ => exact Nat.le_refl _

theorem twin_serverVerify (p : Provider V) (rec : ServerRecord) : Twin RecutH (processServerVerify S p rec) := by
  intro s s' hs
  rw [hs.split]
  have hb := decryptRecord_buf_le S (serverVerifyHandler S p) rec ⟨s.c.ks.server, s.c.rr.buf, (s.h, State.serverVerify)⟩
  simp only at hb
  refine ⟨rfl, ⟨rfl, hs.1.clean, hs.1.clean', hs.1.bytes, ?_⟩, rfl⟩
  have := hs.1.between
  exact ⟨by have := this.decoded; simp only [processServerVerify]; omega, this.pending⟩

theorem twin_errorHandling {m : M TlsError (HSt V) State} (hm : Twin RecutH m) : Twin RecutH (withErrorHandling S m) := by
  intro s s' hs
  obtain ⟨h1, h2⟩ := hm s s' hs
  unfold withErrorHandling
  simp only
  rw [h1]
  refine twin_onConn ?_ _ _ h2
  unfold handleProcessingError
  split
  · exact (twin_writeRecord S _).bind fun _ => (twin_respond _).bind fun _ => Twin.lift _
  · exact Twin.lift _

theorem twin_serverHello (rec : ServerRecord) : Twin (RecutH (V := V)) (processServerHello S rec) := by
  unfold processServerHello
  split
  · refine Twin.get (fun s s' hs => by rw [hs.2]) fun s => ?_
    split
    · exact Twin.fail _
    · refine (twin_modHs _).bind fun _ => ?_
      split
      · exact Twin.fail _
      · exact (twin_onKs _).bind fun _ => Twin.pure _
  · exact Twin.fail _
  · exact Twin.fail _
  · exact Twin.fail _

theorem twin_process (cfg : Config) (p : Provider V) (st : State) : Twin RecutH (process S cfg p st) := by
  have hw : ∀ rec, Twin (RecutH (V := V)) (onConn (Conn.writeRecord S rec)) := fun rec => twin_onConn (twin_writeRecord S rec)
  have hr : ∀ tx, Twin (RecutH (V := V)) (onConn (respond tx)) := fun tx => twin_onConn (twin_respond tx)
  have hks : ∀ s s' : HSt V, RecutH s s' → s'.c.ks = s.c.ks := fun s s' hs => by rw [hs.split]
  cases st with
  | clientHello =>
    unfold process clientHello
    exact ((twin_onKs _).bind fun _ => (hw _).bind fun _ => (twin_modHs _).bind fun _ => Twin.pure _).bind fun _ =>
      (hr _).bind fun _ => Twin.pure _
  | serverHello =>
    unfold process
    exact (twin_onConn (twin_readRecord S)).bind fun rec => twin_errorHandling S (twin_serverHello S rec)
  | serverVerify =>
    unfold process
    exact (twin_onConn (twin_readRecord S)).bind fun rec => twin_errorHandling S (twin_serverVerify S p rec)
  | clientCert =>
    unfold process clientCert
    refine Twin.bind ?_ fun _ => (hr _).bind fun _ => Twin.pure _
    refine Twin.get (fun s s' hs => by rw [hks s s' hs, hs.2]) fun s => (twin_modHs _).bind fun _ => ?_
    split
    · exact Twin.fail _
    · exact (hw _).bind fun _ => Twin.pure _
  | clientCertVerify =>
    unfold process clientCertVerify
    refine Twin.bind ?_ fun _ => (hr _).bind fun _ => Twin.lift _
    refine Twin.get (fun s s' hs => by rw [hks s s' hs]) fun s => ?_
    split
    · exact Twin.crash
    · simp only
      split
      · exact Twin.fail _
      · split
        · exact Twin.crash
        · split
          · exact Twin.crash
          · exact (hw _).bind fun _ => Twin.pure _
    · exact (hw _).bind fun _ => Twin.pure _
  | clientFinished =>
    unfold process clientFinished clientFinishedFinalize
    refine Twin.bind ?_ fun _ => (hr _).bind fun _ => ?_
    · exact Twin.get (fun s s' hs => by rw [hks s s' hs]) fun s => (Twin.lift _).bind fun _ => hw _
    · refine Twin.get (fun s s' hs => by rw [hs.2]) fun s => ?_
      split
      · exact Twin.fail _
      · exact (twin_modHs _).bind fun _ => (twin_onKs _).bind fun _ => (twin_onKs _).bind fun _ => Twin.pure _
  | applicationData => exact Twin.pure _

theorem twin_openLoop (cfg : Config) (p : Provider V) (fuel : Nat) : ∀ st, Twin RecutH (openLoop S cfg p fuel st) := by
  induction fuel with
  | zero => intro st; exact Twin.crash
  | succ fuel ih =>
    intro st
    unfold openLoop
    split
    · exact Twin.pure _
    · exact (twin_process S cfg p st).bind fun st' => ih st'

theorem twin_setHostname (cfg : Config) (p : Provider V) : Twin RecutH (setHostname cfg p) := by
  unfold setHostname
  cases p.verifier with
  | none => exact Twin.pure _
  | some ops =>
    cases cfg.serverName with
    | none => exact Twin.pure _
    | some name =>
      intro s s' hs
      rw [hs.split]
      exact ⟨rfl, ⟨rfl, hs.1.clean, hs.1.clean', hs.1.bytes, hs.1.between⟩, rfl⟩

theorem twin_openSt (cfg : Config) (p : Provider V) : Twin RecutH (openSt S cfg p) := by
  unfold openSt
  refine (twin_setHostname cfg p).bind fun _ => ?_
  intro s s' hs
  rw [M.get_bind, M.get_bind]
  -- the bound on the number of iterations differs, but each is large enough
  have hf : openLoop S cfg p (s'.c.rx.size + 8) .clientHello s = openLoop S cfg p (s.c.rx.size + 8) .clientHello s := by
    obtain ⟨r, s1, -, -, h1, h2⟩ := C32_open_terminates S cfg p s
    rw [h2]
    refine h1 _ ?_
    have := s'.c.rx.bytes_le_size
    rw [hs.1.bytes] at this
    omega
  have ht : Twin RecutH (do openLoop S cfg p (s'.c.rx.size + 8) .clientHello
                            M.modify fun s : HSt V => { s with c := { s.c with opened := true } }) := by
    refine (twin_openLoop S cfg p _ _).bind fun _ => ?_
    intro s s' hs
    rw [hs.split]
    exact ⟨rfl, ⟨rfl, hs.1.clean, hs.1.clean', hs.1.bytes, hs.1.between⟩, rfl⟩
  have := ht s s' hs
  rw [M.bind_def, M.bind_def] at this ⊢
  rw [hf] at this
  exact this

theorem twin_open (cfg : Config) (p : Provider V) (v : V) : Twin Recut (Conn.open_ S cfg p v) := by
  intro c c' h
  have := twin_openSt S cfg p ⟨c, ⟨none, none, none, v⟩⟩ ⟨c', ⟨none, none, none, v⟩⟩ ⟨h, rfl⟩
  exact ⟨this.1, this.2.1⟩

theorem twin_reading (op : ROp) : Twin Recut (onRd (op.run S)) := by
  intro c c' h
  obtain ⟨rx', tx, o, ks, rr, wb, d, f⟩ := c'
  obtain ⟨rx, tx2, o2, ks2, rr2, wb2, d2, f2⟩ := c
  have e := h.eq
  simp only [Conn.mk.injEq, true_and] at e
  obtain ⟨rfl, rfl, rfl, rfl, rfl, rfl, rfl⟩ := e
  obtain ⟨-, hc, hc', hb, hbt⟩ := h
  have hs : SameBytes (Conn.rd ⟨rx, tx, o, ks, rr, wb, d, f⟩) (Conn.rd ⟨rx', tx, o, ks, rr, wb, d, f⟩) :=
    ⟨rfl, hc, hc', hb, hbt⟩
  obtain ⟨g1, g2⟩ := hs.run S op
  refine ⟨g1, ?_⟩
  simp only [onRd]
  generalize op.run S (Conn.rd ⟨rx, tx, o, ks, rr, wb, d, f⟩) = a at *
  generalize op.run S (Conn.rd ⟨rx', tx, o, ks, rr, wb, d, f⟩) = b at *
  obtain ⟨r, h1⟩ := a
  obtain ⟨r', h2⟩ := b
  obtain ⟨k1, k2, k3, k4, k5⟩ := g2
  simp only at k1 k2 k3 k4 k5
  rw [k1]
  exact ⟨rfl, k2, k3, k4, k5⟩

theorem twin_any (ops : List AnyOp) : ∀ (c c' : Conn), Recut c c' →
    (runAny S ops c').1 = (runAny S ops c).1 ∧ Recut (runAny S ops c).2 (runAny S ops c').2 := by
  induction ops with
  | nil => intro c c' h; exact ⟨rfl, h⟩
  | cons op ops ih =>
    intro c c' h
    have h1 : (op.run S c').1 = (op.run S c).1 ∧ Recut (op.run S c).2 (op.run S c').2 := by
      cases op with
      | reader op => obtain ⟨g1, g2⟩ := twin_reading S op c c' h; exact ⟨congrArg AnyOut.read g1, g2⟩
      | writer op => obtain ⟨g1, g2⟩ := twin_onWr (op.run S) c c' h; exact ⟨congrArg AnyOut.wrote g1, g2⟩
    obtain ⟨i1, i2⟩ := ih _ _ h1.2
    exact ⟨by simp only [runAny]; rw [h1.1, i1], i2⟩

theorem twin_close : Twin Recut (Conn.close S) := by
  unfold Conn.close
  refine (twin_onWr _).bind fun _ => Twin.get (fun c c' h => by rw [h.eq]) fun c => ?_
  exact (twin_writeRecord S _).bind fun _ => (twin_onWr _).bind fun _ => (twin_onWr _).bind fun _ => twin_onWr _

/-- What an application sees of a connection that it opens, uses and closes: the results of `open`, of every call and of
`close` (the calls are made also after a failed `open`), and what was done to the transport. -/
def lifeResults (cfg : Config) (p : Provider V) (v : V) (ops : List AnyOp) (c : Conn) :
    Res TlsError Unit × List AnyOut × Res TlsError Unit × Tx :=
  let o := Conn.open_ S cfg p v c
  let a := runAny S ops o.2
  let z := Conn.close S a.2
  (o.1, a.1, z.1, z.2.tx)

/-- **C19, for whole connections** Two new connections with the same buffers, whose transports deliver the same bytes in
different non-empty chunks (then end) and accept writes in the same way: `open`, every call of every history after it,
and `close` have the same results, and the client sends the same bytes in the same writes. -/
theorem C19_whole_connection (cfg : Config) (p : Provider V) (v : V) (ops : List AnyOp) (rx rx' : Rx) (tx : Tx)
    (readBuf writeBuf : Bytes) (c c' : Conn) (hc : rx.Clean) (hc' : rx'.Clean) (hb : rx'.bytes = rx.bytes)
    (hn : Conn.new S rx tx readBuf writeBuf = .ok c) (hn' : Conn.new S rx' tx readBuf writeBuf = .ok c') :
    lifeResults S cfg p v ops c' = lifeResults S cfg p v ops c := by
  have hs : Recut c c' := by
    unfold Conn.new at hn hn'
    cases hw : WB.new writeBuf with
    | ok wb =>
      rw [hw] at hn hn'
      simp only [Res.map, Res.ok.injEq] at hn hn'
      subst hn
      subst hn'
      exact ⟨rfl, hc, hc', hb, ⟨Nat.zero_le _, .inl rfl⟩⟩
    | err e => rw [hw] at hn; cases hn
    | panic => rw [hw] at hn; cases hn
  obtain ⟨h1, h2⟩ := twin_open S cfg p v c c' hs
  obtain ⟨h3, h4⟩ := twin_any S ops _ _ h2
  obtain ⟨h5, h6⟩ := twin_close S _ _ h4
  unfold lifeResults
  simp only
  rw [h1, h3, h5, h6.eq]

/-- A whole connection with the server's bytes in two chunks ... -/
def exTwoChunks : Rx := [.data (exServer exCfg exSH exMin), .data (exApp 0 ⟨23, [7, 8], 2⟩)]

/-- ... and one by one: the same results, which are those of a handshake, a delivery and an orderly end. -/
example : lifeResults toySuite exCfg exProv () [.writer (.write [1, 2, 3]), .reader (.read 10)]
      { exNew 400 (byteWise exTwoChunks.bytes) with tx := ⟨[], []⟩ } =
    lifeResults toySuite exCfg exProv () [.writer (.write [1, 2, 3]), .reader (.read 10)]
      { exNew 400 exTwoChunks with tx := ⟨[], []⟩ } := by
  refine C19_whole_connection toySuite exCfg exProv () _ exTwoChunks _ ⟨[], []⟩ (List.replicate 400 0)
    (List.replicate 400 0) _ _ ?_ (byteWise_clean _).1 (byteWise_clean _).2 (exLife_new [] _) ?_
  · intro e he
    simp only [exTwoChunks, List.mem_cons, List.not_mem_nil, or_false] at he
    rcases he with rfl | rfl
    · exact ⟨_, by decide +kernel, rfl⟩
    · exact ⟨_, by decide +kernel, rfl⟩
  · unfold Conn.new WB.new
    rw [if_pos (by rw [List.length_replicate]; decide)]
    rfl

set_option maxRecDepth 20000 in
example : (lifeResults toySuite exCfg exProv () [.writer (.write [1, 2, 3]), .reader (.read 10)]
      { exNew 400 exTwoChunks with tx := ⟨[], []⟩ }).1 = .ok () ∧
    (lifeResults toySuite exCfg exProv () [.writer (.write [1, 2, 3]), .reader (.read 10)]
      { exNew 400 exTwoChunks with tx := ⟨[], []⟩ }).2.1 = [.wrote (.ok 3), .read (.ok ⟨[7, 8], [[7, 8]], [7, 8]⟩)] := by
  decide +kernel

end ETls
