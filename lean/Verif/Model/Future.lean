import Verif.Props.ReadSafety

/-! # The futures of `src/asynch.rs`, which may be dropped before they are finished

An `async fn` runs until it has to wait for the transport; the caller may then poll it again or drop it (a timeout, the
losing branch of a `select`).  The model of the other files treats a call as one function of the connection.  Here the
same calls are written as futures: synchronous stretches of code, and the three operations of the transport at which the
code waits.  A future that is dropped does nothing more: none of its locals has a `Drop` that touches the connection.

The functions between two waits are those of the other files; what is written again here is the control flow around every
`.await`. -/

namespace ETls

variable (S : Suite)

/-- The two directions of the socket. -/
structure Net where
  rx : Rx
  tx : Tx
deriving DecidableEq, Repr

/-- An `async fn` with `&mut σ` and the socket; `stuck` is a loop of the model that has used up its bound.  (The socket
in `σ` itself is not used.)  Each of `read`, `writeAll` and `flush` is an `.await` of the operation of the transport,
followed by `map_err(..)?`. -/
inductive Fut (σ α : Type) where
  | ret (r : Res TlsError α)
  | stuck
  | step (upd : σ → σ) (next : σ → Fut σ α)
  | read (n : Nat) (k : Bytes → Fut σ α)
  | writeAll (bs : Bytes) (k : Fut σ α)
  | flush (k : Fut σ α)

namespace Fut

variable {σ τ α β : Type}

/-- `.await?` of a future inside another, and what follows it. -/
def bind : Fut σ α → (α → Fut σ β) → Fut σ β
  | .ret (.ok a), f => f a
  | .ret (.err e), _ => .ret (.err e)
  | .ret .panic, _ => .ret .panic
  | .stuck, _ => .stuck
  | .step u n, f => .step u fun s => (n s).bind f
  | .read n k, f => .read n fun bs => (k bs).bind f
  | .writeAll bs k, f => .writeAll bs (k.bind f)
  | .flush k, f => .flush (k.bind f)

/-- A stretch of code without a wait. -/
def act (m : M TlsError σ α) : Fut σ α := .step (fun s => (m s).2) fun s => .ret (m s).1

/-- A stretch of code without a wait whose outcome is looked at (no `?`). -/
def attempt (m : M TlsError σ α) (k : Res TlsError α → Fut σ β) : Fut σ β :=
  .step (fun s => (m s).2) fun s => k (m s).1

/-- A look at the state. -/
def look (k : σ → Fut σ α) : Fut σ α := .step id k

/-- A future that works on a part of the state. -/
def zoom (get : τ → σ) (set : τ → σ → τ) : Fut σ α → Fut τ α
  | .ret r => .ret r
  | .stuck => .stuck
  | .step u n => .step (fun t => set t (u (get t))) fun t => zoom get set (n (get t))
  | .read n k => .read n fun bs => zoom get set (k bs)
  | .writeAll bs k => .writeAll bs (zoom get set k)
  | .flush k => .flush (zoom get set k)

/-- The future polled until it is ready; `none` if a bound was used up. -/
def run : Fut σ α → σ → Net → Option (Res TlsError α × σ × Net)
  | .ret r, s, w => some (r, s, w)
  | .stuck, _, _ => none
  | .step u n, s, w => (n s).run (u s) w
  | .read n k, s, w =>
    match Rx.read n w.rx with
    | (.ok bs, rx) => (k bs).run s ⟨rx, w.tx⟩
    | (.err e, rx) => some (.err e, s, ⟨rx, w.tx⟩)
    | (.panic, rx) => some (.panic, s, ⟨rx, w.tx⟩)
  | .writeAll bs k, s, w =>
    match Tx.writeAll bs w.tx with
    | (.ok _, tx) => k.run s ⟨w.rx, tx⟩
    | (.err e, tx) => some (.err e, s, ⟨w.rx, tx⟩)
    | (.panic, tx) => some (.panic, s, ⟨w.rx, tx⟩)
  | .flush k, s, w =>
    match Tx.flush w.tx with
    | (.ok _, tx) => k.run s ⟨w.rx, tx⟩
    | (.err e, tx) => some (.err e, s, ⟨w.rx, tx⟩)
    | (.panic, tx) => some (.panic, s, ⟨w.rx, tx⟩)

/-- How the life of a future that has been polled can end: with a result, or dropped (`none`) while it waits for the
transport.  A pending `read` has taken nothing, a pending `write_all` has handed over some of its bytes, a pending
`flush` has not flushed; what the transport was going to answer is forgotten. -/
inductive Ends : Fut σ α → σ → Net → Option (Res TlsError α) → σ → Net → Prop where
  | ret (r : Res TlsError α) (s : σ) (w : Net) : Ends (.ret r) s w (some r) s w
  | step {u : σ → σ} {n : σ → Fut σ α} {s s' : σ} {w w' : Net} {o : Option (Res TlsError α)}
      (h : Ends (n s) (u s) w o s' w') : Ends (.step u n) s w o s' w'
  | read {n : Nat} {k : Bytes → Fut σ α} {s s' : σ} {w w' : Net} {o : Option (Res TlsError α)} {bs : Bytes} {rx : Rx}
      (hr : Rx.read n w.rx = (.ok bs, rx)) (h : Ends (k bs) s ⟨rx, w.tx⟩ o s' w') : Ends (.read n k) s w o s' w'
  | readFails {n : Nat} {k : Bytes → Fut σ α} {s : σ} {w : Net} {e : TlsError} {rx : Rx}
      (hr : Rx.read n w.rx = (.err e, rx)) : Ends (.read n k) s w (some (.err e)) s ⟨rx, w.tx⟩
  | readDropped (n : Nat) (k : Bytes → Fut σ α) (s : σ) (w : Net) : Ends (.read n k) s w none s w
  | write {bs : Bytes} {k : Fut σ α} {s s' : σ} {w w' : Net} {o : Option (Res TlsError α)} {tx : Tx}
      (hr : Tx.writeAll bs w.tx = (.ok (), tx)) (h : Ends k s ⟨w.rx, tx⟩ o s' w') : Ends (.writeAll bs k) s w o s' w'
  | writeFails {bs : Bytes} {k : Fut σ α} {s : σ} {w : Net} {e : TlsError} {tx : Tx}
      (hr : Tx.writeAll bs w.tx = (.err e, tx)) : Ends (.writeAll bs k) s w (some (.err e)) s ⟨w.rx, tx⟩
  | writeDropped (bs : Bytes) (k : Fut σ α) (s : σ) (w : Net) (j : Nat) :
      Ends (.writeAll bs k) s w none s ⟨w.rx, ⟨w.tx.ctl.tail, w.tx.log ++ [.partialWrite (bs.take j)]⟩⟩
  | flush {k : Fut σ α} {s s' : σ} {w w' : Net} {o : Option (Res TlsError α)} {tx : Tx}
      (hr : Tx.flush w.tx = (.ok (), tx)) (h : Ends k s ⟨w.rx, tx⟩ o s' w') : Ends (.flush k) s w o s' w'
  | flushFails {k : Fut σ α} {s : σ} {w : Net} {e : TlsError} {tx : Tx}
      (hr : Tx.flush w.tx = (.err e, tx)) : Ends (.flush k) s w (some (.err e)) s ⟨w.rx, tx⟩
  | flushDropped (k : Fut σ α) (s : σ) (w : Net) :
      Ends (.flush k) s w none s ⟨w.rx, ⟨w.tx.ctl.tail, w.tx.log ++ [.flushFailed]⟩⟩

end Fut

/-- The socket of a connection. -/
def Conn.net (c : Conn) : Net := ⟨c.rx, c.tx⟩

/-- A connection with a socket put in. -/
def Conn.with (c : Conn) (w : Net) : Conn := { c with rx := w.rx, tx := w.tx }

/-! ## Reading -/

/-- The loop of `record_reader.rs:150-157`; the bound is never reached (`C32_header_loop`). -/
def Fut.headerLoop : Nat → Bytes → Fut Conn Bytes
  | 0, _ => .ret .panic
  | fuel + 1, acc =>
    if acc.length = 5 then .ret (.ok acc)
    else .read (5 - acc.length) fun bs =>
      if bs.length = 0 then .ret (.err .ioError) else Fut.headerLoop fuel (acc ++ bs)

/-- `record_reader.rs:146-160` `next_record_header`. -/
def Fut.nextRecordHeader : Fut Conn RecordHeader :=
  (Fut.headerLoop 6 []).bind fun h => .ret (RecordHeader.decode h)

/-- `record_reader.rs:245-265` `ensure_contiguous` on a connection. -/
def Conn.ensureContiguous (len : Nat) : M TlsError Conn Unit := fun c =>
  let (r, rr) := ETls.ensureContiguous len c.rr
  (r, { c with rr := rr })

/-- `record_reader.rs:190-199`: the bytes of one `read` are in the buffer, `pending` grows. -/
def Conn.received (bs : Bytes) (c : Conn) : Conn :=
  { c with rr := { c.rr with
      buf := CB.splice c.rr.buf (c.rr.decoded + c.rr.pending) bs, pending := c.rr.pending + bs.length } }

/-- The loop of `record_reader.rs:188-199`; the bound is never reached (`C32_payload_loop`). -/
def Fut.advanceLoop (amount : Nat) : Nat → Nat → Fut Conn Unit
  | 0, _ => .ret .panic
  | fuel + 1, remain => .look fun c =>
    if c.rr.pending < amount then
      if c.rr.decoded + c.rr.pending > c.rr.buf.length ∨ c.rr.decoded + c.rr.pending + remain > c.rr.buf.length then
        .ret .panic
      else .read remain fun bs =>
        if bs.length = 0 then .ret (.err .ioError)
        else .step (Conn.received bs) fun _ => Fut.advanceLoop amount fuel (remain - bs.length)
    else .ret (.ok ())

/-- `record_reader.rs:179-202` `advance`. -/
def Fut.advance (amount : Nat) : Fut Conn Unit :=
  (Fut.act (Conn.ensureContiguous amount)).bind fun _ => Fut.advanceLoop amount (amount + 1) amount

/-- `record_reader.rs:228-243` `consume` on a connection. -/
def Conn.consumeRecord (h : RecordHeader) : M TlsError Conn ServerRecord := fun c =>
  let (r, s) := ETls.consumeRecord S h ⟨c.rr, [], c.ks.server.transcript⟩
  (r, { c with rr := s.rr, ks := { c.ks with server := { c.ks.server with transcript := s.transcript } } })

/-- `record_reader.rs:108-125` `read`. -/
def Fut.readRecord : Fut Conn ServerRecord :=
  Fut.nextRecordHeader.bind fun h =>
  (Fut.advance h.contentLength).bind fun _ =>
  Fut.act (Conn.consumeRecord S h)

/-- `asynch.rs:222-241` `read_application_data` (and `391-412`). -/
def Fut.readApplicationData : Fut Conn Unit :=
  (Fut.readRecord S).bind fun rec => Fut.act (onRd (RdHalf.decrypt S rec))

/-- The loop of `asynch.rs:212-214` (`381-383`). -/
def Fut.fillLoop : Nat → Fut Conn Unit
  | 0 => .stuck
  | fuel + 1 => .look fun c =>
    if c.dec.isEmpty then (Fut.readApplicationData S).bind fun _ => Fut.fillLoop fuel
    else .ret (.ok ())

/-- `asynch.rs:210-220` `read_buffered` up to the creation of the read buffer (and `379-389`). -/
def Fut.fill (fuel : Nat) : Fut Conn Unit :=
  .look fun c => if c.opened then Fut.fillLoop S fuel else .ret (.err .missingHandshake)

/-- The calls of the reading interface (see `ROp.run`). -/
def Fut.reader (fuel : Nat) : ROp → Fut Conn ROut
  | .read n => if n = 0 then .ret (.ok ⟨[], [[]], []⟩) else
      (Fut.fill S fuel).bind fun _ => Fut.act (onRd (RdHalf.useBuffer [.popInto n] false))
  | .fillBuf => (Fut.fill S fuel).bind fun _ => Fut.act (onRd (RdHalf.useBuffer [.peekAll] false))
  | .consume n => Fut.act (onRd (RdHalf.useBuffer [.pop n] false))
  | .buffered ops revert => (Fut.fill S fuel).bind fun _ => Fut.act (onRd (RdHalf.useBuffer ops revert))

/-! ## Writing -/

/-- `asynch.rs:175-177` (`533-537`): the transport is flushed under the strict policy. -/
def Fut.flushTransport (fp : FlushPolicy) : Fut Conn Unit :=
  if fp.flushTransport then .flush (.ret (.ok ())) else .ret (.ok ())

/-- `asynch.rs:164-182` `flush` (`523-540`). -/
def Fut.flushRecord : Fut Conn Unit := .look fun c =>
  if c.wb.isEmpty then .ret (.ok ())
  else
    (Fut.act (onWr (WrHalf.onWb (WB.closeRecord S c.ks.client)))).bind fun slice =>
    .writeAll slice <|
    (Fut.act (onWr WrHalf.increment)).bind fun _ => Fut.flushTransport c.fp

/-- `asynch.rs:141-146` (`502-507`). -/
def Fut.ensureRecord : Fut Conn Unit := .look fun c =>
  if c.wb.contains .applicationData then .ret (.ok ())
  else (Fut.flushRecord S).bind fun _ => Fut.act (onWr (WrHalf.onWb (WB.startRecord .applicationData)))

/-- `asynch.rs:139-160` `write` (`500-521`). -/
def Fut.write (bs : Bytes) : Fut Conn Nat := .look fun c =>
  if c.opened then
    (Fut.ensureRecord S).bind fun _ =>
    (Fut.act (onWr (WrHalf.onWb (WB.append bs)))).bind fun n =>
    (Fut.act (onWr (WrHalf.onWb WB.isFull))).bind fun full =>
    (if full then Fut.flushRecord S else .ret (.ok ())).bind fun _ => .ret (.ok n)
  else .ret (.err .missingHandshake)

/-- The calls of the writing interface (see `WOp.run`). -/
def Fut.writer : WOp → Fut Conn Nat
  | .write bs => Fut.write S bs
  | .flush => (Fut.flushRecord S).bind fun _ => .ret (.ok 0)
  | .setFlushPolicy p => (Fut.act (onWr (WrHalf.setFlushPolicy p))).bind fun _ => .ret (.ok 0)

/-- `connection.rs:364-385` `respond`. -/
def Fut.respond (tx : Bytes) : Fut Conn Unit :=
  .writeAll tx <| (Fut.act (onWr WrHalf.increment)).bind fun _ => .flush (.ret (.ok ()))

/-- `asynch.rs:244-263` `close_internal`. -/
def Fut.close : Fut Conn Unit :=
  (Fut.flushRecord S).bind fun _ => .look fun c =>
  (Fut.act (Conn.writeRecord S (ClientRecord.closeNotify c.opened))).bind fun slice => Fut.respond slice

/-! ## Handshake -/

variable {V : Type}

/-- A future on the connection, within `open`. -/
def Fut.onConn {α : Type} (f : Fut Conn α) : Fut (HSt V) α := f.zoom HSt.c fun s c => { s with c := c }

/-- `connection.rs:341-362` `handle_processing_error`. -/
def Fut.handleProcessingError (result : Res TlsError State) : Fut Conn State :=
  match result with
  | .err (.abortHandshake l d) =>
    (Fut.act (Conn.writeRecord S (.alert ⟨l, d⟩ false))).bind fun tx =>
    (Fut.respond tx).bind fun _ => .ret result
  | r => .ret r

/-- `connection.rs:167-232` `State::process`. -/
def Fut.process (cfg : Config) (p : Provider V) : State → Fut (HSt V) State
  | .clientHello =>
    (Fut.act (clientHello S cfg p)).bind fun x => (Fut.onConn (Fut.respond x.2)).bind fun _ => .ret (.ok x.1)
  | .serverHello =>
    (Fut.onConn (Fut.readRecord S)).bind fun rec =>
    Fut.attempt (processServerHello S rec) fun r => Fut.onConn (Fut.handleProcessingError S r)
  | .serverVerify =>
    (Fut.onConn (Fut.readRecord S)).bind fun rec =>
    Fut.attempt (processServerVerify S p rec) fun r => Fut.onConn (Fut.handleProcessingError S r)
  | .clientCert =>
    (Fut.act (clientCert S p)).bind fun x => (Fut.onConn (Fut.respond x.2)).bind fun _ => .ret (.ok x.1)
  | .clientCertVerify =>
    (Fut.act (clientCertVerify S p)).bind fun x => (Fut.onConn (Fut.respond x.2)).bind fun _ => .ret x.1
  | .clientFinished =>
    (Fut.act (clientFinished S)).bind fun tx =>
    (Fut.onConn (Fut.respond tx)).bind fun _ => Fut.act (clientFinishedFinalize S)
  | .applicationData => .ret (.ok .applicationData)

/-- The loop of `asynch.rs:111-125`. -/
def Fut.openLoop (cfg : Config) (p : Provider V) : Nat → State → Fut (HSt V) Unit
  | 0, _ => .stuck
  | fuel + 1, st =>
    if st = .applicationData then .ret (.ok ())
    else (Fut.process S cfg p st).bind fun st' => Fut.openLoop cfg p fuel st'

/-- `asynch.rs:95-129` `open`. -/
def Fut.openSt (cfg : Config) (p : Provider V) (fuel : Nat) : Fut (HSt V) Unit :=
  (Fut.act (setHostname cfg p)).bind fun _ =>
  (Fut.openLoop S cfg p fuel .clientHello).bind fun _ =>
  Fut.act (M.modify fun s => { s with c := { s.c with opened := true } })

/-! ## Histories -/

/-- A call of the application. -/
inductive Call (V : Type) where
  | open_ (cfg : Config) (p : Provider V) (v : V)
  | reader (op : ROp)
  | writer (op : WOp)
  | close

/-- What a call returns. -/
inductive CallOut where
  | opened (r : Res TlsError Unit)
  | read (r : Res TlsError ROut)
  | wrote (r : Res TlsError Nat)
  | closed (r : Res TlsError Unit)
deriving DecidableEq, Repr

/-- A call awaited to its end, by the model of the other files. -/
def Call.run (c : Conn) : Call V → CallOut × Conn
  | .open_ cfg p v => (.opened (Conn.open_ S cfg p v c).1, (Conn.open_ S cfg p v c).2)
  | .reader op => (.read (ETls.onRd (op.run S) c).1, (ETls.onRd (op.run S) c).2)
  | .writer op => (.wrote (ETls.onWr (op.run S) c).1, (ETls.onWr (op.run S) c).2)
  | .close => (.closed (Conn.close S c).1, (Conn.close S c).2)

/-- What a call returns if the transport fails. -/
def Call.failed (k : IoKind) : Call V → CallOut
  | .open_ _ _ _ => .opened (.err (.io k))
  | .reader _ => .read (.err (.io k))
  | .writer _ => .wrote (.err (.io k))
  | .close => .closed (.err (.io k))

/-- Calls awaited one after the other. -/
def runCalls : List (Call V) → Conn → List CallOut × Conn
  | [], c => ([], c)
  | call :: calls, c =>
    ((call.run S c).1 :: (runCalls calls (call.run S c).2).1, (runCalls calls (call.run S c).2).2)

/-- A call whose future was polled and then awaited to its end, or dropped (`none`). -/
inductive Call.Ends (c : Conn) : Call V → Option CallOut → Conn → Prop where
  | open_ {cfg : Config} {p : Provider V} {v : V} {fuel : Nat} {o : Option (Res TlsError Unit)} {s' : HSt V} {w' : Net}
      (h : (Fut.openSt S cfg p fuel).Ends ⟨c, ⟨none, none, none, v⟩⟩ c.net o s' w') :
      Call.Ends c (.open_ cfg p v) (o.map .opened) (s'.c.with w')
  | reader {op : ROp} {fuel : Nat} {o : Option (Res TlsError ROut)} {s' : Conn} {w' : Net}
      (h : (Fut.reader S fuel op).Ends c c.net o s' w') : Call.Ends c (.reader op) (o.map .read) (s'.with w')
  | writer {op : WOp} {o : Option (Res TlsError Nat)} {s' : Conn} {w' : Net}
      (h : (Fut.writer S op).Ends c c.net o s' w') : Call.Ends c (.writer op) (o.map .wrote) (s'.with w')
  | close {o : Option (Res TlsError Unit)} {s' : Conn} {w' : Net}
      (h : (Fut.close S).Ends c c.net o s' w') : Call.Ends c .close (o.map .closed) (s'.with w')

/-- A history of calls, some awaited and some dropped. -/
inductive History : List (Call V) → Conn → List (Option CallOut) → Conn → Prop where
  | nil (c : Conn) : History [] c [] c
  | cons {call : Call V} {calls : List (Call V)} {c c1 c2 : Conn} {o : Option CallOut} {os : List (Option CallOut)}
      (h : call.Ends S c o c1) (rest : History calls c1 os c2) : History (call :: calls) c (o :: os) c2

end ETls
