import Verif.Model.Future

/-! # The blocking interface: `src/blocking.rs`, and the functions of `src/record_reader.rs` and `src/connection.rs` that
only it uses

The crate has its connection four times: `asynch.rs` and `blocking.rs` each have `TlsConnection`, and `TlsReader` and
`TlsWriter` for its two halves.  The files `Conn.lean` and `Future.lean` follow `asynch.rs`, with one text for the methods of
the connection and of its halves.  Here the methods of `blocking.rs` are transcribed one by one, those of the connection and
those of the halves apart, with the functions they call: `read_blocking`, `process_blocking`, `respond_blocking`.  What does
not touch the transport (the codec, the key schedule, `decrypt_record`, the steps of the handshake between two records) the
crate has once, and the definitions of the other files are used. -/

namespace ETls

variable (S : Suite)

namespace Blk

/-! ## `record_reader.rs` -/

/-- The loop of `record_reader.rs:167-175`: `buf` is the array of five bytes, `total` is `total_read`. -/
def headerLoop : Nat → Bytes → Nat → M TlsError Rx Bytes
  | 0, _, _ => M.crash
  | fuel + 1, buf, total =>
    if total = 5 then pure buf
    else do
      let bs ← Rx.read (5 - total)
      if bs.length = 0 then M.fail .ioError
      else headerLoop fuel (CB.splice buf total bs) (total + bs.length)

/-- `record_reader.rs:162-177` `next_record_header_blocking`. -/
def nextRecordHeader : M TlsError Rx RecordHeader := do
  let buf ← headerLoop 6 (List.replicate 5 0) 0
  M.lift (RecordHeader.decode buf)

/-- The loop of `record_reader.rs:213-223`; the slices panic if out of bounds. -/
def advanceLoop (amount : Nat) : Nat → Nat → M TlsError RdSt Unit
  | 0, _ => M.crash
  | fuel + 1, remain => fun s =>
    if amount ≤ s.rr.pending then (.ok (), s)
    else if s.rr.buf.length < s.rr.decoded + s.rr.pending + remain then (.panic, s)
    else
      match Rx.read remain s.rx with
      | (.ok [], rx) => (.err .ioError, { s with rx := rx })
      | (.ok (b :: bs), rx) => advanceLoop amount fuel (remain - (b :: bs).length)
        { s with rx := rx, rr := { s.rr with
            buf := CB.splice s.rr.buf (s.rr.decoded + s.rr.pending) (b :: bs),
            pending := s.rr.pending + (b :: bs).length } }
      | (.err e, rx) => (.err e, { s with rx := rx })
      | (.panic, rx) => (.panic, { s with rx := rx })

/-- `record_reader.rs:211`: `ensure_contiguous` on the fields of the reader. -/
def contiguous (len : Nat) : M TlsError RdSt Unit := fun s =>
  let (r, rr) := ensureContiguous len s.rr
  (r, { s with rr := rr })

/-- `record_reader.rs:204-226` `advance_blocking`. -/
def advance (amount : Nat) : M TlsError RdSt Unit := do
  contiguous amount
  advanceLoop amount (amount + 1) amount

/-- `record_reader.rs:134`. -/
def header : M TlsError RdSt RecordHeader := fun s =>
  let (r, rx) := nextRecordHeader s.rx
  (r, { s with rx := rx })

/-- `record_reader.rs:127-144` `read_blocking` (by way of `62-74`, `93-105`). -/
def readRecord : M TlsError RdSt ServerRecord := do
  let h ← header
  advance h.contentLength
  consumeRecord S h

/-! ## `TlsConnection`: writing -/

/-- An operation of the socket's sending side (`self.delegate`). -/
def onTx {α : Type} (m : M TlsError Tx α) : M TlsError Conn α := fun c =>
  let (r, tx) := m c.tx
  (r, { c with tx := tx })

/-- An operation of `self.record_write_buf`. -/
def onWb {α : Type} (m : M TlsError WB α) : M TlsError Conn α := fun c =>
  let (r, wb) := m c.wb
  (r, { c with wb := wb })

/-- `self.key_schedule.write_state().increment_counter()`. -/
def incrementWrite : M TlsError Conn Unit := fun c =>
  let (r, k) := WriteKS.increment c.ks.client
  (r, { c with ks := { c.ks with client := k } })

/-- `blocking.rs:57-71` `new` (`FlushPolicy::default()` is `Strict`, `flush_policy.rs`). -/
def new (rx : Rx) (tx : Tx) (readBuf writeBuf : Bytes) : Res TlsError Conn :=
  (WB.new writeBuf).map fun wb => ⟨rx, tx, false, KeySchedule.new S, RR.new readBuf, wb, ⟨0, 0, 0⟩, .strict⟩

/-- `blocking.rs:87-89` `set_flush_policy`. -/
def setFlushPolicy (p : FlushPolicy) : M TlsError Conn Unit := M.modify fun c => { c with fp := p }

/-- `blocking.rs:180-182` `flush_transport`. -/
def flushTransport : M TlsError Conn Unit := onTx Tx.flush

/-- `blocking.rs:171-173`. -/
def flushByPolicy : M TlsError Conn Unit := do
  let c ← M.get
  if c.fp.flushTransport then flushTransport else pure ()

/-- `blocking.rs:160-177` `flush`. -/
def flush : M TlsError Conn Unit := do
  let c ← M.get
  if c.wb.isEmpty then pure ()
  else do
    let slice ← onWb (WB.closeRecord S c.ks.client)
    onTx (Tx.writeAll slice)
    incrementWrite
    flushByPolicy

/-- `blocking.rs:137-144`. -/
def startRecord : M TlsError Conn Unit := do
  let c ← M.get
  if c.wb.contains .applicationData then pure ()
  else do
    flush S
    onWb (WB.startRecord .applicationData)

/-- `blocking.rs:148-150`. -/
def flushFull : M TlsError Conn Unit := do
  let full ← onWb WB.isFull
  if full then flush S else pure ()

/-- `blocking.rs:135-156` `write`. -/
def write (bs : Bytes) : M TlsError Conn Nat := do
  let c ← M.get
  if c.opened then do
    startRecord S
    let buffered ← onWb (WB.append bs)
    flushFull S
    return buffered
  else M.fail .missingHandshake

/-- `blocking.rs:233-253` `close_internal` (`256-261` `close` then hands the socket back in either case). -/
def close : M TlsError Conn Unit := do
  flush S
  let c ← M.get
  let slice ← Conn.writeRecord S (ClientRecord.closeNotify c.opened)
  onTx (Tx.writeAll slice)
  incrementWrite
  flushTransport

/-! ## `TlsConnection`: reading -/

/-- `self.record_reader.read_blocking(&mut self.delegate, key_schedule)`, `key_schedule` being the read state. -/
def recordOf : M TlsError Conn ServerRecord := fun c =>
  let (r, s) := readRecord S ⟨c.rr, c.rx, c.ks.server.transcript⟩
  (r, { c with rr := s.rr, rx := s.rx, ks := { c.ks with server := { c.ks.server with transcript := s.transcript } } })

/-- `blocking.rs:221-228`: `decrypt_record` with a handler that works on `self.decrypted` and on the flag `self.opened`
itself. -/
def handleRecord (rec : ServerRecord) : M TlsError Conn Unit := fun c =>
  let (r, d) := decryptRecord S (readHandler c.rr.buf.length) rec ⟨c.ks.server, c.rr.buf, (c.dec, c.opened)⟩
  (r, { c with ks := { c.ks with server := d.rks }, rr := { c.rr with buf := d.buf }, dec := d.ext.1, opened := d.ext.2 })

/-- `blocking.rs:214-231` `read_application_data`. -/
def readApplicationData : M TlsError Conn Unit := do
  let rec ← recordOf S
  handleRecord S rec

/-- The loop of `blocking.rs:204-206`. -/
def fillLoop : Nat → M TlsError Conn Unit
  | 0 => M.crash
  | fuel + 1 => do
    let c ← M.get
    if c.dec.isEmpty then do
      readApplicationData S
      fillLoop fuel
    else pure ()

/-- `blocking.rs:184-186` `create_read_buffer`, what the caller does with the buffer, and its end. -/
def useBuffer (ops : List RBufOp) (revert : Bool) : M TlsError Conn ROut := fun c =>
  let start := c.dec.offset + c.dec.consumed
  let stop := c.dec.offset + c.dec.len
  if start ≤ stop ∧ stop ≤ c.rr.buf.length then
    let d := (c.rr.buf.drop start).take (stop - start)
    match RBuf.runOps ops (RBuf.new d) with
    | (.ok ds, b) =>
      let k := if revert then 0 else b.dropped
      (.ok ⟨d, ds, d.take k⟩, { c with dec := { c.dec with consumed := c.dec.consumed + k } })
    | (.err e, _) => (.err e, c)
    | (.panic, _) => (.panic, c)
  else (.panic, c)

/-- `blocking.rs:202-212` `read_buffered`, and what the caller does with the buffer. -/
def readBuffered (ops : List RBufOp) (revert : Bool) : M TlsError Conn ROut := do
  let c ← M.get
  if c.opened then do
    fillLoop S (c.rx.size + 2)
    useBuffer ops revert
  else M.fail .missingHandshake

/-- `blocking.rs:189-199` `read` into a buffer of `n` bytes. -/
def read (n : Nat) : M TlsError Conn ROut :=
  if n = 0 then pure ⟨[], [[]], []⟩ else readBuffered S [.popInto n] false

/-- `blocking.rs:316-318` `fill_buf`. -/
def fillBuf : M TlsError Conn ROut := readBuffered S [.peekAll] false

/-- `blocking.rs:320-322` `consume`. -/
def consume (n : Nat) : M TlsError Conn ROut := useBuffer [.pop n] false

/-! ## `connection.rs` -/

variable {V : Type}

/-- `connection.rs:322-339` `respond_blocking`. -/
def respond (tx : Bytes) : M TlsError Conn Unit := do
  onTx (Tx.writeAll tx)
  incrementWrite
  onTx Tx.flush

/-- `connection.rs:299-320` `handle_processing_error_blocking`. -/
def handleProcessingError (result : Res TlsError State) : M TlsError Conn State :=
  match result with
  | .err (.abortHandshake level description) => do
    let tx ← Conn.writeRecord S (.alert ⟨level, description⟩ false)
    respond tx
    M.lift result
  | _ => M.lift result

/-- `handle_processing_error_blocking` on the result of `m` (`connection.rs:261-263`, `268-271`). -/
def handled (m : M TlsError (HSt V) State) : M TlsError (HSt V) State := fun s =>
  let (r, s') := m s
  onConn (handleProcessingError S r) s'

/-- `connection.rs:235-296` `process_blocking`. -/
def process (cfg : Config) (p : Provider V) : State → M TlsError (HSt V) State
  | .clientHello => do
    let (state, tx) ← clientHello S cfg p
    onConn (respond tx)
    return state
  | .serverHello => do
    let rec ← onConn (recordOf S)
    handled S (processServerHello S rec)
  | .serverVerify => do
    let rec ← onConn (recordOf S)
    handled S (processServerVerify S p rec)
  | .clientCert => do
    let (state, tx) ← clientCert S p
    onConn (respond tx)
    return state
  | .clientCertVerify => do
    let (result, tx) ← clientCertVerify S p
    onConn (respond tx)
    M.lift result
  | .clientFinished => do
    let tx ← clientFinished S
    onConn (respond tx)
    clientFinishedFinalize S
  | .applicationData => return .applicationData

/-- The loop of `blocking.rs:109-121`. -/
def openLoop (cfg : Config) (p : Provider V) : Nat → State → M TlsError (HSt V) Unit
  | 0, _ => M.crash
  | fuel + 1, state =>
    if state ≠ .applicationData then do
      let next ← process S cfg p state
      openLoop cfg p fuel next
    else pure ()

/-- `blocking.rs:101-106`. -/
def setHostname (cfg : Config) (p : Provider V) : M TlsError (HSt V) Unit := fun s =>
  match p.verifier, cfg.serverName with
  | some ops, some name =>
    let (r, v) := ops.setHostname name s.h.vst
    (r, { s with h := { s.h with vst := v } })
  | _, _ => (.ok (), s)

/-- `blocking.rs:96-125` `open`; `v` is the state of the provider's verifier. -/
def open_ (cfg : Config) (p : Provider V) (v : V) : M TlsError Conn Unit := fun c =>
  let handshake : HsData V := ⟨none, none, none, v⟩
  match setHostname cfg p ⟨c, handshake⟩ with
  | (.ok (), s) =>
    match openLoop S cfg p (s.c.rx.size + 8) .clientHello s with
    | (.ok (), s) => (.ok (), { s.c with opened := true })
    | (.err e, s) => (.err e, s.c)
    | (.panic, s) => (.panic, s.c)
  | (.err e, s) => (.err e, s.c)
  | (.panic, s) => (.panic, s.c)

/-! ## The two halves -/

namespace Reader

/-- `blocking.rs:381-402` `TlsReader::read_application_data`: the handler works on a copy of the flag, which is stored if it
says that the connection is closed. -/
def readApplicationData : M TlsError RdHalf Unit := fun h =>
  match readRecord S ⟨h.rr, h.rx, h.rks.transcript⟩ with
  | (.ok rec, s) =>
    let (r, d) := decryptRecord S (readHandler s.rr.buf.length) rec
      ⟨{ h.rks with transcript := s.transcript }, s.rr.buf, (h.dec, h.opened)⟩
    (r, { rx := s.rx, rks := d.rks, rr := { s.rr with buf := d.buf }, dec := d.ext.1
          opened := if !d.ext.2 then false else h.opened })
  | (.err e, s) => (.err e, { h with rr := s.rr, rx := s.rx, rks := { h.rks with transcript := s.transcript } })
  | (.panic, s) => (.panic, { h with rr := s.rr, rx := s.rx, rks := { h.rks with transcript := s.transcript } })

/-- The loop of `blocking.rs:371-373`. -/
def fillLoop : Nat → M TlsError RdHalf Unit
  | 0 => M.crash
  | fuel + 1 => do
    let h ← M.get
    if h.dec.isEmpty then do
      readApplicationData S
      fillLoop fuel
    else pure ()

/-- `blocking.rs:369-379` `TlsReader::read_buffered`, and what the caller does with the buffer (`364-366`
`create_read_buffer`). -/
def readBuffered (ops : List RBufOp) (revert : Bool) : M TlsError RdHalf ROut := do
  let h ← M.get
  if h.opened then do
    fillLoop S (h.rx.size + 2)
    RdHalf.useBuffer ops revert
  else M.fail .missingHandshake

/-- The calls of `TlsReader`: `read` (`blocking.rs:453-463`), `fill_buf` (`471-473`), `consume` (`475-477`), `read_buffered`. -/
def run : ROp → M TlsError RdHalf ROut
  | .read n => if n = 0 then pure ⟨[], [[]], []⟩ else readBuffered S [.popInto n] false
  | .fillBuf => readBuffered S [.peekAll] false
  | .consume n => RdHalf.useBuffer [.pop n] false
  | .buffered ops revert => readBuffered S ops revert

end Reader

namespace Writer

/-- `blocking.rs:420-422` `TlsWriter::flush_transport`. -/
def flushTransport : M TlsError WrHalf Unit := WrHalf.onTx Tx.flush

/-- `blocking.rs:518-520`. -/
def flushByPolicy : M TlsError WrHalf Unit := do
  let w ← M.get
  if w.fp.flushTransport then flushTransport else pure ()

/-- `blocking.rs:508-525` `TlsWriter::flush`. -/
def flush : M TlsError WrHalf Unit := do
  let w ← M.get
  if w.wb.isEmpty then pure ()
  else do
    let slice ← WrHalf.onWb (WB.closeRecord S w.wks)
    WrHalf.onTx (Tx.writeAll slice)
    WrHalf.increment
    flushByPolicy

/-- `blocking.rs:487-494`. -/
def startRecord : M TlsError WrHalf Unit := do
  let w ← M.get
  if w.wb.contains .applicationData then pure ()
  else do
    flush S
    WrHalf.onWb (WB.startRecord .applicationData)

/-- `blocking.rs:498-500`. -/
def flushFull : M TlsError WrHalf Unit := do
  let full ← WrHalf.onWb WB.isFull
  if full then flush S else pure ()

/-- `blocking.rs:485-506` `TlsWriter::write`. -/
def write (bs : Bytes) : M TlsError WrHalf Nat := do
  let w ← M.get
  if w.opened then do
    startRecord S
    let buffered ← WrHalf.onWb (WB.append bs)
    flushFull S
    return buffered
  else M.fail .missingHandshake

/-- The calls of `TlsWriter`. (It has no `set_flush_policy`; the call stands for one before `split`.) -/
def run : WOp → M TlsError WrHalf Nat
  | .write bs => write S bs
  | .flush => do flush S; return 0
  | .setFlushPolicy p => do WrHalf.setFlushPolicy p; return 0

end Writer

/-! ## Calls -/

/-- A call of the reading interface of `TlsConnection`. -/
def reader : ROp → M TlsError Conn ROut
  | .read n => read S n
  | .fillBuf => fillBuf S
  | .consume n => consume n
  | .buffered ops revert => readBuffered S ops revert

/-- A call of the writing interface of `TlsConnection`. -/
def writer : WOp → M TlsError Conn Nat
  | .write bs => write S bs
  | .flush => do flush S; return 0
  | .setFlushPolicy p => do setFlushPolicy p; return 0

/-- A call on a blocking `TlsConnection`. -/
def call (c : Conn) : Call V → CallOut × Conn
  | .open_ cfg p v => (.opened (open_ S cfg p v c).1, (open_ S cfg p v c).2)
  | .reader op => (.read (reader S op c).1, (reader S op c).2)
  | .writer op => (.wrote (writer S op c).1, (writer S op c).2)
  | .close => (.closed (close S c).1, (close S c).2)

/-- Calls one after the other on a blocking `TlsConnection`. -/
def calls : List (Call V) → Conn → List CallOut × Conn
  | [], c => ([], c)
  | x :: xs, c => ((call S c x).1 :: (calls xs (call S c x).2).1, (calls xs (call S c x).2).2)

/-- A call on one of the halves that `blocking.rs:263-290` `split` hands out; each works on its own fields, on its own clone
of the socket and on the shared flag. -/
def half (c : Conn) : AnyOp → AnyOut × Conn
  | .reader op => (.read (onRd (Reader.run S op) c).1, (onRd (Reader.run S op) c).2)
  | .writer op => (.wrote (onWr (Writer.run S op) c).1, (onWr (Writer.run S op) c).2)

/-- Calls one after the other on the two halves. -/
def halves : List AnyOp → Conn → List AnyOut × Conn
  | [], c => ([], c)
  | x :: xs, c => ((half S c x).1 :: (halves xs (half S c x).2).1, (halves xs (half S c x).2).2)

end Blk
end ETls
