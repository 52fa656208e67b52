import Verif.Model.Concurrent

/-! # The calls of the halves, one step for each operation of the transport

`Model/Concurrent.lean` makes one step of the code between two accesses of the open flag.  Here the places where a task may
wait for the transport (`asynch.rs`, every `await`) end a step.  `write_all` is one operation of the transport. -/

namespace ETls

namespace Fine

variable (S : Suite)

/-- `m` of the transport's receiving side. -/
def onRx {α : Type} (m : M TlsError Rx α) : M TlsError RdLoc α := fun l => ((m l.rx).1, { l with rx := (m l.rx).2 })

/-- `record_reader.rs:146-160` `next_record_header`, one step for each `read` of the transport. -/
def headerProg : Nat → Bytes → Prog RdLoc Bytes
  | 0, _ => .ret .panic
  | fuel + 1, acc =>
    if acc.length = 5 then .ret (.ok acc)
    else (Prog.act (onRx (Rx.read (5 - acc.length)))).bind fun bs =>
      if bs.length = 0 then .ret (.err .ioError) else headerProg fuel (acc ++ bs)

/-- `record_reader.rs:188-199`, the loop of `advance`: one step for each `read` of the transport, and one for the bookkeeping. -/
def advanceProg (amount : Nat) : Nat → Nat → Prog RdLoc Unit
  | 0, _ => .ret .panic
  | fuel + 1, remain => .step id fun l =>
    if l.rr.pending < amount then
      if l.rr.decoded + l.rr.pending > l.rr.buf.length ∨ l.rr.decoded + l.rr.pending + remain > l.rr.buf.length then .ret .panic
      else (Prog.act (onRx (Rx.read remain))).bind fun bs =>
        if bs.length = 0 then .ret (.err .ioError)
        else .step (fun l => { l with rr := { l.rr with
            buf := CB.splice l.rr.buf (l.rr.decoded + l.rr.pending) bs, pending := l.rr.pending + bs.length } }) fun _ =>
          advanceProg amount fuel (remain - bs.length)
    else .ret (.ok ())

/-- `m` of the fields that `record_reader::read` works on. -/
def onSt {α : Type} (m : M TlsError RdSt α) : M TlsError RdLoc α := fun l =>
  ((m ⟨l.rr, l.rx, l.rks.transcript⟩).1, { l with
    rr := (m ⟨l.rr, l.rx, l.rks.transcript⟩).2.rr
    rx := (m ⟨l.rr, l.rx, l.rks.transcript⟩).2.rx
    rks := { l.rks with transcript := (m ⟨l.rr, l.rx, l.rks.transcript⟩).2.transcript } })

/-- `record_reader.rs:245-265` `ensure_contiguous`. -/
def contiguous (len : Nat) : M TlsError RdLoc Unit := fun l => ((ensureContiguous len l.rr).1, { l with rr := (ensureContiguous len l.rr).2 })

/-- `record_reader.rs:108-125` `read`. -/
def recordProg : Prog RdLoc ServerRecord :=
  (headerProg 6 []).bind fun bytes =>
  (Prog.act (M.lift (RecordHeader.decode bytes))).bind fun h =>
  (Prog.act (contiguous h.contentLength)).bind fun _ =>
  (advanceProg h.contentLength (h.contentLength + 1) h.contentLength).bind fun _ =>
  Prog.act (onSt (consumeRecord S h))

/-- `asynch.rs:391-412` `TlsReader::read_application_data`. -/
def dataProg : Prog RdLoc Unit :=
  (recordProg S).bind fun rec =>
  Prog.load fun b =>
  (Prog.act (onRdLoc b (RdHalf.decrypt S rec))).bind RdLoc.finish

/-- The loop of `asynch.rs:381-383`. -/
def fillLoop : Nat → Prog RdLoc Unit
  | 0 => .ret .panic
  | fuel + 1 => .step id fun l =>
    if l.dec.isEmpty then (dataProg S).bind fun _ => fillLoop fuel
    else .ret (.ok ())

/-- `asynch.rs:379-389` `TlsReader::read_buffered` up to the creation of the read buffer. -/
def fill : Prog RdLoc Unit :=
  .load fun b => if b then .step id (fun l => fillLoop S (l.rx.size + 2)) else .ret (.err .missingHandshake)

/-- The calls of `TlsReader`, one step for each operation of the transport. -/
def reader : ROp → Prog RdLoc ROut
  | .read n => if n = 0 then .ret (.ok ⟨[], [[]], []⟩) else
      (fill S).bind fun _ => Prog.act (rdOwn (RdHalf.useBuffer [.popInto n] false))
  | .fillBuf => (fill S).bind fun _ => Prog.act (rdOwn (RdHalf.useBuffer [.peekAll] false))
  | .consume n => Prog.act (rdOwn (RdHalf.useBuffer [.pop n] false))
  | .buffered ops revert => (fill S).bind fun _ => Prog.act (rdOwn (RdHalf.useBuffer ops revert))

/-- `asynch.rs:523-540` `TlsWriter::flush`: the record is closed; `write_all`; the counter; the flush of the transport. -/
def flushProg : Prog WrLoc Unit :=
  .step id fun l =>
  if l.wb.isEmpty then .ret (.ok ())
  else
    (Prog.act (wrOwn (WrHalf.onWb (WB.closeRecord S l.wks)))).bind fun slice =>
    (Prog.act (wrOwn (WrHalf.onTx (Tx.writeAll slice)))).bind fun _ =>
    (Prog.act (wrOwn WrHalf.increment)).bind fun _ =>
    if l.fp.flushTransport then Prog.act (wrOwn (WrHalf.onTx Tx.flush)) else .ret (.ok ())

/-- `asynch.rs:502-507`. -/
def ensureProg : Prog WrLoc Unit :=
  .step id fun l =>
  if l.wb.contains .applicationData then .ret (.ok ())
  else (flushProg S).bind fun _ => Prog.act (wrOwn (WrHalf.onWb (WB.startRecord .applicationData)))

/-- The calls of `TlsWriter`, one step for each operation of the transport. -/
def writer : WOp → Prog WrLoc Nat
  | .write bs => .load fun b =>
      if b then
        (ensureProg S).bind fun _ =>
        (Prog.act (wrOwn (WrHalf.onWb (WB.append bs)))).bind fun n =>
        (Prog.act (wrOwn (WrHalf.onWb WB.isFull))).bind fun full =>
        (if full then flushProg S else .ret (.ok ())).bind fun _ => .ret (.ok n)
      else .ret (.err .missingHandshake)
  | .flush => (flushProg S).bind fun _ => .ret (.ok 0)
  | .setFlushPolicy p => (Prog.act (wrOwn (WrHalf.setFlushPolicy p))).bind fun _ => .ret (.ok 0)

end Fine

end ETls
