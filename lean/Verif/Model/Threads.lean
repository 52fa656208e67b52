import Verif.Model.Blocking
import Verif.Model.Concurrent

/-! # The blocking `TlsReader` and `TlsWriter` in two threads

`blocking.rs:263-290` `split` hands out two values that may be used in two threads; what they share is the open flag.  As in
`Model/Concurrent.lean` (with the same simplification) a call is the sequence of its accesses to the flag and of the stretches
of code between them; here the stretches are those of `blocking.rs`. -/

namespace ETls

variable (S : Suite)

namespace Blk

/-- `blocking.rs:383-385`: `read_blocking` on the fields of the reader. -/
def Reader.record : M TlsError RdHalf ServerRecord := fun h =>
  let (r, s) := Blk.readRecord S ⟨h.rr, h.rx, h.rks.transcript⟩
  (r, { h with rr := s.rr, rx := s.rx, rks := { h.rks with transcript := s.transcript } })

/-- `blocking.rs:388-396`: `decrypt_record` with the handler on a copy of the flag. -/
def Reader.handle (rec : ServerRecord) : M TlsError RdHalf Unit := fun h =>
  let (r, d) := decryptRecord S (readHandler h.rr.buf.length) rec ⟨h.rks, h.rr.buf, (h.dec, h.opened)⟩
  (r, { h with rks := d.rks, rr := { h.rr with buf := d.buf }, dec := d.ext.1, opened := d.ext.2 })

/-- `blocking.rs:398-401`: `if !opened { self.opened.store(false) }`, then the result. -/
def Reader.leave (x : Res TlsError Unit × Bool) : Prog RdLoc Unit :=
  if !x.2 then .store false (.ret x.1) else .ret x.1

/-- `blocking.rs:381-402` `TlsReader::read_application_data`. -/
def Reader.dataProg : Prog RdLoc Unit :=
  (Prog.act (rdOwn (Reader.record S))).bind fun rec =>
  Prog.load fun b =>
  (Prog.act (onRdLoc b (Reader.handle S rec))).bind Reader.leave

/-- The loop of `blocking.rs:371-373`. -/
def Reader.loopProg : Nat → Prog RdLoc Unit
  | 0 => .ret .panic
  | fuel + 1 => .step id fun l =>
    if l.dec.isEmpty then (Reader.dataProg S).bind fun _ => Reader.loopProg fuel
    else .ret (.ok ())

/-- `blocking.rs:369-379` `TlsReader::read_buffered`, and what the caller does with the buffer. -/
def Reader.bufferedProg (ops : List RBufOp) (revert : Bool) : Prog RdLoc ROut :=
  (Prog.load fun b =>
    if b then .step id (fun l => Reader.loopProg S (l.rx.size + 2)) else .ret (.err .missingHandshake)).bind fun _ =>
  Prog.act (rdOwn (RdHalf.useBuffer ops revert))

/-- The calls of `TlsReader`: `read` (`blocking.rs:453-463`), `fill_buf` (`471-473`), `consume` (`475-477`),
`read_buffered`. -/
def Reader.prog : ROp → Prog RdLoc ROut
  | .read n => if n = 0 then .ret (.ok ⟨[], [[]], []⟩) else Reader.bufferedProg S [.popInto n] false
  | .fillBuf => Reader.bufferedProg S [.peekAll] false
  | .consume n => Prog.act (rdOwn (RdHalf.useBuffer [.pop n] false))
  | .buffered ops revert => Reader.bufferedProg S ops revert

/-- The calls of `TlsWriter`: `write` (`blocking.rs:485-506`) loads the flag at its start, `flush` (`508-525`) does not.  (It
has no `set_flush_policy`; the call stands for one before `split`.) -/
def Writer.prog : WOp → Prog WrLoc Nat
  | .write bs => .load fun b =>
      if b then
        (Prog.act (wrOwn (Writer.startRecord S))).bind fun _ =>
        (Prog.act (wrOwn (WrHalf.onWb (WB.append bs)))).bind fun n =>
        (Prog.act (wrOwn (WrHalf.onWb WB.isFull))).bind fun full =>
        (Prog.act (wrOwn (if full then Writer.flush S else pure ()))).bind fun _ => .ret (.ok n)
      else .ret (.err .missingHandshake)
  | .flush => (Prog.act (wrOwn (Writer.flush S))).bind fun _ => .ret (.ok 0)
  | .setFlushPolicy p => (Prog.act (wrOwn (WrHalf.setFlushPolicy p))).bind fun _ => .ret (.ok 0)

/-- One step of one of the threads. -/
def threadStep (x : Sys) : Who → Sys
  | .reader => { x with flag := (x.rd.step (Reader.prog S) x.flag).1, rd := (x.rd.step (Reader.prog S) x.flag).2 }
  | .writer => { x with flag := (x.wr.step (Writer.prog S) x.flag).1, wr := (x.wr.step (Writer.prog S) x.flag).2 }

/-- `blocking.rs:263-290` `split`, the halves given to two threads that make the calls `rs` and `ws`, and the steps of a
schedule. -/
def threads (c : Conn) (rs : List ROp) (ws : List WOp) (sched : List Who) : Sys :=
  sched.foldl (threadStep S) ⟨c.opened, ⟨c.rd.loc, rs, none, []⟩, ⟨c.wr.loc, ws, none, []⟩⟩

end Blk
end ETls
