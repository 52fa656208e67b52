import Verif.Props.ReadSafety

/-! # `TlsReader` and `TlsWriter` running at the same time

`TlsConnection::split` (`asynch.rs:273-302`) hands out two values that may be driven by different tasks.  They borrow
disjoint parts of the connection, except for the open flag, an `AtomicBool` that both refer to.  Here each call is
the sequence of its accesses to that flag and of the stretches of code between them, and a schedule decides which half
makes the next step.

Simplified: a stretch of code between two accesses of the flag is one step, although it may wait for the transport in
the middle.  (Its steps touch only what its half owns; C135 shows that cutting it into smaller steps changes nothing.)  The flag
is one location, so loads and stores of it are totally ordered in the memory model of Rust too; nothing else is
published through it, so what `Acquire` and `Release` order besides it does not matter. -/

namespace ETls

variable (S : Suite)

/-- A call as a sequence of steps: on the half's own state, loads of the flag and stores of it. -/
inductive Prog (σ α : Type) where
  | ret (r : Res TlsError α)
  | step (upd : σ → σ) (next : σ → Prog σ α)
  | load (k : Bool → Prog σ α)
  | store (b : Bool) (k : Prog σ α)

namespace Prog

variable {σ α β : Type}

/-- `;` with `?`. -/
def bind : Prog σ α → (α → Prog σ β) → Prog σ β
  | .ret (.ok a), f => f a
  | .ret (.err e), _ => .ret (.err e)
  | .ret .panic, _ => .ret .panic
  | .step u n, f => .step u fun s => (n s).bind f
  | .load k, f => .load fun b => (k b).bind f
  | .store b k, f => .store b (k.bind f)

/-- A stretch of code that does not touch the flag, going on whatever the result is. -/
def attempt (m : M TlsError σ α) (k : Res TlsError α → Prog σ β) : Prog σ β :=
  .step (fun s => (m s).2) fun s => k (m s).1

/-- A stretch of code that does not touch the flag. -/
def act (m : M TlsError σ α) : Prog σ α := attempt m .ret

/-- All the steps of a call, with nobody else running. -/
def run : Prog σ α → σ → Bool → Res TlsError α × σ × Bool
  | .ret r, s, b => (r, s, b)
  | .step u n, s, b => (n s).run (u s) b
  | .load k, s, b => (k b).run s b
  | .store b' k, s, _ => k.run s b'

end Prog

/-- What `TlsReader` (`asynch.rs:351-360`) owns: its fields except the reference to the flag. -/
structure RdLoc where
  rx : Rx
  rks : ReadKS
  rr : RR
  dec : DecInfo
deriving DecidableEq, Repr

/-- What `TlsWriter` (`asynch.rs:415-424`) owns: its fields except the reference to the flag. -/
structure WrLoc where
  tx : Tx
  wks : WriteKS
  wb : WB
  fp : FlushPolicy
deriving DecidableEq, Repr

def RdHalf.loc (h : RdHalf) : RdLoc := ⟨h.rx, h.rks, h.rr, h.dec⟩
def WrHalf.loc (w : WrHalf) : WrLoc := ⟨w.tx, w.wks, w.wb, w.fp⟩
/-- A reading half with a (loaded) value of the flag. -/
def RdLoc.half (l : RdLoc) (b : Bool) : RdHalf := ⟨l.rx, b, l.rks, l.rr, l.dec⟩
/-- A writing half with a (loaded) value of the flag. -/
def WrLoc.half (l : WrLoc) (b : Bool) : WrHalf := ⟨l.tx, b, l.wks, l.wb, l.fp⟩

/-- Code of the reading half that works with a copy `b` of the flag; the result comes with the copy afterwards. -/
def onRdLoc {α : Type} (b : Bool) (m : M TlsError RdHalf α) : M TlsError RdLoc (Res TlsError α × Bool) := fun l =>
  (.ok ((m (l.half b)).1, (m (l.half b)).2.opened), (m (l.half b)).2.loc)

/-- Code of the reading half that has no access to the flag (the value put in its place is irrelevant). -/
def rdOwn {α : Type} (m : M TlsError RdHalf α) : M TlsError RdLoc α := fun l =>
  ((m (l.half false)).1, (m (l.half false)).2.loc)

/-- Code of the writing half that has no access to the flag (the value put in its place is irrelevant). -/
def wrOwn {α : Type} (m : M TlsError WrHalf α) : M TlsError WrLoc α := fun l =>
  ((m (l.half false)).1, (m (l.half false)).2.loc)

/-- `asynch.rs:407-411`: the store, if the handler has cleared its copy, and the result.  (After a panic of the
handler the store is not reached; it is harmless here, because the handler does not clear its copy and panic.) -/
def RdLoc.finish (x : Res TlsError Unit × Bool) : Prog RdLoc Unit :=
  if x.2 then .ret x.1 else .store false (.ret x.1)

/-- `asynch.rs:391-412` `TlsReader::read_application_data`: the record is read, then the flag is loaded into a copy,
the record is decrypted and handled with that copy, and the flag is cleared if the copy is. -/
def RdLoc.readApplicationData : Prog RdLoc Unit :=
  (Prog.act (rdOwn (RdHalf.readRecord S))).bind fun rec =>
  Prog.load fun b =>
  (Prog.act (onRdLoc b (RdHalf.decrypt S rec))).bind RdLoc.finish

/-- The loop of `asynch.rs:381-383`. -/
def RdLoc.fillLoop : Nat → Prog RdLoc Unit
  | 0 => .ret .panic
  | fuel + 1 => .step id fun l =>
    if l.dec.isEmpty then (RdLoc.readApplicationData S).bind fun _ => RdLoc.fillLoop fuel
    else .ret (.ok ())

/-- `asynch.rs:379-389` `TlsReader::read_buffered` up to the creation of the read buffer. -/
def RdLoc.fill : Prog RdLoc Unit :=
  .load fun b => if b then .step id (fun l => RdLoc.fillLoop S (l.rx.size + 2)) else .ret (.err .missingHandshake)

/-- The calls of `TlsReader` (`asynch.rs:379-389`, `468-492`). -/
def ROp.prog : ROp → Prog RdLoc ROut
  | .read n => if n = 0 then .ret (.ok ⟨[], [[]], []⟩) else
      (RdLoc.fill S).bind fun _ => Prog.act (rdOwn (RdHalf.useBuffer [.popInto n] false))
  | .fillBuf => (RdLoc.fill S).bind fun _ => Prog.act (rdOwn (RdHalf.useBuffer [.peekAll] false))
  | .consume n => Prog.act (rdOwn (RdHalf.useBuffer [.pop n] false))
  | .buffered ops revert => (RdLoc.fill S).bind fun _ => Prog.act (rdOwn (RdHalf.useBuffer ops revert))

/-- The calls of `TlsWriter`: `write` (`asynch.rs:500-521`) loads the flag once, at its start; `flush` (`523-540`)
does not load it.  (`TlsWriter` has no `set_flush_policy`; the call is kept because `WOp` has it.) -/
def WOp.prog : WOp → Prog WrLoc Nat
  | .write bs => .load fun b =>
      if b then
        (Prog.act (wrOwn (WrHalf.ensureRecord S))).bind fun _ =>
        (Prog.act (wrOwn (WrHalf.onWb (WB.append bs)))).bind fun n =>
        (Prog.act (wrOwn (WrHalf.onWb WB.isFull))).bind fun full =>
        (Prog.act (wrOwn (WrHalf.flushIf S full))).bind fun _ => .ret (.ok n)
      else .ret (.err .missingHandshake)
  | .flush => (Prog.act (wrOwn (WrHalf.flush S))).bind fun _ => .ret (.ok 0)
  | .setFlushPolicy p => (Prog.act (wrOwn (WrHalf.setFlushPolicy p))).bind fun _ => .ret (.ok 0)

/-- A task driving one half: what the half owns, the calls still to make, the rest of the current call if there is
one, and the results returned so far. -/
structure Task (Op σ α : Type) where
  loc : σ
  todo : List Op
  cur : Option (Prog σ α)
  outs : List (Res TlsError α)

/-- One step of a task: begin the next call, return from the current one, or make one step of it. -/
def Task.step {Op σ α : Type} (prog : Op → Prog σ α) (flag : Bool) (t : Task Op σ α) : Bool × Task Op σ α :=
  match t.cur with
  | none =>
    match t.todo with
    | [] => (flag, t)
    | op :: ops => (flag, { t with todo := ops, cur := some (prog op) })
  | some (.ret r) => (flag, { t with cur := none, outs := t.outs ++ [r] })
  | some (.step u n) => (flag, { t with loc := u t.loc, cur := some (n t.loc) })
  | some (.load k) => (flag, { t with cur := some (k flag) })
  | some (.store b k) => (b, { t with cur := some k })

/-- The flag and the two tasks. -/
structure Sys where
  flag : Bool
  rd : Task ROp RdLoc ROut
  wr : Task WOp WrLoc Nat

/-- `asynch.rs:273-302` `split`, the halves given to two tasks that will make the calls `rs` and `ws`. -/
def Sys.split (c : Conn) (rs : List ROp) (ws : List WOp) : Sys :=
  ⟨c.opened, ⟨c.rd.loc, rs, none, []⟩, ⟨c.wr.loc, ws, none, []⟩⟩

/-- Which task runs next. -/
inductive Who where
  | reader
  | writer
deriving DecidableEq, Repr

/-- One step of one of the tasks. -/
def Sys.step (x : Sys) : Who → Sys
  | .reader => { x with flag := (x.rd.step (ROp.prog S) x.flag).1, rd := (x.rd.step (ROp.prog S) x.flag).2 }
  | .writer => { x with flag := (x.wr.step (WOp.prog S) x.flag).1, wr := (x.wr.step (WOp.prog S) x.flag).2 }

/-- The steps of a schedule. -/
def Sys.run (x : Sys) (sched : List Who) : Sys := sched.foldl (Sys.step S) x

end ETls
