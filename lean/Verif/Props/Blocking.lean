import Verif.Proofs.Blocking
import Verif.Props.WholeLife

/-! # C120: the blocking interface does what the asynchronous one does

The crate has its connection four times.  `asynch.rs` and `blocking.rs` are separate texts, each with the methods of
`TlsConnection` and again with those of `TlsReader` and `TlsWriter`; an application picks one and expects of it what holds of
the others.  The methods of `blocking.rs` are transcribed in `Model/Blocking.lean`, the futures of `asynch.rs` in
`Model/Future.lean`. -/

namespace ETls

variable (S : Suite) {V : Type}

theorem Blk.call_eq (c : Conn) (x : Call V) : Blk.call S c x = x.run S c := by
  cases x with
  | open_ cfg p v => simp only [Blk.call, Call.run, Blk.open_eq]
  | reader op => simp only [Blk.call, Call.run, Blk.reader_eq]
  | writer op => simp only [Blk.call, Call.run, Blk.writer_eq]
  | close => simp only [Blk.call, Call.run, Blk.close_eq]

theorem Blk.calls_eq (xs : List (Call V)) : ∀ c, Blk.calls S xs c = runCalls S xs c := by
  induction xs with
  | nil => intro c; rfl
  | cons x xs ih => intro c; simp only [Blk.calls, runCalls, Blk.call_eq, ih]

/-- **C120.** For every connection and every sequence of calls (`open` with any configuration and provider, the calls of the
reading and the writing interface, `close`), whatever the transport delivers and refuses: the blocking connection returns
`outs` and ends as `c'` exactly if the futures of the asynchronous connection, each awaited to its end, return `outs` and end
as `c'`.  The connection includes the transport: what has been read from it, and every `write_all` and `flush` it was asked
for. -/
theorem C120_async (calls : List (Call V)) (c c' : Conn) (outs : List CallOut) :
    Blk.calls S calls c = (outs, c') ↔ History S calls c (outs.map some) c' := by
  rw [Blk.calls_eq]
  exact (C105_awaited S).symm

/-- **C120, new connections.** The two constructors make the same connection, or refuse the same buffers. -/
theorem C120_new (rx : Rx) (tx : Tx) (readBuf writeBuf : Bytes) :
    Blk.new S rx tx readBuf writeBuf = Conn.new S rx tx readBuf writeBuf := rfl

/-- **C120, the model of the other properties.** What is proved of sequences of calls on the connection of `Model/Conn.lean`
holds of the blocking connection. -/
theorem C120_calls (calls : List (Call V)) (c : Conn) : Blk.calls S calls c = runCalls S calls c := Blk.calls_eq S calls c

/-- A call on a half as a call on the connection. -/
def AnyOp.call : AnyOp → Call V
  | .reader op => .reader op
  | .writer op => .writer op

/-- What a call on a half returned, as an outcome of a call on the connection. -/
def AnyOut.call : AnyOut → CallOut
  | .read r => .read r
  | .wrote r => .wrote r

/-- **C120, the two halves.** `TlsReader` and `TlsWriter` have methods of their own; used in any order they return what the
methods of the connection itself return, and leave what those leave.  (The reader works on a copy of the open flag and stores
it when the connection has been closed; the connection lets the record handler write the flag itself.) -/
theorem C120_halves (ops : List AnyOp) : ∀ c : Conn,
    Blk.halves S ops c = runAny S ops c ∧
    Blk.calls S (ops.map (AnyOp.call (V := V))) c =
      ((Blk.halves S ops c).1.map AnyOut.call, (Blk.halves S ops c).2) := by
  induction ops with
  | nil => intro c; exact ⟨rfl, rfl⟩
  | cons op ops ih =>
    intro c
    have h1 : Blk.half S c op = op.run S c := by
      cases op with
      | reader op => simp only [Blk.half, AnyOp.run, Blk.Reader.run_eq]
      | writer op => simp only [Blk.half, AnyOp.run, Blk.Writer.run_eq]
    have h2 : Blk.call S c (op.call (V := V)) = ((Blk.half S c op).1.call, (Blk.half S c op).2) := by
      rw [Blk.call_eq, h1]
      cases op <;> rfl
    constructor
    · simp only [Blk.halves, runAny, h1, (ih _).1]
    · simp only [List.map_cons, Blk.calls, Blk.halves, h2, (ih _).2]

/-- A whole life with the blocking interface: the handshake, a request, a response in two records that arrives in pieces, and
`close`; the strict flush policy. -/
def exBlocking : List (Call Unit) :=
  [.open_ exCfg exProv (), .writer (.write [1, 2]), .writer .flush, .reader (.read 2), .reader .fillBuf, .reader (.consume 1),
    .reader (.read 9), .close]

/-- ... and its connection. -/
def exBlockingConn : Conn :=
  exLife [] [.data ((exApp 0 ⟨23, [5, 6, 7], 0⟩).take 9), .data ((exApp 0 ⟨23, [5, 6, 7], 0⟩).drop 9),
    .data (exApp 1 ⟨23, [8], 3⟩)]

example : (Blk.calls toySuite exBlocking exBlockingConn).1 =
    [.opened (.ok ()), .wrote (.ok 2), .wrote (.ok 0), .read (.ok ⟨[5, 6, 7], [[5, 6]], [5, 6]⟩), .read (.ok ⟨[7], [[7]], []⟩),
      .read (.ok ⟨[7], [[7]], [7]⟩), .read (.ok ⟨[8], [[8]], [8]⟩), .closed (.ok ())] := by
  decide +kernel

/-- Both sides of `C120_async` hold of it. -/
example : History toySuite exBlocking exBlockingConn ((Blk.calls toySuite exBlocking exBlockingConn).1.map some)
    (Blk.calls toySuite exBlocking exBlockingConn).2 :=
  (C120_async toySuite exBlocking exBlockingConn _ _).1 (Prod.eta _).symm

/-- The two halves: the reader sees `close_notify`, and the writer is closed with it. -/
example : (Blk.halves toySuite [.writer (.write [1]), .reader (.read 4), .reader (.read 4), .writer (.write [2]), .reader (.read 4)]
    (exOpened [] [.data (exApp 0 ⟨23, [5, 6, 7], 0⟩), .data (exApp 1 ⟨21, [1, 0], 0⟩)]).2).1 =
    [.wrote (.ok 1), .read (.ok ⟨[5, 6, 7], [[5, 6, 7]], [5, 6, 7]⟩), .read (.err .connectionClosed),
      .wrote (.err .missingHandshake), .read (.err .missingHandshake)] := by
  decide +kernel

end ETls
