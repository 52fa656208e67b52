import Verif.Model.Conn

/-! # `src/read_buffer.rs` and the calls of the reading interface -/

namespace ETls

variable (S : Suite)

/-- `read_buffer.rs:3-9` `ReadBuffer` (without the borrowed counter, see `RdHalf.consumed`). -/
structure RBuf where
  data : Bytes
  consumed : Nat
  used : Bool
deriving DecidableEq, Repr

/-- `read_buffer.rs:12-20` `new`. -/
def RBuf.new (data : Bytes) : RBuf := ⟨data, 0, false⟩

/-- `read_buffer.rs:23-26` `len`. -/
def RBuf.len (b : RBuf) : Nat := b.data.length - b.consumed

/-- `read_buffer.rs:42`, `61`: `&self.data[start..start + count]`. -/
def RBuf.slice (start count : Nat) : M TlsError RBuf Bytes := fun b =>
  if start + count ≤ b.data.length then (.ok ((b.data.drop start).take count), b) else (.panic, b)

/-- `read_buffer.rs:35-43` `peek`. -/
def RBuf.peek (count : Nat) : M TlsError RBuf Bytes := do
  let b ← M.get
  M.modify fun b => { b with used := true }
  RBuf.slice b.consumed (min b.len count)

/-- `read_buffer.rs:47-49` `peek_all`. -/
def RBuf.peekAll : M TlsError RBuf Bytes := do
  let b ← M.get
  RBuf.peek b.len

/-- `read_buffer.rs:53-60` `pop`. -/
def RBuf.pop (count : Nat) : M TlsError RBuf Bytes := do
  let b ← M.get
  M.modify fun b' => { b' with consumed := b'.consumed + min b.len count }
  M.modify fun b' => { b' with used := true }
  RBuf.slice b.consumed (min b.len count)

/-- `read_buffer.rs:64-66` `pop_all`. -/
def RBuf.popAll : M TlsError RBuf Bytes := do
  let b ← M.get
  RBuf.pop b.len

/-- `read_buffer.rs:76-82` `pop_into` a buffer of `n` bytes; the bytes copied (their number is what the code
returns).  `pop` returns at most `n` bytes, so `buf[..len]` is in range; the check is kept. -/
def RBuf.popInto (n : Nat) : M TlsError RBuf Bytes := do
  let d ← RBuf.pop n
  if d.length ≤ n then return d else M.crash

/-- What the drop of a `ReadBuffer` adds to the counter (`read_buffer.rs:85-96`); `revert` (`70-72`) adds nothing. -/
def RBuf.dropped (b : RBuf) : Nat := if b.used then b.consumed else b.data.length

/-- A call on a `ReadBuffer`. -/
inductive RBufOp where
  | peek (n : Nat)
  | peekAll
  | pop (n : Nat)
  | popAll
  | popInto (n : Nat)
deriving DecidableEq, Repr

/-- One call. -/
def RBufOp.run : RBufOp → M TlsError RBuf Bytes
  | .peek n => RBuf.peek n
  | .peekAll => RBuf.peekAll
  | .pop n => RBuf.pop n
  | .popAll => RBuf.popAll
  | .popInto n => RBuf.popInto n

/-- A sequence of calls on one `ReadBuffer`: what each returned. -/
def RBuf.runOps : List RBufOp → M TlsError RBuf (List Bytes)
  | [] => pure []
  | op :: ops => do
    let d ← op.run
    let ds ← RBuf.runOps ops
    return d :: ds

/-- What can be observed of one call of the reading interface: the contents of the `ReadBuffer` it created, the
slices handed out, and the bytes it marked as consumed.  (The code returns the slices; the other two fields are
there to talk about.) -/
structure ROut where
  shown : Bytes
  seen : List Bytes
  taken : Bytes
deriving DecidableEq, Repr

/-- A call of the reading interface of `TlsConnection` or `TlsReader`. -/
inductive ROp where
  | read (n : Nat)
  | fillBuf
  | consume (n : Nat)
  | buffered (ops : List RBufOp) (revert : Bool)
deriving DecidableEq, Repr

/-- `create_read_buffer` (`decrypted_buffer_info.rs:11-15`), some calls on it, then `revert` or drop. -/
def RdHalf.useBuffer (ops : List RBufOp) (revert : Bool) : M TlsError RdHalf ROut := fun h =>
  match RdHalf.available h with
  | (.ok d, h) =>
    match RBuf.runOps ops (RBuf.new d) with
    | (.ok ds, b) =>
      let k := if revert then 0 else b.dropped
      (.ok ⟨d, ds, d.take k⟩, { h with dec := { h.dec with consumed := h.dec.consumed + k } })
    | (.err e, _) => (.err e, h)
    | (.panic, _) => (.panic, h)
  | (.err e, h) => (.err e, h)
  | (.panic, h) => (.panic, h)

/-- One call: `read` (`asynch.rs:468-478`, `197-207`), `fill_buf` (`486-488`, `326-328`), `consume` (`490-492`,
`330-332`), `read_buffered` (`379-389`, `210-220`). -/
def ROp.run : ROp → M TlsError RdHalf ROut
  | .read n => if n = 0 then pure ⟨[], [[]], []⟩ else do
      RdHalf.fill S
      RdHalf.useBuffer [.popInto n] false
  | .fillBuf => do
      RdHalf.fill S
      RdHalf.useBuffer [.peekAll] false
  | .consume n => RdHalf.useBuffer [.pop n] false
  | .buffered ops revert => do
      RdHalf.fill S
      RdHalf.useBuffer ops revert

/-- A history of calls with the result of each.  Errors do not stop the application from going on; a panic does. -/
def runReads : List ROp → RdHalf → List (Res TlsError ROut) × RdHalf
  | [], h => ([], h)
  | op :: ops, h =>
    match op.run S h with
    | (.panic, h1) => ([.panic], h1)
    | (r, h1) =>
      let (rs, h2) := runReads ops h1
      (r :: rs, h2)

end ETls
