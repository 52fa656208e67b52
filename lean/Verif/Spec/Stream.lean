import Verif.Model.Basic

/-! # What a reader of a stream should see

A stream of records seen by an application: the unread rest of the current record and the contents of the records
that follow.  Nothing here refers to buffers, offsets or counters. -/

namespace ETls.Spec

/-- The calls on a borrowed piece of the stream. -/
inductive BufCall where
  /-- look at up to `n` bytes -/
  | peek (n : Nat)
  /-- look at everything -/
  | peekAll
  /-- take up to `n` bytes -/
  | pop (n : Nat)
  /-- take everything -/
  | popAll
deriving DecidableEq, Repr

/-- The slices handed out by a sequence of calls on `d`, and the number of bytes taken: looking does not move on,
taking does. -/
def calls : List BufCall → Bytes → List Bytes × Nat
  | [], _ => ([], 0)
  | .peek n :: cs, d =>
    let (s, k) := calls cs d
    (d.take n :: s, k)
  | .peekAll :: cs, d =>
    let (s, k) := calls cs d
    (d :: s, k)
  | .pop n :: cs, d =>
    let (s, k) := calls cs (d.drop n)
    (d.take n :: s, min n d.length + k)
  | .popAll :: cs, d =>
    let (s, k) := calls cs []
    (d :: s, d.length + k)

/-- What one borrowed piece `d` yields: the slices, and the bytes that are gone afterwards.  `revert` gives all of
them back, an untouched piece that is dropped is gone entirely, otherwise what was taken is gone. -/
def borrow (cs : List BufCall) (revert : Bool) (d : Bytes) : List Bytes × Bytes :=
  let (s, k) := calls cs d
  (s, if revert then [] else if cs = [] then d else d.take k)

/-- A stream. -/
structure Stream where
  /-- unread bytes of the current record -/
  cur : Bytes
  /-- contents of the following records -/
  rest : List Bytes
deriving DecidableEq, Repr

/-- All unread bytes. -/
def Stream.unread (s : Stream) : Bytes := s.cur ++ s.rest.flatten

/-- Move to the next record with unread bytes. -/
def Stream.fill : Bytes → List Bytes → Stream
  | [], [] => ⟨[], []⟩
  | [], r :: rs => Stream.fill r rs
  | cur, rs => ⟨cur, rs⟩

/-- A call of a reader of the stream. -/
inductive ReadCall where
  /-- read up to `n` bytes -/
  | read (n : Nat)
  /-- look at what is available -/
  | fillBuf
  /-- drop up to `n` available bytes -/
  | consume (n : Nat)
  /-- borrow what is available -/
  | buffered (cs : List BufCall) (revert : Bool)
deriving DecidableEq, Repr

/-- Borrow the current record: the slices handed out, the bytes taken, and the stream without them. -/
def Stream.use (cs : List BufCall) (revert : Bool) (s : Stream) : Option (List Bytes × Bytes) × Stream :=
  (some (borrow cs revert s.cur), ⟨s.cur.drop (borrow cs revert s.cur).2.length, s.rest⟩)

/-- Move to unread data first; `none` if there is none. -/
def Stream.fillThen (cs : List BufCall) (revert : Bool) (s : Stream) : Option (List Bytes × Bytes) × Stream :=
  if s.unread = [] then (none, ⟨[], []⟩) else (Stream.fill s.cur s.rest).use cs revert

/-- One call: the slices handed out and the bytes taken (`none` at the end of the stream), and the new stream. -/
def ReadCall.run : ReadCall → Stream → Option (List Bytes × Bytes) × Stream
  | .read n, s => if n = 0 then (some ([[]], []), s) else s.fillThen [.pop n] false
  | .fillBuf, s => s.fillThen [.peekAll] false
  | .consume n, s => s.use [.pop n] false
  | .buffered cs revert, s => s.fillThen cs revert

/-- A history of calls. -/
def Stream.run : List ReadCall → Stream → List (Option (List Bytes × Bytes)) × Stream
  | [], s => ([], s)
  | c :: cs, s => ((c.run s).1 :: (Stream.run cs (c.run s).2).1, (Stream.run cs (c.run s).2).2)

end ETls.Spec
