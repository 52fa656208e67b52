import Verif.Spec.Reader
import Verif.Model.Conn

/-! # What an open connection does with the data it is given to send (C78), and the whole connection (C79)

The writing side: the content of the record being collected, the number of the next record, and the flush policy.  There
is no buffer, only the largest record content `limit`.  The transport answers each write and each flush in turn; when
there are no answers left everything succeeds. -/

namespace ETls.Spec

variable (S : Suite)

/-- The writing side of a connection. -/
structure Writer where
  /-- content of the record being collected, if one has been begun -/
  pending : Option Bytes
  /-- number of the next record -/
  seq : Nat
  policy : FlushPolicy
deriving DecidableEq

/-- What a call does: its result, what is done to the transport, the writing side afterwards, the answers left. -/
structure Wrote where
  result : Res TlsError Nat
  events : List OutEv
  writer : Writer
  answers : List OutCtl
deriving DecidableEq

/-- The next answer of the transport: `none` for success, or the error and the number of bytes taken nevertheless. -/
def answer : List OutCtl → Option (IoKind × Nat) × List OutCtl
  | [] => (none, [])
  | .ok :: r => (none, r)
  | .fail k n :: r => (some (k, n), r)

/-- After a record has been written and counted: flush the transport if asked to. -/
def settle (record : Bytes) (fl : Bool) (w : Writer) (answers : List OutCtl) : Wrote :=
  if fl then
    match answer answers with
    | (some (k, _), r) => ⟨.err (.io k), [.wrote record, .flushFailed], w, r⟩
    | (none, r) => ⟨.ok 0, [.wrote record, .flushed], w, r⟩
  else ⟨.ok 0, [.wrote record], w, answers⟩

/-- Handing a record to the transport.  It is counted only if the transport takes all of it; the number 2^64 is never
reached. -/
def send (record : Bytes) (fl : Bool) (w : Writer) (answers : List OutCtl) : Wrote :=
  match answer answers with
  | (some (k, n), r) => ⟨.err (.io k), [.partialWrite (record.take n)], w, r⟩
  | (none, r) =>
    if w.seq + 1 < 2 ^ 64 then settle record fl { w with seq := w.seq + 1 } r else ⟨.panic, [.wrote record], w, r⟩

/-- Sending the record being collected, if there is one. -/
def Writer.flush (key iv : Bytes) (w : Writer) (answers : List OutCtl) : Wrote :=
  match w.pending with
  | none => ⟨.ok 0, [], w, answers⟩
  | some content =>
    send (ciphertextRecord S key iv w.seq 23 content) (w.policy == .strict) { w with pending := none } answers

/-- How much of `bs` a write takes. -/
def Writer.takes (limit : Nat) (w : Writer) (bs : Bytes) : Nat := min bs.length (limit - (w.pending.getD []).length)

/-- The writer after adding as much of `bs` as fits. -/
def Writer.add (limit : Nat) (w : Writer) (bs : Bytes) : Writer :=
  { w with pending := some (w.pending.getD [] ++ bs.take (w.takes limit bs)) }

/-- A write: collect what fits; if that makes a full record, send it. -/
def Writer.write (key iv : Bytes) (limit : Nat) (opened : Bool) (bs : Bytes) (w : Writer) (answers : List OutCtl) : Wrote :=
  if opened then
    if (w.pending.getD []).length + w.takes limit bs = limit then
      { (w.add limit bs).flush S key iv answers with
        result := ((w.add limit bs).flush S key iv answers).result.map fun _ => w.takes limit bs }
    else ⟨.ok (w.takes limit bs), [], w.add limit bs, answers⟩
  else ⟨.err .missingHandshake, [], w, answers⟩

/-- A call of the writing side. -/
inductive WriteCall where
  | write (bs : Bytes)
  | flush
  | setFlushPolicy (p : FlushPolicy)
deriving DecidableEq

/-- One call. -/
def WriteCall.run (key iv : Bytes) (limit : Nat) (opened : Bool) : WriteCall → Writer → List OutCtl → Wrote
  | .write bs, w, a => w.write S key iv limit opened bs a
  | .flush, w, a => w.flush S key iv a
  | .setFlushPolicy p, w, a => ⟨.ok 0, [], { w with policy := p }, a⟩

/-- A history of calls on a connection that stays open (or closed): the results, and what is done to the transport. -/
def WriteCall.runAll (key iv : Bytes) (limit : Nat) (opened : Bool) :
    List WriteCall → Writer → List OutCtl → List (Res TlsError Nat) × List OutEv × Writer × List OutCtl
  | [], w, a => ([], [], w, a)
  | c :: cs, w, a =>
    let x := c.run S key iv limit opened w a
    let y := WriteCall.runAll key iv limit opened cs x.writer x.answers
    (x.result :: y.1, x.events ++ y.2.1, y.2.2)

/-- The last record: close_notify, protected if the connection is still open; otherwise unprotected and in a record of
content type 20 (change_cipher_spec) instead of 21 (DESIGN.md, finding on C16). -/
def closing (key iv : Bytes) (opened : Bool) (seq : Nat) : Bytes :=
  if opened then ciphertextRecord S key iv seq 21 [1, 0] else plaintextRecord 20 [3, 1] [1, 0]

/-- Closing: send what has been collected, then close_notify, then flush the transport. -/
def Writer.close (key iv : Bytes) (opened : Bool) (w : Writer) (answers : List OutCtl) : Wrote :=
  match (w.flush S key iv answers).result with
  | .ok _ =>
    let f := w.flush S key iv answers
    let s := send (closing S key iv opened f.writer.seq) true f.writer f.answers
    { s with events := f.events ++ s.events }
  | _ => w.flush S key iv answers

/-! ## Both sides -/

/-- A call of either side. -/
inductive Use where
  | read (c : ReadCall)
  | write (c : WriteCall)
deriving DecidableEq

/-- Its result. -/
inductive UseResult where
  | read (r : Result)
  | wrote (r : Res TlsError Nat)
deriving DecidableEq

/-- An open connection: both sides (the reader knows whether the connection is still open), and the answers to come. -/
structure Duplex where
  reader : Reader
  writer : Writer
  answers : List OutCtl
deriving DecidableEq

/-- The keys and sizes of a connection. -/
structure Setting where
  readKey : Bytes
  readIv : Bytes
  writeKey : Bytes
  writeIv : Bytes
  /-- size of the read buffer -/
  cap : Nat
  /-- largest content of a sent record -/
  limit : Nat

/-- A history of calls of both sides, with the results and what is done to the transport.  Errors do not end it, a panic
does. -/
inductive Uses (k : Setting) : List Use → Duplex → List UseResult → List OutEv → Option Duplex → Prop where
  | nil (d : Duplex) : Uses k [] d [] [] (some d)
  | read (c : ReadCall) (us : List Use) (d : Duplex) (s : Reader) (r : Result) (rs : List UseResult) (evs : List OutEv)
      (d' : Option Duplex) (hc : Call S k.readKey k.readIv k.cap c d.reader r s) (hr : r ≠ .abort)
      (hu : Uses k us { d with reader := s } rs evs d') : Uses k (.read c :: us) d (.read r :: rs) evs d'
  | readAbort (c : ReadCall) (us : List Use) (d : Duplex) (s : Reader)
      (hc : Call S k.readKey k.readIv k.cap c d.reader .abort s) : Uses k (.read c :: us) d [.read .abort] [] none
  | write (c : WriteCall) (us : List Use) (d : Duplex) (w : Wrote) (rs : List UseResult) (evs : List OutEv)
      (d' : Option Duplex) (hc : w = c.run S k.writeKey k.writeIv k.limit d.reader.opened d.writer d.answers)
      (hr : w.result ≠ .panic) (hu : Uses k us { d with writer := w.writer, answers := w.answers } rs evs d') :
      Uses k (.write c :: us) d (.wrote w.result :: rs) (w.events ++ evs) d'
  | writeAbort (c : WriteCall) (us : List Use) (d : Duplex) (w : Wrote)
      (hc : w = c.run S k.writeKey k.writeIv k.limit d.reader.opened d.writer d.answers) (hr : w.result = .panic) :
      Uses k (.write c :: us) d [.wrote .panic] w.events none

/-- The setting of a session: application traffic keys from the pre-shared key, the Diffie-Hellman result and the messages
`t`; sizes of the read buffer and of the write buffer, which keeps 133 bytes for itself. -/
def sessionSetting (psk : Option Bytes) (dhe t : Bytes) (readBuffer writeBuffer : Nat) : Setting where
  readKey := writeKey S (serverApplicationTraffic S psk dhe t)
  readIv := writeIv S (serverApplicationTraffic S psk dhe t)
  writeKey := writeKey S (clientApplicationTraffic S psk dhe t)
  writeIv := writeIv S (clientApplicationTraffic S psk dhe t)
  cap := readBuffer
  limit := writeBuffer - 133

/-- A connection that has just been opened, with `rest` still to be received. -/
def justOpened (rest : Bytes) (answers : List OutCtl) : Duplex := ⟨⟨true, [], ⟨0, rest⟩⟩, ⟨none, 0, .strict⟩, answers⟩

end ETls.Spec
