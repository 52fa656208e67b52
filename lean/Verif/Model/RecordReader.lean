import Verif.Model.Record

/-! # The transport, `src/record_reader.rs` and the decryption half of `src/connection.rs` -/

namespace ETls

variable (S : Suite)

/-- What one `read` of the transport will do: deliver (part of) some bytes, or fail.  An exhausted list is end of
stream; an empty chunk is a `read` that returns `Ok(0)`. -/
inductive InEv where
  | data (bs : Bytes)
  | err (k : IoKind)
deriving DecidableEq, Repr

/-- What one `write_all` or `flush` of the transport will do: succeed, or fail after accepting `n` bytes. Dropping
the future at its `.await` has the same effect on the connection as a failure there. -/
inductive OutCtl where
  | ok
  | fail (k : IoKind) (n : Nat)
deriving DecidableEq, Repr

/-- What the transport has been asked to do on the sending side. -/
inductive OutEv where
  | wrote (bs : Bytes)
  | partialWrite (bs : Bytes)
  | flushed
  | flushFailed
deriving DecidableEq, Repr

/-- The receiving side of the transport. -/
abbrev Rx := List InEv

/-- The sending side of the transport: behaviour to come and effects so far. -/
structure Tx where
  ctl : List OutCtl
  log : List OutEv
deriving DecidableEq, Repr

/-- `embedded_io(_async)::Read::read` into a buffer of `n` bytes: at most `n` bytes of the next chunk. -/
def Rx.read (n : Nat) : M TlsError Rx Bytes := fun rx =>
  match rx with
  | [] => (.ok [], [])
  | .err k :: rest => (.err (.io k), rest)
  | .data bs :: rest =>
    if bs.length ≤ n then (.ok bs, rest) else (.ok (bs.take n), .data (bs.drop n) :: rest)

/-- `embedded_io(_async)::Write::write_all`. -/
def Tx.writeAll (bs : Bytes) : M TlsError Tx Unit := fun t =>
  match t.ctl with
  | [] => (.ok (), ⟨[], t.log ++ [.wrote bs]⟩)
  | .ok :: r => (.ok (), ⟨r, t.log ++ [.wrote bs]⟩)
  | .fail k n :: r => (.err (.io k), ⟨r, t.log ++ [.partialWrite (bs.take n)]⟩)

/-- `embedded_io(_async)::Write::flush`. -/
def Tx.flush : M TlsError Tx Unit := fun t =>
  match t.ctl with
  | [] => (.ok (), ⟨[], t.log ++ [.flushed]⟩)
  | .ok :: r => (.ok (), ⟨r, t.log ++ [.flushed]⟩)
  | .fail k _ :: r => (.err (.io k), ⟨r, t.log ++ [.flushFailed]⟩)

/-- `record_reader.rs:11-17` `RecordReader`. -/
structure RR where
  buf : Bytes
  decoded : Nat
  pending : Nat
deriving DecidableEq, Repr

/-- `record_reader.rs:28-37`. -/
def RR.new (buf : Bytes) : RR := ⟨buf, 0, 0⟩

/-- The loop of `record_reader.rs:146-160` (`162-177`): collect the 5 header bytes. -/
def headerLoop : Nat → Bytes → M TlsError Rx Bytes
  | 0, _ => M.crash
  | fuel + 1, acc =>
    if acc.length = 5 then pure acc
    else do
      let bs ← Rx.read (5 - acc.length)
      if bs.length = 0 then M.fail .ioError else headerLoop fuel (acc ++ bs)

/-- `record_reader.rs:146-160` `next_record_header` (and `162-177` `next_record_header_blocking`). -/
def nextRecordHeader : M TlsError Rx RecordHeader := do
  let h ← headerLoop 6 []
  M.lift (RecordHeader.decode h)

/-- `record_reader.rs:245-265` `ensure_contiguous`; `copy_within` panics if the range is out of bounds. -/
def ensureContiguous (len : Nat) : M TlsError RR Unit := fun r =>
  if r.decoded + len > r.buf.length then
    if len > r.buf.length then (.err .insufficientSpace, r)
    else if r.decoded + r.pending > r.buf.length then (.panic, r)
    else (.ok (), { r with buf := CB.splice r.buf 0 ((r.buf.drop r.decoded).take r.pending), decoded := 0 })
  else (.ok (), r)

/-- The loop of `record_reader.rs:188-199` (`213-223`); `remain` is decremented by what was read, and the slice
`buf[decoded + pending..][..remain]` panics if out of bounds. -/
def advanceLoop (amount : Nat) : Nat → Nat → M TlsError (RR × Rx) Unit
  | 0, _ => M.crash
  | fuel + 1, remain => fun (r, rx) =>
    if r.pending < amount then
      if r.decoded + r.pending > r.buf.length ∨ r.decoded + r.pending + remain > r.buf.length then
        (.panic, (r, rx))
      else
        match Rx.read remain rx with
        | (.ok bs, rx') =>
          if bs.length = 0 then (.err .ioError, (r, rx'))
          else advanceLoop amount fuel (remain - bs.length)
            ({ r with buf := CB.splice r.buf (r.decoded + r.pending) bs, pending := r.pending + bs.length }, rx')
        | (.err e, rx') => (.err e, (r, rx'))
        | (.panic, rx') => (.panic, (r, rx'))
    else (.ok (), (r, rx))

/-- `record_reader.rs:179-202` `advance` (and `204-226` `advance_blocking`). -/
def advance (amount : Nat) : M TlsError (RR × Rx) Unit := do
  onFst (ensureContiguous amount)
  advanceLoop amount (amount + 1) amount

/-- State of `record_reader::read`: the reader, the transport and the transcript. -/
structure RdSt where
  rr : RR
  rx : Rx
  transcript : Bytes
deriving DecidableEq, Repr

/-- `record_reader.rs:228-243` `consume`; the slices panic if out of bounds and `pending -= len` on underflow. -/
def consumeRecord (h : RecordHeader) : M TlsError RdSt ServerRecord := fun s =>
  let n := h.contentLength
  if s.rr.decoded > s.rr.buf.length ∨ s.rr.decoded + n > s.rr.buf.length then (.panic, s)
  else
    let slice := (s.rr.buf.drop s.rr.decoded).take n
    if s.rr.pending < n then (.panic, { s with rr := { s.rr with decoded := s.rr.decoded + n } })
    else
      let start := s.rr.decoded
      let rr' := { s.rr with decoded := s.rr.decoded + n, pending := s.rr.pending - n }
      let (r, tr) := ServerRecord.decode S h start slice s.transcript
      (r, { s with rr := rr', transcript := tr })

/-- `next_record_header` on the reading state. -/
def RdSt.header : M TlsError RdSt RecordHeader := fun s =>
  let (r, rx) := nextRecordHeader s.rx
  (r, { s with rx := rx })

/-- `advance` on the reading state. -/
def RdSt.advance (amount : Nat) : M TlsError RdSt Unit := fun s =>
  let (r, (rr, rx)) := ETls.advance amount (s.rr, s.rx)
  (r, { s with rr := rr, rx := rx })

/-- `record_reader.rs:108-125` `read` (and `127-144` `read_blocking`). -/
def readRecord : M TlsError RdSt ServerRecord := do
  let h ← RdSt.header
  RdSt.advance h.contentLength
  consumeRecord S h

/-- State of `decrypt_record`: the read key schedule, the read buffer (decryption works in place) and whatever the
callback captures. -/
structure DSt (τ : Type) where
  rks : ReadKS
  buf : Bytes
  ext : τ

/-- `connection.rs:52-59`: cut everything after the last non-zero byte; nothing is cut if there is none. -/
def stripPadding (bs : Bytes) : Bytes :=
  match bs.reverse.dropWhile (· == 0) with
  | [] => bs
  | r => r.reverse

/-- The loop of `connection.rs:73-76` over coalesced handshake messages. -/
def handshakeLoop {τ : Type} (cb : ServerRecord → M TlsError (ReadKS × τ) Unit) :
    Nat → PB → M TlsError (ReadKS × τ) Unit
  | 0, _ => M.crash
  | fuel + 1, p => fun (k, t) =>
    if p.buffer.length - p.pos > 0 then
      match ServerHs.read S (p, k.transcript) with
      | (.ok h, (p', tr)) =>
        match cb (.handshake h) ({ k with transcript := tr }, t) with
        | (.ok (), kt) => handshakeLoop cb fuel p' kt
        | (.err e, kt) => (.err e, kt)
        | (.panic, kt) => (.panic, kt)
      | (.err e, (_, tr)) => (.err e, ({ k with transcript := tr }, t))
      | (.panic, (_, tr)) => (.panic, ({ k with transcript := tr }, t))
    else (.ok (), (k, t))

/-- `connection.rs:61-87`: dispatch on the content type of a decrypted record (`pt` is the whole inner plaintext,
`start` its position in the read buffer). -/
def dispatchInner {τ : Type} (cb : ServerRecord → M TlsError (ReadKS × τ) Unit) (header : Bytes) (start : Nat)
    (pt : Bytes) : M TlsError (ReadKS × τ) Unit :=
  match (stripPadding pt).getLast? with
  | none => M.crash
  | some b =>
    match ContentType.of b.toNat with
    | none => M.fail .invalidRecord
    | some ct =>
      let content := (stripPadding pt).dropLast
      match ct with
      | .handshake => handshakeLoop S cb (content.length + 1) (PB.new content)
      | .applicationData => cb (.appData header start content)
      | .alert => do
        let a ← M.lift (Alert.parse (PB.new content)).1
        cb (.alert a)
      | _ => M.fail .unimplemented

/-- `connection.rs:28-94` `decrypt_record`. Only records of outer type application data are decrypted. A failed
decryption leaves the buffer as it was (AES-GCM checks the tag before decrypting). -/
def decryptRecord {τ : Type} (cb : ServerRecord → M TlsError (ReadKS × τ) Unit) (rec : ServerRecord) :
    M TlsError (DSt τ) Unit := fun s =>
  match rec with
  | .appData header start data =>
    match S.open_ s.rks.st.key (s.rks.st.nonce S) header data with
    | none => (.err .cryptoError, s)
    | some pt =>
      let buf' := CB.splice s.buf start pt
      match dispatchInner S cb header start pt (s.rks, s.ext) with
      | (.ok (), (k, t)) =>
        let (r, k') := ReadKS.increment k
        (r, ⟨k', buf', t⟩)
      | (.err e, (k, t)) => (.err e, ⟨k, buf', t⟩)
      | (.panic, (k, t)) => (.panic, ⟨k, buf', t⟩)
  | rec =>
    let (r, (k, t)) := cb rec (s.rks, s.ext)
    (r, ⟨k, s.buf, t⟩)

end ETls
