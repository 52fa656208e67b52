import Verif.Model.Handshake

/-! # `src/record.rs`, `src/write_buffer.rs` and the encryption half of `src/connection.rs` -/

namespace ETls

variable (S : Suite)

/-- Run an operation on the first component of a pair of states. -/
def onFst {ε σ τ α : Type} (m : M ε σ α) : M ε (σ × τ) α := fun (s, t) =>
  let (r, s') := m s
  (r, (s', t))

/-- `record.rs:18-26` `ClientRecord`. -/
inductive ClientRecord where
  | handshake (h : ClientHs) (encrypted : Bool)
  | alert (a : Alert) (encrypted : Bool)

/-- `record.rs:30-34` `ClientRecordHeader`. -/
inductive ClientRecordHeader where
  | handshake (encrypted : Bool)
  | alert (encrypted : Bool)
  | applicationData
deriving DecidableEq, Repr

namespace ClientRecordHeader

/-- `record.rs:37-44`. -/
def isEncrypted : ClientRecordHeader → Bool
  | .handshake e => e
  | .alert e => e
  | .applicationData => true

/-- `record.rs:46-54` (an unencrypted alert gets the content type of ChangeCipherSpec, as in the code). -/
def headerContentType : ClientRecordHeader → ContentType
  | .handshake false => .handshake
  | .alert false => .changeCipherSpec
  | .handshake true => .applicationData
  | .alert true => .applicationData
  | .applicationData => .applicationData

/-- `record.rs:56-62`. -/
def trailerContentType : ClientRecordHeader → ContentType
  | .handshake _ => .handshake
  | .alert _ => .alert
  | .applicationData => .applicationData

/-- `record.rs:64-69`. -/
def version : ClientRecordHeader → Bytes
  | .handshake false => [3, 1]
  | .alert false => [3, 1]
  | .handshake true => [3, 3]
  | .alert true => [3, 3]
  | .applicationData => [3, 3]

/-- `record.rs:71-78`. -/
def encode (h : ClientRecordHeader) : Enc Unit := do
  (CB.push (UInt8.ofNat h.headerContentType.code)).orEncodeError
  (CB.extend h.version).orEncodeError

end ClientRecordHeader

namespace ClientRecord

/-- `record.rs:86-91`. -/
def header : ClientRecord → ClientRecordHeader
  | .handshake _ e => .handshake e
  | .alert _ e => .alert e

/-- `record.rs:106-111`. -/
def closeNotify (opened : Bool) : ClientRecord := .alert ⟨.warning, .closeNotify⟩ opened

/-- `record.rs:113-122` `encode_payload` (the returned length is not used by any caller). -/
def encodePayload : ClientRecord → Enc Unit
  | .handshake h _ => h.encode S
  | .alert a _ => a.encode

/-- `record.rs:124-140` `finish_record` with `handshake/mod.rs:107-126` `finalize` and `finalize_encrypted`; the
state is the outgoing buffer and the transcript. -/
def finishRecord (w : WriteKS) : ClientRecord → M TlsError (CB × Bytes) Unit
  | .handshake (.clientHello h) false => fun (c, tr) =>
    let (r, (enc, tr')) := h.finalize S w (c.asSlice, tr)
    (r, ({ c with buf := CB.splice c.buf c.offset enc }, tr'))
  | .handshake _ _ => fun (c, tr) => (.ok (), (c, tr ++ c.asSlice))
  | .alert _ _ => pure ()

end ClientRecord

/-- `connection.rs:96-129` `encrypt`: encrypt the buffer contents in place and append the tag.  (The AEAD's own upper
limit on the message size, 2^36 bytes, is not modelled.) -/
def encrypt (w : WriteKS) : Enc Unit := do
  let c ← M.get
  if c.len + tagLen > c.capacity then M.fail .insufficientSpace
  else do
    let nonce := w.st.nonce S
    let aad := [23, 3, 3] ++ be16 (c.len + tagLen)
    let pt := c.asSlice
    M.modify fun c => { c with buf := CB.splice c.buf c.offset (S.sealCt w.st.key nonce aad pt) }
    M.mapErr (fun _ => .invalidApplicationData) (CB.extend (S.sealTag w.st.key nonce aad pt))

/-- `write_buffer.rs:10-14` `WriteBuffer`. -/
structure WB where
  buffer : Bytes
  pos : Nat
  header : Option ClientRecordHeader
deriving DecidableEq, Repr

/-- `config.rs:22`. -/
def TLS_RECORD_OVERHEAD : Nat := 128

namespace WB

/-- `write_buffer.rs:29-39` `WriteBuffer::new`, with its `debug_assert!`. -/
def new (buffer : Bytes) : Res TlsError WB :=
  if buffer.length > TLS_RECORD_OVERHEAD then .ok ⟨buffer, 0, none⟩ else .panic

/-- `write_buffer.rs:113-115` `max_block_size`; panics on underflow. -/
def maxBlockSize : M TlsError WB Nat := fun w =>
  if TLS_RECORD_OVERHEAD ≤ w.buffer.length then (.ok (w.buffer.length - TLS_RECORD_OVERHEAD), w) else (.panic, w)

/-- `write_buffer.rs:117-119` `is_full`. -/
def isFull : M TlsError WB Bool := do
  let m ← maxBlockSize
  let w ← M.get
  return w.pos == m

/-- `write_buffer.rs:125-127` `is_empty`. -/
def isEmpty (w : WB) : Bool := w.pos == 0

/-- `write_buffer.rs:129-131` `space`; panics on underflow. -/
def space : M TlsError WB Nat := do
  let m ← maxBlockSize
  let w ← M.get
  if w.pos ≤ m then return m - w.pos else M.crash

/-- `write_buffer.rs:133-135` `contains`. -/
def contains (w : WB) (h : ClientRecordHeader) : Bool := w.header == some h

/-- `write_buffer.rs:159-166` `append`. -/
def append (bs : Bytes) : M TlsError WB Nat := do
  let sp ← space
  let n := min bs.length sp
  if n > 0 then do
    let w ← M.get
    if w.pos + n ≤ w.buffer.length then
      M.modify fun w => { w with buffer := CB.splice w.buffer w.pos (bs.take n), pos := w.pos + n }
    else M.crash
    return n
  else return n

/-- `write_buffer.rs:206-220` `with_buffer`: the closure works on the buffer itself, so what it wrote stays there
even if it fails; only the position is kept. -/
def withBuffer {τ : Type} (op : M TlsError (CB × τ) Unit) : M TlsError (WB × τ) Unit := fun (w, t) =>
  match op (CB.wrapWithPos w.buffer w.pos, t) with
  | (.ok (), (c, t')) => (.ok (), ({ w with buffer := c.buf, pos := c.len }, t'))
  | (.err e, (c, t')) => (.err e, ({ w with buffer := c.buf }, t'))
  | (.panic, (c, t')) => (.panic, ({ w with buffer := c.buf }, t'))

/-- `with_buffer` with a closure that does not touch any further state. -/
def withBuffer' (op : Enc Unit) : M TlsError WB Unit := fun w =>
  let (r, (w', _)) := withBuffer (τ := Unit) (onFst op) (w, ())
  (r, w')

/-- `write_buffer.rs:188-204` `start_record`, with its `debug_assert!`. -/
def startRecord (h : ClientRecordHeader) : M TlsError WB Unit := do
  let w ← M.get
  if w.header.isSome then M.crash
  else do
    M.modify fun w => { w with header := some h }
    withBuffer' (do
      h.encode
      CB.pushU16 0
      CB.rewind)

/-- `write_buffer.rs:222-257` `close_record`: the bytes of the finished record. -/
def closeRecord (wks : WriteKS) : M TlsError WB Bytes := do
  let w ← M.get
  match w.header with
  | none => M.crash
  | some h => do
    M.modify fun w => { w with header := none }
    withBuffer' (if h.isEncrypted then do
        (CB.push (UInt8.ofNat h.trailerContentType.code)).orEncodeError
        CB.setOffset 5
        encrypt S wks
        CB.rewind
      else pure ())
    let w ← M.get
    if w.pos < 5 ∨ w.buffer.length < 5 ∨ w.buffer.length < w.pos then M.crash
    else do
      let n := w.pos - 5
      M.modify fun w =>
        { w with buffer := (w.buffer.set 3 (UInt8.ofNat (n / 256))).set 4 (UInt8.ofNat n) }
      let w ← M.get
      M.modify fun w => { w with pos := 0, header := none }
      return w.buffer.take w.pos

/-- `write_buffer.rs:259-287` `write_record`, always called with `Some(read_key_schedule)` by the connection; the
second state component is the transcript. -/
def writeRecord (rec : ClientRecord) (wks : WriteKS) : M TlsError (WB × Bytes) Bytes := do
  let (w, _) ← M.get
  if w.header.isSome then M.fail .internalError
  else do
    onFst (startRecord rec.header)
    withBuffer (do
      onFst CB.forward
      onFst (rec.encodePayload S)
      rec.finishRecord S wks
      onFst CB.rewind)
    onFst (closeRecord S wks)

end WB

/-- `record.rs:146-151` `ServerRecord`. Application data carries the 5 header bytes, the position of the data inside
the read buffer, and the data. -/
inductive ServerRecord where
  | handshake (h : ServerHs)
  | changeCipherSpec
  | alert (a : Alert)
  | appData (header : Bytes) (start : Nat) (data : Bytes)
deriving DecidableEq, Repr

/-- `record.rs:153-163` `RecordHeader`, decoded: content type, length and the raw bytes. -/
structure RecordHeader where
  contentType : ContentType
  contentLength : Nat
  data : Bytes
deriving DecidableEq, Repr

/-- `record.rs:165-179` `RecordHeader::decode` with `content_type` and `content_length`. -/
def RecordHeader.decode (h : Bytes) : Res TlsError RecordHeader :=
  match h with
  | [a, _, _, d, e] =>
    match ContentType.of a.toNat with
    | none => .err .invalidRecord
    | some t => .ok ⟨t, d.toNat * 256 + e.toNat, h⟩
  | _ => .panic

/-- `record.rs:192-221` `ServerRecord::decode`: `start` is the position of `data` in the read buffer; the state is
the transcript. -/
def ServerRecord.decode (h : RecordHeader) (start : Nat) (data : Bytes) : M TlsError Bytes ServerRecord :=
  if h.contentLength ≠ data.length then M.crash
  else match h.contentType with
    | .invalid => M.fail .unimplemented
    | .changeCipherSpec => do
      M.lift (changeCipherSpecRead data)
      return .changeCipherSpec
    | .alert => fun tr => (((Alert.parse (PB.new data)).1).map .alert, tr)
    | .handshake => fun tr =>
      let (r, (_, tr')) := ServerHs.read S (PB.new data, tr)
      (r.map .handshake, tr')
    | .applicationData => return .appData h.data start data

end ETls
