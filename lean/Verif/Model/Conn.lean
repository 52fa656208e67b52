import Verif.Model.RecordReader

/-! # The connection: handshake state machine (`src/connection.rs`) and API (`src/asynch.rs`, `src/blocking.rs`)

`blocking.rs` is `asynch.rs` with the `.await`s removed; one model stands for both (see `Model/Blocking.lean`, C120). -/

namespace ETls

variable (S : Suite)

/-- `common/decrypted_buffer_info.rs:4-8` `DecryptedBufferInfo`. -/
structure DecInfo where
  offset : Nat
  len : Nat
  consumed : Nat
deriving DecidableEq, Repr

/-- `decrypted_buffer_info.rs:17-23` `is_empty` (`len - consumed` does not underflow: `consumed ≤ len` is an
invariant). -/
def DecInfo.isEmpty (d : DecInfo) : Bool := d.len - d.consumed == 0

/-- `flush_policy.rs` `FlushPolicy`. -/
inductive FlushPolicy where
  | relaxed
  | strict
deriving DecidableEq, Repr

/-- `flush_policy.rs` `flush_transport`. -/
def FlushPolicy.flushTransport : FlushPolicy → Bool
  | .relaxed => false
  | .strict => true

/-- `asynch.rs:23-35` `TlsConnection`; the socket is split into its two directions. -/
structure Conn where
  rx : Rx
  tx : Tx
  opened : Bool
  ks : KeySchedule
  rr : RR
  wb : WB
  dec : DecInfo
  fp : FlushPolicy
deriving DecidableEq, Repr

/-- What `TlsReader` (`asynch.rs:349-358`) has access to. -/
structure RdHalf where
  rx : Rx
  opened : Bool
  rks : ReadKS
  rr : RR
  dec : DecInfo
deriving DecidableEq, Repr

/-- What `TlsWriter` (`asynch.rs:415-424`) has access to. -/
structure WrHalf where
  tx : Tx
  opened : Bool
  wks : WriteKS
  wb : WB
  fp : FlushPolicy
deriving DecidableEq, Repr

/-- `asynch.rs:56-70` `TlsConnection::new`. -/
def Conn.new (rx : Rx) (tx : Tx) (readBuf writeBuf : Bytes) : Res TlsError Conn :=
  (WB.new writeBuf).map fun wb =>
    { rx := rx, tx := tx, opened := false, ks := KeySchedule.new S, rr := RR.new readBuf, wb := wb,
      dec := ⟨0, 0, 0⟩, fp := .strict }

/-- The reading half of a connection. -/
def Conn.rd (c : Conn) : RdHalf := ⟨c.rx, c.opened, c.ks.server, c.rr, c.dec⟩
/-- Put a reading half back. -/
def Conn.setRd (c : Conn) (r : RdHalf) : Conn :=
  { c with rx := r.rx, opened := r.opened, ks := { c.ks with server := r.rks }, rr := r.rr, dec := r.dec }
/-- The writing half of a connection. -/
def Conn.wr (c : Conn) : WrHalf := ⟨c.tx, c.opened, c.ks.client, c.wb, c.fp⟩
/-- Put a writing half back. -/
def Conn.setWr (c : Conn) (w : WrHalf) : Conn :=
  { c with tx := w.tx, opened := w.opened, ks := { c.ks with client := w.wks }, wb := w.wb, fp := w.fp }

/-- Run a reading operation on a connection. -/
def onRd {α : Type} (m : M TlsError RdHalf α) : M TlsError Conn α := fun c =>
  let (r, h) := m c.rd
  (r, c.setRd h)

/-- Run a writing operation on a connection. -/
def onWr {α : Type} (m : M TlsError WrHalf α) : M TlsError Conn α := fun c =>
  let (r, h) := m c.wr
  (r, c.setWr h)

/-- Run an operation of the transport's sending side. -/
def WrHalf.onTx {α : Type} (m : M TlsError Tx α) : M TlsError WrHalf α := fun w =>
  let (r, t) := m w.tx
  (r, { w with tx := t })

/-- Run an operation of the write buffer. -/
def WrHalf.onWb {α : Type} (m : M TlsError WB α) : M TlsError WrHalf α := fun w =>
  let (r, b) := m w.wb
  (r, { w with wb := b })

/-- Increment the write counter. -/
def WrHalf.increment : M TlsError WrHalf Unit := fun w =>
  let (r, k) := WriteKS.increment w.wks
  (r, { w with wks := k })

/-! ## Writing -/

/-- `asynch.rs:523-540` `TlsWriter::flush`, the same text as `164-182` `TlsConnection::flush`. -/
def WrHalf.flush : M TlsError WrHalf Unit := do
  let w ← M.get
  if w.wb.isEmpty then return ()
  else do
    let slice ← WrHalf.onWb (WB.closeRecord S w.wks)
    WrHalf.onTx (Tx.writeAll slice)
    WrHalf.increment
    if w.fp.flushTransport then WrHalf.onTx Tx.flush else return ()

/-- `asynch.rs:502-507` (`141-146`): make sure an application-data record is open. -/
def WrHalf.ensureRecord : M TlsError WrHalf Unit := do
  let w ← M.get
  if w.wb.contains .applicationData then pure () else do
    WrHalf.flush S
    WrHalf.onWb (WB.startRecord .applicationData)

/-- `asynch.rs:511-513` (`150-152`). -/
def WrHalf.flushIf (full : Bool) : M TlsError WrHalf Unit := if full then WrHalf.flush S else pure ()

/-- `asynch.rs:500-521` `TlsWriter::write`, the same text as `139-160` `TlsConnection::write`. -/
def WrHalf.write (bs : Bytes) : M TlsError WrHalf Nat := do
  let w ← M.get
  if w.opened then do
    WrHalf.ensureRecord S
    let n ← WrHalf.onWb (WB.append bs)
    let full ← WrHalf.onWb WB.isFull
    WrHalf.flushIf S full
    return n
  else M.fail .missingHandshake

/-- `asynch.rs:86-88` `set_flush_policy`. -/
def WrHalf.setFlushPolicy (p : FlushPolicy) : M TlsError WrHalf Unit := M.modify fun w => { w with fp := p }

/-- `asynch.rs:139-160` `TlsConnection::write`. -/
def Conn.write (bs : Bytes) : M TlsError Conn Nat := onWr (WrHalf.write S bs)

/-- `asynch.rs:164-182` `TlsConnection::flush`. -/
def Conn.flush : M TlsError Conn Unit := onWr (WrHalf.flush S)

/-- `WriteBuffer::write_record` on a connection, with the transcript of its read key schedule. -/
def Conn.writeRecord (rec : ClientRecord) : M TlsError Conn Bytes := fun c =>
  let (r, (wb, tr)) := WB.writeRecord S rec c.ks.client (c.wb, c.ks.server.transcript)
  (r, { c with wb := wb, ks := { c.ks with server := { c.ks.server with transcript := tr } } })

/-- `asynch.rs:244-263` `close_internal` (`266-271` `close` then hands the socket back in either case). -/
def Conn.close : M TlsError Conn Unit := do
  Conn.flush S
  let c ← M.get
  let slice ← Conn.writeRecord S (ClientRecord.closeNotify c.opened)
  onWr (WrHalf.onTx (Tx.writeAll slice))
  onWr WrHalf.increment
  onWr (WrHalf.onTx Tx.flush)

/-! ## Reading -/

/-- `common/decrypted_read_handler.rs:15-63` `DecryptedReadHandler::handle`; the captured state is the buffer info
and the open flag.  `bufLen` is the length of the read buffer, for the `debug_assert!`. -/
def readHandler (bufLen : Nat) : ServerRecord → M TlsError (ReadKS × (DecInfo × Bool)) Unit
  | .appData _ start data => fun (k, (d, o)) =>
    if start < bufLen ∧ start + data.length < bufLen then (.ok (), (k, (⟨start, data.length, 0⟩, o)))
    else (.panic, (k, (d, o)))
  | .alert a => fun (k, (d, o)) =>
    if a.description = .closeNotify then (.err .connectionClosed, (k, (d, false)))
    else (.err .internalError, (k, (d, o)))
  | .changeCipherSpec => M.fail .internalError
  | .handshake .newSessionTicket => pure ()
  | .handshake _ => M.crash

/-- `RecordReader::read` on a reading half. -/
def RdHalf.readRecord : M TlsError RdHalf ServerRecord := fun h =>
  let (r, s) := ETls.readRecord S ⟨h.rr, h.rx, h.rks.transcript⟩
  (r, { h with rr := s.rr, rx := s.rx, rks := { h.rks with transcript := s.transcript } })

/-- `decrypt_record` on a reading half with the read handler. -/
def RdHalf.decrypt (rec : ServerRecord) : M TlsError RdHalf Unit := fun h =>
  let (r, s) := decryptRecord S (readHandler h.rr.buf.length) rec ⟨h.rks, h.rr.buf, (h.dec, h.opened)⟩
  (r, { h with rks := s.rks, rr := { h.rr with buf := s.buf }, dec := s.ext.1, opened := s.ext.2 })

/-- `asynch.rs:391-412` `TlsReader::read_application_data` (and `222-241` `TlsConnection::read_application_data`). -/
def RdHalf.readApplicationData : M TlsError RdHalf Unit := do
  let rec ← RdHalf.readRecord S
  RdHalf.decrypt S rec

/-- Bound on the number of records a finite input can hold. -/
def Rx.size : Rx → Nat
  | [] => 0
  | .data bs :: r => bs.length + 1 + Rx.size r
  | .err _ :: r => 1 + Rx.size r

/-- The loop of `asynch.rs:381-383` (`212-214`). -/
def RdHalf.fillLoop : Nat → M TlsError RdHalf Unit
  | 0 => M.crash
  | fuel + 1 => do
    let h ← M.get
    if h.dec.isEmpty then do
      RdHalf.readApplicationData S
      RdHalf.fillLoop fuel
    else return ()

/-- `asynch.rs:379-389` `read_buffered` up to the creation of the read buffer. -/
def RdHalf.fill : M TlsError RdHalf Unit := do
  let h ← M.get
  if h.opened then RdHalf.fillLoop S (h.rx.size + 2) else M.fail .missingHandshake

/-- `decrypted_buffer_info.rs:11-15` the bytes of `create_read_buffer`; the slice panics if out of bounds. -/
def RdHalf.available : M TlsError RdHalf Bytes := fun h =>
  let o := h.dec.offset + h.dec.consumed
  let e := h.dec.offset + h.dec.len
  if o ≤ e ∧ e ≤ h.rr.buf.length then (.ok ((h.rr.buf.drop o).take (e - o)), h) else (.panic, h)

/-- Advance the consumed counter (`read_buffer.rs:86-96`, the drop of a `ReadBuffer`). -/
def RdHalf.consumed (n : Nat) : M TlsError RdHalf Unit :=
  M.modify fun h => { h with dec := { h.dec with consumed := h.dec.consumed + n } }

/-- `asynch.rs:468-478` `TlsReader::read` (and `197-207` `TlsConnection::read`) into a buffer of `n` bytes, with
`pop_into` and the drop of the read buffer: returns the bytes copied. -/
def RdHalf.read (n : Nat) : M TlsError RdHalf Bytes := do
  if n = 0 then return []
  else do
    RdHalf.fill S
    let d ← RdHalf.available
    let k := min d.length n
    RdHalf.consumed k
    return d.take k

/-- `asynch.rs:486-488` (`326-328`) `BufRead::fill_buf`: `read_buffered` then `peek_all`; dropping the used read
buffer consumes nothing. -/
def RdHalf.fillBuf : M TlsError RdHalf Bytes := do
  RdHalf.fill S
  RdHalf.available

/-- `asynch.rs:490-492` (`330-332`) `BufRead::consume`: `create_read_buffer().pop(amt)`. -/
def RdHalf.consume (amt : Nat) : M TlsError RdHalf Unit := do
  let d ← RdHalf.available
  RdHalf.consumed (min d.length amt)

/-- `asynch.rs:197-207` `TlsConnection::read`. -/
def Conn.read (n : Nat) : M TlsError Conn Bytes := onRd (RdHalf.read S n)
/-- `asynch.rs:326-328`. -/
def Conn.fillBuf : M TlsError Conn Bytes := onRd (RdHalf.fillBuf S)
/-- `asynch.rs:330-332`. -/
def Conn.consume (amt : Nat) : M TlsError Conn Unit := onRd (RdHalf.consume amt)

/-! ## Handshake -/

/-- `config.rs:70-92` `TlsVerifier` as operations on a verifier state `V`. -/
structure VerifierOps (V : Type) where
  setHostname : Bytes → M TlsError V Unit
  /-- the transcript is the running hash, i.e. the bytes absorbed so far -/
  verifyCertificate : Bytes → CertMsg → M TlsError V Unit
  verifySignature : CertVerify → M TlsError V Unit

/-- `config.rs:141-171` `CryptoProvider`: the random bytes and ephemeral secret drawn from `rng()`, the optional
verifier, the signer (or its error) and the client certificate.  Signing gives `none` if the `try_sign` of the signer fails. -/
structure Provider (V : Type) where
  random : Bytes
  secret : Bytes
  verifier : Option (VerifierOps V)
  signer : Res TlsError ((Bytes → Option Bytes) × SignatureScheme)
  clientCert : Option CertEntry

/-- `connection.rs:131-138` `Handshake`, plus the state of the verifier. -/
structure HsData (V : Type) where
  trafficHash : Option Bytes
  secret : Option Bytes
  certReq : Option Bytes
  vst : V

/-- `connection.rs:155-163` `State`. -/
inductive State where
  | clientHello | serverHello | serverVerify | clientCert | clientCertVerify | clientFinished | applicationData
deriving DecidableEq, Repr

/-- State of the handshake: the connection and the local `Handshake`. -/
structure HSt (V : Type) where
  c : Conn
  h : HsData V

variable {V : Type}

/-- Lift an operation on the connection. -/
def onConn {α : Type} (m : M TlsError Conn α) : M TlsError (HSt V) α := fun s =>
  let (r, c) := m s.c
  (r, { s with c := c })

/-- Lift an operation on the key schedule. -/
def onKs {α : Type} (m : M TlsError KeySchedule α) : M TlsError (HSt V) α := fun s =>
  let (r, k) := m s.c.ks
  (r, { s with c := { s.c with ks := k } })

/-- Update the handshake data. -/
def modHs (f : HsData V → HsData V) : M TlsError (HSt V) Unit := M.modify fun s => { s with h := f s.h }

/-- `connection.rs:364-385` `respond` (and `322-339` `respond_blocking`). -/
def respond (tx : Bytes) : M TlsError Conn Unit := do
  onWr (WrHalf.onTx (Tx.writeAll tx))
  onWr WrHalf.increment
  onWr (WrHalf.onTx Tx.flush)

/-- `connection.rs:341-362` `handle_processing_error` (and `299-320`). -/
def handleProcessingError (result : Res TlsError State) : M TlsError Conn State := do
  match result with
  | .err (.abortHandshake l d) => do
    let tx ← Conn.writeRecord S (.alert ⟨l, d⟩ false)
    respond tx
    M.lift result
  | r => M.lift r

/-- `connection.rs:387-408` `client_hello`. -/
def clientHello (cfg : Config) (p : Provider V) : M TlsError (HSt V) (State × Bytes) := do
  onKs (KeySchedule.initializeEarlySecret S (cfg.psk.map (·.1)))
  let slice ← onConn (Conn.writeRecord S (.handshake (.clientHello ⟨cfg, p.random, p.secret⟩) false))
  modHs fun h => { h with secret := some p.secret }
  return (.serverHello, slice)

/-- `connection.rs:410-436` `process_server_hello`. -/
def processServerHello (rec : ServerRecord) : M TlsError (HSt V) State :=
  match rec with
  | .handshake (.serverHello exts) => do
    let s ← M.get
    match s.h.secret with
    | none => M.fail .invalidHandshake
    | some secret => do
      modHs fun h => { h with secret := none }
      match serverHelloSharedSecret S exts secret with
      | none => M.fail .invalidKeyShare
      | some shared => do
        onKs (KeySchedule.initializeHandshakeSecret S shared)
        return .serverVerify
  | .handshake _ => M.fail .invalidHandshake
  | .alert a => M.fail (.handshakeAborted a.level a.description)
  | _ => M.fail .invalidRecord

/-- Run a verifier operation on the verifier state. -/
def onVerifier {α : Type} (m : M TlsError V α) : M TlsError (ReadKS × (HsData V × State)) α :=
  fun (k, (h, st)) =>
    let (r, v) := m h.vst
    (r, (k, ({ h with vst := v }, st)))

/-- `connection.rs:448-497`, the callback of `process_server_verify`; it captures the handshake data and the local
variable `state`. -/
def serverVerifyHandler (p : Provider V) : ServerRecord → M TlsError (ReadKS × (HsData V × State)) Unit
  | .handshake .encryptedExtensions => pure ()
  | .handshake (.certificate c) => do
    let (k, _) ← M.get
    match p.verifier with
    | some ops => onVerifier (ops.verifyCertificate k.transcript c)
    | none => pure ()
  | .handshake (.certificateVerify v) =>
    match p.verifier with
    | some ops => onVerifier (ops.verifySignature v)
    | none => pure ()
  | .handshake (.certificateRequest ctx) => do
    let owned ← M.lift (certRequestOwned ctx)
    M.modify fun (k, (h, st)) => (k, ({ h with certReq := some owned }, st))
  | .handshake (.finished f) => do
    let (k, (h, _)) ← M.get
    let good ← M.lift (k.verifyServerFinished S f)
    if good then
      if h.certReq.isSome then M.modify fun (k, (h, _)) => (k, (h, .clientCert))
      else M.modify fun (k, (h, _)) => (k, ({ h with trafficHash := some k.transcript }, .clientFinished))
    else M.fail .invalidSignature
  | .handshake _ => M.fail .invalidHandshake
  | .changeCipherSpec => pure ()
  | _ => M.fail .invalidRecord

/-- `connection.rs:438-499` `process_server_verify`. -/
def processServerVerify (p : Provider V) (rec : ServerRecord) : M TlsError (HSt V) State := fun s =>
  let (r, d) := decryptRecord S (serverVerifyHandler S p) rec ⟨s.c.ks.server, s.c.rr.buf, (s.h, State.serverVerify)⟩
  let s' : HSt V :=
    { c := { s.c with ks := { s.c.ks with server := d.rks }, rr := { s.c.rr with buf := d.buf } }, h := d.ext.1 }
  (r.map fun _ => d.ext.2, s')

/-- `connection.rs:515-527`: the state after the Certificate message. -/
def nextAfterCert : Option CertEntry → State
  | some _ => .clientCertVerify
  | none => .clientFinished

/-- `connection.rs:501-538` `client_cert`; the certificate list holds the configured certificate, if any. -/
def clientCert (p : Provider V) : M TlsError (HSt V) (State × Bytes) := do
  let s ← M.get
  modHs fun h => { h with trafficHash := some s.c.ks.server.transcript }
  match s.h.certReq with
  | none => M.fail .invalidHandshake
  | some ctx => do
    let slice ← onConn (Conn.writeRecord S (.handshake (.clientCert ⟨[], ctx, p.clientCert.toList⟩) true))
    return (nextAfterCert p.clientCert, slice)

/-- `handshake/certificate_verify.rs:38-41` `SIGNATURE_SIZE`. -/
def signatureSize : Nat := if S.rsa then 512 else 104

/-- `connection.rs:550-558`: the content covered by the client's signature. -/
def clientSignedContent (transcript : Bytes) : Bytes :=
  List.replicate 64 0x20 ++ (ascii "TLS 1.3, client CertificateVerify" ++ [0]) ++ S.hash transcript

/-- `connection.rs:540-598` `client_cert_verify`; `Signer::sign` panics if `try_sign` fails (the crate `signature`), and
`Vec::from_slice(..).unwrap()` on a signature longer than `SIGNATURE_SIZE`. -/
def clientCertVerify (p : Provider V) : M TlsError (HSt V) (Res TlsError State × Bytes) := do
  let s ← M.get
  match p.signer with
  | .panic => M.crash
  | .ok (sign, scheme) =>
    let msg := clientSignedContent S s.c.ks.server.transcript
    if msg.length > 146 then M.fail .encodeError
    else
      match sign msg with
      | none => M.crash
      | some sig =>
        if sig.length > signatureSize S then M.crash
        else do
          let slice ← onConn (Conn.writeRecord S (.handshake (.clientCertVerify ⟨scheme, sig⟩) true))
          return (.ok .clientFinished, slice)
  | .err e => do
    let slice ← onConn (Conn.writeRecord S (.alert ⟨.warning, .closeNotify⟩ true))
    return (.err e, slice)

/-- `connection.rs:600-618` `client_finished`. -/
def clientFinished : M TlsError (HSt V) Bytes := do
  let s ← M.get
  let f ← M.lift ((s.c.ks.createClientFinished S).mapErr fun _ => .invalidHandshake)
  onConn (Conn.writeRecord S (.handshake (.finished f) true))

/-- `connection.rs:620-636` `client_finished_finalize`. -/
def clientFinishedFinalize : M TlsError (HSt V) State := do
  let s ← M.get
  match s.h.trafficHash with
  | none => M.fail .invalidHandshake
  | some t => do
    modHs fun h => { h with trafficHash := none }
    onKs (M.modify (KeySchedule.replaceTranscript t))
    onKs (KeySchedule.initializeMasterSecret S)
    return .applicationData

/-- `handle_processing_error` applied to the outcome of `m`. -/
def withErrorHandling (m : M TlsError (HSt V) State) : M TlsError (HSt V) State := fun s =>
  let (r, s') := m s
  onConn (handleProcessingError S r) s'

/-- `connection.rs:167-232` `State::process` (and `235-296` `process_blocking`). -/
def process (cfg : Config) (p : Provider V) : State → M TlsError (HSt V) State
  | .clientHello => do
    let (st, tx) ← clientHello S cfg p
    onConn (respond tx)
    return st
  | .serverHello => do
    let rec ← onConn (onRd (RdHalf.readRecord S))
    withErrorHandling S (processServerHello S rec)
  | .serverVerify => do
    let rec ← onConn (onRd (RdHalf.readRecord S))
    withErrorHandling S (processServerVerify S p rec)
  | .clientCert => do
    let (st, tx) ← clientCert S p
    onConn (respond tx)
    return st
  | .clientCertVerify => do
    let (r, tx) ← clientCertVerify S p
    onConn (respond tx)
    M.lift r
  | .clientFinished => do
    let tx ← clientFinished S
    onConn (respond tx)
    clientFinishedFinalize S
  | .applicationData => return .applicationData

/-- The loop of `asynch.rs:111-125`. -/
def openLoop (cfg : Config) (p : Provider V) : Nat → State → M TlsError (HSt V) Unit
  | 0, _ => M.crash
  | fuel + 1, st =>
    if st = .applicationData then return ()
    else do
      let st' ← process S cfg p st
      openLoop cfg p fuel st'

/-- `asynch.rs:102-108`: tell the verifier the host name. -/
def setHostname (cfg : Config) (p : Provider V) : M TlsError (HSt V) Unit :=
  match p.verifier, cfg.serverName with
  | some ops, some name => fun s =>
    let (r, v) := ops.setHostname name s.h.vst
    (r, { s with h := { s.h with vst := v } })
  | _, _ => pure ()

/-- `asynch.rs:95-129` `open` on the connection and the local handshake data. -/
def openSt (cfg : Config) (p : Provider V) : M TlsError (HSt V) Unit := do
  setHostname cfg p
  let s ← M.get
  openLoop S cfg p (s.c.rx.size + 8) .clientHello
  M.modify fun s => { s with c := { s.c with opened := true } }

/-- `asynch.rs:95-129` `TlsConnection::open`; `v` is the state of the provider's verifier. -/
def Conn.open_ (cfg : Config) (p : Provider V) (v : V) : M TlsError Conn Unit := fun c =>
  let (r, s) := openSt S cfg p ⟨c, ⟨none, none, none, v⟩⟩
  (r, s.c)

end ETls
