import Verif.Model.Extensions
import Verif.Model.KeySchedule

/-! # `src/handshake`: messages -/

namespace ETls

variable (S : Suite)

/-- `config.rs:120-127` `TlsConfig` (strings are bytes). -/
structure Config where
  serverName : Option Bytes
  alpn : Option (List Bytes)
  psk : Option (Bytes × List Bytes)
  signatureSchemes : List SignatureScheme
  namedGroups : List NamedGroup
  maxFragmentLength : Option MaxFragmentLength
deriving DecidableEq, Repr

/-- `handshake/client_hello.rs:27-35` `ClientHello`. -/
structure ClientHello where
  config : Config
  random : Bytes
  secret : Bytes

/-- `for`-like optional encoding: `if let Some(x) = o { f(x)?; }`. -/
def encOpt {α : Type} (f : α → Enc Unit) : Option α → Enc Unit
  | none => pure ()
  | some x => f x

/-- `handshake/client_hello.rs:82-146`: the extensions of the ClientHello, in order. -/
def ClientHello.encodeExtensions (h : ClientHello) : Enc Unit := do
  (Ext.mk .supportedVersions (.supportedVersionsCH [0x0304])).encode
  (Ext.mk .signatureAlgorithms (.signatureAlgorithms h.config.signatureSchemes)).encode
  encOpt (fun m => (Ext.mk .maxFragmentLength (.maxFragmentLength m)).encode) h.config.maxFragmentLength
  (Ext.mk .supportedGroups (.supportedGroups h.config.namedGroups)).encode
  (Ext.mk .pskKeyExchangeModes (.pskModes [.pskDheKe])).encode
  (Ext.mk .keyShare (.keyShareCH [⟨.secp256r1, S.pubKey h.secret⟩])).encode
  encOpt (fun n => (Ext.mk .serverName (.serverNameList [n])).encode) h.config.serverName
  encOpt (fun ps => (Ext.mk .alpn (.alpn ps)).encode) h.config.alpn
  encOpt (fun p => (Ext.mk .preSharedKey (.preSharedKeyCH p.2 S.hashLen)).encode) h.config.psk

/-- `handshake/client_hello.rs:56-149` `ClientHello::encode`. -/
def ClientHello.encode (h : ClientHello) : Enc Unit := do
  (CB.pushU16 0x0303).orEncodeError
  (CB.extend h.random).orEncodeError
  (CB.push 0).orEncodeError
  (CB.pushU16 2).orEncodeError
  (CB.pushU16 S.codePoint).orEncodeError
  (CB.push 1).orEncodeError
  (CB.push 0).orEncodeError
  CB.withU16Length (h.encodeExtensions S)

/-- `handshake/binder.rs:26-33` `PskBinder::encode`. -/
def pskBinderEncode (verify : Bytes) : Enc Unit := do
  (CB.push (UInt8.ofNat verify.length)).orEncodeError
  (CB.extend verify).orEncodeError

/-- `handshake/client_hello.rs:176-179`: one binder per identity. -/
def bindersEncode (w : WriteKS) (transcript : Bytes) : List Bytes → Enc Unit
  | [] => pure ()
  | _ :: ids => do
    let b ← M.lift (w.createPskBinder S transcript)
    pskBinderEncode b
    bindersEncode w transcript ids

/-- `handshake/client_hello.rs:151-187` `ClientHello::finalize`; the state is the encoded message and the transcript.
The two subtractions panic on underflow. -/
def ClientHello.finalize (h : ClientHello) (w : WriteKS) : M TlsError (Bytes × Bytes) Unit := fun (enc, tr) =>
  match h.config.psk with
  | none => (.ok (), (enc, tr ++ enc))
  | some (_, ids) =>
    let bindersLen := ids.length * (1 + S.hashLen)
    if enc.length < bindersLen + 2 then (.panic, (enc, tr))
    else
      let pos := enc.length - bindersLen
      let tr1 := tr ++ enc.take (pos - 2)
      let (r, c) := bindersEncode S w tr1 ids (CB.wrap (enc.drop pos))
      let enc1 := enc.take pos ++ c.buf
      match r with
      | .ok () => (.ok (), (enc1, tr1 ++ enc1.drop (pos - 2)))
      | .err e => (.err e, (enc1, tr1))
      | .panic => (.panic, (enc1, tr1))

/-- `handshake/certificate.rs:66-69` `CertificateEntryRef`. -/
inductive CertEntry where
  | x509 (data : Bytes)
  | rawPublicKey (data : Bytes)
deriving DecidableEq, Repr

/-- `handshake/certificate.rs:9-14` `CertificateRef`. -/
structure CertMsg where
  rawEntries : Bytes
  requestContext : Bytes
  entries : List CertEntry
deriving DecidableEq, Repr

/-- `handshake/certificate.rs:72-86` `CertificateEntryRef::parse`. -/
def CertEntry.parse : PT CertEntry := do
  let n ← PB.readU24.orErr .invalidCertificateEntry
  let cert ← (PB.slice n).orErr .invalidCertificateEntry
  let _ ← extParseVector certificateGroup 2
  return .x509 cert.buffer

/-- `handshake/certificate.rs:88-100` `parse_vector::<N>`. -/
def CertEntry.parseVector (cap : Nat) (p : PB) : Res TlsError (List CertEntry) :=
  (PB.readListLoop cap .decodeError CertEntry.parse (p.buffer.length + 1) [] p).1

/-- `handshake/certificate.rs:32-49` `CertificateRef::parse`. -/
def CertMsg.parse : PT CertMsg := do
  let n ← PB.readU8.orErr .invalidCertificate
  let ctx ← (PB.slice n).orErr .invalidCertificate
  let m ← PB.readU24.orErr .invalidCertificate
  let raw ← (PB.slice m).orErr .invalidCertificate
  let entries ← M.lift (CertEntry.parseVector 16 raw)
  return ⟨raw.buffer, ctx.buffer, entries⟩

/-- `handshake/certificate.rs:102-116` `CertificateEntryRef::encode`; a raw public key is `todo!()`. -/
def CertEntry.encode : CertEntry → Enc Unit
  | .rawPublicKey _ => M.crash
  | .x509 c => do
    CB.withU24Length (CB.extend c)
    CB.pushU16 0

/-- `handshake/certificate.rs:51-61` `CertificateRef::encode`. -/
def CertMsg.encode (c : CertMsg) : Enc Unit := do
  CB.withU8Length (CB.extend c.requestContext)
  CB.withU24Length (encAll CertEntry.encode c.entries)

/-- `handshake/certificate_verify.rs:9-12,45-48`. -/
structure CertVerify where
  scheme : SignatureScheme
  signature : Bytes
deriving DecidableEq, Repr

/-- `handshake/certificate_verify.rs:15-28` `CertificateVerifyRef::parse`. -/
def CertVerify.parse : PT CertVerify := do
  let s ← SignatureScheme.parse.orErr .invalidSignatureScheme
  let n ← PB.readU16.orErr .invalidSignature
  let sig ← (PB.slice n).orErr .invalidSignature
  return ⟨s, sig.buffer⟩

/-- `handshake/certificate_verify.rs:51-55` `CertificateVerify::encode`. -/
def CertVerify.encode (v : CertVerify) : Enc Unit := do
  CB.pushU16 v.scheme.code
  CB.withU16Length (CB.extend v.signature)

/-- `handshake/certificate_request.rs:13-28` `CertificateRequestRef::parse`: the request context. -/
def certRequestParse : PT Bytes := do
  let n ← PB.readU8.orErr .invalidCertificateRequest
  let ctx ← (PB.slice n).orErr .invalidCertificateRequest
  let _ ← extParseVector certificateRequestGroup 6
  return ctx.buffer

/-- `handshake/certificate_request.rs:37-50` conversion to an owned value of capacity 256. -/
def certRequestOwned (ctx : Bytes) : Res TlsError Bytes :=
  if ctx.length ≤ 256 then .ok ctx else .err .insufficientSpace

/-- `handshake/server_hello.rs:19-54` `ServerHello::parse`: only the extensions are kept. -/
def serverHelloParse : PT (List Ext) := do
  let _ ← PB.readU16.orErr .invalidHandshake
  let _ ← (PB.fill 32).toT
  let n ← PB.readU8.orErr .invalidSessionIdLength
  let _ ← (PB.slice n).orErr .invalidSessionIdLength
  let _ ← CipherSuite.parse.orErr .invalidCipherSuite
  let _ ← PB.readU8.toT
  extParseVector serverHelloGroup 4

/-- `handshake/server_hello.rs:56-64` `key_share`: the first key share. -/
def serverHelloKeyShare : List Ext → Option KeyShareEntry
  | [] => none
  | ⟨_, .keyShareSH s⟩ :: _ => some s
  | _ :: es => serverHelloKeyShare es

/-- `handshake/server_hello.rs:66-70` `calculate_shared_secret`. -/
def serverHelloSharedSecret (exts : List Ext) (secret : Bytes) : Option Bytes :=
  (serverHelloKeyShare exts).bind fun s => S.dh secret s.opaq

/-- `handshake/new_session_ticket.rs:14-32` `NewSessionTicket::parse`. -/
def newSessionTicketParse : PT Unit := do
  let _ ← PB.readU32.toT
  let _ ← PB.readU32.toT
  let n ← PB.readU8.toT
  let _ ← (PB.slice n).orErr .invalidNonceLength
  let m ← PB.readU16.toT
  let _ ← (PB.slice m).orErr .invalidTicketLength
  let _ ← extParseVector newSessionTicketGroup 1
  return ()

/-- `handshake/encrypted_extensions.rs:15-18`. -/
def encryptedExtensionsParse : PT Unit := do
  let _ ← extParseVector encryptedExtensionsGroup 16
  return ()

/-- `handshake/finished.rs:30-43` `Finished::parse`. -/
def finishedParse : PT Finished := do
  let v ← (PB.fill S.hashLen).toT
  return ⟨v, none⟩

/-- `handshake/mod.rs:130-138` `ServerHandshake`. -/
inductive ServerHs where
  | serverHello (exts : List Ext)
  | encryptedExtensions
  | newSessionTicket
  | certificate (c : CertMsg)
  | certificateRequest (ctx : Bytes)
  | certificateVerify (v : CertVerify)
  | finished (f : Finished)
deriving DecidableEq, Repr

/-- `handshake/mod.rs:202-240` `ServerHandshake::parse`; the 24-bit length is read and not used. -/
def ServerHs.parse : PT ServerHs := do
  let t ← HandshakeType.parse.orErr .invalidHandshake
  let _ ← PB.readU24.orErr .invalidHandshake
  match t with
  | .serverHello => return .serverHello (← serverHelloParse)
  | .newSessionTicket => do
    newSessionTicketParse
    return .newSessionTicket
  | .encryptedExtensions => do
    encryptedExtensionsParse
    return .encryptedExtensions
  | .certificate => return .certificate (← CertMsg.parse)
  | .certificateRequest => return .certificateRequest (← certRequestParse)
  | .certificateVerify => return .certificateVerify (← CertVerify.parse)
  | .finished => return .finished (← finishedParse S)
  | _ => M.fail .unimplemented

/-- `handshake/mod.rs:185-200` `ServerHandshake::read`; the state is the parse buffer and the transcript. -/
def ServerHs.read : M TlsError (PB × Bytes) ServerHs := fun (p, tr) =>
  match ServerHs.parse S p with
  | (.ok h, p') =>
    let h' := match h with
      | .finished f => .finished { f with hash := some (S.hash tr) }
      | h => h
    (.ok h', (p', tr ++ (p'.buffer.drop p.pos).take (p'.pos - p.pos)))
  | (.err e, p') => (.err e, (p', tr))
  | (.panic, p') => (.panic, (p', tr))

/-- `handshake/mod.rs:68-76` `ClientHandshake`. -/
inductive ClientHs where
  | clientCert (c : CertMsg)
  | clientCertVerify (v : CertVerify)
  | clientHello (h : ClientHello)
  | finished (f : Finished)

/-- `handshake/mod.rs:82-89`. -/
def ClientHs.type : ClientHs → HandshakeType
  | .clientHello _ => .clientHello
  | .finished _ => .finished
  | .clientCert _ => .certificate
  | .clientCertVerify _ => .certificateVerify

/-- `handshake/mod.rs:91-98` (with `finished.rs:45-51`). -/
def ClientHs.encodeInner : ClientHs → Enc Unit
  | .clientHello h => h.encode S
  | .finished f => (CB.extend f.verify).orEncodeError
  | .clientCert c => c.encode
  | .clientCertVerify v => v.encode

/-- `handshake/mod.rs:100-105` `ClientHandshake::encode`. -/
def ClientHs.encode (h : ClientHs) : Enc Unit := do
  (CB.push (UInt8.ofNat h.type.code)).orEncodeError
  CB.withU24Length (h.encodeInner S)

end ETls
