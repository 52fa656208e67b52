import Verif.Model.Conn
import Verif.Spec.Reader
import Verif.Spec.Handshake

/-! # What `open` does with received bytes (C77)

The handshake as seen from the byte stream of the server: which bytes make it fail with which error, panic or succeed,
and what has been sent by then.  There are no buffers (only the size `cap` of the read buffer), offsets, chunks, fuel or
loops.  `none` stands for an error that is not named, one of those of the message decoders (`DecoderError`).  The verifier, the signer and the
client's certificate are those of the provider. -/

namespace ETls.Spec

variable (S : Suite) {V : Type}

/-! ## Records and alerts -/

/-- The next record: an error, or its content type, header and body, and the bytes after it. -/
inductive Frame where
  | error (e : TlsError)
  | record (type : UInt8) (header body rest : Bytes)

/-- Cutting the next record off the stream. -/
inductive Framed (cap : Nat) : Bytes → Frame → Prop where
  | end_ (input : Bytes) (h : input.length < 5) : Framed cap input (.error .ioError)
  | unknown (t v w : UInt8) (n : Nat) (rest : Bytes) (ht : ¬ Known contentTypes t.toNat) (hn : n < 65536) :
      Framed cap (header t v w n ++ rest) (.error .invalidRecord)
  | tooLarge (t v w : UInt8) (n : Nat) (rest : Bytes) (ht : Known contentTypes t.toNat) (hn : n < 65536) (hc : cap < n) :
      Framed cap (header t v w n ++ rest) (.error .insufficientSpace)
  | truncated (t v w : UInt8) (n : Nat) (rest : Bytes) (ht : Known contentTypes t.toNat) (hn : n < 65536) (hc : n ≤ cap)
      (hr : rest.length < n) : Framed cap (header t v w n ++ rest) (.error .ioError)
  | record (t v w : UInt8) (body rest : Bytes) (ht : Known contentTypes t.toNat) (hn : body.length < 65536)
      (hc : body.length ≤ cap) :
      Framed cap (header t v w body.length ++ body ++ rest) (.record t (header t v w body.length) body rest)

/-- Reading an alert. -/
inductive AlertRead : Bytes → Res TlsError (AlertLevel × AlertDescription) → Prop where
  | ok (l : AlertLevel) (d : AlertDescription) (x y : UInt8) (rest : Bytes) (hl : (l, x.toNat) ∈ alertLevels)
      (hd : (d, y.toNat) ∈ alertDescriptions) : AlertRead (x :: y :: rest) (.ok (l, d))
  | unknown (x y : UInt8) (rest : Bytes) (h : ¬ (Known alertLevels x.toNat ∧ Known alertDescriptions y.toNat)) :
      AlertRead (x :: y :: rest) (.err .decodeError)
  | short (bs : Bytes) (h : bs.length < 2) : AlertRead bs (.err (.parseError .insufficientBytes))

/-! ## The record after ClientHello -/

/-- What the first record holds: the ServerHello and the Diffie-Hellman result, or an error. -/
inductive HelloGot where
  | ok (sh dhe : Bytes)
  | error (e : Option TlsError)

/-- The first record, by its content type and body. -/
inductive HelloRecord (secret : Bytes) : UInt8 → Bytes → HelloGot → Prop where
  | invalid (body : Bytes) : HelloRecord secret 0 body (.error (some .unimplemented))
  | changeCipherSpec (body : Bytes) : HelloRecord secret 20 body (.error (some .invalidRecord))
  | alert (body : Bytes) (l : AlertLevel) (d : AlertDescription) (ha : AlertRead body (.ok (l, d))) :
      HelloRecord secret 21 body (.error (some (.handshakeAborted l d)))
  | badAlert (body : Bytes) (e : TlsError) (ha : AlertRead body (.err e)) : HelloRecord secret 21 body (.error (some e))
  | data (body : Bytes) : HelloRecord secret 23 body (.error (some .invalidRecord))
  | unreadable (body : Bytes) (hb : ∀ r rest, ¬ Begins S.hashLen r rest body) : HelloRecord secret 22 body (.error none)
  | other (r : RawMsg) (rest body : Bytes) (hb : Begins S.hashLen r rest body) (ht : r.type ≠ 2) :
      HelloRecord secret 22 body (.error (some .invalidHandshake))
  | noShare (r : RawMsg) (rest body : Bytes) (hb : Begins S.hashLen r rest body) (ht : r.type = 2)
      (hs : ∀ share, KeyShareOf r share → S.dh secret share = none) :
      HelloRecord secret 22 body (.error (some .invalidKeyShare))
  | serverHello (r : RawMsg) (sh rest share dhe : Bytes) (hb : Begins S.hashLen r rest (sh ++ rest))
      (hs : KeyShareOf r share) (hd : S.dh secret share = some dhe) : HelloRecord secret 22 (sh ++ rest) (.ok sh dhe)

/-! ## The records after ServerHello -/

/-- What is to be done next: receive more records, answer a CertificateRequest, or send the client's Finished (the
application secrets then being derived from the messages `t`). -/
inductive After where
  | waiting
  | certificate
  | finished (t : Bytes)

/-- What the client knows while it receives the server's flight: all messages so far, the context of the last
CertificateRequest, and the state of the verifier. -/
structure Flight (V : Type) where
  transcript : Bytes
  request : Option Bytes
  v : V
  after : After

/-- The flight with the message `m` added. -/
def Flight.heard (f : Flight V) (m : Bytes) : Flight V := { f with transcript := f.transcript ++ m }

/-- The flight after a call of the verifier. -/
def Flight.judged (f : Flight V) : Res TlsError Unit × V → Res TlsError (Flight V)
  | (.ok (), v) => .ok { f with v := v }
  | (.err e, _) => .err e
  | (.panic, _) => .panic

/-- The client takes note of the message `r`, whose bytes are `m`; `secret` is the server's handshake traffic secret. -/
inductive Hears (p : Provider V) (secret : Bytes) (f : Flight V) (m : Bytes) : RawMsg → Res TlsError (Flight V) → Prop where
  | extensions (xs : List RawExt) : Hears p secret f m (.encryptedExtensions xs) (.ok (f.heard m))
  | uncheckedCertificate (ctx : Bytes) (es : List (Bytes × List RawExt)) (hv : p.verifier = none) :
      Hears p secret f m (.certificate ctx es) (.ok (f.heard m))
  /-- the verifier is given all messages up to and including this one, and the certificates -/
  | certificate (ctx : Bytes) (es : List (Bytes × List RawExt)) (ops : VerifierOps V) (hv : p.verifier = some ops) :
      Hears p secret f m (.certificate ctx es) ((f.heard m).judged (ops.verifyCertificate (f.transcript ++ m)
        ⟨es.flatMap certEntryBytes, ctx, es.map fun e => .x509 e.1⟩ f.v))
  | uncheckedSignature (s : Nat) (sig : Bytes) (hv : p.verifier = none) :
      Hears p secret f m (.certificateVerify s sig) (.ok (f.heard m))
  | signature (s : Nat) (sig : Bytes) (x : SignatureScheme) (ops : VerifierOps V) (hv : p.verifier = some ops)
      (hx : (x, s) ∈ signatureSchemes) :
      Hears p secret f m (.certificateVerify s sig) ((f.heard m).judged (ops.verifySignature ⟨x, sig⟩ f.v))
  | request (ctx : Bytes) (xs : List RawExt) :
      Hears p secret f m (.certificateRequest ctx xs) (.ok { f.heard m with request := some ctx })
  /-- the MAC is over all messages before this one -/
  | forged (vd : Bytes) (h : vd ≠ verifyData S secret f.transcript) :
      Hears p secret f m (.finished vd) (.err .invalidSignature)
  | finished (vd : Bytes) (h : vd = verifyData S secret f.transcript) (hr : f.request = none) :
      Hears p secret f m (.finished vd) (.ok { f.heard m with after := .finished (f.transcript ++ m) })
  | finishedRequested (vd : Bytes) (h : vd = verifyData S secret f.transcript) (hr : f.request ≠ none) :
      Hears p secret f m (.finished vd) (.ok { f.heard m with after := .certificate })
  | unexpected (r : RawMsg) (h : r.type = 2 ∨ r.type = 4) : Hears p secret f m r (.err .invalidHandshake)

/-- The outcome of receiving: the flight so far, an error found while reading a record, an error found while dealing
with it (an alert may be sent then), or a panic. -/
inductive Got (V : Type) where
  | ok (f : Flight V)
  | error (e : Option TlsError)
  | refused (e : Option TlsError)
  | abort

/-- The outcome of taking note of a message. -/
def Got.of : Res TlsError (Flight V) → Got V
  | .ok f => .ok f
  | .err e => .refused (some e)
  | .panic => .abort

/-- The content of a protected handshake record: messages one after the other. -/
inductive FlightMsgs (p : Provider V) (secret : Bytes) : Bytes → Flight V → Got V → Prop where
  | done (f : Flight V) : FlightMsgs p secret [] f (.ok f)
  | next (r : RawMsg) (m rest : Bytes) (f f1 : Flight V) (g : Got V) (hb : Begins S.hashLen r rest (m ++ rest))
      (hh : Hears S p secret f m r (.ok f1)) (hr : FlightMsgs p secret rest f1 g) : FlightMsgs p secret (m ++ rest) f g
  | stop (r : RawMsg) (m rest : Bytes) (f : Flight V) (x : Res TlsError (Flight V))
      (hb : Begins S.hashLen r rest (m ++ rest)) (hh : Hears S p secret f m r x) (hx : ∀ f1, x ≠ .ok f1) :
      FlightMsgs p secret (m ++ rest) f (.of x)
  | unreadable (bytes : Bytes) (f : Flight V) (hne : bytes ≠ []) (hb : ∀ r rest, ¬ Begins S.hashLen r rest bytes) :
      FlightMsgs p secret bytes f (.refused none)

/-- The inner plaintext of an authentic record. -/
inductive FlightInner (p : Provider V) (secret : Bytes) (f : Flight V) : Bytes → Got V → Prop where
  | empty : FlightInner p secret f [] .abort
  | zeros (n : Nat) (hn : 0 < n) : FlightInner p secret f (List.replicate n 0) (.refused (some .unimplemented))
  | data (content : Bytes) (padding : Nat) :
      FlightInner p secret f (Fragment.inner ⟨23, content, padding⟩) (.refused (some .invalidRecord))
  | handshake (content : Bytes) (padding : Nat) (g : Got V) (hm : FlightMsgs S p secret content f g) :
      FlightInner p secret f (Fragment.inner ⟨22, content, padding⟩) g
  | alert (content : Bytes) (padding : Nat) (a : AlertLevel × AlertDescription) (ha : AlertRead content (.ok a)) :
      FlightInner p secret f (Fragment.inner ⟨21, content, padding⟩) (.refused (some .invalidRecord))
  | badAlert (content : Bytes) (padding : Nat) (e : TlsError) (ha : AlertRead content (.err e)) :
      FlightInner p secret f (Fragment.inner ⟨21, content, padding⟩) (.refused (some e))
  | changeCipherSpec (content : Bytes) (padding : Nat) :
      FlightInner p secret f (Fragment.inner ⟨20, content, padding⟩) (.refused (some .unimplemented))
  | unknown (x : Fragment) (ht : ¬ Known contentTypes x.type.toNat) :
      FlightInner p secret f x.inner (.refused (some .invalidRecord))

/-- A record of the server's flight, by its content type, header and body, when the next protected record has number
`seq`; and the number of the protected record after it. -/
inductive FlightStep (p : Provider V) (secret : Bytes) (seq : Nat) (f : Flight V) :
    UInt8 → Bytes → Bytes → Got V → Nat → Prop where
  | invalid (hdr body : Bytes) : FlightStep p secret seq f 0 hdr body (.error (some .unimplemented)) seq
  | changeCipherSpec (hdr body : Bytes) : FlightStep p secret seq f 20 hdr body (.ok f) seq
  | alert (hdr body : Bytes) (a : AlertLevel × AlertDescription) (ha : AlertRead body (.ok a)) :
      FlightStep p secret seq f 21 hdr body (.refused (some .invalidRecord)) seq
  | badAlert (hdr body : Bytes) (e : TlsError) (ha : AlertRead body (.err e)) :
      FlightStep p secret seq f 21 hdr body (.error (some e)) seq
  /-- an unprotected message is taken like a protected one; what follows it in the record is not looked at -/
  | plain (hdr m rest : Bytes) (r : RawMsg) (x : Res TlsError (Flight V)) (hb : Begins S.hashLen r rest (m ++ rest))
      (hh : Hears S p secret f m r x) : FlightStep p secret seq f 22 hdr (m ++ rest) (.of x) seq
  | unreadable (hdr body : Bytes) (hb : ∀ r rest, ¬ Begins S.hashLen r rest body) :
      FlightStep p secret seq f 22 hdr body (.error none) seq
  | forged (hdr body : Bytes) (ho : S.open_ (writeKey S secret) (nonce (writeIv S secret) seq) hdr body = none) :
      FlightStep p secret seq f 23 hdr body (.refused (some .cryptoError)) seq
  | authentic (hdr body pt : Bytes) (f1 : Flight V)
      (ho : S.open_ (writeKey S secret) (nonce (writeIv S secret) seq) hdr body = some pt)
      (hi : FlightInner S p secret f pt (.ok f1)) (hs : seq + 1 < 2 ^ 64) :
      FlightStep p secret seq f 23 hdr body (.ok f1) (seq + 1)
  | exhausted (hdr body pt : Bytes) (f1 : Flight V)
      (ho : S.open_ (writeKey S secret) (nonce (writeIv S secret) seq) hdr body = some pt)
      (hi : FlightInner S p secret f pt (.ok f1)) (hs : 2 ^ 64 ≤ seq + 1) :
      FlightStep p secret seq f 23 hdr body .abort seq
  | refused (hdr body pt : Bytes) (g : Got V)
      (ho : S.open_ (writeKey S secret) (nonce (writeIv S secret) seq) hdr body = some pt)
      (hi : FlightInner S p secret f pt g) (hg : ∀ f1, g ≠ .ok f1) : FlightStep p secret seq f 23 hdr body g seq

/-- Receiving records until one with a Finished has been dealt with; the bytes left over are given on success. -/
inductive Flights (p : Provider V) (secret : Bytes) (cap : Nat) : Nat → Bytes → Flight V → Got V → Bytes → Prop where
  | fault (seq : Nat) (input : Bytes) (f : Flight V) (e : TlsError) (hf : Framed cap input (.error e)) :
      Flights p secret cap seq input f (.error (some e)) []
  | stop (seq seq' : Nat) (input : Bytes) (f : Flight V) (t : UInt8) (hdr body rest : Bytes) (g : Got V)
      (hf : Framed cap input (.record t hdr body rest)) (hr : FlightStep S p secret seq f t hdr body g seq')
      (hg : ∀ f1, g ≠ .ok f1) : Flights p secret cap seq input f g []
  | last (seq seq' : Nat) (input : Bytes) (f f1 : Flight V) (t : UInt8) (hdr body rest : Bytes)
      (hf : Framed cap input (.record t hdr body rest)) (hr : FlightStep S p secret seq f t hdr body (.ok f1) seq')
      (hw : f1.after ≠ .waiting) : Flights p secret cap seq input f (.ok f1) rest
  | more (seq seq' : Nat) (input : Bytes) (f f1 : Flight V) (t : UInt8) (hdr body rest left : Bytes) (g : Got V)
      (hf : Framed cap input (.record t hdr body rest)) (hr : FlightStep S p secret seq f t hdr body (.ok f1) seq')
      (hw : f1.after = .waiting) (hm : Flights p secret cap seq' rest f1 g left) :
      Flights p secret cap seq input f g left

/-! ## The client's answer -/

/-- The client's messages before its Finished and the messages the application secrets are derived from; or an error
after some messages and a protected close_notify alert; or a panic after some messages. -/
inductive Reply where
  | done (ms : List Bytes) (t : Bytes)
  | error (ms : List Bytes) (e : TlsError)
  | abort (ms : List Bytes)

/-- The longest signature the client can send. -/
def signatureLimit : Nat := if S.rsa then 512 else 104

/-- The client's answer to the server's flight. -/
inductive Replies (p : Provider V) (f : Flight V) : Reply → Prop where
  | finished (t : Bytes) (ha : f.after = .finished t) : Replies p f (.done [] t)
  | noCertificate (ctx : Bytes) (ha : f.after = .certificate) (hc : f.request = some ctx) (hp : p.clientCert = none) :
      Replies p f (.done [certificateMsg ctx []] f.transcript)
  | rawKey (ctx key : Bytes) (ha : f.after = .certificate) (hc : f.request = some ctx)
      (hp : p.clientCert = some (.rawPublicKey key)) : Replies p f (.abort [])
  | signed (ctx cert : Bytes) (sign : Bytes → Option Bytes) (scheme : SignatureScheme) (code : Nat) (sig : Bytes)
      (ha : f.after = .certificate)
      (hc : f.request = some ctx) (hp : p.clientCert = some (.x509 cert)) (hs : p.signer = .ok (sign, scheme))
      (hx : (scheme, code) ∈ signatureSchemes)
      (hg : sign (clientSigned S (f.transcript ++ certificateMsg ctx [cert])) = some sig)
      (hl : sig.length ≤ signatureLimit S) :
      Replies p f (.done [certificateMsg ctx [cert], certificateVerifyMsg code sig] f.transcript)
  | noSignature (ctx cert : Bytes) (sign : Bytes → Option Bytes) (scheme : SignatureScheme) (ha : f.after = .certificate)
      (hc : f.request = some ctx) (hp : p.clientCert = some (.x509 cert)) (hs : p.signer = .ok (sign, scheme))
      (hg : ∀ sig, sign (clientSigned S (f.transcript ++ certificateMsg ctx [cert])) = some sig →
        signatureLimit S < sig.length) : Replies p f (.abort [certificateMsg ctx [cert]])
  | noSigner (ctx cert : Bytes) (e : TlsError) (ha : f.after = .certificate)
      (hc : f.request = some ctx) (hp : p.clientCert = some (.x509 cert)) (hs : p.signer = .err e) :
      Replies p f (.error [certificateMsg ctx [cert]] e)
  | badSigner (ctx cert : Bytes) (ha : f.after = .certificate)
      (hc : f.request = some ctx) (hp : p.clientCert = some (.x509 cert)) (hs : p.signer = .panic) :
      Replies p f (.abort [certificateMsg ctx [cert]])

/-! ## `open` -/

/-- How `open` ends, and the records sent by then.  After a `refusal` there may be one more record, an alert. -/
inductive OpenEnd where
  /-- success: the Diffie-Hellman result, the messages the application secrets are derived from, the bytes not read -/
  | opened (sent : List Bytes) (dhe t rest : Bytes)
  | error (sent : List Bytes) (e : Option TlsError)
  | refusal (sent : List Bytes) (e : Option TlsError)
  | abort (sent : List Bytes)

/-- The alert sent after an error: only one that names an alert, unprotected, and in a record of content type 20
(change_cipher_spec) instead of 21 (DESIGN.md, finding on C40, C44). -/
inductive Told : TlsError → List Bytes → Prop where
  | alert (l : AlertLevel) (d : AlertDescription) (x y : Nat) (hl : (l, x) ∈ alertLevels) (hd : (d, y) ∈ alertDescriptions) :
      Told (.abortHandshake l d) [plaintextRecord 20 [3, 1] [UInt8.ofNat x, UInt8.ofNat y]]
  | nothing (e : TlsError) (h : ∀ l d, e ≠ .abortHandshake l d) : Told e []

/-- The verifier has been told the host name. -/
inductive Named (p : Provider V) (v : V) : Option Bytes → Res TlsError V → Prop where
  | noVerifier (name : Option Bytes) (hv : p.verifier = none) : Named p v name (.ok v)
  | noName (hv : p.verifier ≠ none) : Named p v none (.ok v)
  | accepted (ops : VerifierOps V) (name : Bytes) (v' : V) (hv : p.verifier = some ops)
      (h : ops.setHostname name v = (.ok (), v')) : Named p v (some name) (.ok v')
  | rejected (ops : VerifierOps V) (name : Bytes) (v' : V) (e : TlsError) (hv : p.verifier = some ops)
      (h : ops.setHostname name v = (.err e, v')) : Named p v (some name) (.err e)
  | panics (ops : VerifierOps V) (name : Bytes) (v' : V) (hv : p.verifier = some ops)
      (h : ops.setHostname name v = (.panic, v')) : Named p v (some name) .panic

/-- `open` with the server name `name`, the pre-shared key `psk` and the ClientHello `hello`, on a stream of bytes. -/
inductive Opens (p : Provider V) (v : V) (name psk : Option Bytes) (hello : Bytes) (cap : Nat) (input : Bytes) :
    OpenEnd → Prop where
  | badName (e : TlsError) (hn : Named p v name (.err e)) : Opens p v name psk hello cap input (.error [] (some e))
  | nameAbort (hn : Named p v name .panic) : Opens p v name psk hello cap input (.abort [])
  | noRecord (v0 : V) (e : TlsError) (hn : Named p v name (.ok v0)) (hf : Framed cap input (.error e)) :
      Opens p v name psk hello cap input (.error [plaintextRecord 22 [3, 1] hello] (some e))
  | noHello (v0 : V) (t : UInt8) (hdr body rest : Bytes) (e : Option TlsError) (hn : Named p v name (.ok v0))
      (hf : Framed cap input (.record t hdr body rest)) (hh : HelloRecord S p.secret t body (.error e)) :
      Opens p v name psk hello cap input (.error [plaintextRecord 22 [3, 1] hello] e)
  | flightError (v0 : V) (t : UInt8) (hdr body rest sh dhe left : Bytes) (e : Option TlsError) (hn : Named p v name (.ok v0))
      (hf : Framed cap input (.record t hdr body rest)) (hh : HelloRecord S p.secret t body (.ok sh dhe))
      (hs : Flights S p (serverHandshakeTraffic S psk dhe (hello ++ sh)) cap 0 rest ⟨hello ++ sh, none, v0, .waiting⟩
        (.error e) left) :
      Opens p v name psk hello cap input (.error [plaintextRecord 22 [3, 1] hello] e)
  | flightRefused (v0 : V) (t : UInt8) (hdr body rest sh dhe left : Bytes) (e : Option TlsError)
      (hn : Named p v name (.ok v0))
      (hf : Framed cap input (.record t hdr body rest)) (hh : HelloRecord S p.secret t body (.ok sh dhe))
      (hs : Flights S p (serverHandshakeTraffic S psk dhe (hello ++ sh)) cap 0 rest ⟨hello ++ sh, none, v0, .waiting⟩
        (.refused e) left) :
      Opens p v name psk hello cap input (.refusal [plaintextRecord 22 [3, 1] hello] e)
  | flightAbort (v0 : V) (t : UInt8) (hdr body rest sh dhe left : Bytes) (hn : Named p v name (.ok v0))
      (hf : Framed cap input (.record t hdr body rest)) (hh : HelloRecord S p.secret t body (.ok sh dhe))
      (hs : Flights S p (serverHandshakeTraffic S psk dhe (hello ++ sh)) cap 0 rest ⟨hello ++ sh, none, v0, .waiting⟩
        .abort left) :
      Opens p v name psk hello cap input (.abort [plaintextRecord 22 [3, 1] hello])
  | replyError (v0 : V) (t : UInt8) (hdr body rest sh dhe left secret : Bytes) (f : Flight V) (ms : List Bytes) (e : TlsError)
      (hn : Named p v name (.ok v0))
      (hf : Framed cap input (.record t hdr body rest)) (hh : HelloRecord S p.secret t body (.ok sh dhe))
      (hs : Flights S p (serverHandshakeTraffic S psk dhe (hello ++ sh)) cap 0 rest ⟨hello ++ sh, none, v0, .waiting⟩
        (.ok f) left) (hr : Replies S p f (.error ms e)) (hc : secret = clientHandshakeTraffic S psk dhe (hello ++ sh)) :
      Opens p v name psk hello cap input (.error (plaintextRecord 22 [3, 1] hello ::
        ciphertextRecords S (writeKey S secret) (writeIv S secret) 0 (ms.map (fun m => (22, m)) ++ [(21, [1, 0])])) (some e))
  | replyAbort (v0 : V) (t : UInt8) (hdr body rest sh dhe left secret : Bytes) (f : Flight V) (ms : List Bytes)
      (hn : Named p v name (.ok v0))
      (hf : Framed cap input (.record t hdr body rest)) (hh : HelloRecord S p.secret t body (.ok sh dhe))
      (hs : Flights S p (serverHandshakeTraffic S psk dhe (hello ++ sh)) cap 0 rest ⟨hello ++ sh, none, v0, .waiting⟩
        (.ok f) left) (hr : Replies S p f (.abort ms)) (hc : secret = clientHandshakeTraffic S psk dhe (hello ++ sh)) :
      Opens p v name psk hello cap input (.abort (plaintextRecord 22 [3, 1] hello ::
        handshakeRecords S (writeKey S secret) (writeIv S secret) 0 ms))
  | opened (v0 : V) (t : UInt8) (hdr body rest sh dhe left secret tr : Bytes) (f : Flight V) (ms : List Bytes)
      (hn : Named p v name (.ok v0))
      (hf : Framed cap input (.record t hdr body rest)) (hh : HelloRecord S p.secret t body (.ok sh dhe))
      (hs : Flights S p (serverHandshakeTraffic S psk dhe (hello ++ sh)) cap 0 rest ⟨hello ++ sh, none, v0, .waiting⟩
        (.ok f) left) (hr : Replies S p f (.done ms tr)) (hc : secret = clientHandshakeTraffic S psk dhe (hello ++ sh)) :
      Opens p v name psk hello cap input (.opened (plaintextRecord 22 [3, 1] hello ::
        handshakeRecords S (writeKey S secret) (writeIv S secret) 0
          (ms ++ [finishedMsg (verifyData S secret (f.transcript ++ ms.flatten))])) dhe tr left)

end ETls.Spec
