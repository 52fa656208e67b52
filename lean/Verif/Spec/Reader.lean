import Verif.Spec.Record
import Verif.Spec.Readable
import Verif.Spec.Stream

/-! # What an open connection does with received bytes (C76)

A reader of a byte stream: the bytes still to come, the number of the next protected record and the application data not
yet read.  There is no buffer here, only its size `cap`, and there are no chunks, offsets or loops.  What happens is
given by relations; `none` stands for an error that is not named, one of those of the message decoders
(`DecoderError`). -/

namespace ETls.Spec

variable (S : Suite)

/-! ## Errors -/

/-- The errors a message that cannot be decoded gives rise to; one of them names an alert (for an extension that is not
allowed in that message). -/
inductive DecoderError : TlsError → Prop where
  | handshake : DecoderError .invalidHandshake
  /-- a message of a type the client has no use for -/
  | otherType : DecoderError .unimplemented
  | sessionId : DecoderError .invalidSessionIdLength
  | cipherSuite : DecoderError .invalidCipherSuite
  | extensions : DecoderError .invalidExtensionsLength
  | unknownExtension : DecoderError .unknownExtensionType
  | notAllowed : DecoderError (.abortHandshake .fatal .illegalParameter)
  | certificate : DecoderError .invalidCertificate
  | certificateEntry : DecoderError .invalidCertificateEntry
  | certificateRequest : DecoderError .invalidCertificateRequest
  | scheme : DecoderError .invalidSignatureScheme
  | signature : DecoderError .invalidSignature
  | nonce : DecoderError .invalidNonceLength
  | ticket : DecoderError .invalidTicketLength
  | decode : DecoderError .decodeError
  | parse (e : ParseError) : DecoderError (.parseError e)

/-- The error `y` is the one that `e` stands for. -/
def Stands : Option TlsError → TlsError → Prop
  | some z, y => y = z
  | none, y => DecoderError y

/-! ## Records -/

/-- What a record tells an open connection. -/
inductive Effect where
  /-- application data -/
  | data (content : Bytes)
  /-- session tickets, which are ignored -/
  | ticket
  /-- the peer closes -/
  | closed
  /-- an error -/
  | error (e : Option TlsError)
  /-- a panic -/
  | abort
deriving DecidableEq

/-- The record has been dealt with. -/
def Effect.Done : Effect → Prop
  | .data _ => True
  | .ticket => True
  | _ => False

/-- `bytes` begins with a handshake message that can be read (its length field is not looked at); `rest` follows. -/
def Begins (hashLen : Nat) (r : RawMsg) (rest bytes : Bytes) : Prop :=
  r.WellSized hashLen ∧ r.Readable ∧ ∃ n, n < 16777216 ∧ bytes = r.type :: (be24 n ++ r.body) ++ rest

/-- The content of a protected handshake record: session tickets, one after the other. -/
inductive Messages (hashLen : Nat) : Bytes → Effect → Prop where
  | done : Messages hashLen [] .ticket
  | ticket (r : RawMsg) (rest bytes : Bytes) (e : Effect) (hb : Begins hashLen r rest bytes) (ht : r.type = 4)
      (hr : Messages hashLen rest e) : Messages hashLen bytes e
  | other (r : RawMsg) (rest bytes : Bytes) (hb : Begins hashLen r rest bytes) (ht : r.type ≠ 4) :
      Messages hashLen bytes .abort
  | unreadable (bytes : Bytes) (hne : bytes ≠ []) (hb : ∀ r rest, ¬ Begins hashLen r rest bytes) :
      Messages hashLen bytes (.error none)

/-- The content of an unprotected handshake record: one message, what follows is not looked at. -/
inductive Message (hashLen : Nat) : Bytes → Effect → Prop where
  | ticket (r : RawMsg) (rest bytes : Bytes) (hb : Begins hashLen r rest bytes) (ht : r.type = 4) :
      Message hashLen bytes .ticket
  | other (r : RawMsg) (rest bytes : Bytes) (hb : Begins hashLen r rest bytes) (ht : r.type ≠ 4) :
      Message hashLen bytes .abort
  | unreadable (bytes : Bytes) (hb : ∀ r rest, ¬ Begins hashLen r rest bytes) : Message hashLen bytes (.error none)

/-- The content of an alert record. -/
inductive AlertContent : Bytes → Effect → Prop where
  | close (l : UInt8) (rest : Bytes) (hl : Known alertLevels l.toNat) : AlertContent (l :: 0 :: rest) .closed
  | other (l d : UInt8) (rest : Bytes) (hl : Known alertLevels l.toNat) (hd : Known alertDescriptions d.toNat)
      (h0 : d ≠ 0) : AlertContent (l :: d :: rest) (.error (some .internalError))
  | unknown (l d : UInt8) (rest : Bytes) (h : ¬ (Known alertLevels l.toNat ∧ Known alertDescriptions d.toNat)) :
      AlertContent (l :: d :: rest) (.error (some .decodeError))
  | short (bs : Bytes) (h : bs.length < 2) : AlertContent bs (.error (some (.parseError .insufficientBytes)))

/-- The inner plaintext of an authentic record. -/
inductive Inner (hashLen : Nat) : Bytes → Effect → Prop where
  | empty : Inner hashLen [] .abort
  | zeros (n : Nat) (hn : 0 < n) : Inner hashLen (List.replicate n 0) (.error (some .unimplemented))
  | data (content : Bytes) (padding : Nat) : Inner hashLen (Fragment.inner ⟨23, content, padding⟩) (.data content)
  | handshake (content : Bytes) (padding : Nat) (e : Effect) (hm : Messages hashLen content e) :
      Inner hashLen (Fragment.inner ⟨22, content, padding⟩) e
  | alert (content : Bytes) (padding : Nat) (e : Effect) (ha : AlertContent content e) :
      Inner hashLen (Fragment.inner ⟨21, content, padding⟩) e
  | changeCipherSpec (content : Bytes) (padding : Nat) :
      Inner hashLen (Fragment.inner ⟨20, content, padding⟩) (.error (some .unimplemented))
  | unknown (f : Fragment) (ht : ¬ Known contentTypes f.type.toNat) :
      Inner hashLen f.inner (.error (some .invalidRecord))

/-- The place in the stream: the number of the next protected record and the bytes still to come. -/
structure Place where
  seq : Nat
  input : Bytes
deriving DecidableEq

/-- The header of a record. -/
def header (t v w : UInt8) (n : Nat) : Bytes := [t, v, w] ++ u16 n

/-- Receiving one record at a place, with a read buffer of `cap` bytes. -/
inductive Next (key iv : Bytes) (cap : Nat) : Place → Effect → Place → Prop where
  /-- the stream ends before or in the header -/
  | end_ (seq : Nat) (input : Bytes) (h : input.length < 5) :
      Next key iv cap ⟨seq, input⟩ (.error (some .ioError)) ⟨seq, []⟩
  | unknown (seq : Nat) (t v w : UInt8) (n : Nat) (rest : Bytes) (ht : ¬ Known contentTypes t.toNat) (hn : n < 65536) :
      Next key iv cap ⟨seq, header t v w n ++ rest⟩ (.error (some .invalidRecord)) ⟨seq, rest⟩
  /-- the body stays where it is -/
  | tooLarge (seq : Nat) (t v w : UInt8) (n : Nat) (rest : Bytes) (ht : Known contentTypes t.toNat) (hn : n < 65536)
      (hc : cap < n) : Next key iv cap ⟨seq, header t v w n ++ rest⟩ (.error (some .insufficientSpace)) ⟨seq, rest⟩
  /-- the stream ends in the body -/
  | truncated (seq : Nat) (t v w : UInt8) (n : Nat) (rest : Bytes) (ht : Known contentTypes t.toNat) (hn : n < 65536)
      (hc : n ≤ cap) (hr : rest.length < n) :
      Next key iv cap ⟨seq, header t v w n ++ rest⟩ (.error (some .ioError)) ⟨seq, []⟩
  | invalid (seq : Nat) (v w : UInt8) (body rest : Bytes) (hn : body.length < 65536) (hc : body.length ≤ cap) :
      Next key iv cap ⟨seq, header 0 v w body.length ++ body ++ rest⟩ (.error (some .unimplemented)) ⟨seq, rest⟩
  | changeCipherSpec (seq : Nat) (v w : UInt8) (body rest : Bytes) (hn : body.length < 65536) (hc : body.length ≤ cap) :
      Next key iv cap ⟨seq, header 20 v w body.length ++ body ++ rest⟩ (.error (some .internalError)) ⟨seq, rest⟩
  | alert (seq : Nat) (v w : UInt8) (body rest : Bytes) (e : Effect) (hn : body.length < 65536)
      (hc : body.length ≤ cap) (ha : AlertContent body e) :
      Next key iv cap ⟨seq, header 21 v w body.length ++ body ++ rest⟩ e ⟨seq, rest⟩
  | handshake (seq : Nat) (v w : UInt8) (body rest : Bytes) (e : Effect) (hn : body.length < 65536)
      (hc : body.length ≤ cap) (hm : Message S.hashLen body e) :
      Next key iv cap ⟨seq, header 22 v w body.length ++ body ++ rest⟩ e ⟨seq, rest⟩
  | forged (seq : Nat) (v w : UInt8) (body rest : Bytes) (hn : body.length < 65536) (hc : body.length ≤ cap)
      (ho : S.open_ key (nonce iv seq) (header 23 v w body.length) body = none) :
      Next key iv cap ⟨seq, header 23 v w body.length ++ body ++ rest⟩ (.error (some .cryptoError)) ⟨seq, rest⟩
  | authentic (seq : Nat) (v w : UInt8) (body rest pt : Bytes) (e : Effect) (hn : body.length < 65536)
      (hc : body.length ≤ cap) (ho : S.open_ key (nonce iv seq) (header 23 v w body.length) body = some pt)
      (hi : Inner S.hashLen pt e) (hd : e.Done) (hs : seq + 1 < 2 ^ 64) :
      Next key iv cap ⟨seq, header 23 v w body.length ++ body ++ rest⟩ e ⟨seq + 1, rest⟩
  /-- the sequence number would wrap -/
  | exhausted (seq : Nat) (v w : UInt8) (body rest pt : Bytes) (e : Effect) (hn : body.length < 65536)
      (hc : body.length ≤ cap) (ho : S.open_ key (nonce iv seq) (header 23 v w body.length) body = some pt)
      (hi : Inner S.hashLen pt e) (hd : e.Done) (hs : 2 ^ 64 ≤ seq + 1) :
      Next key iv cap ⟨seq, header 23 v w body.length ++ body ++ rest⟩ .abort ⟨seq, rest⟩
  | refused (seq : Nat) (v w : UInt8) (body rest pt : Bytes) (e : Effect) (hn : body.length < 65536)
      (hc : body.length ≤ cap) (ho : S.open_ key (nonce iv seq) (header 23 v w body.length) body = some pt)
      (hi : Inner S.hashLen pt e) (hd : ¬ e.Done) :
      Next key iv cap ⟨seq, header 23 v w body.length ++ body ++ rest⟩ e ⟨seq, rest⟩

/-- Waiting for application data: records without any are passed over. -/
inductive Fill (key iv : Bytes) (cap : Nat) : Place → Effect → Place → Prop where
  | here (p p' : Place) (e : Effect) (hn : Next S key iv cap p e p') (h1 : e ≠ .data []) (h2 : e ≠ .ticket) :
      Fill key iv cap p e p'
  | skip (p p1 p' : Place) (e1 e : Effect) (hn : Next S key iv cap p e1 p1) (h1 : e1 = .data [] ∨ e1 = .ticket)
      (hf : Fill key iv cap p1 e p') : Fill key iv cap p e p'

/-- A reader: whether the connection is open, the application data not yet read, the place in the stream. -/
structure Reader where
  opened : Bool
  cur : Bytes
  place : Place
deriving DecidableEq

/-- The result of a call: the slices handed out and the bytes taken, or an error, or a panic. -/
inductive Result where
  | ok (slices : List Bytes) (taken : Bytes)
  | error (e : Option TlsError)
  | abort
deriving DecidableEq

/-- What a call does with the available data: looks and takes. -/
def ReadCall.uses : ReadCall → List BufCall × Bool
  | .read n => ([.pop n], false)
  | .fillBuf => ([.peekAll], false)
  | .consume n => ([.pop n], false)
  | .buffered cs rv => (cs, rv)

/-- Whether a call waits for data. -/
def ReadCall.Waits : ReadCall → Prop
  | .read n => n ≠ 0
  | .consume _ => False
  | _ => True

/-- The result of using `d`. -/
def ReadCall.gives (c : ReadCall) (d : Bytes) : Result := .ok (borrow c.uses.1 c.uses.2 d).1 (borrow c.uses.1 c.uses.2 d).2

/-- What is left of `d`. -/
def ReadCall.leaves (c : ReadCall) (d : Bytes) : Bytes := d.drop (borrow c.uses.1 c.uses.2 d).2.length

/-- One call. -/
inductive Call (key iv : Bytes) (cap : Nat) : ReadCall → Reader → Result → Reader → Prop where
  | nothing (s : Reader) : Call key iv cap (.read 0) s (.ok [[]] []) s
  | consume (n : Nat) (s : Reader) : Call key iv cap (.consume n) s ((ReadCall.consume n).gives s.cur)
      { s with cur := (ReadCall.consume n).leaves s.cur }
  | notOpen (c : ReadCall) (s : Reader) (hw : c.Waits) (ho : s.opened = false) :
      Call key iv cap c s (.error (some .missingHandshake)) s
  | available (c : ReadCall) (s : Reader) (hw : c.Waits) (ho : s.opened = true) (hc : s.cur ≠ []) :
      Call key iv cap c s (c.gives s.cur) { s with cur := c.leaves s.cur }
  | data (c : ReadCall) (p p' : Place) (d : Bytes) (hw : c.Waits) (hf : Fill S key iv cap p (.data d) p') :
      Call key iv cap c ⟨true, [], p⟩ (c.gives d) ⟨true, c.leaves d, p'⟩
  | closed (c : ReadCall) (p p' : Place) (hw : c.Waits) (hf : Fill S key iv cap p .closed p') :
      Call key iv cap c ⟨true, [], p⟩ (.error (some .connectionClosed)) ⟨false, [], p'⟩
  | error (c : ReadCall) (p p' : Place) (e : Option TlsError) (hw : c.Waits) (hf : Fill S key iv cap p (.error e) p') :
      Call key iv cap c ⟨true, [], p⟩ (.error e) ⟨true, [], p'⟩
  | abort (c : ReadCall) (p p' : Place) (hw : c.Waits) (hf : Fill S key iv cap p .abort p') :
      Call key iv cap c ⟨true, [], p⟩ .abort ⟨true, [], p'⟩

/-- A history of calls: errors do not end it, a panic does. -/
inductive Calls (key iv : Bytes) (cap : Nat) : List ReadCall → Reader → List Result → Option Reader → Prop where
  | nil (s : Reader) : Calls key iv cap [] s [] (some s)
  | cons (c : ReadCall) (cs : List ReadCall) (s s1 : Reader) (r : Result) (rs : List Result) (s' : Option Reader)
      (hc : Call S key iv cap c s r s1) (hr : r ≠ .abort) (hs : Calls key iv cap cs s1 rs s') :
      Calls key iv cap (c :: cs) s (r :: rs) s'
  | abort (c : ReadCall) (cs : List ReadCall) (s s1 : Reader) (hc : Call S key iv cap c s .abort s1) :
      Calls key iv cap (c :: cs) s [.abort] none

end ETls.Spec
