import Verif.Spec.ServerMessages
import Verif.Spec.ClientMessages

/-! # A TLS 1.3 handshake as seen on the wire

Which records were received, which handshake messages they carry, and what was sent.  Only byte strings, the message
layouts of RFC 8446 and the primitives of the suite are mentioned. -/

namespace ETls.Spec

variable (S : Suite)

/-- `m` is the message `r`; the value of the 24-bit length field is left open. -/
def Encodes (m : Bytes) (r : RawMsg) : Prop := ∃ n, n < 16777216 ∧ m = r.type :: (be24 n ++ r.body)

/-- The handshake messages carried by a record received after ServerHello, when the next protected record has number
`seq`, and by how much the number advances. -/
inductive Carries (key iv : Bytes) (seq : Nat) : Bytes → List Bytes → Nat → Prop where
  /-- an unprotected handshake record; what follows the first message is not looked at -/
  | plain (v1 v2 : UInt8) (m junk : Bytes) (h : (m ++ junk).length < 65536) :
      Carries key iv seq (plaintextRecord 22 [v1, v2] (m ++ junk)) [m] 0
  /-- a protected record whose content is handshake messages -/
  | encrypted (v1 v2 : UInt8) (ct : Bytes) (ms : List Bytes) (padding : Nat) (h : ct.length < 65536)
      (ho : S.open_ key (nonce iv seq) ([23, v1, v2] ++ u16 ct.length) ct = some (Fragment.mk 22 ms.flatten padding).inner) :
      Carries key iv seq ([23, v1, v2] ++ u16 ct.length ++ ct) ms 1
  /-- change_cipher_spec carries nothing -/
  | changeCipherSpec (v1 v2 : UInt8) (payload : Bytes) (h : payload.length < 65536) :
      Carries key iv seq (plaintextRecord 20 [v1, v2] payload) [] 0

/-- The messages of consecutive records. -/
inductive CarriesAll (key iv : Bytes) : Nat → List Bytes → List Bytes → Prop where
  | nil (seq : Nat) : CarriesAll key iv seq [] []
  | cons (seq n : Nat) (record : Bytes) (records ms ms' : List Bytes) (h : Carries S key iv seq record ms n)
      (hr : CarriesAll key iv (seq + n) records ms') : CarriesAll key iv seq (record :: records) (ms ++ ms')

/-- `share` is the key in the first key_share extension of the ServerHello `r` (section 4.2.8). -/
def KeyShareOf (r : RawMsg) (share : Bytes) : Prop :=
  ∃ v rnd sid cs comp pre group g trailing post,
    r = .serverHello v rnd sid cs comp (pre ++ ⟨51, be16 g ++ (be16 share.length ++ (share ++ trailing))⟩ :: post) ∧
    (group, g) ∈ namedGroups ∧ share.length < 65536 ∧ ∀ e ∈ pre, e.ty ≠ 51

/-- Everything a handshake consisted of. -/
structure Session where
  /-- the ClientHello message -/
  hello : Bytes
  /-- the record with the ServerHello, the ServerHello message, its key share -/
  shRecord : Bytes
  sh : Bytes
  share : Bytes
  /-- the Diffie-Hellman result -/
  dhe : Bytes
  /-- the records received after that, and the messages in them -/
  records : List Bytes
  msgs : List (Bytes × RawMsg)
  /-- the client's messages before its Finished -/
  clientMsgs : List Bytes
  /-- the messages from which the application secrets are derived -/
  traffic : Bytes

namespace Session
variable (psk : Option Bytes) (x : Session)

/-- ClientHello...ServerHello -/
def tr0 : Bytes := x.hello ++ x.sh
/-- The bytes of the server's messages. -/
def bytesOf (ms : List (Bytes × RawMsg)) : Bytes := ms.flatMap Prod.fst
/-- The server's handshake traffic secret. -/
def serverSecret : Bytes := serverHandshakeTraffic S psk x.dhe x.tr0
/-- The client's handshake traffic secret. -/
def clientSecret : Bytes := clientHandshakeTraffic S psk x.dhe x.tr0
/-- All handshake messages before the client's Finished, in order. -/
def beforeFinished : Bytes := x.tr0 ++ bytesOf x.msgs ++ x.clientMsgs.flatten
/-- All bytes received. -/
def received : Bytes := x.shRecord ++ x.records.flatten

/-- The bytes received carry the messages of `x`, given the client's PSK and ephemeral secret. -/
structure Received (secret : Bytes) : Prop where
  /-- the ServerHello came in an unprotected handshake record; what follows it there is not looked at -/
  shRecord : ∃ v1 v2 junk, (x.sh ++ junk).length < 65536 ∧ x.shRecord = plaintextRecord 22 [v1, v2] (x.sh ++ junk)
  serverHello : ∃ r, r.WellSized S.hashLen ∧ Encodes x.sh r ∧ KeyShareOf r x.share
  dhe : S.dh secret x.share = some x.dhe
  records : CarriesAll S (writeKey S (x.serverSecret S psk)) (writeIv S (x.serverSecret S psk)) 0 x.records
    (x.msgs.map Prod.fst)
  encoded : ∀ m ∈ x.msgs, m.2.WellSized S.hashLen ∧ Encodes m.1 m.2

end Session

end ETls.Spec

namespace ETls.Spec

/-- No Finished among the messages. -/
def noFinished (ms : List (Bytes × RawMsg)) : Prop := ∀ m ∈ ms, ∀ v, m.2 ≠ .finished v

/-- The context of the last CertificateRequest. -/
def lastRequest : List (Bytes × RawMsg) → Option Bytes
  | [] => none
  | (_, .certificateRequest ctx _) :: ms => (lastRequest ms).or (some ctx)
  | _ :: ms => lastRequest ms

/-- 4.4.3: what the client signs, given all messages before its CertificateVerify: 64 spaces, the context string, a zero
byte, the transcript hash. -/
def clientSigned (S : Suite) (messages : Bytes) : Bytes :=
  List.replicate 64 32 ++ ascii "TLS 1.3, client CertificateVerify" ++ [0] ++ S.hash messages

/-- The records in which a sender protects handshake messages, each in a record of its own, numbered from `seq`. -/
def handshakeRecords (S : Suite) (key iv : Bytes) (seq : Nat) (ms : List Bytes) : List Bytes :=
  ciphertextRecords S key iv seq (ms.map fun m => (22, m))

end ETls.Spec
