import Verif.Spec.Handshake

/-! # What an RFC 8446 server sends in answer to a ClientHello

ServerHello in the clear, then records protected with the server's handshake keys that contain whole handshake messages
(any number per record, any padding), optionally with change_cipher_spec records in between (appendix D.4), ending with
Finished. -/

namespace ETls.Spec

variable (S : Suite)

/-- A record of the server after its ServerHello. -/
inductive FlightRecord where
  | changeCipherSpec
  | messages (ms : List RawMsg) (padding : Nat)

/-- The messages in it. -/
def FlightRecord.msgs : FlightRecord → List RawMsg
  | .changeCipherSpec => []
  | .messages ms _ => ms

/-- The inner plaintext of a record with messages. -/
def flightFragment (ms : List RawMsg) (padding : Nat) : Fragment := ⟨22, ms.flatMap RawMsg.bytes, padding⟩

/-- The length of the payload of the record. -/
def FlightRecord.size : FlightRecord → Nat
  | .changeCipherSpec => 1
  | .messages ms padding => (flightFragment ms padding).inner.length + 16

/-- The records on the wire; protected ones are numbered from `seq`. -/
def flightRecords (key iv : Bytes) : Nat → List FlightRecord → List Bytes
  | _, [] => []
  | seq, .changeCipherSpec :: rs => plaintextRecord 20 [3, 3] [1] :: flightRecords key iv seq rs
  | seq, .messages ms padding :: rs =>
    protect S key iv seq (flightFragment ms padding) :: flightRecords key iv (seq + 1) rs

/-- A server's answer. -/
structure ServerFlight where
  /-- ServerHello, its key share, the Diffie-Hellman result -/
  sh : RawMsg
  share : Bytes
  dhe : Bytes
  /-- the messages between ServerHello and Finished -/
  msgs : List RawMsg
  /-- the records after ServerHello -/
  records : List FlightRecord

namespace ServerFlight
variable (x : ServerFlight) (psk : Option Bytes) (hello : Bytes)

/-- ClientHello...ServerHello -/
def tr0 : Bytes := hello ++ x.sh.bytes
/-- The server's handshake traffic secret. -/
def secret : Bytes := serverHandshakeTraffic S psk x.dhe (x.tr0 hello)
/-- The server's Finished (section 4.4.4). -/
def finished : RawMsg := .finished (verifyData S (x.secret S psk hello) (x.tr0 hello ++ x.msgs.flatMap RawMsg.bytes))
/-- ClientHello...server Finished -/
def transcript : Bytes := x.tr0 hello ++ (x.msgs ++ [x.finished S psk hello]).flatMap RawMsg.bytes
/-- All that the server sends. -/
def bytes : Bytes :=
  plaintextRecord 22 [3, 3] x.sh.bytes ++
    (flightRecords S (writeKey S (x.secret S psk hello)) (writeIv S (x.secret S psk hello)) 0 x.records).flatten

/-- The rules for the messages and records of a server that does not resume and does not ask for a new ClientHello. -/
structure Shaped : Prop where
  serverHello : x.sh.WellSized S.hashLen ∧ x.sh.bytes.length ≤ 16384
  share : KeyShareOf x.sh x.share
  /-- EncryptedExtensions, CertificateRequest, Certificate, CertificateVerify -/
  msgs : ∀ r ∈ x.msgs, r.WellSized S.hashLen ∧ r.body.length < 16777216 ∧
    (r.type = 8 ∨ r.type = 13 ∨ r.type = 11 ∨ r.type = 15)
  /-- the records contain these messages and Finished, which ends the last record -/
  records : x.records.flatMap FlightRecord.msgs = x.msgs ++ [x.finished S psk hello]
  last : ∃ pre ms padding, x.records = pre ++ [.messages ms padding] ∧ ms ≠ []
  /-- section 5.1: at most 2^14 bytes of content and padding -/
  sizes : ∀ r ∈ x.records, r.size ≤ 16384 + 17

/-- … and its keys are those of the client, whose ephemeral secret is `clientSecret`. -/
structure Conforming (clientSecret : Bytes) : Prop extends x.Shaped S psk hello where
  dhe : S.dh clientSecret x.share = some x.dhe

end ServerFlight

end ETls.Spec
