import Verif.Spec.Server
import Verif.Spec.ClientMessages
import Verif.Spec.Pki
import Verif.Spec.P256

/-! # A server of TLS 1.3, as a program (C127)

A server that speaks secp256r1 and one cipher suite, written from RFC 8446: from its own secrets and the ClientHello it computes
its flight, checks the client's Finished, and has the application traffic secrets.  No state of the client is used. -/

namespace ETls.Spec
open Crypto

/-- The shared secret that somebody with the secret `secret` computes from a ClientHello (RFC 8446 section 7.4.2): from the
first key share for secp256r1 (23). -/
def dheFrom (secret hello : Bytes) : Bytes :=
  match dClientHello hello with
  | some h => (h.extensions.findSome? fun
      | .keyShare shares => (shares.lookup 23).bind (p256Dh secret)
      | _ => none).getD []
  | none => []

/-- A server. -/
structure Textbook where
  /-- the ephemeral secret and the random of this connection -/
  secret : Bytes
  random : Bytes
  /-- the pre-shared key, if this is what the server selects -/
  psk : Option Bytes
  /-- whether the server asks for a certificate of the client -/
  request : Bool
  /-- the certificates, empty for a server without -/
  certs : List Bytes
  /-- the signature scheme (section 4.2.3) and how to sign with it and the private key of the first certificate -/
  scheme : Nat
  sign : Bytes → Bytes

namespace Textbook
variable (t : Textbook) (S : Suite) (hello : Bytes)

/-- ServerHello (section 4.1.3): TLS 1.3 in supported_versions (43), the share in key_share (51), and the first identity in
pre_shared_key (41) if the server uses the key. -/
def serverHello : RawMsg := .serverHello 0x0303 t.random [] S.codePoint 0
  (⟨43, [3, 4]⟩ :: ⟨51, be16 23 ++ (be16 (p256Public t.secret).length ++ p256Public t.secret)⟩ ::
    if t.psk.isSome then [⟨41, [0, 0]⟩] else [])

/-- EncryptedExtensions (section 4.3.1), empty. -/
def encryptedExtensions : RawMsg := .encryptedExtensions []

/-- Certificate (section 4.4.2). -/
def certificate : RawMsg := .certificate [] (t.certs.map fun c => (c, []))

/-- CertificateRequest (section 4.3.2): no context, signature_algorithms (13) with ecdsa_secp256r1_sha256. -/
def certificateRequest : RawMsg := .certificateRequest [] [⟨13, be16 2 ++ be16 0x0403⟩]

/-- EncryptedExtensions, and CertificateRequest if the server asks. -/
def parameters : List RawMsg := encryptedExtensions :: if t.request then [certificateRequest] else []

/-- ClientHello to Certificate. -/
def toCertificate : Bytes :=
  hello ++ (t.serverHello S).bytes ++ t.parameters.flatMap RawMsg.bytes ++ t.certificate.bytes

/-- The messages between ServerHello and Finished. -/
def msgs : List RawMsg :=
  t.parameters ++ if t.certs = [] then [] else
    [t.certificate, .certificateVerify t.scheme (t.sign (serverSignedContent S (t.toCertificate S hello)))]

/-- The shared secret. -/
def dhe : Bytes := dheFrom t.secret hello

/-- The server's handshake traffic secret. -/
def handshakeSecret : Bytes := serverHandshakeTraffic S t.psk (t.dhe hello) (hello ++ (t.serverHello S).bytes)

/-- ClientHello to the last message before Finished. -/
def beforeFinished : Bytes := hello ++ (t.serverHello S).bytes ++ (t.msgs S hello).flatMap RawMsg.bytes

/-- Finished (section 4.4.4). -/
def finished : RawMsg := .finished (verifyData S (t.handshakeSecret S hello) (t.beforeFinished S hello))

/-- ClientHello to the server's Finished. -/
def transcript : Bytes := t.beforeFinished S hello ++ (t.finished S hello).bytes

/-- The whole flight, every message in a record of its own. -/
def flight : ServerFlight where
  sh := t.serverHello S
  share := p256Public t.secret
  dhe := t.dhe hello
  msgs := t.msgs S hello
  records := (t.msgs S hello ++ [t.finished S hello]).map fun m => .messages [m] 0

/-- All the server sends in answer to the ClientHello. -/
def answer : Bytes := (t.flight S hello).bytes S t.psk hello

/-- The client's handshake traffic secret. -/
def clientHandshakeSecret : Bytes := clientHandshakeTraffic S t.psk (t.dhe hello) (hello ++ (t.serverHello S).bytes)

/-- The server reads these records as the client's second flight: they open, and contain the messages `ms` and then the client's
Finished with the right verify_data. -/
def Accepts (ms records : List Bytes) : Prop :=
  receiveRecords S (writeKey S (t.clientHandshakeSecret S hello)) (writeIv S (t.clientHandshakeSecret S hello)) 0 records =
    some ((ms ++ [finishedMsg (verifyData S (t.clientHandshakeSecret S hello) (t.transcript S hello ++ ms.flatten))]).map
      fun m => (22, m))

/-- The application traffic secrets of the connection. -/
def clientSecret : Bytes := clientApplicationTraffic S t.psk (t.dhe hello) (t.transcript S hello)
def serverSecret : Bytes := serverApplicationTraffic S t.psk (t.dhe hello) (t.transcript S hello)

/-- The records in which the server then sends the fragments. -/
def send (fs : List Fragment) : Bytes :=
  protectAll S (writeKey S (t.serverSecret S hello)) (writeIv S (t.serverSecret S hello)) 0 fs

end Textbook

end ETls.Spec
