import Verif.Model.Suite

/-! # RFC 8446 section 7.1 (key schedule), 4.4.4 (Finished), 7.3 (traffic keys), 5.3 (nonces)

Written from the RFC; the primitives are those of the suite. -/

namespace ETls.Spec

variable (S : Suite)

/-- A string of `hashLen` zero bytes. -/
def zeros : Bytes := List.replicate S.hashLen 0

/-- `struct { uint16 length; opaque label<7..255> = "tls13 " + Label; opaque context<0..255>; } HkdfLabel` -/
def hkdfLabel (length : Nat) (label : String) (context : Bytes) : Bytes :=
  [UInt8.ofNat (length / 256), UInt8.ofNat length] ++
  (UInt8.ofNat (6 + (ascii label).length) :: (ascii "tls13 " ++ ascii label)) ++
  (UInt8.ofNat context.length :: context)

/-- `HKDF-Expand-Label(Secret, Label, Context, Length)` -/
def expandLabel (secret : Bytes) (label : String) (context : Bytes) (length : Nat) : Bytes :=
  S.expand secret (hkdfLabel length label context) length

/-- `Derive-Secret(Secret, Label, Messages)` -/
def deriveSecret (secret : Bytes) (label : String) (messages : Bytes) : Bytes :=
  expandLabel S secret label (S.hash messages) S.hashLen

/-- Early Secret = HKDF-Extract(salt = 0, IKM = PSK or 0). -/
def earlySecret (psk : Option Bytes) : Bytes := S.extract (zeros S) (psk.getD (zeros S))
/-- binder_key = Derive-Secret(., "ext binder", "") -/
def binderKey (psk : Option Bytes) : Bytes := deriveSecret S (earlySecret S psk) "ext binder" []
/-- Handshake Secret = HKDF-Extract(Derive-Secret(Early Secret, "derived", ""), (EC)DHE) -/
def handshakeSecret (psk : Option Bytes) (dhe : Bytes) : Bytes :=
  S.extract (deriveSecret S (earlySecret S psk) "derived" []) dhe
/-- client_handshake_traffic_secret; `tr` is ClientHello...ServerHello -/
def clientHandshakeTraffic (psk : Option Bytes) (dhe tr : Bytes) : Bytes :=
  deriveSecret S (handshakeSecret S psk dhe) "c hs traffic" tr
/-- server_handshake_traffic_secret -/
def serverHandshakeTraffic (psk : Option Bytes) (dhe tr : Bytes) : Bytes :=
  deriveSecret S (handshakeSecret S psk dhe) "s hs traffic" tr
/-- Master Secret = HKDF-Extract(Derive-Secret(Handshake Secret, "derived", ""), 0) -/
def masterSecret (psk : Option Bytes) (dhe : Bytes) : Bytes :=
  S.extract (deriveSecret S (handshakeSecret S psk dhe) "derived" []) (zeros S)
/-- client_application_traffic_secret_0; `tr` is ClientHello...server Finished -/
def clientApplicationTraffic (psk : Option Bytes) (dhe tr : Bytes) : Bytes :=
  deriveSecret S (masterSecret S psk dhe) "c ap traffic" tr
/-- server_application_traffic_secret_0 -/
def serverApplicationTraffic (psk : Option Bytes) (dhe tr : Bytes) : Bytes :=
  deriveSecret S (masterSecret S psk dhe) "s ap traffic" tr

/-- [sender]_write_key = HKDF-Expand-Label(Secret, "key", "", key_length) -/
def writeKey (secret : Bytes) : Bytes := expandLabel S secret "key" [] S.keyLen
/-- [sender]_write_iv = HKDF-Expand-Label(Secret, "iv", "", iv_length) -/
def writeIv (secret : Bytes) : Bytes := expandLabel S secret "iv" [] S.ivLen
/-- finished_key = HKDF-Expand-Label(BaseKey, "finished", "", Hash.length) -/
def finishedKey (baseKey : Bytes) : Bytes := expandLabel S baseKey "finished" [] S.hashLen
/-- verify_data = HMAC(finished_key, Transcript-Hash(messages)) -/
def verifyData (baseKey messages : Bytes) : Bytes := S.hmac (finishedKey S baseKey) (S.hash messages)

/-- Section 5.3: the 64-bit sequence number, big-endian, left-padded with zeros to the iv length, XORed with the
iv. -/
def nonce (iv : Bytes) (seq : Nat) : Bytes :=
  List.zipWith (· ^^^ ·) iv (List.replicate (iv.length - 8) 0 ++
    [UInt8.ofNat (seq / 2 ^ 56), UInt8.ofNat (seq / 2 ^ 48), UInt8.ofNat (seq / 2 ^ 40), UInt8.ofNat (seq / 2 ^ 32),
     UInt8.ofNat (seq / 2 ^ 24), UInt8.ofNat (seq / 2 ^ 16), UInt8.ofNat (seq / 2 ^ 8), UInt8.ofNat seq])

end ETls.Spec
