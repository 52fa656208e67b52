import Verif.Spec.KeySchedule
import Verif.Spec.Sha2

/-! # What goes through the hash function when the keys and Finished messages of a handshake are computed

Two parties that compute the same value from different inputs have, somewhere on the way, fed two different strings to the
hash function and got the same digest (or the same beginning of it, where only that is used).  The strings are listed here, so
that such a pair can be read off: this is the usual way to state what a hash function must provide, without assuming that
collisions do not exist (they do) or that they are hard to find (which is no property of a function). -/

namespace ETls.Spec

open Crypto

/-- The suite's hash, HMAC and HKDF are those built from `H`. -/
structure UsesHash (S : Suite) (H : Hash) : Prop where
  len : S.hashLen = H.len
  pos : 1 ≤ H.len
  block : H.len ≤ H.block
  small : H.len < 256
  hash : S.hash = H.run
  hmac : S.hmac = H.hmac
  extract : S.extract = H.extract
  expand : S.expand = H.expand

/-- Two different strings, one of each list, whose digests agree on their first `n` bytes. -/
def Clash (H : Hash) (n : Nat) (xs ys : List Bytes) : Prop :=
  ∃ x ∈ xs, ∃ y ∈ ys, x ≠ y ∧ (H.run x).take n = (H.run y).take n

variable (S : Suite) (H : Hash)

/-- HMAC (RFC 2104) hashes two strings. -/
def hmacInputs (key msg : Bytes) : List Bytes :=
  [(H.hmacKey key).map (· ^^^ 0x5c) ++ H.run ((H.hmacKey key).map (· ^^^ 0x36) ++ msg),
   (H.hmacKey key).map (· ^^^ 0x36) ++ msg]

/-- HKDF-Expand-Label, when the output is not longer than a digest: one HMAC. -/
def labelInputs (secret : Bytes) (label : String) (context : Bytes) (length : Nat) : List Bytes :=
  hmacInputs H secret (hkdfLabel length label context ++ [1])

/-- Derive-Secret. -/
def deriveInputs (secret : Bytes) (label : String) (messages : Bytes) : List Bytes :=
  messages :: labelInputs H secret label (S.hash messages) S.hashLen

/-- Everything up to the Early Secret. -/
def earlyInputs (psk : Option Bytes) : List Bytes := hmacInputs H (zeros S) (psk.getD (zeros S))

/-- Everything up to the Handshake Secret. -/
def handshakeInputs (psk : Option Bytes) (dhe : Bytes) : List Bytes :=
  earlyInputs S H psk ++ deriveInputs S H (earlySecret S psk) "derived" [] ++
  hmacInputs H (deriveSecret S (earlySecret S psk) "derived" []) dhe

/-- Everything up to the Master Secret. -/
def masterInputs (psk : Option Bytes) (dhe : Bytes) : List Bytes :=
  handshakeInputs S H psk dhe ++ deriveInputs S H (handshakeSecret S psk dhe) "derived" [] ++
  hmacInputs H (deriveSecret S (handshakeSecret S psk dhe) "derived" []) (zeros S)

/-- Everything up to a handshake traffic secret. -/
def handshakeTrafficInputs (label : String) (psk : Option Bytes) (dhe tr : Bytes) : List Bytes :=
  handshakeInputs S H psk dhe ++ deriveInputs S H (handshakeSecret S psk dhe) label tr

/-- Everything up to an application traffic secret. -/
def applicationTrafficInputs (label : String) (psk : Option Bytes) (dhe tr : Bytes) : List Bytes :=
  masterInputs S H psk dhe ++ deriveInputs S H (masterSecret S psk dhe) label tr

/-- verify_data from a base key. -/
def verifyInputs (baseKey messages : Bytes) : List Bytes :=
  labelInputs H baseKey "finished" [] S.hashLen ++ messages :: hmacInputs H (finishedKey S baseKey) (S.hash messages)

/-- The server's Finished. -/
def serverFinishedInputs (psk : Option Bytes) (dhe tr messages : Bytes) : List Bytes :=
  handshakeTrafficInputs S H "s hs traffic" psk dhe tr ++ verifyInputs S H (serverHandshakeTraffic S psk dhe tr) messages

/-- The client's Finished. -/
def clientFinishedInputs (psk : Option Bytes) (dhe tr messages : Bytes) : List Bytes :=
  handshakeTrafficInputs S H "c hs traffic" psk dhe tr ++ verifyInputs S H (clientHandshakeTraffic S psk dhe tr) messages

/-- A PSK binder. -/
def binderInputs (psk : Option Bytes) (messages : Bytes) : List Bytes :=
  earlyInputs S H psk ++ deriveInputs S H (earlySecret S psk) "ext binder" [] ++ verifyInputs S H (binderKey S psk) messages

end ETls.Spec
