import Verif.Proofs.Session
import Verif.Proofs.Toy

/-! # A toy server, for examples

Everything here is computed with `toySuite`; it only serves to exhibit concrete handshakes. -/

namespace ETls
open Spec

/-- A configuration without PSK. -/
def exCfg : Config where
  serverName := some (ascii "example.com")
  alpn := none
  psk := none
  signatureSchemes := [.ecdsaSecp256r1Sha256]
  namedGroups := [.secp256r1]
  maxFragmentLength := none

/-- A new connection with buffers of `n` bytes that receives `rx`. -/
def exNew (n : Nat) (rx : Rx) : Conn where
  rx := rx
  tx := ⟨[], []⟩
  opened := false
  ks := KeySchedule.new toySuite
  rr := RR.new (List.replicate n 0)
  wb := ⟨List.replicate n 0, 0, none⟩
  dec := ⟨0, 0, 0⟩
  fp := .strict

theorem exNew_fresh (n : Nat) (rx : Rx) (hn : 5 ≤ n) : (exNew n rx).Fresh toySuite :=
  ⟨rfl, rfl, by unfold RR.Inv exNew RR.new; simp, rfl, ⟨rfl, rfl⟩, by simp [exNew, hn]⟩

/-- The ClientHello sent with `cfg`. -/
def exHelloMsg (cfg : Config) : Bytes :=
  (expectedHello cfg 0x1301 (List.replicate 32 9) (toySuite.pubKey [1]) []).bytes

/-- The server's key share. -/
def exShare : Bytes := 4 :: List.replicate 64 5

/-- A key_share extension for P-256. -/
def exKeyShare : RawExt := ⟨51, be16 23 ++ (be16 65 ++ exShare)⟩

/-- A ServerHello as RFC 8446 wants it. -/
def exSH : RawMsg := .serverHello 0x0303 (List.replicate 32 7) [] 0x1301 0 [⟨43, [3, 4]⟩, exKeyShare]

/-- The Diffie-Hellman result for the client secret `[1]`. -/
def exDhe : Bytes := (toySuite.dh [1] exShare).getD []

/-- What a server sends next: a message, or its Finished. -/
inductive SrvMsg where
  | msg (m : RawMsg)
  | finished

/-- The messages, given the server's handshake secret and the transcript so far. -/
def srvBytes (secret : Bytes) : Bytes → List SrvMsg → Bytes
  | _, [] => []
  | tr, .msg m :: ms => m.bytes ++ srvBytes secret (tr ++ m.bytes) ms
  | tr, .finished :: ms =>
    let m := (RawMsg.finished (verifyData toySuite secret tr)).bytes
    m ++ srvBytes secret (tr ++ m) ms

/-- The records, one per list of messages, protected with the server's handshake keys and numbered from `seq`. -/
def srvRecords (secret : Bytes) : Nat → Bytes → List (List SrvMsg) → Bytes
  | _, _, [] => []
  | seq, tr, ms :: rest =>
    let content := srvBytes secret tr ms
    protect toySuite (writeKey toySuite secret) (writeIv toySuite secret) seq ⟨22, content, 0⟩ ++
      srvRecords secret (seq + 1) (tr ++ content) rest

/-- The server's handshake secret after the ClientHello of `cfg` and the ServerHello `sh`. -/
def exSecret (cfg : Config) (sh : RawMsg) : Bytes :=
  serverHandshakeTraffic toySuite (cfg.psk.map (·.1)) exDhe (exHelloMsg cfg ++ sh.bytes)

/-- Everything the server sends: ServerHello in the clear, then the protected records. -/
def exServer (cfg : Config) (sh : RawMsg) (records : List (List SrvMsg)) : Bytes :=
  plaintextRecord 22 [3, 3] sh.bytes ++ srvRecords (exSecret cfg sh) 0 (exHelloMsg cfg ++ sh.bytes) records

/-- EncryptedExtensions without extensions. -/
def exEE : SrvMsg := .msg (.encryptedExtensions [])

/-- The minimal flight: EncryptedExtensions and Finished. -/
def exMin : List (List SrvMsg) := [[exEE, .finished]]

/-- Without verifier. -/
def exProv : Provider Unit := ⟨List.replicate 32 9, [1], none, .err .internalError, none⟩

set_option maxRecDepth 10000 in
theorem exMin_ok : (Conn.open_ toySuite exCfg exProv () (exNew 400 [.data (exServer exCfg exSH exMin)])).1 = .ok () := by
  decide +kernel

end ETls
