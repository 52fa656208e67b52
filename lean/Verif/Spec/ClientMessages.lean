import Verif.Model.Basic
import Verif.Spec.Record

/-! # RFC 8446 section 4: the messages a client sends

A decoder for the ClientHello grammar (4.1.2 and the extensions of 4.2, RFC 6066, RFC 7301), and the encodings of the
client's other handshake messages.  Written from the RFCs, not from the code. -/

namespace ETls.Spec

/-- `uint24`, big-endian. -/
def u24 (n : Nat) : Bytes := [UInt8.ofNat (n / 65536), UInt8.ofNat (n / 256), UInt8.ofNat n]
/-- `uint32`, big-endian. -/
def u32 (n : Nat) : Bytes :=
  [UInt8.ofNat (n / 16777216), UInt8.ofNat (n / 65536), UInt8.ofNat (n / 256), UInt8.ofNat n]

/-- `opaque x<0..2^8-1>` -/
def vec8 (bs : Bytes) : Bytes := UInt8.ofNat bs.length :: bs
/-- `opaque x<0..2^16-1>` -/
def vec16 (bs : Bytes) : Bytes := u16 bs.length ++ bs
/-- `opaque x<0..2^24-1>` -/
def vec24 (bs : Bytes) : Bytes := u24 bs.length ++ bs

/-- `struct { HandshakeType msg_type; uint24 length; body; } Handshake` -/
def handshake (type : UInt8) (body : Bytes) : Bytes := type :: vec24 body

/-! ## Decoder combinators -/

/-- A decoder: a value and the rest of the input, or failure. -/
abbrev Dec (α : Type) := Bytes → Option (α × Bytes)

/-- `uint8` -/
def dU8 : Dec Nat
  | a :: r => some (a.toNat, r)
  | _ => none
/-- `uint16` -/
def dU16 : Dec Nat
  | a :: b :: r => some (a.toNat * 256 + b.toNat, r)
  | _ => none
/-- `uint24` -/
def dU24 : Dec Nat
  | a :: b :: c :: r => some (a.toNat * 65536 + b.toNat * 256 + c.toNat, r)
  | _ => none
/-- `uint32` -/
def dU32 : Dec Nat
  | a :: b :: c :: d :: r => some (a.toNat * 16777216 + b.toNat * 65536 + c.toNat * 256 + d.toNat, r)
  | _ => none
/-- exactly `n` bytes -/
def dBytes (n : Nat) : Dec Bytes := fun bs => if n ≤ bs.length then some (bs.take n, bs.drop n) else none
/-- A vector: length, then that many bytes. -/
def dVec (len : Dec Nat) : Dec Bytes := fun bs => (len bs).bind fun p => dBytes p.1 p.2

/-- A sequence of items filling the whole input. -/
def dAllFuel {α : Type} (item : Dec α) : Nat → Bytes → Option (List α)
  | _, [] => some []
  | 0, _ :: _ => none
  | n + 1, bs => (item bs).bind fun p => (dAllFuel item n p.2).map (p.1 :: ·)

/-- A sequence of items filling the whole input (an item takes at least one byte). -/
def dAll {α : Type} (item : Dec α) (bs : Bytes) : Option (List α) := dAllFuel item bs.length bs

/-- The result of a decoder that must use up its input. -/
def dWhole {α : Type} (p : Option (α × Bytes)) : Option α := p.bind fun q => if q.2 = [] then some q.1 else none

/-! ## ClientHello -/

/-- The extensions a ClientHello of this client may carry. -/
inductive ChExt where
  /-- 4.2.1 `ProtocolVersion versions<2..254>` -/
  | supportedVersions (versions : List Nat)
  /-- 4.2.3 `SignatureScheme supported_signature_algorithms<2..2^16-2>` -/
  | signatureAlgorithms (schemes : List Nat)
  /-- RFC 6066 section 4: one byte -/
  | maxFragmentLength (code : Nat)
  /-- 4.2.7 `NamedGroup named_group_list<2..2^16-1>` -/
  | supportedGroups (groups : List Nat)
  /-- 4.2.9 `PskKeyExchangeMode ke_modes<1..255>` -/
  | pskKeyExchangeModes (modes : List Nat)
  /-- 4.2.8 `KeyShareEntry client_shares<0..2^16-1>` -/
  | keyShare (shares : List (Nat × Bytes))
  /-- RFC 6066 section 3: host names -/
  | serverName (names : List Bytes)
  /-- RFC 7301 `ProtocolName protocol_name_list<2..2^16-1>` -/
  | alpn (names : List Bytes)
  /-- 4.2.11 identities (with obfuscated ticket age) and binders -/
  | preSharedKey (identities : List (Bytes × Nat)) (binders : List Bytes)
deriving DecidableEq, Repr

/-- `ClientHello` (4.1.2). -/
structure ChMsg where
  legacyVersion : Nat
  random : Bytes
  sessionId : Bytes
  cipherSuites : List Nat
  compression : List Nat
  extensions : List ChExt
deriving DecidableEq, Repr

/-- `KeyShareEntry` -/
def dShare : Dec (Nat × Bytes) := fun bs =>
  (dU16 bs).bind fun g => (dVec dU16 g.2).map fun k => ((g.1, k.1), k.2)

/-- `ServerName` with `name_type` 0 -/
def dServerName : Dec Bytes := fun bs =>
  (dU8 bs).bind fun t => if t.1 = 0 then dVec dU16 t.2 else none

/-- `PskIdentity` -/
def dIdentity : Dec (Bytes × Nat) := fun bs =>
  (dVec dU16 bs).bind fun i => (dU32 i.2).map fun a => ((i.1, a.1), a.2)

/-- The contents of one extension, by type. -/
def dExtData (type : Nat) (data : Bytes) : Option ChExt :=
  match type with
  | 43 => (dWhole (dVec dU8 data)).bind fun v => (dAll dU16 v).map .supportedVersions
  | 13 => (dWhole (dVec dU16 data)).bind fun v => (dAll dU16 v).map .signatureAlgorithms
  | 1 => (dWhole (dU8 data)).map .maxFragmentLength
  | 10 => (dWhole (dVec dU16 data)).bind fun v => (dAll dU16 v).map .supportedGroups
  | 45 => (dWhole (dVec dU8 data)).bind fun v => (dAll dU8 v).map .pskKeyExchangeModes
  | 51 => (dWhole (dVec dU16 data)).bind fun v => (dAll dShare v).map .keyShare
  | 0 => (dWhole (dVec dU16 data)).bind fun v => (dAll dServerName v).map .serverName
  | 16 => (dWhole (dVec dU16 data)).bind fun v => (dAll (dVec dU8) v).map .alpn
  | 41 =>
    (dVec dU16 data).bind fun i => (dWhole (dVec dU16 i.2)).bind fun b =>
      (dAll dIdentity i.1).bind fun ids => (dAll (dVec dU8) b).map fun bs => .preSharedKey ids bs
  | _ => none

/-- One extension. -/
def dExt : Dec ChExt := fun bs =>
  (dU16 bs).bind fun t => (dVec dU16 t.2).bind fun d => (dExtData t.1 d.1).map fun e => (e, d.2)

/-- The body of a ClientHello. -/
def dChBody (body : Bytes) : Option ChMsg :=
  (dU16 body).bind fun v => (dBytes 32 v.2).bind fun r => (dVec dU8 r.2).bind fun s =>
  (dVec dU16 s.2).bind fun cs => (dVec dU8 cs.2).bind fun co => (dWhole (dVec dU16 co.2)).bind fun ex =>
  (dAll dU16 cs.1).bind fun suites => (dAll dU8 co.1).bind fun comp => (dAll dExt ex).map fun exts =>
    ⟨v.1, r.1, s.1, suites, comp, exts⟩

/-- A ClientHello handshake message, with nothing following it. -/
def dClientHello (msg : Bytes) : Option ChMsg :=
  (dU8 msg).bind fun t => if t.1 = 1 then (dWhole (dVec dU24 t.2)).bind dChBody else none

/-! ## Encoding, for comparison with the decoder and for lengths -/

/-- `ExtensionType` -/
def ChExt.type : ChExt → Nat
  | .supportedVersions _ => 43
  | .signatureAlgorithms _ => 13
  | .maxFragmentLength _ => 1
  | .supportedGroups _ => 10
  | .pskKeyExchangeModes _ => 45
  | .keyShare _ => 51
  | .serverName _ => 0
  | .alpn _ => 16
  | .preSharedKey _ _ => 41

/-- `extension_data` -/
def ChExt.data : ChExt → Bytes
  | .supportedVersions vs => vec8 (vs.flatMap u16)
  | .signatureAlgorithms xs => vec16 (xs.flatMap u16)
  | .maxFragmentLength c => [UInt8.ofNat c]
  | .supportedGroups gs => vec16 (gs.flatMap u16)
  | .pskKeyExchangeModes ms => vec8 (ms.map UInt8.ofNat)
  | .keyShare ss => vec16 (ss.flatMap fun s => u16 s.1 ++ vec16 s.2)
  | .serverName ns => vec16 (ns.flatMap fun n => 0 :: vec16 n)
  | .alpn ps => vec16 (ps.flatMap vec8)
  | .preSharedKey ids bs => vec16 (ids.flatMap fun i => vec16 i.1 ++ u32 i.2) ++ vec16 (bs.flatMap vec8)

/-- One extension. -/
def ChExt.bytes (e : ChExt) : Bytes := u16 e.type ++ vec16 e.data

/-- All values fit the fields that carry them. -/
def ChExt.Fits : ChExt → Prop
  | .supportedVersions vs => (∀ v ∈ vs, v < 65536) ∧ (vs.flatMap u16).length < 256
  | .signatureAlgorithms xs => ∀ x ∈ xs, x < 65536
  | .maxFragmentLength c => c < 256
  | .supportedGroups gs => ∀ g ∈ gs, g < 65536
  | .pskKeyExchangeModes ms => (∀ m ∈ ms, m < 256) ∧ ms.length < 256
  | .keyShare ss => ∀ s ∈ ss, s.1 < 65536
  | .serverName _ => True
  | .alpn ps => ∀ p ∈ ps, p.length < 256
  | .preSharedKey ids bs => (∀ i ∈ ids, i.2 < 4294967296) ∧ ∀ b ∈ bs, b.length < 256

/-- The ClientHello body. -/
def ChMsg.body (m : ChMsg) : Bytes :=
  u16 m.legacyVersion ++ m.random ++ vec8 m.sessionId ++ vec16 (m.cipherSuites.flatMap u16) ++
  vec8 (m.compression.map UInt8.ofNat) ++ vec16 (m.extensions.flatMap ChExt.bytes)

/-- The ClientHello message. -/
def ChMsg.bytes (m : ChMsg) : Bytes := handshake 1 m.body

/-- Size of the binder list (with its length field) at the end of a ClientHello with pre_shared_key. -/
def ChMsg.bindersLength (m : ChMsg) : Nat :=
  match m.extensions.getLast? with
  | some (.preSharedKey _ bs) => (vec16 (bs.flatMap vec8)).length
  | _ => 0

/-- 4.2.11.2 `Truncate(ClientHello)`: the ClientHello up to and including the identities, with all length fields as in
the full message. -/
def ChMsg.truncated (m : ChMsg) : Bytes := m.bytes.take (m.bytes.length - m.bindersLength)

/-- All values fit. -/
structure ChMsg.Fits (m : ChMsg) : Prop where
  version : m.legacyVersion < 65536
  random : m.random.length = 32
  sessionId : m.sessionId.length < 256
  suites : (∀ s ∈ m.cipherSuites, s < 65536) ∧ (m.cipherSuites.flatMap u16).length < 65536
  compression : (∀ c ∈ m.compression, c < 256) ∧ m.compression.length < 256
  extensions : ∀ e ∈ m.extensions, e.Fits
  extensionsLength : (m.extensions.flatMap ChExt.bytes).length < 65536

/-! ## The other messages of a client -/

/-- 4.4.2 `Certificate` with X.509 entries without extensions. -/
def certificateMsg (context : Bytes) (certs : List Bytes) : Bytes :=
  handshake 11 (vec8 context ++ vec24 (certs.flatMap fun c => vec24 c ++ vec16 []))

/-- 4.4.3 `CertificateVerify` -/
def certificateVerifyMsg (scheme : Nat) (signature : Bytes) : Bytes := handshake 15 (u16 scheme ++ vec16 signature)

/-- 4.4.4 `Finished` -/
def finishedMsg (verifyData : Bytes) : Bytes := handshake 20 verifyData

/-- 6 `Alert` -/
def alertMsg (level description : Nat) : Bytes := [UInt8.ofNat level, UInt8.ofNat description]

end ETls.Spec
