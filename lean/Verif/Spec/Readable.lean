import Verif.Spec.ServerMessages

/-! # Which server messages a TLS 1.3 client can read (C73)

In terms of the bytes of the extensions only.  `rest` marks the places where bytes may follow the syntax RFC 8446 gives
(the client ignores them). -/

namespace ETls.Spec

/-- The code point is in the table. -/
def Known {α : Type} (table : List (α × Nat)) (n : Nat) : Prop := ∃ x, (x, n) ∈ table

/-- The content of an extension of known type that can be read in a message. -/
def ExtReadable : ExtMsg → ExtensionType → Bytes → Prop
  /- `NamedGroup group; opaque key_exchange<0..2^16-1>`, of a known group -/
  | .serverHello, .keyShare, d => ∃ n key rest, Known namedGroups n ∧ key.length < 65536 ∧
      d = be16 n ++ (be16 key.length ++ (key ++ rest))
  /- `uint16 selected_identity` -/
  | .serverHello, .preSharedKey, d => 2 ≤ d.length
  /- `ProtocolVersion selected_version`, any version -/
  | .serverHello, .supportedVersions, d => 2 ≤ d.length
  /- empty -/
  | .encryptedExtensions, .serverName, d => d = []
  /- one of the four values of RFC 6066 -/
  | .encryptedExtensions, .maxFragmentLength, d => ∃ (b : UInt8) (rest : Bytes), Known maxFragmentLengths b.toNat ∧ d = b :: rest
  /- `NamedGroup named_group_list<0..2^16-1>`, at most 13, all known -/
  | .encryptedExtensions, .supportedGroups, d => ∃ (ns : List Nat) (rest : Bytes), ns.length ≤ 13 ∧
      (∀ n ∈ ns, Known namedGroups n) ∧ d = be16 (2 * ns.length) ++ (ns.flatMap be16 ++ rest)
  /- `ProtocolName protocol_name_list<0..2^16-1>`, names of 1 to 255 bytes -/
  | .encryptedExtensions, .alpn, d => ∃ (ps : List Bytes) (rest : Bytes), (∀ p ∈ ps, 0 < p.length ∧ p.length < 256) ∧
      (ps.flatMap fun p => UInt8.ofNat p.length :: p).length < 65536 ∧
      d = be16 (ps.flatMap fun p => UInt8.ofNat p.length :: p).length ++
        ((ps.flatMap fun p => UInt8.ofNat p.length :: p) ++ rest)
  /- `SignatureScheme supported_signature_algorithms<0..2^16-2>`, at most 25, all known -/
  | .certificateRequest, .signatureAlgorithms, d => ∃ (ns : List Nat) (rest : Bytes), ns.length ≤ 25 ∧
      (∀ n ∈ ns, Known signatureSchemes n) ∧ d = be16 (2 * ns.length) ++ (ns.flatMap be16 ++ rest)
  /- everything else is not looked at -/
  | _, _, _ => True

/-- A list of extensions that can be read in a message: every extension of a known type is permitted there and
readable, and there are at most `cap` of them.  Extensions of unknown type do not matter. -/
def ExtsReadable (m : ExtMsg) (cap : Nat) (xs : List RawExt) : Prop :=
  (∀ x ∈ xs, ∀ t, (t, x.ty) ∈ extensionTypes → t ∈ permitted m ∧ ExtReadable m t x.data) ∧
  (xs.filter fun x => extensionTypes.any fun e => e.2 == x.ty).length ≤ cap

/-- A message that can be read. -/
def RawMsg.Readable : RawMsg → Prop
  | .serverHello _ _ _ _ _ xs => ExtsReadable .serverHello 4 xs
  | .encryptedExtensions xs => ExtsReadable .encryptedExtensions 16 xs
  | .certificateRequest _ xs => ExtsReadable .certificateRequest 6 xs
  | .certificate _ es => es.length ≤ 16 ∧ ∀ e ∈ es, ExtsReadable .certificate 2 e.2
  | .certificateVerify s _ => Known signatureSchemes s
  | .finished _ => True
  | .newSessionTicket _ _ _ _ xs => ExtsReadable .newSessionTicket 1 xs

end ETls.Spec
