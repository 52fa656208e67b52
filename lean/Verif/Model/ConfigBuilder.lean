import Verif.Model.Handshake

/-! # The configuration builder (`config.rs:290-408`) -/

namespace ETls

/-- `unwrap!(self.signature_schemes.push(x).ok())` on a `Vec` of capacity 25 (`config.rs:124`). -/
def pushScheme (x : SignatureScheme) (c : Config) : Res Unit Config :=
  if c.signatureSchemes.length < 25 then .ok { c with signatureSchemes := c.signatureSchemes ++ [x] } else .panic

/-- Several pushes in a row. -/
def pushSchemes : List SignatureScheme → Config → Res Unit Config
  | [], c => .ok c
  | x :: xs, c =>
    match pushScheme x c with
    | .ok c => pushSchemes xs c
    | .err e => .err e
    | .panic => .panic

/-- `unwrap!(config.named_groups.push(x))` on a `Vec` of capacity 13 (`config.rs:125`). -/
def pushGroup (x : NamedGroup) (c : Config) : Res Unit Config :=
  if c.namedGroups.length < 13 then .ok { c with namedGroups := c.namedGroups ++ [x] } else .panic

/-- `config.rs:325-357` `enable_rsa_signatures`. -/
def Config.enableRsa (c : Config) : Res Unit Config :=
  pushSchemes [.rsaPkcs1Sha256, .rsaPkcs1Sha384, .rsaPkcs1Sha512, .rsaPssRsaeSha256, .rsaPssRsaeSha384,
    .rsaPssRsaeSha512] c

/-- `config.rs:291-322` `TlsConfig::new`; `alloc` is the Cargo feature. -/
def Config.new (alloc : Bool) : Res Unit Config :=
  let start : Config := ⟨none, none, none, [], [], none⟩
  match (if alloc then start.enableRsa else .ok start) with
  | .err e => .err e
  | .panic => .panic
  | .ok c =>
    match pushSchemes [.ecdsaSecp256r1Sha256, .ecdsaSecp384r1Sha384, .ed25519] c with
    | .ok c => pushGroup .secp256r1 c
    | .err e => .err e
    | .panic => .panic

/-- The public builder methods. -/
inductive BuilderCall where
  | enableRsa
  | withServerName (name : Bytes)
  | withAlpn (protocols : List Bytes)
  | withMaxFragmentLength (m : MaxFragmentLength)
  | resetMaxFragmentLength
  | withPsk (psk : Bytes) (identities : List Bytes)
deriving DecidableEq, Repr

/-- `config.rs:325-407`: one call.  `with_psk` unwraps `Vec::from_slice` of capacity 4 (`config.rs:403-407`). -/
def BuilderCall.run : BuilderCall → Config → Res Unit Config
  | .enableRsa, c => c.enableRsa
  | .withServerName n, c => .ok { c with serverName := some n }
  | .withAlpn ps, c => .ok { c with alpn := some ps }
  | .withMaxFragmentLength m, c => .ok { c with maxFragmentLength := some m }
  | .resetMaxFragmentLength, c => .ok { c with maxFragmentLength := none }
  | .withPsk k ids, c => if ids.length ≤ 4 then .ok { c with psk := some (k, ids) } else .panic

/-- A sequence of calls. -/
def runBuilder : List BuilderCall → Config → Res Unit Config
  | [], c => .ok c
  | b :: bs, c =>
    match b.run c with
    | .ok c => runBuilder bs c
    | .err e => .err e
    | .panic => .panic

/-- `TlsConfig::new()` followed by builder calls. -/
def buildConfig (alloc : Bool) (calls : List BuilderCall) : Res Unit Config :=
  match Config.new alloc with
  | .ok c => runBuilder calls c
  | .err e => .err e
  | .panic => .panic

end ETls
