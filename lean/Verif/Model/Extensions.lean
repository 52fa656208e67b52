import Verif.Model.Codec

/-! # `src/extensions`: extension data, the extension-group macro and the per-message groups -/

namespace ETls

/-- `key_share.rs:68-71` `KeyShareEntry`. -/
structure KeyShareEntry where
  group : NamedGroup
  opaq : Bytes
deriving DecidableEq, Repr

/-- The extension payload types used by the groups of `extensions/messages.rs`.  `name: &str` is modelled by its
bytes. -/
inductive ExtData where
  /-- `server_name.rs:68-70` `ServerNameList` (every entry has `NameType::HostName`, the only one there is) -/
  | serverNameList (names : List Bytes)
  /-- `server_name.rs:118` `ServerNameResponse` -/
  | serverNameResponse
  /-- `supported_versions.rs:26-28` -/
  | supportedVersionsCH (versions : List Nat)
  /-- `supported_versions.rs:51-53` -/
  | supportedVersionsSH (version : Nat)
  /-- `signature_algorithms.rs:141-143`, `signature_algorithms_cert.rs:11-13` -/
  | signatureAlgorithms (algs : List SignatureScheme)
  /-- `supported_groups.rs:83-85` -/
  | supportedGroups (groups : List NamedGroup)
  /-- `key_share.rs:25-27` -/
  | keyShareCH (shares : List KeyShareEntry)
  /-- `key_share.rs:11` -/
  | keyShareSH (share : KeyShareEntry)
  /-- `pre_shared_key.rs:10-13` -/
  | preSharedKeyCH (identities : List Bytes) (hashSize : Nat)
  /-- `pre_shared_key.rs:48-50` -/
  | preSharedKeySH (selected : Nat)
  /-- `psk_key_exchange_modes.rs:33-35` -/
  | pskModes (modes : List PskKeyExchangeMode)
  /-- `max_fragment_length.rs:16-25` -/
  | maxFragmentLength (m : MaxFragmentLength)
  /-- `alpn.rs:19-21` -/
  | alpn (protocols : List Bytes)
  /-- `unimplemented.rs:9-11` -/
  | unimplemented (data : Bytes)
deriving DecidableEq, Repr

/-- `server_name.rs:17-25` `NameType::parse`. -/
def nameTypeParse : P Unit := do
  let n ← PB.readU8
  if n = 0 then pure () else M.fail .invalidData

/-- `server_name.rs:40-56` `ServerName::parse` (`from_utf8` cannot fail on ASCII). -/
def serverNameParse : P Bytes := do
  nameTypeParse
  let n ← PB.readU16
  let name ← PB.slice n
  if name.buffer.all (fun b => b < 128) then pure name.buffer else M.fail .invalidData

/-- `server_name.rs:91-97` `ServerNameList::<N>::parse`. -/
def serverNameListParse (cap : Nat) : P ExtData := do
  let n ← PB.readU16
  return .serverNameList (← PB.readList cap n serverNameParse)

/-- `server_name.rs:121-127` `ServerNameResponse::parse`. -/
def serverNameResponseParse : P ExtData := fun p =>
  if p.isEmpty then (.ok .serverNameResponse, p) else (.err .invalidData, p)

/-- `supported_versions.rs:31-37`. -/
def supportedVersionsCHParse (cap : Nat) : P ExtData := do
  let n ← PB.readU8
  return .supportedVersionsCH (← PB.readList cap n PB.readU16)

/-- `supported_versions.rs:56-60`. -/
def supportedVersionsSHParse : P ExtData := do
  return .supportedVersionsSH (← PB.readU16)

/-- `signature_algorithms.rs:146-153` and `signature_algorithms_cert.rs:16-23`. -/
def signatureAlgorithmsParse (cap : Nat) : P ExtData := do
  let n ← PB.readU16
  return .signatureAlgorithms (← PB.readList cap n SignatureScheme.parse)

/-- `supported_groups.rs:88-94`. -/
def supportedGroupsParse (cap : Nat) : P ExtData := do
  let n ← PB.readU16
  return .supportedGroups (← PB.readList cap n NamedGroup.parse)

/-- `key_share.rs:74-84` `KeyShareEntry::parse`. -/
def KeyShareEntry.parse : P KeyShareEntry := do
  let g ← NamedGroup.parse
  let n ← PB.readU16
  let o ← PB.slice n
  return ⟨g, o.buffer⟩

/-- `key_share.rs:30-35`. -/
def keyShareCHParse (cap : Nat) : P ExtData := do
  let n ← PB.readU16
  return .keyShareCH (← PB.readList cap n KeyShareEntry.parse)

/-- `key_share.rs:14-16`. -/
def keyShareSHParse : P ExtData := do
  return .keyShareSH (← KeyShareEntry.parse)

/-- `pre_shared_key.rs:16-18`: `unimplemented!()`. -/
def preSharedKeyCHParse : P ExtData := M.crash

/-- `pre_shared_key.rs:53-57`. -/
def preSharedKeySHParse : P ExtData := do
  return .preSharedKeySH (← PB.readU16)

/-- `psk_key_exchange_modes.rs:37-43`. -/
def pskModesParse (cap : Nat) : P ExtData := do
  let n ← PB.readU8
  return .pskModes (← PB.readList cap n PskKeyExchangeMode.parse)

/-- `max_fragment_length.rs:28-39`. -/
def maxFragmentLengthParse : P ExtData := do
  return .maxFragmentLength (← MaxFragmentLength.parse)

/-- The loop of `alpn.rs:34-40`. -/
def alpnLoop : Nat → P Unit
  | 0 => M.crash
  | fuel + 1 => fun p =>
    if p.isEmpty then (.ok (), p)
    else (do
      let n ← PB.readU8
      if n = 0 then M.fail .invalidData
      else do
        let _ ← PB.slice n
        alpnLoop fuel) p

/-- `alpn.rs:24-43`: the list is validated and forgotten. -/
def alpnParse : P ExtData := do
  let n ← PB.readU16
  let l ← PB.slice n
  M.lift ((alpnLoop (l.buffer.length + 1) l).1.map fun _ => .alpn [])

/-- `unimplemented.rs:15-19`: `as_slice` is the whole extension data. -/
def unimplementedParse : P ExtData := fun p => (.ok (.unimplemented p.buffer), p)

/-- `server_name.rs:58-63` with `27-29`. -/
def serverNameEncode (name : Bytes) : Enc Unit := do
  (CB.push 0).orEncodeError
  (CB.withU16Length (CB.extend name)).orEncodeError

/-- `key_share.rs:86-91`. -/
def KeyShareEntry.encode (e : KeyShareEntry) : Enc Unit := do
  (CB.pushU16 e.group.code).orEncodeError
  (CB.withU16Length (CB.extend e.opaq)).orEncodeError

/-- `pre_shared_key.rs:22-28`, one identity. -/
def pskIdentityEncode (id : Bytes) : Enc Unit := do
  (CB.withU16Length (CB.extend id)).orEncodeError
  (CB.pushU32 0).orEncodeError

/-- The `encode` functions of the extension payloads: `server_name.rs:99-107,130-132`,
`supported_versions.rs:39-46,62-64`, `signature_algorithms.rs:155-163`, `supported_groups.rs:96-103`,
`key_share.rs:37-44,18-20`, `pre_shared_key.rs:20-43,59-62`, `psk_key_exchange_modes.rs:45-52`,
`max_fragment_length.rs:41-43`, `alpn.rs:45-55`, `unimplemented.rs:21-23`. -/
def ExtData.encode : ExtData → Enc Unit
  | .serverNameList names => CB.withU16Length (encAll serverNameEncode names)
  | .serverNameResponse => pure ()
  | .supportedVersionsCH vs => CB.withU8Length (encAll (fun v => (CB.pushU16 v).orEncodeError) vs)
  | .supportedVersionsSH v => (CB.pushU16 v).orEncodeError
  | .signatureAlgorithms xs =>
    CB.withU16Length (encAll (fun (a : SignatureScheme) => (CB.pushU16 a.code).orEncodeError) xs)
  | .supportedGroups gs =>
    CB.withU16Length (encAll (fun (g : NamedGroup) => (CB.pushU16 g.code).orEncodeError) gs)
  | .keyShareCH ss => CB.withU16Length (encAll KeyShareEntry.encode ss)
  | .keyShareSH s => s.encode
  | .preSharedKeyCH ids hashSize => do
    (CB.withU16Length (encAll pskIdentityEncode ids)).orEncodeError
    let bindersLen := (1 + hashSize) * ids.length
    (CB.pushU16 bindersLen).orEncodeError
    encAll (fun (_ : Nat) => (CB.push 0).orEncodeError) (List.range bindersLen)
  | .preSharedKeySH n => (CB.pushU16 n).orEncodeError
  | .pskModes ms =>
    CB.withU8Length (encAll (fun (m : PskKeyExchangeMode) => (CB.push (UInt8.ofNat m.code)).orEncodeError) ms)
  | .maxFragmentLength m => (CB.push (UInt8.ofNat m.code)).orEncodeError
  | .alpn ps => CB.withU16Length (encAll (fun (p : Bytes) => do
      (CB.push (UInt8.ofNat p.length)).orEncodeError
      CB.extend p) ps)
  | .unimplemented d => CB.extend d

/-- A value of one of the extension-group enums: the variant (its `ExtensionType`) and its payload. -/
structure Ext where
  ty : ExtensionType
  data : ExtData
deriving DecidableEq, Repr

/-- `extension_group_macro.rs:20-26` `encode`. -/
def Ext.encode (e : Ext) : Enc Unit := do
  (CB.pushU16 e.ty.code).orEncodeError
  CB.withU16Length e.data.encode

/-- An extension group: which extension types the message accepts and how their payload is parsed. -/
abbrev ExtGroup := ExtensionType → Option (P ExtData)

/-- `messages.rs:19-44` `ClientHelloExtension`. -/
def clientHelloGroup : ExtGroup
  | .serverName => some (serverNameListParse 1)
  | .supportedVersions => some (supportedVersionsCHParse 1)
  | .signatureAlgorithms => some (signatureAlgorithmsParse 25)
  | .supportedGroups => some (supportedGroupsParse 13)
  | .keyShare => some (keyShareCHParse 1)
  | .preSharedKey => some preSharedKeyCHParse
  | .pskKeyExchangeModes => some (pskModesParse 4)
  | .signatureAlgorithmsCert => some (signatureAlgorithmsParse 25)
  | .maxFragmentLength => some maxFragmentLengthParse
  | .statusRequest => some unimplementedParse
  | .useSrtp => some unimplementedParse
  | .heartbeat => some unimplementedParse
  | .alpn => some alpnParse
  | .signedCertificateTimestamp => some unimplementedParse
  | .clientCertificateType => some unimplementedParse
  | .serverCertificateType => some unimplementedParse
  | .padding => some unimplementedParse
  | .earlyData => some unimplementedParse
  | .cookie => some unimplementedParse
  | .certificateAuthorities => some unimplementedParse
  | .oidFilters => some unimplementedParse
  | .postHandshakeAuth => some unimplementedParse
  | .compressCertificate => none

/-- `messages.rs:47-54` `ServerHelloExtension`. -/
def serverHelloGroup : ExtGroup
  | .keyShare => some keyShareSHParse
  | .preSharedKey => some preSharedKeySHParse
  | .cookie => some unimplementedParse
  | .supportedVersions => some supportedVersionsSHParse
  | _ => none

/-- `messages.rs:57-69` `EncryptedExtensionsExtension`. -/
def encryptedExtensionsGroup : ExtGroup
  | .serverName => some serverNameResponseParse
  | .maxFragmentLength => some maxFragmentLengthParse
  | .supportedGroups => some (supportedGroupsParse 13)
  | .useSrtp => some unimplementedParse
  | .heartbeat => some unimplementedParse
  | .alpn => some alpnParse
  | .clientCertificateType => some unimplementedParse
  | .serverCertificateType => some unimplementedParse
  | .earlyData => some unimplementedParse
  | _ => none

/-- `messages.rs:72-82` `CertificateRequestExtension`. -/
def certificateRequestGroup : ExtGroup
  | .statusRequest => some unimplementedParse
  | .signatureAlgorithms => some (signatureAlgorithmsParse 25)
  | .signedCertificateTimestamp => some unimplementedParse
  | .certificateAuthorities => some unimplementedParse
  | .oidFilters => some unimplementedParse
  | .signatureAlgorithmsCert => some unimplementedParse
  | .compressCertificate => some unimplementedParse
  | _ => none

/-- `messages.rs:85-90` `CertificateExtension`. -/
def certificateGroup : ExtGroup
  | .statusRequest => some unimplementedParse
  | .signedCertificateTimestamp => some unimplementedParse
  | _ => none

/-- `messages.rs:93-97` `NewSessionTicketExtension`. -/
def newSessionTicketGroup : ExtGroup
  | .earlyData => some unimplementedParse
  | _ => none

/-- `messages.rs:100-106` `HelloRetryRequestExtension`. -/
def helloRetryRequestGroup : ExtGroup
  | .keyShare => some unimplementedParse
  | .cookie => some unimplementedParse
  | .supportedVersions => some unimplementedParse
  | _ => none

/-- `extension_group_macro.rs:28-65` `parse`. The type is read first but its error is only raised after the data
has been consumed. -/
def extParse (g : ExtGroup) : PT Ext := fun p0 =>
  let (ty, p1) := ExtensionType.parse p0
  (do
    let n ← PB.readU16.orErr .decodeError
    let d ← (PB.slice n).orErr .decodeError
    match ty with
    | .panic => M.crash
    | .err .invalidData => M.fail .unknownExtensionType
    | .err _ => M.fail .decodeError
    | .ok t =>
      match g t with
      | none => M.fail (.abortHandshake .fatal .illegalParameter)
      | some parser =>
        match (parser d).1 with
        | .ok x => pure (Ext.mk t x)
        | .err _ => M.fail .decodeError
        | .panic => M.crash : PT Ext) p1

/-- The loop of `extension_group_macro.rs:78-91`. -/
def extLoop (g : ExtGroup) (cap : Nat) : Nat → List Ext → PT (List Ext)
  | 0, _ => M.crash
  | fuel + 1, acc => fun p =>
    if p.isEmpty then (.ok acc, p)
    else
      match extParse g p with
      | (.ok e, p') => if acc.length < cap then extLoop g cap fuel (acc ++ [e]) p' else (.err .decodeError, p')
      | (.err .unknownExtensionType, p') => extLoop g cap fuel acc p'
      | (.err e, p') => (.err e, p')
      | (.panic, p') => (.panic, p')

/-- `extension_group_macro.rs:67-95` `parse_vector::<N>`. -/
def extParseVector (g : ExtGroup) (cap : Nat) : PT (List Ext) := do
  let n ← PB.readU16.orErr .invalidExtensionsLength
  let b ← (PB.slice n).toT
  M.lift (extLoop g cap (b.buffer.length + 1) [] b).1

end ETls
