import Verif.Model.Suite

/-! # `src/key_schedule.rs`

The running hash `CipherSuite::Hash` is modelled by the bytes absorbed so far; `finalize` of a clone is `S.hash`.
An HKDF object is modelled by its pseudo-random key. -/

namespace ETls

variable (S : Suite)

/-- `config.rs:24-30` capacity of the label buffer: hash length + 12 + 10. -/
def labelCap : Nat := S.hashLen + 22

/-- `key_schedule.rs:46-89` `make_expanded_hkdf_label`; `ctx = none` is `ContextType::None`. The pieces are appended
one after the other to a bounded vector, which fails exactly if the total does not fit. -/
def makeLabel (prk : Option Bytes) (label : Bytes) (ctx : Option Bytes) (n : Nat) : Res TlsError Bytes :=
  if 6 + label.length % 256 > 255 then .panic
  else
    let l := be16 n ++ [UInt8.ofNat (6 + label.length % 256)] ++ ascii "tls13 " ++ label ++
      (match ctx with
       | none => [0]
       | some c => UInt8.ofNat c.length :: c)
    if l.length > labelCap S then .err .internalError
    else
      match prk with
      | none => .err .internalError
      | some k => if n > 255 * S.hashLen then .err .cryptoError else .ok (S.expand k l n)

/-- `key_schedule.rs:92-98` `SharedState`. -/
structure SharedState where
  secret : Bytes
  hkdf : Option Bytes
deriving DecidableEq, Repr

/-- `key_schedule.rs:104-109`. -/
def SharedState.new : SharedState := ⟨List.replicate S.hashLen 0, none⟩

/-- `key_schedule.rs:111-115` `initialize`. -/
def SharedState.initialize (ikm : Bytes) (s : SharedState) : SharedState :=
  ⟨S.extract s.secret ikm, some (S.extract s.secret ikm)⟩

/-- `key_schedule.rs:117-124` `derive_secret`. -/
def SharedState.deriveSecret (s : SharedState) (label : Bytes) (ctx : Option Bytes) : Res TlsError Bytes :=
  makeLabel S s.hkdf label ctx S.hashLen

/-- `key_schedule.rs:126-129` `derived`. -/
def SharedState.derived : M TlsError SharedState Unit := fun s =>
  match s.deriveSecret S (ascii "derived") (some (S.hash [])) with
  | .ok x => (.ok (), { s with secret := x })
  | .err e => (.err e, s)
  | .panic => (.panic, s)

/-- `key_schedule.rs:132-140` `KeyScheduleState`. -/
structure KsState where
  trafficSecret : Option Bytes
  counter : Nat
  key : Bytes
  iv : Bytes
deriving DecidableEq, Repr

/-- `key_schedule.rs:146-153`. -/
def KsState.new : KsState := ⟨none, 0, List.replicate S.keyLen 0, List.replicate S.ivLen 0⟩

/-- `key_schedule.rs:318-331` `pad`: byte `i` from the end of the input goes to position `N - i - 1`.  (For
`N < 8` the Rust code would panic; both suites have `IvLen = 12`.) -/
def padCounter (n : Nat) (input : Bytes) : Bytes :=
  (input.reverse.zipIdx).foldl (fun acc p => acc.set ((n - p.2) - 1) p.1) (List.replicate n 0)

/-- `key_schedule.rs:296-316` `get_nonce`. -/
def getNonce (counter : Nat) (iv : Bytes) : Bytes :=
  List.zipWith (fun l r => l ^^^ r) iv (padCounter S.ivLen (be64 counter))

/-- `key_schedule.rs:165-168`. -/
def KsState.nonce (k : KsState) : Bytes := getNonce S k.counter k.iv

/-- `key_schedule.rs:170-189` `calculate_traffic_secret`. `from_prk` fails if the key is shorter than the hash. -/
def KsState.calculate (label : Bytes) (shared : SharedState) (transcript : Bytes) : M TlsError KsState Unit := do
  let secret ← M.lift (shared.deriveSecret S label (some (S.hash transcript)))
  if secret.length < S.hashLen then M.fail .internalError
  else do
    M.modify fun k => { k with trafficSecret := some secret }
    let key ← M.lift (makeLabel S (some secret) (ascii "key") none S.keyLen)
    M.modify fun k => { k with key := key }
    let iv ← M.lift (makeLabel S (some secret) (ascii "iv") none S.ivLen)
    M.modify fun k => { k with iv := iv }
    M.modify fun k => { k with counter := 0 }

/-- `key_schedule.rs:191-193` `increment_counter`: `checked_add(1).unwrap()` on `u64`. -/
def KsState.increment {ε : Type} : M ε KsState Unit := fun k =>
  if k.counter + 1 < 2 ^ 64 then (.ok (), { k with counter := k.counter + 1 }) else (.panic, k)

/-- `key_schedule.rs:400-406` `WriteKeySchedule`. -/
structure WriteKS where
  st : KsState
  binderKey : Option Bytes
deriving DecidableEq, Repr

/-- `key_schedule.rs:442-448` `ReadKeySchedule`. -/
structure ReadKS where
  st : KsState
  transcript : Bytes
deriving DecidableEq, Repr

/-- `key_schedule.rs:411-413`. -/
def WriteKS.increment {ε : Type} : M ε WriteKS Unit := fun w =>
  let (r, st) := KsState.increment w.st
  (r, { w with st := st })

/-- `key_schedule.rs:454-456`. -/
def ReadKS.increment {ε : Type} : M ε ReadKS Unit := fun w =>
  let (r, st) := KsState.increment w.st
  (r, { w with st := st })

/-- `key_schedule.rs:221-228` `KeySchedule`. -/
structure KeySchedule where
  shared : SharedState
  client : WriteKS
  server : ReadKS
deriving DecidableEq, Repr

/-- `key_schedule.rs:234-246`. -/
def KeySchedule.new : KeySchedule :=
  ⟨SharedState.new S, ⟨KsState.new S, none⟩, ⟨KsState.new S, []⟩⟩

/-- `key_schedule.rs:252-254` `replace_transcript_hash`. -/
def KeySchedule.replaceTranscript (t : Bytes) (k : KeySchedule) : KeySchedule :=
  { k with server := { k.server with transcript := t } }

/-- `handshake/finished.rs:9-12` `Finished`. -/
structure Finished where
  verify : Bytes
  hash : Option Bytes
deriving DecidableEq, Repr

/-- `key_schedule.rs:273-294` `create_client_finished`. -/
def KeySchedule.createClientFinished (k : KeySchedule) : Res TlsError Finished :=
  (makeLabel S k.client.st.trafficSecret (ascii "finished") none S.hashLen).map
    fun key => ⟨S.hmac key (S.hash k.server.transcript), none⟩

/-- Lift an operation on the shared state. -/
def KeySchedule.onShared {α : Type} (m : M TlsError SharedState α) : M TlsError KeySchedule α := fun k =>
  let (r, s) := m k.shared
  (r, { k with shared := s })

/-- `key_schedule.rs:338-351` `initialize_early_secret`. -/
def KeySchedule.initializeEarlySecret (psk : Option Bytes) : M TlsError KeySchedule Unit := do
  M.modify fun k => { k with shared := k.shared.initialize S (psk.getD (List.replicate S.hashLen 0)) }
  let k ← M.get
  let binder ← M.lift (k.shared.deriveSecret S (ascii "ext binder") (some (S.hash [])))
  if binder.length < S.hashLen then M.fail .internalError
  else do
    M.modify fun k => { k with client := { k.client with binderKey := some binder } }
    KeySchedule.onShared (SharedState.derived S)

/-- `key_schedule.rs:375-380`: the client (write) half. -/
def KeySchedule.calculateClient (label : Bytes) : M TlsError KeySchedule Unit := fun k =>
  let (r, st) := KsState.calculate S label k.shared k.server.transcript k.client.st
  (r, { k with client := { k.client with st := st } })

/-- `key_schedule.rs:382-387`: the server (read) half. -/
def KeySchedule.calculateServer (label : Bytes) : M TlsError KeySchedule Unit := fun k =>
  let (r, st) := KsState.calculate S label k.shared k.server.transcript k.server.st
  (r, { k with server := { k.server with st := st } })

/-- `key_schedule.rs:370-388` `calculate_traffic_secrets`. -/
def KeySchedule.calculateTrafficSecrets (clientLabel serverLabel : Bytes) : M TlsError KeySchedule Unit := do
  KeySchedule.calculateClient S clientLabel
  KeySchedule.calculateServer S serverLabel

/-- `key_schedule.rs:353-358` `initialize_handshake_secret`. -/
def KeySchedule.initializeHandshakeSecret (ikm : Bytes) : M TlsError KeySchedule Unit := do
  M.modify fun k => { k with shared := k.shared.initialize S ikm }
  KeySchedule.calculateTrafficSecrets S (ascii "c hs traffic") (ascii "s hs traffic")
  KeySchedule.onShared (SharedState.derived S)

/-- `key_schedule.rs:360-368` `initialize_master_secret`. -/
def KeySchedule.initializeMasterSecret : M TlsError KeySchedule Unit := do
  M.modify fun k => { k with shared := k.shared.initialize S (List.replicate S.hashLen 0) }
  KeySchedule.calculateTrafficSecrets S (ascii "c ap traffic") (ascii "s ap traffic")
  KeySchedule.onShared (SharedState.derived S)

/-- `key_schedule.rs:423-439` `create_psk_binder`. -/
def WriteKS.createPskBinder (w : WriteKS) (transcript : Bytes) : Res TlsError Bytes :=
  (makeLabel S w.binderKey (ascii "finished") none S.hashLen).map fun key => S.hmac key (S.hash transcript)

/-- `key_schedule.rs:470-498` `verify_server_finished` (the constant-time comparison is `=`). -/
def ReadKS.verifyServerFinished (r : ReadKS) (f : Finished) : Res TlsError Bool :=
  match makeLabel S r.st.trafficSecret (ascii "finished") none S.hashLen with
  | .err e => .err e
  | .panic => .panic
  | .ok key =>
    match f.hash with
    | none => .err .internalError
    | some h => .ok (decide (S.hmac key h = f.verify))

end ETls
