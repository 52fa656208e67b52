import Verif.Model.ReadBuffer

/-! # Which operations can return I/O errors: everything but the transport cannot -/

namespace ETls

variable (S : Suite)

/-- Not one of the two errors that stand for a failure of the transport (`lib.rs:99`, `128`). -/
def TlsError.Plain : TlsError → Prop
  | .ioError => False
  | .io _ => False
  | _ => True

/-- The errors of an outcome are plain. -/
structure Res.Plain {α : Type} (r : Res TlsError α) : Prop where
  out : ∀ e, r = .err e → e.Plain

/-- The errors of an operation are plain. -/
structure Errs {σ α : Type} (m : M TlsError σ α) : Prop where
  out : ∀ s, (m s).1.Plain

theorem Res.Plain.ok {α : Type} (a : α) : (Res.ok a : Res TlsError α).Plain := ⟨fun e h => by cases h⟩
theorem Res.Plain.panic {α : Type} : (Res.panic : Res TlsError α).Plain := ⟨fun e h => by cases h⟩
theorem Res.Plain.err {α : Type} {e : TlsError} (h : e.Plain) : (Res.err e : Res TlsError α).Plain := by
  exact ⟨fun e' h' => by cases h'; exact h⟩

theorem Res.Plain.map {α β : Type} {r : Res TlsError α} (h : r.Plain) (f : α → β) : (r.map f).Plain := by
  cases r with
  | ok a => exact .ok _
  | err e => exact .err (h.out e rfl)
  | panic => exact .panic

theorem Res.Plain.cast {α β : Type} {e : TlsError} (h : (Res.err e : Res TlsError α).Plain) :
    (Res.err e : Res TlsError β).Plain := .err (h.out e rfl)

namespace Errs
variable {σ τ α β : Type}

theorem bind {m : M TlsError σ α} {g : α → M TlsError σ β} (h : Errs m) (hg : ∀ a, Errs (g a)) : Errs (m >>= g) := by
  refine ⟨fun s => ?_⟩
  have h1 := h.out s
  rcases hm : m s with ⟨r, s1⟩
  rw [hm] at h1
  cases r with
  | ok a => rw [M.bind_ok hm]; exact (hg a).out s1
  | err e => rw [M.bind_err hm]; exact h1.cast
  | panic => rw [M.bind_panic hm]; exact .panic

theorem pure (a : α) : Errs (Pure.pure a : M TlsError σ α) := ⟨fun _ => .ok _⟩
theorem fail {e : TlsError} (h : e.Plain) : Errs (M.fail e : M TlsError σ α) := ⟨fun _ => .err h⟩
theorem crash : Errs (M.crash : M TlsError σ α) := ⟨fun _ => .panic⟩
theorem get : Errs (M.get : M TlsError σ σ) := ⟨fun _ => .ok _⟩
theorem modify (f : σ → σ) : Errs (M.modify f : M TlsError σ Unit) := ⟨fun _ => .ok _⟩
theorem lift {r : Res TlsError α} (h : r.Plain) : Errs (M.lift r : M TlsError σ α) := ⟨fun _ => h⟩

theorem mapErr {ε : Type} {f : ε → TlsError} (h : ∀ e, (f e).Plain) (m : M ε σ α) : Errs (M.mapErr f m) := by
  refine ⟨fun s => ⟨fun e he => ?_⟩⟩
  simp only [M.mapErr] at he
  rcases hm : m s with ⟨r, s1⟩
  rw [hm] at he
  cases r with
  | ok a => cases he
  | err x => simp only [Res.mapErr, Res.err.injEq] at he; subst he; exact h x
  | panic => cases he

theorem orErr {e : TlsError} (h : e.Plain) (p : P α) : Errs (p.orErr e) := mapErr (f := fun _ => e) (fun _ => h) p
theorem toT (p : P α) : Errs p.toT := mapErr (f := TlsError.ofParse) (fun _ => trivial) p
theorem orEncodeError (p : Enc α) : Errs p.orEncodeError := mapErr (f := fun _ => .encodeError) (fun _ => trivial) p

theorem onFst {m : M TlsError σ α} (h : Errs m) : Errs (ETls.onFst (τ := τ) m) := ⟨fun s => h.out s.1⟩

end Errs

/-- Take an operation apart. -/
macro "errs" : tactic => `(tactic| repeat' first
  | assumption
  | exact Errs.pure _
  | exact Errs.get
  | exact Errs.modify _
  | exact Errs.crash
  | exact Errs.fail trivial
  | exact Errs.orErr trivial _
  | exact Errs.toT _
  | exact Errs.orEncodeError _
  | exact Errs.mapErr (fun _ => by trivial) _
  | apply Errs.onFst
  | apply Errs.bind
  | apply Errs.lift
  | apply Res.Plain.map
  | exact Res.Plain.ok _
  | exact Res.Plain.panic
  | exact Res.Plain.err trivial
  | intro _
  | split
  | dsimp only)

/-! ## Outgoing buffers and messages -/

theorem errs_space : Errs CB.space := by
  refine ⟨fun s => ?_⟩; unfold CB.space; errs
theorem errs_push (b : UInt8) : Errs (CB.push b) := by
  unfold CB.push; have := errs_space; errs
theorem errs_extend (b : Bytes) : Errs (CB.extend b) := by
  unfold CB.extend; have := errs_space; errs
theorem errs_set (i : Nat) (b : UInt8) : Errs (CB.set i b) := by
  refine ⟨fun s => ?_⟩; unfold CB.set; errs
theorem errs_setOffset (o : Nat) : Errs (CB.setOffset o) := by
  refine ⟨fun s => ?_⟩; unfold CB.setOffset; errs
theorem errs_forward : Errs CB.forward := ⟨fun s => (errs_setOffset s.len).out s⟩
theorem errs_rewind : Errs CB.rewind := errs_setOffset 0
theorem errs_setU16 (i n : Nat) : Errs (CB.setU16 i n) := (errs_set _ _).bind fun _ => errs_set _ _
theorem errs_setU24 (i n : Nat) : Errs (CB.setU24 i n) :=
  (errs_set _ _).bind fun _ => (errs_set _ _).bind fun _ => errs_set _ _

theorem errs_withU8 {α : Type} {op : Enc α} (h : Errs op) : Errs (CB.withU8Length op) := by
  unfold CB.withU8Length
  exact Errs.get.bind fun _ => (errs_push _).bind fun _ => Errs.get.bind fun _ => h.bind fun _ => Errs.get.bind fun _ =>
    (errs_set _ _).bind fun _ => Errs.pure _
theorem errs_withU16 {α : Type} {op : Enc α} (h : Errs op) : Errs (CB.withU16Length op) := by
  unfold CB.withU16Length
  exact Errs.get.bind fun _ => (errs_extend _).bind fun _ => Errs.get.bind fun _ => h.bind fun _ => Errs.get.bind fun _ =>
    (errs_setU16 _ _).bind fun _ => Errs.pure _
theorem errs_withU24 {α : Type} {op : Enc α} (h : Errs op) : Errs (CB.withU24Length op) := by
  unfold CB.withU24Length
  exact Errs.get.bind fun _ => (errs_extend _).bind fun _ => Errs.get.bind fun _ => h.bind fun _ => Errs.get.bind fun _ =>
    (errs_setU24 _ _).bind fun _ => Errs.pure _

theorem errs_encAll {α : Type} {f : α → Enc Unit} (h : ∀ x, Errs (f x)) : ∀ xs, Errs (encAll f xs)
  | [] => Errs.pure _
  | x :: xs => (h x).bind fun _ => errs_encAll h xs

theorem errs_encOpt {α : Type} {f : α → Enc Unit} (h : ∀ x, Errs (f x)) : ∀ o, Errs (encOpt f o)
  | none => Errs.pure _
  | some x => h x

theorem errs_extData (d : ExtData) : Errs d.encode := by
  cases d with
  | serverNameList ns =>
    exact errs_withU16 (errs_encAll (fun _ => (Errs.orEncodeError _).bind fun _ => Errs.orEncodeError _) _)
  | serverNameResponse => exact Errs.pure _
  | supportedVersionsCH vs => exact errs_withU8 (errs_encAll (fun _ => Errs.orEncodeError _) _)
  | supportedVersionsSH v => exact Errs.orEncodeError _
  | signatureAlgorithms xs => exact errs_withU16 (errs_encAll (fun _ => Errs.orEncodeError _) _)
  | supportedGroups gs => exact errs_withU16 (errs_encAll (fun _ => Errs.orEncodeError _) _)
  | keyShareCH ss =>
    exact errs_withU16 (errs_encAll (fun _ => (Errs.orEncodeError _).bind fun _ => Errs.orEncodeError _) _)
  | keyShareSH s => exact (Errs.orEncodeError _).bind fun _ => Errs.orEncodeError _
  | preSharedKeyCH ids n =>
    exact (Errs.orEncodeError _).bind fun _ => (Errs.orEncodeError _).bind fun _ =>
      errs_encAll (fun _ => Errs.orEncodeError _) _
  | preSharedKeySH n => exact Errs.orEncodeError _
  | pskModes ms => exact errs_withU8 (errs_encAll (fun _ => Errs.orEncodeError _) _)
  | maxFragmentLength m => exact Errs.orEncodeError _
  | alpn ps => exact errs_withU16 (errs_encAll (fun _ => (Errs.orEncodeError _).bind fun _ => errs_extend _) _)
  | unimplemented d => exact errs_extend _

theorem errs_ext (e : Ext) : Errs e.encode := (Errs.orEncodeError _).bind fun _ => errs_withU16 (errs_extData _)

theorem errs_clientHello (h : ClientHello) : Errs (h.encode S) := by
  unfold ClientHello.encode
  have : Errs (h.encodeExtensions S) := by
    unfold ClientHello.encodeExtensions
    repeat' first
      | exact errs_ext _
      | apply errs_encOpt
      | apply Errs.bind
      | intro _
  have := errs_withU16 this
  errs

theorem plain_makeLabel (prk : Option Bytes) (l : Bytes) (c : Option Bytes) (n : Nat) : (makeLabel S prk l c n).Plain := by
  unfold makeLabel
  split
  · exact .panic
  · dsimp only
    generalize be16 n ++ _ ++ _ ++ _ ++ _ = x
    split
    · exact .err (by trivial)
    · split
      · exact .err (by trivial)
      · split
        · exact .err (by trivial)
        · exact .ok _

theorem errs_binders (w : WriteKS) (tr : Bytes) : ∀ ids, Errs (bindersEncode S w tr ids)
  | [] => Errs.pure _
  | _ :: ids => (Errs.lift ((plain_makeLabel S _ _ _ _).map _)).bind fun _ =>
      ((Errs.orEncodeError _).bind fun _ => Errs.orEncodeError _).bind fun _ => errs_binders w tr ids

theorem errs_finalize (h : ClientHello) (w : WriteKS) : Errs (h.finalize S w) := by
  refine ⟨fun ⟨enc, tr⟩ => ?_⟩
  unfold ClientHello.finalize
  simp only
  split
  · exact .ok _
  · rename_i ids _
    split
    · exact .panic
    · have hb := (errs_binders S w (tr ++ enc.take (enc.length - ids.length * (1 + S.hashLen) - 2)) ids).out
        (CB.wrap (enc.drop (enc.length - ids.length * (1 + S.hashLen))))
      generalize bindersEncode S w _ ids _ = x at hb ⊢
      rcases x with ⟨r, c⟩
      cases r with
      | ok u => exact .ok _
      | err e => exact .err (hb.out e rfl)
      | panic => exact .panic

theorem errs_certEntry (e : CertEntry) : Errs e.encode := by
  cases e with
  | rawPublicKey d => exact Errs.crash
  | x509 c => exact (errs_withU24 (errs_extend _)).bind fun _ => errs_extend _

theorem errs_clientHs (m : ClientHs) : Errs (m.encode S) := by
  refine (Errs.orEncodeError _).bind fun _ => errs_withU24 ?_
  cases m with
  | clientHello h => exact errs_clientHello S h
  | finished f => exact Errs.orEncodeError _
  | clientCert c => exact (errs_withU8 (errs_extend _)).bind fun _ => errs_withU24 (errs_encAll errs_certEntry _)
  | clientCertVerify v => exact (errs_extend _).bind fun _ => errs_withU16 (errs_extend _)

theorem errs_payload (rec : ClientRecord) : Errs (rec.encodePayload S) := by
  cases rec with
  | handshake h e => exact errs_clientHs S h
  | alert a e => exact (Errs.orEncodeError _).bind fun _ => Errs.orEncodeError _

theorem errs_finishRecord (w : WriteKS) (rec : ClientRecord) : Errs (rec.finishRecord S w) := by
  cases rec with
  | alert a e => exact Errs.pure _
  | handshake h e =>
    cases h with
    | clientHello h =>
      cases e with
      | false => exact ⟨fun s => (errs_finalize S h w).out (s.1.asSlice, s.2)⟩
      | true => exact ⟨fun _ => .ok _⟩
    | clientCert c => exact ⟨fun _ => .ok _⟩
    | clientCertVerify v => exact ⟨fun _ => .ok _⟩
    | finished f => exact ⟨fun _ => .ok _⟩

theorem errs_encrypt (w : WriteKS) : Errs (encrypt S w) := by
  unfold encrypt; errs

theorem errs_withBuffer {τ : Type} {op : M TlsError (CB × τ) Unit} (h : Errs op) : Errs (WB.withBuffer op) := by
  refine ⟨fun ⟨w, t⟩ => ?_⟩
  unfold WB.withBuffer
  have h1 := h.out (CB.wrapWithPos w.buffer w.pos, t)
  rcases hm : op (CB.wrapWithPos w.buffer w.pos, t) with ⟨r, s⟩
  rw [hm] at h1
  dsimp only
  rw [hm]
  cases r with
  | ok u => exact .ok _
  | err e => exact h1
  | panic => exact .panic

theorem errs_withBuffer' {op : Enc Unit} (h : Errs op) : Errs (WB.withBuffer' op) :=
  ⟨fun w => (errs_withBuffer (h.onFst (τ := Unit))).out (w, ())⟩

theorem errs_startRecord (h : ClientRecordHeader) : Errs (WB.startRecord h) := by
  unfold WB.startRecord
  have : Errs (do h.encode; CB.pushU16 0; CB.rewind) :=
    ((Errs.orEncodeError _).bind fun _ => Errs.orEncodeError _).bind fun _ => (errs_extend _).bind fun _ => errs_rewind
  have := errs_withBuffer' this
  errs

theorem errs_closeRecord (w : WriteKS) : Errs (WB.closeRecord S w) := by
  unfold WB.closeRecord
  refine Errs.get.bind fun wb => ?_
  split
  · exact Errs.crash
  · refine (Errs.modify _).bind fun _ => (errs_withBuffer' ?_).bind fun _ => ?_
    · split
      · exact (Errs.orEncodeError _).bind fun _ => (errs_setOffset _).bind fun _ => (errs_encrypt S w).bind fun _ =>
          errs_rewind
      · exact Errs.pure _
    · errs

theorem errs_writeRecord (rec : ClientRecord) (w : WriteKS) : Errs (WB.writeRecord S rec w) := by
  unfold WB.writeRecord
  refine Errs.get.bind fun wb => ?_
  simp only
  split
  · exact Errs.fail (by trivial)
  · exact ((errs_startRecord _).onFst).bind fun _ => (errs_withBuffer (errs_forward.onFst.bind fun _ =>
      (errs_payload S rec).onFst.bind fun _ => (errs_finishRecord S w rec).bind fun _ => errs_rewind.onFst)).bind fun _ =>
      (errs_closeRecord S w).onFst

theorem errs_maxBlockSize : Errs WB.maxBlockSize := by refine ⟨fun s => ?_⟩; unfold WB.maxBlockSize; errs
theorem errs_isFull : Errs WB.isFull := by unfold WB.isFull; have := errs_maxBlockSize; errs
theorem errs_wbSpace : Errs WB.space := by unfold WB.space; have := errs_maxBlockSize; errs
theorem errs_append (bs : Bytes) : Errs (WB.append bs) := by unfold WB.append; have := errs_wbSpace; errs

/-! ## Incoming messages -/

theorem errs_extParse (g : ExtGroup) : Errs (extParse g) := by
  refine ⟨fun p0 => ?_⟩
  unfold extParse
  rcases ExtensionType.parse p0 with ⟨ty, p1⟩
  simp only
  refine (Errs.bind (Errs.orErr (by trivial) _) (fun n => Errs.bind (Errs.orErr (by trivial) _) fun d => ?_)).out p1
  errs

theorem errs_extLoop (g : ExtGroup) (cap : Nat) : ∀ n acc, Errs (extLoop g cap n acc)
  | 0, _ => Errs.crash
  | n + 1, acc => by
    refine ⟨fun p => ?_⟩
    unfold extLoop
    split
    · exact .ok _
    · have h1 := (errs_extParse g).out p
      split
      · split
        · exact (errs_extLoop g cap n _).out _
        · exact .err (by trivial)
      · exact (errs_extLoop g cap n _).out _
      · rename_i e p' _ heq
        rw [heq] at h1
        exact h1.cast
      · exact .panic

theorem errs_extVector (g : ExtGroup) (cap : Nat) : Errs (extParseVector g cap) := by
  unfold extParseVector
  exact (Errs.orErr (by trivial) _).bind fun _ => (Errs.toT _).bind fun b => Errs.lift ((errs_extLoop g cap _ _).out b)

theorem errs_readListLoop {α : Type} (cap : Nat) {full : TlsError} (hf : full.Plain) {read : M TlsError PB α}
    (h : Errs read) : ∀ n acc, Errs (PB.readListLoop cap full read n acc)
  | 0, _ => Errs.crash
  | n + 1, acc => by
    refine ⟨fun p => ?_⟩
    unfold PB.readListLoop
    split
    · exact .ok _
    · refine (Errs.bind h (fun x => ?_)).out p
      split
      · exact errs_readListLoop cap hf h n _
      · exact Errs.fail hf

theorem errs_certMsg : Errs CertMsg.parse := by
  unfold CertMsg.parse
  have hentry : Errs CertEntry.parse := by
    unfold CertEntry.parse
    have := errs_extVector certificateGroup 2
    errs
  have : ∀ raw : PB, (CertEntry.parseVector 16 raw).Plain := fun raw =>
    (errs_readListLoop 16 (full := .decodeError) trivial hentry _ _).out raw
  refine (Errs.orErr (by trivial) _).bind fun _ => (Errs.orErr (by trivial) _).bind fun _ => (Errs.orErr (by trivial) _).bind fun _ =>
    (Errs.orErr (by trivial) _).bind fun raw => (Errs.lift (this raw)).bind fun _ => Errs.pure _

theorem errs_serverHs : Errs (ServerHs.parse S) := by
  unfold ServerHs.parse
  refine (Errs.orErr (by trivial) _).bind fun t => (Errs.orErr (by trivial) _).bind fun _ => ?_
  have h1 : Errs serverHelloParse := by
    unfold serverHelloParse; have := errs_extVector serverHelloGroup 4; errs
  have h2 : Errs newSessionTicketParse := by
    unfold newSessionTicketParse; have := errs_extVector newSessionTicketGroup 1; errs
  have h3 : Errs encryptedExtensionsParse := by
    unfold encryptedExtensionsParse; have := errs_extVector encryptedExtensionsGroup 16; errs
  have h4 := errs_certMsg
  have h5 : Errs certRequestParse := by
    unfold certRequestParse; have := errs_extVector certificateRequestGroup 6; errs
  have h6 : Errs CertVerify.parse := by unfold CertVerify.parse; errs
  have h7 : Errs (finishedParse S) := by unfold finishedParse; errs
  errs

theorem errs_hsRead : Errs (ServerHs.read S) := by
  refine ⟨fun ⟨p, tr⟩ => ?_⟩
  unfold ServerHs.read
  have h1 := (errs_serverHs S).out p
  simp only
  split
  · exact .ok _
  · rename_i heq; rw [heq] at h1; exact h1.cast
  · exact .panic

theorem errs_alert : Errs Alert.parse := by unfold Alert.parse; errs

theorem errs_recordDecode (h : RecordHeader) (start : Nat) (data : Bytes) : Errs (ServerRecord.decode S h start data) := by
  unfold ServerRecord.decode
  split
  · exact Errs.crash
  · split
    · exact Errs.fail (by trivial)
    · exact (Errs.lift (by unfold changeCipherSpecRead; exact .ok _)).bind fun _ => Errs.pure _
    · exact ⟨fun tr => (errs_alert.out _).map _⟩
    · exact ⟨fun tr => ((errs_hsRead S).out (PB.new data, tr)).map _⟩
    · exact Errs.pure _

theorem errs_consume (h : RecordHeader) : Errs (consumeRecord S h) := by
  refine ⟨fun s => ?_⟩
  unfold consumeRecord
  simp only
  split
  · exact .panic
  · split
    · exact .panic
    · exact (errs_recordDecode S h _ _).out _

theorem errs_handshakeLoop {τ : Type} {cb : ServerRecord → M TlsError (ReadKS × τ) Unit} (hcb : ∀ r, Errs (cb r)) :
    ∀ n p, Errs (handshakeLoop S cb n p)
  | 0, _ => Errs.crash
  | n + 1, p => by
    refine ⟨fun ⟨k, t⟩ => ?_⟩
    unfold handshakeLoop
    simp only
    split
    · have h1 := (errs_hsRead S).out (p, k.transcript)
      split
      · rename_i h p' tr heq
        have h2 := (hcb (.handshake h)).out ({ k with transcript := tr }, t)
        split
        · exact (errs_handshakeLoop hcb n _).out _
        · rename_i heq2; rw [heq2] at h2; exact h2
        · exact .panic
      · rename_i heq; rw [heq] at h1; exact h1.cast
      · exact .panic
    · exact .ok _

theorem errs_dispatch {τ : Type} {cb : ServerRecord → M TlsError (ReadKS × τ) Unit} (hcb : ∀ r, Errs (cb r))
    (header : Bytes) (start : Nat) (pt : Bytes) : Errs (dispatchInner S cb header start pt) := by
  unfold dispatchInner
  split
  · exact Errs.crash
  · split
    · exact Errs.fail (by trivial)
    · simp only
      split
      · exact errs_handshakeLoop S hcb _ _
      · exact hcb _
      · exact (Errs.lift (errs_alert.out _)).bind fun _ => hcb _
      · exact Errs.fail (by trivial)

theorem plain_increment {k : KsState} : (KsState.increment (ε := TlsError) k).1.Plain := by
  unfold KsState.increment
  split
  · exact .ok _
  · exact .panic

theorem errs_decrypt {τ : Type} {cb : ServerRecord → M TlsError (ReadKS × τ) Unit} (hcb : ∀ r, Errs (cb r))
    (rec : ServerRecord) : Errs (decryptRecord S cb rec) := by
  refine ⟨fun s => ?_⟩
  unfold decryptRecord
  split
  · rename_i header start data
    split
    · exact .err (by trivial)
    · rename_i pt _
      have h1 := (errs_dispatch S hcb header start pt).out (s.rks, s.ext)
      simp only
      split
      · exact plain_increment
      · rename_i heq; rw [heq] at h1; exact h1
      · exact .panic
  · exact (hcb _).out _

theorem errs_readHandler (n : Nat) (r : ServerRecord) : Errs (readHandler n r) := by
  cases r with
  | appData header start data =>
    refine ⟨fun ⟨k, d, o⟩ => ?_⟩
    simp only [readHandler]
    split
    · exact .ok _
    · exact .panic
  | alert a =>
    refine ⟨fun ⟨k, d, o⟩ => ?_⟩
    simp only [readHandler]
    split
    · exact .err (by trivial)
    · exact .err (by trivial)
  | changeCipherSpec => exact Errs.fail (by trivial)
  | handshake h =>
    cases h with
    | newSessionTicket => exact Errs.pure _
    | _ => exact Errs.crash

theorem errs_useBuffer (ops : List RBufOp) (rv : Bool) : Errs (RdHalf.useBuffer ops rv) := by
  have hs : ∀ a b, Errs (RBuf.slice a b) := by intro a b; refine ⟨fun s => ?_⟩; unfold RBuf.slice; errs
  have hp : ∀ n, Errs (RBuf.pop n) := fun n => by
    unfold RBuf.pop
    exact Errs.get.bind fun _ => (Errs.modify _).bind fun _ => (Errs.modify _).bind fun _ => hs _ _
  have hk : ∀ n, Errs (RBuf.peek n) := fun n => by
    unfold RBuf.peek
    exact Errs.get.bind fun _ => (Errs.modify _).bind fun _ => hs _ _
  have hop : ∀ op : RBufOp, Errs op.run := by
    intro op
    cases op with
    | peek n => exact hk n
    | peekAll => exact Errs.get.bind fun _ => hk _
    | pop n => exact hp n
    | popAll => exact Errs.get.bind fun _ => hp _
    | popInto n =>
      refine (hp n).bind fun d => ?_
      split
      · exact Errs.pure _
      · exact Errs.crash
  have hr : ∀ ops, Errs (RBuf.runOps ops) := by
    intro ops
    induction ops with
    | nil => exact Errs.pure _
    | cons op ops ih => exact (hop op).bind fun _ => ih.bind fun _ => Errs.pure _
  refine ⟨fun h => ?_⟩
  unfold RdHalf.useBuffer
  have ha : (RdHalf.available h).1.Plain := by unfold RdHalf.available; simp only; errs
  split
  · rename_i d h1 _
    have := (hr ops).out (RBuf.new d)
    split
    · exact .ok _
    · rename_i heq; rw [heq] at this; exact this.cast
    · exact .panic
  · rename_i heq; rw [heq] at ha; exact ha.cast
  · exact .panic

end ETls
