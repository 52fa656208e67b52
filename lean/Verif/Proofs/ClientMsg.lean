import Verif.Proofs.ChDecode
import Verif.Proofs.WritePath
import Verif.Props.KeySchedule

/-! # The bytes of the client's handshake messages -/

namespace ETls

variable (S : Suite)
open Spec

/-- The ClientHello extensions other than pre_shared_key that a configuration asks for, in the order of
`client_hello.rs:82-146`. -/
def helloExtensions (cfg : Config) (publicKey : Bytes) : List ChExt :=
  [.supportedVersions [0x0304], .signatureAlgorithms (cfg.signatureSchemes.map SignatureScheme.code)] ++
  (cfg.maxFragmentLength.toList.map fun m => .maxFragmentLength m.code) ++
  [.supportedGroups (cfg.namedGroups.map NamedGroup.code), .pskKeyExchangeModes [1], .keyShare [(0x17, publicKey)]] ++
  (cfg.serverName.toList.map fun n => .serverName [n]) ++
  (cfg.alpn.toList.map fun ps => .alpn ps)

/-- The pre_shared_key extension with the given bytes as binder list. -/
def pskExtBytes (ids : List Bytes) (tail : Bytes) : Bytes :=
  u16 41 ++ vec16 (vec16 (ids.flatMap fun i => vec16 i ++ u32 0) ++ vec16 tail)

/-- Size of the binder list. -/
def bindersSize (cfg : Config) : Nat := (cfg.psk.elim 0 fun p => p.2.length) * (1 + S.hashLen)

/-- The extension block with the given bytes as binder list. -/
def helloExtBytes (h : ClientHello) (tail : Bytes) : Bytes :=
  (helloExtensions h.config (S.pubKey h.secret)).flatMap ChExt.bytes ++
    h.config.psk.elim [] fun p => pskExtBytes p.2 tail

/-- The ClientHello with the given bytes as binder list. -/
def helloBytes (h : ClientHello) (tail : Bytes) : Bytes :=
  handshake 1 (u16 0x0303 ++ h.random ++ vec8 [] ++ vec16 (u16 S.codePoint) ++ vec8 [0] ++ vec16 (helloExtBytes S h tail))

theorem ext_appends {e : Ext} {c : ChExt} (ht : e.ty.code = c.type) (h : Appends e.data.encode c.data ()) :
    Appends e.encode c.bytes () := by
  unfold Ext.encode ChExt.bytes
  rw [← ht]
  exact (Appends.pushU16 _).orEncodeError.seq h.withU16Length

theorem supportedVersions_appends :
    Appends (Ext.mk .supportedVersions (.supportedVersionsCH [0x0304])).encode
      (ChExt.supportedVersions [0x0304]).bytes () :=
  ext_appends rfl ((Appends.encAll (g := u16) _ fun x _ => (Appends.pushU16 x).orEncodeError).withU8Length)

theorem flatMap_map' {α β : Type} (f : α → β) (g : β → Bytes) (xs : List α) :
    (xs.map f).flatMap g = xs.flatMap fun x => g (f x) := by
  induction xs with
  | nil => rfl
  | cons x xs ih => simp [ih]

theorem signatureAlgorithms_appends (xs : List SignatureScheme) :
    Appends (Ext.mk .signatureAlgorithms (.signatureAlgorithms xs)).encode
      (ChExt.signatureAlgorithms (xs.map SignatureScheme.code)).bytes () := by
  refine ext_appends rfl ?_
  simp only [ChExt.data, flatMap_map']
  exact (Appends.encAll (g := fun a : SignatureScheme => u16 a.code) _
    fun x _ => (Appends.pushU16 _).orEncodeError).withU16Length

theorem supportedGroups_appends (xs : List NamedGroup) :
    Appends (Ext.mk .supportedGroups (.supportedGroups xs)).encode
      (ChExt.supportedGroups (xs.map NamedGroup.code)).bytes () := by
  refine ext_appends rfl ?_
  simp only [ChExt.data, flatMap_map']
  exact (Appends.encAll (g := fun a : NamedGroup => u16 a.code) _
    fun x _ => (Appends.pushU16 _).orEncodeError).withU16Length

theorem maxFragmentLength_appends (m : MaxFragmentLength) :
    Appends (Ext.mk .maxFragmentLength (.maxFragmentLength m)).encode (ChExt.maxFragmentLength m.code).bytes () :=
  ext_appends rfl (Appends.push _).orEncodeError

theorem pskModes_appends :
    Appends (Ext.mk .pskKeyExchangeModes (.pskModes [.pskDheKe])).encode (ChExt.pskKeyExchangeModes [1]).bytes () :=
  ext_appends rfl ((Appends.encAll (g := fun m : PskKeyExchangeMode => [UInt8.ofNat m.code]) _
    fun _ _ => (Appends.push _).orEncodeError).withU8Length)

theorem keyShare_appends (pk : Bytes) :
    Appends (Ext.mk .keyShare (.keyShareCH [⟨.secp256r1, pk⟩])).encode (ChExt.keyShare [(0x17, pk)]).bytes () := by
  refine ext_appends rfl ?_
  exact (Appends.encAll (g := fun e : KeyShareEntry => u16 e.group.code ++ vec16 e.opaq) [⟨.secp256r1, pk⟩]
    fun x _ => (Appends.pushU16 _).orEncodeError.seq (Appends.extend x.opaq).withU16Length.orEncodeError).withU16Length

theorem serverName_appends (n : Bytes) :
    Appends (Ext.mk .serverName (.serverNameList [n])).encode (ChExt.serverName [n]).bytes () := by
  refine ext_appends rfl ?_
  exact (Appends.encAll (g := fun n : Bytes => 0 :: vec16 n) [n]
    fun x _ => (Appends.push 0).orEncodeError.seq (Appends.extend x).withU16Length.orEncodeError).withU16Length

theorem alpn_appends (ps : List Bytes) :
    Appends (Ext.mk .alpn (.alpn ps)).encode (ChExt.alpn ps).bytes () := by
  refine ext_appends rfl ?_
  exact (Appends.encAll (g := vec8) ps
    fun x _ => (Appends.push _).orEncodeError.seq (Appends.extend x)).withU16Length

theorem flatMap_zeros (n : Nat) : (List.range n).flatMap (fun _ => [(0 : UInt8)]) = List.replicate n 0 := by
  induction n with
  | zero => rfl
  | succ n ih => simp [List.range_succ, ih, List.replicate_succ']

theorem psk_appends (ids : List Bytes) (n : Nat) :
    Appends (Ext.mk .preSharedKey (.preSharedKeyCH ids n)).encode
      (pskExtBytes ids (List.replicate (ids.length * (1 + n)) 0)) () := by
  have h1 := ((Appends.encAll (f := pskIdentityEncode) (g := fun i : Bytes => vec16 i ++ u32 0) ids
    fun x _ => (Appends.extend x).withU16Length.orEncodeError.seq
      (Appends.pushU32 0).orEncodeError).withU16Length.orEncodeError).seq
    ((Appends.pushU16 ((1 + n) * ids.length)).orEncodeError.seq
      (Appends.encAll (f := fun (_ : Nat) => (CB.push 0).orEncodeError) (g := fun _ => [0])
        (List.range ((1 + n) * ids.length)) fun x _ => (Appends.push 0).orEncodeError))
  rw [flatMap_zeros, Nat.mul_comm (1 + n)] at h1
  have h2 := (Appends.pushU16 41).orEncodeError.seq h1.withU16Length
  unfold Ext.encode ExtData.encode
  simp only [Nat.mul_comm (1 + n)]
  refine Appends.cast h2 ?_
  simp [pskExtBytes, vec16, u16, be16]

theorem elim_map_bytes {α : Type} (o : Option α) (f : α → ChExt) :
    (o.toList.map f).flatMap ChExt.bytes = o.elim [] fun x => (f x).bytes := by
  cases o <;> simp

/-- The bytes `ClientHello::encode` writes before the binders are filled in. -/
theorem hello_appends (h : ClientHello) :
    Appends ((ClientHs.clientHello h).encode S) (helloBytes S h (List.replicate (bindersSize S h.config) 0)) () := by
  have hx : Appends (h.encodeExtensions S) (helloExtBytes S h (List.replicate (bindersSize S h.config) 0)) () := by
    unfold ClientHello.encodeExtensions
    have := supportedVersions_appends.seq ((signatureAlgorithms_appends h.config.signatureSchemes).seq
      ((Appends.encOpt h.config.maxFragmentLength maxFragmentLength_appends).seq
      ((supportedGroups_appends h.config.namedGroups).seq (pskModes_appends.seq
      ((keyShare_appends (S.pubKey h.secret)).seq
      ((Appends.encOpt h.config.serverName serverName_appends).seq
      ((Appends.encOpt h.config.alpn alpn_appends).seq
      (Appends.encOpt h.config.psk (fun p => psk_appends p.2 S.hashLen)))))))))
    refine this.cast ?_
    unfold helloExtBytes helloExtensions
    simp only [List.flatMap_append, elim_map_bytes, List.flatMap_cons, List.flatMap_nil, List.append_nil,
      List.append_assoc]
    rcases hp : h.config.psk with _ | ⟨k, ids⟩
    · rfl
    · simp only [Option.elim_some, bindersSize, hp]
  have := (Appends.push (UInt8.ofNat 1)).orEncodeError.seq
    (((Appends.pushU16 0x0303).orEncodeError.seq ((Appends.extend h.random).orEncodeError.seq
      ((Appends.push 0).orEncodeError.seq ((Appends.pushU16 2).orEncodeError.seq
      ((Appends.pushU16 S.codePoint).orEncodeError.seq ((Appends.push 1).orEncodeError.seq
      ((Appends.push 0).orEncodeError.seq hx.withU16Length))))))).withU24Length)
  refine Appends.cast (bs := _) this ?_
  simp [helloBytes, handshake, vec24, vec16, vec8, u24, u16, be24, be16]

theorem clientCert_appends (raw ctx : Bytes) (certs : List Bytes) :
    Appends ((ClientHs.clientCert ⟨raw, ctx, certs.map .x509⟩).encode S) (certificateMsg ctx certs) () := by
  have h1 : Appends (encAll CertEntry.encode (certs.map .x509))
      ((certs.map CertEntry.x509).flatMap fun e => match e with
        | .x509 c => vec24 c ++ vec16 []
        | .rawPublicKey _ => []) () := by
    refine Appends.encAll _ fun e he => ?_
    obtain ⟨c, _, rfl⟩ := List.mem_map.1 he
    exact (Appends.extend c).withU24Length.seq (Appends.pushU16 0)
  rw [flatMap_map'] at h1
  exact (Appends.push _).orEncodeError.seq
    (((Appends.extend ctx).withU8Length.seq h1.withU24Length).withU24Length)

theorem certVerify_appends (scheme : SignatureScheme) (sig : Bytes) :
    Appends ((ClientHs.clientCertVerify ⟨scheme, sig⟩).encode S) (certificateVerifyMsg scheme.code sig) () :=
  (Appends.push _).orEncodeError.seq
    (((Appends.pushU16 scheme.code).seq (Appends.extend sig).withU16Length).withU24Length)

theorem finished_appends (v : Bytes) (o : Option Bytes) :
    Appends ((ClientHs.finished ⟨v, o⟩).encode S) (finishedMsg v) () :=
  (Appends.push _).orEncodeError.seq ((Appends.extend v).orEncodeError.withU24Length)

/-! ## Filling in the binders -/

theorem helloBytes_none (h : ClientHello) (hp : h.config.psk = none) (t t' : Bytes) :
    helloBytes S h t = helloBytes S h t' := by
  simp [helloBytes, helloExtBytes, hp]

/-- On arguments of length `n`, `f` is a fixed prefix, the length, and the argument. -/
def FixedHead (n : Nat) (f : Bytes → Bytes) : Prop := ∃ P : Bytes, ∀ t, t.length = n → f t = P ++ (u16 n ++ t)

theorem FixedHead.prepend {n : Nat} {f : Bytes → Bytes} (h : FixedHead n f) (A : Bytes) :
    FixedHead n fun t => A ++ f t := by
  obtain ⟨P, h⟩ := h
  exact ⟨A ++ P, fun t ht => by simp only [h t ht, List.append_assoc]⟩

theorem FixedHead.vec16 {n : Nat} {f : Bytes → Bytes} (h : FixedHead n f) : FixedHead n fun t => Spec.vec16 (f t) := by
  obtain ⟨P, h⟩ := h
  refine ⟨u16 (P.length + (2 + n)) ++ P, fun t ht => ?_⟩
  simp only [Spec.vec16, h t ht, List.length_append, ht, List.append_assoc]
  rfl

theorem FixedHead.vec24 {n : Nat} {f : Bytes → Bytes} (h : FixedHead n f) : FixedHead n fun t => Spec.vec24 (f t) := by
  obtain ⟨P, h⟩ := h
  refine ⟨u24 (P.length + (2 + n)) ++ P, fun t ht => ?_⟩
  simp only [Spec.vec24, h t ht, List.length_append, ht, List.append_assoc]
  rfl

/-- The ClientHello is a head that depends only on the length of the binder list, the length of that list, and the
list. -/
theorem helloBytes_split (h : ClientHello) (key : Bytes) (ids : List Bytes) (hp : h.config.psk = some (key, ids))
    (n : Nat) : FixedHead n (helloBytes S h) := by
  have h0 : FixedHead n fun t => Spec.vec16 t := ⟨[], fun t ht => by simp [Spec.vec16, ht]⟩
  have h1 : FixedHead n (pskExtBytes ids) := (h0.prepend _).vec16.prepend _
  have h2 : FixedHead n (helloExtBytes S h) := by
    have := h1.prepend ((helloExtensions h.config (S.pubKey h.secret)).flatMap ChExt.bytes)
    unfold helloExtBytes
    simpa only [hp, Option.elim_some] using this
  exact (((h2.vec16.prepend _).vec24).prepend [1])

theorem bindersEncode_appends (w : WriteKS) (tr b : Bytes) (hb : w.createPskBinder S tr = .ok b) (ids : List Bytes) :
    Appends (bindersEncode S w tr ids) ((List.replicate ids.length b).flatMap vec8) () := by
  induction ids with
  | nil => exact Appends.pure ()
  | cons i ids ih =>
    unfold bindersEncode
    rw [hb]
    have : Appends (pskBinderEncode b) (vec8 b) () :=
      (Appends.push _).orEncodeError.seq (Appends.extend b).orEncodeError
    refine (this.seq ih).cast ?_
    simp [List.replicate_succ]

theorem flatMap_replicate_length (n : Nat) (b : Bytes) :
    ((List.replicate n b).flatMap vec8).length = n * (1 + b.length) := by
  induction n with
  | zero => simp
  | succ n ih => simp [List.replicate_succ, ih, vec8_length, Nat.succ_mul]; omega

/-- `finalize` of a ClientHello without PSK: the message is added to the transcript. -/
theorem finalize_none (h : ClientHello) (w : WriteKS) (hp : h.config.psk = none) (m tr : Bytes) :
    h.finalize S w (m, tr) = (.ok (), (m, tr ++ m)) := by
  simp [ClientHello.finalize, hp]

/-- `finalize` of a ClientHello with PSK, when the message is a head `P`, the length of the binder list and zeros. -/
theorem finalize_some (h : ClientHello) (w : WriteKS) (key : Bytes) (ids : List Bytes)
    (hp : h.config.psk = some (key, ids)) (P tr b : Bytes) (hb : w.createPskBinder S (tr ++ P) = .ok b)
    (hl : b.length = S.hashLen) :
    h.finalize S w (P ++ (u16 (ids.length * (1 + S.hashLen)) ++ List.replicate (ids.length * (1 + S.hashLen)) 0), tr) =
      (.ok (), (P ++ (u16 (ids.length * (1 + S.hashLen)) ++ (List.replicate ids.length b).flatMap vec8),
        tr ++ (P ++ (u16 (ids.length * (1 + S.hashLen)) ++ (List.replicate ids.length b).flatMap vec8)))) := by
  unfold ClientHello.finalize
  simp only [hp]
  generalize hn : ids.length * (1 + S.hashLen) = n
  have hbl : ((List.replicate ids.length b).flatMap vec8).length = n := by
    rw [flatMap_replicate_length, hl, hn]
  have hu : (u16 n).length = 2 := rfl
  have hlen : (P ++ (u16 n ++ List.replicate n 0)).length = P.length + 2 + n := by simp [hu]; omega
  rw [if_neg (by omega), hlen, show P.length + 2 + n - n - 2 = P.length by omega, List.take_left,
    show P.length + 2 + n - n = (P ++ u16 n).length by simp [hu], ← List.append_assoc P, List.drop_left,
    List.take_left]
  obtain ⟨g, _⟩ := bindersEncode_appends S w (tr ++ P) b hb ids 0 0 [] (List.replicate n 0) rfl
  have g := g (by simp [hbl])
  simp only [List.nil_append, hbl, Nat.zero_add] at g
  unfold CB.wrap
  rw [g]
  simp

end ETls
