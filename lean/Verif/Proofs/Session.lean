import Verif.Spec.Handshake
import Verif.Proofs.Sound
import Verif.Proofs.HandshakeOpen
import Verif.Props.Messages

/-! # From the model's description of a handshake to the wire-level one -/

namespace ETls

variable (S : Suite) {V : Type}
open Spec

theorem header_shape {hdr : Bytes} {rh : RecordHeader} (h : RecordHeader.decode hdr = .ok rh) :
    ∃ v1 v2, hdr = [UInt8.ofNat rh.contentType.code, v1, v2] ++ u16 rh.contentLength ∧ rh.contentLength < 65536 := by
  unfold RecordHeader.decode at h
  split at h
  · next a b c d e =>
    split at h
    · simp at h
    · next t ht =>
      simp only [Res.ok.injEq] at h
      subst h
      have h1 := C04_content_type.encode_decode _ _ ht
      have hd := d.toNat_lt
      have he := e.toNat_lt
      refine ⟨b, c, ?_, ?_⟩
      · simp only [h1, u16, UInt8.ofNat_toNat, List.cons_append, List.nil_append, List.cons.injEq, true_and, and_true]
        refine ⟨?_, ?_⟩
        · apply UInt8.toNat.inj; simp only [UInt8.toNat_ofNat']; omega
        · apply UInt8.toNat.inj; simp only [UInt8.toNat_ofNat']; omega
      · simp only; omega
  · simp at h

theorem ParsedAs.encodes {m : Bytes} {h : ServerHs} (hp : ParsedAs S m h) :
    ∃ r : RawMsg, r.WellSized S.hashLen ∧ Encodes m r ∧ decoded r = .ok h := by
  obtain ⟨A, B, hp⟩ := hp
  obtain ⟨r, n, h1, h2, h3, h4⟩ := parse_sound S A m B h hp
  exact ⟨r, h1, ⟨n, h2, h3⟩, h4⟩

/-- Pairs of corresponding messages. -/
def Matches (a : Bytes × ServerHs) (b : Bytes × RawMsg) : Prop :=
  a.1 = b.1 ∧ b.2.WellSized S.hashLen ∧ Encodes b.1 b.2 ∧ decoded b.2 = .ok a.2

theorem ParsedAs.list {ms : List (Bytes × ServerHs)} (h : ∀ m ∈ ms, ParsedAs S m.1 m.2) :
    ∃ rs, List.Forall₂ (Matches S) ms rs := by
  induction ms with
  | nil => exact ⟨[], .nil⟩
  | cons m ms ih =>
    obtain ⟨rs, hrs⟩ := ih fun x hx => h x (List.mem_cons_of_mem _ hx)
    obtain ⟨r, h1, h2, h3⟩ := (h m List.mem_cons_self).encodes S
    exact ⟨(m.1, r) :: rs, .cons ⟨rfl, h1, h2, h3⟩ hrs⟩

theorem Matches.bytes {ms : List (Bytes × ServerHs)} {rs : List (Bytes × RawMsg)} (h : List.Forall₂ (Matches S) ms rs) :
    ms.map Prod.fst = rs.map Prod.fst := by
  induction h with
  | nil => rfl
  | cons h _ ih => simp [h.1, ih]

theorem Matches.msgBytes {ms : List (Bytes × ServerHs)} {rs : List (Bytes × RawMsg)} (h : List.Forall₂ (Matches S) ms rs) :
    ETls.msgBytes ms = Session.bytesOf rs := by
  induction h with
  | nil => rfl
  | cons h _ ih =>
    simp only [ETls.msgBytes, Session.bytesOf, List.flatMap_cons] at ih ⊢
    rw [h.1, ih]

theorem Matches.encoded {ms : List (Bytes × ServerHs)} {rs : List (Bytes × RawMsg)} (h : List.Forall₂ (Matches S) ms rs) :
    ∀ m ∈ rs, m.2.WellSized S.hashLen ∧ Encodes m.1 m.2 := by
  induction h with
  | nil => simp
  | cons h _ ih =>
    intro m hm
    rcases List.mem_cons.1 hm with rfl | hm
    · exact ⟨h.2.1, h.2.2.1⟩
    · exact ih m hm

theorem msgBytes_flatten (ms : List (Bytes × ServerHs)) : msgBytes ms = (ms.map Prod.fst).flatten := by
  simp [msgBytes, List.flatMap]

theorem Incoming.carries (hS : S.Lawful) {k : KsState} (hk : k.iv.length = S.ivLen) {record : Bytes} {ms : List (Bytes × ServerHs)} {n : Nat}
    (h : Incoming S k record ms n) : Carries S k.key k.iv k.counter record (ms.map Prod.fst) n := by
  have hb : ∀ m, u16 m = be16 m := fun _ => rfl
  cases h with
  | plain hdr m junk h rh hd ht hl hp h4 =>
    obtain ⟨v1, v2, rfl, hlen⟩ := header_shape hd
    rw [ht, hl]
    exact .plain v1 v2 m junk (by omega)
  | protected_ hdr ct rh hd ht hl n ms hms ho =>
    obtain ⟨v1, v2, rfl, hlen⟩ := header_shape hd
    rw [ht, hl] at ho ⊢
    rw [nonce_eq S hS.ivLen_eq _ hk, msgBytes_flatten] at ho
    exact .encrypted v1 v2 ct _ n (by omega) ho
  | changeCipherSpec hdr data rh hd ht hl =>
    obtain ⟨v1, v2, rfl, hlen⟩ := header_shape hd
    rw [ht, hl]
    exact .changeCipherSpec v1 v2 data (by omega)

theorem Received.carries (hS : S.Lawful) {k k' : KsState} {fl : List (Bytes × List (Bytes × ServerHs))}
    (h : Received S k fl k') (hk : k.iv.length = S.ivLen) :
    CarriesAll S k.key k.iv k.counter (fl.map Prod.fst) ((flightMsgs fl).map Prod.fst) := by
  induction h with
  | nil k => exact .nil _
  | cons k k' record ms n rest h hr ih =>
    have := CarriesAll.cons (S := S) _ _ _ _ _ _ (h.carries S hS hk) (ih hk)
    simpa [flightMsgs] using this

theorem Incoming.parsed {k : KsState} {record : Bytes} {ms : List (Bytes × ServerHs)} {n : Nat}
    (h : Incoming S k record ms n) : ∀ m ∈ ms, ParsedAs S m.1 m.2 := by
  cases h with
  | plain hdr m junk h rh hd ht hl hp h4 => simpa using hp
  | protected_ hdr ct rh hd ht hl n ms hms ho => exact fun m hm => (hms m hm).1
  | changeCipherSpec => simp

theorem Received.parsed {k k' : KsState} {fl : List (Bytes × List (Bytes × ServerHs))}
    (h : Received S k fl k') : ∀ m ∈ flightMsgs fl, ParsedAs S m.1 m.2 := by
  induction h with
  | nil k => simp [flightMsgs]
  | cons k k' record ms n rest h hr ih =>
    intro m hm
    simp only [flightMsgs, List.flatMap_cons, List.mem_append] at hm ih
    exact hm.elim (h.parsed S m) (ih m)

/-! ## The key share -/

theorem keyShareSH_inv {data : Bytes} {s : KeyShareEntry} (h : (keyShareSHParse (PB.new data)).1 = .ok (.keyShareSH s)) :
    ∃ group g trailing, data = be16 g ++ (be16 s.opaq.length ++ (s.opaq ++ trailing)) ∧ (group, g) ∈ namedGroups ∧
      s.opaq.length < 65536 := by
  have hs : Sound keyShareSHParse (fun bs d => ∃ s group g, d = .keyShareSH s ∧
      bs = be16 g ++ (be16 s.opaq.length ++ s.opaq) ∧ (group, g) ∈ namedGroups ∧ s.opaq.length < 65536) := by
    unfold keyShareSHParse KeyShareEntry.parse NamedGroup.parse
    refine (((Sound.u16.code NamedGroup.of).bind fun grp => Sound.u16.bind fun n => (Sound.slice n).bind fun o =>
      Sound.pure (KeyShareEntry.mk grp o.buffer)).bind fun e => Sound.pure (ExtData.keyShareSH e)).mono ?_
    rintro bs a ⟨e, b1, b2, rfl, ⟨grp, b3, b4, rfl, ⟨g, ⟨h1, rfl⟩, h2⟩, n, b5, b6, rfl, ⟨h3, rfl⟩, o, b7, b8, rfl, ⟨h4, rfl⟩,
      rfl, rfl⟩, rfl, rfl⟩
    refine ⟨_, grp, g, rfl, ?_, C04_named_group.inTable h2, ?_⟩
    · simp [PB.new, h4]
    · simp only [PB.new, h4]; exact h3
  rcases hp : keyShareSHParse (PB.new data) with ⟨r, p'⟩
  rw [hp] at h
  simp only at h
  subst h
  obtain ⟨bs, ⟨s', grp, g, h1, rfl, h2, h3⟩, h4, _, _⟩ := hs data 0 _ p' (by simp) hp
  simp only [ExtData.keyShareSH.injEq] at h1
  subst h1
  simp only [List.drop_zero] at h4
  generalize List.drop _ data = trailing at h4
  exact ⟨grp, g, trailing, by rw [h4]; simp, h2, h3⟩

theorem ret_inv {α : Type} {m : P α} {f : α → ExtData} {p : PB} {d : ExtData}
    (h : ((do return f (← m) : P ExtData) p).1 = .ok d) : ∃ a, d = f a := by
  rcases hp : (do return f (← m) : P ExtData) p with ⟨r, p'⟩
  rw [hp] at h
  simp only at h
  subst h
  obtain ⟨e, s1, _, he⟩ := M.bind_inv hp
  simp only [M.pure_apply, Prod.mk.injEq, Res.ok.injEq] at he
  exact ⟨e, he.1.symm⟩

theorem serverHello_ext {x : RawExt} {t : ExtensionType} {d : ExtData} (h : extStep serverHelloGroup x = .ok ⟨t, d⟩) :
    (x.ty = 51 ∧ ∃ s, d = .keyShareSH s ∧ (keyShareSHParse (PB.new x.data)).1 = .ok (.keyShareSH s)) ∨
    (x.ty ≠ 51 ∧ ∀ s, d ≠ .keyShareSH s) := by
  unfold extStep at h
  split at h
  · simp at h
  · next ty hty =>
    split at h
    · simp at h
    · next parser hg =>
      split at h
      · next dd hd =>
        simp only [Res.ok.injEq, Ext.mk.injEq] at h
        obtain ⟨rfl, rfl⟩ := h
        have hc := C04_extension_type.encode_decode _ _ hty
        cases ty <;> simp only [serverHelloGroup, reduceCtorEq, Option.some.injEq] at hg
        all_goals subst hg
        all_goals rw [← hc]
        · refine .inr ⟨by decide, ?_⟩
          obtain ⟨a, rfl⟩ := ret_inv hd
          simp
        · refine .inr ⟨by decide, ?_⟩
          obtain ⟨a, rfl⟩ := ret_inv hd
          simp
        · refine .inr ⟨by decide, ?_⟩
          simp only [unimplementedParse, Res.ok.injEq] at hd
          rw [← hd]
          simp
        · refine .inl ⟨by decide, ?_⟩
          obtain ⟨a, rfl⟩ := ret_inv hd
          exact ⟨a, rfl, hd⟩
      · simp at h
      · simp at h

theorem keyShare_inv (cap : Nat) : ∀ (xs : List RawExt) (acc exts : List Ext) (s : KeyShareEntry),
    extSpec serverHelloGroup cap acc xs = .ok exts → serverHelloKeyShare acc = none →
    serverHelloKeyShare exts = some s →
    ∃ pre data post, xs = pre ++ ⟨51, data⟩ :: post ∧ (∀ e ∈ pre, e.ty ≠ 51) ∧
      (keyShareSHParse (PB.new data)).1 = .ok (.keyShareSH s) := by
  have append_none : ∀ (a : List Ext) (t : ExtensionType) (d : ExtData) (b : List Ext), serverHelloKeyShare a = none →
      serverHelloKeyShare (a ++ ⟨t, d⟩ :: b) = serverHelloKeyShare (⟨t, d⟩ :: b) := by
    intro a t d b ha
    induction a with
    | nil => rfl
    | cons e a ih =>
      obtain ⟨te, de⟩ := e
      cases de <;> simp_all [serverHelloKeyShare]
  have skip : ∀ (t : ExtensionType) (d : ExtData) (b : List Ext), (∀ s, d ≠ .keyShareSH s) →
      serverHelloKeyShare (⟨t, d⟩ :: b) = serverHelloKeyShare b := by
    intro t d b hd
    cases d <;> first | rfl | exact absurd rfl (hd _)
  have mono : ∀ (xs : List RawExt) (acc exts : List Ext), extSpec serverHelloGroup cap acc xs = .ok exts →
      ∃ b, exts = acc ++ b := by
    intro xs
    induction xs with
    | nil => intro acc exts h; simp only [extSpec, Res.ok.injEq] at h; exact ⟨[], by simp [h]⟩
    | cons x xs ih =>
      intro acc exts h
      unfold extSpec at h
      split at h
      · split at h
        · obtain ⟨b, rfl⟩ := ih _ _ h
          exact ⟨_, List.append_assoc _ _ _⟩
        · simp at h
      · exact ih _ _ h
      · simp at h
      · simp at h
  intro xs
  induction xs with
  | nil =>
    intro acc exts s h h1 h2
    simp only [extSpec, Res.ok.injEq] at h
    subst h
    rw [h1] at h2
    cases h2
  | cons x xs ih =>
    intro acc exts s h h1 h2
    unfold extSpec at h
    split at h
    · next e he =>
      split at h
      · obtain ⟨t, d⟩ := e
        obtain ⟨xt, xd⟩ := x
        rcases serverHello_ext he with ⟨rfl, s', rfl, hp⟩ | ⟨hne, hd⟩
        · obtain ⟨b, rfl⟩ := mono _ _ _ h
          rw [List.append_assoc, List.singleton_append, append_none acc _ _ _ h1] at h2
          simp only [serverHelloKeyShare, Option.some.injEq] at h2
          subst h2
          exact ⟨[], xd, xs, rfl, by simp, hp⟩
        · have h3 : serverHelloKeyShare (acc ++ [⟨t, d⟩]) = none := by
            rw [append_none acc _ _ _ h1, skip _ _ _ hd]; rfl
          obtain ⟨pre, data, post, rfl, p1, p2⟩ := ih _ _ _ h h3 h2
          refine ⟨⟨xt, xd⟩ :: pre, data, post, rfl, ?_, p2⟩
          intro e hm
          rcases List.mem_cons.1 hm with rfl | hm
          · exact hne
          · exact p1 e hm
      · simp at h
    · next hu =>
      obtain ⟨pre, data, post, rfl, p1, p2⟩ := ih _ _ _ h h1 h2
      refine ⟨x :: pre, data, post, rfl, ?_, p2⟩
      intro e hm
      rcases List.mem_cons.1 hm with rfl | hm
      · intro h51
        unfold extStep at hu
        rw [h51] at hu
        have : ExtensionType.of 51 = some .keyShare := rfl
        simp only [this, serverHelloGroup] at hu
        split at hu <;> simp at hu
      · exact p1 e hm
    · simp at h
    · simp at h

theorem serverHello_share {m : Bytes} {exts : List Ext} {secret dhe : Bytes} (hp : ParsedAs S m (.serverHello exts))
    (hs : serverHelloSharedSecret S exts secret = some dhe) :
    ∃ r share, r.WellSized S.hashLen ∧ Encodes m r ∧ KeyShareOf r share ∧ S.dh secret share = some dhe ∧
      decoded r = .ok (.serverHello exts) := by
  obtain ⟨r, h1, h2, h3⟩ := hp.encodes S
  unfold serverHelloSharedSecret at hs
  rcases hk : serverHelloKeyShare exts with _ | s
  · rw [hk] at hs; cases hs
  · rw [hk] at hs
    simp only [Option.bind_some] at hs
    refine ⟨r, s.opaq, h1, h2, ?_, hs, h3⟩
    cases r with
    | serverHello v rnd sid cs comp xs =>
      simp only [decoded] at h3
      cases hx : extSpec serverHelloGroup 4 [] xs with
      | ok e =>
        rw [hx] at h3
        simp only [Res.map, Res.ok.injEq, ServerHs.serverHello.injEq] at h3
        subst h3
        obtain ⟨pre, data, post, rfl, p1, p2⟩ := keyShare_inv 4 xs [] e s hx rfl hk
        obtain ⟨grp, g, tr, rfl, q1, q2⟩ := keyShareSH_inv p2
        exact ⟨v, rnd, sid, cs, comp, pre, grp, g, tr, post, rfl, q1, q2, p1⟩
      | err e => rw [hx] at h3; simp [Res.map] at h3
      | panic => rw [hx] at h3; simp [Res.map] at h3
    | encryptedExtensions xs =>
      simp only [decoded] at h3
      cases hx : extSpec encryptedExtensionsGroup 16 [] xs <;> rw [hx] at h3 <;> simp [Res.map] at h3
    | certificateRequest ctx xs =>
      simp only [decoded] at h3
      cases hx : extSpec certificateRequestGroup 6 [] xs <;> rw [hx] at h3 <;> simp [Res.map] at h3
    | certificate ctx es =>
      simp only [decoded] at h3
      cases hx : certSpec 16 [] es <;> rw [hx] at h3 <;> simp [Res.map] at h3
    | certificateVerify s sig =>
      simp only [decoded] at h3
      split at h3 <;> simp at h3
    | finished v => simp [decoded] at h3
    | newSessionTicket lt aa n t xs =>
      simp only [decoded] at h3
      cases hx : extSpec newSessionTicketGroup 1 [] xs <;> rw [hx] at h3 <;> simp [Res.map] at h3

end ETls

namespace ETls

variable (S : Suite) {V : Type}
open Spec

/-! ## The server's flight -/

theorem decoded_finished {r : RawMsg} {f : Finished} (h : decoded r = .ok (.finished f)) : r = .finished f.verify := by
  cases r with
  | serverHello v rnd sid cs comp xs =>
    simp only [decoded] at h
    cases hx : extSpec serverHelloGroup 4 [] xs <;> rw [hx] at h <;> simp [Res.map] at h
  | encryptedExtensions xs =>
    simp only [decoded] at h
    cases hx : extSpec encryptedExtensionsGroup 16 [] xs <;> rw [hx] at h <;> simp [Res.map] at h
  | certificateRequest ctx xs =>
    simp only [decoded] at h
    cases hx : extSpec certificateRequestGroup 6 [] xs <;> rw [hx] at h <;> simp [Res.map] at h
  | certificate ctx es =>
    simp only [decoded] at h
    cases hx : certSpec 16 [] es <;> rw [hx] at h <;> simp [Res.map] at h
  | certificateVerify s sig =>
    simp only [decoded] at h
    split at h <;> simp at h
  | finished v =>
    simp only [decoded, Res.ok.injEq, ServerHs.finished.injEq] at h
    subst h; rfl
  | newSessionTicket lt aa n t xs =>
    simp only [decoded] at h
    cases hx : extSpec newSessionTicketGroup 1 [] xs <;> rw [hx] at h <;> simp [Res.map] at h

theorem certSpec_inv (cap : Nat) : ∀ (es : List (Bytes × List RawExt)) (acc entries : List CertEntry),
    certSpec cap acc es = .ok entries → entries = acc ++ es.map fun e => .x509 e.1 := by
  intro es
  induction es with
  | nil => intro acc entries h; simp only [certSpec, Res.ok.injEq] at h; simp [h]
  | cons e es ih =>
    intro acc entries h
    unfold certSpec at h
    split at h
    · split at h
      · rw [ih _ _ h]; simp
      · simp at h
    · simp at h
    · simp at h

/-- What the verifier is shown for a message: a Certificate as the list of its certificates, its raw entries and its
context. -/
def certOf (ctx : Bytes) (es : List (Bytes × List RawExt)) : CertMsg :=
  ⟨es.flatMap certEntryBytes, ctx, es.map fun e => .x509 e.1⟩

/-- The other kinds. -/
theorem decoded_kind {r : RawMsg} {h : ServerHs} (hd : decoded r = .ok h) :
    match r with
    | .serverHello .. => ∃ e, h = .serverHello e
    | .encryptedExtensions _ => h = .encryptedExtensions
    | .certificateRequest ctx _ => h = .certificateRequest ctx
    | .certificate ctx es => h = .certificate (certOf ctx es)
    | .certificateVerify s sig => ∃ x, (x, s) ∈ signatureSchemes ∧ h = .certificateVerify ⟨x, sig⟩
    | .finished v => h = .finished ⟨v, none⟩
    | .newSessionTicket .. => h = .newSessionTicket := by
  cases r with
  | serverHello v rnd sid cs comp xs =>
    simp only [decoded] at hd
    cases hx : extSpec serverHelloGroup 4 [] xs with
    | ok e => rw [hx] at hd; simp only [Res.map, Res.ok.injEq] at hd; exact ⟨_, hd.symm⟩
    | _ => rw [hx] at hd; simp [Res.map] at hd
  | encryptedExtensions xs =>
    simp only [decoded] at hd
    cases hx : extSpec encryptedExtensionsGroup 16 [] xs with
    | ok e => rw [hx] at hd; simp only [Res.map, Res.ok.injEq] at hd; exact hd.symm
    | _ => rw [hx] at hd; simp [Res.map] at hd
  | certificateRequest ctx xs =>
    simp only [decoded] at hd
    cases hx : extSpec certificateRequestGroup 6 [] xs with
    | ok e => rw [hx] at hd; simp only [Res.map, Res.ok.injEq] at hd; exact hd.symm
    | _ => rw [hx] at hd; simp [Res.map] at hd
  | certificate ctx es =>
    simp only [decoded] at hd
    cases hx : certSpec 16 [] es with
    | ok e =>
      rw [hx] at hd
      simp only [Res.map, Res.ok.injEq] at hd
      have := certSpec_inv _ _ _ _ hx
      subst this
      exact hd.symm
    | _ => rw [hx] at hd; simp [Res.map] at hd
  | certificateVerify s sig =>
    simp only [decoded] at hd
    split at hd
    · next x hx =>
      simp only [Res.ok.injEq] at hd
      exact ⟨x, C04_signature_scheme.inTable hx, hd.symm⟩
    · simp at hd
  | finished v => simp only [decoded, Res.ok.injEq] at hd; exact hd.symm
  | newSessionTicket lt aa n t xs =>
    simp only [decoded] at hd
    cases hx : extSpec newSessionTicketGroup 1 [] xs with
    | ok e => rw [hx] at hd; simp only [Res.map, Res.ok.injEq] at hd; exact hd.symm
    | _ => rw [hx] at hd; simp [Res.map] at hd

/-- The verifier run over the server's messages in order: it is shown every Certificate together with all handshake
messages up to and including it, and every CertificateVerify. -/
def verifierRun (ops : VerifierOps V) : Bytes → List (Bytes × RawMsg) → M TlsError V Unit
  | _, [] => pure ()
  | tr, (m, r) :: ms => do
    match r with
    | .certificate ctx es => do
      ops.verifyCertificate (tr ++ m) (certOf ctx es)
      verifierRun ops (tr ++ m) ms
    | .certificateVerify s sig =>
      match SignatureScheme.of s with
      | some x => do
        ops.verifySignature ⟨x, sig⟩
        verifierRun ops (tr ++ m) ms
      | none => verifierRun ops (tr ++ m) ms
    | _ => verifierRun ops (tr ++ m) ms

/-- The kinds of messages a server may send after ServerHello, as far as the client distinguishes them. -/
def expectedKind : RawMsg → Prop
  | .serverHello .. => False
  | .newSessionTicket .. => False
  | .certificateRequest ctx _ => ctx.length ≤ 256
  | _ => True

/-- What accepting a flight means, message by message. -/
theorem tookAll_wire {p : Provider V} {secret tr : Bytes} {ms : List (Bytes × ServerHs)} {t t' : HsData V × State}
    (h : TookAll S p secret tr t ms t') : ∀ {rs : List (Bytes × RawMsg)}, List.Forall₂ (Matches S) ms rs →
    (∀ m ∈ rs, expectedKind m.2) ∧
    (∀ a fm v b, rs = a ++ (fm, .finished v) :: b → v = verifyData S secret (tr ++ Session.bytesOf a)) ∧
    t'.1.certReq = (lastRequest rs).or t.1.certReq ∧
    (∀ ops, p.verifier = some ops → verifierRun ops tr rs t.1.vst = (.ok (), t'.1.vst)) ∧
    ((noFinished rs ∧ t'.2 = t.2 ∧ t'.1.trafficHash = t.1.trafficHash) ∨
      ∃ a fm v b, rs = a ++ (fm, .finished v) :: b ∧ noFinished b ∧
        (((lastRequest a).or t.1.certReq = none ∧ t'.2 = .clientFinished ∧
            t'.1.trafficHash = some (tr ++ Session.bytesOf a ++ fm)) ∨
          ((lastRequest a).or t.1.certReq ≠ none ∧ t'.2 = .clientCert))) := by
  induction h with
  | nil tr t =>
    intro rs hm
    cases hm
    refine ⟨by simp, by simp, by simp [lastRequest], fun ops ho => rfl, .inl ⟨by simp [noFinished], rfl, rfl⟩⟩
  | cons tr t t1 t2 m h ms h1 h2 ih =>
    intro rs hm
    cases hm with
    | cons hm hms =>
      rename_i r rs
      obtain ⟨m', r⟩ := r
      obtain ⟨e1, e2, e3, e4⟩ := hm
      simp only at e1 e2 e3 e4
      subst e1
      obtain ⟨i1, i2, i3, i4, i5⟩ := ih hms
      have hk := decoded_kind e4
      -- the tail, for a message that is not Finished
      have later : ∀ (_ : ∀ v, r ≠ .finished v) (_ : t1.2 = t.2) (_ : t1.1.trafficHash = t.1.trafficHash)
          (_ : t1.1.certReq = (lastRequest [(m, r)]).or t.1.certReq),
          (∀ a fm v b, (m, r) :: rs = a ++ (fm, .finished v) :: b → v = verifyData S secret (tr ++ Session.bytesOf a)) ∧
          ((noFinished ((m, r) :: rs) ∧ t2.2 = t.2 ∧ t2.1.trafficHash = t.1.trafficHash) ∨
          ∃ a fm v b, (m, r) :: rs = a ++ (fm, .finished v) :: b ∧ noFinished b ∧
            (((lastRequest a).or t.1.certReq = none ∧ t2.2 = .clientFinished ∧
                t2.1.trafficHash = some (tr ++ Session.bytesOf a ++ fm)) ∨
              ((lastRequest a).or t.1.certReq ≠ none ∧ t2.2 = .clientCert))) := by
        intro hr hs ht hc
        have hcons : ∀ a, lastRequest ((m, r) :: a) = (lastRequest a).or (lastRequest [(m, r)]) := by
          intro a
          cases r <;> simp [lastRequest]
        refine ⟨?_, ?_⟩
        · intro a fm v b hab
          cases a with
          | nil =>
            simp only [List.nil_append, List.cons.injEq, Prod.mk.injEq] at hab
            exact absurd hab.1.2 (hr v)
          | cons y a =>
            simp only [List.cons_append, List.cons.injEq] at hab
            obtain ⟨rfl, hab⟩ := hab
            rw [i2 a fm v b hab]
            simp [Session.bytesOf]
        · rcases i5 with ⟨j1, j2, j3⟩ | ⟨a, fm, v, b, j1, j2, j3⟩
          · refine .inl ⟨?_, by rw [j2, hs], by rw [j3, ht]⟩
            intro y hy v
            rcases List.mem_cons.1 hy with rfl | hy
            · exact hr v
            · exact j1 y hy v
          · refine .inr ⟨(m, r) :: a, fm, v, b, by rw [j1]; rfl, j2, ?_⟩
            rw [hcons, Option.or_assoc, ← hc]
            refine j3.imp (fun ⟨k1, k2, k3⟩ => ⟨k1, k2, ?_⟩) id
            rw [k3]
            simp [Session.bytesOf]
      have kinds : ∀ (_ : expectedKind r), ∀ y ∈ (m, r) :: rs, expectedKind y.2 := by
        intro hr y hy
        rcases List.mem_cons.1 hy with rfl | hy
        · exact hr
        · exact i1 y hy
      cases r with
      | serverHello v rnd sid cs comp xs => obtain ⟨e, rfl⟩ := hk; cases h1
      | newSessionTicket lt aa n tk xs => simp only at hk; subst hk; cases h1
      | encryptedExtensions xs =>
        simp only at hk
        subst hk
        cases h1
        obtain ⟨l1, l2⟩ := later (by simp) rfl rfl (by simp [lastRequest])
        exact ⟨kinds trivial, l1, by simpa [lastRequest] using i3, fun ops ho => by simpa [verifierRun] using i4 ops ho, l2⟩
      | certificate ctx es =>
        simp only at hk
        subst hk
        cases h1 with
        | certificate _ ops hh st v hv ha =>
          obtain ⟨l1, l2⟩ := later (by simp) rfl rfl (by simp [lastRequest])
          refine ⟨kinds trivial, l1, by simpa [lastRequest] using i3, fun ops' ho => ?_, l2⟩
          rw [hv] at ho
          cases ho
          simp only [verifierRun]
          rw [M.bind_ok ha]
          exact i4 ops hv
        | certificateUnchecked _ _ hv =>
          obtain ⟨l1, l2⟩ := later (by simp) rfl rfl (by simp [lastRequest])
          refine ⟨kinds trivial, l1, by simpa [lastRequest] using i3, fun ops' ho => ?_, l2⟩
          rw [hv] at ho; cases ho
      | certificateVerify s sig =>
        simp only at hk
        obtain ⟨x, hx, rfl⟩ := hk
        cases h1 with
        | certificateVerify _ ops hh st v hv ha =>
          obtain ⟨l1, l2⟩ := later (by simp) rfl rfl (by simp [lastRequest])
          refine ⟨kinds trivial, l1, by simpa [lastRequest] using i3, fun ops' ho => ?_, l2⟩
          rw [hv] at ho
          cases ho
          simp only [verifierRun, C04_signature_scheme.accept _ _ hx]
          rw [M.bind_ok ha]
          exact i4 ops hv
        | certificateVerifyUnchecked _ _ hv =>
          obtain ⟨l1, l2⟩ := later (by simp) rfl rfl (by simp [lastRequest])
          refine ⟨kinds trivial, l1, by simpa [lastRequest] using i3, fun ops' ho => ?_, l2⟩
          rw [hv] at ho; cases ho
      | certificateRequest ctx xs =>
        simp only at hk
        subst hk
        cases h1 with
        | certificateRequest _ hh st hl =>
          obtain ⟨l1, l2⟩ := later (by simp) rfl rfl (by simp [lastRequest])
          refine ⟨kinds hl, l1, ?_, fun ops ho => by simpa [verifierRun] using i4 ops ho, l2⟩
          rw [i3]
          simp only [lastRequest]
          cases lastRequest rs <;> rfl
      | finished v =>
        simp only at hk
        subst hk
        have hv : v = verifyData S secret tr := by cases h1 <;> assumption
        have hst : t1.1.certReq = t.1.certReq ∧ t1.1.vst = t.1.vst ∧
            ((t.1.certReq = none ∧ t1.2 = .clientFinished ∧ t1.1.trafficHash = some (tr ++ m)) ∨
              (t.1.certReq ≠ none ∧ t1.2 = .clientCert)) := by
          cases h1 with
          | finished _ hh st hf hc =>
            refine ⟨rfl, rfl, .inr ⟨?_, rfl⟩⟩
            intro hn; simp only at hn; rw [hn] at hc; cases hc
          | finishedNoCert _ hh st hf hc => exact ⟨rfl, rfl, .inl ⟨hc, rfl, rfl⟩⟩
        obtain ⟨s1, s2, s3⟩ := hst
        refine ⟨kinds trivial, ?_, by simpa [lastRequest, s1] using i3, fun ops ho => ?_, .inr ?_⟩
        · intro a fm w b hab
          cases a with
          | nil =>
            simp only [List.nil_append, List.cons.injEq, Prod.mk.injEq, RawMsg.finished.injEq] at hab
            rw [← hab.1.2, hv]
            simp [Session.bytesOf]
          | cons y a =>
            simp only [List.cons_append, List.cons.injEq] at hab
            obtain ⟨rfl, hab⟩ := hab
            rw [i2 a fm w b hab]
            simp [Session.bytesOf]
        · have := i4 ops ho
          rw [s2] at this
          simpa [verifierRun] using this
        · rcases i5 with ⟨j1, j2, j3⟩ | ⟨a, fm, w, b, j1, j2, j3⟩
          · refine ⟨[], m, v, rs, rfl, j1, ?_⟩
            simp only [lastRequest, Option.none_or, Session.bytesOf, List.flatMap_nil, List.append_nil]
            rw [j2, j3]
            exact s3
          · refine ⟨(m, .finished v) :: a, fm, w, b, by rw [j1]; rfl, j2, ?_⟩
            simp only [lastRequest]
            rw [← s1]
            refine j3.imp (fun ⟨k1, k2, k3⟩ => ⟨k1, k2, ?_⟩) id
            rw [k3]
            simp [Session.bytesOf]

end ETls

namespace ETls

variable (S : Suite) {V : Type}
open Spec

/-- The transport events of sending records, each flushed. -/
def sentRecords (rs : List Bytes) : List OutEv := rs.flatMap fun r => [.wrote r, .flushed]

theorem sentMsgs_records (secret : Bytes) (ms : List Bytes) : ∀ n,
    sentMsgs S secret n ms = sentRecords (handshakeRecords S (writeKey S secret) (writeIv S secret) n ms) := by
  induction ms with
  | nil => intro n; rfl
  | cons m ms ih =>
    intro n
    simp only [sentMsgs, ih, handshakeRecords, sentRecords, List.map_cons, ciphertextRecords, List.flatMap_cons]
    rfl

/-- `x` is what happened in a handshake that led from `c` to `c'`. -/
structure Established (cfg : Config) (p : Provider V) (v : V) (c : Conn) (x : Session) (c' : Conn) : Prop where
  received : x.Received S (cfg.psk.map (·.1)) p.secret
  bytes : c.rx.bytes = x.received ++ c'.rx.bytes
  /-- the ClientHello is the one RFC 8446 prescribes for the configuration -/
  hello : ∃ binders, x.hello = (expectedHello cfg S.codePoint p.random (S.pubKey p.secret) binders).bytes ∧
    binders.length = cfg.identities ∧
    ∀ b ∈ binders, b.length = S.hashLen ∧ b = verifyData S (binderKey S (cfg.psk.map (·.1)))
      (expectedHello cfg S.codePoint p.random (S.pubKey p.secret) binders).truncated
  sent : c'.tx.log = c.tx.log ++ sentRecords (plaintextRecord 22 [3, 1] x.hello ::
    handshakeRecords S (writeKey S (x.clientSecret S (cfg.psk.map (·.1)))) (writeIv S (x.clientSecret S (cfg.psk.map (·.1)))) 0
      (x.clientMsgs ++ [finishedMsg (verifyData S (x.clientSecret S (cfg.psk.map (·.1))) x.beforeFinished)]))
  kinds : ∀ m ∈ x.msgs, expectedKind m.2
  finished : ∀ a fm vd b, x.msgs = a ++ (fm, .finished vd) :: b →
    vd = verifyData S (x.serverSecret S (cfg.psk.map (·.1))) (x.tr0 ++ Session.bytesOf a)
  verifier : ∀ ops, p.verifier = some ops → ∃ v', verifierRun ops x.tr0 x.msgs (hostVst cfg p v) = (.ok (), v')
  ending : ∃ a fm vd b, x.msgs = a ++ (fm, .finished vd) :: b ∧ noFinished b ∧
    ((lastRequest a = none ∧ x.clientMsgs = [] ∧ x.traffic = x.tr0 ++ Session.bytesOf a ++ fm) ∨
     (lastRequest a ≠ none ∧ x.traffic = x.tr0 ++ Session.bytesOf x.msgs ∧ ∃ ctx, lastRequest x.msgs = some ctx ∧
      ((p.clientCert = none ∧ x.clientMsgs = [certificateMsg ctx []]) ∨
       (∃ cert sign scheme sig, p.clientCert = some (.x509 cert) ∧ p.signer = .ok (sign, scheme) ∧
          sign (clientSigned S (x.tr0 ++ Session.bytesOf x.msgs ++ certificateMsg ctx [cert])) = some sig ∧
          x.clientMsgs = [certificateMsg ctx [cert], certificateVerifyMsg scheme.code sig]))))
  clientKeys : c'.ks.client.st =
    trafficState S (clientApplicationTraffic S (cfg.psk.map (·.1)) x.dhe x.traffic)
  serverKeys : c'.ks.server.st =
    trafficState S (serverApplicationTraffic S (cfg.psk.map (·.1)) x.dhe x.traffic)
  opened : c'.opened = true

/-- Every successful `open` on a fresh connection is a session as above. -/
theorem open_session (hS : S.Lawful) (cfg : Config) (p : Provider V) (v : V) {c c' : Conn} (hf : c.Fresh S)
    (h : Conn.open_ S cfg p v c = (.ok (), c')) : ∃ x, Established S cfg p v c x c' := by
  obtain ⟨w, hw⟩ := open_describes S hS cfg p v hf h
  obtain ⟨k', hr⟩ := hw.received
  obtain ⟨rs, hm⟩ := ParsedAs.list S (hr.parsed S)
  obtain ⟨r, share, q1, q2, q3, q4, -⟩ := serverHello_share S hw.parsed hw.shared
  have hb := Matches.msgBytes S hm
  obtain ⟨t1, t2, t3, t4, t5⟩ := tookAll_wire S hw.took hm
  have hc := hr.carries S hS (trafficState_iv S hS _)
  rw [Matches.bytes S hm] at hc
  have htr1 : w.tr1 = w.tr0 ++ Session.bytesOf rs := by rw [← hb]; rfl
  have hsg : ∀ t, clientSignedContent S t = clientSigned S t := by
    intro t; simp [clientSignedContent, clientSigned]
  refine ⟨⟨w.hello, w.shRecord, w.sh, share, w.dhe, w.flight.map Prod.fst, rs, w.clientMsgs, w.traffic⟩,
    ⟨?_, ⟨r, q1, q2, q3⟩, q4, hc, Matches.encoded S hm⟩, ?_, hw.hello, ?_, t1, t2, ?_, ?_, hw.clientKeys, ?_, hw.opened⟩
  · obtain ⟨hdr, rh, junk, e1, e2, e3, e4⟩ := hw.serverHello
    obtain ⟨v1, v2, rfl, hl⟩ := header_shape e1
    rw [e2, e3] at e4
    exact ⟨v1, v2, junk, by rw [← e3]; exact hl, e4⟩
  · rw [hw.bytes]
    simp [Session.received, flightBytes, List.flatMap]
  · rw [hw.sent, sentMsgs_records]
    simp only [Session.beforeFinished, HsView.tr2, htr1]
    simp [sentRecords, HsView.clientSecret, Session.clientSecret, HsView.tr0, Session.tr0]
  · intro ops ho
    exact ⟨_, t4 ops ho⟩
  · rcases t5 with ⟨_, j2, _⟩ | ⟨a, fm, vd, b, j1, j2, j3⟩
    · simp only at j2
      rcases hw.client with ⟨k1, _⟩ | ⟨k1, _⟩ <;> rw [j2] at k1 <;> cases k1
    · refine ⟨a, fm, vd, b, j1, j2, ?_⟩
      simp only [Option.or_none] at j3
      rcases hw.client with ⟨k1, k2, k3⟩ | ⟨k1, k2, ctx, k3, k4⟩
      · rcases j3 with ⟨m1, m2, m3⟩ | ⟨m1, m2⟩
        · refine .inl ⟨m1, k2, ?_⟩
          rw [k3] at m3
          exact Option.some.inj m3
        · rw [k1] at m2; cases m2
      · rcases j3 with ⟨m1, m2, m3⟩ | ⟨m1, m2⟩
        · rw [k1] at m2; cases m2
        · refine .inr ⟨m1, by rw [k2, htr1]; rfl, ctx, ?_, ?_⟩
          · simp only [Option.or_none] at t3
            rw [← t3, k3]
          · refine k4.imp id fun ⟨cert, sign, scheme, sig, n1, n2, n3, n4⟩ => ⟨cert, sign, scheme, sig, n1, n2, ?_, n4⟩
            rw [hsg, htr1] at n3
            exact n3
  · rw [hw.serverKeys]

end ETls
