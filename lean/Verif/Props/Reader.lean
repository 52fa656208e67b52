import Verif.Proofs.DecoderErrors
import Verif.Spec.Reader
import Verif.Props.Readable
import Verif.Props.Honest
import Verif.Props.Chunking

/-! # C76: reading calls refine a reader of the byte stream -/

namespace ETls

variable (S : Suite)

open Spec (Fragment RawMsg Effect Begins Messages Message AlertContent Inner Next Fill Call Calls Place Reader Result Known)

/-! ## One handshake message -/

theorem decoded_ticket {r : RawMsg} {h : ServerHs} (hd : decoded r = .ok h) : h = .newSessionTicket ↔ r.type = 4 := by
  cases r with
  | serverHello v rd sid cs comp xs =>
    simp only [decoded] at hd
    cases hx : extSpec serverHelloGroup 4 [] xs <;> rw [hx] at hd <;> simp [Res.map] at hd
    subst hd; simp [RawMsg.type]
  | encryptedExtensions xs =>
    simp only [decoded] at hd
    cases hx : extSpec encryptedExtensionsGroup 16 [] xs <;> rw [hx] at hd <;> simp [Res.map] at hd
    subst hd; simp [RawMsg.type]
  | certificateRequest ctx xs =>
    simp only [decoded] at hd
    cases hx : extSpec certificateRequestGroup 6 [] xs <;> rw [hx] at hd <;> simp [Res.map] at hd
    subst hd; simp [RawMsg.type]
  | certificate ctx es =>
    simp only [decoded] at hd
    cases hx : certSpec 16 [] es <;> rw [hx] at hd <;> simp [Res.map] at hd
    subst hd; simp [RawMsg.type]
  | certificateVerify s sig =>
    simp only [decoded] at hd
    cases hx : SignatureScheme.of s <;> rw [hx] at hd <;> simp at hd
    subst hd; simp [RawMsg.type]
  | finished v =>
    simp only [decoded, Res.ok.injEq] at hd
    subst hd; simp [RawMsg.type]
  | newSessionTicket lt aa n t xs =>
    simp only [decoded] at hd
    cases hx : extSpec newSessionTicketGroup 1 [] xs <;> rw [hx] at hd <;> simp [Res.map] at hd
    subst hd; simp [RawMsg.type]

/-- What `Begins` says about the decoder. -/
theorem begins_parse {r : RawMsg} {rest bytes : Bytes} (hb : Begins S.hashLen r rest bytes) (A : Bytes) :
    ∃ h, decoded r = .ok h ∧ ServerHs.parse S ⟨A ++ bytes, A.length⟩ =
      (.ok h, ⟨A ++ bytes, A.length + (bytes.length - rest.length)⟩) ∧ rest.length + 4 ≤ bytes.length ∧
      bytes.drop (bytes.length - rest.length) = rest := by
  obtain ⟨h1, h2, n, h3, rfl⟩ := hb
  obtain ⟨h, hh⟩ := (decoded_readable r).mpr h2
  have h4 := serverHsParse_reads_len S r h1 n h3
  rw [hh, Reads.ok_iff] at h4
  have h5 := h4 A rest
  have hl : ((r.type :: (be24 n ++ r.body)) ++ rest).length - rest.length = (r.type :: (be24 n ++ r.body)).length := by
    rw [List.length_append, Nat.add_sub_cancel]
  refine ⟨h, hh, ?_, ?_, ?_⟩
  · rw [hl]; exact h5
  · simp [be24]
  · rw [hl, List.drop_left]

theorem parse_begins {A bytes : Bytes} {h : ServerHs} {p' : PB}
    (hp : ServerHs.parse S ⟨A ++ bytes, A.length⟩ = (.ok h, p')) :
    ∃ r rest, Begins S.hashLen r rest bytes ∧ decoded r = .ok h := by
  obtain ⟨bs, -, h3, h4, h5⟩ := parse_shape S _ _ h p' (by simp) hp
  rw [List.drop_left] at h3
  have hp' : ServerHs.parse S ⟨A ++ (bs ++ (A ++ bytes).drop (A.length + bs.length)), A.length⟩ =
      (.ok h, ⟨A ++ (bs ++ (A ++ bytes).drop (A.length + bs.length)), A.length + bs.length⟩) := by
    rw [← h3, hp, h4]
  obtain ⟨raw, n, q1, q2, q3, q4⟩ := parse_sound S A bs _ h hp'
  exact ⟨raw, _, ⟨q1, (decoded_readable raw).mp ⟨h, q4⟩, n, q2, by rw [← q3]; exact h3⟩, q4⟩

/-- Reading a message: it begins the bytes, or nothing does and there is an error. -/
theorem read_message (A bytes tr : Bytes) :
    (∃ r rest h tr', Begins S.hashLen r rest bytes ∧ (h = .newSessionTicket ↔ r.type = 4) ∧
      ServerHs.read S (⟨A ++ bytes, A.length⟩, tr) =
        (.ok h, (⟨A ++ bytes, A.length + (bytes.length - rest.length)⟩, tr')) ∧ rest.length + 4 ≤ bytes.length ∧
      bytes.drop (bytes.length - rest.length) = rest) ∨
    ((∀ r rest, ¬ Begins S.hashLen r rest bytes) ∧
      ∃ e p', ServerHs.read S (⟨A ++ bytes, A.length⟩, tr) = (.err e, (p', tr))) := by
  rcases hp : ServerHs.parse S ⟨A ++ bytes, A.length⟩ with ⟨res, p'⟩
  cases res with
  | ok h =>
    obtain ⟨r, rest, hb, hd⟩ := parse_begins S hp
    obtain ⟨h', e1, e2, e3, e4⟩ := begins_parse S hb A
    rw [hd] at e1
    injection e1 with e1
    subst e1
    left
    unfold ServerHs.read
    simp only [e2]
    refine ⟨r, rest, _, _, hb, ?_, rfl, e3, e4⟩
    rw [← decoded_ticket hd]
    cases h <;> simp
  | err e =>
    right
    refine ⟨fun r rest hb => ?_, e, p', ?_⟩
    · obtain ⟨h', _, e2, _⟩ := begins_parse S hb A
      rw [hp] at e2
      cases e2
    · unfold ServerHs.read
      simp only [hp]
  | panic =>
    have := (serverHsParse_good S ⟨A ++ bytes, A.length⟩ (by simp [PB.Valid])).1
    rw [hp] at this
    exact absurd rfl this

theorem begins_unique {r r' : RawMsg} {rest rest' bytes : Bytes} (h : Begins S.hashLen r rest bytes)
    (h' : Begins S.hashLen r' rest' bytes) : r.type = r'.type ∧ rest = rest' := by
  obtain ⟨a, a1, a2, a3, a4⟩ := begins_parse S h []
  obtain ⟨b, b1, b2, b3, b4⟩ := begins_parse S h' []
  constructor
  · obtain ⟨_, _, n, _, e⟩ := h
    obtain ⟨_, _, n', _, e'⟩ := h'
    rw [e] at e'
    injection e' with e1 _
  · rw [a2] at b2
    injection b2 with _ b2
    simp only [PB.mk.injEq, List.length_nil, Nat.zero_add, true_and] at b2
    rw [← a4, ← b4, b2]

/-! ## Results -/

/-- The result of dealing with a record. -/
def Shows : Effect → Res TlsError Unit → Prop
  | .data _, r => r = .ok ()
  | .ticket, r => r = .ok ()
  | .closed, r => r = .err .connectionClosed
  | .error (some e), r => r = .err e
  | .error none, r => ∃ e, r = .err e ∧ Spec.DecoderError e
  | .abort, r => r = .panic

/-- Handshake messages to an open connection. -/
theorem loop_messages (n : Nat) : ∀ (fuel : Nat) (content A : Bytes) (k : ReadKS) (t : DecInfo × Bool),
    content.length < fuel →
    ∃ e r tr, Messages S.hashLen content e ∧ Shows e r ∧ (e = .ticket ∨ e = .abort ∨ e = .error none) ∧
      handshakeLoop S (readHandler n) fuel ⟨A ++ content, A.length⟩ (k, t) = (r, ({ k with transcript := tr }, t)) := by
  intro fuel
  induction fuel with
  | zero => intro _ _ _ _ h; omega
  | succ fuel ih =>
    intro content A k t hf
    unfold handshakeLoop
    simp only
    by_cases hc : content = []
    · subst hc
      rw [if_neg (by simp)]
      exact ⟨.ticket, _, k.transcript, .done, rfl, .inl rfl, rfl⟩
    · have hcl : 0 < content.length := List.length_pos_iff.2 hc
      rw [if_pos (by simp; omega)]
      rcases read_message S A content k.transcript with ⟨r, rest, h, tr', hb, ht, hr, hl, hd⟩ | ⟨hn, e, p', hr⟩
      · rw [hr]
        simp only
        by_cases h4 : r.type = 4
        · have := ht.2 h4
          subst this
          simp only [readHandler, M.pure_apply]
          have hA : A ++ content = (A ++ content.take (content.length - rest.length)) ++ rest := by
            conv_lhs => rw [← List.take_append_drop (content.length - rest.length) content, hd]
            rw [List.append_assoc]
          obtain ⟨e, r', tr, i1, i2, i3, i4⟩ := ih rest (A ++ content.take (content.length - rest.length))
            { k with transcript := tr' } t (by omega)
          have hlen : (A ++ content.take (content.length - rest.length)).length = A.length + (content.length - rest.length) := by
            simp
          rw [← hA, hlen] at i4
          exact ⟨e, r', tr, .ticket r rest content e hb h4 i1, i2, i3, i4⟩
        · refine ⟨.abort, .panic, tr', .other r rest content hb h4, rfl, .inr (.inl rfl), ?_⟩
          have hne : h ≠ .newSessionTicket := fun hh => h4 (ht.1 hh)
          cases h <;> first | exact absurd rfl hne | rfl
      · rw [hr]
        exact ⟨.error none, _, k.transcript, .unreadable content hc hn, ⟨e, rfl, hsRead_err S hr⟩, .inr (.inr rfl), rfl⟩

theorem alertParse_ok (x y : UInt8) (rest : Bytes) (l : AlertLevel) (d : AlertDescription)
    (hl : (l, x.toNat) ∈ Spec.alertLevels) (hd : (d, y.toNat) ∈ Spec.alertDescriptions) :
    (Alert.parse (PB.new (x :: y :: rest))).1 = .ok ⟨l, d⟩ := by
  unfold Alert.parse
  have r1 : (PB.readU8.toT) (PB.new (x :: y :: rest)) = (.ok x.toNat, ⟨x :: y :: rest, 1⟩) := by
    simp [P.toT, M.mapErr, PB.readU8, PB.new, Res.mapErr]
  have r2 : (PB.readU8.toT) ⟨x :: y :: rest, 1⟩ = (.ok y.toNat, ⟨x :: y :: rest, 2⟩) := by
    simp [P.toT, M.mapErr, PB.readU8, Res.mapErr]
  rw [M.bind_ok r1, M.bind_ok r2, C04_alert_level.accept _ _ hl, C04_alert_description.accept _ _ hd]
  rfl

/-- An alert to an open connection. -/
theorem alert_content (n : Nat) (content : Bytes) (k : ReadKS) (d : DecInfo) (o : Bool) :
    ∃ e r, AlertContent content e ∧ Shows e r ∧ (e = .closed ∨ ∃ x, e = .error (some x)) ∧
      ((∃ x, e = .error (some x) ∧ (Alert.parse (PB.new content)).1 = .err x) ∨ ∃ a,
        (Alert.parse (PB.new content)).1 = .ok a ∧ readHandler n (.alert a) (k, (d, o)) = (r, (k, (d, if e = .closed then false else o)))) := by
  obtain ⟨h1, h2, h3⟩ := C08_reject content
  match content with
  | [] => exact ⟨_, _, .short _ (by simp), rfl, .inr ⟨_, rfl⟩, .inl ⟨_, rfl, h3 (by simp)⟩⟩
  | [x] => exact ⟨_, _, .short _ (by simp), rfl, .inr ⟨_, rfl⟩, .inl ⟨_, rfl, h3 (by simp)⟩⟩
  | x :: y :: rest =>
    rcases hp : (Alert.parse (PB.new (x :: y :: rest))).1 with a | e | _
    · obtain ⟨x', y', rest', e1, e2, e3⟩ := h1 a hp
      injection e1 with e1 e4
      injection e4 with e4 e5
      subst e1 e4 e5
      by_cases hy : y = 0
      · subst hy
        have had : a.description = .closeNotify := by
          have := C04_alert_description.accept _ _ e3
          exact (Option.some.inj ((show AlertDescription.of (0 : UInt8).toNat = some .closeNotify by decide).symm.trans this)).symm
        refine ⟨_, _, .close x rest ⟨_, e2⟩, rfl, .inl rfl, .inr ⟨a, rfl, ?_⟩⟩
        simp only [readHandler]
        rw [if_pos had]
        simp
      · have had : a.description ≠ .closeNotify := by
          intro had
          rw [had] at e3
          have h5 := C04_alert_description.encode_decode _ _ (C04_alert_description.accept _ _ e3)
          exact hy (UInt8.toNat.inj (h5.symm.trans (by decide)))
        refine ⟨_, _, .other x y rest ⟨_, e2⟩ ⟨_, e3⟩ hy, rfl, .inr ⟨_, rfl⟩, .inr ⟨a, rfl, ?_⟩⟩
        simp only [readHandler]
        rw [if_neg had, if_neg (by simp)]
    · have hnot : ¬ (Known Spec.alertLevels x.toNat ∧ Known Spec.alertDescriptions y.toNat) := by
        intro hk
        obtain ⟨⟨l, hl⟩, ⟨dd, hdd⟩⟩ := hk
        have hk' := alertParse_ok x y rest l dd hl hdd
        rw [hk'] at hp
        cases hp
      refine ⟨_, _, .unknown x y rest hnot, rfl, .inr ⟨_, rfl⟩, .inl ⟨_, rfl, ?_⟩⟩
      rw [← hp]
      apply h2 x y rest rfl
      by_contra hcon
      push Not at hcon
      obtain ⟨⟨l, hl⟩, ⟨dd, hdd⟩⟩ := hcon
      exact hnot ⟨⟨l, hl⟩, ⟨dd, hdd⟩⟩
    · have := (alertParse_good (PB.new (x :: y :: rest)) (PB.new_valid _)).1
      exact absurd hp this

/-! ## Inner plaintexts -/

theorem inner_cases (pt : Bytes) : pt = [] ∨ (∃ n, 0 < n ∧ pt = List.replicate n 0) ∨
    ∃ f : Fragment, f.type ≠ 0 ∧ pt = f.inner := by
  induction pt using List.reverseRecOn with
  | nil => exact .inl rfl
  | append_singleton l b ih =>
    right
    by_cases hb : b = 0
    · subst hb
      rcases ih with rfl | ⟨n, _, rfl⟩ | ⟨⟨t, c, k⟩, hf, rfl⟩
      · exact .inl ⟨1, by omega, rfl⟩
      · exact .inl ⟨n + 1, by omega, by rw [List.replicate_succ']⟩
      · exact .inr ⟨⟨t, c, k + 1⟩, hf, by simp [Fragment.inner, List.replicate_succ']⟩
    · exact .inr ⟨⟨b, l, 0⟩, hb, by simp [Fragment.inner]⟩

/-- The available data after a record. -/
def infoAfter (start : Nat) (d : DecInfo) : Effect → DecInfo
  | .data c => ⟨start, c.length, 0⟩
  | _ => d

/-- Whether the connection is open after a record. -/
def openAfter (o : Bool) : Effect → Bool
  | .closed => false
  | _ => o

theorem known_contentType (b : UInt8) : Known Spec.contentTypes b.toNat ↔ b = 0 ∨ b = 20 ∨ b = 21 ∨ b = 22 ∨ b = 23 := by
  constructor
  · rintro ⟨t, ht⟩
    simp only [Spec.contentTypes, List.mem_cons, Prod.mk.injEq, List.not_mem_nil, or_false] at ht
    rcases ht with ⟨_, h⟩ | ⟨_, h⟩ | ⟨_, h⟩ | ⟨_, h⟩ | ⟨_, h⟩
    · exact .inl (UInt8.toNat.inj h)
    · exact .inr (.inl (UInt8.toNat.inj h))
    · exact .inr (.inr (.inl (UInt8.toNat.inj h)))
    · exact .inr (.inr (.inr (.inl (UInt8.toNat.inj h))))
    · exact .inr (.inr (.inr (.inr (UInt8.toNat.inj h))))
  · rintro (rfl | rfl | rfl | rfl | rfl)
    · exact ⟨.invalid, by decide⟩
    · exact ⟨.changeCipherSpec, by decide⟩
    · exact ⟨.alert, by decide⟩
    · exact ⟨.handshake, by decide⟩
    · exact ⟨.applicationData, by decide⟩

theorem dispatch_typed {τ : Type} (cb : ServerRecord → M TlsError (ReadKS × τ) Unit) (hdr : Bytes) (start : Nat)
    (content : Bytes) (k : Nat) (t : UInt8) (ht : t ≠ 0) :
    dispatchInner S cb hdr start (Fragment.inner ⟨t, content, k⟩) =
      (match ContentType.of t.toNat with
        | none => M.fail .invalidRecord
        | some .handshake => handshakeLoop S cb (content.length + 1) (PB.new content)
        | some .applicationData => cb (.appData hdr start content)
        | some .alert => do
          let a ← M.lift (Alert.parse (PB.new content)).1
          cb (.alert a)
        | some _ => M.fail .unimplemented : M TlsError (ReadKS × τ) Unit) := by
  unfold dispatchInner Fragment.inner
  simp only [C27_padding content t ht k]
  simp only [List.getLast?_append, List.getLast?_singleton, Option.some_or, List.dropLast_concat]
  rcases ContentType.of t.toNat with _ | ct
  · rfl
  · cases ct <;> rfl

theorem dispatch_effect (n start : Nat) (hdr pt : Bytes) (k : ReadKS) (d : DecInfo) (o : Bool)
    (hb : start + pt.length ≤ n) :
    ∃ e r k', Inner S.hashLen pt e ∧ Shows e r ∧ k'.st = k.st ∧
      dispatchInner S (readHandler n) hdr start pt (k, (d, o)) = (r, (k', (infoAfter start d e, openAfter o e))) := by
  rcases inner_cases pt with rfl | ⟨m, hm, rfl⟩ | ⟨⟨t, c, pad⟩, ht, rfl⟩
  · exact ⟨.abort, .panic, k, .empty, rfl, rfl, rfl⟩
  · refine ⟨_, _, k, .zeros m hm, rfl, rfl, ?_⟩
    exact (C27_dispatch_partial S (readHandler n) hdr start (k, (d, o))).2.2.2.2 m hm
  · simp only at ht
    rw [dispatch_typed S _ _ _ _ _ _ ht]
    by_cases hk : Known Spec.contentTypes t.toNat
    · rcases (known_contentType t).1 hk with rfl | rfl | rfl | rfl | rfl
      · exact absurd rfl ht
      · exact ⟨_, _, k, .changeCipherSpec c pad, rfl, rfl, rfl⟩
      · obtain ⟨e, r, h1, h2, h3, h4⟩ := alert_content n c k d o
        refine ⟨e, r, k, .alert c pad e h1, h2, rfl, ?_⟩
        show (do
          let a ← M.lift (Alert.parse (PB.new c)).1
          readHandler n (.alert a) : M TlsError (ReadKS × (DecInfo × Bool)) Unit) (k, (d, o)) = _
        rcases h4 with ⟨x, rfl, hp⟩ | ⟨a, hp, ha⟩
        · rw [hp, M.lift_err_bind]
          rw [show r = .err x from h2]
          rfl
        · rw [hp, M.lift_ok_bind, ha]
          rcases h3 with rfl | ⟨x, rfl⟩ <;> rfl
      · obtain ⟨e, r, tr, h1, h2, h3, h4⟩ := loop_messages S n (c.length + 1) c [] k (d, o) (by omega)
        simp only [List.nil_append, List.length_nil] at h4
        refine ⟨e, r, { k with transcript := tr }, .handshake c pad e h1, h2, rfl, ?_⟩
        show handshakeLoop S (readHandler n) (c.length + 1) (PB.new c) (k, (d, o)) = _
        rw [show PB.new c = ⟨c, 0⟩ from rfl, h4]
        rcases h3 with rfl | rfl | rfl <;> rfl
      · refine ⟨_, _, k, .data c pad, rfl, rfl, ?_⟩
        show readHandler n (.appData hdr start c) (k, (d, o)) = _
        simp only [readHandler]
        have hcl : c.length < (Fragment.inner ⟨23, c, pad⟩).length := by simp [Fragment.inner]
        rw [if_pos ⟨by omega, by omega⟩]
        rfl
    · refine ⟨_, _, k, .unknown ⟨t, c, pad⟩ hk, rfl, rfl, ?_⟩
      have : ContentType.of t.toNat = none := C04_content_type.reject _ fun x hx => hk ⟨x, hx⟩
      rw [this]
      rfl

/-! ## One record -/

/-- The reading half is between two records of an error-free transport (or the stream has ended), with indices in
range. -/
structure Sane (h : RdHalf) : Prop where
  good : h.Good
  clean : h.rx.Clean
  between : h.rr.Between h.rx.bytes
  iv : h.rks.st.iv.length = S.ivLen

/-- Where it is in the stream. -/
def placeOf (h : RdHalf) : Place := ⟨h.rks.st.counter, h.rx.bytes⟩

/-- The application data of a record. -/
def contentOf : Effect → Bytes
  | .data c => c
  | _ => []

theorem header_eq (t v w a b : UInt8) : ([t, v, w, a, b] : Bytes) = Spec.header t v w (a.toNat * 256 + b.toNat) := by
  have h1 : (a.toNat * 256 + b.toNat) / 256 = a.toNat := by have := b.toNat_lt; omega
  have h2 : UInt8.ofNat (a.toNat * 256 + b.toNat) = b := by
    apply UInt8.toNat.inj
    rw [UInt8.toNat_ofNat']
    have := b.toNat_lt
    omega
  simp [Spec.header, Spec.u16, h1, h2]

/-- The same state after a record, for the effect `e`. -/
structure Moved (h h' : RdHalf) (e : Effect) : Prop where
  key : h'.rks.st.key = h.rks.st.key
  iv : h'.rks.st.iv = h.rks.st.iv
  cap : h'.rr.buf.length = h.rr.buf.length
  opened : h'.opened = openAfter h.opened e
  unread : h'.unread = contentOf e

theorem shows_panic {e : Effect} {r : Res TlsError Unit} (h : Shows e r) : r = .panic ↔ e = .abort := by
  cases e with
  | error x => cases x with
    | none => obtain ⟨y, rfl, _⟩ := h; simp
    | some y => simp only [Shows] at h; subst h; simp
  | _ => simp only [Shows] at h; subst h; simp

theorem sane_after (hol : S.OpenLength) {h : RdHalf} (hs : Sane S h)
    (hp : (RdHalf.readApplicationData S h).1 ≠ .panic)
    (hi : (RdHalf.readApplicationData S h).2.rks.st.iv = h.rks.st.iv) : Sane S (RdHalf.readApplicationData S h).2 := by
  have h1 := readApp_cases S hol h hs.good
  obtain ⟨-, h2, -⟩ := SameBytes.readApp S (h := h) (h' := h) ⟨rfl, hs.clean, hs.clean, rfl, hs.between⟩
  refine ⟨?_, h2.clean, h2.between, by rw [hi]; exact hs.iv⟩
  generalize RdHalf.readApplicationData S h = res at h1 hp
  obtain ⟨r, h'⟩ := res
  simp only at h1 hp
  cases h1 with
  | data _ _ _ _ _ _ _ _ _ _ _ _ _ hg => exact hg
  | tickets _ _ _ _ _ _ _ _ _ _ _ hg => exact hg
  | plainTicket _ _ _ _ hg => exact hg
  | error _ _ _ _ _ hg => exact hg
  | closed _ _ _ _ hg => exact hg
  | panic => exact absurd rfl hp

/-- Reading a record fails before it is looked at. -/
theorem next_error {h h1 : RdHalf} (hg : h.Good) (hu : h.unread = []) {x : TlsError}
    (hr : RdHalf.readRecord S h = (.err x, h1)) (hk : h1.rks.st = h.rks.st) (hc : h1.rr.buf.length = h.rr.buf.length)
    (ho : h1.opened = h.opened) (hd : h1.dec = h.dec) (y : Option TlsError) (hy : Spec.Stands y x) :
    ∃ r h', RdHalf.readApplicationData S h = (r, h') ∧ Shows (.error y) r ∧ Moved h h' (.error y) ∧
      h'.rks.st.counter = h.rks.st.counter ∧ h'.rx = h1.rx := by
  refine ⟨.err x, h1, ?_, ?_, ⟨by rw [hk], by rw [hk], hc, ho, unread_same h h1 hg hu hd⟩, by rw [hk], rfl⟩
  · unfold RdHalf.readApplicationData
    rw [M.bind_err hr]
  · cases y with
    | none => exact ⟨x, rfl, hy⟩
    | some z => cases hy; rfl

theorem messages_not_data {n : Nat} {bytes : Bytes} (c : Bytes) : ¬ Messages n bytes (.data c) := by
  intro h
  generalize he : Effect.data c = e at h
  induction h with
  | ticket r rest bytes e hb ht hr ih => exact ih he
  | _ => cases he

theorem next_effect (hS : S.Lawful) {h : RdHalf} (hs : Sane S h) (hu : h.unread = []) :
    ∃ e seq input r h', Next S h.rks.st.key h.rks.st.iv h.rr.buf.length (placeOf h) e ⟨seq, input⟩ ∧
      RdHalf.readApplicationData S h = (r, h') ∧ Shows e r ∧
      (e ≠ .abort → Moved h h' e ∧ h'.rks.st.counter = seq ∧ h'.rx.bytes = input) := by
  obtain ⟨x, x1, x2, x3⟩ := readRecord_clean S h.rr h.rx h.rks.transcript hs.clean hs.between
  have hread : RdHalf.readRecord S h = ((pureRead S h.rr h.rx.bytes h.rks.transcript).1,
      { h with rr := (pureRead S h.rr h.rx.bytes h.rks.transcript).2.1, rx := x,
               rks := { h.rks with transcript := (pureRead S h.rr h.rx.bytes h.rks.transcript).2.2.2 } }) := by
    unfold RdHalf.readRecord
    simp only [x3]
  have hinv := hs.good.rr
  unfold RR.Inv at hinv
  unfold placeOf
  -- the errors before the record is looked at
  have herr : ∀ (e : Effect) (y : Option TlsError) (z : TlsError) (rr1 : RR) (input tr1 : Bytes), e = .error y →
      Spec.Stands y z → pureRead S h.rr h.rx.bytes h.rks.transcript = (.err z, (rr1, (input, tr1))) →
      rr1.buf.length = h.rr.buf.length →
      ∃ r h', RdHalf.readApplicationData S h = (r, h') ∧ Shows e r ∧
        (e ≠ .abort → Moved h h' e ∧ h'.rks.st.counter = h.rks.st.counter ∧ h'.rx.bytes = input) := by
    intro e y z rr1 input tr1 he hy hp hl
    subst he
    rw [hp] at hread x2
    obtain ⟨r, h', a1, a2, a3, a4, a5⟩ := next_error S hs.good hu hread rfl hl rfl rfl y hy
    exact ⟨r, h', a1, a2, fun _ => ⟨a3, a4, by rw [a5]; exact x2⟩⟩
  generalize hby : h.rx.bytes = bytes at *
  by_cases h5 : bytes.length < 5
  · obtain ⟨r, h', a1, a2, a3⟩ := herr _ (some .ioError) .ioError h.rr [] h.rks.transcript rfl rfl
      (by unfold pureRead; rw [if_pos h5]) rfl
    exact ⟨_, _, _, r, h', .end_ _ _ h5, a1, a2, a3⟩
  · obtain ⟨t, v, w, a, b, rest, rfl⟩ : ∃ t v w a b rest, bytes = t :: v :: w :: a :: b :: rest := by
      match bytes, h5 with
      | t :: v :: w :: a :: b :: rest, _ => exact ⟨t, v, w, a, b, rest, rfl⟩
      | [], h => exact absurd (by simp) h
      | [_], h => exact absurd (by simp) h
      | [_, _], h => exact absurd (by simp) h
      | [_, _, _], h => exact absurd (by simp) h
      | [_, _, _, _], h => exact absurd (by simp) h
    have hhd := header_eq t v w a b
    generalize hn : a.toNat * 256 + b.toNat = n at *
    have hn6 : n < 65536 := by have := a.toNat_lt; have := b.toNat_lt; omega
    have hbytes : t :: v :: w :: a :: b :: rest = Spec.header t v w n ++ rest := by rw [← hhd]; rfl
    have hdecode : RecordHeader.decode [t, v, w, a, b] = match ContentType.of t.toNat with
        | none => .err .invalidRecord
        | some ct => .ok ⟨ct, n, [t, v, w, a, b]⟩ := by
      simp only [RecordHeader.decode, hn]
      cases ContentType.of t.toNat <;> rfl
    by_cases hk : Known Spec.contentTypes t.toNat
    · obtain ⟨ct, hct⟩ := hk
      have hof := C04_content_type.accept _ _ hct
      rw [hof] at hdecode
      simp only at hdecode
      by_cases hbig : h.rr.buf.length < n
      · obtain ⟨r, h', a1, a2, a3⟩ := herr _ (some .insufficientSpace) .insufficientSpace h.rr rest h.rks.transcript
          rfl rfl
          (by
            unfold pureRead
            rw [if_neg h5]
            simp only [List.take_succ_cons, List.take_zero, hdecode]
            rw [if_pos hbig]
            rfl) rfl
        exact ⟨_, _, _, r, h', hbytes ▸ .tooLarge _ t v w n rest ⟨ct, hct⟩ hn6 hbig, a1, a2, a3⟩
      · generalize hat : (if h.rr.decoded + n > h.rr.buf.length then 0 else h.rr.decoded) = at_
        have hatn : at_ + n ≤ h.rr.buf.length := by rw [← hat]; split <;> omega
        by_cases hshort : rest.length < n
        · obtain ⟨r, h', a1, a2, a3⟩ := herr _ (some .ioError) .ioError
            ⟨CB.splice h.rr.buf at_ rest, at_, rest.length⟩ [] h.rks.transcript rfl rfl
            (by
              unfold pureRead
              rw [if_neg h5]
              simp only [List.take_succ_cons, List.take_zero, hdecode]
              rw [if_neg (by omega), hat]
              simp only [List.drop_succ_cons, List.drop_zero]
              rw [if_pos hshort]) (splice_length _ _ _ (by omega))
          exact ⟨_, _, _, r, h', hbytes ▸ .truncated _ t v w n rest ⟨ct, hct⟩ hn6 (by omega) hshort, a1, a2, a3⟩
        · obtain ⟨body, rest', rfl, hbl⟩ : ∃ body rest', rest = body ++ rest' ∧ body.length = n :=
            ⟨rest.take n, rest.drop n, (List.take_append_drop _ _).symm, by simp; omega⟩
          have hpure : pureRead S h.rr (t :: v :: w :: a :: b :: (body ++ rest')) h.rks.transcript =
              ((ServerRecord.decode S ⟨ct, n, [t, v, w, a, b]⟩ at_ body h.rks.transcript).1,
                (⟨CB.splice h.rr.buf at_ body, at_ + n, 0⟩, (rest',
                  (ServerRecord.decode S ⟨ct, n, [t, v, w, a, b]⟩ at_ body h.rks.transcript).2))) := by
            unfold pureRead
            rw [if_neg h5]
            simp only [List.take_succ_cons, List.take_zero, hdecode]
            rw [if_neg (by omega), hat]
            simp only [List.drop_succ_cons, List.drop_zero]
            rw [if_neg hshort, ← hbl, List.take_left, List.drop_left]
          have hlen1 := splice_length h.rr.buf body at_ (by omega)
          subst hbl
          have hbytes' : t :: v :: w :: a :: b :: (body ++ rest') = Spec.header t v w body.length ++ body ++ rest' := by
            rw [hbytes, List.append_assoc]
          rw [hbytes']
          rw [hpure] at hread x2
          have hmk : ∀ (e : Effect) (r : Res TlsError Unit) (h' : RdHalf) (p : Place),
              Next S h.rks.st.key h.rks.st.iv h.rr.buf.length
                ⟨h.rks.st.counter, Spec.header t v w body.length ++ body ++ rest'⟩ e p →
              RdHalf.readApplicationData S h = (r, h') → Shows e r →
              (e ≠ .abort → Moved h h' e ∧ h'.rks.st.counter = p.seq ∧ h'.rx.bytes = p.input) →
              ∃ e seq input r h', Next S h.rks.st.key h.rks.st.iv h.rr.buf.length
                  ⟨h.rks.st.counter, Spec.header t v w body.length ++ body ++ rest'⟩ e ⟨seq, input⟩ ∧
                RdHalf.readApplicationData S h = (r, h') ∧ Shows e r ∧
                (e ≠ .abort → Moved h h' e ∧ h'.rks.st.counter = seq ∧ h'.rx.bytes = input) :=
            fun e r h' p q1 q2 q3 q4 => ⟨e, p.seq, p.input, r, h', q1, q2, q3, q4⟩
          have hle : body.length ≤ h.rr.buf.length := by omega
          rcases (known_contentType t).1 ⟨ct, hct⟩ with rfl | rfl | rfl | rfl | rfl
          · obtain rfl : ct = .invalid := Option.some.inj (hof.symm.trans (by decide))
            obtain ⟨r, h', a1, a2, a3⟩ := herr _ (some .unimplemented) .unimplemented _ _ _ rfl rfl
              (by rw [hpure]; unfold ServerRecord.decode; rw [if_neg (by simp)]; rfl) hlen1
            exact hmk _ r h' _ (.invalid _ _ _ _ _ hn6 hle) a1 a2 a3
          · obtain rfl : ct = .changeCipherSpec := Option.some.inj (hof.symm.trans (by decide))
            have hdd : ServerRecord.decode S ⟨.changeCipherSpec, body.length, [20, v, w, a, b]⟩ at_ body
                h.rks.transcript = (.ok .changeCipherSpec, h.rks.transcript) := by
              unfold ServerRecord.decode
              rw [if_neg (by simp)]
              rfl
            rw [hdd] at hread x2
            refine hmk _ (.err .internalError) ⟨x, h.opened, h.rks, ⟨CB.splice h.rr.buf at_ body, at_ + body.length, 0⟩,
              h.dec⟩ _ (.changeCipherSpec _ _ _ _ _ hn6 hle) ?_ rfl ?_
            · unfold RdHalf.readApplicationData
              rw [M.bind_ok hread]
              rfl
            · intro _
              exact ⟨⟨rfl, rfl, hlen1, rfl, unread_same h _ hs.good hu rfl⟩, rfl, x2⟩
          · obtain rfl : ct = .alert := Option.some.inj (hof.symm.trans (by decide))
            have hdd : ServerRecord.decode S ⟨.alert, body.length, [21, v, w, a, b]⟩ at_ body
                h.rks.transcript = (((Alert.parse (PB.new body)).1).map .alert, h.rks.transcript) := by
              unfold ServerRecord.decode
              rw [if_neg (by simp)]
            obtain ⟨e, r, q1, q2, q3, q4⟩ := alert_content (CB.splice h.rr.buf at_ body).length body h.rks h.dec h.opened
            rcases q4 with ⟨z, rfl, q4⟩ | ⟨al, q4, q5⟩
            · rw [q4] at hdd
              obtain ⟨r, h', a1, a2, a3⟩ := herr _ (some z) z _ _ _ rfl rfl
                (by rw [hpure, hdd]; rfl) hlen1
              exact hmk _ r h' _ (.alert _ _ _ _ _ _ hn6 hle q1) a1 a2 a3
            · rw [q4] at hdd
              rw [hdd] at hread x2
              refine hmk _ r { h with rr := ⟨CB.splice h.rr.buf at_ body, at_ + body.length, 0⟩, rx := x,
                                      opened := if e = .closed then false else h.opened } _
                (.alert _ _ _ _ _ _ hn6 hle q1) ?_ q2 ?_
              · unfold RdHalf.readApplicationData
                rw [M.bind_ok (a := .alert al) hread]
                unfold RdHalf.decrypt decryptRecord
                simp only [q5]
              · intro _
                rcases q3 with rfl | ⟨z, rfl⟩
                · exact ⟨⟨rfl, rfl, hlen1, rfl, unread_same h _ hs.good hu rfl⟩, rfl, x2⟩
                · exact ⟨⟨rfl, rfl, hlen1, rfl, unread_same h _ hs.good hu rfl⟩, rfl, x2⟩
          · obtain rfl : ct = .handshake := Option.some.inj (hof.symm.trans (by decide))
            rcases read_message S [] body h.rks.transcript with ⟨m, rest1, hh, tr', q1, q2, q3, -, -⟩ | ⟨q1, z, p', q2⟩
            · have hdd : ServerRecord.decode S ⟨.handshake, body.length, [22, v, w, a, b]⟩ at_ body
                  h.rks.transcript = (.ok (.handshake hh), tr') := by
                unfold ServerRecord.decode
                rw [if_neg (by simp)]
                rw [List.nil_append] at q3
                simp only [show PB.new body = ⟨body, ([] : Bytes).length⟩ from rfl, q3]
                rfl
              rw [hdd] at hread x2
              by_cases ht4 : m.type = 4
              · have := q2.2 ht4
                subst this
                refine hmk _ (.ok ()) { h with rr := ⟨CB.splice h.rr.buf at_ body, at_ + body.length, 0⟩, rx := x,
                                               rks := { h.rks with transcript := tr' } } _
                  (.handshake _ _ _ _ _ _ hn6 hle (.ticket _ _ _ q1 ht4)) ?_ rfl ?_
                · unfold RdHalf.readApplicationData
                  rw [M.bind_ok hread]
                  rfl
                · exact fun _ => ⟨⟨rfl, rfl, hlen1, rfl, unread_same h _ hs.good hu rfl⟩, rfl, x2⟩
              · refine hmk _ .panic { h with rr := ⟨CB.splice h.rr.buf at_ body, at_ + body.length, 0⟩, rx := x,
                                             rks := { h.rks with transcript := tr' } } _
                  (.handshake _ _ _ _ _ _ hn6 hle (.other _ _ _ q1 ht4)) ?_ rfl (fun hne => absurd rfl hne)
                unfold RdHalf.readApplicationData
                rw [M.bind_ok hread]
                cases hh <;> first | rfl | exact absurd (q2.1 rfl) ht4
            · have hdd : ServerRecord.decode S ⟨.handshake, body.length, [22, v, w, a, b]⟩ at_ body
                  h.rks.transcript = (.err z, h.rks.transcript) := by
                unfold ServerRecord.decode
                rw [if_neg (by simp)]
                rw [List.nil_append] at q2
                simp only [show PB.new body = ⟨body, ([] : Bytes).length⟩ from rfl, q2]
                rfl
              obtain ⟨r, h', a1, a2, a3⟩ := herr _ none z _ _ _ rfl (hsRead_err S q2) (by rw [hpure, hdd]) hlen1
              exact hmk _ r h' _ (.handshake _ _ _ _ _ _ hn6 hle (.unreadable _ q1)) a1 a2 a3
          · obtain rfl : ct = .applicationData := Option.some.inj (hof.symm.trans (by decide))
            have hdd : ServerRecord.decode S ⟨.applicationData, body.length, [23, v, w, a, b]⟩ at_ body
                h.rks.transcript = (.ok (.appData (Spec.header 23 v w body.length) at_ body), h.rks.transcript) := by
              unfold ServerRecord.decode
              rw [if_neg (by simp), hhd]
              rfl
            rw [hdd] at hread x2
            have hnonce : h.rks.st.nonce S = Spec.nonce h.rks.st.iv h.rks.st.counter := nonce_eq S hS.ivLen_eq _ hs.iv
            rcases ho : S.open_ h.rks.st.key (Spec.nonce h.rks.st.iv h.rks.st.counter) (Spec.header 23 v w body.length)
              body with _ | pt
            · refine hmk _ (.err .cryptoError) { h with rr := ⟨CB.splice h.rr.buf at_ body, at_ + body.length, 0⟩, rx := x } _
                (.forged _ _ _ _ _ hn6 hle ho) ?_ rfl
                (fun _ => ⟨⟨rfl, rfl, hlen1, rfl, unread_same h _ hs.good hu rfl⟩, rfl, x2⟩)
              unfold RdHalf.readApplicationData
              rw [M.bind_ok hread]
              unfold RdHalf.decrypt decryptRecord
              simp only [hnonce, ho]
            · have hpl := hS.openLength _ _ _ _ _ ho
              have hlen2 := splice_length (CB.splice h.rr.buf at_ body) pt at_ (by omega)
              obtain ⟨e, r, k', q1, q2, q3, q4⟩ := dispatch_effect S (CB.splice h.rr.buf at_ body).length at_
                (Spec.header 23 v w body.length) pt h.rks h.dec h.opened (by omega)
              have hun : ∀ (k : ReadKS), (RdHalf.mk x (openAfter h.opened e) k ⟨CB.splice (CB.splice h.rr.buf at_ body) at_ pt,
                  at_ + body.length, 0⟩ (infoAfter at_ h.dec e)).unread = contentOf e := by
                intro k
                cases e with
                | data c =>
                  have hcp : c <+: pt := by
                    cases q1 with
                    | data c pad => exact ⟨23 :: List.replicate pad 0, by simp [Fragment.inner]⟩
                    | handshake c pad e hm => exact absurd hm (messages_not_data _)
                    | alert c pad e ha => cases ha
                  unfold RdHalf.unread infoAfter contentOf
                  simp only [Nat.add_zero, Nat.sub_zero]
                  have h1 := splice_read (CB.splice h.rr.buf at_ body) pt at_ (by omega)
                  have : ((CB.splice (CB.splice h.rr.buf at_ body) at_ pt).drop at_).take c.length =
                      (((CB.splice (CB.splice h.rr.buf at_ body) at_ pt).drop at_).take pt.length).take c.length := by
                    rw [List.take_take, Nat.min_eq_left hcp.length_le]
                  rw [this, h1]
                  exact (List.prefix_iff_eq_take.1 hcp).symm
                | _ => exact unread_same h _ hs.good hu rfl
              have hrun : ∀ r' k2, (match r with
                  | .ok () => ReadKS.increment k'
                  | .err z => (.err z, k')
                  | .panic => (.panic, k')) = (r', k2) → RdHalf.readApplicationData S h = (r',
                    ⟨x, openAfter h.opened e, k2, ⟨CB.splice (CB.splice h.rr.buf at_ body) at_ pt, at_ + body.length, 0⟩,
                      infoAfter at_ h.dec e⟩) := by
                intro r' k2 hrk
                unfold RdHalf.readApplicationData
                rw [M.bind_ok hread]
                unfold RdHalf.decrypt decryptRecord
                simp only [hnonce, ho, q4]
                rcases r with ⟨⟨⟩⟩ | z | _
                · simp only at hrk ⊢
                  rw [hrk]
                · simp only at hrk ⊢
                  injection hrk with e1 e2
                  subst e1 e2
                  rfl
                · simp only at hrk ⊢
                  injection hrk with e1 e2
                  subst e1 e2
                  rfl
              by_cases hd : e.Done
              · obtain rfl : r = .ok () := by
                  cases e with
                  | data c => exact q2
                  | ticket => exact q2
                  | _ => exact absurd hd (by simp [Effect.Done])
                by_cases hc : h.rks.st.counter + 1 < 2 ^ 64
                · have := hrun (.ok ()) { k' with st := { k'.st with counter := k'.st.counter + 1 } }
                    (by simp only [ReadKS.increment, KsState.increment]; rw [if_pos (by rw [q3]; exact hc)])
                  refine hmk e _ _ _ (.authentic _ _ _ _ _ pt e hn6 hle ho q1 hd hc) this q2 (fun _ => ?_)
                  exact ⟨⟨by simp only [q3], by simp only [q3], by simp only [hlen2, hlen1], rfl, hun _⟩,
                    by simp only [q3], x2⟩
                · have := hrun .panic k'
                    (by simp only [ReadKS.increment, KsState.increment]; rw [if_neg (by rw [q3]; exact hc)])
                  exact hmk _ _ _ _ (.exhausted _ _ _ _ _ pt e hn6 hle ho q1 hd (by omega)) this rfl
                    (fun hne => absurd rfl hne)
              · have := hrun r k' (by
                  rcases r with ⟨⟨⟩⟩ | z | _
                  · exfalso
                    cases e with
                    | error z => cases z with
                      | none => obtain ⟨_, h, _⟩ := q2; cases h
                      | some z => cases q2
                    | data c => exact hd trivial
                    | ticket => exact hd trivial
                    | _ => cases q2
                  · rfl
                  · rfl)
                refine hmk e _ _ _ (.refused _ _ _ _ _ pt e hn6 hle ho q1 hd) this q2 (fun _ => ?_)
                exact ⟨⟨by simp only [q3], by simp only [q3], by simp only [hlen2, hlen1], rfl, hun _⟩,
                  by simp only [q3], x2⟩
    · obtain ⟨r, h', a1, a2, a3⟩ := herr _ (some .invalidRecord) .invalidRecord h.rr rest h.rks.transcript
        rfl rfl
        (by
          unfold pureRead
          rw [if_neg h5]
          have : ContentType.of t.toNat = none := C04_content_type.reject _ fun x hx => hk ⟨x, hx⟩
          rw [this] at hdecode
          simp only [List.take_succ_cons, List.take_zero, hdecode]
          rfl) rfl
      exact ⟨_, _, _, r, h', hbytes ▸ .unknown _ t v w n rest hk hn6, a1, a2, a3⟩

/-! ## Waiting for data -/

theorem next_shorter {key iv : Bytes} {cap : Nat} {p p' : Place} {e : Effect} (hn : Next S key iv cap p e p')
    (hd : e.Done) : p'.input.length < p.input.length := by
  cases hn with
  | end_ => exact absurd hd (by simp [Effect.Done])
  | truncated => exact absurd hd (by simp [Effect.Done])
  | _ => simp [Spec.header]; omega

/-- One record, with the invariant. -/
theorem next_step (hS : S.Lawful) {h : RdHalf} (hs : Sane S h) (hu : h.unread = []) :
    ∃ e p' r h', Next S h.rks.st.key h.rks.st.iv h.rr.buf.length (placeOf h) e p' ∧
      RdHalf.readApplicationData S h = (r, h') ∧ Shows e r ∧
      (e ≠ .abort → Sane S h' ∧ Moved h h' e ∧ placeOf h' = p') := by
  obtain ⟨e, seq, input, r, h', h1, h2, h3, h4⟩ := next_effect S hS hs hu
  refine ⟨e, _, r, h', h1, h2, h3, fun hne => ?_⟩
  obtain ⟨h5, h6, h7⟩ := h4 hne
  refine ⟨?_, h5, by rw [placeOf, h6, h7]⟩
  have h8 := sane_after S hS.openLength hs (by rw [h2]; exact fun hc => hne ((shows_panic h3).1 hc))
    (by rw [h2]; exact h5.iv)
  rw [h2] at h8
  exact h8

theorem fill_effect (hS : S.Lawful) (fuel : Nat) : ∀ h : RdHalf, Sane S h → h.unread = [] →
    h.rx.bytes.length + 2 ≤ fuel →
    ∃ e p' r h', Fill S h.rks.st.key h.rks.st.iv h.rr.buf.length (placeOf h) e p' ∧
      RdHalf.fillLoop S fuel h = (r, h') ∧ Shows e r ∧ e ≠ .data [] ∧ e ≠ .ticket ∧
      (e ≠ .abort → Sane S h' ∧ Moved h h' e ∧ placeOf h' = p') := by
  induction fuel with
  | zero => intro h _ _ hf; omega
  | succ fuel ih =>
    intro h hs hu hf
    obtain ⟨e, p1, r, h1, a1, a2, a3, a4⟩ := next_step S hS hs hu
    have hrun : RdHalf.fillLoop S (fuel + 1) h =
        (do RdHalf.readApplicationData S; RdHalf.fillLoop S fuel : M TlsError RdHalf Unit) h := by
      conv_lhs => unfold RdHalf.fillLoop
      rw [M.get_bind, if_pos ((h.isEmpty_iff hs.good).2 hu)]
    by_cases hskip : e = .data [] ∨ e = .ticket
    · have hne : e ≠ .abort := by rcases hskip with rfl | rfl <;> simp
      have hok : r = .ok () := by rcases hskip with rfl | rfl <;> exact a3
      have hdone : e.Done := by rcases hskip with rfl | rfl <;> trivial
      have hop : openAfter h.opened e = h.opened := by rcases hskip with rfl | rfl <;> rfl
      obtain ⟨s1, m1, q1⟩ := a4 hne
      have hu1 : h1.unread = [] := by rw [m1.unread]; rcases hskip with rfl | rfl <;> rfl
      have hlt := next_shorter S a1 hdone
      rw [← q1] at hlt
      simp only [placeOf] at hlt
      obtain ⟨e', p', r', h', b1, b2, b3, b4, b5, b6⟩ := ih h1 s1 hu1 (by omega)
      rw [m1.key, m1.iv, m1.cap, q1] at b1
      refine ⟨e', p', r', h', .skip _ _ _ _ _ a1 hskip b1, ?_, b3, b4, b5, fun hab => ?_⟩
      · rw [hrun]
        subst hok
        rw [M.bind_ok a2, b2]
      · obtain ⟨s2, m2, q2⟩ := b6 hab
        exact ⟨s2, ⟨m2.key.trans m1.key, m2.iv.trans m1.iv, m2.cap.trans m1.cap,
          by rw [m2.opened, m1.opened, hop], m2.unread⟩, q2⟩
    · have hn1 : e ≠ .data [] := fun hc => hskip (.inl hc)
      have hn2 : e ≠ .ticket := fun hc => hskip (.inr hc)
      refine ⟨e, p1, r, h1, .here _ _ _ a1 hn1 hn2, ?_, a3, hn1, hn2, a4⟩
      rw [hrun]
      cases r with
      | err z => rw [M.bind_err a2]
      | panic => rw [M.bind_panic a2]
      | ok u =>
        rw [M.bind_ok a2]
        cases e with
        | ticket => exact absurd rfl hn2
        | closed => cases a3
        | abort => cases a3
        | error z => cases z with
          | none => obtain ⟨_, hz, _⟩ := a3; cases hz
          | some z => cases a3
        | data c =>
          obtain ⟨s1, m1, q1⟩ := a4 (by simp)
          have hlt := next_shorter S a1 trivial
          rw [← q1] at hlt
          simp only [placeOf] at hlt
          obtain ⟨fuel, rfl⟩ : ∃ j, fuel = j + 1 := ⟨fuel - 1, by omega⟩
          unfold RdHalf.fillLoop
          rw [M.get_bind, if_neg]
          · rfl
          · intro hem
            have := (h1.isEmpty_iff s1.good).1 hem
            rw [m1.unread] at this
            exact hn1 (by rw [contentOf] at this; rw [this])

/-! ## Calls -/

/-- The reader a reading half is. -/
def readerOf (h : RdHalf) : Reader := ⟨h.opened, h.unread, placeOf h⟩

/-- The result of a call, as the specification has it. -/
def Agrees : Result → Res TlsError ROut → Prop
  | .ok slices taken, .ok o => o.seen = slices ∧ o.taken = taken
  | .error (some e), .err x => x = e
  | .error none, .err e => Spec.DecoderError e
  | .abort, .panic => True
  | _, _ => False

theorem spec_uses (op : ROp) : op.spec.uses = (op.calls.1.map RBufOp.call, op.calls.2) := by
  cases op <;> rfl

theorem spec_waits (op : ROp) : op.spec.Waits ↔ op.Fills := by
  cases op <;> rfl

theorem use_effect {h : RdHalf} (hs : Sane S h) (op : ROp) :
    ∃ o, RdHalf.useBuffer op.calls.1 op.calls.2 h = (.ok o, h.eat (Spec.borrow op.spec.uses.1 op.spec.uses.2 h.unread).2.length) ∧
      Agrees (op.spec.gives h.unread) (.ok o) ∧
      Sane S (h.eat (Spec.borrow op.spec.uses.1 op.spec.uses.2 h.unread).2.length) ∧
      readerOf (h.eat (Spec.borrow op.spec.uses.1 op.spec.uses.2 h.unread).2.length) =
        { readerOf h with cur := op.spec.leaves h.unread } := by
  rw [RdHalf.useBuffer_run _ _ _ hs.good]
  have hu := spec_uses op
  refine ⟨_, by rw [hu], ?_, ⟨h.eat_good _ hs.good (borrow_le _ _ _), hs.clean, hs.between, hs.iv⟩, ?_⟩
  · simp only [Spec.ReadCall.gives, Agrees, hu]
    exact ⟨trivial, trivial⟩
  · simp only [readerOf, RdHalf.eat_unread, Spec.ReadCall.leaves]
    rfl

/-- One call. -/
theorem call_effect (hS : S.Lawful) (op : ROp) {h : RdHalf} (hs : Sane S h) :
    ∃ res s', Call S h.rks.st.key h.rks.st.iv h.rr.buf.length op.spec (readerOf h) res s' ∧
      Agrees res (op.run S h).1 ∧
      (res ≠ .abort → Sane S (op.run S h).2 ∧ (op.run S h).2.rks.st.key = h.rks.st.key ∧
        (op.run S h).2.rks.st.iv = h.rks.st.iv ∧ (op.run S h).2.rr.buf.length = h.rr.buf.length ∧
        s' = readerOf (op.run S h).2) := by
  by_cases hf : op.Fills
  · have hw := (spec_waits op).2 hf
    rw [op.run_fills S hf]
    by_cases ho : h.opened = true
    · by_cases hu : h.unread = []
      · obtain ⟨e, p', r, h1, b1, b2, b3, b4, b5, b6⟩ := fill_effect S hS (h.rx.size + 2) h hs hu
          (by have := h.rx.bytes_le_size; omega)
        have hfill : RdHalf.fill S h = (r, h1) := by
          unfold RdHalf.fill
          rw [M.get_bind, if_pos ho, b2]
        have hrd : readerOf h = ⟨true, [], placeOf h⟩ := by rw [readerOf, ho, hu]
        rw [hrd]
        cases e with
        | ticket => exact absurd rfl b5
        | data d =>
          obtain ⟨s1, m1, q1⟩ := b6 (by simp)
          obtain rfl : r = .ok () := b3
          obtain ⟨o, u1, u2, u3, u4⟩ := use_effect S s1 op
          have hun : h1.unread = d := m1.unread
          rw [M.bind_ok hfill, u1]
          refine ⟨_, _, .data _ _ _ d hw b1, by rw [← hun]; exact u2, fun _ => ⟨u3, m1.key, m1.iv, m1.cap, ?_⟩⟩
          rw [u4, readerOf, m1.opened, hun, q1, ho]
          rfl
        | closed =>
          obtain ⟨s1, m1, q1⟩ := b6 (by simp)
          obtain rfl : r = .err .connectionClosed := b3
          rw [M.bind_err hfill]
          refine ⟨_, _, .closed _ _ _ hw b1, rfl, fun _ => ⟨s1, m1.key, m1.iv, m1.cap, ?_⟩⟩
          rw [readerOf, m1.opened, m1.unread, q1]
          rfl
        | error z =>
          obtain ⟨s1, m1, q1⟩ := b6 (by simp)
          obtain ⟨x, rfl, hx⟩ : ∃ x, r = .err x ∧ Agrees (.error z) (.err x) := by
            cases z with
            | none => obtain ⟨x, rfl, hx⟩ := b3; exact ⟨x, rfl, hx⟩
            | some y => exact ⟨y, b3, rfl⟩
          rw [M.bind_err hfill]
          refine ⟨_, _, .error _ _ _ z hw b1, hx, fun _ => ⟨s1, m1.key, m1.iv, m1.cap, ?_⟩⟩
          rw [readerOf, m1.opened, m1.unread, q1, ho]
          rfl
        | abort =>
          obtain rfl : r = .panic := b3
          rw [M.bind_panic hfill]
          exact ⟨_, _, .abort _ _ _ hw b1, trivial, fun hne => absurd rfl hne⟩
      · rw [M.bind_ok (fill_unread S h hs.good ho hu)]
        obtain ⟨o, u1, u2, u3, u4⟩ := use_effect S hs op
        rw [u1]
        exact ⟨_, _, .available _ (readerOf h) hw ho hu, u2, fun _ => ⟨u3, rfl, rfl, rfl, u4.symm⟩⟩
    · simp only [Bool.not_eq_true] at ho
      rw [M.bind_err (fill_closed S h ho)]
      exact ⟨_, _, .notOpen _ _ hw ho, rfl, fun _ => ⟨hs, rfl, rfl, rfl, rfl⟩⟩
  · cases op with
    | read n =>
      simp only [ROp.Fills, not_not] at hf
      subst hf
      exact ⟨_, _, .nothing _, ⟨rfl, rfl⟩, fun _ => ⟨hs, rfl, rfl, rfl, rfl⟩⟩
    | consume n =>
      obtain ⟨o, u1, u2, u3, u4⟩ := use_effect S hs (.consume n)
      have hrun : (ROp.consume n).run S h = (.ok o, h.eat (Spec.borrow (ROp.consume n).spec.uses.1
        (ROp.consume n).spec.uses.2 h.unread).2.length) := u1
      rw [hrun]
      exact ⟨_, _, .consume n _, u2, fun _ => ⟨u3, rfl, rfl, rfl, u4.symm⟩⟩
    | fillBuf => exact absurd trivial hf
    | buffered ops rv => exact absurd trivial hf

/-- **C76.** Any history of calls on a reading half between two records of an error-free transport is a history of the
reader of the byte stream: the same slices and bytes, the same errors, a panic exactly where the reader has one, and
the same reader afterwards. -/
theorem C76_reader (hS : S.Lawful) (ops : List ROp) : ∀ h : RdHalf, Sane S h →
    ∃ rs s', Calls S h.rks.st.key h.rks.st.iv h.rr.buf.length (ops.map ROp.spec) (readerOf h) rs s' ∧
      List.Forall₂ Agrees rs (runReads S ops h).1 ∧
      ∀ s, s' = some s → s = readerOf (runReads S ops h).2 := by
  induction ops with
  | nil => exact fun h _ => ⟨[], _, .nil _, .nil, fun s hs => (Option.some.inj hs).symm⟩
  | cons op ops ih =>
    intro h hs
    obtain ⟨res, s1, c1, c2, c3⟩ := call_effect S hS op hs
    simp only [runReads, List.map_cons]
    generalize op.run S h = run at c2 c3
    obtain ⟨r, h1⟩ := run
    simp only at c2 c3
    by_cases hab : res = .abort
    · subst hab
      obtain rfl : r = .panic := by cases r <;> first | rfl | exact absurd c2 (by simp [Agrees])
      exact ⟨[.abort], none, .abort _ _ _ _ c1, .cons trivial .nil, fun s hs => by cases hs⟩
    · obtain ⟨d1, d2, d3, d4, rfl⟩ := c3 hab
      obtain ⟨rs, s', e1, e2, e3⟩ := ih h1 d1
      rw [d2, d3, d4] at e1
      have hne : r ≠ .panic := by
        rintro rfl
        cases res with
        | ok _ _ => exact c2
        | error z => cases z <;> exact c2
        | abort => exact hab rfl
      refine ⟨res :: rs, s', .cons _ _ _ _ _ _ _ c1 hab e1, ?_, ?_⟩
      · cases r with
        | ok o => exact .cons c2 e2
        | err x => exact .cons c2 e2
        | panic => exact absurd rfl hne
      · cases r with
        | ok o => exact e3
        | err x => exact e3
        | panic => exact absurd rfl hne

/-! ## The reader is deterministic -/

theorem inner_injective {f g : Fragment} (hf : f.type ≠ 0) (hg : g.type ≠ 0) (h : f.inner = g.inner) :
    f.type = g.type ∧ f.content = g.content := by
  have h1 := C27_padding f.content f.type hf f.padding
  have h2 := C27_padding g.content g.type hg g.padding
  unfold Fragment.inner at h
  rw [h, h2] at h1
  have := List.append_inj' h1 rfl
  exact ⟨by simpa using this.2.symm, this.1.symm⟩

theorem inner_not_zeros (f : Fragment) (hf : f.type ≠ 0) (n : Nat) : f.inner ≠ List.replicate n 0 := by
  intro h
  have : f.type ∈ List.replicate n (0 : UInt8) := by rw [← h]; simp [Fragment.inner]
  exact hf (List.eq_of_mem_replicate this)

theorem alert_unique {c : Bytes} {e e' : Effect} (h : AlertContent c e) (h' : AlertContent c e') : e = e' := by
  cases h with
  | close l rest hl => cases h' with
    | close => rfl
    | other _ _ _ _ _ h0 => exact absurd rfl h0
    | unknown _ _ _ hx => exact absurd ⟨hl, .closeNotify, by decide⟩ hx
    | short _ hx => simp at hx; omega
  | other l d rest hl hd h0 => cases h' with
    | close => exact absurd rfl h0
    | other => rfl
    | unknown _ _ _ hx => exact absurd ⟨hl, hd⟩ hx
    | short _ hx => simp at hx; omega
  | unknown l d rest hx => cases h' with
    | close _ _ hl => exact absurd ⟨hl, .closeNotify, by decide⟩ hx
    | other _ _ _ hl hd _ => exact absurd ⟨hl, hd⟩ hx
    | unknown => rfl
    | short _ hx => simp at hx; omega
  | short _ hx => cases h' with
    | short => rfl
    | _ => simp at hx; omega

theorem messages_unique {c : Bytes} {e e' : Effect} (h : Messages S.hashLen c e) (h' : Messages S.hashLen c e') :
    e = e' := by
  have hnil : ∀ r rest, ¬ Begins S.hashLen r rest [] := by
    rintro r rest ⟨_, _, n, _, hb⟩
    simp at hb
  induction h generalizing e' with
  | done => cases h' with
    | done => rfl
    | ticket r rest _ _ hb => exact absurd hb (hnil _ _)
    | other r rest _ hb => exact absurd hb (hnil _ _)
    | unreadable _ hne => exact absurd rfl hne
  | ticket r rest bytes e hb ht hr ih => cases h' with
    | done => exact absurd hb (hnil _ _)
    | ticket r' rest' _ _ hb' ht' hr' =>
      obtain ⟨_, rfl⟩ := begins_unique S hb hb'
      exact ih hr'
    | other r' rest' _ hb' ht' => exact absurd ((begins_unique S hb hb').1.symm.trans ht) ht'
    | unreadable _ _ hn => exact absurd hb (hn _ _)
  | other r rest bytes hb ht => cases h' with
    | done => exact absurd hb (hnil _ _)
    | ticket r' rest' _ _ hb' ht' hr' => exact absurd ((begins_unique S hb hb').1.trans ht') ht
    | other => rfl
    | unreadable _ _ hn => exact absurd hb (hn _ _)
  | unreadable bytes hne hn => cases h' with
    | done => exact absurd rfl hne
    | ticket r' rest' _ _ hb' ht' hr' => exact absurd hb' (hn _ _)
    | other r' rest' _ hb' ht' => exact absurd hb' (hn _ _)
    | unreadable => rfl

theorem message_unique {c : Bytes} {e e' : Effect} (h : Message S.hashLen c e) (h' : Message S.hashLen c e') :
    e = e' := by
  cases h with
  | ticket r rest _ hb ht => cases h' with
    | ticket => rfl
    | other r' rest' _ hb' ht' => exact absurd ((begins_unique S hb hb').1.symm.trans ht) ht'
    | unreadable _ hn => exact absurd hb (hn _ _)
  | other r rest _ hb ht => cases h' with
    | ticket r' rest' _ hb' ht' => exact absurd ((begins_unique S hb hb').1.trans ht') ht
    | other => rfl
    | unreadable _ hn => exact absurd hb (hn _ _)
  | unreadable _ hn => cases h' with
    | ticket r' rest' _ hb' ht' => exact absurd hb' (hn _ _)
    | other r' rest' _ hb' ht' => exact absurd hb' (hn _ _)
    | unreadable => rfl

/-- The content of an inner plaintext by its type. -/
def Typed (f : Fragment) (e : Effect) : Prop :=
  (f.type = 23 ∧ e = .data f.content) ∨ (f.type = 22 ∧ Messages S.hashLen f.content e) ∨
    (f.type = 21 ∧ AlertContent f.content e) ∨ (f.type = 20 ∧ e = .error (some .unimplemented)) ∨
    (¬ Known Spec.contentTypes f.type.toNat ∧ e = .error (some .invalidRecord))

theorem inner_typed {pt : Bytes} {e : Effect} (h : Inner S.hashLen pt e) :
    (pt = [] ∧ e = .abort) ∨ (∃ n, 0 < n ∧ pt = List.replicate n 0 ∧ e = .error (some .unimplemented)) ∨
      ∃ f : Fragment, f.type ≠ 0 ∧ pt = f.inner ∧ Typed S f e := by
  cases h with
  | empty => exact .inl ⟨rfl, rfl⟩
  | zeros n hn => exact .inr (.inl ⟨n, hn, rfl, rfl⟩)
  | data c p => exact .inr (.inr ⟨_, by simp, rfl, .inl ⟨rfl, rfl⟩⟩)
  | handshake c p e hm => exact .inr (.inr ⟨⟨22, c, p⟩, by simp, rfl, .inr (.inl ⟨rfl, hm⟩)⟩)
  | alert c p e ha => exact .inr (.inr ⟨⟨21, c, p⟩, by simp, rfl, .inr (.inr (.inl ⟨rfl, ha⟩))⟩)
  | changeCipherSpec c p => exact .inr (.inr ⟨⟨20, c, p⟩, by simp, rfl, .inr (.inr (.inr (.inl ⟨rfl, rfl⟩)))⟩)
  | unknown f ht =>
    refine .inr (.inr ⟨f, ?_, rfl, .inr (.inr (.inr (.inr ⟨ht, rfl⟩)))⟩)
    exact fun h0 => ht ((known_contentType _).2 (.inl h0))

theorem typed_unique {f g : Fragment} {e e' : Effect} (ht : f.type = g.type) (hc : f.content = g.content)
    (h : Typed S f e) (h' : Typed S g e') : e = e' := by
  unfold Typed at h h'
  rw [← ht, ← hc] at h'
  have hk := known_contentType f.type
  rcases h with ⟨a, b⟩ | ⟨a, b⟩ | ⟨a, b⟩ | ⟨a, b⟩ | ⟨a, b⟩ <;> rcases h' with ⟨a', b'⟩ | ⟨a', b'⟩ | ⟨a', b'⟩ | ⟨a', b'⟩ | ⟨a', b'⟩ <;>
    first
      | exact b.trans b'.symm
      | exact messages_unique S b b'
      | exact alert_unique b b'
      | exact absurd (a.symm.trans a') (by decide)
      | exact absurd (hk.2 (by simp [a])) a'
      | exact absurd (hk.2 (by simp [a'])) a

theorem inner_unique {pt : Bytes} {e e' : Effect} (h : Inner S.hashLen pt e) (h' : Inner S.hashLen pt e') : e = e' := by
  rcases inner_typed S h with ⟨a, b⟩ | ⟨n, hn, a, b⟩ | ⟨f, a, b, c⟩ <;>
    rcases inner_typed S h' with ⟨a', b'⟩ | ⟨n', hn', a', b'⟩ | ⟨f', a', b', c'⟩
  · rw [b, b']
  · rw [a] at a'
    obtain ⟨j, rfl⟩ : ∃ j, n' = j + 1 := ⟨n' - 1, by omega⟩
    simp [List.replicate_succ] at a'
  · rw [a] at b'
    simp [Fragment.inner] at b'
  · rw [a'] at a
    obtain ⟨j, rfl⟩ : ∃ j, n = j + 1 := ⟨n - 1, by omega⟩
    simp [List.replicate_succ] at a
  · rw [b, b']
  · exact absurd (b'.symm.trans a) (inner_not_zeros _ a' _)
  · rw [a'] at b
    simp [Fragment.inner] at b
  · exact absurd (b.symm.trans a') (inner_not_zeros _ a _)
  · obtain ⟨h1, h2⟩ := inner_injective a a' (b.symm.trans b')
    exact typed_unique S h1 h2 c c'

theorem header_injective {t v w t' v' w' : UInt8} {n n' : Nat} {rest rest' : Bytes} (hn : n < 65536) (hn' : n' < 65536)
    (h : Spec.header t v w n ++ rest = Spec.header t' v' w' n' ++ rest') :
    t = t' ∧ v = v' ∧ w = w' ∧ n = n' ∧ rest = rest' := by
  simp only [Spec.header, Spec.u16, List.cons_append, List.nil_append, List.cons.injEq] at h
  obtain ⟨h1, h2, h3, h4, h5, h6⟩ := h
  refine ⟨h1, h2, h3, ?_, h6⟩
  have h4' := congrArg UInt8.toNat h4
  have h5' := congrArg UInt8.toNat h5
  simp only [UInt8.toNat_ofNat'] at h4' h5'
  omega

/-- A protected record at number `seq`: what it does and the number after it. -/
def Protected (key iv : Bytes) (seq : Nat) (hdr body : Bytes) (e : Effect) (seq' : Nat) : Prop :=
  (S.open_ key (Spec.nonce iv seq) hdr body = none ∧ e = .error (some .cryptoError) ∧ seq' = seq) ∨
  ∃ pt e0, S.open_ key (Spec.nonce iv seq) hdr body = some pt ∧ Inner S.hashLen pt e0 ∧
    ((e0.Done ∧ seq + 1 < 2 ^ 64 ∧ e = e0 ∧ seq' = seq + 1) ∨ (e0.Done ∧ 2 ^ 64 ≤ seq + 1 ∧ e = .abort ∧ seq' = seq) ∨
      (¬ e0.Done ∧ e = e0 ∧ seq' = seq))

theorem protected_unique {key iv : Bytes} {seq : Nat} {hdr body : Bytes} {e e' : Effect} {n n' : Nat}
    (h : Protected S key iv seq hdr body e n) (h' : Protected S key iv seq hdr body e' n') : e = e' ∧ n = n' := by
  rcases h with ⟨a, b, c⟩ | ⟨pt, e0, a, b, c⟩ <;> rcases h' with ⟨a', b', c'⟩ | ⟨pt', e0', a', b', c'⟩
  · exact ⟨b.trans b'.symm, c.trans c'.symm⟩
  · rw [a] at a'; cases a'
  · rw [a] at a'; cases a'
  · rw [a] at a'
    injection a' with a'
    subst a'
    obtain rfl := inner_unique S b b'
    rcases c with ⟨c1, c2, c3, c4⟩ | ⟨c1, c2, c3, c4⟩ | ⟨c1, c2, c3⟩ <;>
      rcases c' with ⟨d1, d2, d3, d4⟩ | ⟨d1, d2, d3, d4⟩ | ⟨d1, d2, d3⟩ <;>
      first
        | exact ⟨c3.trans d3.symm, c4.trans d4.symm⟩
        | exact ⟨c2.trans d2.symm, c3.trans d3.symm⟩
        | exact absurd c1 d1
        | exact absurd d1 c1
        | omega

/-- A whole record by its type. -/
def Body (key iv : Bytes) (seq : Nat) (t v w : UInt8) (body : Bytes) (e : Effect) (seq' : Nat) : Prop :=
  (t = 0 ∧ e = .error (some .unimplemented) ∧ seq' = seq) ∨ (t = 20 ∧ e = .error (some .internalError) ∧ seq' = seq) ∨
  (t = 21 ∧ AlertContent body e ∧ seq' = seq) ∨ (t = 22 ∧ Message S.hashLen body e ∧ seq' = seq) ∨
  (t = 23 ∧ Protected S key iv seq (Spec.header 23 v w body.length) body e seq')

theorem body_unique {key iv : Bytes} {seq : Nat} {t v w : UInt8} {body : Bytes} {e e' : Effect} {n n' : Nat}
    (h : Body S key iv seq t v w body e n) (h' : Body S key iv seq t v w body e' n') : e = e' ∧ n = n' := by
  rcases h with ⟨a, b, c⟩ | ⟨a, b, c⟩ | ⟨a, b, c⟩ | ⟨a, b, c⟩ | ⟨a, b⟩ <;>
    rcases h' with ⟨a', b', c'⟩ | ⟨a', b', c'⟩ | ⟨a', b', c'⟩ | ⟨a', b', c'⟩ | ⟨a', b'⟩ <;>
    first
      | exact absurd (a.symm.trans a') (by decide)
      | exact ⟨b.trans b'.symm, c.trans c'.symm⟩
      | exact ⟨alert_unique b b', c.trans c'.symm⟩
      | exact ⟨message_unique S b b', c.trans c'.symm⟩
      | exact protected_unique S b b'

/-- A record by what there is of it. -/
def Whole (key iv : Bytes) (cap seq : Nat) (t v w : UInt8) (n : Nat) (rest : Bytes) (e : Effect) (p : Place) : Prop :=
  (¬ Known Spec.contentTypes t.toNat ∧ e = .error (some .invalidRecord) ∧ p = ⟨seq, rest⟩) ∨
  (Known Spec.contentTypes t.toNat ∧ cap < n ∧ e = .error (some .insufficientSpace) ∧ p = ⟨seq, rest⟩) ∨
  (Known Spec.contentTypes t.toNat ∧ n ≤ cap ∧ rest.length < n ∧ e = .error (some .ioError) ∧ p = ⟨seq, []⟩) ∨
  (Known Spec.contentTypes t.toNat ∧ n ≤ cap ∧ n ≤ rest.length ∧
    ∃ seq', Body S key iv seq t v w (rest.take n) e seq' ∧ p = ⟨seq', rest.drop n⟩)

theorem whole_unique {key iv : Bytes} {cap seq : Nat} {t v w : UInt8} {n : Nat} {rest : Bytes} {e e' : Effect}
    {p p' : Place} (h : Whole S key iv cap seq t v w n rest e p) (h' : Whole S key iv cap seq t v w n rest e' p') :
    e = e' ∧ p = p' := by
  rcases h with ⟨a, b, c⟩ | ⟨a, b, c, d⟩ | ⟨a, b, c, d, x⟩ | ⟨a, b, c, s, d, x⟩ <;>
    rcases h' with ⟨a', b', c'⟩ | ⟨a', b', c', d'⟩ | ⟨a', b', c', d', x'⟩ | ⟨a', b', c', s', d', x'⟩ <;>
    first
      | exact absurd a a'
      | exact absurd a' a
      | omega
      | exact ⟨b.trans b'.symm, c.trans c'.symm⟩
      | exact ⟨c.trans c'.symm, d.trans d'.symm⟩
      | exact ⟨d.trans d'.symm, x.trans x'.symm⟩
      | (obtain ⟨h1, rfl⟩ := body_unique S d d'; exact ⟨h1, x.trans x'.symm⟩)

theorem next_whole {key iv : Bytes} {cap seq : Nat} {input : Bytes} {e : Effect} {p : Place}
    (h : Next S key iv cap ⟨seq, input⟩ e p) :
    (input.length < 5 ∧ e = .error (some .ioError) ∧ p = ⟨seq, []⟩) ∨
      ∃ t v w n rest, n < 65536 ∧ input = Spec.header t v w n ++ rest ∧ Whole S key iv cap seq t v w n rest e p := by
  have hb : ∀ (t v w : UInt8) (body rest : Bytes) (e : Effect) (seq' : Nat), Known Spec.contentTypes t.toNat →
      body.length < 65536 → body.length ≤ cap → Body S key iv seq t v w body e seq' →
      (Spec.header t v w body.length ++ body ++ rest).length < 5 ∧ e = .error (some .ioError) ∧
          (⟨seq', rest⟩ : Place) = ⟨seq, []⟩ ∨
        ∃ t1 v1 w1 n1 rest1, n1 < 65536 ∧ Spec.header t v w body.length ++ body ++ rest = Spec.header t1 v1 w1 n1 ++ rest1 ∧
          Whole S key iv cap seq t1 v1 w1 n1 rest1 e ⟨seq', rest⟩ := by
    intro t v w body rest e seq' hk hn hc hbd
    refine .inr ⟨t, v, w, body.length, body ++ rest, hn, by rw [List.append_assoc], .inr (.inr (.inr ?_))⟩
    refine ⟨hk, hc, by simp, seq', ?_, ?_⟩
    · rw [List.take_left]; exact hbd
    · rw [List.drop_left]
  have hkn := fun b => (known_contentType b).2
  cases h with
  | end_ _ _ h => exact .inl ⟨h, rfl, rfl⟩
  | unknown _ t v w n rest ht hn => exact .inr ⟨t, v, w, n, rest, hn, rfl, .inl ⟨ht, rfl, rfl⟩⟩
  | tooLarge _ t v w n rest ht hn hc => exact .inr ⟨t, v, w, n, rest, hn, rfl, .inr (.inl ⟨ht, hc, rfl, rfl⟩)⟩
  | truncated _ t v w n rest ht hn hc hr =>
    exact .inr ⟨t, v, w, n, rest, hn, rfl, .inr (.inr (.inl ⟨ht, hc, hr, rfl, rfl⟩))⟩
  | invalid _ v w body rest hn hc => exact hb _ _ _ _ _ _ _ (hkn _ (by simp)) hn hc (.inl ⟨rfl, rfl, rfl⟩)
  | changeCipherSpec _ v w body rest hn hc =>
    exact hb _ _ _ _ _ _ _ (hkn _ (by simp)) hn hc (.inr (.inl ⟨rfl, rfl, rfl⟩))
  | alert _ v w body rest e hn hc ha =>
    exact hb _ _ _ _ _ _ _ (hkn _ (by simp)) hn hc (.inr (.inr (.inl ⟨rfl, ha, rfl⟩)))
  | handshake _ v w body rest e hn hc hm =>
    exact hb _ _ _ _ _ _ _ (hkn _ (by simp)) hn hc (.inr (.inr (.inr (.inl ⟨rfl, hm, rfl⟩))))
  | forged _ v w body rest hn hc ho =>
    exact hb _ _ _ _ _ _ _ (hkn _ (by simp)) hn hc (.inr (.inr (.inr (.inr ⟨rfl, .inl ⟨ho, rfl, rfl⟩⟩))))
  | authentic _ v w body rest pt e hn hc ho hi hd hs =>
    exact hb _ _ _ _ _ _ _ (hkn _ (by simp)) hn hc
      (.inr (.inr (.inr (.inr ⟨rfl, .inr ⟨pt, e, ho, hi, .inl ⟨hd, hs, rfl, rfl⟩⟩⟩))))
  | exhausted _ v w body rest pt e hn hc ho hi hd hs =>
    exact hb _ _ _ _ _ _ _ (hkn _ (by simp)) hn hc
      (.inr (.inr (.inr (.inr ⟨rfl, .inr ⟨pt, e, ho, hi, .inr (.inl ⟨hd, hs, rfl, rfl⟩)⟩⟩))))
  | refused _ v w body rest pt e hn hc ho hi hd =>
    exact hb _ _ _ _ _ _ _ (hkn _ (by simp)) hn hc
      (.inr (.inr (.inr (.inr ⟨rfl, .inr ⟨pt, e, ho, hi, .inr (.inr ⟨hd, rfl, rfl⟩)⟩⟩))))

theorem next_unique {key iv : Bytes} {cap : Nat} {p p1 p2 : Place} {e1 e2 : Effect} (h1 : Next S key iv cap p e1 p1)
    (h2 : Next S key iv cap p e2 p2) : e1 = e2 ∧ p1 = p2 := by
  obtain ⟨seq, input⟩ := p
  rcases next_whole S h1 with ⟨a, b, c⟩ | ⟨t, v, w, n, rest, hn, hi, hw⟩ <;>
    rcases next_whole S h2 with ⟨a', b', c'⟩ | ⟨t', v', w', n', rest', hn', hi', hw'⟩
  · exact ⟨b.trans b'.symm, c.trans c'.symm⟩
  · rw [hi'] at a; simp [Spec.header, Spec.u16] at a; omega
  · rw [hi] at a'; simp [Spec.header, Spec.u16] at a'; omega
  · obtain ⟨rfl, rfl, rfl, rfl, rfl⟩ := header_injective hn hn' (hi.symm.trans hi')
    exact whole_unique S hw hw'

theorem fill_unique {key iv : Bytes} {cap : Nat} {p p1 p2 : Place} {e1 e2 : Effect} (h1 : Fill S key iv cap p e1 p1)
    (h2 : Fill S key iv cap p e2 p2) : e1 = e2 ∧ p1 = p2 := by
  induction h1 with
  | here p p' e hn a b => cases h2 with
    | here _ _ _ hn' => exact next_unique S hn hn'
    | skip _ _ _ _ _ hn' hs =>
      obtain ⟨rfl, _⟩ := next_unique S hn hn'
      rcases hs with rfl | rfl
      · exact absurd rfl a
      · exact absurd rfl b
  | skip p q p' e e' hn hs hf ih => cases h2 with
    | here _ _ _ hn' a b =>
      obtain ⟨rfl, _⟩ := next_unique S hn hn'
      rcases hs with rfl | rfl
      · exact absurd rfl a
      · exact absurd rfl b
    | skip _ _ _ _ _ hn' hs' hf' =>
      obtain ⟨_, rfl⟩ := next_unique S hn hn'
      exact ih hf'

/-- What a call does once waiting for data has ended. -/
def Ended (c : Spec.ReadCall) (e : Effect) (p : Place) (r : Result) (s : Reader) : Prop :=
  match e with
  | .data d => r = c.gives d ∧ s = ⟨true, c.leaves d, p⟩
  | .closed => r = .error (some .connectionClosed) ∧ s = ⟨false, [], p⟩
  | .error x => r = .error x ∧ s = ⟨true, [], p⟩
  | .abort => r = .abort ∧ s = ⟨true, [], p⟩
  | .ticket => False

theorem ended_unique {c : Spec.ReadCall} {e : Effect} {p : Place} {r r' : Result} {s s' : Reader}
    (h : Ended c e p r s) (h' : Ended c e p r' s') : r = r' ∧ s = s' := by
  cases e with
  | ticket => exact h.elim
  | _ => exact ⟨h.1.trans h'.1.symm, h.2.trans h'.2.symm⟩

theorem call_cases {key iv : Bytes} {cap : Nat} {c : Spec.ReadCall} {s s' : Reader} {r : Result}
    (h : Call S key iv cap c s r s') :
    (c = .read 0 ∧ r = .ok [[]] [] ∧ s' = s) ∨
    (∃ n, c = .consume n ∧ r = c.gives s.cur ∧ s' = { s with cur := c.leaves s.cur }) ∨
    (c.Waits ∧ s.opened = false ∧ r = .error (some .missingHandshake) ∧ s' = s) ∨
    (c.Waits ∧ s.opened = true ∧ s.cur ≠ [] ∧ r = c.gives s.cur ∧ s' = { s with cur := c.leaves s.cur }) ∨
    (c.Waits ∧ s.opened = true ∧ s.cur = [] ∧ ∃ e p, Fill S key iv cap s.place e p ∧ Ended c e p r s') := by
  cases h with
  | nothing => exact .inl ⟨rfl, rfl, rfl⟩
  | consume n => exact .inr (.inl ⟨n, rfl, rfl, rfl⟩)
  | notOpen _ _ hw ho => exact .inr (.inr (.inl ⟨hw, ho, rfl, rfl⟩))
  | available _ _ hw ho hc => exact .inr (.inr (.inr (.inl ⟨hw, ho, hc, rfl, rfl⟩)))
  | data p p' d _ hw hf => exact .inr (.inr (.inr (.inr ⟨hw, rfl, rfl, _, _, hf, rfl, rfl⟩)))
  | closed p p' _ hw hf => exact .inr (.inr (.inr (.inr ⟨hw, rfl, rfl, _, _, hf, rfl, rfl⟩)))
  | error p p' e _ hw hf => exact .inr (.inr (.inr (.inr ⟨hw, rfl, rfl, _, _, hf, rfl, rfl⟩)))
  | abort p p' _ hw hf => exact .inr (.inr (.inr (.inr ⟨hw, rfl, rfl, _, _, hf, rfl, rfl⟩)))

theorem call_unique {key iv : Bytes} {cap : Nat} {c : Spec.ReadCall} {s s1 s2 : Reader} {r1 r2 : Result}
    (h1 : Call S key iv cap c s r1 s1) (h2 : Call S key iv cap c s r2 s2) : r1 = r2 ∧ s1 = s2 := by
  have w0 : ¬ (Spec.ReadCall.read 0).Waits := fun h => h rfl
  have w1 : ∀ n, ¬ (Spec.ReadCall.consume n).Waits := fun n h => h
  rcases call_cases S h1 with ⟨rfl, a⟩ | ⟨n, rfl, a⟩ | ⟨w, a, b⟩ | ⟨w, a, b, c1⟩ | ⟨w, a, b, e, p, f, c1⟩ <;>
    rcases call_cases S h2 with ⟨q, a'⟩ | ⟨n', q, a'⟩ | ⟨w', a', b'⟩ | ⟨w', a', b', c'⟩ | ⟨w', a', b', e', p', f', c'⟩
  all_goals first
    | exact ⟨a.1.trans a'.1.symm, a.2.trans a'.2.symm⟩
    | exact ⟨b.1.trans b'.1.symm, b.2.trans b'.2.symm⟩
    | exact ⟨c1.1.trans c'.1.symm, c1.2.trans c'.2.symm⟩
    | (cases q; done)
    | exact absurd w' w0
    | exact absurd w' (w1 _)
    | (subst q; exact absurd w w0)
    | (subst q; exact absurd w (w1 _))
    | (rw [a] at a'; cases a'; done)
    | exact absurd b b'
    | exact absurd b' b
    | (obtain ⟨rfl, rfl⟩ := fill_unique S f f'; exact ended_unique c1 c')

/-- **C76.** The reader is deterministic: there is one history for each list of calls. -/
theorem C76_deterministic {key iv : Bytes} {cap : Nat} {cs : List Spec.ReadCall} {s : Reader} {rs rs' : List Result}
    {s1 s2 : Option Reader} (h1 : Calls S key iv cap cs s rs s1) (h2 : Calls S key iv cap cs s rs' s2) :
    rs = rs' ∧ s1 = s2 := by
  induction h1 generalizing rs' with
  | nil => cases h2; exact ⟨rfl, rfl⟩
  | cons c cs s s' r rs so hc hr hs ih => cases h2 with
    | cons _ _ _ _ _ _ _ hc' hr' hs' =>
      obtain ⟨rfl, rfl⟩ := call_unique S hc hc'
      obtain ⟨rfl, rfl⟩ := ih hs'
      exact ⟨rfl, rfl⟩
    | abort _ _ _ _ hc' => exact absurd (call_unique S hc hc').1 hr
  | abort c cs s s' hc => cases h2 with
    | cons _ _ _ _ _ _ _ hc' hr' hs' => exact absurd (call_unique S hc hc').1.symm hr'
    | abort => exact ⟨rfl, rfl⟩

/-- **C76.** So whatever history the reader has is what the calls do. -/
theorem C76_exact (hS : S.Lawful) (ops : List ROp) (h : RdHalf) (hs : Sane S h) (rs : List Result) (s' : Option Reader)
    (hc : Calls S h.rks.st.key h.rks.st.iv h.rr.buf.length (ops.map ROp.spec) (readerOf h) rs s') :
    List.Forall₂ Agrees rs (runReads S ops h).1 ∧ ∀ s, s' = some s → s = readerOf (runReads S ops h).2 := by
  obtain ⟨rs1, s1, a, b, c⟩ := C76_reader S hS ops h hs
  obtain ⟨rfl, rfl⟩ := C76_deterministic S hc a
  exact ⟨b, c⟩

/-- **C76, panics** A call panics if and only if it waits for data on an open connection with nothing left to read, and
the records before the first with data (or an error) are followed by one that makes the reader panic: an authentic record
with an empty plaintext, a handshake message other than a session ticket (authentic or not), or the 2^64th record. -/
theorem C76_panic_iff (hS : S.Lawful) (op : ROp) {h : RdHalf} (hs : Sane S h) :
    (op.run S h).1 = .panic ↔ op.spec.Waits ∧ h.opened = true ∧ h.unread = [] ∧
      ∃ p, Fill S h.rks.st.key h.rks.st.iv h.rr.buf.length (placeOf h) .abort p := by
  obtain ⟨res, s', c1, c2, c3⟩ := call_effect S hS op hs
  constructor
  · intro hp
    rw [hp] at c2
    have hres : res = .abort := by
      cases res with
      | ok _ _ => exact c2.elim
      | error z => cases z <;> exact c2.elim
      | abort => rfl
    subst hres
    rcases call_cases S c1 with ⟨_, a, _⟩ | ⟨_, _, a, _⟩ | ⟨_, _, a, _⟩ | ⟨_, _, _, a, _⟩ | ⟨w, a, b, e, p, f, g⟩
    · cases a
    · cases a
    · cases a
    · cases a
    · refine ⟨w, a, b, p, ?_⟩
      cases e with
      | abort => exact f
      | ticket => exact g.elim
      | data d => cases g.1
      | closed => cases g.1
      | error z => cases g.1
  · rintro ⟨w, a, b, p, f⟩
    have hc : Call S h.rks.st.key h.rks.st.iv h.rr.buf.length op.spec (readerOf h) .abort ⟨true, [], p⟩ := by
      rw [readerOf, a, b]
      exact .abort _ _ _ w f
    obtain ⟨rfl, _⟩ := call_unique S c1 hc
    cases hr : (op.run S h).1 with
    | panic => rfl
    | ok o => rw [hr] at c2; exact c2.elim
    | err x => rw [hr] at c2; exact c2.elim

/-- **C76, closing** A call that does not panic leaves the connection open if and only if it was open and the call did not
meet a close_notify. -/
theorem C76_closed_iff (hS : S.Lawful) (op : ROp) {h : RdHalf} (hs : Sane S h) (hp : (op.run S h).1 ≠ .panic)
    (ho : h.opened = true) : (op.run S h).2.opened = false ↔ op.spec.Waits ∧ h.unread = [] ∧
      ∃ p, Fill S h.rks.st.key h.rks.st.iv h.rr.buf.length (placeOf h) .closed p := by
  obtain ⟨res, s', c1, c2, c3⟩ := call_effect S hS op hs
  have hab : res ≠ .abort := by
    rintro rfl
    apply hp
    cases hr : (op.run S h).1 with
    | panic => rfl
    | ok o => rw [hr] at c2; exact c2.elim
    | err x => rw [hr] at c2; exact c2.elim
  obtain ⟨-, -, -, -, rfl⟩ := c3 hab
  constructor
  · intro hcl
    rcases call_cases S c1 with ⟨_, _, a⟩ | ⟨_, _, _, a⟩ | ⟨_, a, _⟩ | ⟨_, _, _, _, a⟩ | ⟨w, a, b, e, p, f, g⟩
    · have := congrArg Reader.opened a
      simp only [readerOf, hcl, ho] at this
      cases this
    · have := congrArg Reader.opened a
      simp only [readerOf, hcl, ho] at this
      cases this
    · simp only [readerOf, ho] at a
      cases a
    · have := congrArg Reader.opened a
      simp only [readerOf, hcl, ho] at this
      cases this
    · refine ⟨w, b, p, ?_⟩
      cases e with
      | closed => exact f
      | ticket => exact g.elim
      | abort => exact absurd g.1 hab
      | data d =>
        have := congrArg Reader.opened g.2
        simp only [readerOf, hcl] at this
        cases this
      | error z =>
        have := congrArg Reader.opened g.2
        simp only [readerOf, hcl] at this
        cases this
  · rintro ⟨w, b, p, f⟩
    have hc : Call S h.rks.st.key h.rks.st.iv h.rr.buf.length op.spec (readerOf h) (.error (some .connectionClosed))
        ⟨false, [], p⟩ := by
      rw [show readerOf h = ⟨true, [], placeOf h⟩ by rw [readerOf, ho, b]]
      exact .closed _ _ _ w f
    obtain ⟨_, h2⟩ := call_unique S c1 hc
    exact congrArg Reader.opened h2

variable {V : Type}

/-- **C76 for whole connections** A connection made with `new` over a transport without errors, whatever the chunks, that
`open`s successfully: the bytes begin with those of the session; any calls after that do what the reader does on the
remaining bytes, from record number 0, with the session's server application keys and the size of the read buffer. -/
theorem C76_whole (hS : S.Lawful) (cfg : Config) (p : Provider V) (v : V) {rx : Rx} {tx : Tx} {rb wb : Bytes} {c c' : Conn}
    (hn : Conn.new S rx tx rb wb = .ok c) (hclean : rx.Clean) (h : Conn.open_ S cfg p v c = (.ok (), c')) :
    ∃ (x : Spec.Session) (rest : Bytes), Established S cfg p v c x c' ∧ rx.bytes = x.received ++ rest ∧
      ∀ ops : List ROp, ∃ rs s',
        Calls S (Spec.writeKey S (Spec.serverApplicationTraffic S (cfg.psk.map (·.1)) x.dhe x.traffic))
          (Spec.writeIv S (Spec.serverApplicationTraffic S (cfg.psk.map (·.1)) x.dhe x.traffic)) rb.length
          (ops.map ROp.spec) ⟨true, [], ⟨0, rest⟩⟩ rs s' ∧
        List.Forall₂ Agrees rs (runReads S ops c'.rd).1 ∧
        ∀ s, s' = some s → s = readerOf (runReads S ops c'.rd).2 := by
  obtain ⟨hf, hrx, -⟩ := Conn.new_parts S hn
  obtain ⟨x, hx⟩ := open_session S hS cfg p v hf h
  obtain ⟨g1, g2, g3, g4, g5, g6, g7⟩ := open_reader S hS cfg p v hn h
  have hcl : c.rx.Clean := by rw [hrx]; exact hclean
  have hbt : c.rr.Between c.rx.bytes := by
    have : c.rr = RR.new rb := by
      unfold Conn.new at hn
      cases hw : WB.new wb <;> rw [hw] at hn <;> simp only [Res.map, Res.ok.injEq, reduceCtorEq] at hn
      subst hn
      rfl
    rw [this]
    exact ⟨Nat.zero_le _, .inl rfl⟩
  obtain ⟨-, hrc⟩ := twin_open S cfg p v c c ⟨rfl, hcl, hcl, rfl, hbt⟩
  rw [h] at hrc
  have hsane : Sane S c'.rd := ⟨g1, hrc.clean, hrc.between, g5⟩
  refine ⟨x, c'.rx.bytes, hx, by rw [← hrx]; exact hx.bytes, fun ops => ?_⟩
  obtain ⟨rs, s', a1, a2, a3⟩ := C76_reader S hS ops c'.rd hsane
  have hr : readerOf c'.rd = ⟨true, [], ⟨0, c'.rx.bytes⟩⟩ := by
    rw [readerOf, g2, placeOf]
    simp only [Conn.rd] at *
    rw [g7, g6]
  rw [hr] at a1
  have hk : c'.rd.rks.st = trafficState S (Spec.serverApplicationTraffic S (cfg.psk.map (·.1)) x.dhe x.traffic) :=
    hx.serverKeys
  have hlen : c'.rd.rr.buf.length = rb.length := g4
  rw [hk, hlen] at a1
  exact ⟨rs, s', a1, a2, a3⟩

/-! ## Examples -/

/-- What the server's side of the connection delivers in the example: two bytes of data, a forged record, an unprotected
close_notify, in two chunks. -/
def exStream : Rx := [.data (exRecord 0 [7, 8] ++ [23, 3, 3]), .data ([0, 2, 1, 2] ++ [21, 3, 3, 0, 2, 1, 0])]

theorem exStream_sane : Sane toySuite (exConn exStream).rd := by
  refine ⟨⟨by unfold RR.Inv; decide +kernel, by decide +kernel, by decide +kernel⟩, ?_, ⟨by decide +kernel, .inl rfl⟩,
    by decide +kernel⟩
  intro e he
  simp only [exConn, Conn.rd, exStream, List.mem_cons, List.not_mem_nil, or_false] at he
  rcases he with rfl | rfl
  · exact ⟨_, by decide +kernel, rfl⟩
  · exact ⟨_, by decide +kernel, rfl⟩

/-- The history of the reader ... -/
theorem exStream_calls : Calls toySuite (List.replicate 16 3) (List.replicate 12 4) 200
    [.read 1, .consume 5, .read 5, .fillBuf, .read 5] ⟨true, [], ⟨0, exStream.bytes⟩⟩
    [.ok [[7]] [7], .ok [[8]] [8], .error (some .cryptoError), .error (some .connectionClosed),
      .error (some .missingHandshake)] (some ⟨false, [], ⟨1, []⟩⟩) := by
  have n1 : Next toySuite (List.replicate 16 3) (List.replicate 12 4) 200 ⟨0, exStream.bytes⟩ (.data [7, 8])
      ⟨1, [23, 3, 3, 0, 2, 1, 2, 21, 3, 3, 0, 2, 1, 0]⟩ :=
    .authentic 0 3 3 ((exRecord 0 [7, 8]).drop 5) _ (Fragment.inner ⟨23, [7, 8], 0⟩) _ (by decide +kernel)
      (by decide +kernel) (by decide +kernel) (.data _ _) trivial (by decide)
  have n2 : Next toySuite (List.replicate 16 3) (List.replicate 12 4) 200
      ⟨1, [23, 3, 3, 0, 2, 1, 2, 21, 3, 3, 0, 2, 1, 0]⟩ (.error (some .cryptoError)) ⟨1, [21, 3, 3, 0, 2, 1, 0]⟩ :=
    .forged 1 3 3 [1, 2] [21, 3, 3, 0, 2, 1, 0] (by decide) (by decide) (by decide +kernel)
  have n3 : Next toySuite (List.replicate 16 3) (List.replicate 12 4) 200 ⟨1, [21, 3, 3, 0, 2, 1, 0]⟩ .closed ⟨1, []⟩ :=
    .alert 1 3 3 [1, 0] [] _ (by decide) (by decide) (.close 1 [] ⟨.warning, by decide⟩)
  refine .cons _ _ _ ⟨true, [8], ⟨1, [23, 3, 3, 0, 2, 1, 2, 21, 3, 3, 0, 2, 1, 0]⟩⟩ _ _ _
    (.data _ _ _ [7, 8] (by simp [Spec.ReadCall.Waits]) (.here _ _ _ n1 (by simp) (by simp))) (by simp) ?_
  refine .cons _ _ _ ⟨true, [], ⟨1, [23, 3, 3, 0, 2, 1, 2, 21, 3, 3, 0, 2, 1, 0]⟩⟩ _ _ _ (.consume 5 _) (by simp) ?_
  refine .cons _ _ _ ⟨true, [], ⟨1, [21, 3, 3, 0, 2, 1, 0]⟩⟩ _ _ _
    (.error _ _ _ _ (by simp [Spec.ReadCall.Waits]) (.here _ _ _ n2 (by simp) (by simp))) (by simp) ?_
  refine .cons _ _ _ ⟨false, [], ⟨1, []⟩⟩ _ _ _
    (.closed _ _ _ trivial (.here _ _ _ n3 (by simp) (by simp))) (by simp) ?_
  exact .cons _ _ _ ⟨false, [], ⟨1, []⟩⟩ _ _ _ (.notOpen _ _ (by simp [Spec.ReadCall.Waits]) rfl) (by simp) (.nil _)

/-- ... is what the calls do. -/
example : List.Forall₂ Agrees
    [.ok [[7]] [7], .ok [[8]] [8], .error (some .cryptoError), .error (some .connectionClosed),
      .error (some .missingHandshake)]
    (runReads toySuite [.read 1, .consume 5, .read 5, .fillBuf, .read 5] (exConn exStream).rd).1 ∧
    (⟨false, [], ⟨1, []⟩⟩ : Reader) =
      readerOf (runReads toySuite [.read 1, .consume 5, .read 5, .fillBuf, .read 5] (exConn exStream).rd).2 := by
  have := C76_exact toySuite toySuite_lawful [.read 1, .consume 5, .read 5, .fillBuf, .read 5] (exConn exStream).rd
    exStream_sane _ _ exStream_calls
  exact ⟨this.1, this.2 _ rfl⟩

/-- A session ticket (skipped), then an authentic EncryptedExtensions: a panic. -/
example : ((ROp.read 5).run toySuite (exConn [.data (sealInner 0 ([4, 0, 0, 14, 0, 0, 0, 1, 0, 0, 0, 2, 0, 0, 1, 9, 0, 0] ++ [22]) ++
    sealInner 1 [8, 0, 0, 2, 0, 0, 22])]).rd).1 = .panic := by decide +kernel

end ETls
