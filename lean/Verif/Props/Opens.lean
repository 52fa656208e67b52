import Verif.Spec.Open
import Verif.Props.Reader
import Verif.Props.Accept
import Verif.Props.Provider
import Verif.Proofs.HandshakeFail
import Verif.Proofs.DecoderErrors

/-! # C77: `open` refines a description of the handshake on the byte stream -/

namespace ETls

variable (S : Suite) {V : Type}

open Spec (Fragment RawMsg Begins Known Frame Framed AlertRead HelloGot HelloRecord After Flight Hears Got FlightMsgs FlightInner
  FlightStep Flights Stands Reply Replies OpenEnd Named Opens plaintextRecord serverHandshakeTraffic clientHandshakeTraffic
  verifyData writeKey writeIv handshakeSecret ciphertextRecords handshakeRecords certificateMsg certificateVerifyMsg finishedMsg)

/-! ## Reading a record -/

/-- Reading the next record of an error-free transport. -/
theorem framed_read (s : HSt V) (hi : s.c.rr.Inv) (hp : s.c.rr.pending = 0) (hc : s.c.rx.Clean) :
    (∃ e s1, Framed s.c.rr.buf.length s.c.rx.bytes (.error e) ∧
      onConn (onRd (RdHalf.readRecord S)) s = (.err e, s1) ∧ s1.c.tx = s.c.tx ∧ s1.c.opened = s.c.opened) ∨
    ∃ t hdr body rest rh rr' rx' start, Framed s.c.rr.buf.length s.c.rx.bytes (.record t hdr body rest) ∧
      (rh.contentType, t.toNat) ∈ Spec.contentTypes ∧ rh.contentLength = body.length ∧ rh.data = hdr ∧
      rr'.Inv ∧ rr'.pending = 0 ∧ rr'.buf.length = s.c.rr.buf.length ∧ rx'.Clean ∧ rx'.bytes = rest ∧
      rest.length < s.c.rx.bytes.length ∧ start + body.length ≤ rr'.buf.length ∧
      onConn (onRd (RdHalf.readRecord S)) s =
        ((ServerRecord.decode S rh start body s.c.ks.server.transcript).1,
          { s with c := s.c.readTo rr' rx' { s.c.ks.server with
              transcript := (ServerRecord.decode S rh start body s.c.ks.server.transcript).2 } }) := by
  have hinv := hi
  unfold RR.Inv at hinv
  obtain ⟨x, x1, x2, x3⟩ := readRecord_clean S s.c.rr s.c.rx s.c.ks.server.transcript hc ⟨by omega, .inl hp⟩
  have hfwd := hsRead_fwd S s hi hp hc
  have herr : ∀ (z : TlsError) (rr1 : RR) (input tr1 : Bytes),
      pureRead S s.c.rr s.c.rx.bytes s.c.ks.server.transcript = (.err z, (rr1, (input, tr1))) →
      ∃ s1, onConn (onRd (RdHalf.readRecord S)) s = (.err z, s1) ∧ s1.c.tx = s.c.tx ∧ s1.c.opened = s.c.opened := by
    intro z rr1 input tr1 h
    rw [h] at x3
    refine ⟨{ s with c := s.c.readTo rr1 x { s.c.ks.server with transcript := tr1 } }, ?_, rfl, rfl⟩
    have e1 : (⟨s.c.rd.rr, s.c.rd.rx, s.c.rd.rks.transcript⟩ : RdSt) = ⟨s.c.rr, s.c.rx, s.c.ks.server.transcript⟩ := rfl
    simp only [onConn, onRd, RdHalf.readRecord]
    rw [e1, x3]
    rfl
  generalize s.c.rx.bytes = bytes at *
  by_cases h5 : bytes.length < 5
  · obtain ⟨s1, a1, a2⟩ := herr .ioError s.c.rr [] s.c.ks.server.transcript (by unfold pureRead; rw [if_pos h5])
    exact .inl ⟨_, s1, .end_ _ h5, a1, a2⟩
  · obtain ⟨t, v, w, a, b, rest, rfl⟩ : ∃ t v w a b rest, bytes = t :: v :: w :: a :: b :: rest := by
      match bytes, h5 with
      | t :: v :: w :: a :: b :: rest, _ => exact ⟨t, v, w, a, b, rest, rfl⟩
      | [], h => exact absurd (by simp) h
      | [_], h => exact absurd (by simp) h
      | [_, _], h => exact absurd (by simp) h
      | [_, _, _], h => exact absurd (by simp) h
      | [_, _, _, _], h => exact absurd (by simp) h
    have hhd := header_eq t v w a b
    generalize hn : a.toNat * 256 + b.toNat = n at *
    have hn6 : n < 65536 := by have := a.toNat_lt; have := b.toNat_lt; omega
    have hbytes : t :: v :: w :: a :: b :: rest = Spec.header t v w n ++ rest := by rw [← hhd]; rfl
    have hdecode : RecordHeader.decode [t, v, w, a, b] = match ContentType.of t.toNat with
        | none => .err .invalidRecord
        | some ct => .ok ⟨ct, n, [t, v, w, a, b]⟩ := by
      simp only [RecordHeader.decode, hn]
      cases ContentType.of t.toNat <;> rfl
    by_cases hk : Known Spec.contentTypes t.toNat
    · obtain ⟨ct, hct⟩ := hk
      have hof := C04_content_type.accept _ _ hct
      rw [hof] at hdecode
      simp only at hdecode
      by_cases hbig : s.c.rr.buf.length < n
      · obtain ⟨s1, a1, a2⟩ := herr .insufficientSpace s.c.rr rest s.c.ks.server.transcript
          (by
            unfold pureRead
            rw [if_neg h5]
            simp only [List.take_succ_cons, List.take_zero, hdecode]
            rw [if_pos hbig]
            rfl)
        exact .inl ⟨_, s1, hbytes ▸ .tooLarge t v w n rest ⟨ct, hct⟩ hn6 hbig, a1, a2⟩
      · by_cases hshort : rest.length < n
        · generalize hat : (if s.c.rr.decoded + n > s.c.rr.buf.length then 0 else s.c.rr.decoded) = at_
          obtain ⟨s1, a1, a2⟩ := herr .ioError
            ⟨CB.splice s.c.rr.buf at_ rest, at_, rest.length⟩ [] s.c.ks.server.transcript
            (by
              unfold pureRead
              rw [if_neg h5]
              simp only [List.take_succ_cons, List.take_zero, hdecode]
              rw [if_neg (by omega), hat]
              simp only [List.drop_succ_cons, List.drop_zero]
              rw [if_pos hshort])
          exact .inl ⟨_, s1, hbytes ▸ .truncated t v w n rest ⟨ct, hct⟩ hn6 (by omega) hshort, a1, a2⟩
        · obtain ⟨body, rest', rfl, hbl⟩ : ∃ body rest', rest = body ++ rest' ∧ body.length = n :=
            ⟨rest.take n, rest.drop n, (List.take_append_drop _ _).symm, by simp; omega⟩
          subst hbl
          have hbytes' : t :: v :: w :: a :: b :: (body ++ rest') = Spec.header t v w body.length ++ body ++ rest' := by
            rw [hbytes, List.append_assoc]
          obtain ⟨rr', rx', start, b1, b2, b3, b4, b5, b6, b7⟩ := hfwd [t, v, w, a, b] body rest' _ hdecode rfl
            (by simp) (by omega)
          refine .inr ⟨t, _, body, rest', _, rr', rx', start, ?_, hct, rfl, hhd, b1, b2, b3, b4, b5, ?_, b6, b7⟩
          · rw [hbytes']; exact .record t v w body rest' ⟨ct, hct⟩ hn6 (by omega)
          · simp; omega
    · have hnone : ContentType.of t.toNat = none := C04_content_type.reject _ fun x hx => hk ⟨x, hx⟩
      rw [hnone] at hdecode
      simp only at hdecode
      obtain ⟨s1, a1, a2⟩ := herr .invalidRecord s.c.rr rest s.c.ks.server.transcript
          (by
            unfold pureRead
            rw [if_neg h5]
            simp only [List.take_succ_cons, List.take_zero, hdecode]
            rfl)
      exact .inl ⟨_, s1, hbytes ▸ .unknown t v w n rest hk hn6, a1, a2⟩

/-- Reading an alert. -/
theorem alert_read (content : Bytes) :
    (∃ e, AlertRead content (.err e) ∧ (Alert.parse (PB.new content)).1 = .err e ∧ ∀ l d, e ≠ .abortHandshake l d) ∨
    ∃ a, AlertRead content (.ok (a.level, a.description)) ∧ (Alert.parse (PB.new content)).1 = .ok a := by
  obtain ⟨h1, h2, h3⟩ := C08_reject content
  match content with
  | [] => exact .inl ⟨_, .short _ (by simp), h3 (by simp), by simp⟩
  | [x] => exact .inl ⟨_, .short _ (by simp), h3 (by simp), by simp⟩
  | x :: y :: rest =>
    rcases hp : (Alert.parse (PB.new (x :: y :: rest))).1 with a | e | _
    · obtain ⟨x', y', rest', e1, e2, e3⟩ := h1 a hp
      injection e1 with e1 e4
      injection e4 with e4 e5
      subst e1 e4 e5
      exact .inr ⟨a, .ok _ _ x y rest e2 e3, rfl⟩
    · have hnot : ¬ (Known Spec.alertLevels x.toNat ∧ Known Spec.alertDescriptions y.toNat) := by
        intro hk
        obtain ⟨⟨l, hl⟩, ⟨dd, hdd⟩⟩ := hk
        have hk' := alertParse_ok x y rest l dd hl hdd
        rw [hk'] at hp
        cases hp
      refine .inl ⟨_, .unknown x y rest hnot, ?_, by simp⟩
      rw [← hp]
      apply h2 x y rest rfl
      by_contra hcon
      push Not at hcon
      obtain ⟨⟨l, hl⟩, ⟨dd, hdd⟩⟩ := hcon
      exact hnot ⟨⟨l, hl⟩, ⟨dd, hdd⟩⟩
    · have := (alertParse_good (PB.new (x :: y :: rest)) (PB.new_valid _)).1
      exact absurd hp this

/-- Reading a handshake message. -/
theorem read_flight (A bytes tr : Bytes) :
    (∃ r m rest h, bytes = m ++ rest ∧ Begins S.hashLen r rest bytes ∧ decoded r = .ok h ∧ ParsedAs S m h ∧ 4 ≤ m.length ∧
      ServerHs.read S (⟨A ++ bytes, A.length⟩, tr) =
        (.ok (stamp S tr h), (⟨A ++ bytes, A.length + m.length⟩, tr ++ m))) ∨
    ((∀ r rest, ¬ Begins S.hashLen r rest bytes) ∧
      ∃ e p', ServerHs.read S (⟨A ++ bytes, A.length⟩, tr) = (.err e, (p', tr))) := by
  rcases hp : ServerHs.parse S ⟨A ++ bytes, A.length⟩ with ⟨res, p'⟩
  cases res with
  | ok h =>
    obtain ⟨r, rest, hb, hd⟩ := parse_begins S hp
    left
    have hb' := hb
    obtain ⟨h1, h2, n, h3, rfl⟩ := hb'
    obtain ⟨q1, q2⟩ := ParsedAs.of_decoded S h1 ⟨n, h3, rfl⟩ hd
    exact ⟨r, _, rest, h, rfl, hb, hd, q1, q2, read_fwd S q1 A rest tr⟩
  | err e =>
    right
    refine ⟨fun r rest hb => ?_, e, p', ?_⟩
    · obtain ⟨h', _, e2, _⟩ := begins_parse S hb A
      rw [hp] at e2
      cases e2
    · unfold ServerHs.read
      simp only [hp]
  | panic =>
    have := (serverHsParse_good S ⟨A ++ bytes, A.length⟩ (by simp [PB.Valid])).1
    rw [hp] at this
    exact absurd rfl this

/-! ## One message -/

/-- The state of the handshake for what is to be done next. -/
def stateOf : After → State
  | .waiting => .serverVerify
  | .certificate => .clientCert
  | .finished _ => .clientFinished

/-- The flight `f` as the client keeps it. -/
structure Keeping (f : Flight V) (tr : Bytes) (t : HsData V × State) : Prop where
  transcript : tr = f.transcript
  request : t.1.certReq = f.request
  verifier : t.1.vst = f.v
  state : t.2 = stateOf f.after
  traffic : ∀ x, f.after = .finished x → t.1.trafficHash = some x
  asked : f.after = .certificate → f.request ≠ none
  short : ∀ ctx, f.request = some ctx → ctx.length ≤ 256

/-- The outcome of a step on the flight and of the code agree. -/
def Tells (k : KsState) : Got V → Res TlsError Unit × (ReadKS × (HsData V × State)) → Prop
  | .ok f, x => ∃ t, x = (.ok (), (⟨k, f.transcript⟩, t)) ∧ Keeping f f.transcript t
  | .error e, x => ∃ y, x.1 = .err y ∧ Stands e y
  | .refused e, x => ∃ y, x.1 = .err y ∧ Stands e y
  | .abort, x => x.1 = .panic

theorem handler_hears (hS : S.Lawful) (p : Provider V) (secret : Bytes) (k : KsState)
    (hk : k.trafficSecret = some secret) {r : RawMsg} {h : ServerHs} (hd : decoded r = .ok h)
    (hws : r.WellSized S.hashLen) (m : Bytes) {f : Flight V} {t : HsData V × State} (hf : Keeping f f.transcript t) :
    ∃ x, Hears S p secret f m r x ∧ Tells k (.of x)
      (serverVerifyHandler S p (.handshake (stamp S f.transcript h)) (⟨k, f.transcript ++ m⟩, t)) := by
  obtain ⟨h0, h1, h2, h3, h4, h5, h6⟩ := hf
  obtain ⟨hd0, st⟩ := t
  simp only at h1 h2 h3 h4
  have hkind := decoded_kind hd
  cases r with
  | serverHello v rd sid cs comp xs =>
    obtain ⟨e, rfl⟩ := hkind
    exact ⟨_, .unexpected _ (.inl rfl), _, rfl, rfl⟩
  | newSessionTicket lt aa n t xs =>
    simp only at hkind
    subst hkind
    exact ⟨_, .unexpected _ (.inr rfl), _, rfl, rfl⟩
  | encryptedExtensions xs =>
    simp only at hkind
    subst hkind
    exact ⟨_, .extensions xs, (hd0, st), rfl, ⟨rfl, h1, h2, h3, h4, h5, h6⟩⟩
  | certificate ctx es =>
    simp only at hkind
    subst hkind
    simp only [stamp]
    rw [serverVerifyHandler_cert]
    rcases hv : p.verifier with _ | ops
    · exact ⟨_, .uncheckedCertificate ctx es hv, (hd0, st), rfl, ⟨rfl, h1, h2, h3, h4, h5, h6⟩⟩
    · refine ⟨_, .certificate ctx es ops hv, ?_⟩
      simp only [onVerifier_run]
      have hc : certOf ctx es = ⟨es.flatMap Spec.certEntryBytes, ctx, es.map fun e => .x509 e.1⟩ := rfl
      rw [hc, h2]
      generalize ops.verifyCertificate _ _ _ = q
      obtain ⟨res, v'⟩ := q
      cases res with
      | ok u => exact ⟨_, rfl, ⟨rfl, h1, rfl, h3, h4, h5, h6⟩⟩
      | err e => exact ⟨_, rfl, rfl⟩
      | panic => rfl
  | certificateVerify s sig =>
    obtain ⟨x, hx, rfl⟩ := hkind
    simp only [stamp, serverVerifyHandler]
    rcases hv : p.verifier with _ | ops
    · exact ⟨_, .uncheckedSignature s sig hv, (hd0, st), rfl, ⟨rfl, h1, h2, h3, h4, h5, h6⟩⟩
    · refine ⟨_, .signature s sig x ops hv hx, ?_⟩
      simp only [onVerifier_run]
      rw [h2]
      generalize ops.verifySignature _ _ = q
      obtain ⟨res, v'⟩ := q
      cases res with
      | ok u => exact ⟨_, rfl, ⟨rfl, h1, rfl, h3, h4, h5, h6⟩⟩
      | err e => exact ⟨_, rfl, rfl⟩
      | panic => rfl
  | certificateRequest ctx xs =>
    simp only at hkind
    subst hkind
    simp only [stamp, serverVerifyHandler, certRequestOwned]
    have hl : ctx.length ≤ 256 := by have := hws.1; omega
    refine ⟨_, .request ctx xs, ({ hd0 with certReq := some ctx }, st), ?_, ⟨rfl, rfl, h2, h3, h4, fun _ => by simp,
      fun c hc => by (cases hc; exact hl)⟩⟩
    rw [if_pos hl, M.lift_ok_bind]
    rfl
  | finished vd =>
    simp only at hkind
    subst hkind
    simp only [stamp]
    rw [serverVerifyHandler_finished S hS p vd f.transcript secret _ hd0 st hk]
    by_cases hv : vd = verifyData S secret f.transcript
    · rw [if_pos hv]
      rcases hc : f.request with _ | ctx
      · refine ⟨_, .finished vd hv hc, ({ hd0 with trafficHash := some (f.transcript ++ m) }, .clientFinished), ?_,
          ⟨rfl, h1, h2, rfl, fun x hx => by (cases hx; rfl), fun hx => by (cases hx), h6⟩⟩
        rw [if_neg (by rw [h1, hc]; simp)]
        rfl
      · refine ⟨_, .finishedRequested vd hv (by rw [hc]; simp), (hd0, .clientCert), ?_,
          ⟨rfl, h1, h2, rfl, fun x hx => by (cases hx), fun _ => by simp [Flight.heard, hc], h6⟩⟩
        rw [if_pos (by rw [h1, hc]; simp)]
        rfl
    · rw [if_neg hv]
      exact ⟨_, .forged vd hv, _, rfl, rfl⟩

/-! ## One record of the server's flight -/

theorem loop_flight (hS : S.Lawful) (p : Provider V) (secret : Bytes) (k : KsState)
    (hk : k.trafficSecret = some secret) : ∀ (fuel : Nat) (content A : Bytes) (f : Flight V) (t : HsData V × State),
    content.length < fuel → Keeping f f.transcript t →
    ∃ g, FlightMsgs S p secret content f g ∧ Tells k g
      (handshakeLoop S (serverVerifyHandler S p) fuel ⟨A ++ content, A.length⟩ (⟨k, f.transcript⟩, t)) := by
  intro fuel
  induction fuel with
  | zero => intro _ _ _ _ h; omega
  | succ fuel ih =>
    intro content A f t hf hkp
    unfold handshakeLoop
    simp only
    by_cases hc : content = []
    · subst hc
      rw [if_neg (by simp)]
      exact ⟨_, .done f, t, rfl, hkp⟩
    · have hcl : 0 < content.length := List.length_pos_iff.2 hc
      rw [if_pos (by simp; omega)]
      rcases read_flight S A content f.transcript with ⟨r, m, rest, h, rfl, hb, hd, _, h4, hr⟩ | ⟨hn, e, p', hr⟩
      · rw [hr]
        simp only
        obtain ⟨x, hx, ht⟩ := handler_hears S hS p secret k hk hd hb.1 m hkp
        cases x with
        | ok f1 =>
          obtain ⟨t1, e1, hkp1⟩ := ht
          rw [e1]
          simp only
          obtain ⟨g, g1, g2⟩ := ih rest (A ++ m) f1 t1 (by simp at hf; omega) hkp1
          refine ⟨g, .next r m rest f f1 g hb hx g1, ?_⟩
          rw [← List.append_assoc, ← List.length_append]
          exact g2
        | err e =>
          refine ⟨_, .stop r m rest f (.err e) hb hx (by simp), ?_⟩
          obtain ⟨y, e1, e2⟩ := ht
          generalize serverVerifyHandler S p (.handshake (stamp S f.transcript h)) _ = q at e1
          obtain ⟨q1, q2⟩ := q
          simp only at e1
          subst e1
          exact ⟨y, rfl, e2⟩
        | panic =>
          refine ⟨_, .stop r m rest f .panic hb hx (by simp), ?_⟩
          replace ht : (_ : Res TlsError Unit × (ReadKS × (HsData V × State))).1 = .panic := ht
          generalize serverVerifyHandler S p (.handshake (stamp S f.transcript h)) _ = q at ht
          obtain ⟨q1, q2⟩ := q
          simp only at ht
          subst ht
          rfl
      · rw [hr]
        exact ⟨_, .unreadable content f hc hn, e, rfl, hsRead_err S hr⟩

/-- The error of a message in a protected record may be followed by an alert. -/
theorem msgs_not_error {p : Provider V} {secret bytes : Bytes} {f : Flight V} {g : Got V}
    (h : FlightMsgs S p secret bytes f g) : ∀ e, g ≠ .error e := by
  induction h with
  | done f => simp
  | next _ _ _ _ _ _ _ _ _ ih => exact ih
  | stop r m rest f x hb hh hx => intro e; cases x <;> simp [Got.of]
  | unreadable => simp

theorem dispatch_flight (hS : S.Lawful) (p : Provider V) (secret : Bytes) (k : KsState)
    (hk : k.trafficSecret = some secret) (hdr pt : Bytes) (start : Nat) {f : Flight V} {t : HsData V × State}
    (hkp : Keeping f f.transcript t) :
    ∃ g, FlightInner S p secret f pt g ∧ (∀ e, g ≠ .error e) ∧ Tells k g
      (dispatchInner S (serverVerifyHandler S p) hdr start pt (⟨k, f.transcript⟩, t)) := by
  rcases inner_cases pt with rfl | ⟨m, hm, rfl⟩ | ⟨⟨ty, c, pad⟩, ht, rfl⟩
  · exact ⟨.abort, .empty, by simp, rfl⟩
  · refine ⟨_, .zeros m hm, by simp, _, ?_, rfl⟩
    rw [(C27_dispatch_partial S (serverVerifyHandler S p) hdr start (⟨k, f.transcript⟩, t)).2.2.2.2 m hm]
  · simp only at ht
    rw [dispatch_typed S _ _ _ _ _ _ ht]
    by_cases hkn : Known Spec.contentTypes ty.toNat
    · rcases (known_contentType ty).1 hkn with rfl | rfl | rfl | rfl | rfl
      · exact absurd rfl ht
      · exact ⟨_, .changeCipherSpec c pad, by simp, _, rfl, rfl⟩
      · show ∃ g, _ ∧ _ ∧ Tells k g ((do
          let a ← M.lift (Alert.parse (PB.new c)).1
          serverVerifyHandler S p (.alert a) : M TlsError (ReadKS × (HsData V × State)) Unit) (⟨k, f.transcript⟩, t))
        rcases alert_read c with ⟨e, h1, h2, _⟩ | ⟨a, h1, h2⟩
        · refine ⟨_, .badAlert c pad e h1, by simp, e, ?_, rfl⟩
          rw [h2, M.lift_err_bind]
        · refine ⟨_, .alert c pad _ h1, by simp, .invalidRecord, ?_, rfl⟩
          rw [h2, M.lift_ok_bind]
          rfl
      · obtain ⟨g, h1, h2⟩ := loop_flight S hS p secret k hk (c.length + 1) c [] f t (by omega) hkp
        exact ⟨g, .handshake c pad g h1, msgs_not_error S h1, h2⟩
      · exact ⟨_, .data c pad, by simp, _, rfl, rfl⟩
    · refine ⟨_, .unknown ⟨ty, c, pad⟩ hkn, by simp, .invalidRecord, ?_, rfl⟩
      have : ContentType.of ty.toNat = none := C04_content_type.reject _ fun x hx => hkn ⟨x, hx⟩
      rw [this]
      rfl

/-! ## Error handling -/

/-- The alert sent for an error. -/
def alertsOf : TlsError → List Bytes
  | .abortHandshake l d => [plainAlert l d]
  | _ => []

theorem refused_fwd (hS : S.Lawful) {m : M TlsError (HSt V) State} {s s1 : HSt V} {e : TlsError} (h : m s = (.err e, s1))
    (hi : s1.c.wb.Idle) (hL : 7 ≤ s1.c.wb.buffer.length) (hr : Reliable s1.c.tx)
    (hcnt : s1.c.ks.client.st.counter + 1 < 2 ^ 64) :
    ∃ s2, withErrorHandling S m s = (.err e, s2) ∧ s2.c.tx.log = s1.c.tx.log ++ sentRecords (alertsOf e) ∧
      s2.c.opened = s1.c.opened := by
  unfold withErrorHandling
  rw [h]
  simp only
  by_cases he : ∃ l d, e = .abortHandshake l d
  · obtain ⟨l, d, rfl⟩ := he
    obtain ⟨wb, g1, _, _⟩ := writeRecord_ok S hS (.alert ⟨l, d⟩ false) s1.c.ks.client s1.c.wb
      [UInt8.ofNat l.code, UInt8.ofNat d.code] s1.c.ks.server.transcript _ _ hi (by omega) (alert_appends ⟨l, d⟩)
      (finishes_alert S _ _ _ _ _) (by simpa [recordRoom, ClientRecord.header, ClientRecordHeader.isEncrypted] using hL)
    have hw := Conn.writeRecord_of S g1
    have ho := writeRecord_plainAlert S hS l d hi (by omega) hw
    rw [ho] at hw
    obtain ⟨ctl, h4, h5⟩ := respond_fwd (c := s1.c.wrote wb s1.c.ks.server.transcript) (bytes := plainAlert l d) hcnt hr
    simp only [onConn, handleProcessingError]
    rw [M.bind_ok hw, M.bind_ok h5]
    exact ⟨_, rfl, rfl, rfl⟩
  · have hn : alertsOf e = [] := by
      cases e <;> first | rfl | exact absurd ⟨_, _, rfl⟩ he
    refine ⟨s1, ?_, by rw [hn]; simp [sentRecords], rfl⟩
    cases e <;> first | rfl | exact absurd ⟨_, _, rfl⟩ he

theorem aborted_fwd {m : M TlsError (HSt V) State} {s s1 : HSt V} (h : m s = (.panic, s1)) :
    withErrorHandling S m s = (.panic, s1) := by
  unfold withErrorHandling
  rw [h]
  rfl

/-! ## A step of the state machine on the server's flight -/

/-- The client while it receives the server's flight: everything the next step depends on. -/
structure Receiving (secret : Bytes) (seq : Nat) (f : Flight V) (s : HSt V) : Prop where
  inv : s.c.rr.Inv
  empty : s.c.rr.pending = 0
  clean : s.c.rx.Clean
  keys : s.c.ks.server = ⟨⟨some secret, seq, writeKey S secret, writeIv S secret⟩, f.transcript⟩
  keeping : Keeping f f.transcript (s.h, stateOf f.after)
  idle : s.c.wb.Idle
  room : 7 ≤ s.c.wb.buffer.length
  reliable : Reliable s.c.tx
  counter : s.c.ks.client.st.counter + 1 < 2 ^ 64

/-- What stays the same. -/
structure SameSide (s s' : HSt V) : Prop where
  wb : s'.c.wb = s.c.wb
  tx : s'.c.tx = s.c.tx
  client : s'.c.ks.client = s.c.ks.client
  shared : s'.c.ks.shared = s.c.ks.shared
  opened : s'.c.opened = s.c.opened
  cap : s'.c.rr.buf.length = s.c.rr.buf.length

/-- The outcome of a step and of the code agree. -/
def StepTells (secret : Bytes) (seq' : Nat) (rest : Bytes) (s : HSt V) (x : Res TlsError State × HSt V) : Got V → Prop
  | .ok f1 => ∃ s1, x = (.ok (stateOf f1.after), s1) ∧ Receiving S secret seq' f1 s1 ∧ SameSide s s1 ∧ s1.c.rx.bytes = rest
  | .error e => ∃ y, x.1 = .err y ∧ Stands e y ∧ x.2.c.tx.log = s.c.tx.log ∧ x.2.c.opened = s.c.opened
  | .refused e => ∃ y, x.1 = .err y ∧ Stands e y ∧
      x.2.c.tx.log = s.c.tx.log ++ sentRecords (alertsOf y) ∧ x.2.c.opened = s.c.opened
  | .abort => x.1 = .panic ∧ x.2.c.tx.log = s.c.tx.log

/-- Taking note of a record read. -/
theorem verify_tells (hS : S.Lawful) (p : Provider V) {secret rest : Bytes} {seq seq' : Nat} {f : Flight V} {s s1 : HSt V}
    (hs : Receiving S secret seq f s) (hss : SameSide s s1)
    (hi : s1.c.rr.Inv) (hp : s1.c.rr.pending = 0) (hc : s1.c.rx.Clean) (hb : s1.c.rx.bytes = rest)
    {rec : ServerRecord} {g : Got V} (hg : ∀ e, g ≠ .error e)
    {d : DSt (HsData V × State)} {r : Res TlsError Unit}
    (hd : decryptRecord S (serverVerifyHandler S p) rec ⟨s1.c.ks.server, s1.c.rr.buf, (s1.h, State.serverVerify)⟩ = (r, d))
    (hbuf : d.buf.length = s1.c.rr.buf.length)
    (ht : match g with
      | .ok f1 => r = .ok () ∧ d.rks = ⟨⟨some secret, seq', writeKey S secret, writeIv S secret⟩, f1.transcript⟩ ∧
          Keeping f1 f1.transcript d.ext
      | .error _ => False
      | .refused e => ∃ y, r = .err y ∧ Stands e y
      | .abort => r = .panic) :
    StepTells S secret seq' rest s (withErrorHandling S (processServerVerify S p rec) s1) g := by
  have hrun : processServerVerify S p rec s1 = (r.map fun _ => d.ext.2,
      { c := { s1.c with ks := { s1.c.ks with server := d.rks }, rr := { s1.c.rr with buf := d.buf } }, h := d.ext.1 }) := by
    unfold processServerVerify
    rw [hd]
  cases g with
  | ok f1 =>
    obtain ⟨rfl, h2, h3⟩ := ht
    have hw := withErrorHandling_fwd S (m := processServerVerify S p rec) (s := s1) hrun
    refine ⟨{ c := { s1.c with ks := { s1.c.ks with server := d.rks }, rr := { s1.c.rr with buf := d.buf } }, h := d.ext.1 },
      ?_, ⟨?_, hp, hc, h2, ?_, ?_, ?_, ?_, ?_⟩, ⟨hss.wb, hss.tx, hss.client, hss.shared, hss.opened, ?_⟩, hb⟩
    · rw [hw, ← h3.state]
    · unfold RR.Inv at hi ⊢
      simp only; omega
    · simpa only [← h3.state] using h3
    · simp only [hss.wb]; exact hs.idle
    · simp only [hss.wb]; exact hs.room
    · simp only [hss.tx]; exact hs.reliable
    · simp only [hss.client]; exact hs.counter
    · simp only [hbuf]; exact hss.cap
  | error e => exact absurd rfl (hg e)
  | refused e =>
    obtain ⟨y, rfl, h2⟩ := ht
    obtain ⟨s2, w1, w2, w3⟩ := refused_fwd S hS (m := processServerVerify S p rec) (s := s1) hrun
      (by simp only [hss.wb]; exact hs.idle) (by simp only [hss.wb]; exact hs.room)
      (by simp only [hss.tx]; exact hs.reliable) (by simp only [hss.client]; exact hs.counter)
    refine ⟨y, by rw [w1], h2, ?_, ?_⟩
    · rw [w1]; simp only [w2, hss.tx]
    · rw [w1]; simp only [w3, hss.opened]
  | abort =>
    subst ht
    have hw := aborted_fwd S (m := processServerVerify S p rec) (s := s1) hrun
    refine ⟨by rw [hw], ?_⟩
    rw [hw]
    simp only [hss.tx]

theorem step_flight (hS : S.Lawful) (cfg : Config) (p : Provider V) {secret : Bytes} {seq : Nat} {f : Flight V} {s : HSt V}
    (hw : f.after = .waiting) (hs : Receiving S secret seq f s) :
    (∃ e s1, Framed s.c.rr.buf.length s.c.rx.bytes (.error e) ∧ process S cfg p .serverVerify s = (.err e, s1) ∧
      s1.c.tx = s.c.tx ∧ s1.c.opened = s.c.opened) ∨
    ∃ t hdr body rest g seq', Framed s.c.rr.buf.length s.c.rx.bytes (.record t hdr body rest) ∧
      rest.length < s.c.rx.bytes.length ∧ FlightStep S p secret seq f t hdr body g seq' ∧
      StepTells S secret seq' rest s (process S cfg p .serverVerify s) g := by
  simp only [process]
  rcases framed_read S s hs.inv hs.empty hs.clean with ⟨e, s1, h1, h2, h3, h4⟩ |
    ⟨t, hdr, body, rest, rh, rr', rx', start, h1, h2, h3, h4, h5, h6, h7, h8, h9, h10, h11, h12⟩
  · exact .inl ⟨e, s1, h1, by rw [M.bind_err h2], h3, h4⟩
  · right
    have hkp : Keeping f f.transcript (s.h, State.serverVerify) := by
      have := hs.keeping
      rw [hw] at this
      exact this
    have hof := C04_content_type.accept _ _ h2
    have hkn := (known_contentType t).1 ⟨_, h2⟩
    have herr : ∀ (g : Option TlsError) (z : TlsError) (tr : Bytes), Stands g z →
        ServerRecord.decode S rh start body s.c.ks.server.transcript = (.err z, tr) →
        StepTells S secret seq rest s (M.bind (onConn (onRd (RdHalf.readRecord S))) (fun rec =>
          withErrorHandling S (processServerVerify S p rec)) s) (.error g) := by
      intro g z tr hg hdec
      rw [hdec] at h12
      show StepTells S secret seq rest s ((do
        let rec ← onConn (onRd (RdHalf.readRecord S))
        withErrorHandling S (processServerVerify S p rec) : M TlsError (HSt V) State) s) (.error g)
      rw [M.bind_err h12]
      exact ⟨z, rfl, hg, rfl, rfl⟩
    have hgo : ∀ (rec : ServerRecord) (tr : Bytes), ServerRecord.decode S rh start body s.c.ks.server.transcript = (.ok rec, tr) →
        ((do
          let rec ← onConn (onRd (RdHalf.readRecord S))
          withErrorHandling S (processServerVerify S p rec) : M TlsError (HSt V) State) s) =
        withErrorHandling S (processServerVerify S p rec)
          { s with c := s.c.readTo rr' rx' { s.c.ks.server with transcript := tr } } := by
      intro rec tr hdec
      rw [hdec] at h12
      rw [M.bind_ok h12]
    have hss : ∀ k, SameSide s { s with c := s.c.readTo rr' rx' k } := fun k => ⟨rfl, rfl, rfl, rfl, rfl, h7⟩
    have hlen : ¬ rh.contentLength ≠ body.length := by simp [h3]
    obtain ⟨ct, cl, cd⟩ := rh
    simp only at h2 h3 h4 hof
    subst h3 h4
    rcases hkn with rfl | rfl | rfl | rfl | rfl
    · obtain rfl : ct = .invalid := Option.some.inj (hof.symm.trans (by decide))
      exact ⟨_, _, body, rest, _, seq, h1, h10, .invalid _ body, herr _ _ _ rfl
        (by unfold ServerRecord.decode; rw [if_neg hlen]; rfl)⟩
    · obtain rfl : ct = .changeCipherSpec := Option.some.inj (hof.symm.trans (by decide))
      refine ⟨_, _, body, rest, _, seq, h1, h10, .changeCipherSpec _ body, ?_⟩
      rw [hgo .changeCipherSpec s.c.ks.server.transcript (by unfold ServerRecord.decode; rw [if_neg hlen]; rfl)]
      exact verify_tells S hS p hs (hss _) h5 h6 h8 h9 (by simp) rfl rfl ⟨rfl, hs.keys, hkp⟩
    · obtain rfl : ct = .alert := Option.some.inj (hof.symm.trans (by decide))
      rcases alert_read body with ⟨e, a1, a2, _⟩ | ⟨a, a1, a2⟩
      · exact ⟨_, _, body, rest, _, seq, h1, h10, .badAlert _ body e a1, herr _ e s.c.ks.server.transcript rfl
          (by unfold ServerRecord.decode; rw [if_neg hlen]; simp only [a2]; rfl)⟩
      · refine ⟨_, _, body, rest, _, seq, h1, h10, .alert _ body _ a1, ?_⟩
        rw [hgo (.alert a) s.c.ks.server.transcript (by unfold ServerRecord.decode; rw [if_neg hlen]; simp only [a2]; rfl)]
        exact verify_tells S hS p hs (hss _) h5 h6 h8 h9 (by simp) rfl rfl ⟨_, rfl, rfl⟩
    · obtain rfl : ct = .handshake := Option.some.inj (hof.symm.trans (by decide))
      have htr : s.c.ks.server.transcript = f.transcript := by rw [hs.keys]
      rcases read_flight S [] body f.transcript with ⟨r, m, junk, h, rfl, hb, hd, _, _, hr⟩ | ⟨hn, e, p', hr⟩
      · obtain ⟨x, hx, ht⟩ := handler_hears S hS p secret ⟨some secret, seq, writeKey S secret, writeIv S secret⟩ rfl hd hb.1 m hkp
        refine ⟨_, _, m ++ junk, rest, _, seq, h1, h10, .plain _ m junk r x hb hx, ?_⟩
        simp only [List.nil_append, List.length_nil] at hr
        rw [hgo (.handshake (stamp S f.transcript h)) (f.transcript ++ m) (by
          unfold ServerRecord.decode
          rw [if_neg hlen, htr]
          simp only [PB.new, hr]
          rfl)]
        have hrun : ∀ q, serverVerifyHandler S p (.handshake (stamp S f.transcript h))
            (⟨⟨some secret, seq, writeKey S secret, writeIv S secret⟩, f.transcript ++ m⟩, (s.h, State.serverVerify)) = q →
            decryptRecord S (serverVerifyHandler S p) (.handshake (stamp S f.transcript h))
              ⟨{ s.c.ks.server with transcript := f.transcript ++ m }, rr'.buf, (s.h, State.serverVerify)⟩ =
              (q.1, ⟨q.2.1, rr'.buf, q.2.2⟩) := by
          intro q hq
          simp only [decryptRecord, hs.keys, hq]
        cases x with
        | ok f1 =>
          obtain ⟨t1, e1, e2⟩ := ht
          exact verify_tells S hS p hs (hss _) h5 h6 h8 h9 (by simp [Got.of]) (hrun _ e1) rfl ⟨rfl, rfl, e2⟩
        | err e => exact verify_tells S hS p hs (hss _) h5 h6 h8 h9 (by simp [Got.of]) (hrun _ rfl) rfl ht
        | panic => exact verify_tells S hS p hs (hss _) h5 h6 h8 h9 (by simp [Got.of]) (hrun _ rfl) rfl ht
      · refine ⟨_, _, body, rest, _, seq, h1, h10, .unreadable _ body hn, herr _ e f.transcript (hsRead_err S hr) ?_⟩
        unfold ServerRecord.decode
        rw [if_neg hlen, htr]
        simp only [List.nil_append, List.length_nil] at hr
        simp only [PB.new, hr]
        rfl
    · obtain rfl : ct = .applicationData := Option.some.inj (hof.symm.trans (by decide))
      have hdec : ServerRecord.decode S ⟨.applicationData, body.length, cd⟩ start body s.c.ks.server.transcript =
          (.ok (.appData cd start body), s.c.ks.server.transcript) := by
        unfold ServerRecord.decode
        rw [if_neg hlen]
        rfl
      have hnonce : (⟨some secret, seq, writeKey S secret, writeIv S secret⟩ : KsState).nonce S =
          Spec.nonce (writeIv S secret) seq := nonce_eq S hS.ivLen_eq _ (trafficState_iv S hS secret)
      rcases ho : S.open_ (writeKey S secret) (Spec.nonce (writeIv S secret) seq) cd body with _ | pt
      · refine ⟨_, _, body, rest, _, seq, h1, h10, .forged _ body ho, ?_⟩
        rw [hgo _ _ hdec]
        have hrun : decryptRecord S (serverVerifyHandler S p) (.appData cd start body)
            ⟨s.c.ks.server, rr'.buf, (s.h, State.serverVerify)⟩ =
            (.err .cryptoError, ⟨s.c.ks.server, rr'.buf, (s.h, State.serverVerify)⟩) := by
          simp only [decryptRecord, hs.keys, hnonce, ho]
        exact verify_tells S hS p hs (hss _) h5 h6 h8 h9 (by simp) hrun rfl ⟨_, rfl, rfl⟩
      · have hpl := hS.openLength _ _ _ _ _ ho
        have hspl := splice_length rr'.buf pt start (by omega)
        obtain ⟨g, g1, g2, g3⟩ := dispatch_flight S hS p secret ⟨some secret, seq, writeKey S secret, writeIv S secret⟩ rfl
          cd pt start hkp
        have hrun : ∀ r k t, (match dispatchInner S (serverVerifyHandler S p) cd start pt
              (⟨⟨some secret, seq, writeKey S secret, writeIv S secret⟩, f.transcript⟩, (s.h, State.serverVerify)) with
            | (.ok (), (k, t)) => ((ReadKS.increment k : Res TlsError Unit × ReadKS).1,
                ((ReadKS.increment k : Res TlsError Unit × ReadKS).2, t))
            | (.err e, (k, t)) => (.err e, (k, t))
            | (.panic, (k, t)) => (.panic, (k, t))) = (r, (k, t)) →
            decryptRecord S (serverVerifyHandler S p) (.appData cd start body)
            ⟨s.c.ks.server, rr'.buf, (s.h, State.serverVerify)⟩ = (r, ⟨k, CB.splice rr'.buf start pt, t⟩) := by
          intro r k t hm
          simp only [decryptRecord, hs.keys, hnonce, ho]
          generalize dispatchInner S (serverVerifyHandler S p) cd start pt _ = q at hm ⊢
          obtain ⟨q1, q2, q3⟩ := q
          cases q1 <;> (simp only [Prod.mk.injEq] at hm ⊢; obtain ⟨rfl, rfl, rfl⟩ := hm; exact ⟨rfl, rfl⟩)
        cases g with
        | ok f1 =>
          obtain ⟨t1, e1, e2⟩ := g3
          rw [e1] at hrun
          by_cases hcnt : seq + 1 < 2 ^ 64
          · refine ⟨_, _, body, rest, _, seq + 1, h1, h10, .authentic _ body pt f1 ho g1 hcnt, ?_⟩
            rw [hgo _ _ hdec]
            refine verify_tells S hS p hs (hss _) h5 h6 h8 h9 (by simp) (hrun _ _ _ rfl) hspl ⟨?_, ?_, e2⟩
            · simp only [ReadKS.increment, KsState.increment]
              rw [if_pos hcnt]
            · simp only [ReadKS.increment, KsState.increment]
              rw [if_pos hcnt]
          · refine ⟨_, _, body, rest, .abort, seq, h1, h10, .exhausted _ body pt f1 ho g1 (by omega), ?_⟩
            rw [hgo _ _ hdec]
            refine verify_tells S hS p hs (hss _) h5 h6 h8 h9 (by simp) (hrun _ _ _ rfl) hspl ?_
            simp only [ReadKS.increment, KsState.increment]
            rw [if_neg hcnt]
        | error e => exact absurd rfl (g2 e)
        | refused e =>
          refine ⟨_, _, body, rest, _, seq, h1, h10, .refused _ body pt _ ho g1 (by simp), ?_⟩
          rw [hgo _ _ hdec]
          obtain ⟨y, e1, e2⟩ := g3
          generalize dispatchInner S (serverVerifyHandler S p) cd start pt _ = q at hrun e1
          obtain ⟨q1, q2, q3⟩ := q
          simp only at e1
          subst e1
          exact verify_tells S hS p hs (hss _) h5 h6 h8 h9 (by simp) (hrun _ _ _ rfl) hspl ⟨y, rfl, e2⟩
        | abort =>
          refine ⟨_, _, body, rest, _, seq, h1, h10, .refused _ body pt _ ho g1 (by simp), ?_⟩
          rw [hgo _ _ hdec]
          replace g3 : (_ : Res TlsError Unit × (ReadKS × (HsData V × State))).1 = .panic := g3
          generalize dispatchInner S (serverVerifyHandler S p) cd start pt _ = q at hrun g3
          obtain ⟨q1, q2, q3⟩ := q
          simp only at g3
          subst g3
          exact verify_tells S hS p hs (hss _) h5 h6 h8 h9 (by simp) (hrun _ _ _ rfl) hspl rfl

/-! ## The server's flight -/

/-- The outcome of the flight and of the loop agree. -/
def LoopTells (cfg : Config) (p : Provider V) (secret left : Bytes) (fuel size : Nat) (s : HSt V)
    (x : Res TlsError Unit × HSt V) : Got V → Prop
  | .ok f1 => ∃ s1 seq' fuel', x = openLoop S cfg p fuel' (stateOf f1.after) s1 ∧ fuel ≤ fuel' + size ∧
      f1.after ≠ .waiting ∧ Receiving S secret seq' f1 s1 ∧ SameSide s s1 ∧ s1.c.rx.bytes = left
  | .error e => ∃ y, x.1 = .err y ∧ Stands e y ∧ x.2.c.tx.log = s.c.tx.log ∧ x.2.c.opened = s.c.opened
  | .refused e => ∃ y, x.1 = .err y ∧ Stands e y ∧
      x.2.c.tx.log = s.c.tx.log ++ sentRecords (alertsOf y) ∧ x.2.c.opened = s.c.opened
  | .abort => x.1 = .panic ∧ x.2.c.tx.log = s.c.tx.log

theorem flights_tell (hS : S.Lawful) (cfg : Config) (p : Provider V) (secret : Bytes) : ∀ (fuel seq : Nat) (f : Flight V) (s : HSt V),
    s.c.rx.bytes.length < fuel → f.after = .waiting → Receiving S secret seq f s →
    ∃ g left, Flights S p secret s.c.rr.buf.length seq s.c.rx.bytes f g left ∧
      LoopTells S cfg p secret left fuel s.c.rx.bytes.length s (openLoop S cfg p fuel .serverVerify s) g := by
  intro fuel
  induction fuel with
  | zero => intro _ _ _ h; omega
  | succ fuel ih =>
    intro seq f s hfuel hw hs
    rcases step_flight S hS cfg p hw hs with ⟨e, s1, h1, h2, h3, h4⟩ | ⟨t, hdr, body, rest, g, seq', h1, h2, h3, h4⟩
    · refine ⟨_, _, .fault seq _ f e h1, e, ?_⟩
      rw [openLoop_err S cfg p (by simp) h2]
      exact ⟨rfl, rfl, by rw [h3], h4⟩
    · rcases hx : process S cfg p .serverVerify s with ⟨r, s1⟩
      rw [hx] at h4
      cases g with
      | ok f1 =>
        obtain ⟨s2, e1, e2, e3, e4⟩ := h4
        cases e1
        by_cases hwait : f1.after = .waiting
        · obtain ⟨g, left, g1, g2⟩ := ih seq' f1 s1 (by rw [e4]; omega) hwait e2
          rw [e4, e3.cap] at g1
          refine ⟨g, left, .more seq seq' _ f f1 t hdr body rest left g h1 h3 hwait g1, ?_⟩
          have hst : openLoop S cfg p (fuel + 1) .serverVerify s = openLoop S cfg p fuel .serverVerify s1 := by
            rw [openLoop_step S cfg p (by simp) hx, hwait]
            rfl
          rw [hst]
          cases g with
          | ok f2 =>
            obtain ⟨s3, seq3, fuel3, a1, a2, a3, a4, a5, a6⟩ := g2
            exact ⟨s3, seq3, fuel3, a1, by rw [e4] at a2; omega, a3, a4, ⟨a5.wb.trans e3.wb, a5.tx.trans e3.tx,
              a5.client.trans e3.client, a5.shared.trans e3.shared, a5.opened.trans e3.opened, a5.cap.trans e3.cap⟩, a6⟩
          | error e =>
            obtain ⟨y, a1, a2, a3, a4⟩ := g2
            exact ⟨y, a1, a2, by rw [a3, e3.tx], by rw [a4, e3.opened]⟩
          | refused e =>
            obtain ⟨y, a1, a2, a3, a4⟩ := g2
            exact ⟨y, a1, a2, by rw [a3, e3.tx], by rw [a4, e3.opened]⟩
          | abort =>
            obtain ⟨a1, a2⟩ := g2
            exact ⟨a1, by rw [a2, e3.tx]⟩
        · exact ⟨_, rest, .last seq seq' _ f f1 t hdr body rest h1 h3 hwait, s1, seq', fuel,
            openLoop_step S cfg p (by simp) hx, by omega, hwait, e2, e3, e4⟩
      | error e =>
        obtain ⟨y, e1, e2⟩ := h4
        simp only at e1
        subst e1
        refine ⟨_, [], .stop seq seq' _ f t hdr body rest _ h1 h3 (by simp), y, ?_⟩
        rw [openLoop_err S cfg p (by simp) hx]
        exact ⟨rfl, e2⟩
      | refused e =>
        obtain ⟨y, e1, e2⟩ := h4
        simp only at e1
        subst e1
        refine ⟨_, [], .stop seq seq' _ f t hdr body rest _ h1 h3 (by simp), y, ?_⟩
        rw [openLoop_err S cfg p (by simp) hx]
        exact ⟨rfl, e2⟩
      | abort =>
        obtain ⟨e1, e2⟩ := h4
        simp only at e1
        subst e1
        refine ⟨_, [], .stop seq seq' _ f t hdr body rest _ h1 h3 (by simp), ?_⟩
        rw [openLoop_panic S cfg p (by simp) hx]
        exact ⟨rfl, e2⟩

/-! ## The first record -/

/-- The outcome of the first record and of the code agree. -/
def HelloTells (psk : Option Bytes) (hello rest : Bytes) (s : HSt V) (x : Res TlsError State × HSt V) : HelloGot → Prop
  | .ok sh dhe => ∃ rr' rx', rr'.Inv ∧ rr'.pending = 0 ∧ rr'.buf.length = s.c.rr.buf.length ∧ rx'.Clean ∧ rx'.bytes = rest ∧
      x = (.ok .serverVerify, ⟨{ s.c with
              rx := rx', rr := rr'
              ks := ⟨⟨Spec.deriveSecret S (handshakeSecret S psk dhe) "derived" [], some (handshakeSecret S psk dhe)⟩,
                { s.c.ks.client with st := trafficState S (clientHandshakeTraffic S psk dhe (hello ++ sh)) },
                ⟨trafficState S (serverHandshakeTraffic S psk dhe (hello ++ sh)), hello ++ sh⟩⟩ },
            { s.h with secret := none }⟩)
  | .error e => ∃ y, x.1 = .err y ∧ Stands e y ∧ x.2.c.tx = s.c.tx ∧ x.2.c.opened = s.c.opened

/-- Errors of `process_server_hello` that do not cause an alert. -/
theorem hello_failed {m : M TlsError (HSt V) State} {s s1 : HSt V} {e : TlsError} (h : m s = (.err e, s1))
    (he : ∀ l d, e ≠ .abortHandshake l d) : withErrorHandling S m s = (.err e, s1) := by
  unfold withErrorHandling
  rw [h]
  cases e <;> first | rfl | exact absurd rfl (he _ _)

theorem hello_tells (hS : S.Lawful) (cfg : Config) (p : Provider V) (s : HSt V) (psk : Option Bytes)
    (hi : s.c.rr.Inv) (hp : s.c.rr.pending = 0) (hc : s.c.rx.Clean) (secret : Bytes) (hsec : s.h.secret = some secret)
    (hk : s.c.ks.shared.secret = Spec.deriveSecret S (Spec.earlySecret S psk) "derived" []) :
    (∃ e s1, Framed s.c.rr.buf.length s.c.rx.bytes (.error e) ∧ process S cfg p .serverHello s = (.err e, s1) ∧
      s1.c.tx = s.c.tx ∧ s1.c.opened = s.c.opened) ∨
    ∃ t hdr body rest g, Framed s.c.rr.buf.length s.c.rx.bytes (.record t hdr body rest) ∧
      rest.length < s.c.rx.bytes.length ∧ HelloRecord S secret t body g ∧
      HelloTells S psk s.c.ks.server.transcript rest s (process S cfg p .serverHello s) g := by
  rcases framed_read S s hi hp hc with ⟨e, s1, h1, h2, h3, h4⟩ |
    ⟨t, hdr, body, rest, rh, rr', rx', start, h1, h2, h3, h4, h5, h6, h7, h8, h9, h10, h11, h12⟩
  · exact .inl ⟨e, s1, h1, by simp only [process]; rw [M.bind_err h2], h3, h4⟩
  · right
    have hof := C04_content_type.accept _ _ h2
    have hkn := (known_contentType t).1 ⟨_, h2⟩
    have herr : ∀ (g : Option TlsError) (z : TlsError) (tr : Bytes), Stands g z →
        ServerRecord.decode S rh start body s.c.ks.server.transcript = (.err z, tr) →
        HelloTells S psk s.c.ks.server.transcript rest s (process S cfg p .serverHello s) (.error g) := by
      intro g z tr hg hdec
      rw [hdec] at h12
      simp only [process]
      rw [M.bind_err h12]
      exact ⟨z, rfl, hg, rfl, rfl⟩
    have hgo : ∀ (rec : ServerRecord) (tr : Bytes) (z : TlsError) (s1 : HSt V),
        ServerRecord.decode S rh start body s.c.ks.server.transcript = (.ok rec, tr) →
        processServerHello S rec { s with c := s.c.readTo rr' rx' { s.c.ks.server with transcript := tr } } = (.err z, s1) →
        (∀ l d, z ≠ .abortHandshake l d) → s1.c.tx = s.c.tx → s1.c.opened = s.c.opened →
        HelloTells S psk s.c.ks.server.transcript rest s (process S cfg p .serverHello s) (.error (some z)) := by
      intro rec tr z s1 hdec hz hne ht ho
      rw [hdec] at h12
      simp only [process]
      rw [M.bind_ok h12, hello_failed S hz hne]
      exact ⟨z, rfl, rfl, ht, ho⟩
    have hlen : ¬ rh.contentLength ≠ body.length := by simp [h3]
    obtain ⟨ct, cl, cd⟩ := rh
    simp only at h2 h3 h4 hof
    subst h3 h4
    rcases hkn with rfl | rfl | rfl | rfl | rfl
    · obtain rfl : ct = .invalid := Option.some.inj (hof.symm.trans (by decide))
      exact ⟨_, _, body, rest, _, h1, h10, .invalid body, herr _ _ _ rfl
        (by unfold ServerRecord.decode; rw [if_neg hlen]; rfl)⟩
    · obtain rfl : ct = .changeCipherSpec := Option.some.inj (hof.symm.trans (by decide))
      exact ⟨_, _, body, rest, _, h1, h10, .changeCipherSpec body, hgo .changeCipherSpec s.c.ks.server.transcript _ _
        (by unfold ServerRecord.decode; rw [if_neg hlen]; rfl) rfl (by simp) rfl rfl⟩
    · obtain rfl : ct = .alert := Option.some.inj (hof.symm.trans (by decide))
      rcases alert_read body with ⟨e, a1, a2, _⟩ | ⟨a, a1, a2⟩
      · exact ⟨_, _, body, rest, _, h1, h10, .badAlert body e a1, herr _ e s.c.ks.server.transcript rfl
          (by unfold ServerRecord.decode; rw [if_neg hlen]; simp only [a2]; rfl)⟩
      · exact ⟨_, _, body, rest, _, h1, h10, .alert body _ _ a1, hgo (.alert a) s.c.ks.server.transcript _ _
          (by unfold ServerRecord.decode; rw [if_neg hlen]; simp only [a2]; rfl) rfl (by simp) rfl rfl⟩
    · obtain rfl : ct = .handshake := Option.some.inj (hof.symm.trans (by decide))
      rcases read_flight S [] body s.c.ks.server.transcript with ⟨r, m, junk, h, rfl, hb, hd, hpa, _, hr⟩ | ⟨hn, e, p', hr⟩
      · simp only [List.nil_append, List.length_nil] at hr
        have hdec : ServerRecord.decode S ⟨.handshake, (m ++ junk).length, cd⟩ start (m ++ junk) s.c.ks.server.transcript =
            (.ok (.handshake (stamp S s.c.ks.server.transcript h)), s.c.ks.server.transcript ++ m) := by
          unfold ServerRecord.decode
          rw [if_neg hlen]
          simp only [PB.new, hr]
          rfl
        by_cases ht : r.type = 2
        · obtain ⟨v, rd, sid, cs, comp, xs, rfl⟩ : ∃ v rd sid cs comp xs, r = .serverHello v rd sid cs comp xs := by
            cases r <;> first | exact ⟨_, _, _, _, _, _, rfl⟩ | (exfalso; simp [RawMsg.type] at ht)
          obtain ⟨exts, rfl⟩ := decoded_kind hd
          rcases hsh : serverHelloSharedSecret S exts secret with _ | dhe
          · refine ⟨_, _, m ++ junk, rest, _, h1, h10, .noShare _ junk _ hb ht ?_,
              hgo _ _ .invalidKeyShare ⟨s.c.readTo rr' rx' { s.c.ks.server with
                transcript := s.c.ks.server.transcript ++ m }, { s.h with secret := none }⟩ hdec ?_ (by simp) rfl rfl⟩
            · intro share hks
              cases hdh : S.dh secret share with
              | none => rfl
              | some dhe =>
                obtain ⟨exts', e1, e2⟩ := share_fwd S hks hd hdh
                cases e1
                rw [hsh] at e2
                cases e2
            · simp only [stamp, processServerHello]
              rw [M.get_bind]
              simp only [hsec]
              unfold modHs
              rw [M.modify_bind]
              simp only [hsh, M.fail_apply]
          · obtain ⟨r', share, q1, ⟨n, q2, q3⟩, q4, q5, q6⟩ := serverHello_share S hpa hsh
            have hb' : Begins S.hashLen r' junk (m ++ junk) := ⟨q1, (decoded_readable r').mp ⟨_, q6⟩, n, q2, by rw [q3]⟩
            refine ⟨_, _, m ++ junk, rest, _, h1, h10, .serverHello r' m junk share dhe hb' q4 q5,
              rr', rx', h5, h6, h7, h8, h9, ?_⟩
            rw [hdec] at h12
            simp only [process]
            rw [M.bind_ok h12]
            apply withErrorHandling_fwd
            simp only [stamp, processServerHello]
            rw [M.get_bind]
            simp only [hsec]
            unfold modHs
            rw [M.modify_bind]
            simp only [hsh]
            have hks := C35_handshake S hS { s.c.ks with
              server := { s.c.ks.server with transcript := s.c.ks.server.transcript ++ m } } psk dhe hk
            rw [M.bind_ok (onKs_ok hks)]
            rfl
        · refine ⟨_, _, m ++ junk, rest, _, h1, h10, .other r junk _ hb ht, hgo _ _ .invalidHandshake
            { s with c := s.c.readTo rr' rx' { s.c.ks.server with transcript := s.c.ks.server.transcript ++ m } } hdec ?_
            (by simp) rfl rfl⟩
          have hkind := decoded_kind hd
          cases r with
          | serverHello => exact absurd rfl ht
          | certificateVerify => obtain ⟨x, _, rfl⟩ := hkind; rfl
          | _ => simp only at hkind; subst hkind; rfl
      · refine ⟨_, _, body, rest, _, h1, h10, .unreadable body hn, herr _ e s.c.ks.server.transcript (hsRead_err S hr) ?_⟩
        unfold ServerRecord.decode
        rw [if_neg hlen]
        simp only [List.nil_append, List.length_nil] at hr
        simp only [PB.new, hr]
        rfl
    · obtain rfl : ct = .applicationData := Option.some.inj (hof.symm.trans (by decide))
      exact ⟨_, _, body, rest, _, h1, h10, .data body, hgo (.appData cd start body) s.c.ks.server.transcript _ _
        (by unfold ServerRecord.decode; rw [if_neg hlen]; rfl) rfl (by simp) rfl rfl⟩

end ETls
