import Verif.Proofs.ServerFlight
import Verif.Props.HonestServer
import Verif.Props.Readable

/-! # C72: exactly which bytes make `open` succeed

`open_describes`/`open_session` say what a successful `open` has received, `open_fwd` when it succeeds.  Here the two are
joined: on a transport without errors, `open` succeeds if and only if the bytes to be received begin with a flight that
can be accepted, and `Acceptable` says what that is without mentioning the client's code. -/

namespace ETls.Spec

variable (S : Suite)

/-- Records received after ServerHello, each with the messages it carries; the next protected record has number `seq`. -/
inductive RecordsCarry (key iv : Bytes) : Nat → List (Bytes × List (Bytes × RawMsg)) → Prop where
  | nil (seq : Nat) : RecordsCarry key iv seq []
  | cons (seq n : Nat) (record : Bytes) (ms : List (Bytes × RawMsg)) (rest : List (Bytes × List (Bytes × RawMsg)))
      (h : Carries S key iv seq record (ms.map Prod.fst) n) (hr : RecordsCarry key iv (seq + n) rest) :
      RecordsCarry key iv seq ((record, ms) :: rest)

/-- What a server sends: a ServerHello, possibly followed by other bytes in its record, and then records with the
messages in each. -/
structure ServerInput where
  version : UInt8 × UInt8
  sh : Bytes
  shMsg : RawMsg
  junk : Bytes
  share : Bytes
  dhe : Bytes
  flight : List (Bytes × List (Bytes × RawMsg))

namespace ServerInput
variable (x : ServerInput)
/-- All bytes. -/
def bytes : Bytes := plaintextRecord 22 [x.version.1, x.version.2] (x.sh ++ x.junk) ++ x.flight.flatMap Prod.fst
/-- The messages after ServerHello. -/
def msgs : List (Bytes × RawMsg) := x.flight.flatMap Prod.snd
end ServerInput

end ETls.Spec

namespace ETls

variable (S : Suite) {V : Type}
open Spec

/-- The decoder understands the message; by `decoded_readable` this is `RawMsg.Readable`. -/
def Understood (r : RawMsg) : Prop := ∃ h, decoded r = .ok h

/-- The input `x` is one on which `open` succeeds, for a client with configuration `cfg`, provider `p`, verifier state `v`
and a read buffer of `room` bytes. -/
structure Acceptable (cfg : Config) (p : Provider V) (v : V) (room : Nat) (x : ServerInput) : Prop where
  /-- the first record holds the ServerHello and fits the buffer -/
  shFits : (x.sh ++ x.junk).length ≤ room
  shLength : (x.sh ++ x.junk).length < 65536
  shEncoded : x.shMsg.WellSized S.hashLen ∧ Encodes x.sh x.shMsg ∧ x.shMsg.Readable
  /-- its key share can be combined with the client's secret -/
  share : KeyShareOf x.shMsg x.share
  dhe : S.dh p.secret x.share = some x.dhe
  /-- the other records carry the messages, under the server's handshake keys, and fit the buffer -/
  records : RecordsCarry S
    (writeKey S (serverHandshakeTraffic S (cfg.psk.map (·.1)) x.dhe (helloMsg S cfg p ++ x.sh)))
    (writeIv S (serverHandshakeTraffic S (cfg.psk.map (·.1)) x.dhe (helloMsg S cfg p ++ x.sh))) 0 x.flight
  fits : ∀ g ∈ x.flight, g.1.length ≤ room + 5
  /-- every message is understood and of a kind that is expected there -/
  msgs : ∀ m ∈ x.msgs, m.2.WellSized S.hashLen ∧ Encodes m.1 m.2 ∧ m.2.Readable ∧ expectedKind m.2
  /-- every Finished is the MAC over all messages before it -/
  finished : ∀ a fm vd b, x.msgs = a ++ (fm, .finished vd) :: b →
    vd = verifyData S (serverHandshakeTraffic S (cfg.psk.map (·.1)) x.dhe (helloMsg S cfg p ++ x.sh))
      (helloMsg S cfg p ++ x.sh ++ Session.bytesOf a)
  /-- the last record, and no other, has a Finished -/
  last : ∃ init record ms, x.flight = init ++ [(record, ms)] ∧ (∀ g ∈ init, noFinished g.2) ∧ ¬ noFinished ms
  /-- the verifier accepts the certificates and signatures -/
  verifier : ∀ ops, p.verifier = some ops → ∃ v',
    verifierRun ops (helloMsg S cfg p ++ x.sh) x.msgs (hostVst cfg p v) = (.ok (), v')
  /-- the client has an answer if a certificate was requested before the last Finished -/
  answer : ∀ a fm vd b, x.msgs = a ++ (fm, .finished vd) :: b → noFinished b → lastRequest a ≠ none →
    clientReply S p (helloMsg S cfg p ++ x.sh ++ Session.bytesOf x.msgs) (lastRequest x.msgs) ≠ none

/-! ## From the run to the input -/

theorem Matches.append_inv {ms : List (Bytes × ServerHs)} {rs : List (Bytes × RawMsg)}
    (h : List.Forall₂ (Matches S) ms rs) : ∀ a b, ms = a ++ b →
    ∃ c d, rs = c ++ d ∧ List.Forall₂ (Matches S) a c ∧ List.Forall₂ (Matches S) b d := by
  induction h with
  | nil =>
    intro a b hab
    obtain ⟨rfl, rfl⟩ := List.append_eq_nil_iff.1 hab.symm
    exact ⟨[], [], rfl, .nil, .nil⟩
  | @cons m r ms rs hm hms ih =>
    intro a b hab
    cases a with
    | nil =>
      simp only [List.nil_append] at hab
      subst hab
      exact ⟨[], _, rfl, .nil, .cons hm hms⟩
    | cons y a =>
      simp only [List.cons_append, List.cons.injEq] at hab
      obtain ⟨rfl, hab⟩ := hab
      obtain ⟨c, d, rfl, h1, h2⟩ := ih a b hab
      exact ⟨_, d, rfl, .cons hm h1, h2⟩

/-- Pairs of corresponding records. -/
def MatchesRec (a : Bytes × List (Bytes × ServerHs)) (b : Bytes × List (Bytes × RawMsg)) : Prop :=
  a.1 = b.1 ∧ List.Forall₂ (Matches S) a.2 b.2

theorem received_list {k k' : KsState} {fl : List (Bytes × List (Bytes × ServerHs))} (h : Received S k fl k') :
    ∃ gs, List.Forall₂ (MatchesRec S) fl gs := by
  induction h with
  | nil k => exact ⟨[], .nil⟩
  | cons k k' record ms n rest hi _ ih =>
    obtain ⟨gs, hgs⟩ := ih
    obtain ⟨rs, hrs⟩ := ParsedAs.list S (hi.parsed S)
    exact ⟨(record, rs) :: gs, .cons ⟨rfl, hrs⟩ hgs⟩

theorem received_carry (hS : S.Lawful) {k k' : KsState} {fl : List (Bytes × List (Bytes × ServerHs))}
    (h : Received S k fl k') (hk : k.iv.length = S.ivLen) {gs : List (Bytes × List (Bytes × RawMsg))}
    (hm : List.Forall₂ (MatchesRec S) fl gs) : RecordsCarry S k.key k.iv k.counter gs := by
  induction h generalizing gs with
  | nil k => cases hm; exact .nil _
  | cons k k' record ms n rest hi _ ih =>
    cases hm with
    | @cons _ g _ gs h1 h2 =>
      obtain ⟨rec, rs⟩ := g
      obtain ⟨e1, e2⟩ := h1
      simp only at e1 e2
      subst e1
      have hc := hi.carries S hS hk
      rw [Matches.bytes S e2] at hc
      exact .cons _ _ _ _ _ hc (ih hk h2)

theorem matchesRec_msgs {fl : List (Bytes × List (Bytes × ServerHs))} {gs : List (Bytes × List (Bytes × RawMsg))}
    (hm : List.Forall₂ (MatchesRec S) fl gs) : List.Forall₂ (Matches S) (flightMsgs fl) (gs.flatMap Prod.snd) := by
  induction hm with
  | nil => exact .nil
  | cons h _ ih =>
    simp only [flightMsgs, List.flatMap_cons] at ih ⊢
    exact List.rel_append h.2 ih

theorem matchesRec_bytes {fl : List (Bytes × List (Bytes × ServerHs))} {gs : List (Bytes × List (Bytes × RawMsg))}
    (hm : List.Forall₂ (MatchesRec S) fl gs) : flightBytes fl = gs.flatMap Prod.fst := by
  induction hm with
  | nil => rfl
  | cons h _ ih =>
    simp only [flightBytes, List.flatMap_cons] at ih ⊢
    rw [h.1, ih]

theorem matches_understood {ms : List (Bytes × ServerHs)} {rs : List (Bytes × RawMsg)}
    (h : List.Forall₂ (Matches S) ms rs) : ∀ m ∈ rs, m.2.WellSized S.hashLen ∧ Encodes m.1 m.2 ∧ Understood m.2 := by
  induction h with
  | nil => simp
  | cons h _ ih =>
    intro m hm
    rcases List.mem_cons.1 hm with rfl | hm
    · exact ⟨h.2.1, h.2.2.1, _, h.2.2.2⟩
    · exact ih m hm

theorem matches_noFinished {ms : List (Bytes × ServerHs)} {rs : List (Bytes × RawMsg)}
    (h : List.Forall₂ (Matches S) ms rs) : (∀ m ∈ ms, ∀ f, m.2 ≠ .finished f) ↔ noFinished rs := by
  induction h with
  | nil => simp [noFinished]
  | @cons m r ms rs h _ ih =>
    obtain ⟨e1, e2, e3, e4⟩ := h
    have key : (∀ f, m.2 ≠ .finished f) ↔ ∀ v, r.2 ≠ .finished v := by
      constructor
      · intro hf v hr
        rw [hr] at e4
        simp only [decoded, Res.ok.injEq] at e4
        exact hf _ e4.symm
      · intro hv f hr
        rw [hr] at e4
        exact hv _ (decoded_finished e4)
    simp only [noFinished, List.mem_cons, forall_eq_or_imp] at ih ⊢
    rw [key, ih]

/-- The last Finished is determined. -/
theorem last_finished_unique {rs : List (Bytes × RawMsg)} {a a' b b' : List (Bytes × RawMsg)} {fm fm' vd vd' : Bytes}
    (h : rs = a ++ (fm, .finished vd) :: b) (hb : noFinished b) (h' : rs = a' ++ (fm', .finished vd') :: b')
    (hb' : noFinished b') : a = a' ∧ fm = fm' ∧ vd = vd' ∧ b = b' := by
  induction a generalizing rs a' with
  | nil =>
    cases a' with
    | nil =>
      simp only [List.nil_append] at h h'
      rw [h] at h'
      simp only [List.cons.injEq, Prod.mk.injEq, RawMsg.finished.injEq] at h'
      exact ⟨rfl, h'.1.1, h'.1.2, h'.2⟩
    | cons y a' =>
      exfalso
      rw [h] at h'
      simp only [List.nil_append, List.cons_append, List.cons.injEq] at h'
      exact hb (fm', .finished vd') (by rw [h'.2]; simp) vd' rfl
  | cons y a ih =>
    cases a' with
    | nil =>
      exfalso
      rw [h'] at h
      simp only [List.nil_append, List.cons_append, List.cons.injEq] at h
      exact hb' (fm, .finished vd) (by rw [h.2]; simp) vd rfl
    | cons y' a' =>
      rw [h] at h'
      simp only [List.cons_append, List.cons.injEq] at h'
      obtain ⟨rfl, h'⟩ := h'
      obtain ⟨rfl, h2⟩ := ih rfl h'
      exact ⟨rfl, h2⟩

theorem lastRequest_append (a b : List (Bytes × RawMsg)) : lastRequest (a ++ b) = (lastRequest b).or (lastRequest a) := by
  induction a with
  | nil => simp [lastRequest]
  | cons y a ih =>
    obtain ⟨m, r⟩ := y
    cases r <;> simp only [List.cons_append, lastRequest, ih]
    rw [Option.or_assoc]

/-- A successful `open` on a fresh connection has received an acceptable input. -/
theorem open_acceptable (hS : S.Lawful) (cfg : Config) (p : Provider V) (v : V) {c c' : Conn} (hf : c.Fresh S)
    (h : Conn.open_ S cfg p v c = (.ok (), c')) :
    ∃ x, Acceptable S cfg p v c.rr.buf.length x ∧ c.rx.bytes = x.bytes ++ c'.rx.bytes := by
  obtain ⟨w, hw⟩ := open_describes S hS cfg p v hf h
  obtain ⟨k', hr⟩ := hw.received
  obtain ⟨gs, hg⟩ := received_list S hr
  have hm := matchesRec_msgs S hg
  have hmb := Matches.msgBytes S hm
  obtain ⟨r, share, q1, q2, q3, q4, q5⟩ := serverHello_share S hw.parsed hw.shared
  obtain ⟨t1, t2, t3, t4, t5⟩ := tookAll_wire S hw.took hm
  have hc := received_carry S hS hr (trafficState_iv S hS _) hg
  obtain ⟨binders, b1, b2, b3⟩ := hw.hello
  have hhello : w.hello = helloMsg S cfg p := by rw [b1]; exact hello_unique S cfg p binders b2 b3
  obtain ⟨hdr, rh, junk, e1, e2, e3, e4⟩ := hw.serverHello
  have h5 := header_length e1
  obtain ⟨v1, v2, e5, e6⟩ := header_shape e1
  have htr0 : w.tr0 = helloMsg S cfg p ++ w.sh := by rw [← hhello]; rfl
  have hsec : w.serverSecret S cfg = serverHandshakeTraffic S (cfg.psk.map (·.1)) w.dhe (helloMsg S cfg p ++ w.sh) := by
    rw [← htr0]; rfl
  rw [hsec] at hc
  rw [htr0] at t4 t2
  rw [hsec] at t2
  have hlen : (w.sh ++ junk).length < 65536 := by rw [← e3]; exact e6
  have hfin : ∃ a fm vd b, gs.flatMap Prod.snd = a ++ (fm, .finished vd) :: b ∧ noFinished b ∧
        (((lastRequest a).or none = none ∧ w.state = .clientFinished) ∨
          ((lastRequest a).or none ≠ none ∧ w.state = .clientCert)) := by
    rcases t5 with ⟨_, t5, _⟩ | ⟨a, fm, vd, b, u1, u2, u3⟩
    · exfalso
      simp only at t5
      rcases hw.client with ⟨hs, _⟩ | ⟨hs, _⟩ <;> rw [hs] at t5 <;> cases t5
    · exact ⟨a, fm, vd, b, u1, u2, u3.imp (fun h => ⟨h.1, h.2.1⟩) id⟩
  obtain ⟨a, fm, vd, b, u1, u2, u3⟩ := hfin
  refine ⟨⟨(v1, v2), w.sh, r, junk, share, w.dhe, gs⟩, ?_, ?_⟩
  · refine ⟨?_, hlen, ⟨q1, q2, (decoded_readable r).mp ⟨_, q5⟩⟩, q3, q4, hc, ?_, ?_, t2, ?_, ?_, ?_⟩
    · have := hw.sizes.1
      rw [e4] at this
      simp only [List.length_append] at this ⊢
      omega
    · have hsz := hw.sizes.2
      clear hc t1 t2 t3 t4 t5 hm hmb u1 hr
      generalize w.flight = fl at hg hsz
      induction hg with
      | nil => simp
      | @cons f g fl gs h1 h2 ih =>
        intro y hy
        rcases List.mem_cons.1 hy with rfl | hy
        · rw [← h1.1]; exact hsz f List.mem_cons_self
        · exact ih (fun z hz => hsz z (List.mem_cons_of_mem _ hz)) y hy
    · intro m hmem
      obtain ⟨k1, k2, k3⟩ := matches_understood S hm m hmem
      exact ⟨k1, k2, (decoded_readable _).mp k3, t1 m hmem⟩
    · obtain ⟨l1, l2⟩ := hw.finishedLast
      have hmem : (fm, RawMsg.finished vd) ∈ gs.flatMap Prod.snd := by rw [u1]; simp
      clear hc t1 t2 t3 t4 t5 hm hmb u1 hr
      generalize w.flight = fl at hg l1 l2
      have key : ∀ (fl : List (Bytes × List (Bytes × ServerHs))) (gs : List (Bytes × List (Bytes × RawMsg))),
          List.Forall₂ (MatchesRec S) fl gs → fl ≠ [] → (∀ g ∈ fl.dropLast, ∀ m ∈ g.2, ∀ f, m.2 ≠ .finished f) →
          ∃ init record ms, gs = init ++ [(record, ms)] ∧ ∀ g ∈ init, noFinished g.2 := by
        intro fl gs hg
        induction hg with
        | nil => intro hne; exact absurd rfl hne
        | @cons f g fl gs h1 h2 ih =>
          intro _ hd
          cases h2 with
          | nil => exact ⟨[], g.1, g.2, rfl, by simp⟩
          | @cons f2 g2 fl2 gs2 h3 h4 =>
            obtain ⟨init, record, ms, i1, i2⟩ := ih (by simp) fun y hy => hd y (by
              rw [List.dropLast_cons_of_ne_nil (by simp)]; exact List.mem_cons_of_mem _ hy)
            refine ⟨g :: init, record, ms, by rw [i1]; rfl, ?_⟩
            intro y hy
            rcases List.mem_cons.1 hy with rfl | hy
            · exact (matches_noFinished S h1.2).1 (hd f (by rw [List.dropLast_cons_of_ne_nil (by simp)]; simp))
            · exact i2 y hy
      obtain ⟨init, record, ms, i1, i2⟩ := key fl gs hg l1 l2
      refine ⟨init, record, ms, i1, i2, fun hno => ?_⟩
      rw [i1] at hmem
      simp only [List.flatMap_append, List.flatMap_cons, List.flatMap_nil, List.append_nil, List.mem_append,
        List.mem_flatMap] at hmem
      rcases hmem with ⟨y, hy, hmem⟩ | hmem
      · exact i2 y hy _ hmem vd rfl
      · exact hno _ hmem vd rfl
    · exact fun ops ho => ⟨_, t4 ops ho⟩
    · intro a' fm' vd' b' h1 h2 h3
      obtain ⟨rfl, -, -, -⟩ := last_finished_unique h1 h2 u1 u2
      simp only [Option.or_none] at u3
      rcases u3 with ⟨k, _⟩ | ⟨_, k⟩
      · exact absurd k h3
      rcases hw.client with ⟨hs, _⟩ | ⟨_, _, ctx, c1, c2⟩
      · rw [k] at hs; cases hs
      rw [t3] at c1
      simp only [Option.or_none] at c1
      simp only [ServerInput.msgs, c1, clientReply]
      rcases c2 with ⟨c2, _⟩ | ⟨cert, sign, scheme, sig, c2, c3, c4, _⟩
      · rw [c2]; simp
      · have hsg : ∀ t, clientSignedContent S t = clientSigned S t := by
          intro t; simp [clientSignedContent, clientSigned]
        have htr1 : w.tr1 = helloMsg S cfg p ++ w.sh ++ Session.bytesOf (gs.flatMap Prod.snd) := by
          rw [← hmb, ← htr0]; rfl
        rw [hsg, htr1] at c4
        rw [c2, c3]
        simp only [c4]
        simp
  · rw [hw.bytes, matchesRec_bytes S hg, e4, e5, e2, e3]
    rfl

/-! ## From the input to the run -/

/-- A flight with Finished messages in it is accepted. -/
theorem tookAll_finished {p : Provider V} {secret : Bytes} {ms : List (Bytes × ServerHs)} {rs : List (Bytes × RawMsg)}
    (hm : List.Forall₂ (Matches S) ms rs) : ∀ (tr : Bytes) (t : HsData V × State),
    (∀ m ∈ rs, expectedKind m.2) →
    (∀ a fm vd b, rs = a ++ (fm, .finished vd) :: b → vd = verifyData S secret (tr ++ Session.bytesOf a)) →
    (∀ ops, p.verifier = some ops → ∃ v', verifierRun ops tr rs t.1.vst = (.ok (), v')) →
    ∃ t', TookAll S p secret tr t ms t' := by
  induction hm with
  | nil => intro tr t _ _ _; exact ⟨t, .nil _ _⟩
  | @cons a b ms rs hm hms ih =>
    intro tr t hk hf hv
    obtain ⟨h, st⟩ := t
    obtain ⟨m, hh⟩ := a
    obtain ⟨m', r⟩ := b
    obtain ⟨e1, e2, e3, e4⟩ := hm
    simp only at e1 e2 e3 e4
    subst e1
    have hkr := hk (m, r) List.mem_cons_self
    have hk' : ∀ m ∈ rs, expectedKind m.2 := fun x hx => hk x (List.mem_cons_of_mem _ hx)
    have hf' : ∀ a fm vd b, rs = a ++ (fm, .finished vd) :: b →
        vd = verifyData S secret (tr ++ m ++ Session.bytesOf a) := by
      intro a fm vd b hab
      rw [hf ((m, r) :: a) fm vd b (by rw [hab]; rfl)]
      simp [Session.bytesOf]
    have hkind := decoded_kind e4
    simp only at hkr
    cases r with
    | serverHello v rnd sid cs comp xs => exact absurd hkr (by simp [expectedKind])
    | newSessionTicket lt aa n tk xs => exact absurd hkr (by simp [expectedKind])
    | finished v =>
      simp only at hkind
      subst hkind
      have hvd := hf [] m v rs rfl
      simp only [Session.bytesOf, List.flatMap_nil, List.append_nil] at hvd
      cases hc : h.certReq with
      | none =>
        obtain ⟨t', ht⟩ := ih (tr ++ m) ({ h with trafficHash := some (tr ++ m) }, .clientFinished) hk' hf'
          (fun ops ho => by simpa [verifierRun] using hv ops ho)
        exact ⟨t', .cons _ _ _ _ _ _ _ (.finishedNoCert _ h st hvd hc) ht⟩
      | some ctx =>
        obtain ⟨t', ht⟩ := ih (tr ++ m) (h, .clientCert) hk' hf'
          (fun ops ho => by simpa [verifierRun] using hv ops ho)
        exact ⟨t', .cons _ _ _ _ _ _ _ (.finished _ h st hvd (by rw [hc]; rfl)) ht⟩
    | encryptedExtensions xs =>
      simp only at hkind
      subst hkind
      obtain ⟨t', ht⟩ := ih (tr ++ m) (h, st) hk' hf' (fun ops ho => by simpa [verifierRun] using hv ops ho)
      exact ⟨t', .cons _ _ _ _ _ _ _ (.encryptedExtensions _) ht⟩
    | certificateRequest ctx xs =>
      simp only at hkind
      subst hkind
      obtain ⟨t', ht⟩ := ih (tr ++ m) ({ h with certReq := some ctx }, st) hk' hf'
        (fun ops ho => by simpa [verifierRun] using hv ops ho)
      exact ⟨t', .cons _ _ _ _ _ _ _ (.certificateRequest ctx h st hkr) ht⟩
    | certificate ctx es =>
      simp only at hkind
      subst hkind
      rcases ho : p.verifier with _ | ops
      · obtain ⟨t', ht⟩ := ih (tr ++ m) (h, st) hk' hf' (fun ops' ho' => by rw [ho] at ho'; cases ho')
        exact ⟨t', .cons _ _ _ _ _ _ _ (.certificateUnchecked _ _ ho) ht⟩
      · obtain ⟨v', h1⟩ := hv ops ho
        simp only [verifierRun] at h1
        obtain ⟨_, v1, h2, h3⟩ := M.bind_inv h1
        obtain ⟨t', ht⟩ := ih (tr ++ m) ({ h with vst := v1 }, st) hk' hf'
          (fun ops' ho' => by rw [ho] at ho'; cases ho'; exact ⟨_, h3⟩)
        exact ⟨t', .cons _ _ _ _ _ _ _ (.certificate _ ops h st v1 ho h2) ht⟩
    | certificateVerify s sig =>
      simp only at hkind
      obtain ⟨x, hx, rfl⟩ := hkind
      rcases ho : p.verifier with _ | ops
      · obtain ⟨t', ht⟩ := ih (tr ++ m) (h, st) hk' hf' (fun ops' ho' => by rw [ho] at ho'; cases ho')
        exact ⟨t', .cons _ _ _ _ _ _ _ (.certificateVerifyUnchecked _ _ ho) ht⟩
      · obtain ⟨v', h1⟩ := hv ops ho
        simp only [verifierRun, C04_signature_scheme.accept _ _ hx] at h1
        obtain ⟨_, v1, h2, h3⟩ := M.bind_inv h1
        obtain ⟨t', ht⟩ := ih (tr ++ m) ({ h with vst := v1 }, st) hk' hf'
          (fun ops' ho' => by rw [ho] at ho'; cases ho'; exact ⟨_, h3⟩)
        exact ⟨t', .cons _ _ _ _ _ _ _ (.certificateVerify _ ops h st v1 ho h2) ht⟩

theorem header_fwd (a v1 v2 : UInt8) (n : Nat) (hn : n < 65536) {ct : ContentType} (hc : ContentType.of a.toNat = some ct) :
    RecordHeader.decode ([a, v1, v2] ++ u16 n) = .ok ⟨ct, n, [a, v1, v2] ++ u16 n⟩ := by
  have h1 : (n / 256) % 256 * 256 + n % 256 = n := by omega
  simp only [u16, List.cons_append, List.nil_append, RecordHeader.decode, hc, UInt8.toNat_ofNat']
  rw [show (2 : Nat) ^ 8 = 256 from rfl, h1]

theorem matches_list : ∀ {rs : List (Bytes × RawMsg)},
    (∀ m ∈ rs, m.2.WellSized S.hashLen ∧ Encodes m.1 m.2 ∧ Understood m.2) → ∃ ms, List.Forall₂ (Matches S) ms rs := by
  intro rs
  induction rs with
  | nil => intro _; exact ⟨[], .nil⟩
  | cons r rs ih =>
    intro h
    obtain ⟨ms, hms⟩ := ih fun m hm => h m (List.mem_cons_of_mem _ hm)
    obtain ⟨h1, h2, x, h3⟩ := h r List.mem_cons_self
    exact ⟨(r.1, x) :: ms, .cons ⟨rfl, h1, h2, h3⟩ hms⟩

theorem matches_parsed {ms : List (Bytes × ServerHs)} {rs : List (Bytes × RawMsg)} (h : List.Forall₂ (Matches S) ms rs) :
    ∀ m ∈ ms, ParsedAs S m.1 m.2 ∧ 4 ≤ m.1.length := by
  induction h with
  | nil => simp
  | @cons a b ms rs h _ ih =>
    intro m hm
    rcases List.mem_cons.1 hm with rfl | hm
    · obtain ⟨e1, e2, e3, e4⟩ := h
      rw [e1]
      exact ParsedAs.of_decoded S e2 e3 e4
    · exact ih m hm

/-- The converse of `Incoming.carries`. -/
theorem carries_incoming (hS : S.Lawful) {k : KsState} (hk : k.iv.length = S.ivLen) {record : Bytes} {n : Nat}
    {ms : List (Bytes × ServerHs)} {rs : List (Bytes × RawMsg)} (hm : List.Forall₂ (Matches S) ms rs)
    (h : Carries S k.key k.iv k.counter record (rs.map Prod.fst) n) : Incoming S k record ms n := by
  rw [← Matches.bytes S hm] at h
  have hp := matches_parsed S hm
  generalize hb : ms.map Prod.fst = bs at h
  cases h with
  | plain v1 v2 m junk hl =>
    cases ms with
    | nil => simp at hb
    | cons a ms =>
      simp only [List.map_cons, List.cons.injEq, List.map_eq_nil_iff] at hb
      obtain ⟨rfl, rfl⟩ := hb
      obtain ⟨p1, p2⟩ := hp a List.mem_cons_self
      exact .plain ([22, v1, v2] ++ u16 (a.1 ++ junk).length) a.1 junk a.2 _
        (header_fwd 22 v1 v2 _ hl (ct := .handshake) (by decide)) rfl rfl p1 p2
  | encrypted v1 v2 ct bs pad hl ho =>
    subst hb
    refine .protected_ ([23, v1, v2] ++ u16 ct.length) ct _ (header_fwd 23 v1 v2 _ hl (ct := .applicationData) (by decide))
      rfl rfl pad ms hp ?_
    rw [nonce_eq S hS.ivLen_eq _ hk, msgBytes_flatten]
    exact ho
  | changeCipherSpec v1 v2 payload hl =>
    simp only [List.map_eq_nil_iff] at hb
    subst hb
    exact .changeCipherSpec ([20, v1, v2] ++ u16 payload.length) payload _
      (header_fwd 20 v1 v2 _ hl (ct := .changeCipherSpec) (by decide)) rfl rfl

theorem carry_received (hS : S.Lawful) {gs : List (Bytes × List (Bytes × RawMsg))} : ∀ (k : KsState),
    k.iv.length = S.ivLen → RecordsCarry S k.key k.iv k.counter gs →
    (∀ m ∈ gs.flatMap Prod.snd, m.2.WellSized S.hashLen ∧ Encodes m.1 m.2 ∧ Understood m.2) →
    ∃ fl k', List.Forall₂ (MatchesRec S) fl gs ∧ Received S k fl k' := by
  induction gs with
  | nil => intro k _ _ _; exact ⟨[], k, .nil, .nil k⟩
  | cons g gs ih =>
    intro k hk h hms
    cases h with
    | cons _ n record rs _ h hr =>
      simp only [List.flatMap_cons, List.mem_append] at hms
      obtain ⟨ms, hm⟩ := matches_list S (rs := rs) fun m hmem => hms m (.inl hmem)
      obtain ⟨fl, k', i1, i2⟩ := ih { k with counter := k.counter + n } hk hr fun m hmem => hms m (.inr hmem)
      exact ⟨(record, ms) :: fl, k', .cons ⟨rfl, hm⟩ i1, .cons _ _ _ _ _ _ (carries_incoming S hS hk hm h) i2⟩

theorem lastRequest_mem {rs : List (Bytes × RawMsg)} {ctx : Bytes} (h : lastRequest rs = some ctx) :
    ∃ m xs, (m, RawMsg.certificateRequest ctx xs) ∈ rs := by
  induction rs with
  | nil => cases h
  | cons y rs ih =>
    obtain ⟨m, r⟩ := y
    have tail : lastRequest rs = some ctx → ∃ m' xs, (m', RawMsg.certificateRequest ctx xs) ∈ (m, r) :: rs := by
      intro h
      obtain ⟨m', xs, hm⟩ := ih h
      exact ⟨m', xs, List.mem_cons_of_mem _ hm⟩
    cases r with
    | certificateRequest c xs =>
      simp only [lastRequest] at h
      cases hl : lastRequest rs with
      | some c' =>
        rw [hl] at h
        simp only [Option.some_or, Option.some.injEq] at h
        subst h
        exact tail hl
      | none =>
        rw [hl] at h
        simp only [Option.none_or, Option.some.injEq] at h
        subst h
        exact ⟨m, xs, List.mem_cons_self⟩
    | _ => exact tail h

/-- An acceptable input makes `open` succeed. -/
theorem acceptable_open (hS : S.Lawful) (cfg : Config) (p : Provider V) (v : V) {c : Conn} (hf : c.Fresh S)
    (hclean : c.rx.Clean) (hrel : Reliable c.tx)
    (hhost : ∀ ops name, p.verifier = some ops → cfg.serverName = some name → ∃ v', ops.setHostname name v = (.ok (), v'))
    (hsig : ∀ sign scheme, p.signer = .ok (sign, scheme) → ∀ m sig, sign m = some sig → sig.length ≤ signatureSize S)
    (hfh : 5 + helloLength S cfg p ≤ c.wb.buffer.length) (hff : S.hashLen + 26 ≤ c.wb.buffer.length)
    (hfm : ∀ tr ctx ms, ctx.length ≤ 256 → clientReply S p tr (some ctx) = some ms →
      ∀ m ∈ ms, m.length + 22 ≤ c.wb.buffer.length)
    {x : ServerInput} (hx : Acceptable S cfg p v c.rr.buf.length x) (hcnt : x.flight.length < 2 ^ 64)
    {rest : Bytes} (hb : c.rx.bytes = x.bytes ++ rest) :
    ∃ c', Conn.open_ S cfg p v c = (.ok (), c') ∧ c'.rx.bytes = rest := by
  obtain ⟨h, hdec⟩ := (decoded_readable _).mpr hx.shEncoded.2.2
  obtain ⟨exts, rfl, hdh⟩ := share_fwd S hx.share hdec hx.dhe
  obtain ⟨hpa, h4⟩ := ParsedAs.of_decoded S hx.shEncoded.1 hx.shEncoded.2.1 hdec
  obtain ⟨fl, k', hg, hr⟩ := carry_received S hS
    (trafficState S (serverHandshakeTraffic S (cfg.psk.map (·.1)) x.dhe (helloMsg S cfg p ++ x.sh)))
    (trafficState_iv S hS _) hx.records fun m hm => let h := hx.msgs m hm; ⟨h.1, h.2.1, (decoded_readable _).mpr h.2.2.1⟩
  have hm := matchesRec_msgs S hg
  have hmb := Matches.msgBytes S hm
  obtain ⟨⟨hd', st'⟩, ht⟩ := tookAll_finished S (p := p) hm (helloMsg S cfg p ++ x.sh)
    (⟨none, none, none, hostVst cfg p v⟩, .serverVerify) (fun m hmem => (hx.msgs m hmem).2.2.2) hx.finished hx.verifier
  obtain ⟨init, record, ms, l1, l2, l3⟩ := hx.last
  have hlen : fl.length = x.flight.length := hg.length_eq
  have hne : fl ≠ [] := by
    intro h
    rw [h, l1] at hlen
    simp at hlen
  have hnf : ∀ g ∈ fl.dropLast, ∀ m ∈ g.2, ∀ f, m.2 ≠ .finished f := by
    have key : ∀ (fl : List (Bytes × List (Bytes × ServerHs))) (gs init : List (Bytes × List (Bytes × RawMsg)))
        (last : Bytes × List (Bytes × RawMsg)),
        List.Forall₂ (MatchesRec S) fl gs → gs = init ++ [last] → (∀ g ∈ init, noFinished g.2) →
        ∀ g ∈ fl.dropLast, ∀ m ∈ g.2, ∀ f, m.2 ≠ .finished f := by
      intro fl gs init last hg
      induction hg generalizing init with
      | nil => intro h; simp at h
      | @cons f g fl gs h1 h2 ih =>
        intro hgs hin y hy
        cases init with
        | nil =>
          simp only [List.nil_append, List.cons.injEq] at hgs
          obtain ⟨_, rfl⟩ := hgs
          cases h2
          simp at hy
        | cons i init =>
          simp only [List.cons_append, List.cons.injEq] at hgs
          obtain ⟨rfl, rfl⟩ := hgs
          have hfl : fl ≠ [] := by
            intro h
            have := h2.length_eq
            rw [h] at this
            simp at this
          rw [List.dropLast_cons_of_ne_nil hfl] at hy
          rcases List.mem_cons.1 hy with rfl | hy
          · exact (matches_noFinished S h1.2).2 (hin _ List.mem_cons_self)
          · exact ih init rfl (fun z hz => hin z (List.mem_cons_of_mem _ hz)) y hy
    exact key fl x.flight init _ hg l1 l2
  have hfl : ∀ g ∈ fl, g.1.length ≤ c.rr.buf.length + 5 := by
    have hfits := hx.fits
    clear hm hmb ht hnf hne hlen hr l1
    generalize x.flight = gs at hg hfits
    induction hg with
    | nil => simp
    | @cons f g fl gs h1 h2 ih =>
      intro y hy
      rcases List.mem_cons.1 hy with rfl | hy
      · rw [h1.1]; exact hfits g List.mem_cons_self
      · exact ih (fun z hz => hfits z (List.mem_cons_of_mem _ hz)) y hy
  obtain ⟨-, -, t3, -, t5⟩ := tookAll_wire S ht hm
  simp only [Option.or_none] at t3 t5
  have hcan : ∃ cms t, CanFinish S p c.wb.buffer.length (helloMsg S cfg p ++ x.sh ++ msgBytes (flightMsgs fl)) hd' st' cms t := by
    rcases t5 with ⟨hno, _⟩ | ⟨a, fm, vd, b, u1, u2, u3⟩
    · exfalso
      apply l3
      intro m hmem
      exact hno m (by rw [l1]; simp only [List.flatMap_append, List.mem_append]; right; simpa using hmem)
    · rcases u3 with ⟨_, rfl, k3⟩ | ⟨k1, rfl⟩
      · exact ⟨[], _, .plain _ k3⟩
      · have hans := hx.answer a fm vd b u1 u2 k1
        cases hlr : lastRequest x.msgs with
        | none =>
          exfalso
          have h1 : lastRequest x.msgs = _ := congrArg lastRequest u1
          rw [hlr, lastRequest_append] at h1
          have h2 := Option.or_eq_none_iff.1 h1.symm
          exact k1 h2.2
        | some ctx =>
          rw [hlr] at hans
          obtain ⟨cms, hcms⟩ := Option.ne_none_iff_exists'.1 hans
          obtain ⟨mm, xs, hmem⟩ := lastRequest_mem hlr
          have hctx : ctx.length ≤ 256 := (hx.msgs _ hmem).2.2.2
          have hfit := hfm _ ctx cms hctx hcms
          have hcr : hd'.certReq = some ctx := by rw [t3]; exact hlr
          refine ⟨cms, helloMsg S cfg p ++ x.sh ++ msgBytes (flightMsgs fl), ?_⟩
          have hsg : ∀ t, clientSignedContent S t = clientSigned S t := by
            intro t; simp [clientSignedContent, clientSigned]
          simp only [clientReply] at hcms
          cases hcc : p.clientCert with
          | none =>
            rw [hcc] at hcms
            simp only [Option.some.injEq] at hcms
            subst hcms
            exact .noCert ctx hcr hcc (hfit _ List.mem_cons_self)
          | some e =>
            cases e with
            | rawPublicKey k => rw [hcc] at hcms; simp at hcms
            | x509 cert =>
              rw [hcc] at hcms
              simp only at hcms
              cases hps : p.signer with
              | err e => rw [hps] at hcms; simp at hcms
              | panic => rw [hps] at hcms; simp at hcms
              | ok ss =>
                obtain ⟨sign, scheme⟩ := ss
                rw [hps] at hcms
                simp only [Option.map_eq_some_iff] at hcms
                obtain ⟨sig, hsg1, rfl⟩ := hcms
                have h1 := hfit _ List.mem_cons_self
                have h2 := hfit _ (List.mem_cons_of_mem _ List.mem_cons_self)
                rw [← hsg] at hsg1
                exact .cert ctx cert sign scheme sig hcr hcc hps h1 (by rw [hmb]; exact hsg1)
                  (hsig sign scheme hps _ _ hsg1) h2
  obtain ⟨cms, t, hcan⟩ := hcan
  obtain ⟨c', o1, o2, _⟩ := open_fwd S hS cfg p v hf hclean hrel hhost hfh hff
    (header_fwd 22 x.version.1 x.version.2 _ hx.shLength (ct := .handshake) (by decide)) rfl rfl hpa hdh hx.shFits
    hr ht hne hnf hfl (by rw [hlen]; exact hcnt) hcan (rest := rest) (by
      rw [hb, matchesRec_bytes S hg, ← List.append_assoc]
      rfl)
  exact ⟨c', o1, o2⟩

theorem carry_length {key iv : Bytes} {seq : Nat} {gs : List (Bytes × List (Bytes × RawMsg))}
    (h : RecordsCarry S key iv seq gs) : gs.length ≤ (gs.flatMap Prod.fst).length := by
  induction h with
  | nil => simp
  | cons seq n record ms rest hc _ ih =>
    have key : ∀ l, Carries S key iv seq record l n → 1 ≤ record.length := by
      intro l h
      cases h <;> simp [plaintextRecord]
    have := key _ hc
    simp only [List.flatMap_cons, List.length_append, List.length_cons] at ih ⊢
    omega

/-- `set_hostname` has no objection (with no verifier or no server name it is not called). -/
def HostAccepted (cfg : Config) (p : Provider V) (v : V) : Prop :=
  ∀ ops name, p.verifier = some ops → cfg.serverName = some name → ∃ v', ops.setHostname name v = (.ok (), v')

/-- **C72** Over a transport that neither fails to deliver nor to send, whatever the pieces in which bytes arrive, with
room for its own messages and with a signer whose signatures are not too long, `open` on a fresh connection returns `Ok`
if and only if the verifier accepts the configured host name and the bytes to be received begin with an acceptable
flight.  Nothing else about the input matters, and nothing else is accepted. -/
theorem C72_accepted_inputs (hS : S.Lawful) (cfg : Config) (p : Provider V) (v : V) {c : Conn} (hf : c.Fresh S)
    (hclean : c.rx.Clean) (hrel : Reliable c.tx) (hlen : c.rx.bytes.length < 2 ^ 64)
    (hsig : ∀ sign scheme, p.signer = .ok (sign, scheme) → ∀ m sig, sign m = some sig → sig.length ≤ signatureSize S)
    (hfh : 5 + helloLength S cfg p ≤ c.wb.buffer.length) (hff : S.hashLen + 26 ≤ c.wb.buffer.length)
    (hfm : ∀ tr ctx ms, ctx.length ≤ 256 → clientReply S p tr (some ctx) = some ms →
      ∀ m ∈ ms, m.length + 22 ≤ c.wb.buffer.length) :
    (Conn.open_ S cfg p v c).1 = .ok () ↔
      HostAccepted cfg p v ∧ ∃ x rest, Acceptable S cfg p v c.rr.buf.length x ∧ c.rx.bytes = x.bytes ++ rest := by
  constructor
  · intro h
    rcases ho : Conn.open_ S cfg p v c with ⟨r, c'⟩
    rw [ho] at h
    simp only at h
    subst h
    refine ⟨?_, ?_⟩
    · intro ops name h1 h2
      unfold Conn.open_ at ho
      rcases hos : openSt S cfg p ⟨c, ⟨none, none, none, v⟩⟩ with ⟨r, s'⟩
      rw [hos] at ho
      simp only [Prod.mk.injEq] at ho
      obtain ⟨rfl, _⟩ := ho
      unfold openSt at hos
      obtain ⟨_, s0, h0, _⟩ := M.bind_inv hos
      unfold setHostname at h0
      simp only [h1, h2, Prod.mk.injEq] at h0
      exact ⟨(ops.setHostname name v).2, by rw [← h0.1]⟩
    · obtain ⟨x, h1, h2⟩ := open_acceptable S hS cfg p v hf ho
      exact ⟨x, _, h1, h2⟩
  · rintro ⟨hhost, x, rest, hx, hb⟩
    have h1 := carry_length S hx.records
    have h2 : x.flight.length < 2 ^ 64 := by
      rw [hb] at hlen
      simp only [ServerInput.bytes, List.length_append] at hlen
      omega
    obtain ⟨c', h3, _⟩ := acceptable_open S hS cfg p v hf hclean hrel hhost hsig hfh hff hfm hx h2 hb
    rw [h3]

/-! ## Examples -/

/-- The hypotheses of `C72_accepted_inputs` about the client, for a client with buffers of 400 bytes. -/
theorem exAccept (bs : Bytes) (hne : bs ≠ []) (hlen : bs.length < 2 ^ 64) :
    (Conn.open_ toySuite exCfg exProv () (exNew 400 [.data bs])).1 = .ok () ↔
      HostAccepted exCfg exProv () ∧ ∃ x rest, Acceptable toySuite exCfg exProv () 400 x ∧ bs = x.bytes ++ rest := by
  have hrx : (exNew 400 [.data bs]).rx = [.data bs] := rfl
  have hbytes : (exNew 400 [.data bs]).rx.bytes = bs := by rw [hrx]; exact List.append_nil _
  have hw : (exNew 400 [.data bs]).wb.buffer.length = 400 := List.length_replicate
  have hr : (exNew 400 [.data bs]).rr.buf.length = 400 := List.length_replicate
  have := C72_accepted_inputs toySuite toySuite_lawful exCfg exProv () (c := exNew 400 [.data bs])
    (exNew_fresh _ _ (by decide))
    (by
      intro e he
      rw [hrx, List.mem_singleton] at he
      exact ⟨bs, hne, he⟩)
    (by intro a ha; cases ha) (by rw [hbytes]; exact hlen) (by intro sign scheme h; cases h)
    (by rw [hw]; exact (by decide +kernel : 5 + helloLength toySuite exCfg exProv ≤ 400))
    (by rw [hw]; exact (by decide : toySuite.hashLen + 26 ≤ 400))
    (by
      intro tr ctx ms hc hr m hm
      simp only [clientReply, exProv, Option.some.injEq] at hr
      subst hr
      rw [List.mem_singleton] at hm
      subst hm
      rw [hw]
      simp only [certificateMsg, handshake, vec8, vec24, u24, List.flatMap_nil, List.length_append, List.length_cons,
        List.length_nil]
      omega)
  rw [hbytes, hr] at this
  exact this

/-- The input with ServerHello, EncryptedExtensions and Finished is acceptable. -/
example : ∃ x rest, Acceptable toySuite exCfg exProv () 400 x ∧ exServer exCfg exSH exMin = x.bytes ++ rest :=
  ((exAccept _ (by decide +kernel) (by decide +kernel)).1 exMin_ok).2

set_option maxRecDepth 10000 in
/-- The same with EncryptedExtensions split over two records is not. -/
example : ¬ ∃ x rest, Acceptable toySuite exCfg exProv () 400 x ∧ exSplit = x.bytes ++ rest := by
  intro h
  have h1 := (exAccept exSplit (by decide +kernel) (by decide +kernel)).2 ⟨(by intro ops name h; cases h), h⟩
  have h2 : (Conn.open_ toySuite exCfg exProv () (exNew 400 [.data exSplit])).1 = .err .invalidExtensionsLength := by
    decide +kernel
  rw [h1] at h2
  cases h2

end ETls
