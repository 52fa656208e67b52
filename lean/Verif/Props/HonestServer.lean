import Verif.Proofs.ServerFlight
import Verif.Proofs.ExServer
import Verif.Props.Honest

/-! # C46: the handshake with a conforming server succeeds -/

namespace ETls

variable (S : Suite) {V : Type}
open Spec

/-- The client's answer to a CertificateRequest with the given context (`none`: there was no request), given all
messages before it; `none` if the client has no answer. -/
def clientReply (p : Provider V) (tr1 : Bytes) : Option Bytes → Option (List Bytes)
  | none => some []
  | some ctx =>
    match p.clientCert with
    | none => some [certificateMsg ctx []]
    | some (.x509 cert) =>
      match p.signer with
      | .ok (sign, scheme) =>
        (sign (clientSigned S (tr1 ++ certificateMsg ctx [cert]))).map fun sig =>
          [certificateMsg ctx [cert], certificateVerifyMsg scheme.code sig]
      | _ => none
    | some (.rawPublicKey _) => none

/-- The decoder accepts the message (C55 says what that takes). -/
def Accepted (r : RawMsg) : Prop := ∃ h, ServerHs.parse S (PB.new r.bytes) = (.ok h, ⟨r.bytes, r.bytes.length⟩)

/-- A message together with its bytes. -/
def withBytes (ms : List RawMsg) : List (Bytes × RawMsg) := ms.map fun r => (r.bytes, r)

theorem withBytes_bytes (ms : List RawMsg) : Session.bytesOf (withBytes ms) = ms.flatMap RawMsg.bytes := by
  simp [Session.bytesOf, withBytes, List.flatMap_map]

theorem Accepted.decoded {r : RawMsg} (h : Accepted S r) (hw : r.WellSized S.hashLen) (hb : r.body.length < 16777216) :
    ∃ h, decoded r = .ok h := by
  obtain ⟨a, ha⟩ := h
  have h1 := (serverHsParse_reads S r hw hb [] []).1
  simp only [List.nil_append, List.append_nil, List.length_nil] at h1
  rw [show (⟨r.bytes, 0⟩ : PB) = PB.new r.bytes from rfl, ha] at h1
  exact ⟨a, h1.symm⟩

/-- The state and the handshake data after the Finished of a server whose last CertificateRequest has the given context. -/
def afterFlight (t : Bytes) (v : V) : Option Bytes → HsData V × State
  | none => (⟨some t, none, none, v⟩, .clientFinished)
  | some ctx => (⟨none, none, some ctx, v⟩, .clientCert)

/-- `open` with a conforming server reaches the end of the server's flight. -/
theorem honest_flight (hS : S.Lawful) (cfg : Config) (p : Provider V) (v : V) {c : Conn} (hf : c.Fresh S)
    (hclean : c.rx.Clean) (hrel : Reliable c.tx) (x : ServerFlight)
    (hx : x.Conforming S (cfg.psk.map (·.1)) (helloMsg S cfg p) p.secret)
    (hacc : ∀ r ∈ x.sh :: x.msgs, Accepted S r)
    (hver : ∀ ops, p.verifier = some ops → ∃ v',
      verifierRun ops (x.tr0 (helloMsg S cfg p)) (withBytes x.msgs) (hostVst cfg p v) = (.ok (), v'))
    (hfh : 5 + helloLength S cfg p ≤ c.wb.buffer.length)
    (hfs : x.sh.bytes.length ≤ c.rr.buf.length) (hfr : ∀ r ∈ x.records, r.size ≤ c.rr.buf.length)
    (hcnt : x.records.length < 2 ^ 64) {rest : Bytes}
    (hb : c.rx.bytes = x.bytes S (cfg.psk.map (·.1)) (helloMsg S cfg p) ++ rest) :
    ∃ (s : HSt V) (st : State) (extra : Nat) (v' : V),
      openLoop S cfg p (c.rx.size + 8) .clientHello ⟨c, ⟨none, none, none, hostVst cfg p v⟩⟩ = openLoop S cfg p (extra + 4) st s ∧
      (s.h, st) = afterFlight (x.transcript S (cfg.psk.map (·.1)) (helloMsg S cfg p)) v' (lastRequest (withBytes x.msgs)) ∧
      s.c.wb.Idle ∧ s.c.wb.buffer.length = c.wb.buffer.length ∧ Reliable s.c.tx ∧
      s.c.tx.log = c.tx.log ++ [.wrote (plaintextRecord 22 [3, 1] (helloMsg S cfg p)), .flushed] ∧
      s.c.ks.client.st = trafficState S (clientHandshakeTraffic S (cfg.psk.map (·.1)) x.dhe (x.tr0 (helloMsg S cfg p))) ∧
      s.c.ks.shared.secret = Spec.deriveSecret S (handshakeSecret S (cfg.psk.map (·.1)) x.dhe) "derived" [] ∧
      s.c.ks.server.transcript = x.transcript S (cfg.psk.map (·.1)) (helloMsg S cfg p) ∧
      s.c.rx.bytes = rest ∧ s.c.rx.Clean ∧ s.c.rr.Inv ∧ s.c.rr.pending = 0 ∧ s.c.rr.buf.length = c.rr.buf.length ∧
      s.c.dec = c.dec ∧ s.c.fp = c.fp := by
  have hiv : (trafficState S (x.secret S (cfg.psk.map (·.1)) (helloMsg S cfg p))).iv.length = S.ivLen :=
    trafficState_iv S hS _
  -- the decoder on each message
  have hshb : x.sh.body.length < 16777216 := by
    have := hx.serverHello.2
    simp [RawMsg.bytes] at this
    omega
  obtain ⟨hsh, hshd⟩ := (hacc x.sh List.mem_cons_self).decoded S hx.serverHello.1 hshb
  obtain ⟨exts, rfl, hdh⟩ := share_fwd S hx.share hshd hx.dhe
  obtain ⟨hpa, _⟩ := ParsedAs.of_decoded S hx.serverHello.1 ⟨_, hshb, rfl⟩ hshd
  generalize hfin : x.finished S (cfg.psk.map (·.1)) (helloMsg S cfg p) = fin at *
  have hfinv : fin = .finished (verifyData S (x.secret S (cfg.psk.map (·.1)) (helloMsg S cfg p))
      (x.tr0 (helloMsg S cfg p) ++ x.msgs.flatMap RawMsg.bytes)) := hfin.symm
  have hvl : (verifyData S (x.secret S (cfg.psk.map (·.1)) (helloMsg S cfg p))
      (x.tr0 (helloMsg S cfg p) ++ x.msgs.flatMap RawMsg.bytes)).length = S.hashLen := hS.hmac_length _ _
  let dec : RawMsg → ServerHs := fun r => match decoded r with | .ok h => h | _ => .encryptedExtensions
  have hdecm : ∀ r ∈ x.msgs, decoded r = .ok (dec r) := by
    intro r hr
    obtain ⟨w1, w2, _⟩ := hx.msgs r hr
    obtain ⟨h, hh⟩ := (hacc r (List.mem_cons_of_mem _ hr)).decoded S w1 w2
    simp only [dec, hh]
  have hall : ∀ m ∈ x.records.flatMap FlightRecord.msgs,
      m.WellSized S.hashLen ∧ m.body.length < 16777216 ∧ decoded m = .ok (dec m) := by
    rw [hx.records, hfin]
    intro m hm
    rcases List.mem_append.1 hm with hm | hm
    · exact ⟨(hx.msgs m hm).1, (hx.msgs m hm).2.1, hdecm m hm⟩
    · rw [List.mem_singleton] at hm
      subst hm
      rw [hfinv]
      refine ⟨hvl, ?_, rfl⟩
      have := hS.hashLen_le
      simp only [RawMsg.body]
      omega
  obtain ⟨k', hrec⟩ := flightOf_received S hS dec x.records
    (trafficState S (x.secret S (cfg.psk.map (·.1)) (helloMsg S cfg p))) hiv
    (fun r hr => by have := hx.sizes r hr; omega) hall
  generalize hfl : flightOf S dec _ _ _ x.records = fl at hrec
  have hflm : flightMsgs fl = (x.msgs ++ [fin]).map fun m => (m.bytes, dec m) := by
    rw [← hfl, flightOf_msgs, hx.records, hfin]
  have hflb : flightBytes fl = (flightRecords S (writeKey S (x.secret S (cfg.psk.map (·.1)) (helloMsg S cfg p)))
      (writeIv S (x.secret S (cfg.psk.map (·.1)) (helloMsg S cfg p))) 0 x.records).flatten := by
    rw [← hfl, flightOf_bytes]
    rfl
  have hmsgb : msgBytes (flightMsgs fl) = (x.msgs ++ [fin]).flatMap RawMsg.bytes := by
    rw [hflm]
    simp [msgBytes, List.flatMap_map]
  -- the messages before Finished
  have hmat : List.Forall₂ (Matches S) (x.msgs.map fun m => (m.bytes, dec m)) (withBytes x.msgs) := by
    unfold withBytes
    have : ∀ l : List RawMsg, (∀ r ∈ l, r ∈ x.msgs) →
        List.Forall₂ (Matches S) (l.map fun m => (m.bytes, dec m)) (l.map fun r => (r.bytes, r)) := by
      intro l
      induction l with
      | nil => intro _; exact .nil
      | cons r l ih =>
        intro hl
        obtain ⟨w1, w2, _⟩ := hx.msgs r (hl r List.mem_cons_self)
        exact .cons ⟨rfl, w1, ⟨_, w2, rfl⟩, hdecm r (hl r List.mem_cons_self)⟩
          (ih fun r hr => hl r (List.mem_cons_of_mem _ hr))
    exact this _ fun _ h => h
  have hkinds : ∀ m ∈ withBytes x.msgs, expectedKind m.2 := by
    intro m hm
    obtain ⟨r, hr, rfl⟩ := List.mem_map.1 hm
    obtain ⟨w1, _, w3⟩ := hx.msgs r hr
    simp only
    cases r <;> simp [RawMsg.type] at w3 <;> simp only [expectedKind]
    exact Nat.le_of_lt w1.1
  have hnof : noFinished (withBytes x.msgs) := by
    intro m hm vd
    obtain ⟨r, hr, rfl⟩ := List.mem_map.1 hm
    obtain ⟨_, _, w3⟩ := hx.msgs r hr
    simp only
    rintro rfl
    simp [RawMsg.type] at w3
  obtain ⟨v', hv1, hv2⟩ : ∃ v', (∀ ops, p.verifier = some ops →
      verifierRun ops (x.tr0 (helloMsg S cfg p)) (withBytes x.msgs) (hostVst cfg p v) = (.ok (), v')) ∧
      (p.verifier = none → v' = hostVst cfg p v) := by
    cases ho : p.verifier with
    | none => exact ⟨_, by simp, fun _ => rfl⟩
    | some ops =>
      obtain ⟨v', hv'⟩ := hver ops ho
      refine ⟨v', ?_, by simp⟩
      intro ops' ho'
      cases ho'
      exact hv'
  have htook := tookAll_fwd S (p := p) (secret := x.secret S (cfg.psk.map (·.1)) (helloMsg S cfg p)) hmat
    (x.tr0 (helloMsg S cfg p)) ⟨none, none, none, hostVst cfg p v⟩ .serverVerify v' hkinds hnof hv1 hv2
  simp only [Option.or_none] at htook
  have hmb : msgBytes (x.msgs.map fun m => (m.bytes, dec m)) = x.msgs.flatMap RawMsg.bytes := by
    simp [msgBytes, List.flatMap_map]
  have hdecf : dec fin = .finished ⟨verifyData S (x.secret S (cfg.psk.map (·.1)) (helloMsg S cfg p))
      (x.tr0 (helloMsg S cfg p) ++ x.msgs.flatMap RawMsg.bytes), none⟩ := by
    rw [hfinv]
    rfl
  have htr : x.transcript S (cfg.psk.map (·.1)) (helloMsg S cfg p) =
      x.tr0 (helloMsg S cfg p) ++ x.msgs.flatMap RawMsg.bytes ++ fin.bytes := by
    unfold ServerFlight.transcript
    rw [hfin]
    simp
  -- the end of the flight
  obtain ⟨hd', st', hall', hafter⟩ : ∃ hd' st',
      TookAll S p (x.secret S (cfg.psk.map (·.1)) (helloMsg S cfg p)) (x.tr0 (helloMsg S cfg p))
        (⟨none, none, none, hostVst cfg p v⟩, .serverVerify) (flightMsgs fl) (hd', st') ∧
      (hd', st') = afterFlight (x.transcript S (cfg.psk.map (·.1)) (helloMsg S cfg p)) v' (lastRequest (withBytes x.msgs)) := by
    rw [hflm, List.map_append]
    cases hlr : lastRequest (withBytes x.msgs) with
    | none =>
      rw [hlr] at htook
      refine ⟨⟨some (x.tr0 (helloMsg S cfg p) ++ msgBytes (x.msgs.map fun m => (m.bytes, dec m)) ++ fin.bytes), none, none, v'⟩,
        .clientFinished, htook.append S (.cons _ _ _ _ _ _ _ ?_ (.nil _ _)), ?_⟩
      · rw [hdecf]
        exact .finishedNoCert _ _ _ (by rw [hmb]) rfl
      · rw [hmb, htr]
        rfl
    | some ctx =>
      rw [hlr] at htook
      refine ⟨⟨none, none, some ctx, v'⟩, .clientCert, htook.append S (.cons _ _ _ _ _ _ _ ?_ (.nil _ _)), rfl⟩
      rw [hdecf]
      exact .finished _ _ _ (by rw [hmb]) rfl
  -- the records
  obtain ⟨pre, lms, pad, hl1, hl2⟩ := hx.last
  have hrl : x.records.length = fl.length := by rw [← hfl, flightOf_length]
  have hne : fl ≠ [] := by
    intro h
    rw [h, hl1] at hrl
    simp at hrl
  have hnf : ∀ g ∈ fl.dropLast, ∀ m ∈ g.2, ∀ f, m.2 ≠ .finished f := by
    obtain ⟨seq', hsp⟩ := flightOf_append S dec (trafficState S (x.secret S (cfg.psk.map (·.1)) (helloMsg S cfg p))).key
      (trafficState S (x.secret S (cfg.psk.map (·.1)) (helloMsg S cfg p))).iv [.messages lms pad] pre
      (trafficState S (x.secret S (cfg.psk.map (·.1)) (helloMsg S cfg p))).counter
    rw [← hl1, hfl] at hsp
    rw [hsp]
    simp only [flightOf, List.dropLast_concat]
    intro g hg m hm f hmf
    have hmem : m ∈ flightMsgs (flightOf S dec (trafficState S (x.secret S (cfg.psk.map (·.1)) (helloMsg S cfg p))).key
      (trafficState S (x.secret S (cfg.psk.map (·.1)) (helloMsg S cfg p))).iv
      (trafficState S (x.secret S (cfg.psk.map (·.1)) (helloMsg S cfg p))).counter pre) := by
      simp only [flightMsgs, List.mem_flatMap]
      exact ⟨g, hg, hm⟩
    rw [flightOf_msgs] at hmem
    obtain ⟨r, hr, rfl⟩ := List.mem_map.1 hmem
    have hrec' := hx.records
    rw [hl1, List.flatMap_append, hfin] at hrec'
    obtain ⟨l', y, hly⟩ : ∃ l' y, lms = l' ++ [y] := ⟨lms.dropLast, lms.getLast hl2, (List.dropLast_append_getLast hl2).symm⟩
    simp only [List.flatMap_cons, List.flatMap_nil, FlightRecord.msgs, List.append_nil, hly, ← List.append_assoc] at hrec'
    have hpre := (List.append_inj' hrec' rfl).1
    have hrx : r ∈ x.msgs := by rw [← hpre]; exact List.mem_append_left _ hr
    have hdr := hdecm r hrx
    obtain ⟨_, _, w3⟩ := hx.msgs r hrx
    simp only at hmf
    rw [hmf] at hdr
    rw [decoded_finished hdr] at w3
    simp [RawMsg.type] at w3
  -- the ServerHello record
  have hhdr : RecordHeader.decode ([22, 3, 3] ++ u16 x.sh.bytes.length) =
      .ok ⟨.handshake, x.sh.bytes.length, [22, 3, 3] ++ u16 x.sh.bytes.length⟩ := by
    have hl := hx.serverHello.2
    have h1 : (x.sh.bytes.length / 256) % 256 * 256 + x.sh.bytes.length % 256 = x.sh.bytes.length := by omega
    simp only [u16, List.cons_append, List.nil_append, RecordHeader.decode]
    have : ContentType.of (22 : UInt8).toNat = some .handshake := by decide
    simp only [this, UInt8.toNat_ofNat']
    rw [show (2 : Nat) ^ 8 = 256 from rfl, h1]
  have htreq : helloMsg S cfg p ++ x.sh.bytes ++ msgBytes (flightMsgs fl) =
      x.transcript S (cfg.psk.map (·.1)) (helloMsg S cfg p) := by
    rw [hmsgb]
    unfold ServerFlight.transcript
    rw [hfin]
    rfl
  obtain ⟨s, extra, a1, a2, a3, a4, a5, a6, a7, a8, a9, a10, a11, a12, a13, a14, a15, a16⟩ := open_flight_fwd S hS cfg p v hf hclean hrel hfh
    (hdr := [22, 3, 3] ++ u16 x.sh.bytes.length) (m := x.sh.bytes) (junk := []) (rest := rest) hhdr rfl (by simp) hpa hdh
    (by simpa using hfs) (fl := fl) hrec hall' hne hnf
    (by rw [← hfl]; exact flightOf_sizes S hS dec _ _ _ _ _ hfr)
    (by rw [← hrl]; exact hcnt)
    (by rw [hb, hflb]; simp [ServerFlight.bytes, plaintextRecord])
  exact ⟨s, st', extra, v', a1, by rw [a2]; exact hafter, a3, a4, a5, a6, a7, a8, by rw [a9, htreq], a10, a11, a12, a13, a14, a15, a16⟩

/-- C46 below, with what it asks of signatures asked only if the server wants one. -/
theorem honest_server_opens (hS : S.Lawful) (cfg : Config) (p : Provider V) (v : V) {c : Conn} (hf : c.Fresh S)
    (hclean : c.rx.Clean) (hrel : Reliable c.tx) (x : ServerFlight)
    (hx : x.Conforming S (cfg.psk.map (·.1)) (helloMsg S cfg p) p.secret)
    (hacc : ∀ r ∈ x.sh :: x.msgs, Accepted S r)
    (hhost : ∀ ops name, p.verifier = some ops → cfg.serverName = some name → ∃ v', ops.setHostname name v = (.ok (), v'))
    (hver : ∀ ops, p.verifier = some ops → ∃ v',
      verifierRun ops (x.tr0 (helloMsg S cfg p)) (withBytes x.msgs) (hostVst cfg p v) = (.ok (), v'))
    {ms : List Bytes} (hms : clientReply S p (x.transcript S (cfg.psk.map (·.1)) (helloMsg S cfg p))
      (lastRequest (withBytes x.msgs)) = some ms)
    (hsig : lastRequest (withBytes x.msgs) ≠ none → p.clientCert ≠ none → ∀ sign scheme, p.signer = .ok (sign, scheme) →
      ∀ m sig, sign m = some sig → sig.length ≤ signatureSize S)
    (hfh : 5 + helloLength S cfg p ≤ c.wb.buffer.length) (hff : S.hashLen + 26 ≤ c.wb.buffer.length)
    (hfm : ∀ m ∈ ms, m.length + 22 ≤ c.wb.buffer.length)
    (hfs : x.sh.bytes.length ≤ c.rr.buf.length) (hfr : ∀ r ∈ x.records, r.size ≤ c.rr.buf.length)
    (hcnt : x.records.length < 2 ^ 64) {rest : Bytes}
    (hb : c.rx.bytes = x.bytes S (cfg.psk.map (·.1)) (helloMsg S cfg p) ++ rest) :
    ∃ c', Conn.open_ S cfg p v c = (.ok (), c') ∧ c'.opened = true ∧ c'.rx.bytes = rest ∧ c'.rx.Clean ∧
      c'.ks.client.st = trafficState S (clientApplicationTraffic S (cfg.psk.map (·.1)) x.dhe
        (x.transcript S (cfg.psk.map (·.1)) (helloMsg S cfg p))) ∧
      c'.ks.server.st = trafficState S (serverApplicationTraffic S (cfg.psk.map (·.1)) x.dhe
        (x.transcript S (cfg.psk.map (·.1)) (helloMsg S cfg p))) ∧
      (∃ secret, secret = clientHandshakeTraffic S (cfg.psk.map (·.1)) x.dhe (x.tr0 (helloMsg S cfg p)) ∧
        c'.tx.log = c.tx.log ++ sentRecords (plaintextRecord 22 [3, 1] (helloMsg S cfg p) ::
          handshakeRecords S (writeKey S secret) (writeIv S secret) 0 (ms ++ [finishedMsg (verifyData S secret
            (x.transcript S (cfg.psk.map (·.1)) (helloMsg S cfg p) ++ ms.flatten))]))) ∧
      Reliable c'.tx ∧ c'.wb.Idle ∧ c'.wb.buffer.length = c.wb.buffer.length ∧
      c'.rr.Inv ∧ c'.rr.pending = 0 ∧ c'.rr.buf.length = c.rr.buf.length ∧ c'.dec = c.dec ∧ c'.fp = c.fp := by
  obtain ⟨s, st, extra, v', a1, a2, a3, a4, a5, a6, a7, a8, a9, a10, a11, a12, a13, a14, a15, a16⟩ := honest_flight S hS cfg p v hf hclean hrel x hx
    hacc hver hfh hfs hfr hcnt hb
  have hsg : ∀ t, clientSignedContent S t = clientSigned S t := by
    intro t; simp [clientSignedContent, clientSigned]
  have hcan : CanFinish S p c.wb.buffer.length (x.transcript S (cfg.psk.map (·.1)) (helloMsg S cfg p)) s.h st ms
      (x.transcript S (cfg.psk.map (·.1)) (helloMsg S cfg p)) := by
    cases hlr : lastRequest (withBytes x.msgs) with
    | none =>
      rw [hlr] at hms a2
      simp only [clientReply, Option.some.injEq] at hms
      subst hms
      simp only [afterFlight, Prod.mk.injEq] at a2
      rw [a2.2]
      exact .plain _ (by rw [a2.1])
    | some ctx =>
      rw [hlr] at hms a2
      simp only [afterFlight, Prod.mk.injEq] at a2
      rw [a2.2]
      simp only [clientReply] at hms
      cases hcc : p.clientCert with
      | none =>
        rw [hcc] at hms
        simp only [Option.some.injEq] at hms
        subst hms
        exact .noCert ctx (by rw [a2.1]) hcc (hfm _ List.mem_cons_self)
      | some e =>
        cases e with
        | rawPublicKey k => rw [hcc] at hms; simp at hms
        | x509 cert =>
          rw [hcc] at hms
          simp only at hms
          cases hps : p.signer with
          | err e => rw [hps] at hms; simp at hms
          | panic => rw [hps] at hms; simp at hms
          | ok ss =>
            obtain ⟨sign, scheme⟩ := ss
            rw [hps] at hms
            simp only [Option.map_eq_some_iff] at hms
            obtain ⟨sig, hsg1, rfl⟩ := hms
            have h1 := hfm _ List.mem_cons_self
            have h2 := hfm _ (List.mem_cons_of_mem _ List.mem_cons_self)
            rw [← hsg] at hsg1
            exact .cert ctx cert sign scheme sig (by rw [a2.1]) hcc hps h1 hsg1 (hsig (by rw [hlr]; simp) (by rw [hcc]; simp) sign scheme hps _ _ hsg1) h2
  obtain ⟨s9, f1, f2, f3, f4, f5, f6, f7, f8, f9, f10, f11, f12⟩ := finish_fwd S hS cfg p s (cfg.psk.map (·.1)) x.dhe
    (clientHandshakeTraffic S (cfg.psk.map (·.1)) x.dhe (x.tr0 (helloMsg S cfg p)))
    (x.transcript S (cfg.psk.map (·.1)) (helloMsg S cfg p)) extra
    a3 (by rw [a4]; exact hf.room) a5 a7 a8 (by rw [a4, a9]; exact hcan) (by rw [a4]; exact hff)
  refine ⟨{ s9.c with opened := true }, open_of_loop S cfg p v hhost (a1.trans f1), rfl, ?_, ?_, f11, ?_, ⟨_, rfl, ?_⟩, f4, f2, ?_, ?_, ?_,
    ?_, ?_, ?_⟩
  · simp only [f6]; exact a10
  · simp only [f6]; exact a11
  · simp only [f12]
  · simp only [f5, a6, a9]
    rw [sentMsgs_records, List.append_assoc]
    rfl
  · simp only [f3]; exact a4
  · simp only [f7]; exact a12
  · simp only [f7]; exact a13
  · simp only [f7]; exact a14
  · simp only [f8]; exact a15
  · simp only [f9]; exact a16

/-- **C46, the part that holds** For every flight of a conforming server — ServerHello in a record of its own, then
EncryptedExtensions, CertificateRequest, Certificate and CertificateVerify messages (in any number and order) and
Finished, distributed over records in any way that keeps messages whole, with any padding and any change_cipher_spec
records — over any chunking: if the decoder accepts the messages, the verifier accepts the host name, certificate and
signature, the client has an answer to a certificate request, and all records and messages fit the buffers, then `open`
returns `Ok`, consumes exactly the flight, has sent ClientHello, the answer and Finished, and holds the application keys
that RFC 8446 derives from the transcript, which are the server's.
Missing: a server may also split messages over several records (section 5.1) and send extension payloads the decoder
does not know; both are refused (`C46_refuted_fragmented`, `C46_refuted_groups`). -/
theorem C46_honest_server_partial (hS : S.Lawful) (cfg : Config) (p : Provider V) (v : V) {c : Conn} (hf : c.Fresh S)
    (hclean : c.rx.Clean) (hrel : Reliable c.tx) (x : ServerFlight)
    (hx : x.Conforming S (cfg.psk.map (·.1)) (helloMsg S cfg p) p.secret)
    (hacc : ∀ r ∈ x.sh :: x.msgs, Accepted S r)
    (hhost : ∀ ops name, p.verifier = some ops → cfg.serverName = some name → ∃ v', ops.setHostname name v = (.ok (), v'))
    (hver : ∀ ops, p.verifier = some ops → ∃ v',
      verifierRun ops (x.tr0 (helloMsg S cfg p)) (withBytes x.msgs) (hostVst cfg p v) = (.ok (), v'))
    {ms : List Bytes} (hms : clientReply S p (x.transcript S (cfg.psk.map (·.1)) (helloMsg S cfg p))
      (lastRequest (withBytes x.msgs)) = some ms)
    (hsig : ∀ sign scheme, p.signer = .ok (sign, scheme) → ∀ m sig, sign m = some sig → sig.length ≤ signatureSize S)
    (hfh : 5 + helloLength S cfg p ≤ c.wb.buffer.length) (hff : S.hashLen + 26 ≤ c.wb.buffer.length)
    (hfm : ∀ m ∈ ms, m.length + 22 ≤ c.wb.buffer.length)
    (hfs : x.sh.bytes.length ≤ c.rr.buf.length) (hfr : ∀ r ∈ x.records, r.size ≤ c.rr.buf.length)
    (hcnt : x.records.length < 2 ^ 64) {rest : Bytes}
    (hb : c.rx.bytes = x.bytes S (cfg.psk.map (·.1)) (helloMsg S cfg p) ++ rest) :
    ∃ c', Conn.open_ S cfg p v c = (.ok (), c') ∧ c'.opened = true ∧ c'.rx.bytes = rest ∧ c'.rx.Clean ∧
      c'.ks.client.st = trafficState S (clientApplicationTraffic S (cfg.psk.map (·.1)) x.dhe
        (x.transcript S (cfg.psk.map (·.1)) (helloMsg S cfg p))) ∧
      c'.ks.server.st = trafficState S (serverApplicationTraffic S (cfg.psk.map (·.1)) x.dhe
        (x.transcript S (cfg.psk.map (·.1)) (helloMsg S cfg p))) ∧
      (∃ secret, secret = clientHandshakeTraffic S (cfg.psk.map (·.1)) x.dhe (x.tr0 (helloMsg S cfg p)) ∧
        c'.tx.log = c.tx.log ++ sentRecords (plaintextRecord 22 [3, 1] (helloMsg S cfg p) ::
          handshakeRecords S (writeKey S secret) (writeIv S secret) 0 (ms ++ [finishedMsg (verifyData S secret
            (x.transcript S (cfg.psk.map (·.1)) (helloMsg S cfg p) ++ ms.flatten))]))) ∧
      Reliable c'.tx ∧ c'.wb.Idle ∧ c'.wb.buffer.length = c.wb.buffer.length ∧
      c'.rr.Inv ∧ c'.rr.pending = 0 ∧ c'.rr.buf.length = c.rr.buf.length ∧ c'.dec = c.dec ∧ c'.fp = c.fp :=
  honest_server_opens S hS cfg p v hf hclean hrel x hx hacc hhost hver hms (fun _ _ => hsig) hfh hff hfm hfs hfr hcnt hb

/-- **C46, continued** and the connection is then ready for application data in both directions: whatever the server
sends next under its application keys is read as C20 says. -/
theorem C46_then_data (hS : S.Lawful) {c c' : Conn} {psk : Option Bytes} {dhe transcript : Bytes} (fs : List Fragment)
    (ho : c'.opened = true) (hcl : c'.rx.Clean)
    (hk : c'.ks.server.st = trafficState S (serverApplicationTraffic S psk dhe transcript))
    (hi : c'.rr.Inv) (hp : c'.rr.pending = 0) (hd : c'.dec = c.dec) (hd0 : c.dec = ⟨0, 0, 0⟩)
    (hb : c'.rx.bytes = protectAll S (writeKey S (serverApplicationTraffic S psk dhe transcript))
      (writeIv S (serverApplicationTraffic S psk dhe transcript)) 0 fs)
    (hn : fs.length < 2 ^ 64) (hs : ∀ f ∈ fs, Sendable S f)
    (hfit : ∀ f ∈ fs, f.inner.length + 16 ≤ c'.rr.buf.length ∧ f.inner.length + 16 < 65536)
    (sizes : List Nat) (hsz : ∀ n ∈ sizes, n ≠ 0) (henough : (dataOf fs).length ≤ sizes.length) :
    delivered (runReads S (sizes.map .read) c'.rd).1 = dataOf fs := by
  have hst : c'.rd.rks.st = trafficState S (serverApplicationTraffic S psk dhe transcript) := hk
  refine C20_complete S hS fs c'.rd ⟨⟨hi, ?_, ?_⟩, hp, ho, hcl, ?_, ?_, ?_, hs, hfit⟩ ?_ sizes hsz henough
  · simp [Conn.rd, hd, hd0]
  · simp [Conn.rd, hd, hd0]
  · rw [hst]; exact hb
  · rw [hst]; exact trafficState_iv S hS _
  · rw [hst]; simpa [trafficState] using hn
  · simp [RdHalf.unread, Conn.rd, hd, hd0]

/-! ## Examples -/

/-- ServerHello, a change_cipher_spec record, EncryptedExtensions in a padded record, CertificateRequest and Finished in
another. -/
def exFlight : ServerFlight where
  sh := exSH
  share := exShare
  dhe := exDhe
  msgs := [.encryptedExtensions [], .certificateRequest [7, 8] []]
  records :=
    [.changeCipherSpec, .messages [.encryptedExtensions []] 3,
     .messages [.certificateRequest [7, 8] [],
       .finished (verifyData toySuite (serverHandshakeTraffic toySuite none exDhe (helloMsg toySuite exCfg exProv ++ exSH.bytes))
         (helloMsg toySuite exCfg exProv ++ exSH.bytes ++
           [RawMsg.encryptedExtensions [], .certificateRequest [7, 8] []].flatMap RawMsg.bytes))] 0]

set_option maxRecDepth 10000 in
theorem exFlight_conforming : exFlight.Conforming toySuite none (helloMsg toySuite exCfg exProv) exProv.secret where
  serverHello := ⟨⟨by decide, by decide, by decide, ⟨.tlsAes128GcmSha256, by decide⟩, by decide⟩, by decide⟩
  share := ⟨0x0303, List.replicate 32 7, [], 0x1301, 0, [⟨43, [3, 4]⟩], .secp256r1, 23, [], [], rfl, by decide, by decide,
    by decide⟩
  dhe := by decide
  msgs := by
    intro r hr
    simp only [exFlight, List.mem_cons, List.not_mem_nil, or_false] at hr
    rcases hr with rfl | rfl <;> refine ⟨?_, by decide, by decide⟩
    · show ExtsSized []; decide
    · show _ ∧ ExtsSized []; decide
  records := rfl
  last := ⟨[.changeCipherSpec, .messages [.encryptedExtensions []] 3], _, 0, rfl, by simp⟩
  sizes := by
    intro r hr
    simp only [exFlight, List.mem_cons, List.not_mem_nil, or_false] at hr
    rcases hr with rfl | rfl | rfl
    · decide
    · decide
    · simp only [FlightRecord.size, flightFragment, Fragment.inner, List.flatMap_cons, List.flatMap_nil, RawMsg.bytes,
        RawMsg.body, List.length_append, List.length_cons, List.length_nil, List.length_replicate]
      have : ∀ a b, (verifyData toySuite a b).length = 32 := fun a b => toySuite_lawful.hmac_length _ _
      simp only [this]
      decide

set_option maxRecDepth 10000 in
/-- The hypotheses of `C46_honest_server_partial` are met by this flight, delivered in two pieces, on a connection with
buffers of 400 bytes; the client answers the request with an empty Certificate. -/
example : ∃ c', Conn.open_ toySuite exCfg exProv ()
    (exNew 400 [.data ((exFlight.bytes toySuite none (helloMsg toySuite exCfg exProv)).take 50),
      .data ((exFlight.bytes toySuite none (helloMsg toySuite exCfg exProv)).drop 50)]) = (.ok (), c') ∧
    c'.opened = true := by
  obtain ⟨c', h1, h2, _⟩ := C46_honest_server_partial toySuite toySuite_lawful exCfg exProv ()
    (c := exNew 400 [.data ((exFlight.bytes toySuite none (helloMsg toySuite exCfg exProv)).take 50),
      .data ((exFlight.bytes toySuite none (helloMsg toySuite exCfg exProv)).drop 50)])
    (exNew_fresh _ _ (by decide))
    (by
      intro e he
      rcases List.mem_cons.1 he with rfl | he
      · exact ⟨_, by decide +kernel, rfl⟩
      · rw [List.mem_singleton] at he
        exact ⟨_, by decide +kernel, he⟩)
    (by intro a ha; cases ha) exFlight exFlight_conforming
    (by
      intro r hr
      simp only [exFlight, List.mem_cons, List.not_mem_nil, or_false] at hr
      rcases hr with rfl | rfl | rfl
      · exact ⟨_, rfl⟩
      · exact ⟨_, rfl⟩
      · exact ⟨_, rfl⟩)
    (by intro ops name h; cases h) (by intro ops h; cases h) (ms := [certificateMsg [7, 8] []]) rfl
    (by intro sign scheme h; cases h) (by decide +kernel) (by decide +kernel) (by decide +kernel)
    (by decide +kernel) (by decide +kernel) (by decide) (rest := [])
    (by
      show List.take 50 _ ++ (List.drop 50 _ ++ []) = _ ++ []
      rw [List.append_nil, List.append_nil, List.take_append_drop]
      rfl)
  exact ⟨c', h1, h2⟩

/-! ## What is refused -/

/-- The server's secret in the examples below. -/
def exSecret0 : Bytes := exSecret exCfg exSH

/-- Finished after EncryptedExtensions `ee`. -/
def exFin (ee : RawMsg) : RawMsg :=
  .finished (verifyData toySuite exSecret0 (exHelloMsg exCfg ++ exSH.bytes ++ ee.bytes))

/-- A flight whose EncryptedExtensions is split over two records, as section 5.1 allows. -/
def exSplit : Bytes :=
  plaintextRecord 22 [3, 3] exSH.bytes ++
    protectAll toySuite (writeKey toySuite exSecret0) (writeIv toySuite exSecret0) 0
      [⟨22, (RawMsg.encryptedExtensions []).bytes.take 4, 0⟩,
       ⟨22, (RawMsg.encryptedExtensions []).bytes.drop 4 ++ (exFin (.encryptedExtensions [])).bytes, 0⟩]

set_option maxRecDepth 10000 in
/-- **C46, refuted** A conforming server may split a handshake message over several records; `open` then fails. -/
theorem C46_refuted_fragmented : ∃ c : Conn, c.Fresh toySuite ∧ c.rx.bytes = exSplit ∧
    (Conn.open_ toySuite exCfg exProv () c).1 = .err .invalidExtensionsLength :=
  ⟨exNew 400 [.data exSplit], exNew_fresh _ _ (by decide), by simp [exNew, Rx.bytes], by decide +kernel⟩

/-- EncryptedExtensions with supported_groups = [secp256r1, curveSM2 (41, RFC 8998)]. -/
def exEEgroups : RawMsg := .encryptedExtensions [⟨10, [0, 4, 0, 23, 0, 41]⟩]

set_option maxRecDepth 10000 in
/-- **C46, refuted** A conforming server may list in EncryptedExtensions groups that this client does not know; `open`
then fails, although everything else is as it should be. -/
theorem C46_refuted_groups : ∃ c : Conn, c.Fresh toySuite ∧
    c.rx.bytes = exServer exCfg exSH [[.msg exEEgroups, .finished]] ∧
    (Conn.open_ toySuite exCfg exProv () c).1 = .err .decodeError :=
  ⟨exNew 400 [.data (exServer exCfg exSH [[.msg exEEgroups, .finished]])], exNew_fresh _ _ (by decide),
    by simp [exNew, Rx.bytes], by decide +kernel⟩

end ETls
