import Verif.Spec.Textbook
import Verif.Props.Impostor
import Verif.Props.OwnerHears
import Verif.Props.PskHolder

/-! # C127: whole sessions with a server of TLS 1.3 -/

namespace ETls

open Spec Crypto

variable {V : Type}

/-! ## The flight of the server -/

section
variable {S : Suite} (t : Textbook) (hello : Bytes)

/-- Its random has 32 bytes, its Certificate fits a record and has at most 16 certificates, its signature scheme is one of
TLS 1.3, its signatures have the length of ECDSA signatures on P-256 or at least fit where the Certificate fits. -/
structure Spec.Textbook.Sized (t : Textbook) : Prop where
  random : t.random.length = 32
  certificate : t.certificate.bytes.length ≤ 16384
  certs : t.certs.length ≤ 16
  scheme : ∃ s, (s, t.scheme) ∈ signatureSchemes
  sign : ∀ m, (t.sign m).length + 8 ≤ max 80 t.certificate.bytes.length

theorem textbook_hello_length : (t.serverHello S).bytes.length ≤ 97 + t.random.length := by
  have := p256Public_length t.secret
  unfold Textbook.serverHello
  split <;> simp [RawMsg.bytes, RawMsg.body, RawExt.bytes, extVec, this, be16, be24] <;> omega

theorem length_be16 (n : Nat) : (be16 n).length = 2 := rfl
theorem length_be24 (n : Nat) : (be24 n).length = 3 := rfl

theorem textbook_msgs {t : Textbook} {hello : Bytes} (ht : t.Sized) {r : RawMsg} (hr : r ∈ t.msgs S hello) :
    r.bytes.length ≤ max 80 t.certificate.bytes.length ∧ r.WellSized S.hashLen ∧ r.body.length < 16777216 ∧
      (r.type = 8 ∨ r.type = 13 ∨ r.type = 11 ∨ r.type = 15) ∧ r.Readable := by
  have hsub : ∀ r : RawMsg, r.body.length ≤ r.bytes.length := by
    intro r; simp only [RawMsg.bytes, List.length_cons, List.length_append]; omega
  unfold Textbook.msgs Textbook.parameters at hr
  rcases List.mem_append.1 hr with hr | hr
  · rcases List.mem_cons.1 hr with rfl | hr
    · refine ⟨?_, show ExtsSized [] by decide, by decide, .inl rfl, ?_⟩
      · have : Textbook.encryptedExtensions.bytes.length = 6 := by decide
        omega
      · exact ⟨by simp, by simp⟩
    · split at hr
      · rw [List.mem_singleton.1 hr]
        refine ⟨?_, show _ ∧ ExtsSized _ by decide, by decide, .inr (.inl rfl), ?_⟩
        · have : Textbook.certificateRequest.bytes.length = 15 := by decide
          omega
        · constructor
          · intro x hx y hy
            rw [List.mem_singleton.1 hx] at hy ⊢
            have : y = .signatureAlgorithms := known_unique hy (by decide)
            subst this
            exact ⟨by decide, [0x0403], [], by decide, fun n hn => ⟨.ecdsaSecp256r1Sha256, by rw [List.mem_singleton.1 hn]; decide⟩, by decide⟩
          · decide
      · cases hr
  · split at hr
    · cases hr
    · simp only [List.mem_cons, List.not_mem_nil, or_false] at hr
      rcases hr with rfl | rfl
      · have hc := ht.certificate
        have hb := hsub t.certificate
        refine ⟨by omega, ?_, by omega, .inr (.inr (.inl rfl)), ?_⟩
        · have hfl : ((t.certs.map fun c => (c, ([] : List RawExt))).flatMap certEntryBytes).length ≤ t.certificate.body.length := by
            simp only [Textbook.certificate, RawMsg.body, List.length_cons, List.length_append]
            omega
          refine ⟨by decide, ?_, by omega⟩
          intro e he
          obtain ⟨c, hc', rfl⟩ := List.mem_map.1 he
          refine ⟨?_, show ExtsSized [] by decide⟩
          have : (certEntryBytes (c, ([] : List RawExt))).length ≤
              ((t.certs.map fun c => (c, ([] : List RawExt))).flatMap certEntryBytes).length :=
            (List.sublist_flatten_of_mem (List.mem_map.2 ⟨_, he, rfl⟩)).length_le
          simp only [certEntryBytes, List.length_append] at this
          simp only
          omega
        · refine ⟨by rw [List.length_map]; exact ht.certs, ?_⟩
          intro e he
          obtain ⟨c, -, rfl⟩ := List.mem_map.1 he
          exact ⟨by simp, by simp⟩
      · have hs := ht.sign (serverSignedContent S (t.toCertificate S hello))
        have hc := ht.certificate
        generalize t.certificate.bytes.length = cl at hs hc
        refine ⟨?_, ⟨ht.scheme, by omega⟩, ?_, .inr (.inr (.inr rfl)), ht.scheme⟩
        · simp only [RawMsg.bytes, RawMsg.body, List.length_cons, List.length_append, length_be16, length_be24]
          omega
        · simp only [RawMsg.body, List.length_append, length_be16]
          omega

theorem textbook_finished (hS : S.Lawful) : (t.finished S hello).bytes.length = 4 + S.hashLen := by
  have : ∀ a b, (verifyData S a b).length = S.hashLen := fun a b => hS.hmac_length _ _
  simp [Textbook.finished, RawMsg.bytes, RawMsg.body, this, length_be24]
  omega

/-- Every record of the flight. -/
theorem textbook_record {t : Textbook} {hello : Bytes} (hS : S.Lawful) (ht : t.Sized) {r : FlightRecord}
    (hr : r ∈ (t.flight S hello).records) : r.size ≤ max 97 (t.certificate.bytes.length + 17) := by
  obtain ⟨m, hm, rfl⟩ := List.mem_map.1 hr
  have hlen : m.bytes.length ≤ max 80 t.certificate.bytes.length := by
    rcases List.mem_append.1 hm with hm | hm
    · exact (textbook_msgs ht hm).1
    · rw [List.mem_singleton.1 hm, textbook_finished t hello hS]
      have := hS.hashLen_le
      omega
  simp only [FlightRecord.size, flightFragment, Fragment.inner, List.flatMap_cons, List.flatMap_nil, List.append_nil,
    List.length_append, List.length_cons, List.length_nil, List.replicate_zero]
  omega

theorem textbook_shaped {t : Textbook} (hs : Shipped S) (ht : t.Sized) :
    (t.flight S hello).Shaped S t.psk hello where
  serverHello := by
    have hl := textbook_hello_length (S := S) t
    have hp := p256Public_length t.secret
    refine ⟨⟨by decide, ht.random, by decide, ?_, ?_⟩, ?_⟩
    · obtain ⟨rsa, rfl | rfl⟩ := hs
      · exact ⟨.tlsAes128GcmSha256, show (_, 0x1301) ∈ cipherSuites by decide⟩
      · exact ⟨.tlsAes256GcmSha384, show (_, 0x1302) ∈ cipherSuites by decide⟩
    · split <;> simp [ExtsSized, be16, hp, RawExt.bytes]
    · show (t.serverHello S).bytes.length ≤ _
      rw [ht.random] at hl
      omega
  share := by
    have hp := p256Public_length t.secret
    refine ⟨0x0303, t.random, [], S.codePoint, 0, [⟨43, [3, 4]⟩], .secp256r1, 23, [],
      if t.psk.isSome then [⟨41, [0, 0]⟩] else [], ?_, by decide, ?_, by decide⟩
    · simp [Textbook.flight, Textbook.serverHello]
    · show (p256Public t.secret).length < _
      omega
  msgs := fun r hr => ⟨(textbook_msgs ht hr).2.1, (textbook_msgs ht hr).2.2.1, (textbook_msgs ht hr).2.2.2.1⟩
  records := by
    simp only [Textbook.flight, List.flatMap_map, FlightRecord.msgs, List.flatMap_singleton']
    rfl
  last := ⟨(t.msgs S hello).map fun m => .messages [m] 0, [t.finished S hello], 0, by simp [Textbook.flight], by simp⟩
  sizes := by
    intro r hr
    have := textbook_record (C95_lawful S hs) ht hr
    have := ht.certificate
    omega

theorem textbook_hello_readable (t : Textbook) : (t.serverHello S).Readable := by
  have hp := p256Public_length t.secret
  constructor
  · intro x hx y hy
    have hx : x = ⟨43, [3, 4]⟩ ∨ x = ⟨51, be16 23 ++ (be16 (p256Public t.secret).length ++ p256Public t.secret)⟩ ∨
        x = ⟨41, [0, 0]⟩ := by
      rcases List.mem_cons.1 hx with hx | hx
      · exact .inl hx
      rcases List.mem_cons.1 hx with hx | hx
      · exact .inr (.inl hx)
      · split at hx
        · exact .inr (.inr (List.mem_singleton.1 hx))
        · cases hx
    rcases hx with rfl | rfl | rfl
    · have : y = .supportedVersions := known_unique hy (by decide)
      subst this
      exact ⟨by decide, show 2 ≤ 2 from Nat.le_refl _⟩
    · have : y = .keyShare := known_unique hy (show (ExtensionType.keyShare, 51) ∈ extensionTypes by decide)
      subst this
      exact ⟨by decide, 23, p256Public t.secret, [], ⟨.secp256r1, by decide⟩, by omega, by rw [List.append_nil]⟩
    · have : y = .preSharedKey := known_unique hy (by decide)
      subst this
      exact ⟨by decide, show 2 ≤ 2 from Nat.le_refl _⟩
  · refine (List.length_filter_le _ _).trans ?_
    split <;> simp

theorem textbook_accepted {t : Textbook} (hs : Shipped S) (ht : t.Sized) :
    ∀ r ∈ (t.flight S hello).sh :: (t.flight S hello).msgs, Accepted S r := by
  have hx := textbook_shaped hello hs ht
  intro r hr
  rcases List.mem_cons.1 hr with rfl | hr
  · refine accepted_of_readable hx.serverHello.1 ?_ ?_
    · have := hx.serverHello.2
      simp only [RawMsg.bytes, List.length_cons, List.length_append] at this
      omega
    · exact textbook_hello_readable t
  · obtain ⟨-, h1, h2, -, h3⟩ := textbook_msgs ht hr
    exact accepted_of_readable h1 h2 h3

theorem textbook_request : lastRequest (withBytes (t.msgs S hello)) = if t.request then some [] else none := by
  unfold Textbook.msgs Textbook.parameters
  split <;> split <;> rfl

theorem textbook_transcript : (t.flight S hello).transcript S t.psk hello = t.transcript S hello := by
  simp [ServerFlight.transcript, ServerFlight.tr0, Textbook.transcript, Textbook.beforeFinished, Textbook.flight,
    ServerFlight.finished, ServerFlight.secret, Textbook.finished, Textbook.handshakeSecret]

end

namespace Spec

/-- Client and server have a session: the client has sent its ClientHello and records that the server accepts as the client's
second flight, with the messages `ms` before its Finished.  In whatever sequence of reading and writing calls, the reading calls
fail only where the transport ends, deliver a beginning of what the server sends (`fs`), and all of it if enough is read; and
the server hears what the client writes, with the keys the server has computed itself. -/
structure Session127 (S : Suite) (t : Textbook) (hello : Bytes) (ms : List Bytes) (fs : List Fragment) (log : List OutEv) (c' : Conn) : Prop where
  opened : c'.opened = true
  sent : ∃ second, c'.tx.log = log ++ sentRecords (plaintextRecord 22 [3, 1] hello :: second) ∧ t.Accepts S hello ms second
  reads : ∀ ops : List AnyOp, (∀ r ∈ readerOuts (runAny S ops c').1, (∃ o, r = .ok o) ∨ r = .err .ioError) ∧
    delivered (readerOuts (runAny S ops c').1) <+: dataOf fs ∧
    ∀ sizes : List Nat, readerOps ops = sizes.map .read → (∀ n ∈ sizes, n ≠ 0) → (dataOf fs).length ≤ sizes.length →
      delivered (readerOuts (runAny S ops c').1) = dataOf fs
  writes : HearsApp S (writeKey S (t.clientSecret S hello)) (writeIv S (t.clientSecret S hello)) c'

end Spec

section
variable {S : Suite}

/-- Without panics going on after them makes no difference. -/
theorem runReader_eq : ∀ (ops : List ROp) (h : RdHalf), (∀ r ∈ (runReads S ops h).1, r ≠ .panic) →
    runReader S ops h = runReads S ops h
  | [], _, _ => rfl
  | op :: ops, h, hp => by
    unfold runReader runReads
    unfold runReads at hp
    rcases hr : op.run S h with ⟨_ | _ | _, h1⟩
    all_goals rw [hr] at hp
    · have ih := runReader_eq ops h1 fun r hm => hp r (List.mem_cons_of_mem _ hm)
      simp only [ih]
    · have ih := runReader_eq ops h1 fun r hm => hp r (List.mem_cons_of_mem _ hm)
      simp only [ih]
    · exact absurd rfl (hp .panic List.mem_cons_self)

/-- The beginning of a session: what holds after `open`, `rest` being what the transport still has to deliver. -/
structure Opens127 (S : Suite) (t : Textbook) (hello : Bytes) (ms : List Bytes) (rest : Bytes) (log : List OutEv) (cap : Nat) (c' : Conn) : Prop where
  opened : c'.opened = true
  sent : ∃ second, c'.tx.log = log ++ sentRecords (plaintextRecord 22 [3, 1] hello :: second) ∧ t.Accepts S hello ms second
  writes : HearsApp S (writeKey S (t.clientSecret S hello)) (writeIv S (t.clientSecret S hello)) c'
  good : c'.rd.Good
  pending : c'.rd.rr.pending = 0
  clean : c'.rd.rx.Clean
  bytes : c'.rd.rx.bytes = rest
  keys : c'.rd.rks.st = trafficState S (t.serverSecret S hello)
  clientKeys : c'.ks.client.st = trafficState S (t.clientSecret S hello)
  reliable : Reliable c'.tx
  buffer : c'.rd.rr.buf.length = cap
  unread : c'.rd.unread = []

/-- `open` succeeds, for whatever verifier accepts the flight. -/
theorem textbook_opens (hs : Shipped S) (cfg : Config) (p : Provider V) (v : V) (t : Textbook) (ht : t.Sized)
    (hpsk : t.psk = cfg.psk.map (·.1)) (hfit : HelloFits S cfg p) (ha : scalarOf p.secret ≠ 0) (hb : scalarOf t.secret ≠ 0)
    (hhost : ∀ ops name, p.verifier = some ops → cfg.serverName = some name → ∃ v', ops.setHostname name v = (.ok (), v'))
    (hver : ∀ ops, p.verifier = some ops → ∃ v', verifierRun ops ((t.flight S (helloMsg S cfg p)).tr0 (helloMsg S cfg p))
      (withBytes (t.flight S (helloMsg S cfg p)).msgs) (hostVst cfg p v) = (.ok (), v'))
    {ms : List Bytes} (hms : clientReply S p (t.transcript S (helloMsg S cfg p)) (if t.request then some [] else none) = some ms)
    (hsig : t.request = true → p.clientCert ≠ none → ∀ sign scheme, p.signer = .ok (sign, scheme) → ∀ m sig, sign m = some sig → sig.length ≤ signatureSize S)
    {rx : Rx} {tx : Tx} {rb wb : Bytes} {c : Conn} (hn : Conn.new S rx tx rb wb = .ok c) (hclean : rx.Clean) (hrel : Reliable tx)
    {rest : Bytes} (hrx : rx.bytes = t.answer S (helloMsg S cfg p) ++ rest)
    (hhello : 5 + helloLength S cfg p ≤ wb.length) (hwb : 133 ≤ wb.length) (hwb' : wb.length < 65652) (hrb : 192 ≤ rb.length)
    (hcert : t.certificate.bytes.length + 17 ≤ rb.length) (hreply : ∀ m ∈ ms, m.length + 22 ≤ wb.length ∧ m.length + 17 < 65536) :
    ∃ c', Conn.open_ S cfg p v c = (.ok (), c') ∧ Opens127 S t (helloMsg S cfg p) ms rest tx.log rb.length c' := by
  have hS := C95_lawful S hs
  obtain ⟨f1, f2, f3⟩ := Conn.new_fresh S hn
  have hl : c.wb.buffer.length = wb.length ∧ c.rr.buf.length = rb.length ∧ c.dec = ⟨0, 0, 0⟩ := by
    unfold Conn.new WB.new at hn
    split at hn
    · simp only [Res.map, Res.ok.injEq] at hn
      subst hn
      exact ⟨rfl, rfl, rfl⟩
    · cases hn
  obtain ⟨l1, l2, l3⟩ := hl
  have hle := hS.hashLen_le
  have hsh := textbook_shaped (helloMsg S cfg p) hs ht
  have hx := C98_conforming hs cfg p hfit ha hb (x := t.flight S (helloMsg S cfg p)) (by rw [← hpsk]; exact hsh)
    (dheFrom_agrees hs cfg p hfit t.secret ha hb)
  have hlen := textbook_hello_length (S := S) t
  rw [ht.random] at hlen
  obtain ⟨c', h1, h2, h3, h4, h5, h6, ⟨secret, h7, h8⟩, h9, h10, h11, h12, h13, h14, h15, -⟩ := honest_server_opens S hS cfg p v f1
    (by rw [f2]; exact hclean) (by rw [f3]; exact hrel) (t.flight S (helloMsg S cfg p)) hx (textbook_accepted _ hs ht) hhost hver
    (ms := ms) (by
      rw [show (t.flight S (helloMsg S cfg p)).msgs = t.msgs S (helloMsg S cfg p) from rfl, textbook_request, ← hpsk,
        textbook_transcript]
      exact hms)
    (fun h => hsig (by
      rw [show (t.flight S (helloMsg S cfg p)).msgs = t.msgs S (helloMsg S cfg p) from rfl, textbook_request] at h
      by_contra hc
      rw [if_neg hc] at h
      exact h rfl)) (by rw [l1]; exact hhello) (by rw [l1]; omega) (by rw [l1]; exact fun m hm => (hreply m hm).1)
    (by rw [l2]; show (t.serverHello S).bytes.length ≤ _; omega)
    (fun r hr => by have := textbook_record hS ht hr; rw [l2]; omega)
    (by
      show ((t.msgs S (helloMsg S cfg p) ++ [t.finished S (helloMsg S cfg p)]).map _).length < _
      rw [List.length_map, List.length_append]
      unfold Textbook.msgs Textbook.parameters
      split <;> split <;> simp)
    (rest := rest) (by rw [f2, hrx, ← hpsk]; rfl)
  rw [← hpsk, textbook_transcript] at h5 h6 h8
  rw [← hpsk] at h7
  refine ⟨c', h1, h2, ⟨_, by rw [h8, f3], ?_⟩, ?_, ⟨h12, ?_, ?_⟩, h13, h4, h3, h6, h5, h9, ?_, ?_⟩
  · have he : secret = t.clientHandshakeSecret S (helloMsg S cfg p) := h7
    rw [he]
    unfold Textbook.Accepts
    have hfm : ∀ a b, (verifyData S a b).length = S.hashLen := fun a b => hS.hmac_length _ _
    refine receive_ciphertexts S hS _ _ 0 _ ?_
    intro f hf
    obtain ⟨m, hm, rfl⟩ := List.mem_map.1 hf
    rcases List.mem_append.1 hm with hm | hm
    · exact (hreply m hm).2
    · rw [List.mem_singleton.1 hm]
      simp [finishedMsg, handshake, hfm, vec24, u24]
      omega
  · have := C117_hears hS cfg p hfit.random v hn h1 h9 hwb'
    rw [h5] at this
    exact this
  · simp [Conn.rd, h15, l3]
  · simp [Conn.rd, h15, l3]
  · exact h14.trans l2
  · simp [RdHalf.unread, Conn.rd, h15, l3]

/-- A session, for whatever verifier accepts the flight. -/
theorem textbook_session (hs : Shipped S) (cfg : Config) (p : Provider V) (v : V) (t : Textbook) (ht : t.Sized)
    (hpsk : t.psk = cfg.psk.map (·.1)) (hfit : HelloFits S cfg p) (ha : scalarOf p.secret ≠ 0) (hb : scalarOf t.secret ≠ 0)
    (hhost : ∀ ops name, p.verifier = some ops → cfg.serverName = some name → ∃ v', ops.setHostname name v = (.ok (), v'))
    (hver : ∀ ops, p.verifier = some ops → ∃ v', verifierRun ops ((t.flight S (helloMsg S cfg p)).tr0 (helloMsg S cfg p))
      (withBytes (t.flight S (helloMsg S cfg p)).msgs) (hostVst cfg p v) = (.ok (), v'))
    {ms : List Bytes} (hms : clientReply S p (t.transcript S (helloMsg S cfg p)) (if t.request then some [] else none) = some ms)
    (hsig : t.request = true → p.clientCert ≠ none → ∀ sign scheme, p.signer = .ok (sign, scheme) → ∀ m sig, sign m = some sig → sig.length ≤ signatureSize S)
    {rx : Rx} {tx : Tx} {rb wb : Bytes} {c : Conn} (hn : Conn.new S rx tx rb wb = .ok c) (hclean : rx.Clean) (hrel : Reliable tx)
    (fs : List Fragment) (hfs : ∀ f ∈ fs, Sendable S f) (hcount : fs.length < 2 ^ 64)
    (hrx : rx.bytes = t.answer S (helloMsg S cfg p) ++ t.send S (helloMsg S cfg p) fs)
    (hhello : 5 + helloLength S cfg p ≤ wb.length) (hwb : 133 ≤ wb.length) (hwb' : wb.length < 65652) (hrb : 192 ≤ rb.length)
    (hcert : t.certificate.bytes.length + 17 ≤ rb.length) (hreply : ∀ m ∈ ms, m.length + 22 ≤ wb.length ∧ m.length + 17 < 65536)
    (hfrag : ∀ f ∈ fs, f.inner.length + 16 ≤ rb.length ∧ f.inner.length + 16 < 65536) :
    ∃ c', Conn.open_ S cfg p v c = (.ok (), c') ∧ Session127 S t (helloMsg S cfg p) ms fs tx.log c' := by
  have hS := C95_lawful S hs
  obtain ⟨c', h1, h2⟩ := textbook_opens hs cfg p v t ht hpsk hfit ha hb hhost hver hms hsig hn hclean hrel hrx hhello hwb hwb' hrb hcert
    hreply
  refine ⟨c', h1, h2.opened, h2.sent, ?_, h2.writes⟩
  have hh : Honest S fs c'.rd := by
    refine ⟨h2.good, h2.pending, h2.opened, h2.clean, ?_, ?_, ?_, hfs, fun f hf => ?_⟩
    · rw [h2.keys]; exact h2.bytes
    · rw [h2.keys]; exact trafficState_iv S hS _
    · rw [h2.keys]; simpa [trafficState] using hcount
    · rw [h2.buffer]; exact hfrag f hf
  intro ops
  obtain ⟨k1, ⟨fs', -, k2⟩, -⟩ := C20_honest S hS fs c'.rd hh h2.unread (readerOps ops)
  have he : readerOuts (runAny S ops c').1 = (runReads S (readerOps ops) c'.rd).1 := by
    rw [(C31_reader S ops c').1, runReader_eq]
    intro r hr hp
    rcases k1 r hr with ⟨o, h⟩ | h <;> rw [h] at hp <;> cases hp
  rw [he]
  refine ⟨k1, ⟨_, k2⟩, fun sizes e hz hl => ?_⟩
  rw [e]
  exact C20_complete S hS fs c'.rd hh h2.unread sizes hz hl

/-- A client without certificate. -/
theorem textbook_no_certificate (p : Provider V) {t : Textbook} (hc : t.request = true → p.clientCert = none) (tr : Bytes) :
    clientReply S p tr (if t.request then some [] else none) = some (if t.request then [certificateMsg [] []] else []) ∧
    ∀ m ∈ (if t.request then [certificateMsg [] []] else []), m.length = 8 := by
  cases hr : t.request with
  | false => simp [clientReply]
  | true =>
    rw [hr] at hc
    refine ⟨by simp [clientReply, hc rfl], ?_⟩
    simp [certificateMsg, handshake, vec24, vec8, u24]

/-- **C127, no verifier** A provider without verifier, with or without pre-shared key: with a server of TLS 1.3 that has the same
key, the client opens the connection, the server accepts the client's Finished, and data flow in both directions.  If the server
asks for a certificate, a client that has none says so. -/
theorem C127_psk (hs : Shipped S) (cfg : Config) (p : Provider V) (hv : p.verifier = none) (v : V) (t : Textbook) (ht : t.Sized)
    (hc : t.request = true → p.clientCert = none)
    (hpsk : t.psk = cfg.psk.map (·.1)) (hfit : HelloFits S cfg p) (ha : scalarOf p.secret ≠ 0) (hb : scalarOf t.secret ≠ 0)
    {rx : Rx} {tx : Tx} {rb wb : Bytes} {c : Conn} (hn : Conn.new S rx tx rb wb = .ok c) (hclean : rx.Clean) (hrel : Reliable tx)
    (fs : List Fragment) (hfs : ∀ f ∈ fs, Sendable S f) (hcount : fs.length < 2 ^ 64)
    (hrx : rx.bytes = t.answer S (helloMsg S cfg p) ++ t.send S (helloMsg S cfg p) fs)
    (hhello : 5 + helloLength S cfg p ≤ wb.length) (hwb : 133 ≤ wb.length) (hwb' : wb.length < 65652) (hrb : 192 ≤ rb.length)
    (hcert : t.certificate.bytes.length + 17 ≤ rb.length)
    (hfrag : ∀ f ∈ fs, f.inner.length + 16 ≤ rb.length ∧ f.inner.length + 16 < 65536) :
    ∃ c', Conn.open_ S cfg p v c = (.ok (), c') ∧
      Session127 S t (helloMsg S cfg p) (if t.request then [certificateMsg [] []] else []) fs tx.log c' :=
  textbook_session hs cfg p v t ht hpsk hfit ha hb (fun ops _ h => by rw [hv] at h; cases h) (fun ops h => by rw [hv] at h; cases h)
    (textbook_no_certificate p hc _).1 (fun h h' => absurd (hc h) h') hn hclean hrel fs hfs hcount hrx hhello hwb hwb' hrb hcert
    (fun m hm => by rw [(textbook_no_certificate (S := S) p hc []).2 m hm]; omega) hfrag

/-- **C127, client authentication** A client with `UnsecureProvider`, a certificate and the private key `d`, and a server that asks
for a certificate: the same, and what the client sends before its Finished is its certificate and a CertificateVerify with an
ECDSA signature under that key over what RFC 8446 section 4.4.3 prescribes, for the messages as the server knows them.  (The
deterministic nonces of RFC 6979 fail with negligible probability: `hsign`.) -/
theorem C127_client_auth (hs : Shipped S) (L : PkiLib) (T : DerTags) (cfg : Config) (u : UnsecureProvider) (v : V) (t : Textbook)
    (ht : t.Sized) (hreq : t.request = true) {cert der : Bytes} {d : Nat} (hc : u.clientCert = some (.x509 cert))
    (hder : u.privKey = some der) (hd : sec1Der T der = some d) (hcl : cert.length ≤ 65000)
    (hpsk : t.psk = cfg.psk.map (·.1)) (hfit : HelloFits S cfg (u.provider (V := V) (p256Lib T))) (ha : scalarOf u.secret ≠ 0)
    (hb : scalarOf t.secret ≠ 0)
    (hsign : (ecdsaSign d (clientSigned S (t.transcript S (helloMsg S cfg (u.provider (V := V) (p256Lib T))) ++
      certificateMsg [] [cert]))).isSome)
    {rx : Rx} {tx : Tx} {rb wb : Bytes} {c : Conn} (hn : Conn.new S rx tx rb wb = .ok c) (hclean : rx.Clean) (hrel : Reliable tx)
    (fs : List Fragment) (hfs : ∀ f ∈ fs, Sendable S f) (hcount : fs.length < 2 ^ 64)
    (hrx : rx.bytes = t.answer S (helloMsg S cfg (u.provider (V := V) (p256Lib T))) ++
      t.send S (helloMsg S cfg (u.provider (V := V) (p256Lib T))) fs)
    (hhello : 5 + helloLength S cfg (u.provider (V := V) (p256Lib T)) ≤ wb.length) (hwb : 133 ≤ wb.length)
    (hcw : cert.length + 40 ≤ wb.length) (hwb' : wb.length < 65652) (hrb : 192 ≤ rb.length)
    (hcert : t.certificate.bytes.length + 17 ≤ rb.length)
    (hfrag : ∀ f ∈ fs, f.inner.length + 16 ≤ rb.length ∧ f.inner.length + 16 < 65536) :
    ∃ c' sig, Conn.open_ S cfg (u.provider (p256Lib T)) v c = (.ok (), c') ∧
      ValidSignature (L.concrete T) .ecdsaP256Sha256 (p256Key d) (clientSigned S
        (t.transcript S (helloMsg S cfg (u.provider (V := V) (p256Lib T))) ++ certificateMsg [] [cert])) sig ∧
      Session127 S t (helloMsg S cfg (u.provider (V := V) (p256Lib T)))
        [certificateMsg [] [cert], certificateVerifyMsg 0x0403 sig] fs tx.log c' := by
  obtain ⟨sig, hsig⟩ := Option.isSome_iff_exists.1 hsign
  obtain ⟨k1, k2⟩ := ecdsa_valid L T (sec1Der_secret hd) (ecdsaSign_signed hsig)
  have hsg : (u.provider (V := V) (p256Lib T)).signer = .ok (ecdsaSign d, .ecdsaSecp256r1Sha256) := by
    have hd' : (p256Lib T).fromSec1Der der = some d := hd
    simp only [UnsecureProvider.provider, UnsecureProvider.signer, hder, hd']
    rfl
  have hcc : (u.provider (V := V) (p256Lib T)).clientCert = some (.x509 cert) := hc
  have hlen : ∀ sig : Bytes, sig.length ≤ 72 → ∀ m ∈ [certificateMsg [] [cert], certificateVerifyMsg 0x0403 sig],
      m.length + 22 ≤ wb.length ∧ m.length + 17 < 65536 := by
    intro sig hl m hm
    simp only [List.mem_cons, List.not_mem_nil, or_false] at hm
    rcases hm with rfl | rfl
    · simp [certificateMsg, handshake, vec24, vec8, vec16, u24, u16]
      omega
    · simp [certificateVerifyMsg, handshake, vec24, vec16, u24, u16]
      omega
  obtain ⟨c', h1, h2⟩ := textbook_session hs cfg (u.provider (p256Lib T)) v t ht hpsk hfit ha hb (fun ops _ h => by cases h)
    (fun ops h => by cases h)
    (ms := [certificateMsg [] [cert], certificateVerifyMsg 0x0403 sig])
    (by
      rw [hreq, if_pos rfl]
      simp only [clientReply, hcc, hsg, hsig]
      rfl)
    (by
      intro _ _ sign scheme h m sg hm
      rw [hsg] at h
      injection h with h
      injection h with h _
      subst h
      have := (ecdsa_valid L T (sec1Der_secret hd) (ecdsaSign_signed hm)).2
      unfold signatureSize
      split <;> omega)
    hn hclean hrel fs hfs hcount hrx hhello hwb hwb' hrb hcert (hlen sig k2) hfrag
  exact ⟨c', sig, h1, k1, h2⟩

theorem ecdsaSigned_length {d : Nat} {m sig : Bytes} (h : EcdsaSigned d m sig) : sig.length ≤ 72 := by
  obtain ⟨k, r, s, -, hr, hs, -, -, rfl⟩ := h
  exact (ecdsaSig_bytes ⟨fun _ => true, fun _ _ => rfl⟩ r s hr hs).2

/-- The flight has a Certificate and a CertificateVerify. -/
theorem textbook_auth {chain : List Bytes → Prop} {signed : List Bytes → Nat → Bytes → Bytes → Prop} {N : Nat} (hello : Bytes)
    {t : Textbook} (hne : t.certs ≠ []) (hN : t.certificate.bytes.length ≤ N) (hchain : chain t.certs)
    (hsign : ∀ m, signed t.certs t.scheme m (t.sign m)) : AuthFlight chain signed S N hello (t.flight S hello) := by
  have hmap : (t.certs.map fun c => (c, ([] : List RawExt))).map (·.1) = t.certs := by simp [Function.comp_def]
  refine ⟨t.parameters, [], [], [], t.certs.map fun c => (c, []), t.scheme,
    t.sign (serverSignedContent S (t.toCertificate S hello)), ?_, ?_, ?_, ?_, ?_⟩
  · simp [Textbook.flight, Textbook.msgs, hne, Textbook.certificate]
  · intro m hm
    simp only [List.append_nil] at hm
    unfold Textbook.parameters at hm
    rcases List.mem_cons.1 hm with rfl | hm
    · decide
    · split at hm
      · rw [List.mem_singleton.1 hm]; decide
      · cases hm
  · refine le_trans ?_ hN
    simp only [Textbook.certificate, RawMsg.bytes, RawMsg.body, List.length_cons, List.length_append]
    omega
  · rw [hmap]; exact hchain
  · rw [hmap]; exact hsign _

/-- A session with the native verifier, for whatever algorithms. -/
theorem textbook_native (hs : Shipped S) (L : PkiLib) (F : Features) (now : Option Nat) (N : Nat) (cfg : Config)
    (p : Provider PkiVerifier) (ca : CertEntry) (hv : p.verifier = some (pkiOps L S F now N))
    (hEd : ∀ k, L.keyOk .ed25519 k = true → k.length = 32)
    (host : Bytes) (hname : cfg.serverName = some host) (hlen : host.length ≤ 64)
    (t : Textbook) (hrand : t.random.length = 32) (hc : t.request = true → p.clientCert = none)
    (hchain : ValidChain L F now ca host t.certs)
    (hscheme : ∃ s, (s, t.scheme) ∈ signatureSchemes) (hsign : ∀ m, SignedWith L F t.certs t.scheme m (t.sign m))
    (hsl : ∀ m, (t.sign m).length + 8 ≤ max 80 t.certificate.bytes.length) (hcerts : t.certs.length ≤ 16) (hmsg : t.certificate.bytes.length ≤ 16384) (hN : t.certificate.bytes.length ≤ N)
    (hpsk : t.psk = cfg.psk.map (·.1)) (hfit : HelloFits S cfg p) (ha : scalarOf p.secret ≠ 0) (hb : scalarOf t.secret ≠ 0)
    {rx : Rx} {tx : Tx} {rb wb : Bytes} {c : Conn} (hn : Conn.new S rx tx rb wb = .ok c) (hclean : rx.Clean) (hrel : Reliable tx)
    (fs : List Fragment) (hfs : ∀ f ∈ fs, Sendable S f) (hcount : fs.length < 2 ^ 64)
    (hrx : rx.bytes = t.answer S (helloMsg S cfg p) ++ t.send S (helloMsg S cfg p) fs)
    (hhello : 5 + helloLength S cfg p ≤ wb.length) (hwb : 133 ≤ wb.length) (hwb' : wb.length < 65652) (hrb : 192 ≤ rb.length)
    (hcert : t.certificate.bytes.length + 17 ≤ rb.length)
    (hfrag : ∀ f ∈ fs, f.inner.length + 16 ≤ rb.length ∧ f.inner.length + 16 < 65536) :
    ∃ c', Conn.open_ S cfg p (PkiVerifier.new ca) c = (.ok (), c') ∧
      Session127 S t (helloMsg S cfg p) (if t.request then [certificateMsg [] []] else []) fs tx.log c' := by
  have hS := C95_lawful S hs
  have ht : t.Sized := ⟨hrand, hmsg, hcerts, hscheme, hsl⟩
  have hx := C98_conforming hs cfg p hfit ha hb (x := t.flight S (helloMsg S cfg p))
    (by rw [← hpsk]; exact textbook_shaped (helloMsg S cfg p) hs ht) (dheFrom_agrees hs cfg p hfit t.secret ha hb)
  have hne : t.certs ≠ [] := by
    intro h
    obtain ⟨leaf, rest, _, _, _, _, e, _⟩ := hsign []
    rw [h] at e
    cases e
  have hauth : AuthFlight (ValidChain L F now ca host) (SignedWith L F) S N (helloMsg S cfg p)
      (t.flight S (helloMsg S cfg p)) :=
    textbook_auth _ hne hN hchain hsign
  refine textbook_session hs cfg p _ t ht hpsk hfit ha hb ?_
    (run_authenticated S N cfg p _ _ _ hv hx (textbook_accepted _ hs ht) host hname (pkiSetHostname_fits hlen _) hauth
      (native_accepts S hS now N ca hEd host))
    (textbook_no_certificate p hc _).1 (fun h h' => absurd (hc h) h')
    hn hclean hrel fs hfs hcount hrx hhello hwb hwb' hrb hcert
    (fun m hm => by rw [(textbook_no_certificate (S := S) p hc []).2 m hm]; omega) hfrag
  intro ops name ho hnn
  rw [hv] at ho
  injection ho with ho
  subst ho
  rw [hname] at hnn
  injection hnn with hnn
  subst hnn
  exact ⟨_, pkiSetHostname_fits hlen _⟩

/-- **C127, certificates** A client with the native verifier that asks for a host (of at most 64 bytes), and a server of TLS 1.3
whose certificates are valid for that host and lead to the CA, and that signs with the private key `d` of the first one: the same. -/
theorem C127_certificate (hs : Shipped S) (L : PkiLib) (T : DerTags) (F : Features) (now : Option Nat) (N : Nat) (cfg : Config)
    (p : Provider PkiVerifier) (ca : CertEntry) (hv : p.verifier = some (pkiOps (L.concrete T) S F now N))
    (hEd : ∀ k, (L.concrete T).keyOk .ed25519 k = true → k.length = 32)
    (host : Bytes) (hname : cfg.serverName = some host) (hlen : host.length ≤ 64)
    (t : Textbook) (hrand : t.random.length = 32) (hc : t.request = true → p.clientCert = none)
    (hchain : ValidChain (L.concrete T) F now ca host t.certs)
    {leaf : Bytes} {dc : DecodedCert} {d : Nat} (hleaf : t.certs.head? = some leaf) (hdc : (L.concrete T).fromDer leaf = some dc)
    (hd : IsP256Secret d) (hkey : dc.publicKey = some (p256Key d))
    (hscheme : t.scheme = 0x0403) (hsign : ∀ m, EcdsaSigned d m (t.sign m))
    (hcerts : t.certs.length ≤ 16) (hmsg : t.certificate.bytes.length ≤ 16384) (hN : t.certificate.bytes.length ≤ N)
    (hpsk : t.psk = cfg.psk.map (·.1)) (hfit : HelloFits S cfg p) (ha : scalarOf p.secret ≠ 0) (hb : scalarOf t.secret ≠ 0)
    {rx : Rx} {tx : Tx} {rb wb : Bytes} {c : Conn} (hn : Conn.new S rx tx rb wb = .ok c) (hclean : rx.Clean) (hrel : Reliable tx)
    (fs : List Fragment) (hfs : ∀ f ∈ fs, Sendable S f) (hcount : fs.length < 2 ^ 64)
    (hrx : rx.bytes = t.answer S (helloMsg S cfg p) ++ t.send S (helloMsg S cfg p) fs)
    (hhello : 5 + helloLength S cfg p ≤ wb.length) (hwb : 133 ≤ wb.length) (hwb' : wb.length < 65652) (hrb : 192 ≤ rb.length)
    (hcert : t.certificate.bytes.length + 17 ≤ rb.length)
    (hfrag : ∀ f ∈ fs, f.inner.length + 16 ≤ rb.length ∧ f.inner.length + 16 < 65536) :
    ∃ c', Conn.open_ S cfg p (PkiVerifier.new ca) c = (.ok (), c') ∧
      Session127 S t (helloMsg S cfg p) (if t.request then [certificateMsg [] []] else []) fs tx.log c' := by
  obtain ⟨rest, hrest⟩ := List.head?_eq_some_iff.1 hleaf
  exact textbook_native hs (L.concrete T) F now N cfg p ca hv hEd host hname hlen t hrand hc hchain
    ⟨.ecdsaSecp256r1Sha256, by rw [hscheme]; decide⟩ (fun m => by rw [hrest, hscheme]; exact C99_server L T F hd hdc hkey (hsign m))
    (fun m => by have := ecdsaSigned_length (hsign m); omega) hcerts hmsg hN hpsk hfit ha hb hn hclean hrel fs hfs hcount hrx hhello
    hwb hwb' hrb hcert hfrag

/-- **C127, webpki** A client with the webpki verifier and a suite with SHA-256 (the other one never works, C53), if webpki accepts
the first certificate for the host and verifies the server's signatures (of at most 72 bytes) with it: the same. -/
theorem C127_webpki (hs : Shipped S) (W : WebLib) (alloc : Bool) (now : Option Nat) (N : Nat) (cfg : Config)
    (p : Provider PkiVerifier) (ca : CertEntry) (hv : p.verifier = some (webOps W S alloc now N))
    (hparse : ∀ anchor leaf, W.chainOk anchor leaf (now.getD 0) = true → W.anchorOk anchor = true ∧ W.leafOk leaf = true)
    (h32 : S.hashLen ≤ 32) (host : Bytes) (hname : cfg.serverName = some host) (hlen : host.length ≤ 64)
    (t : Textbook) (hrand : t.random.length = 32) (hc : t.request = true → p.clientCert = none)
    (hchain : WebAccepts W now ca (some host) t.certs) {leaf : Bytes} (hleaf : t.certs.head? = some leaf)
    (hscheme : t.scheme = 0x0403) (hsign : ∀ m, W.verify .ecdsaP256Sha256 leaf m (t.sign m) = true ∧ (t.sign m).length ≤ 72)
    (hcerts : t.certs.length ≤ 16) (hmsg : t.certificate.bytes.length ≤ 16384) (hN : t.certificate.bytes.length ≤ N)
    (hpsk : t.psk = cfg.psk.map (·.1)) (hfit : HelloFits S cfg p) (ha : scalarOf p.secret ≠ 0) (hb : scalarOf t.secret ≠ 0)
    {rx : Rx} {tx : Tx} {rb wb : Bytes} {c : Conn} (hn : Conn.new S rx tx rb wb = .ok c) (hclean : rx.Clean) (hrel : Reliable tx)
    (fs : List Fragment) (hfs : ∀ f ∈ fs, Sendable S f) (hcount : fs.length < 2 ^ 64)
    (hrx : rx.bytes = t.answer S (helloMsg S cfg p) ++ t.send S (helloMsg S cfg p) fs)
    (hhello : 5 + helloLength S cfg p ≤ wb.length) (hwb : 133 ≤ wb.length) (hwb' : wb.length < 65652) (hrb : 192 ≤ rb.length)
    (hcert : t.certificate.bytes.length + 17 ≤ rb.length)
    (hfrag : ∀ f ∈ fs, f.inner.length + 16 ≤ rb.length ∧ f.inner.length + 16 < 65536) :
    ∃ c', Conn.open_ S cfg p (PkiVerifier.new ca) c = (.ok (), c') ∧
      Session127 S t (helloMsg S cfg p) (if t.request then [certificateMsg [] []] else []) fs tx.log c' := by
  have hS := C95_lawful S hs
  have ht : t.Sized := ⟨hrand, hmsg, hcerts, ⟨.ecdsaSecp256r1Sha256, by rw [hscheme]; decide⟩, fun m => by
    have := (hsign m).2; omega⟩
  have hx := C98_conforming hs cfg p hfit ha hb (x := t.flight S (helloMsg S cfg p))
    (by rw [← hpsk]; exact textbook_shaped (helloMsg S cfg p) hs ht) (dheFrom_agrees hs cfg p hfit t.secret ha hb)
  obtain ⟨rest, hrest⟩ := List.head?_eq_some_iff.1 hleaf
  have hauth : AuthFlight (WebAccepts W now ca (some host)) (WebSignedWith W alloc) S N (helloMsg S cfg p)
      (t.flight S (helloMsg S cfg p)) :=
    textbook_auth _ (by rw [hrest]; simp) hN hchain fun m =>
      ⟨leaf, rest, .ecdsaSecp256r1Sha256, .ecdsaP256Sha256, hrest, by rw [hscheme]; decide, by decide, .inr (by decide), (hsign m).1⟩
  refine textbook_session hs cfg p _ t ht hpsk hfit ha hb ?_
    (run_authenticated S N cfg p _ _ _ hv hx (textbook_accepted _ hs ht) host hname (pkiSetHostname_fits hlen _) hauth
      (web_accepts S hS W alloc now N ca hparse h32 host))
    (textbook_no_certificate p hc _).1 (fun h h' => absurd (hc h) h')
    hn hclean hrel fs hfs hcount hrx hhello hwb hwb' hrb hcert
    (fun m hm => by rw [(textbook_no_certificate (S := S) p hc []).2 m hm]; omega) hfrag
  intro ops name ho hnn
  rw [hv] at ho
  injection ho with ho
  subst ho
  rw [hname] at hnn
  injection hnn with hnn
  subst hnn
  exact ⟨_, pkiSetHostname_fits hlen _⟩

end

/-- **C99, every message** can be signed, with every key: with the nonce 1 or with the nonce 2. -/
theorem C99_every {d : Nat} (hd : IsP256Secret d) (m : Bytes) : ∃ sig, EcdsaSigned d m sig := by
  obtain ⟨hd0, hd1⟩ := hd
  have key : ∀ k, 0 < k → k < p256n → 0 < (smul k p256g).affine.1 % p256n →
      ((ofBE (sha256 m) + (smul k p256g).affine.1 % p256n * d : Nat) : ZMod p256n) ≠ 0 → ∃ sig, EcdsaSigned d m sig := by
    intro k k0 k1 hr hz
    obtain ⟨i1, -⟩ := p256n_inverse k0 k1
    generalize hrr : (smul k p256g).affine.1 % p256n = r at hr hz
    have hrl : r < p256n := by rw [← hrr]; exact Nat.mod_lt _ (by decide)
    let s : ZMod p256n := ((ofBE (sha256 m) + r * d : Nat) : ZMod p256n) * (k : ZMod p256n)⁻¹
    have hs0 : s ≠ 0 := mul_ne_zero hz (inv_ne_zero i1)
    have hsl : s.val < p256n := ZMod.val_lt s
    refine ⟨_, k, r, s.val, ⟨k0, k1⟩, ⟨hr, hrl⟩, ⟨Nat.pos_of_ne_zero ?_, hsl⟩, hrr, ?_, rfl⟩
    · rwa [Ne, ZMod.val_eq_zero]
    · rw [← Nat.ModEq, ← ZMod.natCast_eq_natCast_iff]
      push_cast
      rw [ZMod.natCast_zmod_val]
      simp only [s]
      push_cast
      rw [mul_assoc, inv_mul_cancel₀ i1, mul_one]
  by_cases h1 : ((ofBE (sha256 m) + (smul 1 p256g).affine.1 % p256n * d : Nat) : ZMod p256n) = 0
  · refine key 2 (by decide) (by decide) (by decide +kernel) fun h2 => ?_
    push_cast at h1 h2
    have h3 : ((((smul 1 p256g).affine.1 % p256n : Nat) : ZMod p256n) - (((smul 2 p256g).affine.1 % p256n : Nat) : ZMod p256n)) *
        (d : ZMod p256n) = 0 := by linear_combination h1 - h2
    rcases mul_eq_zero.1 h3 with h | h
    · rw [sub_eq_zero, ZMod.natCast_eq_natCast_iff] at h
      revert h
      unfold Nat.ModEq
      decide +kernel
    · exact (p256n_inverse hd0 hd1).1 h
  · exact key 1 (by decide) (by decide) (by decide +kernel) h1

/-! ## Examples -/

set_option maxRecDepth 100000 in
/-- The certificate for example.com that OpenSSL made, decoded. -/
theorem selfCert_reads : ∃ dc, (noPki.concrete derTags).fromDer selfCert = some dc ∧ dc.publicKey = some (p256Key recClientSecret) ∧
    Readable (noPki.concrete derTags) selfCert [ascii "example.com"] ∧ SubjectFits dc ∧
    SanNames (noPki.concrete derTags) dc [ascii "example.com"] ∧ NamesFit (noPki.concrete derTags) [ascii "example.com"] := by
  have hx : ((noPki.concrete derTags).fromDer selfCert).any (fun dc =>
      dc.publicKey = some (p256Key recClientSecret) ∧ dc.subject = [[⟨[2, 5, 4, 3], ascii "self"⟩]] ∧
      dc.extensions = some ([⟨[2, 5, 29, 14], none, 4, toBE 22 0x0414a0c8ece1f294e6a1b00b8233c04c66e68532ccfd⟩,
        ⟨[2, 5, 29, 35], none, 4, toBE 24 0x30168014a0c8ece1f294e6a1b00b8233c04c66e68532ccfd⟩,
        ⟨[2, 5, 29, 19], some true, 4, [0x30, 3, 1, 1, 0xff]⟩] ++
        ⟨[2, 5, 29, 17], none, 4, [0x30, 13] ++ ([0x82, 11] ++ ascii "example.com" ++ []) ++ []⟩ :: [])) = true := by decide +kernel
  rw [Option.any_eq_true] at hx
  obtain ⟨dc, h1, h2⟩ := hx
  simp only [decide_eq_true_eq] at h2
  obtain ⟨h2, h3, h4⟩ := h2
  have a1 : SubjectFits dc := by
    intro rdn hr
    rw [h3, List.mem_singleton] at hr
    subst hr
    exact ⟨_, _, rfl, fun _ => by decide⟩
  have a2 : SanNames (noPki.concrete derTags) dc [ascii "example.com"] :=
    .present _ [] _ [0x30, 13] ([0x82, 11] ++ ascii "example.com" ++ []) [] [(0x82, ascii "example.com")] h4 rfl
      (by decide) rfl rfl (by decide +kernel) rfl (.cons [0x82, 11] (ascii "example.com") [] 0x82 [] (by decide +kernel) rfl .nil)
  have a3 : NamesFit (noPki.concrete derTags) [ascii "example.com"] := by
    intro n hn
    rw [List.mem_singleton] at hn
    subst hn
    exact ⟨by decide +kernel, by decide⟩
  exact ⟨dc, h1, h2, ⟨dc, h1, a1, a2, a3⟩, a1, a2, a3⟩

theorem selfCert_chain : ValidChain (noPki.concrete derTags) ⟨false, false, false⟩ none (.x509 selfCert) (ascii "example.com")
    [selfCert] := by
  obtain ⟨dc, h1, h2, h3, h4, h5, h6⟩ := selfCert_reads
  refine ⟨?_, selfCert, [], dc, _, ascii "example.com", rfl, h1, h5, h6, h4, ?_, .inl (by simp)⟩
  · intro i cert hi
    have hc : cert = selfCert ∧ i = 0 := by
      cases i with
      | zero => simpa using hi.symm
      | succ n => simp at hi
    obtain ⟨rfl, rfl⟩ := hc
    refine ⟨⟨dc, h1, fun t ht => by cases ht⟩, ⟨_, h3⟩, selfCert, rfl, ?_⟩
    have h := selfCert_decodes
    rw [Option.any_eq_true] at h
    obtain ⟨dc', h1', h2'⟩ := h
    simp only [decide_eq_true_eq] at h2'
    exact C99_certificate noPki derTags _ (by constructor <;> decide +kernel) h1' h1' h2'.1 h2'.2.1 selfCert_first h2'.2.2
      selfCert_signed
  · rw [← C49_hostname_match]; decide +kernel

theorem new_exists (S : Suite) (rx : Rx) (n : Nat) (hn : 133 ≤ n) :
    ∃ c, Conn.new S rx ⟨[], []⟩ (List.replicate n 0) (List.replicate n 0) = .ok c := by
  unfold Conn.new WB.new
  rw [if_pos (by simp [TLS_RECORD_OVERHEAD]; omega)]
  exact ⟨_, rfl⟩

/-- What the server sends after the handshake. -/
def someData : List Fragment := [⟨23, ascii "hello", 3⟩, ⟨23, [], 0⟩, ⟨23, ascii "world", 0⟩]

theorem someData_ok (S : Suite) : (∀ f ∈ someData, Sendable S f) ∧ someData.length < 2 ^ 64 ∧
    (∀ f ∈ someData, f.inner.length + 16 ≤ 2048 ∧ f.inner.length + 16 < 65536) ∧ dataOf someData = ascii "helloworld" := by
  refine ⟨?_, by decide, by decide, by decide⟩
  intro f hf
  refine .inl ?_
  revert f
  decide

/-- The server of example.com, with the private key of the certificate; it asks the client for a certificate. -/
noncomputable def selfServer : Textbook where
  secret := [7]
  random := List.replicate 32 5
  psk := none
  request := true
  certs := [selfCert]
  scheme := 0x0403
  sign := fun m => Classical.choose (C99_every (d := recClientSecret) (by constructor <;> decide +kernel) m)

theorem selfServer_signs (m : Bytes) : EcdsaSigned recClientSecret m (selfServer.sign m) :=
  Classical.choose_spec (C99_every (d := recClientSecret) (by constructor <;> decide +kernel) m)

set_option maxRecDepth 100000 in
theorem selfServer_certificate : selfServer.certificate.bytes.length ≤ 1024 := by
  show (RawMsg.certificate [] [(selfCert, [])]).bytes.length ≤ 1024
  decide +kernel

set_option maxRecDepth 100000 in
-- C127_certificate: a client that trusts this certificate and asks for example.com
example : ∃ rx c c', Conn.new (aes128GcmSha256 false) rx ⟨[], []⟩ (List.replicate 2048 0) (List.replicate 2048 0) = .ok c ∧
    Conn.open_ (aes128GcmSha256 false) (recCfg []) trustingClient (PkiVerifier.new (.x509 selfCert)) c = (.ok (), c') ∧
    Session127 (aes128GcmSha256 false) selfServer (helloMsg (aes128GcmSha256 false) (recCfg []) trustingClient)
      [certificateMsg [] []] someData [] c' := by
  obtain ⟨c, hc⟩ := new_exists (aes128GcmSha256 false)
    [.data (selfServer.answer (aes128GcmSha256 false) (helloMsg (aes128GcmSha256 false) (recCfg []) trustingClient) ++
      selfServer.send (aes128GcmSha256 false) (helloMsg (aes128GcmSha256 false) (recCfg []) trustingClient) someData)] 2048 (by decide)
  obtain ⟨dc, h1, h2, -⟩ := selfCert_reads
  obtain ⟨d1, d2, d3, -⟩ := someData_ok (aes128GcmSha256 false)
  have hm := selfServer_certificate
  obtain ⟨c', k1, k2⟩ := C127_certificate ⟨false, .inl rfl⟩ noPki derTags ⟨false, false, false⟩ none 1024 (recCfg []) trustingClient
    (.x509 selfCert) rfl (by intro k hk; cases hk) (ascii "example.com") rec_name.2 (by decide) selfServer (List.length_replicate ..)
    (fun _ => rfl) selfCert_chain (leaf := selfCert) rfl h1 (d := recClientSecret) (by constructor <;> decide +kernel) h2
    rfl selfServer_signs (by show [selfCert].length ≤ 16; decide)
    (by omega) hm (by rw [rec_name.1]; rfl) trusting_fits.1 rec_scalar (by show scalarOf [7] ≠ 0; decide +kernel) hc
    (by intro e he; exact ⟨_, by simp [Textbook.answer, ServerFlight.bytes, plaintextRecord], List.mem_singleton.1 he⟩)
    (by intro a ha; cases ha) someData d1 d2 (by simp [Rx.bytes]) (by have := trusting_fits.2; simp; omega) (by simp) (by simp) (by simp)
    (by simp; omega) (by simpa using d3)
  exact ⟨_, c, c', hc, k1, k2⟩

/-- A webpki for self-signed certificates, with the decoder and the ECDSA of `Model/Libs`. -/
def selfWeb : WebLib where
  anchorOk := fun _ => true
  leafOk := fun _ => true
  chainOk := fun anchor leaf _ => anchor == leaf
  nameOk := fun _ => true
  validFor := fun _ name => name == ascii "example.com"
  verify := fun algo leaf m sig =>
    match algo, ((noPki.concrete derTags).fromDer leaf).bind (·.publicKey) with
    | .ecdsaP256Sha256, some key => (noPki.concrete derTags).verify .ecdsaP256Sha256 key m sig
    | _, _ => false

/-- The same client with this verifier. -/
def webClient : Provider PkiVerifier :=
  ⟨recRandom, recSecret, some (webOps selfWeb (aes128GcmSha256 false) false none 1024), .err .unimplemented, none⟩

theorem selfWeb_verifies (m : Bytes) :
    selfWeb.verify .ecdsaP256Sha256 selfCert m (selfServer.sign m) = true ∧ (selfServer.sign m).length ≤ 72 := by
  obtain ⟨dc, h1, h2, -⟩ := selfCert_reads
  obtain ⟨h3, h4⟩ := ecdsa_valid noPki derTags (by constructor <;> decide +kernel) (selfServer_signs m)
  refine ⟨?_, h4⟩
  simp only [selfWeb, h1, Option.bind_some, h2]
  exact h3.2.2

set_option maxRecDepth 100000 in
/-- The session with this client. -/
theorem web_session : ∃ rx c c', rx.Clean ∧
    Conn.new (aes128GcmSha256 false) rx ⟨[], []⟩ (List.replicate 2048 0) (List.replicate 2048 0) = .ok c ∧
    HelloFits (aes128GcmSha256 false) (recCfg []) webClient ∧
    Conn.open_ (aes128GcmSha256 false) (recCfg []) webClient (PkiVerifier.new (.x509 selfCert)) c = (.ok (), c') ∧
    Session127 (aes128GcmSha256 false) selfServer (helloMsg (aes128GcmSha256 false) (recCfg []) webClient)
      [certificateMsg [] []] someData [] c' := by
  obtain ⟨c, hc⟩ := new_exists (aes128GcmSha256 false)
    [.data (selfServer.answer (aes128GcmSha256 false) (helloMsg (aes128GcmSha256 false) (recCfg []) webClient) ++
      selfServer.send (aes128GcmSha256 false) (helloMsg (aes128GcmSha256 false) (recCfg []) webClient) someData)] 2048 (by decide)
  obtain ⟨d1, d2, d3, -⟩ := someData_ok (aes128GcmSha256 false)
  have hm := selfServer_certificate
  have hfit : HelloFits (aes128GcmSha256 false) (recCfg []) webClient :=
    ⟨trusting_fits.1.random, trusting_fits.1.alpn, trusting_fits.1.length⟩
  have hl : 5 + helloLength (aes128GcmSha256 false) (recCfg []) webClient ≤ 1024 := trusting_fits.2
  have hcl : Rx.Clean [.data (selfServer.answer (aes128GcmSha256 false) (helloMsg (aes128GcmSha256 false) (recCfg []) webClient) ++
      selfServer.send (aes128GcmSha256 false) (helloMsg (aes128GcmSha256 false) (recCfg []) webClient) someData)] := by
    intro e he; exact ⟨_, by simp [Textbook.answer, ServerFlight.bytes, plaintextRecord], List.mem_singleton.1 he⟩
  obtain ⟨c', k1, k2⟩ := C127_webpki ⟨false, .inl rfl⟩ selfWeb false none 1024 (recCfg []) webClient
    (.x509 selfCert) rfl (fun _ _ _ => ⟨rfl, rfl⟩) (by decide) (ascii "example.com") rec_name.2 (by decide) selfServer
    (List.length_replicate ..) (fun _ => rfl)
    ⟨selfCert, selfCert, [], rfl, rfl, by simp [selfWeb], by rintro name ⟨⟩; exact ⟨rfl, by simp [selfWeb]⟩⟩ (leaf := selfCert) rfl
    rfl selfWeb_verifies (by show [selfCert].length ≤ 16; decide)
    (by omega) hm (by rw [rec_name.1]; rfl) hfit rec_scalar (by show scalarOf [7] ≠ 0; decide +kernel) hc
    hcl (by intro a ha; cases ha) someData d1 d2 (by simp [Rx.bytes]) (by simp; omega) (by simp) (by simp) (by simp)
    (by simp; omega) (by simpa using d3)
  exact ⟨_, c, c', hcl, hc, hfit, k1, k2⟩

/-- A server with the key 00 01 … 0f. -/
def pskServer : Textbook := ⟨[7], List.replicate 32 5, some (toBE 16 0x000102030405060708090a0b0c0d0e0f), false, [], 0x0403, fun _ => []⟩

set_option maxRecDepth 100000 in
-- C127_psk: a client with this key
example : ∃ rx c c', Conn.new (aes128GcmSha256 false) rx ⟨[], []⟩ (List.replicate 2048 0) (List.replicate 2048 0) = .ok c ∧
    Conn.open_ (aes128GcmSha256 false) recPskCfg recPskProvider () c = (.ok (), c') ∧
    Session127 (aes128GcmSha256 false) pskServer (helloMsg (aes128GcmSha256 false) recPskCfg recPskProvider) [] someData [] c' := by
  obtain ⟨c, hc⟩ := new_exists (aes128GcmSha256 false)
    [.data (pskServer.answer (aes128GcmSha256 false) (helloMsg (aes128GcmSha256 false) recPskCfg recPskProvider) ++
      pskServer.send (aes128GcmSha256 false) (helloMsg (aes128GcmSha256 false) recPskCfg recPskProvider) someData)] 2048 (by decide)
  obtain ⟨d1, d2, d3, -⟩ := someData_ok (aes128GcmSha256 false)
  have hl : 5 + helloLength (aes128GcmSha256 false) recPskCfg recPskProvider ≤ 2048 := by decide +kernel
  obtain ⟨c', k1, k2⟩ := C127_psk ⟨false, .inl rfl⟩ recPskCfg recPskProvider rfl () pskServer
    ⟨by decide, by decide, by decide, ⟨.ecdsaSecp256r1Sha256, by decide⟩, fun _ => le_trans (show 0 + 8 ≤ 80 by decide) (le_max_left _ _)⟩ (fun h => by cases h) (by decide +kernel) recPsk_fits rec_scalar
    (by decide +kernel) hc
    (by intro e he; exact ⟨_, by simp [Textbook.answer, ServerFlight.bytes, plaintextRecord], List.mem_singleton.1 he⟩)
    (by intro a ha; cases ha) someData d1 d2 (by simp [Rx.bytes]) (by simpa using hl) (by simp) (by simp) (by simp)
    (by rw [List.length_replicate]; decide) (by simpa using d3)
  exact ⟨_, c, c', hc, k1, k2⟩

/-- A server that knows nobody and asks for a certificate. -/
def askingServer : Textbook := ⟨[7], List.replicate 32 5, none, true, [], 0x0403, fun _ => []⟩

set_option maxRecDepth 100000 in
/-- The nonce works in the connection below. -/
theorem asking_nonce : (ecdsaSign recClientSecret (clientSigned (aes256GcmSha384 false) (askingServer.transcript (aes256GcmSha384 false)
    (helloMsg (aes256GcmSha384 false) (recCfg []) (recProvider.provider (V := Unit) (p256Lib derTags))) ++
      certificateMsg [] [recClientCert]))).isSome = true := by decide +kernel

set_option maxRecDepth 100000 in
-- C127_client_auth: the certificate and the private key that the client had in the recording
example : ∃ rx c c' sig, Conn.new (aes256GcmSha384 false) rx ⟨[], []⟩ (List.replicate 2048 0) (List.replicate 2048 0) = .ok c ∧
    Conn.open_ (aes256GcmSha384 false) (recCfg []) (recProvider.provider (p256Lib derTags)) () c = (.ok (), c') ∧
    Session127 (aes256GcmSha384 false) askingServer
      (helloMsg (aes256GcmSha384 false) (recCfg []) (recProvider.provider (V := Unit) (p256Lib derTags)))
      [certificateMsg [] [recClientCert], certificateVerifyMsg 0x0403 sig] someData [] c' := by
  obtain ⟨c, hc⟩ := new_exists (aes256GcmSha384 false)
    [.data (askingServer.answer (aes256GcmSha384 false) (helloMsg (aes256GcmSha384 false) (recCfg [])
        (recProvider.provider (V := Unit) (p256Lib derTags))) ++
      askingServer.send (aes256GcmSha384 false) (helloMsg (aes256GcmSha384 false) (recCfg [])
        (recProvider.provider (V := Unit) (p256Lib derTags))) someData)] 2048 (by decide)
  obtain ⟨d1, d2, d3, -⟩ := someData_ok (aes256GcmSha384 false)
  have hl : 5 + helloLength (aes256GcmSha384 false) (recCfg []) (recProvider.provider (V := Unit) (p256Lib derTags)) ≤ 2048 := by
    decide +kernel
  have hcl : recClientCert.length + 40 ≤ 2048 := by decide +kernel
  obtain ⟨c', sig, k1, -, k2⟩ := C127_client_auth (V := Unit) ⟨false, .inr rfl⟩ noPki derTags (recCfg []) recProvider () askingServer
    ⟨by decide, by decide, by decide, ⟨.ecdsaSecp256r1Sha256, by decide⟩, fun _ => le_trans (show 0 + 8 ≤ 80 by decide) (le_max_left _ _)⟩ rfl (cert := recClientCert) (der := recClientKey)
    (d := recClientSecret) rfl rfl (by decide +kernel) (by omega) (by rw [rec_name.1]; rfl) rec_fits rec_scalar
    (by decide +kernel) asking_nonce hc
    (by intro e he; exact ⟨_, by simp [Textbook.answer, ServerFlight.bytes, plaintextRecord], List.mem_singleton.1 he⟩)
    (by intro a ha; cases ha) someData d1 d2 (by simp [Rx.bytes]) (by simpa using hl) (by simp) (by simpa using hcl) (by simp)
    (by simp) (by rw [List.length_replicate]; decide) (by simpa using d3)
  exact ⟨_, c, c', sig, hc, k1, k2⟩

end ETls
