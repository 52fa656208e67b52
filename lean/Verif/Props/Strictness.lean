import Verif.Props.HonestServer
import Verif.Props.HonestAuth

/-! # C112: the order of the server's messages

RFC 8446 sections 2 and 4: ServerHello, EncryptedExtensions, at most one CertificateRequest, then (without PSK) Certificate
and CertificateVerify, then Finished; anything else is an `unexpected_message`. -/

namespace ETls

variable {V : Type} (S : Suite)

open Spec

/-- **C112, in part** After a successful `open` the first message of the server was a ServerHello and the others were
EncryptedExtensions, CertificateRequest, Certificate, CertificateVerify and Finished messages; there was a Finished, and every
Finished has a MAC over all that preceded it, so these are in the order in which the holder of the keys sent them.  (C60: with
the crate's verifiers every CertificateVerify comes after a Certificate.)  Missing: that they are in the order of the RFC
(`C112_any_order`, `C112_refuted`, `C112_refuted_native`). -/
theorem C112_order_partial (hS : S.Lawful) (cfg : Config) (p : Provider V) (v : V) {c c' : Conn} (hf : c.Fresh S)
    (h : Conn.open_ S cfg p v c = (.ok (), c')) :
    ∃ x : Session, x.Received S (cfg.psk.map (·.1)) p.secret ∧ c.rx.bytes = x.received ++ c'.rx.bytes ∧
      (∃ ver rnd sid cs comp xs, Encodes x.sh (.serverHello ver rnd sid cs comp xs)) ∧
      (∀ m ∈ x.msgs, m.2.type ∈ [8, 13, 11, 15, 20]) ∧
      (∃ before fm vd after, x.msgs = before ++ (fm, .finished vd) :: after) ∧
      ∀ before fm vd after, x.msgs = before ++ (fm, .finished vd) :: after →
        vd = verifyData S (serverHandshakeTraffic S (cfg.psk.map (·.1)) x.dhe (x.hello ++ x.sh))
          (x.hello ++ x.sh ++ before.flatMap Prod.fst) := by
  obtain ⟨x, hx⟩ := open_session S hS cfg p v hf h
  obtain ⟨a, fm, vd, b, he, -, -⟩ := hx.ending
  refine ⟨x, hx.received, hx.bytes, ?_, ?_, ⟨a, fm, vd, b, he⟩, hx.finished⟩
  · obtain ⟨r, -, h2, ver, rnd, sid, cs, comp, pre, group, g, tr, post, rfl, -⟩ := hx.received.serverHello
    exact ⟨ver, rnd, sid, cs, comp, _, h2⟩
  · intro m hm
    have := hx.kinds m hm
    obtain ⟨m, r⟩ := m
    cases r <;> first | exact absurd this id | (simp only [RawMsg.type]; decide)

/-- A message in a record of its own. -/
def ownRecord (r : RawMsg) : FlightRecord := .messages [r] 0

theorem ownRecords_msgs (ms : List RawMsg) : (ms.map ownRecord).flatMap FlightRecord.msgs = ms := by
  induction ms with
  | nil => rfl
  | cons r ms ih => rw [List.map_cons, List.flatMap_cons, ih]; rfl

/-- **C112, refuted in general** A client without a verifier accepts EncryptedExtensions, Certificate and CertificateVerify
messages in any number and any order, or none of them: for every list `msgs` of such messages (each acceptable by itself and
fitting in the buffer) there is a flight with exactly these messages between ServerHello and Finished for which `open`
succeeds. -/
theorem C112_any_order (hS : S.Lawful) (cfg : Config) (p : Provider V) (v : V) (hv : p.verifier = none)
    (sh : RawMsg) (share dhe : Bytes) (hsh : sh.WellSized S.hashLen ∧ sh.bytes.length ≤ 16384) (hshare : KeyShareOf sh share)
    (hdhe : S.dh p.secret share = some dhe) (hacc : Accepted S sh) (room : Nat) (hroom : room ≤ 16401)
    (hfin : S.hashLen + 21 ≤ room) (msgs : List RawMsg)
    (hm : ∀ r ∈ msgs, r.WellSized S.hashLen ∧ Accepted S r ∧ (r.type = 8 ∨ r.type = 11 ∨ r.type = 15) ∧
      r.bytes.length + 17 ≤ room) (hcnt : msgs.length + 1 < 2 ^ 64)
    (hsig : ∀ sign scheme, p.signer = .ok (sign, scheme) → ∀ m sig, sign m = some sig → sig.length ≤ signatureSize S) :
    ∃ x : ServerFlight, x.sh = sh ∧ x.msgs = msgs ∧ x.Shaped S (cfg.psk.map (·.1)) (helloMsg S cfg p) ∧
      ∀ c : Conn, c.Fresh S → c.rx.Clean → Reliable c.tx → 5 + helloLength S cfg p ≤ c.wb.buffer.length →
        S.hashLen + 26 ≤ c.wb.buffer.length → room ≤ c.rr.buf.length → sh.bytes.length ≤ c.rr.buf.length →
        c.rx.bytes = x.bytes S (cfg.psk.map (·.1)) (helloMsg S cfg p) →
        (Conn.open_ S cfg p v c).1 = .ok () := by
  let x0 : ServerFlight := ⟨sh, share, dhe, msgs, []⟩
  let fin := x0.finished S (cfg.psk.map (·.1)) (helloMsg S cfg p)
  let x : ServerFlight := ⟨sh, share, dhe, msgs, (msgs ++ [fin]).map ownRecord⟩
  have hlen : ∀ r ∈ x.records, r.size ≤ room := by
    intro r hr
    obtain ⟨m, hm', rfl⟩ := List.mem_map.1 hr
    have hsz : (ownRecord m).size = m.bytes.length + 17 := by
      simp [ownRecord, FlightRecord.size, flightFragment, Fragment.inner]
    rw [hsz]
    rcases List.mem_append.1 hm' with h | h
    · exact (hm m h).2.2.2
    · rw [List.mem_singleton.1 h]
      have : fin.bytes.length = S.hashLen + 4 := by
        simp [fin, x0, ServerFlight.finished, RawMsg.bytes, RawMsg.body, be24, verifyData, hS.hmac_length]
      omega
  have hx : x.Conforming S (cfg.psk.map (·.1)) (helloMsg S cfg p) p.secret := by
    refine ⟨⟨hsh, hshare, fun r hr => ?_, ownRecords_msgs _, ⟨msgs.map ownRecord, [fin], 0, ?_, by simp⟩,
      fun r hr => Nat.le_trans (hlen r hr) (by omega)⟩, hdhe⟩
    · obtain ⟨h1, h2, h3, h4⟩ := hm r hr
      refine ⟨h1, ?_, by tauto⟩
      have : r.body.length ≤ r.bytes.length := by simp only [RawMsg.bytes, List.length_cons, List.length_append]; omega
      omega
    · simp [x, ownRecord]
  refine ⟨x, rfl, rfl, hx.toShaped, ?_⟩
  intro c hf hclean hrel hfh hff hr hs hb
  have hlr : lastRequest (withBytes x.msgs) = none := by
    have h13 : ∀ r ∈ msgs, r.type ≠ 13 := by
      intro r hr h
      have := (hm r hr).2.2.1
      rw [h] at this
      revert this
      decide
    show lastRequest (withBytes msgs) = none
    clear hx hlen
    clear_value fin x0
    clear hcnt hm hb x
    induction msgs with
    | nil => rfl
    | cons r ms ih =>
      have h1 := ih (fun r hr => h13 r (List.mem_cons_of_mem _ hr))
      have h2 := h13 r List.mem_cons_self
      cases r <;> first | exact h1 | exact absurd rfl h2
  obtain ⟨c', h, _⟩ := C46_honest_server_partial S hS cfg p v hf hclean hrel x hx
    (by
      intro r hr
      rcases List.mem_cons.1 hr with rfl | hr
      · exact hacc
      · exact (hm r hr).2.1)
    (by intro ops name ho; rw [hv] at ho; cases ho) (by intro ops ho; rw [hv] at ho; cases ho)
    (ms := []) (by rw [hlr]; rfl) hsig hfh hff (by simp) hs
    (fun r hr' => Nat.le_trans (hlen r hr') hr) (by simp [x]; omega) (rest := []) (by rw [hb, List.append_nil])
  rw [h]

/-- A CertificateRequest of the toy server. -/
def exCertReq : SrvMsg := .msg (.certificateRequest [] [⟨13, be16 2 ++ be16 0x0403⟩])

set_option maxRecDepth 10000 in
/-- **C112, refuted** In particular, without a verifier: no EncryptedExtensions; two of them; a second CertificateRequest; a
CertificateRequest before EncryptedExtensions; messages after Finished in its record. -/
theorem C112_refuted : ∀ flight ∈ [[[SrvMsg.finished]], [[exEE, exEE, .finished]], [[exEE, exCertReq, exCertReq, .finished]],
      [[exCertReq, exEE, .finished]], [[exEE, .finished, exEE]]],
    (Conn.open_ toySuite exCfg exProv () (exNew 400 [.data (exServer exCfg exSH flight)])).1 = .ok () := by
  decide +kernel

set_option maxRecDepth 10000 in
/-- **C112, refuted** With the native verifier: a CertificateRequest and a second EncryptedExtensions between Certificate and
CertificateVerify, and another EncryptedExtensions after it. -/
theorem C112_refuted_native : (Conn.open_ toySuite exCfg (authProv toyNative) (PkiVerifier.new (.x509 toyCa))
    (exNew 600 [.data (exServer exCfg exSH [[exEE, .msg (exCertMsg [exLeaf, toyInter]), exCertReq, exEE,
      .msg (exCertVerify [exLeaf, toyInter]), exEE, .finished]])])).1 = .ok () := by
  decide +kernel

/-! # C113: extensions are not repeated, fixed values have their values

RFC 8446 section 4.2: no extension type twice in a block; 4.1.3: legacy_compression_method is 0; 4.3.2: the
certificate_request_context is empty during the handshake; 4.4.2: the server's certificate_request_context is empty.
(legacy_version, the session id, the cipher suite and the group are C41.) -/

theorem extSpec_extends (g : ExtGroup) (cap : Nat) (xs : List RawExt) : ∀ (acc l : List Ext),
    extSpec g cap acc xs = .ok l → ∃ t, l = acc ++ t := by
  induction xs with
  | nil => intro acc l h; simp only [extSpec, Res.ok.injEq] at h; exact ⟨[], by simp [h]⟩
  | cons x xs ih =>
    intro acc l h
    simp only [extSpec] at h
    split at h
    · split at h
      · obtain ⟨t, ht⟩ := ih _ _ h
        exact ⟨_, by rw [ht, List.append_assoc]⟩
      · cases h
    · exact ih _ _ h
    · cases h
    · cases h

theorem extSpec_shift (g : ExtGroup) (cap : Nat) (xs : List RawExt) : ∀ (acc acc' l : List Ext),
    extSpec g cap acc xs = .ok (acc ++ l) → acc'.length + l.length ≤ cap → extSpec g cap acc' xs = .ok (acc' ++ l) := by
  induction xs with
  | nil =>
    intro acc acc' l h _
    simp only [extSpec, Res.ok.injEq] at h
    have : l = [] := by simpa using h
    rw [this, List.append_nil]; rfl
  | cons x xs ih =>
    intro acc acc' l h hc
    simp only [extSpec] at h ⊢
    split at h
    · next e hst =>
      split at h
      · obtain ⟨t, ht⟩ := extSpec_extends g cap xs _ _ h
        rw [List.append_assoc] at ht
        have hl := List.append_cancel_left ht
        subst hl
        simp only [List.length_append, List.length_cons, List.length_nil] at hc
        rw [if_pos (by omega)]
        have := ih _ (acc' ++ [e]) t (by rw [h]; simp) (by simp; omega)
        rw [this]; simp
      · cases h
    · exact ih _ _ _ h hc
    · cases h
    · cases h

/-- **C113, refuted in general** Extensions may be repeated: a block that is accepted, written twice, is accepted as well,
with every extension in it twice, as long as the list has room for them; for every message and every list. -/
theorem C113_repeated (m : ExtMsg) (cap : Nat) (xs : List RawExt) (hs : ExtsSized (xs ++ xs)) (l : List Ext) (A B A' B' : Bytes)
    (h : (extParseVector (groupOf m) cap ⟨A' ++ (extVec xs ++ B'), A'.length⟩).1 = .ok l) (hc : l.length + l.length ≤ cap) :
    (extParseVector (groupOf m) cap ⟨A ++ (extVec (xs ++ xs) ++ B), A.length⟩).1 = .ok (l ++ l) := by
  have hs' : ExtsSized xs := by
    refine ⟨fun e he => hs.1 e (List.mem_append_left _ he), ?_⟩
    have := hs.2
    simp only [List.flatMap_append, List.length_append] at this
    omega
  rw [(extParseVector_reads _ cap _ hs' A' B').1] at h
  rw [(extParseVector_reads _ cap _ hs A B).1, extSpec_prefix _ _ _ _ _ _ h]
  exact extSpec_shift _ _ _ [] _ _ h hc

set_option maxRecDepth 10000 in
/-- **C113, refuted** `open` succeeds with a ServerHello that has two supported_versions and two key_share extensions, with
one that selects compression method 1, with an EncryptedExtensions that has two max_fragment_length extensions, and with a
CertificateRequest with a context. -/
theorem C113_refuted :
    (∀ sh ∈ [RawMsg.serverHello 0x0303 (List.replicate 32 7) [] 0x1301 0 [⟨43, [3, 4]⟩, exKeyShare, ⟨43, [3, 4]⟩, exKeyShare],
        .serverHello 0x0303 (List.replicate 32 7) [] 0x1301 1 [⟨43, [3, 4]⟩, exKeyShare]],
      (Conn.open_ toySuite exCfg exProv () (exNew 400 [.data (exServer exCfg sh exMin)])).1 = .ok ()) ∧
    ∀ m ∈ [RawMsg.encryptedExtensions [⟨1, [1]⟩, ⟨1, [2]⟩], .certificateRequest [7] [⟨13, be16 2 ++ be16 0x0403⟩]],
      (Conn.open_ toySuite exCfg exProv () (exNew 400 [.data (exServer exCfg exSH [[exEE, .msg m, .finished]])])).1 =
        .ok () := by
  decide +kernel

/-! ## Examples -/

-- C112_order_partial: the smallest successful handshake
example : ∃ c', Conn.open_ toySuite exCfg exProv () (exNew 400 [.data (exServer exCfg exSH exMin)]) = (.ok (), c') := by
  have := exMin_ok
  generalize Conn.open_ toySuite exCfg exProv () (exNew 400 [.data (exServer exCfg exSH exMin)]) = x at this
  exact ⟨x.2, by rw [← this]⟩

set_option maxRecDepth 10000 in
-- C112_any_order: three EncryptedExtensions
example := C112_any_order toySuite toySuite_lawful exCfg exProv () rfl exSH exShare exDhe
  ⟨⟨by decide, by decide, by decide, ⟨.tlsAes128GcmSha256, by decide⟩, by decide⟩, (by decide : exSH.bytes.length ≤ 16384)⟩
  ⟨0x0303, List.replicate 32 7, [], 0x1301, 0, [⟨43, [3, 4]⟩], .secp256r1, 23, [], [], rfl, by decide,
    (by decide : exShare.length < 65536), by decide⟩ (by decide : toySuite.dh [1] exShare = some exDhe) ⟨_, rfl⟩ 400 (by decide)
  (by decide) (List.replicate 3 (.encryptedExtensions []))
  (by
    intro r hr
    rw [List.eq_of_mem_replicate hr]
    exact ⟨(by decide : ExtsSized []), ⟨_, rfl⟩, by decide, by decide⟩) (by decide) (by intro sign scheme h; cases h)

-- C113_repeated: max_fragment_length in EncryptedExtensions
example : (extParseVector (groupOf .encryptedExtensions) 16 ⟨[] ++ (extVec [⟨1, [1]⟩] ++ []), 0⟩).1 =
    .ok [⟨.maxFragmentLength, .maxFragmentLength .bits9⟩] := by decide +kernel

end ETls
