import Verif.Props.Opens

/-! # The client's answer to the server's flight (for C77) -/

namespace ETls
open Spec

variable (S : Suite) {V : Type}

/-! ## A raw public key as client certificate -/

/-- `m` panics as soon as it has written `n` bytes. -/
def Crashes {α : Type} (m : Enc α) (n : Nat) : Prop :=
  ∀ (o l : Nat) (A B : Bytes), A.length = o + l → n ≤ B.length → ∃ c, m ⟨A ++ B, o, l⟩ = (.panic, c)

theorem crashes_seq {α : Type} {m : Enc Unit} {k : Enc α} {bs : Bytes} {n : Nat} (hm : Appends m bs ()) (hk : Crashes k n) :
    Crashes (m >>= fun _ => k) (bs.length + n) := by
  intro o l A B hA hn
  obtain ⟨g, _⟩ := hm o l A B hA
  rw [M.bind_ok (g (by omega)), ← List.append_assoc]
  exact hk o _ _ _ (by simp; omega) (by simp; omega)

theorem crashes_withU24 {α : Type} {op : Enc α} {n : Nat} (h : Crashes op n) : Crashes (CB.withU24Length op) (3 + n) := by
  intro o l A B hA hn
  unfold CB.withU24Length
  simp only [M.get_bind]
  obtain ⟨p1, _⟩ := Appends.pushU24 0 o l A B hA
  rw [M.bind_ok (p1 (by simp [be24]; omega)), ← List.append_assoc]
  simp only [M.get_bind]
  obtain ⟨c, hc⟩ := h o (l + (be24 0).length) (A ++ be24 0) (B.drop (be24 0).length) (by simp; omega) (by simp [be24]; omega)
  exact ⟨c, by rw [M.bind_panic hc]⟩

theorem rawCert_crashes (raw ctx key : Bytes) :
    Crashes ((ClientHs.clientCert ⟨raw, ctx, [.rawPublicKey key]⟩).encode S) (8 + ctx.length) := by
  have h1 : Crashes (encAll CertEntry.encode [.rawPublicKey key]) 0 := by
    intro o l A B _ _
    exact ⟨_, rfl⟩
  have h2 := crashes_seq (Appends.extend ctx).withU8Length (crashes_withU24 h1)
  have h3 := crashes_seq (Appends.push (UInt8.ofNat (HandshakeType.code .certificate))).orEncodeError (crashes_withU24 h2)
  intro o l A B hA hn
  exact h3 o l A B hA (by simp; omega)

/-- `write_record`, on an idle buffer with some room, of a record whose encoding panics. -/
theorem writeRecord_crash (rec : ClientRecord) {n : Nat} (hc : Crashes (rec.encodePayload S) n) (wks : WriteKS) (w : WB)
    (tr : Bytes) (hi : w.Idle) (hL : 5 + n ≤ w.buffer.length) :
    ∃ w' tr', WB.writeRecord S rec wks (w, tr) = (.panic, (w', tr')) := by
  obtain ⟨w1, g1, g2, g3⟩ := startRecord_idle rec.header w hi (by omega)
  unfold WB.writeRecord
  rw [M.get_bind]
  simp only
  rw [if_neg (by simp [hi.header]), M.bind_ok (onFst_ok g1 tr)]
  obtain ⟨buf, pos, hdr⟩ := w1
  obtain ⟨h1, h2, x, y, rest, h3⟩ := g2
  simp only [List.length_nil, Nat.add_zero, List.nil_append] at h1 h2 h3 g3
  subst h1 h2 h3
  have h3l := rec.header.bytes3_length
  have hA : (rec.header.bytes3 ++ [x, y]).length = 5 + 0 := by simp [h3l]
  have hrest : n ≤ rest.length := by simp [h3l] at g3; omega
  obtain ⟨c, hc⟩ := hc 5 0 (rec.header.bytes3 ++ [x, y]) rest hA hrest
  rw [List.append_assoc] at hc
  have hfw : ∀ b : Bytes, CB.forward ⟨b, 0, 5⟩ = (.ok (), ⟨b, 5, 0⟩) := fun b => by simp [CB.forward, CB.setOffset]
  rw [M.bind_panic (s' := (⟨c.buf, 5, some rec.header⟩, tr))]
  · exact ⟨_, _, rfl⟩
  · unfold WB.withBuffer
    simp only [CB.wrapWithPos]
    rw [M.bind_ok (onFst_ok (hfw _) tr), M.bind_panic (onFst_panic hc tr)]

/-- A step in state `ClientCert` with a raw public key panics, and nothing has been sent. -/
theorem step_rawCert_fwd (cfg : Config) (p : Provider V) (s : HSt V) {ctx key : Bytes} (hi : s.c.wb.Idle)
    (hL : 13 + ctx.length ≤ s.c.wb.buffer.length) (hctx : s.h.certReq = some ctx)
    (hcert : p.clientCert = some (.rawPublicKey key)) :
    ∃ s', process S cfg p .clientCert s = (.panic, s') ∧ s'.c.tx = s.c.tx := by
  obtain ⟨w', tr', hw⟩ := writeRecord_crash S (.handshake (.clientCert ⟨[], ctx, [.rawPublicKey key]⟩) true)
    (n := 8 + ctx.length) (rawCert_crashes S [] ctx key) s.c.ks.client s.c.wb s.c.ks.server.transcript hi (by omega)
  have hcc : clientCert S p s = (.panic, ⟨s.c.wrote w' tr', { s.h with trafficHash := some s.c.ks.server.transcript }⟩) := by
    unfold clientCert
    rw [M.get_bind]
    unfold modHs
    rw [M.modify_bind]
    simp only [hctx, hcert, Option.toList_some]
    rw [M.bind_panic (onConn_panic (s := ⟨s.c, ⟨some s.c.ks.server.transcript, s.h.secret, some ctx, s.h.vst⟩⟩) (Conn.writeRecord_of S hw))]
  simp only [process]
  rw [M.bind_panic hcc]
  exact ⟨_, rfl, rfl⟩

/-! ## The answer -/

/-- Room in the write buffer for everything the client may have to send. -/
structure Roomy (cfg : Config) (p : Provider V) (n : Nat) : Prop where
  hello : 5 + helloLength S cfg p ≤ n
  finished : S.hashLen + 26 ≤ n
  certificate : 286 ≤ n
  ownCertificate : ∀ cert, p.clientCert = some (.x509 cert) → cert.length + 291 ≤ n
  signature : p.clientCert ≠ none → signatureLimit S + 30 ≤ n

/-- The outcome of the answer and of the loop agree. -/
def ReplyTells (psk : Option Bytes) (dhe secret tr : Bytes) (s : HSt V) (x : Res TlsError Unit × HSt V) : Reply → Prop
  | .done ms t => x.1 = .ok () ∧ x.2.c.tx.log = s.c.tx.log ++ sentRecords (handshakeRecords S (writeKey S secret) (writeIv S secret) 0
        (ms ++ [finishedMsg (verifyData S secret (tr ++ ms.flatten))])) ∧ x.2.c.rx = s.c.rx ∧
      x.2.c.ks.client.st = trafficState S (clientApplicationTraffic S psk dhe t) ∧
      x.2.c.ks.server = ⟨trafficState S (serverApplicationTraffic S psk dhe t), t⟩ 
  | .error ms e => x.1 = .err e ∧ x.2.c.tx.log = s.c.tx.log ++ sentRecords (ciphertextRecords S (writeKey S secret)
        (writeIv S secret) 0 (ms.map (fun m => (22, m)) ++ [(21, [1, 0])])) ∧ x.2.c.opened = s.c.opened
  | .abort ms => x.1 = .panic ∧ x.2.c.tx.log = s.c.tx.log ++
      sentRecords (handshakeRecords S (writeKey S secret) (writeIv S secret) 0 ms)

theorem certificateMsg_length (ctx : Bytes) (certs : List Bytes) :
    (certificateMsg ctx certs).length = 8 + ctx.length + (certs.map fun c => c.length + 5).sum := by
  induction certs with
  | nil => simp [certificateMsg, handshake, vec8, vec24, u24]; omega
  | cons c cs ih =>
    simp [certificateMsg, handshake, vec8, vec24, vec16, u24, u16] at ih ⊢
    omega

theorem reply_tells (hS : S.Lawful) (cfg : Config) (p : Provider V) (s : HSt V) (psk : Option Bytes)
    (dhe secret ssecret : Bytes) (f : Flight V) {seq fuel : Nat} (hw : f.after ≠ .waiting) (hs : Receiving S ssecret seq f s)
    (hk : s.c.ks.client.st = trafficState S secret)
    (hsh : s.c.ks.shared.secret = Spec.deriveSecret S (handshakeSecret S psk dhe) "derived" [])
    (hroom : Roomy S cfg p s.c.wb.buffer.length) :
    ∃ r, Replies S p f r ∧
      ReplyTells S psk dhe secret f.transcript s (openLoop S cfg p (fuel + 4) (stateOf f.after) s) r := by
  have htr : s.c.ks.server.transcript = f.transcript := by rw [hs.keys]
  have hfin : ∀ {ms : List Bytes} {t : Bytes},
      CanFinish S p s.c.wb.buffer.length s.c.ks.server.transcript s.h (stateOf f.after) ms t →
      ReplyTells S psk dhe secret f.transcript s (openLoop S cfg p (fuel + 4) (stateOf f.after) s) (.done ms t) := by
    intro ms t hcan
    obtain ⟨s', f1, _, _, _, f5, f6, _, _, _, _, f11, f12⟩ := finish_fwd S hS cfg p s psk dhe secret t fuel hs.idle
      (by have := hs.room; omega) hs.reliable hk hsh hcan hroom.finished
    rw [f1]
    refine ⟨rfl, ?_, f6, f11, f12⟩
    rw [f5, sentMsgs_records, htr]
  have hiv := trafficState_iv S hS secret
  rcases hst : f.after with _ | _ | t
  · exact absurd hst hw
  · have hreq := hs.keeping.asked hst
    rcases hc : f.request with _ | ctx
    · exact absurd hc hreq
    have hcr : s.h.certReq = some ctx := hs.keeping.request.trans hc
    have hcl := hs.keeping.short ctx hc
    have h286 := hroom.certificate
    have hstate : stateOf (.certificate : After) = .clientCert := rfl
    rcases hp : p.clientCert with _ | ⟨cert⟩ | ⟨key⟩
    · refine ⟨_, .noCertificate ctx hst hc hp, ?_⟩
      rw [hst] at hfin
      have := hfin (.noCert ctx hcr hp (by rw [certificateMsg_length]; simp; omega))
      rwa [htr] at this
    · have hown := hroom.ownCertificate cert hp
      have hsr := hroom.signature (by rw [hp]; simp)
      have hfit : (certificateMsg ctx [cert]).length + 22 ≤ s.c.wb.buffer.length := by
        rw [certificateMsg_length]; simp; omega
      obtain ⟨wb, ctl, w1, w2, w3, w4⟩ := step_clientCert_fwd S hS cfg p s (ctx := ctx) (certs := [cert]) hs.idle
        (by omega) (by rw [hk]; exact hiv) hs.reliable (by rw [hk]; exact (by decide : 0 + 1 < 2 ^ 64)) hcr (by rw [hp]; rfl) hfit
      have hnext : nextAfterCert p.clientCert = .clientCertVerify := by rw [hp]; rfl
      rw [hnext] at w4
      generalize hs1 : (⟨s.c.sent wb ctl (s.c.ks.server.transcript ++ certificateMsg ctx [cert])
        (ciphertextRecord S s.c.ks.client.st.key s.c.ks.client.st.iv s.c.ks.client.st.counter 22
          (certificateMsg ctx [cert])), { s.h with trafficHash := some s.c.ks.server.transcript }⟩ : HSt V) = s1 at w4
      have hlog : s1.c.tx.log = s.c.tx.log ++ sentRecords (handshakeRecords S (writeKey S secret) (writeIv S secret) 0
          [certificateMsg ctx [cert]]) := by
        rw [← hs1, ← sentMsgs_records]
        simp [sentMsgs, hk, trafficState]
      have hsg : clientSignedContent S s1.c.ks.server.transcript =
          clientSigned S (f.transcript ++ certificateMsg ctx [cert]) := by
        rw [← hs1, ← htr]
        simp [clientSignedContent, clientSigned]
      rcases hsig : p.signer with ⟨sign, scheme⟩ | e | _
      · by_cases hok : ∃ sig, sign (clientSigned S (f.transcript ++ certificateMsg ctx [cert])) = some sig ∧
            sig.length ≤ signatureLimit S
        · obtain ⟨sig, hsig1, hsl⟩ := hok
          refine ⟨_, .signed ctx cert sign scheme scheme.code sig hst hc hp hsig (C04_signature_scheme.encode_table scheme) hsig1 hsl, ?_⟩
          rw [hst] at hfin
          have := hfin (.cert ctx cert sign scheme sig hcr hp hsig hfit (by rw [htr, ← hsig1]; simp [clientSignedContent, clientSigned])
            hsl (by
              simp [certificateVerifyMsg, handshake, vec16, vec24, u16, u24]
              omega))
          rwa [htr] at this
        · refine ⟨_, .noSignature ctx cert sign scheme hst hc hp hsig (fun sig h => by
            by_contra hle
            exact hok ⟨sig, h, by omega⟩), ?_⟩
          have hlen : (clientSignedContent S s1.c.ks.server.transcript).length ≤ 146 := by
            have h0 : (ascii "TLS 1.3, client CertificateVerify").length = 33 := by decide
            have := hS.hashLen_le
            simp only [clientSignedContent, List.length_append, List.length_replicate, h0, List.length_cons, List.length_nil,
              hS.hash_length]
            omega
          have hcv : clientCertVerify S p s1 = (.panic, s1) := by
            unfold clientCertVerify
            rw [M.get_bind]
            simp only [hsig]
            rw [if_neg (by omega), hsg]
            cases hs : sign (clientSigned S (f.transcript ++ certificateMsg ctx [cert])) with
            | none => rfl
            | some sig =>
              simp only
              rw [if_pos (by
                by_contra hle
                exact hok ⟨sig, hs, by unfold signatureSize at hle; unfold signatureLimit; omega⟩)]
              rfl
          rw [hstate, openLoop_step S cfg p (by simp) w4, openLoop_panic S cfg p (by simp) (s1 := s1)
            (by simp only [process]; rw [M.bind_panic hcv])]
          exact ⟨rfl, hlog⟩
      · refine ⟨_, .noSigner ctx cert e hst hc hp hsig, ?_⟩
        obtain ⟨s', u1, u2, u3, _⟩ := step_noSigner_fwd S hS cfg p s1 (e := e) (by rw [← hs1]; exact w1)
          (by rw [← hs1]; simp only [w2]; omega) (by rw [← hs1]; simp only [WriteKS.next, hk]; exact hiv) (by rw [← hs1]; exact w3)
          (by rw [← hs1]; simp only [WriteKS.next, hk]; exact (by decide : 0 + 1 + 1 < 2 ^ 64)) hsig
        rw [hstate, openLoop_step S cfg p (by simp) w4, openLoop_err S cfg p (by simp) u1]
        refine ⟨rfl, ?_, by simp only [u3]; rw [← hs1]⟩
        simp only [u2]
        rw [← hs1]
        simp [hk, sentRecords, ciphertextRecords, trafficState, WriteKS.next, alertMsg]
      · refine ⟨_, .badSigner ctx cert hst hc hp hsig, ?_⟩
        have hcv : clientCertVerify S p s1 = (.panic, s1) := by
          unfold clientCertVerify
          rw [M.get_bind]
          simp only [hsig]
          rfl
        rw [hstate, openLoop_step S cfg p (by simp) w4, openLoop_panic S cfg p (by simp) (s1 := s1)
          (by simp only [process]; rw [M.bind_panic hcv])]
        exact ⟨rfl, hlog⟩
    · refine ⟨_, .rawKey ctx key hst hc hp, ?_⟩
      obtain ⟨s', h1, h2⟩ := step_rawCert_fwd S cfg p s hs.idle (by omega) hcr hp
      rw [hstate, openLoop_panic S cfg p (by simp) h1]
      refine ⟨rfl, ?_⟩
      simp [h2, handshakeRecords, ciphertextRecords, sentRecords]
  · rw [hst] at hfin
    exact ⟨_, .finished t hst, hfin (.plain t (hs.keeping.traffic t hst))⟩

end ETls
