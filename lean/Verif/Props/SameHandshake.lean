import Verif.Proofs.Clash
import Verif.Props.KeyShare

/-! # C103: Finished, binders and signatures bind both sides to one handshake; C104: secrets and keys do not repeat

"Unless two of the listed hash inputs clash" is `Spec.Clash`: two different strings out of explicit lists — the strings each
side feeds to the hash function on the way — with the same digest. -/

namespace ETls

open Spec Crypto

variable {V : Type}

/-- The suites of the crate use SHA-256 and SHA-384. -/
theorem Shipped.usesHash {S : Suite} (h : Shipped S) : UsesHash S hSha256 ∨ UsesHash S hSha384 := by
  obtain ⟨rsa, rfl | rfl⟩ := h
  · exact .inl ⟨rfl, by decide, by decide, by decide, rfl, rfl, rfl, rfl⟩
  · exact .inr ⟨rfl, by decide, by decide, by decide, rfl, rfl, rfl, rfl⟩

/-- A handshake message whose length fits its field can be told from what follows. -/
theorem handshake_split {t t' : UInt8} {b b' r r' : Bytes} (hb : b.length < 16777216) (hb' : b'.length < 16777216)
    (h : handshake t b ++ r = handshake t' b' ++ r') : handshake t b = handshake t' b' ∧ r = r' := by
  have hl : b.length = b'.length := by
    simp only [handshake, vec24, u24, List.cons_append, List.nil_append, List.cons.injEq] at h
    obtain ⟨-, h1, h2, h3, -⟩ := h
    have h1 := congrArg UInt8.toNat h1
    have h2 := congrArg UInt8.toNat h2
    have h3 := congrArg UInt8.toNat h3
    simp only [UInt8.toNat_ofNat'] at h1 h2 h3
    omega
  exact List.append_inj h (by simp [handshake, vec24, u24, hl])

/-- The ClientHello of a session is a handshake message whose length fits. -/
theorem Established.delimited {S : Suite} (hS : S.Lawful) {cfg : Config} {p : Provider V} {v : V} {c c' : Conn} {x : Session}
    (hx : Established S cfg p v c x c') (hfit : HelloFits S cfg p) :
    x.hello = helloMsg S cfg p ∧ ∃ body, body.length < 16777216 ∧ x.hello = handshake 1 body := by
  obtain ⟨binders, b1, b2, b3⟩ := hx.hello
  have e : x.hello = helloMsg S cfg p := by rw [b1, hello_unique S cfg p binders b2 b3]
  refine ⟨e, _, ?_, e⟩
  have hlen : (helloMsg S cfg p).length = helloLength S cfg p := by
    unfold helloLength helloMsg
    rw [← helloBytes_spec S ⟨cfg, p.random, p.secret⟩, ← helloBytes_spec S ⟨cfg, p.random, p.secret⟩]
    apply hello_length
    have h8 : ∀ b : Bytes, (vec8 b).length = 1 + b.length := fun b => by simp [vec8]; omega
    simp [List.flatMap_replicate, h8, hS.hmac_length, helloBinder, verifyData]
  have h1 := hfit.length
  rw [← hlen, helloMsg, ChMsg.bytes] at h1
  simp only [handshake, vec24, u24, List.length_cons, List.length_append, List.length_nil] at h1
  omega

theorem psk_secrets (S : Suite) {a b : Option Bytes} (h : a.getD (zeros S) = b.getD (zeros S)) (dhe tr : Bytes) :
    clientApplicationTraffic S a dhe tr = clientApplicationTraffic S b dhe tr ∧
    serverApplicationTraffic S a dhe tr = serverApplicationTraffic S b dhe tr := by
  simp [clientApplicationTraffic, serverApplicationTraffic, masterSecret, handshakeSecret, earlySecret, h]

/-! ## C103 -/

/-- The server's verify_data determines everything it was computed from. -/
theorem serverFinished_clash {S : Suite} {H : Hash} (hu : UsesHash S H) {psk psk' : Option Bytes} {dhe dhe' tr tr' m m' : Bytes}
    (h : verifyData S (serverHandshakeTraffic S psk dhe tr) m = verifyData S (serverHandshakeTraffic S psk' dhe' tr') m') :
    (psk.getD (zeros S) = psk'.getD (zeros S) ∧ dhe = dhe' ∧ tr = tr' ∧ m = m') ∨
      Clash H H.len (serverFinishedInputs S H psk dhe tr m) (serverFinishedInputs S H psk' dhe' tr' m') := by
  rcases verify_clash hu (derive_length hu _ _ _) (derive_length hu _ _ _) h with ⟨e1, e2⟩ | e
  · rcases handshakeTraffic_clash hu (by decide) (by decide) e1 with ⟨e3, e4, -, e5⟩ | e
    · exact .inl ⟨e3, e4, e5, e2⟩
    · exact .inr (e.mono (by inputs serverFinishedInputs) (by inputs serverFinishedInputs))
  · refine .inr (e.mono ?_ ?_) <;>
    · intro z hz
      exact List.mem_append_right _ hz

/-- … and so does the client's. -/
theorem clientFinished_clash {S : Suite} {H : Hash} (hu : UsesHash S H) {psk psk' : Option Bytes} {dhe dhe' tr tr' m m' : Bytes}
    (h : verifyData S (clientHandshakeTraffic S psk dhe tr) m = verifyData S (clientHandshakeTraffic S psk' dhe' tr') m') :
    (psk.getD (zeros S) = psk'.getD (zeros S) ∧ dhe = dhe' ∧ tr = tr' ∧ m = m') ∨
      Clash H H.len (clientFinishedInputs S H psk dhe tr m) (clientFinishedInputs S H psk' dhe' tr' m') := by
  rcases verify_clash hu (derive_length hu _ _ _) (derive_length hu _ _ _) h with ⟨e1, e2⟩ | e
  · rcases handshakeTraffic_clash hu (by decide) (by decide) e1 with ⟨e3, e4, -, e5⟩ | e
    · exact .inl ⟨e3, e4, e5, e2⟩
    · exact .inr (e.mono (by inputs clientFinishedInputs) (by inputs clientFinishedInputs))
  · refine .inr (e.mono ?_ ?_) <;>
    · intro z hz
      exact List.mem_append_right _ hz

/-- **C103, what the client accepted** `open` succeeded, and the Finished the client accepted was computed by a server from
*its* PSK, *its* shared secret, the ClientHello *it* saw, the ServerHello and the messages *it* sent.  Then all of these are
the client's own, and the application keys of the connection are those the server derives from its values — unless two of the
listed hash inputs clash. -/
theorem C103_client {S : Suite} (hS : S.Lawful) {H : Hash} (hu : UsesHash S H) (cfg : Config) (p : Provider V) (v : V)
    {c c' : Conn} (hf : c.Fresh S) (hfit : HelloFits S cfg p) (h : Conn.open_ S cfg p v c = (.ok (), c')) :
    ∃ x : Session, Established S cfg p v c x c' ∧ ∃ before fm vd after, x.msgs = before ++ (fm, .finished vd) :: after ∧
      ∀ (psk : Option Bytes) (dhe : Bytes) (ty : UInt8) (body sh flight : Bytes), body.length < 16777216 →
        vd = verifyData S (serverHandshakeTraffic S psk dhe (handshake ty body ++ sh)) (handshake ty body ++ sh ++ flight) →
        ((cfg.psk.map (·.1)).getD (zeros S) = psk.getD (zeros S) ∧ x.dhe = dhe ∧ x.hello = handshake ty body ∧ x.sh = sh ∧
          Session.bytesOf before = flight ∧
          ∃ rest, (lastRequest before = none → rest = []) ∧
            c'.ks.client.st = trafficState S
              (clientApplicationTraffic S psk dhe (handshake ty body ++ sh ++ flight ++ fm ++ rest)) ∧
            c'.ks.server.st = trafficState S
              (serverApplicationTraffic S psk dhe (handshake ty body ++ sh ++ flight ++ fm ++ rest))) ∨
        Clash H H.len
          (serverFinishedInputs S H (cfg.psk.map (·.1)) x.dhe (x.hello ++ x.sh) (x.hello ++ x.sh ++ Session.bytesOf before))
          (serverFinishedInputs S H psk dhe (handshake ty body ++ sh) (handshake ty body ++ sh ++ flight)) := by
  obtain ⟨x, hx⟩ := open_session S hS cfg p v hf h
  obtain ⟨-, hb, hbl, he⟩ := hx.delimited hS hfit
  obtain ⟨before, fm, vd, after, e1, -, e2⟩ := hx.ending
  refine ⟨x, hx, before, fm, vd, after, e1, fun psk dhe ty body sh flight hl hvd => ?_⟩
  have hv := hx.finished before fm vd after e1
  rw [hv] at hvd
  rcases serverFinished_clash hu hvd with ⟨f1, f2, f3, f4⟩ | f
  · left
    have f5 : x.hello ++ x.sh = handshake ty body ++ sh := f3
    have f6 : x.tr0 ++ Session.bytesOf before = handshake ty body ++ sh ++ flight := f4
    have f7 : Session.bytesOf before = flight := by
      rw [f3] at f6
      exact List.append_cancel_left f6
    have f8 : x.hello = handshake ty body ∧ x.sh = sh := by
      rw [he] at f5 ⊢
      exact handshake_split hbl hl f5
    refine ⟨f1, f2, f8.1, f8.2, f7, ?_⟩
    have ht : ∃ rest, (lastRequest before = none → rest = []) ∧ x.traffic = handshake ty body ++ sh ++ flight ++ fm ++ rest := by
      rcases e2 with ⟨-, -, e3⟩ | ⟨e3, e4, -⟩
      · exact ⟨[], fun _ => rfl, by rw [e3, f6, List.append_nil]⟩
      · refine ⟨Session.bytesOf after, fun h => absurd h e3, ?_⟩
        rw [e4, e1, ← f6]
        simp [Session.bytesOf]
    obtain ⟨rest, r1, r2⟩ := ht
    obtain ⟨p1, p2⟩ := psk_secrets S f1 dhe x.traffic
    refine ⟨rest, r1, ?_, ?_⟩
    · rw [hx.clientKeys, f2, ← r2, p1]
    · rw [hx.serverKeys, f2, ← r2, p2]
  · exact .inr f

/-- **C103, what a server accepts** `open` succeeded, and a server finds in the Finished the client sent the value it computes
from *its* PSK, *its* shared secret, the ClientHello *it* saw, the ServerHello *it* sent, and all further messages of both
sides as *it* saw them.  Then these are the client's — unless two of the listed hash inputs clash. -/
theorem C103_server {S : Suite} (hS : S.Lawful) {H : Hash} (hu : UsesHash S H) (cfg : Config) (p : Provider V) (v : V)
    {c c' : Conn} (hf : c.Fresh S) (hfit : HelloFits S cfg p) (h : Conn.open_ S cfg p v c = (.ok (), c')) :
    ∃ x : Session, Established S cfg p v c x c' ∧ ∃ vd : Bytes,
      c'.tx.log = c.tx.log ++ sentRecords (plaintextRecord 22 [3, 1] x.hello ::
        handshakeRecords S (writeKey S (x.clientSecret S (cfg.psk.map (·.1)))) (writeIv S (x.clientSecret S (cfg.psk.map (·.1)))) 0
          (x.clientMsgs ++ [finishedMsg vd])) ∧
      ∀ (psk : Option Bytes) (dhe : Bytes) (ty : UInt8) (body sh rest : Bytes), body.length < 16777216 →
        vd = verifyData S (clientHandshakeTraffic S psk dhe (handshake ty body ++ sh)) (handshake ty body ++ sh ++ rest) →
        ((cfg.psk.map (·.1)).getD (zeros S) = psk.getD (zeros S) ∧ x.dhe = dhe ∧ x.hello = handshake ty body ∧ x.sh = sh ∧
          Session.bytesOf x.msgs ++ x.clientMsgs.flatten = rest) ∨
        Clash H H.len (clientFinishedInputs S H (cfg.psk.map (·.1)) x.dhe (x.hello ++ x.sh)
            (x.hello ++ x.sh ++ Session.bytesOf x.msgs ++ x.clientMsgs.flatten))
          (clientFinishedInputs S H psk dhe (handshake ty body ++ sh) (handshake ty body ++ sh ++ rest)) := by
  obtain ⟨x, hx⟩ := open_session S hS cfg p v hf h
  obtain ⟨-, hb, hbl, he⟩ := hx.delimited hS hfit
  refine ⟨x, hx, _, hx.sent, fun psk dhe ty body sh rest hl hvd => ?_⟩
  rcases clientFinished_clash hu hvd with ⟨f1, f2, f3, f4⟩ | f
  · left
    have f5 : x.hello ++ x.sh = handshake ty body ++ sh := f3
    have f6 : x.tr0 ++ Session.bytesOf x.msgs ++ x.clientMsgs.flatten = handshake ty body ++ sh ++ rest := f4
    rw [f3, List.append_assoc _ (Session.bytesOf x.msgs)] at f6
    have f8 : x.hello = handshake ty body ∧ x.sh = sh := by
      rw [he] at f5 ⊢
      exact handshake_split hbl hl f5
    exact ⟨f1, f2, f8.1, f8.2, List.append_cancel_left f6⟩
  · exact .inr f

/-- **C103, the binder** A server that finds in a binder of the ClientHello the value it computes from *its* PSK and the
truncated ClientHello *it* saw has the client's PSK and saw the client's truncated ClientHello — unless two of the listed hash
inputs clash. -/
theorem C103_binder {S : Suite} (hS : S.Lawful) {H : Hash} (hu : UsesHash S H) (cfg : Config) (p : Provider V) (v : V)
    {c c' : Conn} (hf : c.Fresh S) (h : Conn.open_ S cfg p v c = (.ok (), c')) :
    ∃ binders, (∃ rest, c'.tx.log = c.tx.log ++ sentRecords (plaintextRecord 22 [3, 1]
        (expectedHello cfg S.codePoint p.random (S.pubKey p.secret) binders).bytes :: rest)) ∧
      ∀ b ∈ binders, ∀ (psk : Option Bytes) (seen : Bytes), b = verifyData S (binderKey S psk) seen →
        ((cfg.psk.map (·.1)).getD (zeros S) = psk.getD (zeros S) ∧
          (expectedHello cfg S.codePoint p.random (S.pubKey p.secret) binders).truncated = seen) ∨
        Clash H H.len (binderInputs S H (cfg.psk.map (·.1))
            (expectedHello cfg S.codePoint p.random (S.pubKey p.secret) binders).truncated)
          (binderInputs S H psk seen) := by
  obtain ⟨x, hx⟩ := open_session S hS cfg p v hf h
  obtain ⟨binders, b1, -, b3⟩ := hx.hello
  have hsent := hx.sent
  rw [b1] at hsent
  refine ⟨binders, ⟨_, hsent⟩, fun b hb psk seen hv => ?_⟩
  rw [(b3 b hb).2] at hv
  rcases verify_clash hu (derive_length hu _ _ _) (derive_length hu _ _ _) hv with ⟨e1, e2⟩ | e
  · rcases derive_clash hu (early_length hu _) (early_length hu _) (by decide) (by decide) e1 with ⟨e3, -, -⟩ | e
    · rcases early_clash hu e3 with e4 | e
      · exact .inl ⟨e4, e2⟩
      · exact .inr (e.mono (by inputs binderInputs) (by inputs binderInputs))
    · exact .inr (e.mono (by inputs binderInputs) (by inputs binderInputs))
  · refine .inr (e.mono ?_ ?_) <;>
    · intro z hz
      exact List.mem_append_right _ hz

/-- **C103, reflection** No client's Finished is a server's Finished, whatever the two were computed from — unless two of the
listed hash inputs clash. -/
theorem C103_reflection {S : Suite} {H : Hash} (hu : UsesHash S H) (psk psk' : Option Bytes) (dhe dhe' tr tr' m m' : Bytes)
    (h : verifyData S (serverHandshakeTraffic S psk dhe tr) m = verifyData S (clientHandshakeTraffic S psk' dhe' tr') m') :
    Clash H H.len (serverFinishedInputs S H psk dhe tr m) (clientFinishedInputs S H psk' dhe' tr' m') := by
  rcases verify_clash hu (derive_length hu _ _ _) (derive_length hu _ _ _) h with ⟨e1, -⟩ | e
  · rcases handshakeTraffic_clash hu (by decide) (by decide) e1 with ⟨-, -, e2, -⟩ | e
    · exact absurd e2 (by decide)
    · exact e.mono (by inputs serverFinishedInputs) (by inputs clientFinishedInputs)
  · refine e.mono ?_ ?_ <;>
    · intro z hz
      exact List.mem_append_right _ hz

/-- **C103, signatures** What a server's CertificateVerify signs determines the transcript, unless the two transcripts
themselves clash; and it is never what a client's CertificateVerify signs. -/
theorem C103_signed {S : Suite} {H : Hash} (hu : UsesHash S H) (m m' : Bytes) :
    (serverSignedContent S m = serverSignedContent S m' → m = m' ∨ Clash H H.len [m] [m']) ∧
    (clientSigned S m = clientSigned S m' → m = m' ∨ Clash H H.len [m] [m']) ∧
    serverSignedContent S m ≠ clientSigned S m' := by
  have key : S.hash m = S.hash m' → m = m' ∨ Clash H H.len [m] [m'] := by
    intro e
    rw [hu.hash] at e
    by_cases hm : m = m'
    · exact .inl hm
    · exact .inr ⟨m, List.mem_singleton_self _, m', List.mem_singleton_self _, hm, by rw [e]⟩
  refine ⟨fun h => key (List.append_cancel_left h), fun h => key (List.append_cancel_left h), fun h => ?_⟩
  unfold serverSignedContent clientSigned at h
  rw [List.append_assoc, List.append_assoc, List.append_assoc, List.append_assoc] at h
  have h1 := List.append_cancel_left h
  obtain ⟨h2, -⟩ := List.append_inj h1 (by decide)
  exact absurd h2 (by decide)

/-! ## C104 -/

namespace Spec

/-- The four traffic secrets of a connection (RFC 8446 section 7.1). -/
inductive TrafficRole where
  | clientHandshake | serverHandshake | clientApplication | serverApplication
  deriving DecidableEq

/-- The secret of a role. -/
def TrafficRole.secret (S : Suite) (psk : Option Bytes) (dhe tr : Bytes) : TrafficRole → Bytes
  | .clientHandshake => clientHandshakeTraffic S psk dhe tr
  | .serverHandshake => serverHandshakeTraffic S psk dhe tr
  | .clientApplication => clientApplicationTraffic S psk dhe tr
  | .serverApplication => serverApplicationTraffic S psk dhe tr

/-- What is hashed on the way to it. -/
def TrafficRole.inputs (S : Suite) (H : Hash) (psk : Option Bytes) (dhe tr : Bytes) : TrafficRole → List Bytes
  | .clientHandshake => handshakeTrafficInputs S H "c hs traffic" psk dhe tr
  | .serverHandshake => handshakeTrafficInputs S H "s hs traffic" psk dhe tr
  | .clientApplication => applicationTrafficInputs S H "c ap traffic" psk dhe tr
  | .serverApplication => applicationTrafficInputs S H "s ap traffic" psk dhe tr

/-- What is hashed on the way to its write key. -/
def TrafficRole.keyInputs (S : Suite) (H : Hash) (psk : Option Bytes) (dhe tr : Bytes) (r : TrafficRole) : List Bytes :=
  r.inputs S H psk dhe tr ++ labelInputs H (r.secret S psk dhe tr) "key" [] S.keyLen

end Spec

theorem Clash.symm {H : Hash} {n : Nat} {xs ys : List Bytes} (h : Clash H n xs ys) : Clash H n ys xs := by
  obtain ⟨x, hx, y, hy, h1, h2⟩ := h
  exact ⟨y, hy, x, hx, h1.symm, h2.symm⟩

/-- **C104, secrets** Two traffic secrets — of one connection or of two, of either side and either epoch — are equal only if
they have the same role, the same PSK, the same shared secret and the same transcript, unless two of the listed hash inputs
clash. -/
theorem C104_secrets {S : Suite} {H : Hash} (hu : UsesHash S H) (r r' : TrafficRole) (psk psk' : Option Bytes)
    (dhe dhe' tr tr' : Bytes) (h : r.secret S psk dhe tr = r'.secret S psk' dhe' tr') :
    (r = r' ∧ psk.getD (zeros S) = psk'.getD (zeros S) ∧ dhe = dhe' ∧ tr = tr') ∨
      Clash H H.len (r.inputs S H psk dhe tr) (r'.inputs S H psk' dhe' tr') := by
  cases r <;> cases r' <;> simp only [TrafficRole.secret] at h <;> simp only [TrafficRole.inputs]
  all_goals first
    | (rcases handshakeTraffic_clash hu (by decide) (by decide) h with ⟨e1, e2, e3, e4⟩ | e
       · first
         | exact .inl ⟨by trivial, e1, e2, e4⟩
         | exact absurd e3 (by decide)
       · exact .inr e)
    | (rcases applicationTraffic_clash hu (by decide) (by decide) h with ⟨e1, e2, e3, e4⟩ | e
       · first
         | exact .inl ⟨by trivial, e1, e2, e4⟩
         | exact absurd e3 (by decide)
       · exact .inr e)
    | exact .inr (mixed_clash hu (by decide) (by decide) (by decide) h)
    | exact .inr (Clash.symm (mixed_clash hu (by decide) (by decide) (by decide) h.symm))

theorem TrafficRole.secret_length {S : Suite} {H : Hash} (hu : UsesHash S H) (r : TrafficRole) (psk : Option Bytes)
    (dhe tr : Bytes) : (r.secret S psk dhe tr).length = H.len := by
  cases r <;> exact derive_length hu _ _ _

/-- **C104, keys** The same for the write keys; a key is the beginning of a digest, so here a clash is two of the listed
strings whose digests agree on as many bytes as a key has. -/
theorem C104_keys {S : Suite} {H : Hash} (hu : UsesHash S H) (hk : 1 ≤ S.keyLen ∧ S.keyLen ≤ H.len) (r r' : TrafficRole)
    (psk psk' : Option Bytes) (dhe dhe' tr tr' : Bytes)
    (h : writeKey S (r.secret S psk dhe tr) = writeKey S (r'.secret S psk' dhe' tr')) :
    (r = r' ∧ psk.getD (zeros S) = psk'.getD (zeros S) ∧ dhe = dhe' ∧ tr = tr') ∨
      Clash H S.keyLen (r.keyInputs S H psk dhe tr) (r'.keyInputs S H psk' dhe' tr') := by
  rcases label_clash hu hk.1 hk.2 (TrafficRole.secret_length hu r _ _ _) (TrafficRole.secret_length hu r' _ _ _) (by decide)
    (by decide) h with ⟨e, -, -⟩ | e
  · rcases C104_secrets hu r r' psk psk' dhe dhe' tr tr' e with e | e
    · exact .inl e
    · exact .inr ((e.less hk.2).mono (List.subset_append_left _ _) (List.subset_append_left _ _))
  · exact .inr (e.mono (List.subset_append_right _ _) (List.subset_append_right _ _))

/-- The transcript from which the keys of a connection come begins with the ClientHello. -/
theorem Established.traffic_hello {S : Suite} {cfg : Config} {p : Provider V} {v : V} {c c' : Conn} {x : Session}
    (hx : Established S cfg p v c x c') : ∃ rest, x.traffic = x.hello ++ rest := by
  obtain ⟨a, fm, vd, b, e1, -, e2⟩ := hx.ending
  rcases e2 with ⟨-, -, e3⟩ | ⟨-, e4, -⟩
  · exact ⟨x.sh ++ Session.bytesOf a ++ fm, by rw [e3]; simp [Session.tr0]⟩
  · exact ⟨x.sh ++ Session.bytesOf x.msgs, by rw [e4]; simp [Session.tr0]⟩

/-- **C104, connections** Two connections opened with different client randoms share no write key, in either direction, and
the two directions of one connection never have the same key — unless the digests of two of the listed hash inputs agree on
as many bytes as a key has. -/
theorem C104_connections {S : Suite} (hs : Shipped S) {H : Hash} (hu : UsesHash S H)
    (cfg₁ cfg₂ : Config) (p₁ p₂ : Provider V) (v₁ v₂ : V) {c₁ c₁' c₂ c₂' : Conn} (hf₁ : c₁.Fresh S) (hf₂ : c₂.Fresh S)
    (hfit₁ : HelloFits S cfg₁ p₁) (hfit₂ : HelloFits S cfg₂ p₂)
    (h₁ : Conn.open_ S cfg₁ p₁ v₁ c₁ = (.ok (), c₁')) (h₂ : Conn.open_ S cfg₂ p₂ v₂ c₂ = (.ok (), c₂')) :
    ∃ x₁ x₂ : Session, Established S cfg₁ p₁ v₁ c₁ x₁ c₁' ∧ Established S cfg₂ p₂ v₂ c₂ x₂ c₂' ∧
      (c₁'.ks.client.st.key = c₁'.ks.server.st.key →
        Clash H S.keyLen (TrafficRole.clientApplication.keyInputs S H (cfg₁.psk.map (·.1)) x₁.dhe x₁.traffic)
          (TrafficRole.serverApplication.keyInputs S H (cfg₁.psk.map (·.1)) x₁.dhe x₁.traffic)) ∧
      (p₁.random ≠ p₂.random →
        (c₁'.ks.client.st.key = c₂'.ks.client.st.key →
          Clash H S.keyLen (TrafficRole.clientApplication.keyInputs S H (cfg₁.psk.map (·.1)) x₁.dhe x₁.traffic)
            (TrafficRole.clientApplication.keyInputs S H (cfg₂.psk.map (·.1)) x₂.dhe x₂.traffic)) ∧
        (c₁'.ks.server.st.key = c₂'.ks.server.st.key →
          Clash H S.keyLen (TrafficRole.serverApplication.keyInputs S H (cfg₁.psk.map (·.1)) x₁.dhe x₁.traffic)
            (TrafficRole.serverApplication.keyInputs S H (cfg₂.psk.map (·.1)) x₂.dhe x₂.traffic)) ∧
        (c₁'.ks.client.st.key = c₂'.ks.server.st.key →
          Clash H S.keyLen (TrafficRole.clientApplication.keyInputs S H (cfg₁.psk.map (·.1)) x₁.dhe x₁.traffic)
            (TrafficRole.serverApplication.keyInputs S H (cfg₂.psk.map (·.1)) x₂.dhe x₂.traffic))) := by
  have hS := C95_lawful S hs
  have hk : 1 ≤ S.keyLen ∧ S.keyLen ≤ H.len := by
    rw [← hu.len]
    obtain ⟨rsa, rfl | rfl⟩ := hs <;> constructor <;> simp [aes128GcmSha256, aes256GcmSha384]
  obtain ⟨x₁, hx₁⟩ := open_session S hS cfg₁ p₁ v₁ hf₁ h₁
  obtain ⟨x₂, hx₂⟩ := open_session S hS cfg₂ p₂ v₂ hf₂ h₂
  obtain ⟨m₁, b₁, l₁, d₁⟩ := hx₁.delimited hS hfit₁
  obtain ⟨m₂, b₂, l₂, d₂⟩ := hx₂.delimited hS hfit₂
  obtain ⟨r₁, t₁⟩ := hx₁.traffic_hello
  obtain ⟨r₂, t₂⟩ := hx₂.traffic_hello
  have hne : p₁.random ≠ p₂.random → x₁.traffic ≠ x₂.traffic := by
    intro hr ht
    rw [t₁, t₂] at ht
    have hh : x₁.hello = x₂.hello := by
      rw [d₁, d₂] at ht ⊢
      exact (handshake_split l₁ l₂ ht).1
    have e₁ := helloMsg_decodes hS hs.p256.2.2 cfg₁ p₁ hfit₁
    have e₂ := helloMsg_decodes hS hs.p256.2.2 cfg₂ p₂ hfit₂
    rw [← m₁, hh, m₂, e₂] at e₁
    injection e₁ with e₁
    exact hr (congrArg ChMsg.random e₁).symm
  refine ⟨x₁, x₂, hx₁, hx₂, ?_, fun hr => ⟨?_, ?_, ?_⟩⟩
  · intro h
    rw [hx₁.clientKeys, hx₁.serverKeys] at h
    rcases C104_keys hu hk .clientApplication .serverApplication _ _ _ _ _ _ h with ⟨e, -⟩ | e
    · cases e
    · exact e
  · intro h
    rw [hx₁.clientKeys, hx₂.clientKeys] at h
    rcases C104_keys hu hk .clientApplication .clientApplication _ _ _ _ _ _ h with ⟨-, -, -, e⟩ | e
    · exact absurd e (hne hr)
    · exact e
  · intro h
    rw [hx₁.serverKeys, hx₂.serverKeys] at h
    rcases C104_keys hu hk .serverApplication .serverApplication _ _ _ _ _ _ h with ⟨-, -, -, e⟩ | e
    · exact absurd e (hne hr)
    · exact e
  · intro h
    rw [hx₁.clientKeys, hx₂.serverKeys] at h
    rcases C104_keys hu hk .clientApplication .serverApplication _ _ _ _ _ _ h with ⟨e, -⟩ | e
    · cases e
    · exact e

/-! ## Examples -/

-- a connection with OpenSSL: the hypotheses of C103_client, C103_server and C103_binder, and a server whose values meet those
-- of C103_client
example : UsesHash (aes256GcmSha384 false) hSha384 ∧ HelloFits (aes256GcmSha384 false) (recCfg [])
      (recProvider.provider (V := Unit) (p256Lib derTags)) ∧ ∃ c c', Conn.Fresh (aes256GcmSha384 false) c ∧
    Conn.open_ (aes256GcmSha384 false) (recCfg []) (recProvider.provider (p256Lib derTags)) () c = (.ok (), c') ∧
    ∃ x : Session, Established (aes256GcmSha384 false) (recCfg []) (recProvider.provider (p256Lib derTags)) () c x c' ∧
      ∃ before fm vd after body, x.msgs = before ++ (fm, .finished vd) :: after ∧ body.length < 16777216 ∧
        x.hello = handshake 1 body ∧ vd = verifyData (aes256GcmSha384 false)
          (serverHandshakeTraffic (aes256GcmSha384 false) ((recCfg []).psk.map (·.1)) x.dhe (handshake 1 body ++ x.sh))
          (handshake 1 body ++ x.sh ++ Session.bytesOf before) := by
  refine ⟨⟨rfl, by decide, by decide, by decide, rfl, rfl, rfl, rfl⟩, rec_fits, ?_⟩
  obtain ⟨c, c', h1, -, h3⟩ := recRun_opens openssl_client_auth
  refine ⟨c, c', h1, h3, ?_⟩
  obtain ⟨x, hx⟩ := open_session _ (aes256GcmSha384_lawful false) _ _ _ h1 h3
  obtain ⟨-, body, hl, he⟩ := hx.delimited (aes256GcmSha384_lawful false) rec_fits
  obtain ⟨before, fm, vd, after, e1, -, -⟩ := hx.ending
  have hv := hx.finished before fm vd after e1
  rw [Session.serverSecret, Session.tr0, he] at hv
  exact ⟨x, hx, before, fm, vd, after, body, e1, hl, he, hv⟩

-- C104_keys: with the suites of the crate a key is not longer than a digest
example : 1 ≤ (aes256GcmSha384 false).keyLen ∧ (aes256GcmSha384 false).keyLen ≤ hSha384.len := by decide

/-- A hash function that only looks at the length. -/
def lengthHash : Hash := ⟨fun m => [UInt8.ofNat m.length], 1, 1, fun _ => rfl⟩

-- a clash is a real demand: there is none between these lists, and there is one between those
example : ¬ Clash lengthHash 1 [[1], [2]] [[1, 2], []] ∧ Clash lengthHash 1 [[1], [2]] [[1, 2], [3]] := by
  unfold Clash
  decide

end ETls
