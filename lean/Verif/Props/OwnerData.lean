import Verif.Props.KeyOwner
import Verif.Props.Forgery

/-! # C116: what the application reads was sent by the owner of the certificate's key -/

namespace ETls

open Spec Crypto

variable {V : Type}

namespace Spec

/-- A server's whole side of a connection: its handshake up to its Certificate, its PSK if any, the messages it sent between
the Certificate and its Finished, and the fragments it sent after the handshake. -/
structure ServerLife where
  run : ServerRun
  psk : Option Bytes
  rest : Bytes
  sent : List Fragment

/-- The verify_data of the server's own Finished, when `dhe` is the shared secret. -/
def ServerLife.finished (S : Suite) (l : ServerLife) (dhe : Bytes) : Bytes :=
  verifyData S (serverHandshakeTraffic S l.psk dhe (l.run.hello ++ l.run.sh)) (l.run.transcript ++ l.rest)

/-- ClientHello...server Finished, as the server has it. -/
def ServerLife.traffic (S : Suite) (l : ServerLife) (dhe : Bytes) : Bytes :=
  l.run.transcript ++ l.rest ++ finishedMsg (l.finished S dhe)

/-- The server's own application secrets. -/
def ServerLife.clientSecret (S : Suite) (l : ServerLife) (dhe : Bytes) : Bytes :=
  clientApplicationTraffic S l.psk dhe (l.traffic S dhe)

def ServerLife.serverSecret (S : Suite) (l : ServerLife) (dhe : Bytes) : Bytes :=
  serverApplicationTraffic S l.psk dhe (l.traffic S dhe)

/-- The last Finished that the client took is this one, and it took nothing after it that counts: without a
CertificateRequest the messages after Finished do not. -/
def TookFinished (x : Session) (vd : Bytes) : Prop :=
  ∃ before after, x.msgs = before ++ (finishedMsg vd, .finished vd) :: after ∧ noFinished after ∧
    (lastRequest before = none ∨ after = [])

end Spec

/-- There is one last Finished. -/
theorem lastFinished_unique : ∀ {a a' b b' : List (Bytes × RawMsg)} {fm fm' vd vd' : Bytes},
    a ++ (fm, .finished vd) :: b = a' ++ (fm', .finished vd') :: b' → noFinished b → noFinished b' →
    a = a' ∧ fm = fm' ∧ vd = vd' ∧ b = b' := by
  intro a
  induction a with
  | nil =>
    intro a' b b' fm fm' vd vd' h hb hb'
    cases a' with
    | nil =>
      simp only [List.nil_append, List.cons.injEq, Prod.mk.injEq, RawMsg.finished.injEq] at h
      exact ⟨rfl, h.1.1, h.1.2, h.2⟩
    | cons y a' =>
      simp only [List.nil_append, List.cons_append, List.cons.injEq] at h
      exact absurd rfl (hb (fm', .finished vd') (by rw [h.2]; simp) vd')
  | cons y a ih =>
    intro a' b b' fm fm' vd vd' h hb hb'
    cases a' with
    | nil =>
      simp only [List.nil_append, List.cons_append, List.cons.injEq] at h
      exact absurd rfl (hb' (fm, .finished vd) (by rw [← h.2]; simp) vd)
    | cons z a' =>
      simp only [List.cons_append, List.cons.injEq] at h
      obtain ⟨rfl, h⟩ := h
      obtain ⟨rfl, e⟩ := ih h hb hb'
      exact ⟨rfl, e⟩

/-- If the client took the server's own Finished, its application keys are the server's. -/
theorem Established.keys {S : Suite} {H : Hash} (hu : UsesHash S H) {cfg : Config} {p : Provider V} {v : V}
    {c c' : Conn} {x : Session} (hx : Established S cfg p v c x c') {l : ServerLife} (ht : TookFinished x (l.finished S x.dhe)) :
    (c'.ks.client.st = trafficState S (l.clientSecret S x.dhe) ∧ c'.ks.server.st = trafficState S (l.serverSecret S x.dhe)) ∨
    ∃ before, Clash H H.len
      (serverFinishedInputs S H (cfg.psk.map (·.1)) x.dhe (x.hello ++ x.sh) (x.hello ++ x.sh ++ before))
      (serverFinishedInputs S H l.psk x.dhe (l.run.hello ++ l.run.sh) (l.run.transcript ++ l.rest)) := by
  obtain ⟨before, after, e1, e2, e3⟩ := ht
  have hv := hx.finished _ _ _ _ e1
  rcases serverFinished_clash hu (hv.symm : _ = ServerLife.finished S l x.dhe) with ⟨f1, -, f3, f4⟩ | f
  · left
    have htr : x.traffic = l.traffic S x.dhe := by
      obtain ⟨a, fm, vd, b, g1, g2, g3⟩ := hx.ending
      obtain ⟨rfl, rfl, rfl, rfl⟩ := lastFinished_unique (e1.symm.trans g1) e2 g2
      rcases g3 with ⟨-, -, g4⟩ | ⟨g4, g5, -⟩
      · rw [g4, f4]; rfl
      · rcases e3 with e3 | rfl
        · exact absurd e3 g4
        · rw [g5, g1]
          have : Session.bytesOf (before ++ [(finishedMsg (l.finished S x.dhe), .finished (l.finished S x.dhe))]) =
              Session.bytesOf before ++ finishedMsg (l.finished S x.dhe) := by simp [Session.bytesOf]
          rw [this, ← List.append_assoc, f4]
          rfl
    obtain ⟨p1, p2⟩ := psk_secrets S f1 x.dhe x.traffic
    rw [hx.clientKeys, hx.serverKeys, p1, p2, htr]
    exact ⟨rfl, rfl⟩
  · exact .inr ⟨Session.bytesOf before, f⟩

namespace Spec

/-- What C116 says about a connection and one life of the owner of the certificate's key, with the shared secret `dhe` that the
owner computes: the client took another Finished than the owner's, or two different strings have the same hash, or the
connection has the owner's application keys, and what the client reads is a prefix of what the owner sent, unless a record is
forged under the owner's key. -/
inductive OwnerData (S : Suite) (H : Hash) (x : Session) (psk : Option Bytes) (c' : Conn) (l : ServerLife) (dhe : Bytes) : Prop
  | otherFinished : ¬ TookFinished x (l.finished S dhe) → OwnerData S H x psk c' l dhe
  | clash (before : Bytes) : Clash H H.len
      (serverFinishedInputs S H psk dhe (x.hello ++ x.sh) (x.hello ++ x.sh ++ before))
      (serverFinishedInputs S H l.psk dhe (l.run.hello ++ l.run.sh) (l.run.transcript ++ l.rest)) → OwnerData S H x psk c' l dhe
  | same : c'.ks.client.st = trafficState S (l.clientSecret S dhe) → c'.ks.server.st = trafficState S (l.serverSecret S dhe) →
      (NoForgeryIn S (writeKey S (l.serverSecret S dhe)) (writeIv S (l.serverSecret S dhe)) l.sent 0 c'.rx.bytes →
        ∀ ops, delivered (runReads S ops c'.rd).1 <+: dataOf l.sent) → OwnerData S H x psk c' l dhe

end Spec

theorem Established.ownerData {S : Suite} (hs : Shipped S) {H : Hash} (hu : UsesHash S H) {cfg : Config} {p : Provider V} {v : V}
    {rx : Rx} {tx : Tx} {rb wb : Bytes} {c c' : Conn} (hn : Conn.new S rx tx rb wb = .ok c)
    (h : Conn.open_ S cfg p v c = (.ok (), c')) (hclean : rx.Clean) {x : Session} (hx : Established S cfg p v c x c')
    (hfit : HelloFits S cfg p) (ha : scalarOf p.secret ≠ 0) {before : Bytes} {l : ServerLife} (hp : l.run.Proper S)
    (ht : ∀ f ∈ l.sent, f.type ≠ 0) (ho : OtherEnd S (cfg.psk.map (·.1)) x before c' l.run) :
    ∃ dhe, AgreesOn l.run.hello l.run.secret (p256Public l.run.secret) dhe ∧
      OwnerData S H x (cfg.psk.map (·.1)) c' l dhe := by
  have hS := C95_lawful S hs
  obtain ⟨dhe, hd, -⟩ := ho.keys
  have e : dhe = x.dhe := by
    obtain ⟨h1, -⟩ := hx.delimited hS hfit
    have hd' := hd
    rw [← ho.hello, h1] at hd'
    have h4 := C98_secret hs cfg p hfit ha hp.secret hd'
    rw [← ho.share, hx.received.dhe] at h4
    injection h4 with h4
    exact h4.symm
  subst e
  refine ⟨_, hd, ?_⟩
  by_cases hk : TookFinished x (l.finished S x.dhe)
  · rcases hx.keys hu hk with ⟨k1, k2⟩ | ⟨b, k⟩
    · refine .same k1 k2 fun hf ops => C21_stream S hS cfg p v hn hclean h l.sent ht ?_ ops
      rw [k2]
      exact hf
    · exact .clash b k
  · exact .otherFinished hk

/-- **C116, native verifier** A new connection opens with a new native verifier for `ca`, the server has sent a
CertificateVerify, and the transport does not fail.  Then there are certificates that lead to `ca` and name the server, with a
signature under the key in the leaf, and whatever the owner of this key has done — `lives` are its connections —: the signature
is for something the owner did not sign (a forgery), or one of the owner's connections is the other end: the client's ClientHello
is the one the owner saw, the secret is the one the owner computes from it, and, if the client took the owner's Finished, then
both have the same application keys and whatever the client reads is a prefix of what the owner sent on this connection, unless
the bytes that arrive contain a forged record; or else two different strings are exhibited that have the same hash.
Missing: that the server sends a CertificateVerify at all (`C115_refuted`). -/
theorem C116_native_partial {S : Suite} (hs : Shipped S) {H : Hash} (hu : UsesHash S H) (L : PkiLib) (F : Features)
    (now : Option Nat) (N : Nat) (cfg : Config) (p : Provider PkiVerifier) (ca : CertEntry) {rx : Rx} {tx : Tx} {rb wb : Bytes}
    {c c' : Conn} (hn : Conn.new S rx tx rb wb = .ok c) (hfit : HelloFits S cfg p) (ha : scalarOf p.secret ≠ 0)
    (hv : p.verifier = some (pkiOps L S F now N)) (h : Conn.open_ S cfg p (PkiVerifier.new ca) c = (.ok (), c'))
    (hclean : rx.Clean) :
    ∃ x, Established S cfg p (PkiVerifier.new ca) c x c' ∧ ∀ m code sig, (m, .certificateVerify code sig) ∈ x.msgs →
      ∃ certs before, LeadsTo L now ca cfg.serverName certs ∧
        SignedByLeaf L certs code (serverSignedContent S (x.hello ++ x.sh ++ before)) sig ∧
        ∀ lives : ServerLife → Prop, (∀ l, lives l → l.run.Proper S ∧ ∀ f ∈ l.sent, f.type ≠ 0) →
          NotSigned S (fun r => ∃ l, lives l ∧ l.run = r) (serverSignedContent S (x.hello ++ x.sh ++ before)) ∨
          ∃ l, lives l ∧ (Clash H H.len [x.hello ++ x.sh ++ before] [l.run.transcript] ∨
            x.hello = l.run.hello ∧ ∃ dhe, AgreesOn l.run.hello l.run.secret (p256Public l.run.secret) dhe ∧
              OwnerData S H x (cfg.psk.map (·.1)) c' l dhe) := by
  obtain ⟨x, hx⟩ := open_session S (C95_lawful S hs) cfg p _ (Conn.new_fresh S hn).1 h
  refine ⟨x, hx, fun m code sig hm => ?_⟩
  obtain ⟨b, aft, e⟩ := List.append_of_mem hm
  obtain ⟨a, mc, ctx, es, b', content, -, -, h3, rfl, h5, h6⟩ :=
    hx.owner hs hu hfit ha (hx.native S L F now N cfg p ca hv h).2 e
  refine ⟨_, _, h3, h5, fun lives hl => ?_⟩
  rcases h6 (fun r => ∃ l, lives l ∧ l.run = r) (fun r ⟨l, h1, h2⟩ => h2 ▸ (hl l h1).1) with h7 | ⟨r, ⟨l, h8, rfl⟩, h9 | h9⟩
  · exact .inl h7
  · exact .inr ⟨l, h8, .inr ⟨h9.hello, hx.ownerData hs hu hn h hclean hfit ha (hl l h8).1 (hl l h8).2 h9⟩⟩
  · exact .inr ⟨l, h8, .inl h9⟩

/-- **C116, webpki verifier** The same. -/
theorem C116_webpki_partial {S : Suite} (hs : Shipped S) {H : Hash} (hu : UsesHash S H) (W : WebLib) (alloc : Bool)
    (now : Option Nat) (N : Nat) (cfg : Config) (p : Provider PkiVerifier) (ca : CertEntry) {rx : Rx} {tx : Tx} {rb wb : Bytes}
    {c c' : Conn} (hn : Conn.new S rx tx rb wb = .ok c) (hfit : HelloFits S cfg p) (ha : scalarOf p.secret ≠ 0)
    (hv : p.verifier = some (webOps W S alloc now N)) (h : Conn.open_ S cfg p (PkiVerifier.new ca) c = (.ok (), c'))
    (hclean : rx.Clean) :
    ∃ x, Established S cfg p (PkiVerifier.new ca) c x c' ∧ ∀ m code sig, (m, .certificateVerify code sig) ∈ x.msgs →
      ∃ certs before, WebAccepts W now ca cfg.serverName certs ∧
        WebSigned W certs code (serverSignedContent S (x.hello ++ x.sh ++ before)) sig ∧
        ∀ lives : ServerLife → Prop, (∀ l, lives l → l.run.Proper S ∧ ∀ f ∈ l.sent, f.type ≠ 0) →
          NotSigned S (fun r => ∃ l, lives l ∧ l.run = r) (serverSignedContent S (x.hello ++ x.sh ++ before)) ∨
          ∃ l, lives l ∧ (Clash H H.len [x.hello ++ x.sh ++ before] [l.run.transcript] ∨
            x.hello = l.run.hello ∧ ∃ dhe, AgreesOn l.run.hello l.run.secret (p256Public l.run.secret) dhe ∧
              OwnerData S H x (cfg.psk.map (·.1)) c' l dhe) := by
  obtain ⟨x, hx⟩ := open_session S (C95_lawful S hs) cfg p _ (Conn.new_fresh S hn).1 h
  refine ⟨x, hx, fun m code sig hm => ?_⟩
  obtain ⟨b, aft, e⟩ := List.append_of_mem hm
  obtain ⟨a, mc, ctx, es, b', content, -, -, h3, rfl, h5, h6⟩ :=
    hx.owner hs hu hfit ha (hx.webpki S W alloc now N cfg p ca hv h).2 e
  refine ⟨_, _, h3, h5, fun lives hl => ?_⟩
  rcases h6 (fun r => ∃ l, lives l ∧ l.run = r) (fun r ⟨l, h1, h2⟩ => h2 ▸ (hl l h1).1) with h7 | ⟨r, ⟨l, h8, rfl⟩, h9 | h9⟩
  · exact .inl h7
  · exact .inr ⟨l, h8, .inr ⟨h9.hello, hx.ownerData hs hu hn h hclean hfit ha (hl l h8).1 (hl l h8).2 h9⟩⟩
  · exact .inr ⟨l, h8, .inl h9⟩

/-! ## Examples -/

/-- Every connection with an uncompressed key share, whose last Finished has the right length and is the end of what the server
sent, has another end: the third case of `OwnerData` is met. -/
theorem Established.someLife {S : Suite} (hs : Shipped S) {cfg : Config} {p : Provider V} {v : V} {c c' : Conn} {x : Session}
    (hx : Established S cfg p v c x c') (hfit : HelloFits S cfg p) (ha : scalarOf p.secret ≠ 0) (hu : ∃ t, x.share = 4 :: t)
    {before : List (Bytes × RawMsg)} {vd : Bytes} (hm : x.msgs = before ++ [(finishedMsg vd, .finished vd)])
    (sent : List Fragment) :
    ∃ l : ServerLife, l.run.Proper S ∧ l.sent = sent ∧ l.run.transcript = x.hello ++ x.sh ++ Session.bytesOf before ∧
      TookFinished x (l.finished S x.dhe) := by
  obtain ⟨owner, hp⟩ := hx.someRun hs hfit ha hu (Session.bytesOf before)
  refine ⟨⟨⟨x.hello, owner, x.sh, Session.bytesOf before⟩, cfg.psk.map (·.1), [], sent⟩, hp, rfl, rfl, before, [], ?_,
    by simp [noFinished], .inr rfl⟩
  have hv := hx.finished _ _ _ _ hm
  have e : ServerLife.finished S ⟨⟨x.hello, owner, x.sh, Session.bytesOf before⟩, cfg.psk.map (·.1), [], sent⟩ x.dhe = vd := by
    rw [hv, ServerLife.finished, ServerRun.transcript, List.append_nil]
    rfl
  rw [e]
  exact hm


theorem recRun_new {S : Suite} {cfg : Config} {p : Provider V} {v : V} {rx a t : Bytes} (h : recRun S cfg p v rx = (.ok a, t)) :
    ∃ rb wb c c', Conn.new S [.data rx] ⟨[], []⟩ rb wb = .ok c ∧ Conn.open_ S cfg p v c = (.ok (), c') ∧ wb.length = 16640 := by
  unfold recRun at h
  split at h
  · rename_i c hc
    rcases hr : recSession S cfg p v c with ⟨r, c1⟩
    rw [hr] at h
    simp only [Prod.mk.injEq] at h
    obtain ⟨rfl, -⟩ := h
    unfold recSession at hr
    obtain ⟨_, c', h1, -⟩ := M.bind_inv hr
    exact ⟨_, _, c, c', hc, h1, List.length_replicate⟩
  · cases h

-- C116_native_partial: the connection with OpenSSL of C115 meets the hypotheses
example : ∃ rb wb c c' x, Conn.new (aes128GcmSha256 false) [.data recRx1] ⟨[], []⟩ rb wb = .ok c ∧
    Conn.open_ (aes128GcmSha256 false) (recCfg []) recNative (PkiVerifier.new (.x509 recCa)) c = (.ok (), c') ∧
    Established (aes128GcmSha256 false) (recCfg []) recNative (PkiVerifier.new (.x509 recCa)) c x c' := by
  obtain ⟨rb, wb, c, c', h1, h2, -⟩ := recRun_new openssl_native
  have hs : Shipped (aes128GcmSha256 false) := ⟨false, .inl rfl⟩
  obtain ⟨H, hu⟩ : ∃ H, UsesHash (aes128GcmSha256 false) H := hs.usesHash.elim (fun h => ⟨_, h⟩) (fun h => ⟨_, h⟩)
  obtain ⟨x, hx, -⟩ := C116_native_partial hs hu _ _ _ _ (recCfg []) recNative (.x509 recCa) h1 recNative_fits rec_scalar rfl h2
    (by intro e he; simp only [List.mem_singleton] at he; exact ⟨_, by decide +kernel, he⟩)
  exact ⟨rb, wb, c, c', x, h1, h2, hx⟩

end ETls
