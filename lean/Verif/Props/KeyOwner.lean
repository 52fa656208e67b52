import Verif.Props.SameHandshake
import Verif.Props.OpenUnique
import Verif.Props.KeyShare

/-! # C115: the owner of the certificate's key is at the other end -/

namespace ETls

open Spec Crypto

variable {V : Type}

namespace Spec

/-- A handshake as seen by a server up to its CertificateVerify: the ClientHello it saw, its secret for this handshake, the
ServerHello it sent, and the messages it sent after that, up to and including its Certificate. -/
structure ServerRun where
  hello : Bytes
  secret : Bytes
  sh : Bytes
  flight : Bytes

/-- What the CertificateVerify of the run signs (with 4.4.3). -/
def ServerRun.transcript (r : ServerRun) : Bytes := r.hello ++ r.sh ++ r.flight

/-- The server follows the protocol in this run: the ClientHello is a handshake message, the ServerHello is well formed and
has the public key of the server's own secret as key share. -/
structure ServerRun.Proper (S : Suite) (r : ServerRun) : Prop where
  hello : ∃ ty body, body.length < 16777216 ∧ r.hello = handshake ty body
  secret : scalarOf r.secret ≠ 0
  serverHello : ∃ m : RawMsg, m.WellSized S.hashLen ∧ Encodes r.sh m ∧ KeyShareOf m (p256Public r.secret)

/-- The owner of a key did not sign this: it is not what the CertificateVerify of one of the owner's runs signs. -/
def NotSigned (S : Suite) (runs : ServerRun → Prop) (content : Bytes) : Prop :=
  ∀ r, runs r → content ≠ serverSignedContent S r.transcript

/-- The client's connection is the other end of the run: the same ClientHello, ServerHello and messages up to and including
the Certificate, and the application keys are derived from the secret that the server of the run shares with the client of
its ClientHello. -/
structure OtherEnd (S : Suite) (psk : Option Bytes) (x : Session) (before : Bytes) (c' : Conn) (r : ServerRun) : Prop where
  hello : x.hello = r.hello
  serverHello : x.sh = r.sh
  flight : before = r.flight
  share : x.share = p256Public r.secret
  keys : ∃ dhe, AgreesOn r.hello r.secret (p256Public r.secret) dhe ∧
    c'.ks.client.st = trafficState S (clientApplicationTraffic S psk dhe x.traffic) ∧
    c'.ks.server.st = trafficState S (serverApplicationTraffic S psk dhe x.traffic)

end Spec

/-- The ServerHello at the beginning of a string is determined by it. -/
theorem encodes_split {hl : Nat} {a b r r' : Bytes} {m m' : RawMsg} (hm : m.WellSized hl) (ha : Encodes a m)
    (hm' : m'.WellSized hl) (hb : Encodes b m') (h : a ++ r = b ++ r') : m = m' ∧ a = b ∧ r = r' := by
  obtain ⟨n, hn, rfl⟩ := ha
  obtain ⟨n', hn', rfl⟩ := hb
  have e := h
  simp only [List.cons_append, List.append_assoc, List.cons.injEq] at e
  obtain ⟨-, h2⟩ := be24_app hn hn' e.2
  obtain ⟨rfl, rfl⟩ := body_app hm hm' e.1 h2
  exact ⟨rfl, List.append_cancel_right h, rfl⟩

/-- The keys of an established connection, from the point of view of the server whose run was signed for. -/
theorem Established.run {S : Suite} (hs : Shipped S) {H : Hash} (hu : UsesHash S H) {cfg : Config} {p : Provider V} {v : V}
    {c c' : Conn} {x : Session} (hx : Established S cfg p v c x c') (hfit : HelloFits S cfg p) (ha : scalarOf p.secret ≠ 0)
    {before : Bytes} {run : ServerRun} (hr : run.Proper S)
    (h : serverSignedContent S (x.hello ++ x.sh ++ before) = serverSignedContent S run.transcript) :
    OtherEnd S (cfg.psk.map (·.1)) x before c' run ∨
    Clash H H.len [x.hello ++ x.sh ++ before] [run.transcript] := by
  have hS := C95_lawful S hs
  rcases (C103_signed hu _ _).1 h with e | e
  · left
    obtain ⟨h1, body, hb, h2⟩ := hx.delimited hS hfit
    obtain ⟨ty, body', hb', h3⟩ := hr.hello
    have e1 : x.hello ++ (x.sh ++ before) = run.hello ++ (run.sh ++ run.flight) := by
      simpa [ServerRun.transcript] using e
    have e2 : x.hello = run.hello ∧ x.sh ++ before = run.sh ++ run.flight := by
      rw [h2, h3] at e1 ⊢
      exact handshake_split hb hb' e1
    obtain ⟨m, m1, m2, m3⟩ := hx.received.serverHello
    obtain ⟨m', n1, n2, n3⟩ := hr.serverHello
    obtain ⟨rfl, e3, e4⟩ := encodes_split m1 m2 n1 n2 e2.2
    have e5 := keyShare_same m3 n3
    refine ⟨e2.1, e3, e4, e5, ?_⟩
    obtain ⟨dhe, hd⟩ := C98_server_agrees hs cfg p hfit run.secret ha hr.secret
    have h4 := C98_secret hs cfg p hfit ha hr.secret hd
    rw [← e5, hx.received.dhe] at h4
    injection h4 with h4
    rw [← h1, e2.1] at hd
    exact ⟨dhe, hd, by rw [hx.clientKeys, h4], by rw [hx.serverKeys, h4]⟩
  · exact .inr e

/-- Every CertificateVerify of an authenticated session is for a run of the owner of the certificate's key. -/
theorem Established.owner {S : Suite} (hs : Shipped S) {H : Hash} (hu : UsesHash S H) {cfg : Config} {p : Provider V} {v : V}
    {c c' : Conn} {x : Session} (hx : Established S cfg p v c x c') (hfit : HelloFits S cfg p) (ha : scalarOf p.secret ≠ 0)
    {accepts : List Bytes → Prop} {signed : List Bytes → Nat → Bytes → Bytes → Prop} (hauth : Authenticated accepts signed S x)
    {before : List (Bytes × RawMsg)} {m : Bytes} {code : Nat} {sig : Bytes} {after : List (Bytes × RawMsg)}
    (hm : x.msgs = before ++ (m, .certificateVerify code sig) :: after) :
    ∃ a mc ctx es b content, before = a ++ (mc, .certificate ctx es) :: b ∧ noAuth b ∧ accepts (es.map (·.1)) ∧
      content = serverSignedContent S (x.hello ++ x.sh ++ (Session.bytesOf a ++ mc)) ∧
      signed (es.map (·.1)) code content sig ∧
      ∀ runs : ServerRun → Prop, (∀ r, runs r → r.Proper S) → NotSigned S runs content ∨ ∃ r, runs r ∧
        (OtherEnd S (cfg.psk.map (·.1)) x (Session.bytesOf a ++ mc) c' r ∨
          Clash H H.len [x.hello ++ x.sh ++ (Session.bytesOf a ++ mc)] [r.transcript]) := by
  obtain ⟨a, mc, ctx, es, b, h1, h2, h3⟩ := hauth.2 _ _ _ _ _ hm
  refine ⟨a, mc, ctx, es, b, _, h1, h2, ?_, rfl, by simpa using h3, ?_⟩
  · refine hauth.1 a mc ctx es (b ++ (m, .certificateVerify code sig) :: after) ?_
    rw [hm, h1]
    simp
  · intro runs hp
    by_cases hn : NotSigned S runs (serverSignedContent S (x.hello ++ x.sh ++ (Session.bytesOf a ++ mc)))
    · exact .inl hn
    · unfold NotSigned at hn
      push Not at hn
      obtain ⟨r, hr, e⟩ := hn
      exact .inr ⟨r, hr, hx.run hs hu hfit ha (hp r hr) e⟩

/-- **C115, native verifier** `open` succeeds with a new native verifier for `ca`, and the server has sent a CertificateVerify.
Whatever the owner of the certificate's key has done — `runs` are the handshakes in which it made a signature —: the chain
leads to `ca` and names the server, and either the signature is for something the owner did not sign (a forgery), or it is the
owner that the client is talking to: some run of the owner saw exactly the client's ClientHello and sent exactly the
ServerHello and the messages up to the Certificate that the client received, and the application keys come from the secret
that this run shares with the client — or else two different strings are exhibited that have the same hash.
Missing: that the server sends a CertificateVerify at all (`C115_refuted`). -/
theorem C115_native_partial {S : Suite} (hs : Shipped S) {H : Hash} (hu : UsesHash S H) (L : PkiLib) (F : Features)
    (now : Option Nat) (N : Nat) (cfg : Config) (p : Provider PkiVerifier) (ca : CertEntry) {c c' : Conn} (hf : c.Fresh S)
    (hfit : HelloFits S cfg p) (ha : scalarOf p.secret ≠ 0) (hv : p.verifier = some (pkiOps L S F now N))
    (h : Conn.open_ S cfg p (PkiVerifier.new ca) c = (.ok (), c')) :
    ∃ x, Established S cfg p (PkiVerifier.new ca) c x c' ∧
      ∀ before m code sig after, x.msgs = before ++ (m, .certificateVerify code sig) :: after →
        ∃ a mc ctx es b content, before = a ++ (mc, .certificate ctx es) :: b ∧ noAuth b ∧
          LeadsTo L now ca cfg.serverName (es.map (·.1)) ∧
          content = serverSignedContent S (x.hello ++ x.sh ++ (Session.bytesOf a ++ mc)) ∧
          SignedByLeaf L (es.map (·.1)) code content sig ∧
          ∀ runs : ServerRun → Prop, (∀ r, runs r → r.Proper S) → NotSigned S runs content ∨ ∃ r, runs r ∧
            (OtherEnd S (cfg.psk.map (·.1)) x (Session.bytesOf a ++ mc) c' r ∨
              Clash H H.len [x.hello ++ x.sh ++ (Session.bytesOf a ++ mc)] [r.transcript]) := by
  obtain ⟨x, hx⟩ := open_session S (C95_lawful S hs) cfg p _ hf h
  exact ⟨x, hx, fun _ _ _ _ _ hm => hx.owner hs hu hfit ha (hx.native S L F now N cfg p ca hv h).2 hm⟩

/-- **C115, webpki verifier** The same. -/
theorem C115_webpki_partial {S : Suite} (hs : Shipped S) {H : Hash} (hu : UsesHash S H) (W : WebLib) (alloc : Bool)
    (now : Option Nat) (N : Nat) (cfg : Config) (p : Provider PkiVerifier) (ca : CertEntry) {c c' : Conn} (hf : c.Fresh S)
    (hfit : HelloFits S cfg p) (ha : scalarOf p.secret ≠ 0) (hv : p.verifier = some (webOps W S alloc now N))
    (h : Conn.open_ S cfg p (PkiVerifier.new ca) c = (.ok (), c')) :
    ∃ x, Established S cfg p (PkiVerifier.new ca) c x c' ∧
      ∀ before m code sig after, x.msgs = before ++ (m, .certificateVerify code sig) :: after →
        ∃ a mc ctx es b content, before = a ++ (mc, .certificate ctx es) :: b ∧ noAuth b ∧
          WebAccepts W now ca cfg.serverName (es.map (·.1)) ∧
          content = serverSignedContent S (x.hello ++ x.sh ++ (Session.bytesOf a ++ mc)) ∧
          WebSigned W (es.map (·.1)) code content sig ∧
          ∀ runs : ServerRun → Prop, (∀ r, runs r → r.Proper S) → NotSigned S runs content ∨ ∃ r, runs r ∧
            (OtherEnd S (cfg.psk.map (·.1)) x (Session.bytesOf a ++ mc) c' r ∨
              Clash H H.len [x.hello ++ x.sh ++ (Session.bytesOf a ++ mc)] [r.transcript]) := by
  obtain ⟨x, hx⟩ := open_session S (C95_lawful S hs) cfg p _ hf h
  exact ⟨x, hx, fun _ _ _ _ _ hm => hx.owner hs hu hfit ha (hx.webpki S W alloc now N cfg p ca hv h).2 hm⟩

set_option maxRecDepth 10000 in
/-- **C115 does not hold as stated**: the connection opens, with either verifier, though the server has not signed anything: it
presents the certificates of example.com, which everybody can get, and no CertificateVerify — or no certificates either. -/
theorem C115_refuted :
    exAuthOpen toyNative [[exEE, .msg (exCertMsg [exLeaf, toyInter]), .finished]] = .ok () ∧
    exAuthOpen toyWebOps [[exEE, .msg (exCertMsg [exDirect]), .finished]] = .ok () ∧
    exAuthOpen toyNative [[exEE, .finished]] = .ok () ∧ exAuthOpen toyWebOps [[exEE, .finished]] = .ok () := by
  decide +kernel

/-! ## Examples -/

/-- A connection whose server sends an uncompressed key share is the other end of a proper run. -/
theorem Established.someRun {S : Suite} (hs : Shipped S) {cfg : Config} {p : Provider V} {v : V}
    {c c' : Conn} {x : Session} (hx : Established S cfg p v c x c') (hfit : HelloFits S cfg p) (ha : scalarOf p.secret ≠ 0)
    (hu : ∃ t, x.share = 4 :: t) (before : Bytes) :
    ∃ owner, (⟨x.hello, owner, x.sh, before⟩ : ServerRun).Proper S := by
  obtain ⟨owner, a, b, o1, -, o3, o4, -⟩ := C101_owner hs ha hx.received.dhe
  obtain ⟨-, body, hb, h2⟩ := hx.delimited (C95_lawful S hs) hfit
  rw [hs.p256.1] at o4
  refine ⟨owner, ⟨1, body, hb, h2⟩, o1, ?_⟩
  have : x.share = p256Public owner := by
    obtain ⟨t, ht⟩ := hu
    have e4 : p256Public owner = 4 :: (toBE 32 a ++ toBE 32 b) := by
      rcases o4 with h | h
      · exact h
      · rw [p256Public, sec1Encode] at h
        split at h <;> simp at h
    rcases o3 with h | h
    · rw [h, e4]
    · rw [ht] at h
      split at h <;> simp at h
  rw [← this]
  exact hx.received.serverHello

/-- The native verifier for the CA of the recordings. -/
def recNative : Provider PkiVerifier :=
  ⟨recRandom, recSecret, some (pkiOps (noPki.concrete derTags) (aes128GcmSha256 false) ⟨false, false, false⟩ none 1024),
    .err .unimplemented, none⟩

set_option maxRecDepth 100000 in
theorem recNative_fits : HelloFits (aes128GcmSha256 false) (recCfg []) recNative :=
  ⟨by decide +kernel, (by intro ps h; cases h), by decide +kernel⟩

-- C115_native_partial: a connection with OpenSSL (`openssl_native`), whose certificates and signature the native verifier
-- checks.  If OpenSSL's key share is not compressed, then there is a run that has signed what the client received.
example : ∃ c c' x, Conn.Fresh (aes128GcmSha256 false) c ∧ c.rx.bytes = recRx1 ∧
    Conn.open_ (aes128GcmSha256 false) (recCfg []) recNative (PkiVerifier.new (.x509 recCa)) c = (.ok (), c') ∧
    Established (aes128GcmSha256 false) (recCfg []) recNative (PkiVerifier.new (.x509 recCa)) c x c' ∧
    ((∃ t, x.share = 4 :: t) → ∀ before, ∃ r : ServerRun, r.Proper (aes128GcmSha256 false) ∧
      ¬NotSigned (aes128GcmSha256 false) (· = r) (serverSignedContent (aes128GcmSha256 false) (x.hello ++ x.sh ++ before))) := by
  obtain ⟨c, c', h1, h2, h3⟩ := recRun_opens openssl_native
  obtain ⟨x, hx⟩ := open_session _ (C95_lawful _ ⟨false, .inl rfl⟩) (recCfg []) recNative _ h1 h3
  refine ⟨c, c', x, h1, h2, h3, hx, fun hu before => ?_⟩
  obtain ⟨owner, r1⟩ := hx.someRun ⟨false, .inl rfl⟩ recNative_fits rec_scalar hu before
  exact ⟨_, r1, fun hn => hn _ rfl rfl⟩

end ETls
