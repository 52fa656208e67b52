import Verif.Proofs.EcdsaDer
import Verif.Props.Provider
import Verif.Props.X509
import Verif.Props.Suites
import Verif.Props.OpenSsl

/-! # C98, C99: with the real primitives, client and server agree on keys, and what is signed verifies -/

namespace ETls

open Spec Crypto

variable {V : Type}

theorem Shipped.p256 {S : Suite} (h : Shipped S) : S.pubKey = p256Public ∧ S.dh = p256Dh ∧ S.codePoint < 65536 := by
  obtain ⟨rsa, rfl | rfl⟩ := h
  · exact ⟨rfl, rfl, by simp [aes128GcmSha256]⟩
  · exact ⟨rfl, rfl, by simp [aes256GcmSha384]⟩

namespace Spec

/-- What a server does with the ClientHello `hello` (RFC 8446 sections 4.2.8, 7.4.2): it decodes it, takes a key share for
secp256r1 (23), answers with the public key of its own secret, and computes the shared secret from its secret and the
client's share. -/
def AgreesOn (hello serverSecret share dhe : Bytes) : Prop :=
  ∃ h shares peer, dClientHello hello = some h ∧ ChExt.keyShare shares ∈ h.extensions ∧ (23, peer) ∈ shares ∧
    share = p256Public serverSecret ∧ p256Dh serverSecret peer = some dhe

end Spec

/-- A configuration that fits the fields of a ClientHello: the client's random has 32 bytes, ALPN names are below 256 bytes,
the message below 2^16. -/
structure HelloFits (S : Suite) (cfg : Config) (p : Provider V) : Prop where
  random : p.random.length = 32
  alpn : ∀ ps, cfg.alpn = some ps → ∀ n ∈ ps, n.length < 256
  length : helloLength S cfg p < 65536

/-- The ClientHello decoded. -/
theorem helloMsg_decodes {S : Suite} (hS : S.Lawful) (hcp : S.codePoint < 65536) (cfg : Config) (p : Provider V)
    (hf : HelloFits S cfg p) : dClientHello (helloMsg S cfg p) = some (expectedHello cfg S.codePoint p.random (S.pubKey p.secret)
      (List.replicate cfg.identities (helloBinder S cfg p))) := by
  have hb : ∀ b ∈ List.replicate cfg.identities (helloBinder S cfg p), b.length = S.hashLen := by
    intro b hb
    rw [List.eq_of_mem_replicate hb]
    exact hS.hmac_length _ _
  apply ChMsg.bytes_dec
  apply hello_fits S hS hcp cfg _ _ hf.random _ hb hf.alpn
  refine lt_of_eq_of_lt ?_ hf.length
  unfold helloLength
  rw [← helloBytes_spec S ⟨cfg, p.random, p.secret⟩, ← helloBytes_spec S ⟨cfg, p.random, p.secret⟩]
  apply hello_length
  have h8 : ∀ b : Bytes, (vec8 b).length = 1 + b.length := fun b => by simp [vec8]; omega
  simp [List.flatMap_replicate, h8, hS.hmac_length, helloBinder, verifyData]

/-- **C98, the secret** With the suites of the crate and a ClientHello that fits its fields: whatever key share for secp256r1
a server finds in the ClientHello by decoding it, and whatever its own secret, the shared secret the server computes is the
one the client computes from the server's share.  (Secrets are drawn as scalars that are not zero modulo the order of the
group.) -/
theorem C98_secret {S : Suite} (hs : Shipped S) (cfg : Config) (p : Provider V) (hf : HelloFits S cfg p)
    {serverSecret share dhe : Bytes} (ha : scalarOf p.secret ≠ 0) (hb : scalarOf serverSecret ≠ 0)
    (h : AgreesOn (helloMsg S cfg p) serverSecret share dhe) : S.dh p.secret share = some dhe := by
  obtain ⟨m, shares, peer, h1, h2, h3, h4, h5⟩ := h
  obtain ⟨e1, e2, e3⟩ := hs.p256
  rw [helloMsg_decodes (C95_lawful S hs) e3 cfg p hf] at h1
  injection h1 with h1
  subst h1
  simp only [expectedHello, helloExtensions, List.mem_append, List.mem_cons, List.not_mem_nil, or_false,
    List.mem_map, Option.mem_toList, reduceCtorEq, false_or, and_false, exists_false, ChExt.keyShare.injEq] at h2
  subst h2
  simp only [List.mem_singleton, Prod.mk.injEq, true_and] at h3
  subst h3
  obtain ⟨x, hx1, hx2⟩ := dh_agree p.secret serverSecret ha hb
  rw [e1, hx2] at h5
  rw [e2, h4, hx1, h5]

/-- … and there always is such a share and such a secret. -/
theorem C98_server_agrees {S : Suite} (hs : Shipped S) (cfg : Config) (p : Provider V) (hf : HelloFits S cfg p)
    (serverSecret : Bytes) (ha : scalarOf p.secret ≠ 0) (hb : scalarOf serverSecret ≠ 0) :
    ∃ dhe, AgreesOn (helloMsg S cfg p) serverSecret (p256Public serverSecret) dhe := by
  obtain ⟨e1, e2, e3⟩ := hs.p256
  obtain ⟨x, hx1, hx2⟩ := dh_agree p.secret serverSecret ha hb
  refine ⟨x, _, [(0x17, p256Public p.secret)], _, helloMsg_decodes (C95_lawful S hs) e3 cfg p hf, ?_, List.mem_cons_self, rfl, hx2⟩
  rw [e1]
  simp [expectedHello, helloExtensions]

/-- **C98, every connection** If `open` succeeds with a suite of the crate, and the key share in the ServerHello was made by a
server from its own secret, then both directions of the connection have the keys that the server derives by RFC 8446 section
7.1 from the shared secret it computes itself from the client's ClientHello, and the transcript. -/
theorem C98_keys {S : Suite} (hs : Shipped S) (cfg : Config) (p : Provider V) (v : V) {c c' : Conn} (hf : c.Fresh S)
    (hfit : HelloFits S cfg p) (ha : scalarOf p.secret ≠ 0) (h : Conn.open_ S cfg p v c = (.ok (), c')) :
    ∃ x : Session, c.rx.bytes = x.received ++ c'.rx.bytes ∧ (∃ r, Encodes x.sh r ∧ KeyShareOf r x.share) ∧
      ∀ serverSecret dhe, scalarOf serverSecret ≠ 0 → AgreesOn x.hello serverSecret x.share dhe →
        c'.ks.client.st = trafficState S (clientApplicationTraffic S (cfg.psk.map (·.1)) dhe x.traffic) ∧
        c'.ks.server.st = trafficState S (serverApplicationTraffic S (cfg.psk.map (·.1)) dhe x.traffic) := by
  obtain ⟨x, hx⟩ := open_session S (C95_lawful S hs) cfg p v hf h
  obtain ⟨r, -, r2, r3⟩ := hx.received.serverHello
  refine ⟨x, hx.bytes, ⟨r, r2, r3⟩, fun serverSecret dhe hb hag => ?_⟩
  obtain ⟨binders, b1, b2, b3⟩ := hx.hello
  rw [b1, hello_unique S cfg p binders b2 b3] at hag
  have h1 := C98_secret hs cfg p hfit ha hb hag
  rw [hx.received.dhe] at h1
  injection h1 with h1
  rw [← h1]
  exact ⟨hx.clientKeys, hx.serverKeys⟩

/-- **C98, conforming servers** A server that runs RFC 8446 on its own — its flight has the shape of `Shaped` and is derived
from the secret it computes itself — conforms in the sense of C46, C69 and C70. -/
theorem C98_conforming {S : Suite} (hs : Shipped S) (cfg : Config) (p : Provider V) (hfit : HelloFits S cfg p)
    (ha : scalarOf p.secret ≠ 0) {serverSecret : Bytes} (hb : scalarOf serverSecret ≠ 0) {x : ServerFlight}
    (hx : x.Shaped S (cfg.psk.map (·.1)) (helloMsg S cfg p))
    (hag : AgreesOn (helloMsg S cfg p) serverSecret x.share x.dhe) :
    x.Conforming S (cfg.psk.map (·.1)) (helloMsg S cfg p) p.secret :=
  { hx with dhe := C98_secret hs cfg p hfit ha hb hag }

/-! ## C99: signatures -/

/-- The private key `d` in the range FIPS 186-4 prescribes. -/
def IsP256Secret (d : Nat) : Prop := 0 < d ∧ d < p256n

/-- The libraries accept what ECDSA produces. -/
theorem ecdsa_valid (L : PkiLib) (T : DerTags) {d : Nat} (hd : IsP256Secret d) {m sig : Bytes} (h : EcdsaSigned d m sig) :
    ValidSignature (L.concrete T) .ecdsaP256Sha256 (p256Key d) m sig ∧ sig.length ≤ 72 := by
  obtain ⟨r, s, h1, h2, h3⟩ := ecdsaSigned_verifies T hd.1 hd.2 h
  obtain ⟨Q, h4, -⟩ := public_decode hd.2 hd.1.ne'
  refine ⟨⟨?_, ?_, ?_⟩, h3⟩
  · simp only [PkiLib.concrete, if_true]
    show (sec1Decode (sec1Encode (smul d p256g).affine)).isSome = true
    rw [h4]; rfl
  · simp only [PkiLib.concrete, if_true]
    rw [h1]; rfl
  · simp only [PkiLib.concrete, if_true]
    rw [h1]
    exact h2

/-- A key that `SecretKey::from_sec1_der` accepts is in the range. -/
theorem sec1Der_secret {T : DerTags} {der : Bytes} {d : Nat} (h : sec1Der T der = some d) : IsP256Secret d := by
  unfold sec1Der at h
  split at h
  · split at h
    · rename_i hc
      injection h with h
      subst h
      exact ⟨hc.2.2.1, hc.2.2.2⟩
    · cases h
  · cases h

/-- **C99, the client** If `open` succeeds with `UnsecureProvider` and a certificate, and the server asked for one, then the
messages the client sent under its handshake keys are that certificate and a CertificateVerify for
ecdsa_secp256r1_sha256, and the signature verifies, under the public key of the configured private key, over the content
RFC 8446 section 4.4.3 prescribes for the transcript up to that certificate. -/
theorem C99_client {S : Suite} (hS : S.Lawful) (L : PkiLib) (T : DerTags) (cfg : Config) (u : UnsecureProvider) (v : V) {c c' : Conn}
    (hf : c.Fresh S) {cert : Bytes} (hc : u.clientCert = some (.x509 cert))
    (h : Conn.open_ S cfg (u.provider (p256Lib T)) v c = (.ok (), c')) :
    ∃ x : Session, c.rx.bytes = x.received ++ c'.rx.bytes ∧
      (x.clientMsgs = [] ∨ ∃ ctx der d sig, lastRequest x.msgs = some ctx ∧ u.privKey = some der ∧ sec1Der T der = some d ∧
        x.clientMsgs = [certificateMsg ctx [cert], certificateVerifyMsg 0x0403 sig] ∧
        ValidSignature (L.concrete T) .ecdsaP256Sha256 (p256Key d)
          (clientSigned S (x.tr0 ++ Session.bytesOf x.msgs ++ certificateMsg ctx [cert])) sig ∧ sig.length ≤ 72) := by
  obtain ⟨x, hx⟩ := open_session S hS cfg _ v hf h
  refine ⟨x, hx.bytes, ?_⟩
  obtain ⟨a, fm, vd, b, h1, h2, ⟨h3, h4, h5⟩ | ⟨h3, h4, ctx, h5, ⟨h6, -⟩ | ⟨cert', sign, scheme, sig, h6, h7, h8, h9⟩⟩⟩ := hx.ending
  · exact .inl h4
  · exact absurd (hc.symm.trans h6) (by simp)
  · right
    have h6' : u.clientCert = some (.x509 cert') := h6
    rw [hc] at h6'
    simp only [Option.some.injEq, CertEntry.x509.injEq] at h6'
    subst h6'
    simp only [UnsecureProvider.provider, UnsecureProvider.signer] at h7
    split at h7
    · cases h7
    · rename_i der hder
      split at h7
      · cases h7
      · rename_i d hd
        cases h7
        obtain ⟨k1, k2⟩ := ecdsa_valid L T (sec1Der_secret hd) (ecdsaSign_signed h8)
        exact ⟨ctx, der, d, sig, h5, hder, hd, h9, k1, k2⟩

/-- **C99, the server** A server that signs with ECDSA on P-256, with any nonces, what RFC 8446 section 4.4.3 prescribes, with the private key
of its certificate, sends a CertificateVerify that the native verifier accepts (in the sense of C69: `SignedWith`), whatever
features are compiled in. -/
theorem C99_server (L : PkiLib) (T : DerTags) (F : Features) {leaf : Bytes} {rest : List Bytes} {dc : DecodedCert} {d : Nat}
    (hd : IsP256Secret d) (hleaf : (L.concrete T).fromDer leaf = some dc) (hkey : dc.publicKey = some (p256Key d))
    {content sig : Bytes} (h : EcdsaSigned d content sig) :
    SignedWith (L.concrete T) F (leaf :: rest) 0x0403 content sig :=
  ⟨leaf, rest, dc, p256Key d, .ecdsaSecp256r1Sha256, .ecdsaP256Sha256, rfl, hleaf, hkey, by decide, by decide, trivial,
    (ecdsa_valid L T hd h).1⟩

/-- **C99, certificates** A certificate that an issuer signs with ECDSA on P-256 and SHA-256 is issued by it in the sense of
C64 and C69: the to-be-signed part is the first element, the signature is made with the issuer's private key and any
nonce. -/
theorem C99_certificate (L : PkiLib) (T : DerTags) (F : Features) {issuer cert tbs sig : Bytes} {di dc : DecodedCert} {d : Nat}
    (hd : IsP256Secret d) (hi : (L.concrete T).fromDer issuer = some di) (hc : (L.concrete T).fromDer cert = some dc)
    (hkey : di.publicKey = some (p256Key d)) (halg : dc.sigAlg = algEcdsaSha256)
    (htbs : FirstElement (L.concrete T) cert tbs) (hsig : dc.signature = some sig) (h : EcdsaSigned d tbs sig) :
    IssuedWith (L.concrete T) F issuer cert :=
  ⟨di, dc, p256Key d, .ecdsaP256Sha256, tbs, sig, hi, hc, hkey, by rw [halg]; decide, trivial, hsig, htbs, (ecdsa_valid L T hd h).1⟩

/-! ## Examples -/

theorem recRun_opens {S : Suite} {cfg : Config} {p : Provider V} {v : V} {rx a t : Bytes} (h : recRun S cfg p v rx = (.ok a, t)) :
    ∃ c c', c.Fresh S ∧ c.rx.bytes = rx ∧ Conn.open_ S cfg p v c = (.ok (), c') := by
  unfold recRun at h
  split at h
  · rename_i c hc
    rcases hr : recSession S cfg p v c with ⟨r, c1⟩
    rw [hr] at h
    simp only [Prod.mk.injEq] at h
    obtain ⟨rfl, -⟩ := h
    unfold recSession at hr
    obtain ⟨_, c', h1, -⟩ := M.bind_inv hr
    obtain ⟨k1, k2, -⟩ := Conn.new_fresh S hc
    exact ⟨c, c', k1, by rw [k2]; simp [Rx.bytes], h1⟩
  · cases h

/-- The provider of the second recorded connection. -/
def recProvider : UnsecureProvider :=
  ((UnsecureProvider.new recRandom recSecret).withPrivKey recClientKey).withCert (.x509 recClientCert)

set_option maxRecDepth 100000 in
theorem rec_fits : HelloFits (aes256GcmSha384 false) (recCfg []) (recProvider.provider (V := Unit) (p256Lib derTags)) :=
  ⟨by decide +kernel, (by intro ps h; cases h), by decide +kernel⟩

set_option maxRecDepth 100000 in
theorem rec_scalar : scalarOf recSecret ≠ 0 := by decide +kernel

-- C98_keys and C99_client: a connection with OpenSSL, which asked for the client's certificate
example : ∃ c c', Conn.Fresh (aes256GcmSha384 false) c ∧ c.rx.bytes = recRx2 ∧
    Conn.open_ (aes256GcmSha384 false) (recCfg []) (recProvider.provider (p256Lib derTags)) () c = (.ok (), c') ∧
    HelloFits (aes256GcmSha384 false) (recCfg []) (recProvider.provider (V := Unit) (p256Lib derTags)) ∧
    scalarOf (recProvider.provider (V := Unit) (p256Lib derTags)).secret ≠ 0 ∧
    recProvider.clientCert = some (.x509 recClientCert) := by
  obtain ⟨c, c', h1, h2, h3⟩ := recRun_opens openssl_client_auth
  exact ⟨c, c', h1, h2, h3, rec_fits, rec_scalar, rfl⟩

-- C98_secret: a server with the secret 7
example : ∃ dhe, AgreesOn (helloMsg (aes256GcmSha384 false) (recCfg []) (recProvider.provider (V := Unit) (p256Lib derTags))) [7]
      (p256Public [7]) dhe ∧ (aes256GcmSha384 false).dh recSecret (p256Public [7]) = some dhe := by
  have hb : scalarOf [7] ≠ 0 := by decide +kernel
  obtain ⟨dhe, h⟩ := C98_server_agrees (V := Unit) ⟨false, .inr rfl⟩ (recCfg []) (recProvider.provider (p256Lib derTags)) rec_fits [7]
    rec_scalar hb
  exact ⟨dhe, h, C98_secret ⟨false, .inr rfl⟩ _ _ rec_fits rec_scalar hb h⟩

/-- A server's answer with an empty EncryptedExtensions, both messages in one record. -/
def leastFlight (S : Suite) (psk : Option Bytes) (hello share dhe : Bytes) : ServerFlight :=
  let sh : RawMsg := .serverHello 0x0303 (List.replicate 32 7) [] S.codePoint 0
    [⟨43, [3, 4]⟩, ⟨51, be16 23 ++ (be16 share.length ++ (share ++ []))⟩]
  let ee : RawMsg := .encryptedExtensions []
  ⟨sh, share, dhe, [ee], [.messages [ee, .finished (verifyData S (serverHandshakeTraffic S psk dhe (hello ++ sh.bytes))
    (hello ++ sh.bytes ++ ee.bytes))] 0]⟩

theorem leastFlight_shaped {S : Suite} (hs : Shipped S) (psk : Option Bytes) (hello share dhe : Bytes) (hl : share.length = 65) :
    (leastFlight S psk hello share dhe).Shaped S psk hello where
  serverHello := by
    refine ⟨⟨by decide, by simp, by simp, ?_, ?_⟩, ?_⟩
    · obtain ⟨rsa, rfl | rfl⟩ := hs
      · exact ⟨.tlsAes128GcmSha256, show (_, 0x1301) ∈ cipherSuites by decide⟩
      · exact ⟨.tlsAes256GcmSha384, show (_, 0x1302) ∈ cipherSuites by decide⟩
    · simp [ExtsSized, be16, hl, RawExt.bytes]
    · simp [leastFlight, RawMsg.bytes, RawMsg.body, RawExt.bytes, extVec, hl, be16, be24]
  share := ⟨0x0303, List.replicate 32 7, [], S.codePoint, 0, [⟨43, [3, 4]⟩], .secp256r1, 23, [], [], rfl, by decide, by
    show share.length < _; omega, by decide⟩
  msgs := by
    intro r hr
    simp only [leastFlight, List.mem_cons, List.not_mem_nil, or_false] at hr
    subst hr
    exact ⟨show ExtsSized [] by decide, by decide, by decide⟩
  records := rfl
  last := ⟨[], _, 0, rfl, by simp⟩
  sizes := by
    intro r hr
    simp only [leastFlight, List.mem_cons, List.not_mem_nil, or_false] at hr
    subst hr
    have hle := (C95_lawful S hs).hashLen_le
    have : ∀ a b, (verifyData S a b).length = S.hashLen := fun a b => (C95_lawful S hs).hmac_length _ _
    simp only [FlightRecord.size, flightFragment, Fragment.inner, List.flatMap_cons, List.flatMap_nil, RawMsg.bytes,
      RawMsg.body, List.length_append, List.length_cons, List.length_nil, List.length_replicate, this]
    simp [be24, be16, extVec]
    omega

-- C98_conforming: for every configuration that fits, every client and server secret, this flight is a conforming one
example {S : Suite} (hs : Shipped S) (cfg : Config) (p : Provider V) (hfit : HelloFits S cfg p) (ha : scalarOf p.secret ≠ 0)
    (serverSecret : Bytes) (hb : scalarOf serverSecret ≠ 0) :
    ∃ dhe, (leastFlight S (cfg.psk.map (·.1)) (helloMsg S cfg p) (p256Public serverSecret) dhe).Conforming S (cfg.psk.map (·.1))
      (helloMsg S cfg p) p.secret := by
  obtain ⟨dhe, h⟩ := C98_server_agrees hs cfg p hfit serverSecret ha hb
  exact ⟨dhe, C98_conforming hs cfg p hfit ha hb (leastFlight_shaped hs _ _ _ _ (p256Public_length _)) h⟩

/-- The private key of the recorded client. -/
def recClientSecret : Nat := 0x1985ab385188637c000f0dc67e65737f5ac71f4ce122b750fc9f3f77aa6c923d

/-- A certificate for example.com that OpenSSL signed with the key in it. -/
def selfCert : Bytes := toBE 399
  0x3082018b30820131a00302010202147e01218cb4c402248c51ecf448d2aee64fb8ffd5300a06082a8648ce3d040302300f310d300b06035504030c0473656c66301e170d3236313131373134303430365a170d3336313131343134303430365a300f310d300b06035504030c0473656c663059301306072a8648ce3d020106082a8648ce3d0301070342000425a05c4fd389ea6cfb974bbf5bd7762b7ce09cf811998b4a767e377929da5dbe38cc30198c273d57b3ec1b320aedaadfcc4f5a882be37741cc833f6ff84bb5d9a36b3069301d0603551d0e04160414a0c8ece1f294e6a1b00b8233c04c66e68532ccfd301f0603551d23041830168014a0c8ece1f294e6a1b00b8233c04c66e68532ccfd300f0603551d130101ff040530030101ff30160603551d11040f300d820b6578616d706c652e636f6d300a06082a8648ce3d0403020348003045022064c9861e5e6049c653dcf1c394e7913083019fc22db8d72df6d48b8276ec509a0221008d0f6b81482ae22c8091bd52eb8b8159a796bc43ca6b329d71acfd9cdfd2953c

set_option maxRecDepth 100000 in
theorem selfCert_decodes : ((noPki.concrete derTags).fromDer selfCert).any (fun dc =>
    dc.publicKey = some (p256Key recClientSecret) ∧ dc.sigAlg = algEcdsaSha256 ∧
    dc.signature = some (ecdsaSigBytes 0x64c9861e5e6049c653dcf1c394e7913083019fc22db8d72df6d48b8276ec509a 0x8d0f6b81482ae22c8091bd52eb8b8159a796bc43ca6b329d71acfd9cdfd2953c)) = true := by
  decide +kernel

/-- The to-be-signed part of it. -/
def selfTbs : Bytes := (selfCert.drop 4).take 309

set_option maxRecDepth 100000 in
theorem selfCert_signed : EcdsaSigned recClientSecret selfTbs (ecdsaSigBytes 0x64c9861e5e6049c653dcf1c394e7913083019fc22db8d72df6d48b8276ec509a 0x8d0f6b81482ae22c8091bd52eb8b8159a796bc43ca6b329d71acfd9cdfd2953c) :=
  ⟨0xf51470dac94c8f297ef79e048269b41a16a78efc8955d31adcd01b2e11dfd7d4, 0x64c9861e5e6049c653dcf1c394e7913083019fc22db8d72df6d48b8276ec509a, 0x8d0f6b81482ae22c8091bd52eb8b8159a796bc43ca6b329d71acfd9cdfd2953c, by decide +kernel, by decide +kernel, by decide +kernel, by decide +kernel, by decide +kernel, rfl⟩

set_option maxRecDepth 100000 in
theorem selfCert_first : FirstElement (noPki.concrete derTags) selfCert selfTbs :=
  ⟨selfCert.take 4, selfCert.drop 313, 395, 4, 305, by decide +kernel, by decide +kernel, by decide +kernel, by decide +kernel,
    by decide +kernel, by decide +kernel⟩

-- C99_certificate and C99_server: with that certificate as issuer and leaf
example : IssuedWith (noPki.concrete derTags) ⟨false, false, false⟩ selfCert selfCert ∧
    ∃ sig, ecdsaSign recClientSecret (ascii "sample") = some sig ∧
      SignedWith (noPki.concrete derTags) ⟨false, false, false⟩ [selfCert] 0x0403 (ascii "sample") sig := by
  have h := selfCert_decodes
  rw [Option.any_eq_true] at h
  obtain ⟨dc, h1, h2⟩ := h
  simp only [decide_eq_true_eq] at h2
  have hd : IsP256Secret recClientSecret := by constructor <;> decide +kernel
  refine ⟨C99_certificate noPki derTags _ hd h1 h1 h2.1 h2.2.1 selfCert_first h2.2.2 selfCert_signed, ?_⟩
  have hs : (ecdsaSign recClientSecret (ascii "sample")).isSome = true := by decide +kernel
  obtain ⟨sig, hs⟩ := Option.isSome_iff_exists.1 hs
  exact ⟨sig, hs, C99_server noPki derTags _ hd h1 h2.1 (ecdsaSign_signed hs)⟩

end ETls
