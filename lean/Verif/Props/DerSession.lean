import Verif.Props.Instances3
import Verif.Props.Ending

/-! # Sessions with servers whose certificates are given as DER (C81, C127, C131) -/

namespace ETls

open Spec Crypto Der

variable {V : Type} {S : Suite}

/-- The servers of `Spec/Textbook` meet the hypotheses of C46, C69 and C81. -/
theorem textbook_meets (hs : Shipped S) (cfg : Config) (p : Provider V) (t : Textbook) (ht : t.Sized)
    (hpsk : t.psk = cfg.psk.map (·.1)) (hfit : HelloFits S cfg p) (ha : scalarOf p.secret ≠ 0) (hb : scalarOf t.secret ≠ 0)
    {ms : List Bytes} (hms : clientReply S p (t.transcript S (helloMsg S cfg p)) (if t.request then some [] else none) = some ms)
    (hsig : ∀ sign scheme, p.signer = .ok (sign, scheme) → ∀ m sig, sign m = some sig → sig.length ≤ signatureSize S)
    {rx : Rx} {tx : Tx} {rb wb : Bytes} {c : Conn} (hn : Conn.new S rx tx rb wb = .ok c) (hclean : rx.Clean) (hrel : Reliable tx)
    {rest : Bytes} (hrx : rx.bytes = t.answer S (helloMsg S cfg p) ++ rest)
    (hhello : 5 + helloLength S cfg p ≤ wb.length) (hwb : 133 ≤ wb.length) (hrb : 192 ≤ rb.length)
    (hcert : t.certificate.bytes.length + 17 ≤ rb.length) (hreply : ∀ m ∈ ms, m.length + 22 ≤ wb.length) :
    Meets S cfg p c (t.flight S (helloMsg S cfg p)) ms rest := by
  have hS := C95_lawful S hs
  obtain ⟨f1, f2, f3⟩ := Conn.new_fresh S hn
  have hl : c.wb.buffer.length = wb.length ∧ c.rr.buf.length = rb.length := by
    unfold Conn.new WB.new at hn
    split at hn
    · simp only [Res.map, Res.ok.injEq] at hn
      subst hn
      exact ⟨rfl, rfl⟩
    · cases hn
  obtain ⟨l1, l2⟩ := hl
  have hle := hS.hashLen_le
  have hlen := textbook_hello_length (S := S) t
  rw [ht.random] at hlen
  exact {
    fresh := f1
    clean := by rw [f2]; exact hclean
    reliable := by rw [f3]; exact hrel
    conforming := C98_conforming hs cfg p hfit ha hb (x := t.flight S (helloMsg S cfg p))
      (by rw [← hpsk]; exact textbook_shaped (helloMsg S cfg p) hs ht) (dheFrom_agrees hs cfg p hfit t.secret ha hb)
    accepted := textbook_accepted _ hs ht
    reply := by
      rw [show (t.flight S (helloMsg S cfg p)).msgs = t.msgs S (helloMsg S cfg p) from rfl, textbook_request, ← hpsk,
        textbook_transcript]
      exact hms
    signature := hsig
    helloFits := by rw [l1]; exact hhello
    finishedFits := by rw [l1]; omega
    replyFits := by rw [l1]; exact hreply
    serverHelloFits := by rw [l2]; show (t.serverHello S).bytes.length ≤ _; omega
    recordsFit := fun r hr => by have := textbook_record hS ht hr; rw [l2]; omega
    count := by
      show ((t.msgs S (helloMsg S cfg p) ++ [t.finished S (helloMsg S cfg p)]).map _).length < _
      rw [List.length_map, List.length_append]
      unfold Textbook.msgs Textbook.parameters
      split <;> split <;> simp
    bytes := by rw [f2, hrx, ← hpsk]; rfl }

/-- **C127, DER certificates** A client with the native verifier that asks for a host (of at most 64 bytes), and a server of TLS 1.3
whose certificates are byte strings that X.509 reads as certificates leading to the CA, for that host, and that signs with the
private key `d` whose public key is in the first one. -/
theorem C127_der (hs : Shipped S) (L : PkiLib) (T : DerTags) (F : Features) (now : Option Nat) (N : Nat) (cfg : Config)
    (p : Provider PkiVerifier) (ca : CertEntry) (hv : p.verifier = some (pkiOps (L.concrete T) S F now N))
    (hEd : ∀ k, (L.concrete T).keyOk .ed25519 k = true → k.length = 32)
    (host : Bytes) (hname : cfg.serverName = some host) (hlen : host.length ≤ 64)
    (t : Textbook) (hrand : t.random.length = 32) (hc : t.request = true → p.clientCert = none)
    (hchain : DerChain T (L.concrete T) F now ca host t.certs)
    {leaf tbs : Bytes} {cert : Cert} {d : Nat} (hleaf : t.certs.head? = some leaf) (hdc : IsCertificate T cert tbs leaf)
    (hlim : WithinLimits cert) (hd : IsP256Secret d) (hkey : cert.tbs.key = ⟨0, p256Key d⟩)
    (hscheme : t.scheme = 0x0403) (hsign : ∀ m, EcdsaSigned d m (t.sign m))
    (hcerts : t.certs.length ≤ 16) (hmsg : t.certificate.bytes.length ≤ 16384) (hN : t.certificate.bytes.length ≤ N)
    (hpsk : t.psk = cfg.psk.map (·.1)) (hfit : HelloFits S cfg p) (ha : scalarOf p.secret ≠ 0) (hb : scalarOf t.secret ≠ 0)
    {rx : Rx} {tx : Tx} {rb wb : Bytes} {c : Conn} (hn : Conn.new S rx tx rb wb = .ok c) (hclean : rx.Clean) (hrel : Reliable tx)
    (fs : List Fragment) (hfs : ∀ f ∈ fs, Sendable S f) (hcount : fs.length < 2 ^ 64)
    (hrx : rx.bytes = t.answer S (helloMsg S cfg p) ++ t.send S (helloMsg S cfg p) fs)
    (hhello : 5 + helloLength S cfg p ≤ wb.length) (hwb : 133 ≤ wb.length) (hwb' : wb.length < 65652) (hrb : 192 ≤ rb.length)
    (hcert : t.certificate.bytes.length + 17 ≤ rb.length)
    (hfrag : ∀ f ∈ fs, f.inner.length + 16 ≤ rb.length ∧ f.inner.length + 16 < 65536) :
    ∃ c', Conn.open_ S cfg p (PkiVerifier.new ca) c = (.ok (), c') ∧
      Session127 S t (helloMsg S cfg p) (if t.request then [certificateMsg [] []] else []) fs tx.log c' :=
  C127_certificate hs L T F now N cfg p ca hv hEd host hname hlen t hrand hc (validChain_of T (L := L.concrete T) hchain) hleaf
    (fromDer_of T (L := L.concrete T) hdc hlim) hd (by show cert.tbs.key.asBytes = _; rw [hkey]; rfl) hscheme hsign hcerts hmsg hN hpsk hfit ha hb hn
    hclean hrel fs hfs hcount hrx hhello hwb hwb' hrb hcert hfrag

/-! ## The certificate made with OpenSSL -/

set_option maxRecDepth 100000 in
theorem selfCert_der : ∃ cert tbs, IsCertificate derTags cert tbs selfCert ∧ WithinLimits cert ∧ tbs = selfTbs ∧
    cert.tbs.key = ⟨0, p256Key recClientSecret⟩ ∧ cert.tbs.subject = [[⟨[2, 5, 4, 3], ⟨12, ascii "self"⟩⟩]] ∧
    cert.sigAlg = algEcdsaSha256 ∧
    cert.signature = ⟨0, ecdsaSigBytes 0x64c9861e5e6049c653dcf1c394e7913083019fc22db8d72df6d48b8276ec509a 0x8d0f6b81482ae22c8091bd52eb8b8159a796bc43ca6b329d71acfd9cdfd2953c⟩ ∧
    cert.tbs.extensions = some ([⟨[2, 5, 29, 14], none, 4, toBE 22 0x0414a0c8ece1f294e6a1b00b8233c04c66e68532ccfd⟩,
        ⟨[2, 5, 29, 35], none, 4, toBE 24 0x30168014a0c8ece1f294e6a1b00b8233c04c66e68532ccfd⟩,
        ⟨[2, 5, 29, 19], some true, 4, [0x30, 3, 1, 1, 0xff]⟩] ++
        ⟨[2, 5, 29, 17], none, 4, [0x30, 13] ++ ([0x82, 11] ++ ascii "example.com")⟩ :: []) := by
  have hx : (certificate derTags selfCert).any (fun cert =>
    cert.tbs.key = ⟨0, p256Key recClientSecret⟩ ∧ cert.tbs.subject = [[⟨[2, 5, 4, 3], ⟨12, ascii "self"⟩⟩]] ∧
    cert.sigAlg = algEcdsaSha256 ∧
    cert.signature = ⟨0, ecdsaSigBytes 0x64c9861e5e6049c653dcf1c394e7913083019fc22db8d72df6d48b8276ec509a 0x8d0f6b81482ae22c8091bd52eb8b8159a796bc43ca6b329d71acfd9cdfd2953c⟩ ∧
    cert.tbs.extensions = some ([⟨[2, 5, 29, 14], none, 4, toBE 22 0x0414a0c8ece1f294e6a1b00b8233c04c66e68532ccfd⟩,
        ⟨[2, 5, 29, 35], none, 4, toBE 24 0x30168014a0c8ece1f294e6a1b00b8233c04c66e68532ccfd⟩,
        ⟨[2, 5, 29, 19], some true, 4, [0x30, 3, 1, 1, 0xff]⟩] ++
        ⟨[2, 5, 29, 17], none, 4, [0x30, 13] ++ ([0x82, 11] ++ ascii "example.com")⟩ :: [])) = true := by decide +kernel
  rw [Option.any_eq_true] at hx
  obtain ⟨cert, h1, h2⟩ := hx
  simp only [decide_eq_true_eq] at h2
  obtain ⟨⟨tbs, h3⟩, h4⟩ := (C80_der derTags selfCert cert).1 h1
  exact ⟨cert, tbs, h3, h4, ((firstElement_tbs derTags (L := noPki.concrete derTags) h3).1 selfCert_first).symm, h2⟩

theorem selfCert_names {cert : Cert} (hsub : cert.tbs.subject = [[⟨[2, 5, 4, 3], ⟨12, ascii "self"⟩⟩]])
    (hext : cert.tbs.extensions = some ([⟨[2, 5, 29, 14], none, 4, toBE 22 0x0414a0c8ece1f294e6a1b00b8233c04c66e68532ccfd⟩,
        ⟨[2, 5, 29, 35], none, 4, toBE 24 0x30168014a0c8ece1f294e6a1b00b8233c04c66e68532ccfd⟩,
        ⟨[2, 5, 29, 19], some true, 4, [0x30, 3, 1, 1, 0xff]⟩] ++
        ⟨[2, 5, 29, 17], none, 4, [0x30, 13] ++ ([0x82, 11] ++ ascii "example.com")⟩ :: [])) :
    NamesReadable derTags (noPki.concrete derTags) cert [ascii "example.com"] where
  san := by
    have := DerSan.present (T := derTags) (c := cert) _ [] _ ([0x82, 11] ++ ascii "example.com") [⟨0x82, ascii "example.com"⟩] hext rfl
      (by decide) rfl ⟨by decide, by decide +kernel⟩
      (by
        have := Each.cons (E := IsAny derTags) ⟨0x82, ascii "example.com"⟩ [] ([0x82, 11] ++ ascii "example.com") []
          ⟨by decide +kernel, by decide, by decide +kernel⟩ .nil
        rwa [List.append_nil] at this)
    exact this
  fit := by
    intro n hn
    rw [List.mem_singleton] at hn
    subst hn
    exact ⟨by decide +kernel, by decide⟩
  subject := by
    intro rdn hr
    rw [hsub, List.mem_singleton] at hr
    subst hr
    exact ⟨_, _, rfl, fun _ => by decide⟩

theorem selfCert_derChain : DerChain derTags (noPki.concrete derTags) ⟨false, false, false⟩ none (.x509 selfCert) (ascii "example.com")
    [selfCert] := by
  obtain ⟨cert, tbs, h1, h2, rfl, h4, h5, h6, h7, h8⟩ := selfCert_der
  have hn := selfCert_names h5 h8
  refine ⟨?_, selfCert, [], cert, _, _, ascii "example.com", rfl, h1, h2, hn, ?_, .inl (by simp)⟩
  · intro i c hi
    have hc : c = selfCert ∧ i = 0 := by
      cases i with
      | zero => simpa using hi.symm
      | succ n => simp at hi
    obtain ⟨rfl, rfl⟩ := hc
    refine ⟨cert, selfTbs, selfCert, cert, selfTbs, _, h1, h2, rfl, h1, h2, (fun t ht => by cases ht), ?_, ?_, hn⟩
    · refine ⟨.ecdsaP256Sha256, by rw [h6]; decide, by rw [h4], by rw [h7], ?_⟩
      rw [h4, h7]
      exact (ecdsa_valid noPki derTags (by constructor <;> decide +kernel) selfCert_signed).1
    · intro algo ha
      rw [h6] at ha
      have : algo = .ecdsaP256Sha256 := by
        revert ha
        cases algo <;> decide
      rw [this]
      trivial
  · rw [← C49_hostname_match]; decide +kernel

-- C81_accepted
example (S : Suite) (tr : Bytes) : ((pkiOps ((noPki.concrete derTags).withDer derTags) S ⟨false, false, false⟩ none 1024).verifyCertificate tr
    ⟨[], [], [.x509 selfCert]⟩ { PkiVerifier.new (.x509 selfCert) with host := some (ascii "example.com") }).1 = .ok () :=
  C81_accepted derTags S _ _ _ _ _ _ [selfCert] (ascii "example.com") (by intro k hk; cases hk) rfl (by simp) (by simp) rfl selfCert_derChain

set_option maxRecDepth 100000 in
-- C127_der, C81_open: a client that trusts this certificate and asks for example.com
example : ∃ rx c c', Conn.new (aes128GcmSha256 false) rx ⟨[], []⟩ (List.replicate 2048 0) (List.replicate 2048 0) = .ok c ∧
    Conn.open_ (aes128GcmSha256 false) (recCfg []) trustingClient (PkiVerifier.new (.x509 selfCert)) c = (.ok (), c') ∧
    Session127 (aes128GcmSha256 false) selfServer (helloMsg (aes128GcmSha256 false) (recCfg []) trustingClient)
      [certificateMsg [] []] someData [] c' ∧
    ∃ c'', Conn.open_ (aes128GcmSha256 false) (recCfg []) trustingClient (PkiVerifier.new (.x509 selfCert)) c = (.ok (), c'') ∧
      c''.opened = true ∧ c''.rx.bytes = selfServer.send (aes128GcmSha256 false) (helloMsg (aes128GcmSha256 false) (recCfg []) trustingClient) someData := by
  obtain ⟨c, hc⟩ := new_exists (aes128GcmSha256 false)
    [.data (selfServer.answer (aes128GcmSha256 false) (helloMsg (aes128GcmSha256 false) (recCfg []) trustingClient) ++
      selfServer.send (aes128GcmSha256 false) (helloMsg (aes128GcmSha256 false) (recCfg []) trustingClient) someData)] 2048 (by decide)
  obtain ⟨cert, tbs, h1, h2, -, h4, -⟩ := selfCert_der
  obtain ⟨d1, d2, d3, -⟩ := someData_ok (aes128GcmSha256 false)
  have hm := selfServer_certificate
  have hsecret : IsP256Secret recClientSecret := by constructor <;> decide +kernel
  have hclean : Rx.Clean [.data (selfServer.answer (aes128GcmSha256 false) (helloMsg (aes128GcmSha256 false) (recCfg []) trustingClient) ++
      selfServer.send (aes128GcmSha256 false) (helloMsg (aes128GcmSha256 false) (recCfg []) trustingClient) someData)] := by
    intro e he; exact ⟨_, by simp [Textbook.answer, ServerFlight.bytes, plaintextRecord], List.mem_singleton.1 he⟩
  have hb : scalarOf selfServer.secret ≠ 0 := by show scalarOf [7] ≠ 0; decide +kernel
  obtain ⟨c', k1, k2⟩ := C127_der ⟨false, .inl rfl⟩ noPki derTags ⟨false, false, false⟩ none 1024 (recCfg []) trustingClient
    (.x509 selfCert) rfl (by intro k hk; cases hk) (ascii "example.com") rec_name.2 (by decide) selfServer (List.length_replicate ..)
    (fun _ => rfl) selfCert_derChain (leaf := selfCert) rfl h1 h2 (d := recClientSecret) hsecret h4
    rfl selfServer_signs (by show [selfCert].length ≤ 16; decide)
    (by omega) hm (by rw [rec_name.1]; rfl) trusting_fits.1 rec_scalar hb hc hclean
    (by intro a ha; cases ha) someData d1 d2 (by simp [Rx.bytes]) (by have := trusting_fits.2; simp; omega) (by simp) (by simp) (by simp)
    (by simp; omega) (by simpa using d3)
  have ht : selfServer.Sized := ⟨List.length_replicate .., by omega, (by show [selfCert].length ≤ 16; decide),
    ⟨.ecdsaSecp256r1Sha256, by decide⟩, fun m => by have := ecdsaSigned_length (selfServer_signs m); omega⟩
  have hmeets := textbook_meets ⟨false, .inl rfl⟩ (recCfg []) trustingClient selfServer ht (by rw [rec_name.1]; rfl) trusting_fits.1
    rec_scalar hb (textbook_no_certificate trustingClient (fun _ => rfl) _).1 (by intro sign scheme h; cases h) hc hclean
    (by intro a ha; cases ha) (rest := selfServer.send (aes128GcmSha256 false) (helloMsg (aes128GcmSha256 false) (recCfg []) trustingClient) someData)
    (by simp [Rx.bytes]) (by have := trusting_fits.2; simp; omega) (by simp) (by simp) (by simp; omega)
    (fun m hm => by rw [(textbook_no_certificate (S := aes128GcmSha256 false) trustingClient (fun _ => rfl) []).2 m hm]; simp)
  refine ⟨_, c, c', hc, k1, k2, C81_open derTags (L := noPki.concrete derTags) _ (C95_lawful _ ⟨false, .inl rfl⟩) ⟨false, false, false⟩ none 1024 _ _ _ hmeets rfl
    (by intro k hk; cases hk) (ascii "example.com") rec_name.2 (by decide)
    (textbook_auth _ (by show [selfCert] ≠ []; simp) hm selfCert_derChain fun m => ?_)⟩
  exact ⟨selfCert, [], cert, tbs, .ecdsaSecp256r1Sha256, .ecdsaP256Sha256, rfl, h1, h2, by rw [h4], by decide, by decide, trivial,
    by rw [h4]; exact (ecdsa_valid noPki derTags hsecret (selfServer_signs m)).1⟩

end ETls
