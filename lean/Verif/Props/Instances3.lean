import Verif.Props.Textbook
import Verif.Props.Instances2
import Verif.Props.X509

/-! # Still more theorems at concrete cases

Here connections with the servers of `Spec/Textbook` are used. -/

namespace ETls

open Spec Crypto

/-! ## Buffers -/

-- C02_u16, C02_u24, C02_int
example := C02_u16 (.extend [1, 2, 3]) ⟨List.replicate 10 0, 1, 2⟩ (by decide) (by decide)
example := C02_u24 (.extend [1, 2, 3]) ⟨List.replicate 10 0, 1, 2⟩ (by decide) (by decide)
example := (C02_int [7] [8]).2.1 0x123456 (by decide)

/-! ## Certificates -/

-- C59_first_three_partial: the certificate made with OpenSSL
example (S : Suite) (tr : Bytes) : ((pkiOps (noPki.concrete derTags) S ⟨false, false, false⟩ none 1024).verifyCertificate tr
    ⟨[], [], [.x509 selfCert]⟩ { PkiVerifier.new (.x509 selfCert) with host := some (ascii "example.com") }).1 = .ok () := by
  obtain ⟨dc, h1, -, -, h4, h5, h6⟩ := selfCert_reads
  exact C59_first_three_partial S none 1024 tr _ _ [selfCert] selfCert [] dc _
    (ascii "example.com") (by intro k hk; cases hk) rfl (by simp) (by simp) selfCert_chain.chain rfl h1 h5 h6 h4 rfl 0 (by decide)
    (ascii "example.com") rfl (by rw [← C49_hostname_match]; decide +kernel)

-- C123_certificate, C123_server: the same certificate, and what its owner signs
example : ∃ key d tbs sig, (((noPki.concrete derTags).fromDer selfCert).bind (·.publicKey)) = some key ∧ IsKeyOf key d ∧
    FirstElement (noPki.concrete derTags) selfCert tbs ∧ EcdsaSigned d tbs sig := by
  have h := selfCert_decodes
  rw [Option.any_eq_true] at h
  obtain ⟨dc, h1, h2⟩ := h
  simp only [decide_eq_true_eq] at h2
  have hi : IssuedBy (noPki.concrete derTags) selfCert selfCert := by
    obtain ⟨di, dc', key, algo, tbs, sig, k1, k2, k3, k4, -, k6, k7, k8⟩ :=
      C99_certificate noPki derTags ⟨false, false, false⟩ (by constructor <;> decide +kernel) h1 h1 h2.1 h2.2.1 selfCert_first h2.2.2 selfCert_signed
    exact ⟨di, dc', key, algo, tbs, sig, k1, k2, k3, k4, k6, k7, k8⟩
  obtain ⟨key, d, tbs, sig, k1, k2, -, k4, k5⟩ := (C123_certificate noPki derTags h1 h1 h2.2.1).1 hi
  exact ⟨key, d, tbs, sig, by rw [h1]; exact k1, k2, k4, k5⟩

example (m : Bytes) : SignedByLeaf (noPki.concrete derTags) [selfCert] 0x0403 m (selfServer.sign m) := by
  obtain ⟨dc, h1, h2, -⟩ := selfCert_reads
  exact (C123_server noPki derTags).2 ⟨selfCert, [], dc, _, recClientSecret, rfl, h1, h2,
    isKeyOf_public (by constructor <;> decide +kernel), selfServer_signs m⟩

-- C123_key: its public key has exactly one private key
example : ∃ d, IsKeyOf (p256Key recClientSecret) d ∧ ∀ d', IsKeyOf (p256Key recClientSecret) d' → d' = d :=
  (C123_key noPki derTags _).1 (by decide +kernel)

/-! ## Keys -/

-- C102_injective: two secrets
example : p256Public (toBE 32 1) ≠ p256Public (toBE 32 2) := by
  intro h
  have := C102_injective ⟨by decide, by decide +kernel, by decide +kernel⟩ ⟨by decide, by decide +kernel, by decide +kernel⟩ h
  revert this
  decide +kernel

/-- A client with the key 00 01 … 0f and this random. -/
def pskClient (random : Bytes) : Provider Unit := { recPskProvider with random := random }

set_option maxRecDepth 100000 in
theorem pskClient_fits : (HelloFits (aes128GcmSha256 false) recPskCfg (pskClient (List.replicate 32 1)) ∧
      5 + helloLength (aes128GcmSha256 false) recPskCfg (pskClient (List.replicate 32 1)) ≤ 2048) ∧
    (HelloFits (aes128GcmSha256 false) recPskCfg (pskClient (List.replicate 32 2)) ∧
      5 + helloLength (aes128GcmSha256 false) recPskCfg (pskClient (List.replicate 32 2)) ≤ 2048) :=
  ⟨⟨⟨by decide +kernel, (by intro ps h; cases h), by decide +kernel⟩, by decide +kernel⟩,
    ⟨by decide +kernel, (by intro ps h; cases h), by decide +kernel⟩, by decide +kernel⟩

set_option maxRecDepth 100000 in
theorem pskClient_opens (random : Bytes) (hf : HelloFits (aes128GcmSha256 false) recPskCfg (pskClient random))
    (hl : 5 + helloLength (aes128GcmSha256 false) recPskCfg (pskClient random) ≤ 2048) :
    ∃ rx c c', Conn.new (aes128GcmSha256 false) rx ⟨[], []⟩ (List.replicate 2048 0) (List.replicate 2048 0) = .ok c ∧
      Conn.open_ (aes128GcmSha256 false) recPskCfg (pskClient random) () c = (.ok (), c') := by
  obtain ⟨c, hc⟩ := new_exists (aes128GcmSha256 false)
    [.data (pskServer.answer (aes128GcmSha256 false) (helloMsg (aes128GcmSha256 false) recPskCfg (pskClient random)) ++
      pskServer.send (aes128GcmSha256 false) (helloMsg (aes128GcmSha256 false) recPskCfg (pskClient random)) someData)] 2048 (by decide)
  obtain ⟨d1, d2, d3, -⟩ := someData_ok (aes128GcmSha256 false)
  obtain ⟨c', k1, -⟩ := C127_psk ⟨false, .inl rfl⟩ recPskCfg (pskClient random) rfl () pskServer
    ⟨by decide, by decide, by decide, ⟨.ecdsaSecp256r1Sha256, by decide⟩, fun _ => le_trans (show 0 + 8 ≤ 80 by decide) (le_max_left _ _)⟩ (fun h => by cases h) (by decide +kernel) hf rec_scalar
    (by decide +kernel) hc
    (by intro e he; exact ⟨_, by simp [Textbook.answer, ServerFlight.bytes, plaintextRecord], List.mem_singleton.1 he⟩)
    (by intro a ha; cases ha) someData d1 d2 (by simp [Rx.bytes]) (by simpa using hl) (by simp) (by simp) (by simp)
    (by rw [List.length_replicate]; decide) (by simpa using d3)
  exact ⟨_, c, c', hc, k1⟩

-- C104_connections, C118_once: two connections with the same key and different randoms
example : ∃ c₁ c₁' c₂ c₂' x₁ x₂,
    Established (aes128GcmSha256 false) recPskCfg (pskClient (List.replicate 32 1)) () c₁ x₁ c₁' ∧
    Established (aes128GcmSha256 false) recPskCfg (pskClient (List.replicate 32 2)) () c₂ x₂ c₂' ∧
    (c₁'.ks.server.st.key = c₂'.ks.server.st.key → ∃ a b, Clash hSha256 16 a b) ∧
    ∀ k₁ k₂ b₁ b₂ r, ¬ (OtherEnd (aes128GcmSha256 false) k₁ x₁ b₁ c₁' r ∧ OtherEnd (aes128GcmSha256 false) k₂ x₂ b₂ c₂' r) := by
  obtain ⟨⟨f1, l1⟩, f2, l2⟩ := pskClient_fits
  obtain ⟨rx₁, c₁, c₁', n1, o1⟩ := pskClient_opens _ f1 l1
  obtain ⟨rx₂, c₂, c₂', n2, o2⟩ := pskClient_opens _ f2 l2
  have hne : (pskClient (List.replicate 32 1)).random ≠ (pskClient (List.replicate 32 2)).random := by decide
  have hu : UsesHash (aes128GcmSha256 false) hSha256 := ⟨rfl, by decide, by decide, by decide, rfl, rfl, rfl, rfl⟩
  obtain ⟨x₁, x₂, e1, e2, -, k⟩ := C104_connections ⟨false, .inl rfl⟩ hu recPskCfg recPskCfg _ _ () () (Conn.new_fresh _ n1).1
    (Conn.new_fresh _ n2).1 f1 f2 o1 o2
  exact ⟨c₁, c₁', c₂, c₂', x₁, x₂, e1, e2, fun h => ⟨_, _, (k hne).2.1 h⟩, (C118_once ⟨false, .inl rfl⟩ e1 e2 f1 f2 hne).2⟩

-- C115_webpki_partial, C116_webpki_partial, C117_webpki_partial: a connection with the webpki verifier
example : ∃ rx c c' x, Conn.new (aes128GcmSha256 false) rx ⟨[], []⟩ (List.replicate 2048 0) (List.replicate 2048 0) = .ok c ∧
    Conn.open_ (aes128GcmSha256 false) (recCfg []) webClient (PkiVerifier.new (.x509 selfCert)) c = (.ok (), c') ∧
    Established (aes128GcmSha256 false) (recCfg []) webClient (PkiVerifier.new (.x509 selfCert)) c x c' ∧
    ∀ m code sig, (m, .certificateVerify code sig) ∈ x.msgs → ∃ certs before,
      WebAccepts selfWeb none (.x509 selfCert) (recCfg []).serverName certs ∧
      WebSigned selfWeb certs code (serverSignedContent (aes128GcmSha256 false) (x.hello ++ x.sh ++ before)) sig := by
  obtain ⟨rx, c, c', hcl, hc, hfit, h, hs⟩ := web_session
  have hu : UsesHash (aes128GcmSha256 false) hSha256 := ⟨rfl, by decide, by decide, by decide, rfl, rfl, rfl, rfl⟩
  have ht : Reliable c'.tx := open_reliable _ _ (webpki_plain _ _ _ _ _ _ _ _ _ (by intro e he; injection he with he; subst he; simp [TransportError])) _ h
    (by rw [(Conn.new_parts _ hc).2.2.1]; intro x hx; simp at hx)
  obtain ⟨-, -, -⟩ := C115_webpki_partial ⟨false, .inl rfl⟩ hu selfWeb false none 1024 (recCfg []) webClient (.x509 selfCert)
    (Conn.new_fresh _ hc).1 hfit rec_scalar rfl h
  obtain ⟨-, -, -⟩ := C116_webpki_partial ⟨false, .inl rfl⟩ hu selfWeb false none 1024 (recCfg []) webClient (.x509 selfCert)
    hc hfit rec_scalar rfl h hcl
  obtain ⟨x, hx, hk⟩ := C117_webpki_partial ⟨false, .inl rfl⟩ hu selfWeb false none 1024 (recCfg []) webClient (.x509 selfCert)
    hc hfit hfit.random rec_scalar rfl h hcl ht (by rw [List.length_replicate]; decide)
  refine ⟨rx, c, c', x, hc, h, hx, fun m code sig hm => ?_⟩
  obtain ⟨certs, before, h1, h2, -⟩ := hk m code sig hm
  exact ⟨certs, before, h1, h2⟩

end ETls
