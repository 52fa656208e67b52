import Verif.Props.Forgery
import Verif.Props.OpenPanics
import Verif.Props.Provider
import Verif.Props.X509
import Verif.Props.ErrorKind
import Verif.Props.Secrecy
import Verif.Props.Complaint
import Verif.Props.HonestAuth
import Verif.Props.Negotiation
import Verif.Props.Writer

/-! # Theorems at concrete cases

For theorems whose own file shows the situation they are about, but not that all their hypotheses hold in it: here they are
applied. -/

namespace ETls

open Spec

theorem ok_result {α β ε : Type} {x : Res ε α × β} {a : α} (h : x.1 = .ok a) : x = (.ok a, x.2) := Prod.ext h rfl

/-! ## Messages -/

theorem exUnknown : UnknownType 0x3a3a := by intro t h; revert h; cases t <;> decide

-- C05_unknown_ignored, between two known extensions
example := C05_unknown_ignored .serverHello 4 [⟨43, [3, 4]⟩] [⟨51, [0, 23, 0, 1, 7]⟩] ⟨0x3a3a, [1, 2]⟩ exUnknown
  (by unfold ExtsSized; decide) [9] [8, 8]

-- C05_forbidden_aborts: server_name in a ServerHello
example := C05_forbidden_aborts .serverHello 4 [⟨43, [3, 4]⟩] [] ⟨0, []⟩ .serverName (by decide) (by decide)
  (by unfold ExtsSized; decide) [9] [8] [] []

-- C05_message: in EncryptedExtensions
example := C05_message toySuite ⟨0x3a3a, [1, 2]⟩ exUnknown [⟨0, []⟩] [] (fun l => .encryptedExtensions l) (.inr (.inl rfl))
  (by unfold RawMsg.WellSized; decide) (by unfold RawMsg.WellSized; decide) (by decide) (by decide) [7] []

-- C05_certificate: in the second entry of a Certificate
example := C05_certificate toySuite ⟨0x3a3a, [1, 2]⟩ exUnknown [] [] [5] [1, 2, 3] [([9], [])] [([8, 8], [])]
  (by unfold RawMsg.WellSized; decide) (by unfold RawMsg.WellSized; decide) (by decide) (by decide) [7] []

-- C05_message_forbidden: key_share in an entry of a Certificate that decodes without it
example : (ServerHs.parse toySuite (PB.new (RawMsg.certificate [] [([9], [⟨51, [0, 23]⟩])]).bytes)).1 =
    .err (.abortHandshake .fatal .illegalParameter) := by
  have := (C05_message_forbidden toySuite (.certificate [] [9] [] []) [] [] ⟨51, [0, 23]⟩ .keyShare (by decide) (by decide)
    (by unfold RawMsg.WellSized; decide) (by unfold RawMsg.WellSized; decide) (by decide) (by decide) [] []).2
    (.certificate ⟨certEntryBytes ([9], []), [], [.x509 [9]]⟩) (by decide)
  simpa using this

-- C35_server_finished
example := C35_server_finished toySuite toySuite_lawful { (exConn []).rd.rks with st := { (exConn []).rd.rks.st with
  trafficSecret := some [5] } } [5] rfl (verifyData toySuite [5] [1, 2]) [1, 2]

/-! ## Writing -/

-- C15_flush: one byte in the buffer
def exHolding : WrHalf := (WrHalf.write toySuite [7] (exWr 136 [])).2

example : ∃ evs, (WrHalf.flush toySuite exHolding).2.tx.log = exHolding.tx.log ++ evs ∧
    SendEvents (ciphertextRecord toySuite exHolding.wks.st.key exHolding.wks.st.iv exHolding.wks.st.counter 23 [7])
      exHolding.fp (WrHalf.flush toySuite exHolding).1 evs ∧
    (Reliable exHolding.tx → (WrHalf.flush toySuite exHolding).1 = .ok ()) :=
  C15_flush toySuite toySuite_lawful exHolding [7]
    ⟨by decide +kernel, by decide +kernel, 0, 0, exHolding.wb.buffer.drop 6, by decide +kernel⟩ (by decide +kernel)
    (by decide +kernel) (by decide +kernel)

-- C18_limit_partial
example := C18_limit_partial toySuite toySuite_lawful [.write [1], .flush, .write [2, 3, 4, 5]] (exWr 136 [.fail 1 3]) ⟨rfl, rfl⟩
  (by simp [exWr]) (by simp [exWr]) rfl (by decide)

/-! ## Reading -/

-- C22_read: three bytes of a record of four
example : ∃ bs h', RdHalf.read toySuite 3 (exConn [.data (sealInner 0 [1, 2, 3, 4, 23])]).rd = (.ok bs, h') ∧
    0 < bs.length ∧ bs.length ≤ 3 := by
  have h := ok_result (a := [1, 2, 3]) (x := RdHalf.read toySuite 3 (exConn [.data (sealInner 0 [1, 2, 3, 4, 23])]).rd)
    (by decide +kernel)
  exact ⟨_, _, h, C22_read toySuite 3 (by decide) _ _ _ h⟩

-- C26_call: a record of noise
example : ∃ h1, (ROp.read 3).run toySuite (exConn [.data [23, 3, 3, 0, 2, 9, 9]]).rd = (.err .cryptoError, h1) := by
  have h := ok_result (a := .appData [23, 3, 3, 0, 2] 0 [9, 9])
    (x := RdHalf.readRecord toySuite (exConn [.data [23, 3, 3, 0, 2, 9, 9]]).rd) (by decide +kernel)
  exact ⟨_, (C26_call toySuite (.read 3) (by simp [ROp.Fills]) _ _
    ⟨by unfold RR.Inv; decide +kernel, by decide +kernel, by decide +kernel⟩ rfl rfl _ _ _ h (by decide +kernel)).1⟩

-- C30_partial: an empty inner plaintext
example : ∃ h1, RdSteps toySuite (exConn [.data (sealInner 0 [])]).rd h1 ∧ PanicCause toySuite h1 :=
  C30_partial toySuite toySuite_lawful.openLength (.read 10) _
    ⟨by unfold RR.Inv; decide +kernel, by decide +kernel, by decide +kernel⟩ (by decide +kernel)

/-! ## Configuration -/

-- C54_builds_partial, C94_partial
example : ∃ cfg, buildConfig true [.withServerName [97], .enableRsa, .withPsk [1] [[2]]] = .ok cfg ∧
    cfg.serverName = some [97] ∧ ¬ ∀ s ∈ cfg.signatureSchemes, CanVerify ⟨false, true, true⟩ s := by
  obtain ⟨cfg, h⟩ : ∃ cfg, buildConfig true [.withServerName [97], .enableRsa, .withPsk [1] [[2]]] = .ok cfg := ⟨_, rfl⟩
  refine ⟨cfg, h, (C54_builds_partial _ _ _ h).1, ?_⟩
  rw [C94_partial _ _ _ _ h]
  simp

/-! ## Verifiers -/

/-- The Certificate message of the examples, as received. -/
def exCertBody (certs : List Bytes) : Bytes := 0 :: be24 (toyMsg certs).rawEntries.length ++ (toyMsg certs).rawEntries

-- C53_native_partial and C100_native_signature: a signature that does not match
example : ∃ v', toyNative.verifyCertificate [1, 2] (toyMsg [toyLeaf, toyInter]) (toyVerifier "www.example.com") = (.ok (), v') ∧
    (toyNative.verifySignature ⟨.ecdsaSecp256r1Sha256, [1, 2, 3, 4]⟩ v').1 = .err .invalidSignature ∧
    SignatureDefect toyPki allFeatures (toyMsg [toyLeaf, toyInter]).entries (serverSignedContent toySuite [1, 2])
      ⟨.ecdsaSecp256r1Sha256, [1, 2, 3, 4]⟩ .invalidSignature ∧
    ((toyNative.verifySignature ⟨.ecdsaSecp256r1Sha256, [1, 2, 3, 4]⟩ v').1 ∈
      [.ok (), .err .invalidSignature, .err .invalidSignatureScheme, .err .decodeError] ∨
    ((toyNative.verifySignature ⟨.ecdsaSecp256r1Sha256, [1, 2, 3, 4]⟩ v').1 = .panic ∧
      ∃ leaf rest dc key, (toyMsg [toyLeaf, toyInter]).entries = .x509 leaf :: rest ∧ toyPki.fromDer leaf = some dc ∧
        dc.publicKey = some key ∧ ((SignatureScheme.ecdsaSecp256r1Sha256 = .ed25519 ∧ key.length ≠ 32) ∨
          (SignatureScheme.ecdsaSecp256r1Sha256 = .rsaPssRsaeSha256 ∧ toyPki.keyOk .rsaPssSha256 key = false)))) := by
  have h := ok_result (a := ()) (x := toyNative.verifyCertificate [1, 2] (toyMsg [toyLeaf, toyInter])
    (toyVerifier "www.example.com")) (by decide +kernel)
  have hp := ok_result (a := toyMsg [toyLeaf, toyInter]) (x := CertMsg.parse ⟨exCertBody [toyLeaf, toyInter], 0⟩)
    (by decide +kernel)
  have hs : (toyNative.verifySignature ⟨.ecdsaSecp256r1Sha256, [1, 2, 3, 4]⟩ (toyNative.verifyCertificate [1, 2]
    (toyMsg [toyLeaf, toyInter]) (toyVerifier "www.example.com")).2).1 = .err .invalidSignature := by decide +kernel
  exact ⟨_, h, hs, (C100_native_signature toySuite 1000 _ _ _ _ _ _ h (by decide +kernel) (by decide +kernel)).1 hs,
    C53_native_partial toySuite toySuite_lawful _ _ _ _ _ _ _ _ _ hp h⟩

-- C57_webpki, C53_webpki_partial and C100_webpki_signature
example : ∃ v', toyWebOps.verifyCertificate [1, 2] (toyMsg [exDirect]) (toyVerifier "example.com") = (.ok (), v') ∧
    (∃ ca leaf rest, (toyVerifier "example.com").ca = .x509 ca ∧ (toyMsg [exDirect]).entries = .x509 leaf :: rest ∧
      toyWeb.chainOk ca leaf 20 = true) ∧
    (toyWebOps.verifySignature ⟨.ecdsaSecp256r1Sha256, [1]⟩ v').1 ∈
      [.ok (), .err .invalidSignature, .err .invalidSignatureScheme, .err .decodeError] ∧
    WebSignatureDefect toyWeb false (toyMsg [exDirect]).entries (serverSignedContent toySuite [1, 2])
      ⟨.ecdsaSecp256r1Sha256, [1]⟩ .invalidSignature := by
  have h := ok_result (a := ()) (x := toyWebOps.verifyCertificate [1, 2] (toyMsg [exDirect]) (toyVerifier "example.com"))
    (by decide +kernel)
  have hp := ok_result (a := toyMsg [exDirect]) (x := CertMsg.parse ⟨exCertBody [exDirect], 0⟩) (by decide +kernel)
  have hs : (toyWebOps.verifySignature ⟨.ecdsaSecp256r1Sha256, [1]⟩ (toyWebOps.verifyCertificate [1, 2]
    (toyMsg [exDirect]) (toyVerifier "example.com")).2).1 = .err .invalidSignature := by decide +kernel
  obtain ⟨ca, leaf, rest, h1, h2, h3, -⟩ := C57_webpki toySuite toyWeb false (some 20) 1000 _ _ _ _ _ _ hp h
  refine ⟨_, h, ⟨ca, leaf, rest, h1, h2, h3⟩,
    C53_webpki_partial toySuite toySuite_lawful (by decide) toyWeb false _ _ _ _ _ _ _ _ _ hp h, ?_⟩
  have := (C100_webpki_signature toySuite false 1000 _ _ _ _ _ _ h (by decide +kernel)).1 hs
  rwa [if_pos (by decide +kernel)] at this

-- C50_no_common_name_partial and C65_no_server_name
example : ∃ dc v', toyPki.fromDer exDirect = some dc ∧
    toyNative.verifyCertificate [] (toyMsg [exDirect]) (toyVerifier "example.com") = (.ok (), v') ∧
    ∃ name, DnsNameOf toyPki dc name ∧ HostMatches name (ascii "example.com") := by
  have h := ok_result (a := ()) (x := toyNative.verifyCertificate [] (toyMsg [exDirect]) (toyVerifier "example.com"))
    (by decide +kernel)
  obtain ⟨dc, hd⟩ : ∃ dc, toyPki.fromDer exDirect = some dc := ⟨_, rfl⟩
  refine ⟨dc, _, hd, h, C50_no_common_name_partial toySuite _ _ _ _ _ _ h exDirect [] dc _ rfl hd ?_ rfl⟩
  have hs : (toyPki.fromDer exDirect).map (·.subject) = some [] := by decide +kernel
  rw [hd] at hs
  simp only [Option.map_some, Option.some.injEq] at hs
  rintro name ⟨rdn, h1, -⟩
  rw [hs] at h1
  cases h1

/-! ## Handshakes -/

/-- The client of the examples, with the native verifier and a server with certificates. -/
def exAuthConn : Conn := exNew 600 [.data (exServer exCfg exSH (exAuthFlight [exLeaf, toyInter]))]

-- C34_server_auth_partial, C34_certificate_accepted_partial, C37, C39, C41 and C45
set_option maxRecDepth 10000 in
example : ∃ c', Conn.open_ toySuite exCfg (authProv toyNative) (PkiVerifier.new (.x509 toyCa)) exAuthConn = (.ok (), c') ∧
    exAuthConn.Fresh toySuite ∧ (authProv toyNative).verifier = some toyNative :=
  ⟨_, ok_result (by decide +kernel), exNew_fresh _ _ (by decide), rfl⟩

-- C60_webpki
set_option maxRecDepth 10000 in
example : ∃ x : Session, Authenticated (WebAccepts toyWeb (some 20) (.x509 toyCa) exCfg.serverName) (WebSigned toyWeb)
    toySuite x := by
  have h := ok_result (a := ()) (x := Conn.open_ toySuite exCfg (authProv toyWebOps) (PkiVerifier.new (.x509 toyCa))
    (exNew 600 [.data (exServer exCfg exSH (exAuthFlight [exDirect]))])) (by decide +kernel)
  obtain ⟨-, x, -, -, h2⟩ := C60_webpki toySuite toySuite_lawful toyWeb false (some 20) 1000 exCfg (authProv toyWebOps)
    (.x509 toyCa) (exNew_fresh _ _ (by decide)) rfl h
  exact ⟨x, h2⟩

-- C66_webpki_partial: CertificateVerify without Certificate
example : ∃ calls u, VCalls (authProv toyWebOps) (hostVst exCfg (authProv toyWebOps) (PkiVerifier.new (.x509 toyCa))) calls u ∧
    ∀ c, ¬ LastIsCertificate calls c :=
  C66_webpki_partial toySuite toySuite_lawful toyWeb false (some 20) 1000 exCfg (authProv toyWebOps) rfl (.x509 toyCa)
    (.certificateVerify toyWebOps rfl [] _ .none ⟨.ecdsaSecp256r1Sha256, []⟩ (by decide +kernel))

-- C66_without_verifier_partial
set_option maxRecDepth 10000 in
example : EmptyRecord toySuite exCfg exProv (exNew 400 [.data exEmptyInner]) :=
  C66_without_verifier_partial toySuite toySuite_lawful exCfg exProv () (exNew_fresh _ _ (by decide)) (by decide +kernel) rfl
    (by intro key h; cases h) (by intro h; cases h) (by intro sign scheme m h; cases h) C66_refuted.1

-- C66_unsecure_partial
set_option maxRecDepth 10000 in
example : EmptyRecord toySuite exCfg ((exUnsecure none).provider (V := Unit) toyP256) (exNew 400 [.data exEmptyInner]) :=
  C66_unsecure_partial toySuite toySuite_lawful toyP256 toyP256_lawful exCfg (exUnsecure none) () (exNew_fresh _ _ (by decide))
    (by decide +kernel) (by intro key h; cases h) (by decide +kernel)

-- C71_no_signer: a certificate without key
set_option maxRecDepth 10000 in
example : ∃ c', Conn.open_ toySuite exCfg ((exUnsecure none).provider toyP256) () exAsking = (.err .invalidPrivateKey, c') := by
  obtain ⟨c', h, -⟩ := C71_no_signer toySuite toySuite_lawful exCfg ((exUnsecure none).provider toyP256) ()
    (exAsking_serves _ rfl rfl rfl) (ctx := [7, 8]) rfl rfl rfl (by decide +kernel)
  exact ⟨c', h⟩

/-! ## Certificates -/

-- C80_unique
example (c : Cert) (tbs tbs' : Bytes) (h : IsCertificate exTags exDerCert tbs exDerLeaf)
    (h' : IsCertificate exTags c tbs' exDerLeaf) : exDerCert = c := (C80_unique exTags h h').1

/-! ## Errors -/

-- C85_kind: the transport fails with kind 5
example : ∃ rx' tx', Drew [.data [23, 3], .err 5, .data [1]] (.err 5 :: rx') ∧ Answered (exConn []).tx tx' ∨
    ∃ n tx1, tx1.ctl = OutCtl.fail 5 n :: tx'.ctl ∧ Answered (exConn []).tx tx1 := by
  have h := C85_read toySuite (.read 10) (exConn [.data [23, 3], .err 5, .data [1]])
  have e : (onRd ((ROp.read 10).run toySuite) (exConn [.data [23, 3], .err 5, .data [1]])).1 = .err (.io 5) := by decide +kernel
  rw [e] at h
  rcases (C85_kind h).1 (by decide) with ⟨h1, h2⟩ | ⟨n, tx1, ev, -, h2, h3, -⟩
  · exact ⟨_, _, .inl ⟨h1, h2⟩⟩
  · exact ⟨[], _, .inr ⟨n, tx1, h3, h2⟩⟩

end ETls
