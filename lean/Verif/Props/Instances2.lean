import Verif.Props.Instances
import Verif.Props.BufferWindow
import Verif.Props.Nameless
import Verif.Props.PskHolder
import Verif.Props.SignedOnly
import Verif.Props.RoundTrip
import Verif.Props.Rng
import Verif.Props.EmbeddedIo
import Verif.Props.Reopen
import Verif.Props.OwnerHears

/-! # More theorems at concrete cases

As in `Verif.Props.Instances`: the theorems are applied, so all their hypotheses hold in the cases given. -/

namespace ETls

open Spec

/-! ## Buffers and messages -/

-- C01_plaintext_record: a handshake record with one byte
example := C01_plaintext_record toySuite ⟨.handshake, 1, [22, 3, 3, 0, 1]⟩ 0 [2] [] rfl

-- C01_header: an unknown content type
example : RecordHeader.decode [99, 3, 3, 0, 1] ≠ .panic := C01_header _ rfl

-- C01_decrypted_handshake: noise in a handshake record, whatever is done with the messages without panic
example := C01_decrypted_handshake toySuite (τ := Unit) (fun _ s => (.ok (), s)) (by intro r s; simp) [23, 3, 3, 0, 20] 0
  [8, 0, 0, 9, 1, 22] (by simp) ((exConn []).rd.rks, ())

-- C02_u8: three bytes behind a length, after two bytes that are in the buffer already
example := C02_u8 (.extend [1, 2, 3]) ⟨List.replicate 10 0, 1, 2⟩ (by decide) (by decide)

-- C02_list
example := C02_list [[1, 2], [], [3]] ⟨List.replicate 20 0, 0, 2⟩ 3 (by decide) (by decide) (by decide) (by decide)

-- C03_append_exact_or_unchanged: with and without room
example := C03_append_exact_or_unchanged (.u24 5) ⟨[9, 9, 9, 9, 9, 9], 1, 2⟩ (by decide)
example := C03_append_exact_or_unchanged (.u24 5) ⟨[9, 9, 9, 9, 9], 1, 2⟩ (by decide)

-- C03_set, C03_truncate_window, C27_in_place
example := C03_set ⟨[9, 9, 9, 9], 1, 2⟩ (by decide) 1 5
example := C03_truncate_window ⟨[9, 9, 9, 9], 1, 2⟩ (by decide) 3
example := C27_in_place ⟨[9, 7, 23, 0, 0, 1], 1, 4⟩ (by decide)

-- C08_round_trip
example := C08_round_trip ⟨.fatal, .handshakeFailure⟩ [0, 0, 0, 0, 0] 1 2 (by decide)

-- C09_partial: a CertificateRequest among other bytes
example := C09_partial toySuite (.certificateRequest [7] [⟨13, [0, 2, 4, 3]⟩]) (by unfold RawMsg.WellSized; decide) (by decide)
  [1] [2]

/-! ## Keys -/

-- C35_handshake, C35_application: the second and the third stage, with the first one done
example := C35_handshake toySuite toySuite_lawful
  { KeySchedule.new toySuite with shared := ⟨Spec.deriveSecret toySuite (earlySecret toySuite (some [1])) "derived" [], none⟩ }
  (some [1]) [5, 6] rfl
example := C35_application toySuite toySuite_lawful
  { KeySchedule.new toySuite with
    shared := ⟨Spec.deriveSecret toySuite (handshakeSecret toySuite (some [1]) [5, 6]) "derived" [], none⟩ }
  (some [1]) [5, 6] rfl

-- C47_no_wrap: just below the end
example := C47_no_wrap { (exConn []).ks.client.st with counter := 2 ^ 64 - 1 } (by decide)

-- C48_label_fits
example := C48_label_fits toySuite toySuite_lawful [1, 2] "c hs traffic" (by decide) 32 (by decide)

-- C48_unambiguous
example := C48_unambiguous 16 16 "key" "key" [] [] (by decide) (by decide) (by decide) (by decide) (by decide) (by decide) rfl

/-! ## Reading and writing -/

-- C26_decrypt
example := C26_decrypt toySuite (exConn []).rd [23, 3, 3, 0, 20] (List.replicate 20 9) 0 (by decide)

-- C29_partial: a plaintext alert other than close_notify
example := C29_partial toySuite (exConn []).rd (.alert ⟨.fatal, .internalError⟩) (by simp)

-- C16_close_partial: two writes, then close
example := C16_close_partial toySuite toySuite_lawful [.write [1, 2], .write [3]] (exConn []) ⟨rfl, rfl⟩ (by decide +kernel) rfl rfl
  (by intro c hc; cases hc) (by decide +kernel)

-- C15_flush_empty, C22_empty
example : WrHalf.flush toySuite (exConn []).wr = (.ok (), (exConn []).wr) := C15_flush_empty toySuite _ rfl
example : RdHalf.read toySuite 0 (exConn [.data [1]]).rd = (.ok [], (exConn [.data [1]]).rd) := C22_empty toySuite _

-- C122_never: a stream that has ended
example := C122_never toySuite 5 (by decide) (exConn [])

/-! ## Messages of the server -/

-- C55_*: each with extensions that are permitted in it
example := C55_server_hello toySuite 0x0303 (List.replicate 32 7) [] 0x1301 0 [⟨43, [3, 4]⟩] [⟨.supportedVersions, .supportedVersionsSH 0x0304⟩]
  ⟨by decide, by decide, by decide, ⟨.tlsAes128GcmSha256, by decide⟩, by unfold ExtsSized; decide⟩ (by decide)
  ⟨by decide, .cons ⟨by decide, _, rfl, by decide⟩ .nil⟩ [9] [8]
example := C55_encrypted_extensions toySuite [] [] (by unfold ExtsSized; decide)
example := C55_certificate_request toySuite [7] [] [] (by unfold RawMsg.WellSized; decide)
example := C55_certificate toySuite [] [([1, 2], []), ([3], [])] (by unfold RawMsg.WellSized; decide) (by decide) (by decide)
example := C55_certificate_verify toySuite .ecdsaSecp256r1Sha256 0x0403 [1, 2] (by decide) (by decide) [9] [8]
example := C55_finished toySuite (List.replicate 32 5) (by decide) (by decide) [9] [8]
example := C55_new_session_ticket toySuite 7 8 [1] [2, 3] [] [] (by unfold RawMsg.WellSized; decide)

-- C56_decoder_sound, C56_fields: a CertificateRequest between other bytes
example := C56_decoder_sound toySuite [9] [13, 0, 0, 4, 1, 7, 0, 0] [8] (.certificateRequest [7]) (by decide)
example := C56_fields (raw := .certificateRequest [7] []) (h := .certificateRequest [7]) (by decide)

/-! ## Connections with OpenSSL -/

-- C33_finished_gate, C37_client_finished, C41_negotiated_partial, C45_open, C60_native
example := (recRun_opens openssl_native).imp fun _ h => h.imp fun _ h => And.intro h
  (C33_finished_gate _ (C95_lawful _ ⟨false, .inl rfl⟩) _ _ _ h.1 h.2.2)
example := (recRun_opens openssl_native).imp fun _ h => h.imp fun _ h => And.intro h
  (C37_client_finished _ (C95_lawful _ ⟨false, .inl rfl⟩) _ _ _ h.1 h.2.2)
example := (recRun_opens openssl_native).imp fun _ h => h.imp fun _ h => And.intro h
  (C41_negotiated_partial _ (C95_lawful _ ⟨false, .inl rfl⟩) _ _ _ h.1 h.2.2)
example := (recRun_opens openssl_native).imp fun _ h => h.imp fun _ h => And.intro h
  (C45_open _ (C95_lawful _ ⟨false, .inl rfl⟩) _ _ _ h.1 h.2.2)
example := (recRun_opens openssl_native).imp fun _ h => h.imp fun _ h => And.intro h
  (C60_native _ (C95_lawful _ ⟨false, .inl rfl⟩) _ _ _ _ _ _ _ h.1 rfl h.2.2)
example := (recRun_opens openssl_native).imp fun _ h => h.imp fun _ h => And.intro h
  (C81_native (L := noPki.concrete derTags) derTags _ (C95_lawful _ ⟨false, .inl rfl⟩) _ _ _ _ _ _ h.1 rfl h.2.2)

-- C93_partial: the keys of OpenSSL's certificates
example := (recRun_opens openssl_native).imp fun _ h => h.imp fun _ h => And.intro h
  (C93_partial _ derTags (noPki.concrete derTags) (C95_lawful _ ⟨false, .inl rfl⟩) _ _ _ _ _ _ h.1 rfl h.2.2)

-- C39_client_auth_partial: OpenSSL asks for the certificate of the client
example := (recRun_opens openssl_client_auth).imp fun _ h => h.imp fun _ h => And.intro h
  (C39_client_auth_partial _ (C95_lawful _ ⟨false, .inr rfl⟩) _ _ _ h.1 h.2.2)

theorem recPsk_hash : UsesHash (aes128GcmSha256 false) Crypto.hSha256 := ⟨rfl, by decide, by decide, by decide, rfl, rfl, rfl, rfl⟩

-- C118_finished, C118_stranger
example := (recRun_opens openssl_psk).imp fun _ h => h.imp fun _ h => And.intro h
  (C118_finished (C95_lawful _ ⟨false, .inl rfl⟩) recPsk_hash recPskCfg recPskProvider () (k := Crypto.toBE 16 0x000102030405060708090a0b0c0d0e0f)
    (ids := [ascii "Client_identity"]) (by decide +kernel) h.1 recPsk_fits h.2.2)
example := (recRun_opens openssl_psk).imp fun _ h => h.imp fun _ h => And.intro h
  (C118_stranger (C95_lawful _ ⟨false, .inl rfl⟩) recPsk_hash recPskCfg recPskProvider () (k := Crypto.toBE 16 0x000102030405060708090a0b0c0d0e0f)
    (ids := [ascii "Client_identity"]) (by decide +kernel) h.1 h.2.2)

/-! ## Certificates -/

-- C61_native_partial: see `C61_refuted`, where the verifier panics

-- C63_partial, C65_no_dns_name: the certificate of the examples
example := C63_partial (L := toyPki) (F := allFeatures) toySuite toyWeb false (some 20) 1000 [] (toyMsg [exLeaf, toyInter]) (toyVerifier "example.com")

-- C65_no_dns_name: a certificate without names
example := C65_no_dns_name (L := toyPki) (F := allFeatures) toySuite (some 20) 1000 [] (toyMsg [toyCert 1 3 10 50 "" []]) (toyVerifier none) _
  (ok_result (by decide +kernel)) rfl (toyCert 1 3 10 50 "" []) [] rfl

-- C68_failed_partial: nothing comes from the server
example := C68_failed_partial toySuite exCfg exProv () (exNew 600 []) (by decide +kernel)

-- C70_noVerify
example := C70_noVerify toySuite exCfg exProv () (exNew 600 [])

-- C95_gcm
example := C95_gcm (List.replicate 16 1) (List.replicate 12 2) [23, 3, 3, 0, 20] [1, 2, 3]

-- C54_panics_iff: the fourth call
example : buildConfig false [.enableRsa, .enableRsa, .enableRsa, .enableRsa] = .panic :=
  (C54_panics_iff false _).2 (.inl (by decide))
example : buildConfig false [.enableRsa, .enableRsa, .enableRsa] ≠ .panic := fun h =>
  ((C54_panics_iff false _).1 h).elim (by decide) (by rintro ⟨k, ids, h, -⟩; simp at h)

-- C97_secret: a recorded connection, then two bytes or two other bytes written
example := (recRun_new openssl_native).imp fun _ h => h.imp fun _ h => h.imp fun _ h => h.imp fun _ h => And.intro h
  (C97_secret _ (C95_lawful _ ⟨false, .inl rfl⟩) _ _ _ h.1 (by rw [h.2.2]; decide) h.2.1
    (ops := [.writer (.write [1, 2]), .writer .flush]) (ops' := [.writer (.write [8, 9]), .writer .flush])
    (.cons (.writer _ _ (.write _ _ rfl)) (.cons (.writer _ _ .flush) .nil)) toySuite.veiled (toySuite.veiled_sized toySuite_lawful.sized) toySuite.veiled_blind)

-- C102_unbiased: the scalar five
example := C102_unbiased 5 (by unfold IsP256Secret Crypto.p256n; decide)

-- C104_secrets: a secret is its own
example := C104_secrets recPsk_hash .clientApplication .clientApplication none none [1] [1] [2] [2] rfl

set_option maxRecDepth 20000 in
-- C122_final_partial: close_notify of the server, found by the second read
example := C122_final_partial toySuite toySuite_lawful exCfg exProv () (exLife_new [] [.data (exApp 0 ⟨23, [7, 8], 2⟩ ++ exApp 1 ⟨21, [1, 0], 0⟩)])
  (ok_result (by decide +kernel)) [.reader (.read 5)] (by decide +kernel) (.read 5) (by decide +kernel)

end ETls
