{
 "claims": [
  {
   "property": "C01",
   "status": "proved",
   "theorems": [
    "ETls.C01_handshake",
    "ETls.C01_plaintext_record",
    "ETls.C01_header",
    "ETls.C01_decrypted_handshake"
   ],
   "note": "Handshake decoder, plaintext record decoder, header decoder and the loop over coalesced decrypted messages; out-of-range access and exhausted loop bounds are panics in the model. The empty inner plaintext is a panic of the record layer and is C27/C30, not C01."
  },
  {
   "property": "C02",
   "status": "proved",
   "theorems": [
    "ETls.C02_u8",
    "ETls.C02_u16",
    "ETls.C02_u24",
    "ETls.C02_int",
    "ETls.C02_list"
   ],
   "note": ""
  },
  {
   "property": "C03",
   "status": "proved",
   "theorems": [
    "ETls.C03_append_exact_or_unchanged",
    "ETls.C03_set",
    "ETls.C03_truncate",
    "ETls.C03_truncate_window",
    "ETls.C03_offset"
   ],
   "note": ""
  },
  {
   "property": "C04",
   "status": "proved",
   "theorems": [
    "ETls.C04_content_type",
    "ETls.C04_alert_level",
    "ETls.C04_alert_description",
    "ETls.C04_handshake_type",
    "ETls.C04_extension_type",
    "ETls.C04_named_group",
    "ETls.C04_signature_scheme",
    "ETls.C04_cipher_suite",
    "ETls.C04_max_fragment_length",
    "ETls.C04_psk_mode",
    "ETls.C04_wire_u16",
    "ETls.C04_wire_u8",
    "ETls.Spec.Realises.injective"
   ],
   "note": ""
  },
  {
   "property": "C05",
   "status": "proved",
   "theorems": [
    "ETls.C05_permitted",
    "ETls.C05_unknown_ignored",
    "ETls.C05_forbidden_aborts",
    "ETls.C05_message",
    "ETls.C05_certificate",
    "ETls.C05_message_forbidden",
    "ETls.C05_helloRetryRequest",
    "ETls.C05_clientHello"
   ],
   "note": ""
  },
  {
   "property": "C06",
   "status": "proved",
   "theorems": [
    "ETls.C06_client_hello"
   ],
   "note": "Handshake step from a new connection; ALPN names below 256 bytes and message below 2^16 bytes (beyond, a length field would be truncated). Statement read back by an independent RFC decoder."
  },
  {
   "property": "C07",
   "status": "proved",
   "theorems": [
    "ETls.C07_client_hello",
    "ETls.C07_certificate",
    "ETls.C07_certificate_verify",
    "ETls.C07_finished"
   ],
   "note": "One theorem per handshake message the client can send."
  },
  {
   "property": "C08",
   "status": "proved",
   "theorems": [
    "ETls.C08_round_trip",
    "ETls.C08_reject"
   ],
   "note": ""
  },
  {
   "property": "C09",
   "status": "partial",
   "theorems": [
    "ETls.C09_refuted",
    "ETls.C09_partial"
   ],
   "note": "False as stated: C09_refuted exhibits an accepted message with a wrong length field. C09_partial: correct messages are consumed exactly; the field has no influence."
  },
  {
   "property": "C10",
   "status": "proved",
   "theorems": [
    "ETls.C10_stream",
    "ETls.C10_flush",
    "ETls.C10_whole"
   ],
   "note": "Over every write buffer of at least 133 bytes, until 2^64 records have been sent."
  },
  {
   "property": "C11",
   "status": "partial",
   "theorems": [
    "ETls.C11_records_partial",
    "ETls.C18_length_refuted",
    "ETls.C10_whole"
   ],
   "note": "Write buffers below 65652 bytes; above, the 16-bit length field wraps (C18_length_refuted)."
  },
  {
   "property": "C12",
   "status": "partial",
   "theorems": [
    "ETls.C12_complete_records_partial",
    "ETls.C12_refuted",
    "ETls.C10_whole",
    "ETls.C12_refuted_open"
   ],
   "note": "The property is false when a write fails or is cancelled (C12_refuted). Proved: records written completely never share a nonce, whatever the transport does."
  },
  {
   "property": "C13",
   "status": "proved",
   "theorems": [
    "ETls.C13_not_open"
   ],
   "note": "read into an empty buffer returns Ok(0) instead of the error, also without touching anything."
  },
  {
   "property": "C14",
   "status": "proved",
   "theorems": [
    "ETls.C14_progress",
    "ETls.open_leaves"
   ],
   "note": "From open on: the write buffers for which write makes no progress (129..133 bytes) are too small for ClientHello, so open fails with them."
  },
  {
   "property": "C15",
   "status": "proved",
   "theorems": [
    "ETls.C15_flush_empty",
    "ETls.C15_flush",
    "ETls.C15_write"
   ],
   "note": ""
  },
  {
   "property": "C16",
   "status": "partial",
   "theorems": [
    "ETls.C16_close_partial",
    "ETls.C16_refuted",
    "ETls.C16_whole_partial",
    "ETls.C16_refuted_open"
   ],
   "note": "Holds on connections the peer has not closed; after the peer's close_notify the client closes with a plaintext record of type 20 (C16_refuted). C132_never extends the refutation to every connection that the server closes first."
  },
  {
   "property": "C17",
   "status": "partial",
   "theorems": [
    "ETls.C17_after_open_partial",
    "ETls.C17_failed_open_partial",
    "ETls.C17_refuted",
    "ETls.C17_stray_record",
    "ETls.C17_no_panic_partial"
   ],
   "note": "Proved after every successful open, for every interleaving of calls and failure schedule, and after every failed open if the write buffer has room for the client's messages; with less room flush and close can panic after a failed open (C17_refuted)."
  },
  {
   "property": "C18",
   "status": "partial",
   "theorems": [
    "ETls.C18_limit_partial",
    "ETls.C18_refuted",
    "ETls.C18_length_refuted",
    "ETls.C10_whole",
    "ETls.C18_refuted_open"
   ],
   "note": "False for write buffers above 16517 bytes (C18_refuted), and the length field wraps from 65652 bytes (C18_length_refuted); proved up to 16517."
  },
  {
   "property": "C19",
   "status": "proved",
   "theorems": [
    "ETls.C19_chunking",
    "ETls.C19_whole_connection"
   ],
   "note": "Same results and same remaining state for every two chunkings of the same bytes and every history of reading calls (C19_chunking); the same from the constructor over open, every history of calls and close, with the same bytes sent in the same writes (C19_whole_connection)."
  },
  {
   "property": "C20",
   "status": "proved",
   "theorems": [
    "ETls.C20_honest",
    "ETls.C20_complete",
    "ETls.C20_whole"
   ],
   "note": "Exact delivery for every honest record sequence (data with any padding, empty records, tickets), every chunking and every history; everything arrives after enough reads."
  },
  {
   "property": "C21",
   "status": "proved",
   "theorems": [
    "ETls.C21_run",
    "ETls.C21_prefix",
    "ETls.C21_whole",
    "ETls.C21_stream",
    "ETls.C21_honest"
   ],
   "note": "Whatever comes from the transport: what is delivered is a prefix of the peer's data, if no record that the client takes is forged (each one that opens is the peer's fragment with that number). C21_stream states the condition on the received bytes alone; C21_honest: for an honest peer it always holds. The condition is about the records of this run, because no suite that opens what is sealed satisfies it for all ciphertexts."
  },
  {
   "property": "C22",
   "status": "proved",
   "theorems": [
    "ETls.C22_read",
    "ETls.C22_empty"
   ],
   "note": "A successful read into a non-empty buffer returns at least one byte; into an empty one, zero without touching anything."
  },
  {
   "property": "C23",
   "status": "proved",
   "theorems": [
    "ETls.C23_buffered",
    "ETls.C23_calls",
    "ETls.C23_refines",
    "ETls.run_total"
   ],
   "note": "Per-call semantics over any transport, and refinement of a small stream specification for honest peers."
  },
  {
   "property": "C24",
   "status": "partial",
   "theorems": [
    "ETls.C24_partial",
    "ETls.C24_too_large",
    "ETls.C24_refuted",
    "ETls.C24_refuted_open"
   ],
   "note": "Index invariant, buffer size and refusal of oversized records for all transports; no panic as long as no I/O error interrupted a record. After one, the reader can panic (C24_refuted)."
  },
  {
   "property": "C25",
   "status": "partial",
   "theorems": [
    "ETls.C25_partial",
    "ETls.C25_no_io",
    "ETls.C25_refuted",
    "ETls.C25_refuted_open"
   ],
   "note": "An error between records or with unread data costs nothing; an error inside a record loses the stream (C25_refuted)."
  },
  {
   "property": "C26",
   "status": "proved",
   "theorems": [
    "ETls.C26_decrypt",
    "ETls.C26_call"
   ],
   "note": "A record that fails authentication leaves keys, counters, unread data and flag unchanged; the call reports a crypto error."
  },
  {
   "property": "C27",
   "status": "partial",
   "theorems": [
    "ETls.C27_padding",
    "ETls.C27_dispatch_partial",
    "ETls.C27_refuted",
    "ETls.C30_refuted_open",
    "ETls.C27_in_place"
   ],
   "note": "Padding stripping and dispatch on the inner type for all inner plaintexts with a non-zero byte; an empty inner plaintext panics (C27_refuted)."
  },
  {
   "property": "C28",
   "status": "proved",
   "theorems": [
    "ETls.C28_close",
    "ETls.C28_only_close",
    "ETls.C28_final",
    "ETls.C76_closed_iff"
   ],
   "note": "A protected close_notify closes; only a close_notify closes (C76_closed_iff: exactly when; an unauthenticated one closes too, see C29); closed is final for every later history of reads and writes."
  },
  {
   "property": "C29",
   "status": "partial",
   "theorems": [
    "ETls.C29_partial",
    "ETls.C29_refuted_close",
    "ETls.C29_refuted_panic",
    "ETls.C29_refuted_open"
   ],
   "note": "Unprotected records deliver nothing and change no keys; but an unauthenticated close_notify closes the connection and an unauthenticated handshake message panics."
  },
  {
   "property": "C30",
   "status": "partial",
   "theorems": [
    "ETls.C30_partial",
    "ETls.C30_refuted_empty",
    "ETls.C30_refuted_handshake",
    "ETls.C29_refuted_panic",
    "ETls.C24_refuted",
    "ETls.C30_refuted_open",
    "ETls.C76_panic_iff"
   ],
   "note": "Every panic of a reading call on any transport has one of the listed causes; witnesses for them. For an error-free transport C76_panic_iff gives the exact condition on the received bytes."
  },
  {
   "property": "C31",
   "status": "proved",
   "theorems": [
    "ETls.C31_reader",
    "ETls.C31_writer",
    "ETls.C31_never_opens",
    "ETls.C28_final"
   ],
   "note": "Exact projections for every interleaving: the reader is unaffected by the writer; the writer is unaffected except by the flag falling once; nothing opens the connection."
  },
  {
   "property": "C32",
   "status": "proved",
   "theorems": [
    "ETls.C32_step",
    "ETls.C32_bounded",
    "ETls.C32_open_terminates",
    "ETls.C32_consumes",
    "ETls.C32_header_loop",
    "ETls.C32_payload_loop",
    "ETls.C32_message_loop"
   ],
   "note": "For every connection, configuration, provider and finite input: each successful step moves forward or consumes a record, the number of steps is bounded, the unbounded loop has exactly one end and open reports it; the inner loops end by themselves."
  },
  {
   "property": "C33",
   "status": "proved",
   "theorems": [
    "ETls.C33_finished_gate"
   ],
   "note": "For every provider, verifier, transport and server behaviour; the session is identified on the wire (records, keys, sequence numbers)."
  },
  {
   "property": "C34",
   "status": "partial",
   "theorems": [
    "ETls.C34_refuted",
    "ETls.C34_anyone",
    "ETls.C34_anyone_verifiers",
    "ETls.C34_server_auth_partial",
    "ETls.C34_certificate_accepted_partial"
   ],
   "note": "False as stated: Finished is accepted without Certificate/CertificateVerify (C34_refuted); not just for one client: with the crate's suites anybody, with a secret of their own and no certificate, opens a connection with every client that has no PSK, whatever its verifier, and knows its application keys (C34_anyone, C34_anyone_verifiers). Proved: every Certificate and CertificateVerify that was sent was accepted by the verifier."
  },
  {
   "property": "C35",
   "status": "proved",
   "theorems": [
    "ETls.C35_early",
    "ETls.C35_handshake",
    "ETls.C35_application",
    "ETls.C35_full",
    "ETls.C35_client_finished",
    "ETls.C35_psk_binder",
    "ETls.C35_server_finished"
   ],
   "note": "For every lawful suite (Suite.Lawful: output lengths only). The derivation functions are arbitrary."
  },
  {
   "property": "C36",
   "status": "partial",
   "theorems": [
    "ETls.C36_transcript_partial",
    "ETls.C36_refuted"
   ],
   "note": "Proved for every step of every handshake, also failing ones, except for bytes after the first message of an unprotected record, which are neither processed nor hashed (C36_refuted)."
  },
  {
   "property": "C37",
   "status": "proved",
   "theorems": [
    "ETls.C37_client_finished"
   ],
   "note": ""
  },
  {
   "property": "C38",
   "status": "proved",
   "theorems": [
    "ETls.C38_binder",
    "ETls.C35_psk_binder"
   ],
   "note": "Binder over the truncated ClientHello actually sent; transcript bytes equal sent bytes."
  },
  {
   "property": "C39",
   "status": "partial",
   "theorems": [
    "ETls.C39_refuted",
    "ETls.C39_client_auth_partial"
   ],
   "note": "False as stated for a CertificateRequest coalesced after the Finished (C39_refuted); proved in full when none follows the last Finished."
  },
  {
   "property": "C40",
   "status": "partial",
   "theorems": [
    "ETls.C40_protected_partial",
    "ETls.C40_refuted"
   ],
   "note": "Everything sent after ServerHello is protected with the client's keys except alerts, which go out in the clear (C40_refuted)."
  },
  {
   "property": "C41",
   "status": "partial",
   "theorems": [
    "ETls.C41_refuted",
    "ETls.C41_negotiated_partial"
   ],
   "note": "False as stated: version, suite, session id and group of the ServerHello are not compared with the offer (C41_refuted)."
  },
  {
   "property": "C42",
   "status": "proved",
   "theorems": [
    "ETls.C42_failed_open"
   ],
   "note": "Also covers every later sequence of operations."
  },
  {
   "property": "C43",
   "status": "partial",
   "theorems": [
    "ETls.C43_alert_reported_partial",
    "ETls.C43_iff",
    "ETls.C43_later",
    "ETls.C43_refuted",
    "ETls.C43_refuted_protected",
    "ETls.native_neverAborts",
    "ETls.webpki_neverAborts"
   ],
   "note": "Proved for an alert that answers ClientHello, in both directions: open reports HandshakeAborted with a level and description exactly if the first record of the server is that alert (C43_iff; the crate's verifiers do not return the error themselves, native_neverAborts and webpki_neverAborts). False later in the handshake, and always: whatever alert follows the ServerHello, in the clear or protected, open reports InvalidRecord (C43_later, with the concrete runs C43_refuted and C43_refuted_protected)."
  },
  {
   "property": "C44",
   "status": "partial",
   "theorems": [
    "ETls.C44_alert_partial",
    "ETls.C44_refuted",
    "ETls.C44_refuted_serverHello"
   ],
   "note": "The alert is the last thing sent, but in a record of content type 20 (C44_refuted), and not at all for a refused ServerHello (C44_refuted_serverHello)."
  },
  {
   "property": "C45",
   "status": "proved",
   "theorems": [
    "ETls.C45_step",
    "ETls.C45_open"
   ],
   "note": "The step theorem is unconditional; the open theorem holds for every fresh connection."
  },
  {
   "property": "C46",
   "status": "partial",
   "theorems": [
    "ETls.C46_honest_server_partial",
    "ETls.C46_then_data",
    "ETls.C46_refuted_fragmented",
    "ETls.C46_refuted_groups",
    "ETls.C20_whole"
   ],
   "note": "Proved for every flight of whole messages per record that the decoder and verifier accept and that fits the buffers, over any chunking, with exact keys and sent records. False in general: messages split over several records and unknown supported_groups entries are refused (witnesses)."
  },
  {
   "property": "C47",
   "status": "proved",
   "theorems": [
    "ETls.C47_nonce_spec",
    "ETls.C47_nonce_injective",
    "ETls.C47_no_wrap"
   ],
   "note": ""
  },
  {
   "property": "C48",
   "status": "proved",
   "theorems": [
    "ETls.C48_label_fits",
    "ETls.C48_used_labels",
    "ETls.C48_unambiguous"
   ],
   "note": ""
  },
  {
   "property": "C49",
   "status": "proved",
   "theorems": [
    "ETls.C49_hostname_match"
   ],
   "note": "Model.Hostname (native_pki hostname functions in pki.rs) against Spec.Hostname; both directions"
  },
  {
   "property": "C50",
   "status": "partial",
   "theorems": [
    "ETls.C50_refuted",
    "ETls.C50_no_common_name_partial"
   ],
   "note": "false: the common name is always among the compared names (C50_refuted). The partial theorem: a leaf without common name is accepted only by a DNS name."
  },
  {
   "property": "C51",
   "status": "proved",
   "theorems": [
    "ETls.C51_chain"
   ],
   "note": "External DER/signature library is a parameter (PkiLib). Conclusion with the common name as in the code (see C50)."
  },
  {
   "property": "C52",
   "status": "proved",
   "theorems": [
    "ETls.C52_signature"
   ],
   "note": "After verify_certificate accepted a parsed Certificate."
  },
  {
   "property": "C53",
   "status": "partial",
   "theorems": [
    "ETls.C53_refuted_panic",
    "ETls.C53_refuted_open",
    "ETls.C53_refuted_sha384",
    "ETls.C53_native_partial",
    "ETls.C53_webpki_partial"
   ],
   "note": "false: panics without certificate (C53_refuted_panic, caused by a server in C53_refuted_open), webpki cannot handle SHA-384 (C53_refuted_sha384). The partial theorems: native verifier after a Certificate, with the exact remaining panics; webpki with SHA-256."
  },
  {
   "property": "C54",
   "status": "partial",
   "theorems": [
    "ETls.C54_refuted",
    "ETls.C54_panics_iff",
    "ETls.C54_builds_partial"
   ],
   "note": "false: exact set of panicking call sequences in C54_panics_iff; C54_builds_partial says what the other sequences build."
  },
  {
   "property": "C55",
   "status": "proved",
   "theorems": [
    "ETls.C55_server_hello",
    "ETls.C55_encrypted_extensions",
    "ETls.C55_certificate_request",
    "ETls.C55_certificate",
    "ETls.C55_certificate_verify",
    "ETls.C55_finished",
    "ETls.C55_new_session_ticket"
   ],
   "note": ""
  },
  {
   "property": "C56",
   "status": "proved",
   "theorems": [
    "ETls.C56_decoder_sound",
    "ETls.C56_fields"
   ],
   "note": "Converse of C55: what the decoder accepts is an RFC encoding (the 24-bit length is not looked at)."
  },
  {
   "property": "C57",
   "status": "proved",
   "theorems": [
    "ETls.C57_webpki"
   ],
   "note": "webpki library is a parameter (WebLib)"
  },
  {
   "property": "C58",
   "status": "partial",
   "theorems": [
    "ETls.C58_refuted",
    "ETls.C58_refuted_verifier",
    "ETls.C58_refuted_open"
   ],
   "note": "false: a certificate without any extension is accepted as issuer (C58_refuted); with real certificates, a leaf certificate with critical basicConstraints cA FALSE issues a certificate for another host, which the verifier (C58_refuted_verifier) and a whole handshake recorded with OpenSSL (C58_refuted_open) accept. What does hold is C51."
  },
  {
   "property": "C59",
   "status": "partial",
   "theorems": [
    "ETls.C59_refuted",
    "ETls.C59_first_three_partial"
   ],
   "note": "false: the fourth DNS name is ignored (C59_refuted); each of the first three counts (C59_first_three_partial)"
  },
  {
   "property": "C60",
   "status": "proved",
   "theorems": [
    "ETls.C60_native",
    "ETls.C60_webpki"
   ],
   "note": "Fresh connection, any lawful suite; certificate and signature libraries are parameters. That the server must send a Certificate at all is C34."
  },
  {
   "property": "C61",
   "status": "partial",
   "theorems": [
    "ETls.C61_refuted_open",
    "ETls.C61_native_partial"
   ],
   "note": "false with feature ed25519 (C61_refuted_open: a panic before authentication); C61_native_partial: that is the only cause."
  },
  {
   "property": "C62",
   "status": "partial",
   "theorems": [
    "ETls.C62_refuted"
   ],
   "note": "false: the verdict depends on the first entry only (C62_refuted)"
  },
  {
   "property": "C63",
   "status": "partial",
   "theorems": [
    "ETls.C63_refuted",
    "ETls.C63_partial"
   ],
   "note": "false for the native verifier without server name (C63_refuted); holds with a server name and for webpki (C63_partial)"
  },
  {
   "property": "C64",
   "status": "proved",
   "theorems": [
    "ETls.C64_valid_chain_accepted"
   ],
   "note": "all chains; library limits (three names, name sizes, stored message size) are hypotheses; an Ed25519 key is assumed to have 32 bytes when the key check accepts it"
  },
  {
   "property": "C65",
   "status": "partial",
   "theorems": [
    "ETls.C65_no_server_name",
    "ETls.C65_no_dns_name",
    "ETls.C65_common_name_partial",
    "ETls.C65_refuted"
   ],
   "note": "False for common names the library does not read, in particular ones that are not UTF-8 (C65_refuted). DNS names: proved without any condition on the certificate (C65_no_dns_name); common names: the last element of the subject that begins with one must not be UTF-8 (C65_common_name_partial)."
  },
  {
   "property": "C66",
   "status": "partial",
   "theorems": [
    "ETls.C66_open_partial",
    "ETls.C66_native_partial",
    "ETls.C66_webpki_partial",
    "ETls.C66_without_verifier_partial",
    "ETls.C66_refuted",
    "ETls.C66_unsecure_partial",
    "ETls.C77_panic_iff",
    "ETls.C130_panic"
   ],
   "note": "False: C66_refuted gives seven ways to make open panic (four caused by the server's bytes alone given a common client setup). C66_open_partial lists all causes for every provider and input of fewer than 2^64 bytes; C66_native_partial and C66_webpki_partial resolve the verifier causes for the two verifiers of the crate; C66_without_verifier_partial leaves the empty record as the only cause, also for UnsecureProvider (C66_unsecure_partial). C77_panic_iff: exactly which received bytes make it panic. C130_panic: the RSA case with concrete certificates."
  },
  {
   "property": "C67",
   "status": "partial",
   "theorems": [
    "ETls.C67_refuted",
    "ETls.C67_hostname_partial"
   ],
   "note": "False (C67_refuted: even when nothing was sent). C67_hostname_partial: a failure before anything is encoded leaves the connection untouched."
  },
  {
   "property": "C68",
   "status": "partial",
   "theorems": [
    "ETls.C68_refuted",
    "ETls.C68_failed_partial"
   ],
   "note": "False on connections that were open (C68_refuted: read then delivers bytes of an unauthenticated record); holds on all others."
  },
  {
   "property": "C69",
   "status": "partial",
   "theorems": [
    "ETls.C69_native_partial",
    "ETls.C69_webpki_partial"
   ],
   "note": "Native: missing what C46 lacks (fragmented messages, unknown extension payloads) and hosts that match only a DNS name after the third (C59). webpki: additionally no SHA-384 suites (C53) and no intermediates (C62)."
  },
  {
   "property": "C70",
   "status": "proved",
   "theorems": [
    "ETls.C70_noVerify",
    "ETls.C70_unsecure",
    "ETls.C70_default"
   ],
   "note": "C70_noVerify: equality of open for all inputs and transport behaviours. C70_unsecure and C70_default: acceptance of every conforming flight (Serves/C46 hypotheses)."
  },
  {
   "property": "C71",
   "status": "proved",
   "theorems": [
    "ETls.C71_no_signer",
    "ETls.C71_signer_fails",
    "ETls.C71_unsecure",
    "ETls.C71_default",
    "ETls.C71_builder"
   ],
   "note": "Forward theorems over every conforming flight: the error and the exact records sent (C71_no_signer), the panic of a failing signer (C71_signer_fails), InvalidPrivateKey of UnsecureProvider (C71_unsecure), Unimplemented of the default signer (C71_default), what any sequence of builder calls of UnsecureProvider makes (C71_builder)."
  },
  {
   "property": "C72",
   "status": "proved",
   "theorems": [
    "ETls.C72_accepted_inputs",
    "ETls.open_acceptable",
    "ETls.acceptable_open"
   ],
   "note": "if and only if; hypotheses: fresh connection, no transport errors, room for the client's own messages, signatures of the client not longer than its buffer for them, fewer than 2^64 input bytes. Messages are those the decoder understands (C55-C58)."
  },
  {
   "property": "C73",
   "status": "proved",
   "theorems": [
    "ETls.C73_extensions",
    "ETls.C73_messages",
    "ETls.C73_refused"
   ],
   "note": "exact language of the handshake decoder, and which error otherwise"
  },
  {
   "property": "C74",
   "status": "partial",
   "theorems": [
    "ETls.C74_refuted",
    "ETls.C74_partial"
   ],
   "note": "false: GREASE values in CertificateRequest are refused; partial theorem gives the exact accepted lists"
  },
  {
   "property": "C75",
   "status": "partial",
   "theorems": [
    "ETls.C75_refuted",
    "ETls.C75_partial",
    "ETls.C75_capacity",
    "ETls.C75_only"
   ],
   "note": "false for ALPN (names dropped) and pre_shared_key (panics); proved for every other extension; conversely nothing else is read as such an extension, apart from ignored bytes at the end of its data"
  },
  {
   "property": "C76",
   "status": "proved",
   "theorems": [
    "ETls.C76_reader",
    "ETls.C76_deterministic",
    "ETls.C76_exact",
    "ETls.C76_panic_iff",
    "ETls.C76_closed_iff",
    "ETls.C76_whole"
   ],
   "note": "Refinement to a separate reader of the byte stream (Spec/Reader.lean), deterministic, for every history; exact conditions for panics and closing; for whole connections with the session's keys."
  },
  {
   "property": "C77",
   "status": "proved",
   "theorems": [
    "ETls.C77_open",
    "ETls.Spec.C77_deterministic",
    "ETls.C77_exact",
    "ETls.C77_success_iff",
    "ETls.C77_panic_iff"
   ],
   "note": "Refinement of open to a separate description of the handshake on the byte stream (Spec/Open.lean), deterministic; hypotheses: fresh connection, no transport errors, room for the client's own messages. Errors of message decoders are left unnamed there (C73 names them)."
  },
  {
   "property": "C78",
   "status": "proved",
   "theorems": [
    "ETls.C78_writer",
    "ETls.C78_close"
   ],
   "note": "Refinement of Spec/Writer.lean for every history of calls and every sequence of transport answers."
  },
  {
   "property": "C79",
   "status": "proved",
   "theorems": [
    "ETls.C79_duplex",
    "ETls.C79_deterministic",
    "ETls.C79_whole",
    "ETls.C79_life"
   ],
   "note": "C79_duplex: any interleaving; C79_whole: after any successful open; C79_life: from the first byte, on a working sending side with room for the client's messages (Roomy, as in C77)."
  },
  {
   "property": "C80",
   "status": "proved",
   "theorems": [
    "ETls.Der.C80_der",
    "ETls.C80_unique",
    "ETls.Der.certificateOf_iff"
   ],
   "note": "certificateOf_iff for all capacities, C80_der for those of the code; the DER primitives stand for the crates der and const-oid (assumptions in DESIGN section 5)"
  },
  {
   "property": "C81",
   "status": "proved",
   "theorems": [
    "ETls.C81_chain",
    "ETls.C81_native",
    "ETls.C81_accepted",
    "ETls.C81_open"
   ],
   "note": "soundness for the verifier (C81_chain) and a whole handshake (C81_native); converse within the library's limits (C81_accepted, C81_open) The certificate made by OpenSSL and the server of Spec/Textbook are instances of C81_accepted and C81_open (Props/DerSession)."
  },
  {
   "property": "C82",
   "status": "partial",
   "theorems": [
    "ETls.C82_refuted"
   ],
   "note": "false (C82_refuted): a concrete certificate whose signed part names another algorithm is accepted"
  },
  {
   "property": "C83",
   "status": "partial",
   "theorems": [
    "ETls.C83_refuted"
   ],
   "note": "false (C83_refuted): a concrete certificate with an unknown critical extension is accepted"
  },
  {
   "property": "C84",
   "status": "partial",
   "theorems": [
    "ETls.Der.C84_refuted",
    "ETls.Der.C80_der"
   ],
   "note": "false: everything beyond the limits is refused (C84_refuted, with examples); within the limits it holds (C80_der)"
  },
  {
   "property": "C85",
   "status": "proved",
   "theorems": [
    "ETls.C85_read",
    "ETls.C85_write",
    "ETls.C85_close",
    "ETls.C85_open",
    "ETls.C85_count",
    "ETls.noVerify_plain",
    "ETls.unsecure_plain",
    "ETls.native_plain",
    "ETls.webpki_plain",
    "ETls.C85_kind"
   ],
   "note": "for open, the provider must not itself return transport errors; noVerify_plain, unsecure_plain, native_plain, webpki_plain prove that of the crate's providers. A dropped future is a failure of the call it was waiting for, so cancellation is covered up to the point of the drop"
  },
  {
   "property": "C86",
   "status": "partial",
   "theorems": [
    "ETls.C86_refuted",
    "ETls.C86_always"
   ],
   "note": "false (C86_refuted): a server that declines the key is refused, one that uses it silently is accepted. C86_always: a successful handshake always has used the configured key"
  },
  {
   "property": "C87",
   "status": "partial",
   "theorems": [
    "ETls.C87_refuted",
    "ETls.C87_partial"
   ],
   "note": "false (C87_refuted): unrequested extensions are accepted. C87_partial: extensions of known type are permitted in their message and readable"
  },
  {
   "property": "C88",
   "status": "partial",
   "theorems": [
    "ETls.C88_refuted",
    "ETls.C88_partial"
   ],
   "note": "false (C88_refuted): a record above the agreed length is sent. C88_partial: holds if the write buffer has at most the limit plus 133 bytes"
  },
  {
   "property": "C89",
   "status": "partial",
   "theorems": [
    "ETls.C89_refuted",
    "ETls.C89_refused"
   ],
   "note": "false (C89_refuted). C89_refused: every KeyUpdate is an error and leaves keys and record number"
  },
  {
   "property": "C90",
   "status": "partial",
   "theorems": [
    "ETls.C90_retry_refused",
    "ETls.C90_refuted"
   ],
   "note": "C90_retry_refused: a HelloRetryRequest always makes open fail. False: a message with its random and a full key share is taken for a ServerHello, and no retry is answered (C90_refuted)"
  },
  {
   "property": "C91",
   "status": "partial",
   "theorems": [
    "ETls.C91_refuted",
    "ETls.C91_partial"
   ],
   "note": "false (C91_refuted): a scheme that was not offered is accepted. C91_partial: the scheme is known and its algorithm part of the build"
  },
  {
   "property": "C92",
   "status": "partial",
   "theorems": [
    "ETls.C92_refuted",
    "ETls.C92_deaf"
   ],
   "note": "false (C92_refuted): a warning alert makes everything after it unreadable. C92_deaf: so does every authentic record that causes an error"
  },
  {
   "property": "C93",
   "status": "partial",
   "theorems": [
    "ETls.C93_refuted",
    "ETls.C93_partial"
   ],
   "note": "false (C93_refuted): a key named as Ed25519 verifies an ECDSA signature. C93_partial: every key used in a successful handshake with the native verifier can be read as a key for the algorithm it is used with, hence the property holds for certificates that name the kind of their key correctly"
  },
  {
   "property": "C94",
   "status": "partial",
   "theorems": [
    "ETls.C94_partial",
    "ETls.C94_refuted"
   ],
   "note": "C94_partial: true exactly in builds with P-384, Ed25519 and, if offered, RSA; C94_refuted: false in others"
  },
  {
   "property": "C95",
   "status": "proved",
   "theorems": [
    "ETls.C95_lawful",
    "ETls.C95_gcm"
   ],
   "note": "Suite.Lawful for both shipped suites with concrete primitives; C95_gcm states the AEAD laws directly"
  },
  {
   "property": "C96",
   "status": "proved",
   "theorems": [
    "ETls.C96_linearizable",
    "ETls.C96_wait_free",
    "ETls.C96_history"
   ],
   "note": "for all connections, call lists and schedules; stretches of code between accesses of the flag are single steps"
  },
  {
   "property": "C97",
   "status": "proved",
   "theorems": [
    "ETls.C97_lengths",
    "ETls.C97_secret",
    "ETls.C97_veiled"
   ],
   "note": "Two-run (non-interference) statement on the model of the write path: same lengths give the same look for every lawful suite, and identical effects when the connection continues with any AEAD that ignores message contents (in particular the suite's own AEAD sealing zeros). Nothing is claimed about the computational strength of the AEADs themselves."
  },
  {
   "property": "C98",
   "status": "proved",
   "theorems": [
    "ETls.C98_secret",
    "ETls.C98_server_agrees",
    "ETls.C98_keys",
    "ETls.C98_conforming"
   ],
   "note": "for the two shipped suites with the concrete P-256; secrets are nonzero scalars, as p256 draws them"
  },
  {
   "property": "C99",
   "status": "proved",
   "theorems": [
    "ETls.C99_client",
    "ETls.C99_server",
    "ETls.C99_certificate",
    "ETls.C99_every"
   ],
   "note": "with the concrete ECDSA; that the p256 crate implements it is assumed"
  },
  {
   "property": "C100",
   "status": "proved",
   "theorems": [
    "ETls.C100_native",
    "ETls.C100_native_entry",
    "ETls.C100_native_signature",
    "ETls.C100_webpki",
    "ETls.C100_webpki_signature"
   ],
   "note": "Both verifiers. For webpki and for signatures an equivalence; for the native verifier on a Certificate message soundness for all messages and the converse for entries whose names can be read (Ed25519 keys of another length panic, see C61). That open returns the verifier's error is C77."
  },
  {
   "property": "C101",
   "status": "proved",
   "theorems": [
    "ETls.C101_accepted",
    "ETls.C101_owner",
    "ETls.C101_spread",
    "ETls.C101_open"
   ],
   "note": "With the concrete P-256; the compact form of SEC 1 is not modelled."
  },
  {
   "property": "C102",
   "status": "proved",
   "theorems": [
    "ETls.C102_draws",
    "ETls.C102_unbiased",
    "ETls.C102_injective",
    "ETls.C102_open",
    "ETls.C102_once"
   ],
   "note": "The generator is a stream of bytes; EphemeralSecret::random is the rejection sampling of the crate p256."
  },
  {
   "property": "C103",
   "status": "proved",
   "theorems": [
    "ETls.C103_client",
    "ETls.C103_server",
    "ETls.C103_binder",
    "ETls.C103_reflection",
    "ETls.C103_signed",
    "ETls.Shipped.usesHash"
   ],
   "note": "unless two of the listed hash inputs collide; that is the statement, not an assumption"
  },
  {
   "property": "C104",
   "status": "proved",
   "theorems": [
    "ETls.C104_secrets",
    "ETls.C104_keys",
    "ETls.C104_connections"
   ],
   "note": "unless digests of two of the listed hash inputs agree"
  },
  {
   "property": "C105",
   "status": "partial",
   "theorems": [
    "ETls.C105_as_failure",
    "ETls.C105_awaited",
    "ETls.C105_between_records_partial",
    "ETls.C105_writing_partial",
    "ETls.C105_open",
    "ETls.C105_refuted_read",
    "ETls.C105_refuted_panic",
    "ETls.C105_refuted_write",
    "ETls.C105_refuted_nonce"
   ],
   "note": "A history with dropped calls is a history of awaited calls over a failing transport (full); dropping a read between records is harmless; what a dropped write does is described completely; after a dropped open nothing can be read or written. Dropping a read in the middle of a record, or a flush before the transport has taken the record, violates the claim: refuted by four runs."
  },
  {
   "property": "C106",
   "status": "partial",
   "theorems": [
    "ETls.C106_partial",
    "ETls.C106_all_partial",
    "ETls.C106_half_partial",
    "ETls.C106_refuted"
   ],
   "note": "For whole connections over any transport: a reported close means close_notify of the peer after everything else was delivered, or an unprotected close_notify. The full property is false because of the latter (C106_refuted)."
  },
  {
   "property": "C107",
   "status": "partial",
   "theorems": [
    "ETls.C107_accepts",
    "ETls.C107_refuses_partial",
    "ETls.C107_refuted_large",
    "ETls.C107_refuted_small"
   ],
   "note": "Every conforming record is delivered with buffers of at least 16640 bytes, every over-long one refused with buffers of at most 16640 bytes; both halves fail for other sizes (C107_refuted_small, C107_refuted_large)."
  },
  {
   "property": "C108",
   "status": "partial",
   "theorems": [
    "ETls.C108_partial",
    "ETls.C108_refuted"
   ],
   "note": "Fewer than 2^64 records are sent under a key as long as no call panics; the limit of the RFC is not kept: any number of records below 2^64 is sent under one key (C108_refuted)."
  },
  {
   "property": "C109",
   "status": "partial",
   "theorems": [
    "ETls.C109_dropped_partial",
    "ETls.C109_protected",
    "ETls.C109_refuted_first",
    "ETls.C109_refuted_value"
   ],
   "note": "Proved: records of type change_cipher_spec of any number, place and content after the ServerHello do not change the outcome, the bytes sent, the keys or the place in the stream; no protected one is passed over by a successful open. False of the code: before the ServerHello such a record is refused (C109_refuted_first, every stream), and records of other content are dropped too (C109_refuted_value)."
  },
  {
   "property": "C110",
   "status": "partial",
   "theorems": [
    "ETls.C110_close_partial",
    "ETls.C110_goes_on",
    "ETls.C110_refuted"
   ],
   "note": "False of the code beyond close_notify: C110_goes_on shows for every other error that the connection stays open and writes go on; C110_refuted is a concrete history after a handshake."
  },
  {
   "property": "C111",
   "status": "partial",
   "theorems": [
    "ETls.C111_counted_partial",
    "ETls.C111_refuted_alert",
    "ETls.C111_refuted"
   ],
   "note": "False for alerts other than close_notify (C111_refuted_alert, for every such record; C111_refuted, a concrete replay)."
  },
  {
   "property": "C112",
   "status": "partial",
   "theorems": [
    "ETls.C112_order_partial",
    "ETls.C112_any_order",
    "ETls.C112_refuted",
    "ETls.C112_refuted_native"
   ],
   "note": "False of the code (C112_any_order, C112_refuted, C112_refuted_native); proved: only the kinds of messages and the MAC over their order."
  },
  {
   "property": "C113",
   "status": "partial",
   "theorems": [
    "ETls.C113_repeated",
    "ETls.C113_refuted"
   ],
   "note": "False of the code: C113_repeated for every block and message, C113_refuted for whole handshakes."
  },
  {
   "property": "C114",
   "status": "partial",
   "theorems": [
    "ETls.C114_in_clear",
    "ETls.C114_refuted"
   ],
   "note": "False of the code: C114_in_clear shows for every acceptable input that the same messages unprotected are accepted; what remains is C33 (the Finished covers them)."
  },
  {
   "property": "C115",
   "status": "partial",
   "theorems": [
    "ETls.C115_native_partial",
    "ETls.C115_webpki_partial",
    "ETls.C115_refuted"
   ],
   "note": "Proved for connections in which the server has sent a CertificateVerify: the outcome is a signature on something the owner never signed, a hash collision that is exhibited, or a run of the owner with the same ClientHello, ServerHello, flight and key exchange secret. Refuted without that: open succeeds though the server has signed nothing."
  },
  {
   "property": "C116",
   "status": "partial",
   "theorems": [
    "ETls.C116_native_partial",
    "ETls.C116_webpki_partial",
    "ETls.C115_refuted"
   ],
   "note": "Composition of C115, C103 and C21 for both verifiers, with the owner's own keys. Missing: that the server sends a CertificateVerify at all (C115_refuted)."
  },
  {
   "property": "C117",
   "status": "partial",
   "theorems": [
    "ETls.C117_hears",
    "ETls.C117_native_partial",
    "ETls.C117_webpki_partial",
    "ETls.C115_refuted"
   ],
   "note": "Composition of C116, C10 and C16 with a receiver that has the owner's keys. Missing: that the server sends a CertificateVerify at all (C115_refuted), write buffers of 65652 bytes and more (C18_length_refuted), failing transports (C12_refuted), closing after the peer (C16_refuted)."
  },
  {
   "property": "C118",
   "status": "proved",
   "theorems": [
    "ETls.C118_holder",
    "ETls.C118_stranger",
    "ETls.C118_once",
    "ETls.C118_finished"
   ],
   "note": "For every suite that meets the assumptions of C95; forgery and hash collisions are explicit cases, not assumptions. C118_stranger: whoever used another key or none did not make the Finished. C118_once also covers C115."
  },
  {
   "property": "C119",
   "status": "proved",
   "theorems": [
    "ETls.C119_once",
    "ETls.C119_unasked",
    "ETls.C119_unproven",
    "ETls.C119_bound"
   ],
   "note": "Signing is observed through the outcome of open: signing the same content twice, or signing and discarding the result, would not be seen."
  },
  {
   "property": "C120",
   "status": "proved",
   "theorems": [
    "ETls.C120_async",
    "ETls.C120_calls",
    "ETls.C120_halves",
    "ETls.C120_new"
   ],
   "note": "Both texts are transcribed by hand; the async halves have the text of the blocking ones and share the model of the connection."
  },
  {
   "property": "C121",
   "status": "proved",
   "theorems": [
    "ETls.C121_write_all",
    "ETls.C121_sends",
    "ETls.C121_read_exact",
    "ETls.C121_stream",
    "ETls.C121_whole"
   ],
   "note": "write_all and read_exact (default methods of the embedded-io traits, transcribed from the crate, which is not in the repository) over the modelled write and read. Over any transport both end and are histories of write and read calls; write_all never panics, read_exact only if a read does (C24). Over a working transport the records sent have a closed form; from a conforming server read_exact returns the next bytes."
  },
  {
   "property": "C122",
   "status": "partial",
   "theorems": [
    "ETls.C122_final_partial",
    "ETls.C122_never",
    "ETls.C122_refuted"
   ],
   "note": "False for every state: no reading call ever returns Ok(0) or an empty slice (C122_never, C122_refuted). Proved instead: the end is reported as ConnectionClosed, after everything received was taken, and is final."
  },
  {
   "property": "C123",
   "status": "proved",
   "theorems": [
    "ETls.C123_key",
    "ETls.C123_signature",
    "ETls.C123_encoding",
    "ETls.C123_server",
    "ETls.C123_certificate",
    "ETls.C123_open",
    "ETls.C123_text"
   ],
   "note": "P-256 with SHA-256 (the default features); the other algorithms remain parameters of the model. The converse direction of C99."
  },
  {
   "property": "C124",
   "status": "proved",
   "theorems": [
    "ETls.C124_still",
    "ETls.C124_certificate",
    "ETls.C124_moving",
    "ETls.C124_native",
    "ETls.C124_expired",
    "ETls.C124_webpki"
   ],
   "note": "Any sequence of clock readings, including one that panics. Library functions are parameters. C124_still connects the clock with the fixed time of the other properties; C124_moving carries what is proved of a successful open without a clock over to any clock."
  },
  {
   "property": "C125",
   "status": "partial",
   "theorems": [
    "ETls.C125_refuted",
    "ETls.C125_partial"
   ],
   "note": "Refuted for times before 1970 (C125_refuted); from 1970 on it holds (C125_partial)."
  },
  {
   "property": "C126",
   "status": "partial",
   "theorems": [
    "ETls.C126_refuted",
    "ETls.C126_partial"
   ],
   "note": "Violated: C126_refuted. C126_partial says exactly what the verdict depends on: subject, validity, key, subjectAltName, signature algorithm and signature."
  },
  {
   "property": "C127",
   "status": "proved",
   "theorems": [
    "ETls.C127_psk",
    "ETls.C127_certificate",
    "ETls.C127_webpki",
    "ETls.C127_client_auth",
    "ETls.C127_der"
   ],
   "note": "C127_psk: provider without verifier, with or without pre-shared key. C127_certificate: native verifier with concrete P-256 ECDSA. C127_webpki: webpki verifier. C127_client_auth: a client with certificate and key. The server is Spec/Textbook, which computes every key from its own secret and the bytes it sees; buffers large enough, transport reliable, at most 16 certificates, Certificate in one record. C127_der states the certificates as bytes that X.509 (Spec/X509) reads, with the certificate made by OpenSSL as instance."
  },
  {
   "property": "C128",
   "status": "proved",
   "theorems": [
    "ETls.C128_signatures",
    "ETls.C128_server",
    "ETls.C128_certificate",
    "ETls.C128_session"
   ],
   "note": "The crate rsa is modelled by RFC 8017 (salt as long as the digest, key limits as the crate documents). Sessions: buffers large enough, signature not longer than the Certificate message (the leaf contains the modulus), at most 16 certificates, Certificate in one record."
  },
  {
   "property": "C129",
   "status": "proved",
   "theorems": [
    "ETls.C129_key",
    "ETls.C129_signature",
    "ETls.C129_encoding",
    "ETls.C129_server",
    "ETls.C129_certificate",
    "ETls.C129_every",
    "ETls.C129_open",
    "ETls.C129_session"
   ],
   "note": "The crate p384 is modelled by FIPS 186-4 and SEC 1 (the compact point form left out). Sessions: buffers large enough, at most 16 certificates, Certificate in one record of at least 112 bytes."
  },
  {
   "property": "C130",
   "status": "proved",
   "theorems": [
    "ETls.C130_verdict",
    "ETls.C130_native",
    "ETls.C130_owner",
    "ETls.C130_complaint",
    "ETls.C130_webpki",
    "ETls.C130_panic",
    "ETls.C130_panic_ed25519"
   ],
   "note": "C130_verdict for every verifier; C130_native, C130_owner and C130_complaint for the native one; C130_webpki exactly for webpki; C130_panic and C130_panic_ed25519 are the crashes of pki.rs:212 and pki.rs:196 (unwrap of the parsed leaf key), also cases of C66."
  },
  {
   "property": "C131",
   "status": "proved",
   "theorems": [
    "ETls.C131_session",
    "ETls.C131_psk",
    "ETls.C131_native",
    "ETls.C131_webpki",
    "ETls.Spec.Ends.complete"
   ],
   "note": "Server from Spec.Textbook with TLS 1.3 computed from the RFC; Spec.Ends is the relation between the data sent, the calls and their results; the examples run all three kinds of server."
  },
  {
   "property": "C132",
   "status": "partial",
   "theorems": [
    "ETls.C132_close_partial",
    "ETls.C132_never"
   ],
   "note": "The code violates the property in every connection: C132_never shows that after the server's close_notify was read every write is refused and close sends a plaintext record 20 3 1 0 2 1 0, which no receiver of the connection accepts, so no close_notify ever arrives. What holds (C132_close_partial): close still sends all data accepted before, and it arrives complete and in order."
  },
  {
   "property": "C133",
   "status": "proved",
   "theorems": [
    "ETls.C133_session",
    "ETls.C133_psk",
    "ETls.C133_native",
    "ETls.C133_webpki",
    "ETls.C133_blocking",
    "ETls.C133_same",
    "ETls.C133_chunks",
    "ETls.C133_tasks",
    "ETls.C133_threads",
    "ETls.C79_deterministic"
   ],
   "note": "Server from Spec.Textbook; the description is that of C79 (Spec/Reader, Spec/Writer), deterministic by C79_deterministic. The transport takes everything sent during the handshake (Reliable); what comes after the handshake is arbitrary. C133_blocking is the same for the methods of blocking.rs; C133_chunks compares two connections that differ in chunking and contents of the buffers; C133_tasks and C133_threads are about halves driven at the same time."
  },
  {
   "property": "C134",
   "status": "proved",
   "theorems": [
    "ETls.C134_linearizable",
    "ETls.C134_wait_free",
    "ETls.C134_history"
   ],
   "note": "Calls of blocking.rs as programs over loads and stores of the flag (Model/Threads.lean); a stretch of code between two accesses is one step, as in C96."
  },
  {
   "property": "C135",
   "status": "proved",
   "theorems": [
    "ETls.C135_linearizable",
    "ETls.C135_wait_free",
    "ETls.C135_history",
    "ETls.C135_transport",
    "ETls.C135_threads",
    "ETls.C135_session",
    "ETls.Fine.reader_cut",
    "ETls.Fine.writer_cut"
   ],
   "note": "Also for any other way to cut the code between two accesses of the open flag. The accesses of the flag are sequentially consistent, as in C96."
  },
  {
   "property": "C136",
   "status": "proved",
   "theorems": [
    "ETls.C136_rejoin",
    "ETls.C136_close"
   ],
   "note": "C136_close says nothing about a connection that the peer has closed (C16)."
  },
  {
   "property": "C137",
   "status": "proved",
   "theorems": [
    "ETls.C137_reader_dropped",
    "ETls.C137_writer_dropped",
    "ETls.C137_close"
   ],
   "note": "The direction of the dropped call itself is C105 (partial: the code can lose data there)."
  },
  {
   "property": "C138",
   "status": "proved",
   "theorems": [
    "ETls.C138_sequential",
    "ETls.C138_history",
    "ETls.C138_session",
    "ETls.Fine.writer_noStore",
    "ETls.writer_noStore"
   ],
   "note": "The transport is a pair of separate directions; what a clone of a socket shares inside is not modelled."
  },
  {
   "property": "C139",
   "status": "proved",
   "theorems": [
    "ETls.C139_call",
    "ETls.C139_calls",
    "ETls.C139_close",
    "ETls.C139_overhead"
   ],
   "note": "Uses of the transport per call (any answers), at close, and the records and bytes made of the data (reliable transport, fewer than 2^64 records)."
  },
  {
   "property": "C140",
   "status": "proved",
   "theorems": [
    "ETls.C140_prompt",
    "ETls.C140_whole",
    "ETls.C140_open"
   ],
   "note": "For transports without errors, any chunking; C140_whole for connections after new, open and any reading calls, C140_open for open itself (transport that takes everything, room for the client's messages). The model's transport signals its end, so a continuation of nothing shows that nothing more is needed."
  },
  {
   "property": "C141",
   "status": "proved",
   "theorems": [
    "ETls.C141_open"
   ],
   "note": "From the refinement of open (C77); hypotheses as there: fresh connection, no transport errors, room for the client's own messages."
  },
  {
   "property": "C142",
   "status": "proved",
   "theorems": [
    "ETls.C142_reads",
    "ETls.C142_full",
    "ETls.C142_open",
    "ETls.C142_opens"
   ],
   "note": "Errors of message decoders are compared as a class, as in C76; open's errors as in C77."
  }
 ]
}
