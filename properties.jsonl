{"id": "C01", "title": "Hostile input cannot crash or hang the decoder", "statement": "Decoding any byte string received as the body of a plaintext record, or as the decrypted body of a handshake record, always terminates with a message or an error; it never reads outside the received bytes, never panics, and every successfully decoded handshake message consumes at least four bytes.", "quantifier": "every byte string of every length, every record content type, every starting parse position", "why_tests_cant": "the input space is unbounded; fuzzing samples it, and a hang or an out-of-range slice only needs one bad length field", "anchors": ["src/parse_buffer.rs ParseBuffer", "src/record.rs ServerRecord::decode", "src/handshake/mod.rs ServerHandshake::read", "src/extensions/extension_group_macro.rs extension_group", "src/connection.rs decrypt_record"]}
{"id": "C02", "title": "Length-prefixed integer and vector encoding round-trips", "statement": "Whatever the client appends to an outgoing buffer with an 8/16/24-bit length prefix is read back by the library's own reader as exactly the same bytes, with the reader left exactly at the end, whenever the content fits the prefix width.", "quantifier": "every content length up to the prefix width, every buffer capacity and every preceding content", "why_tests_cant": "tests fix a handful of lengths; carry/borrow between the prefix bytes shows only at particular lengths", "anchors": ["src/buffer.rs CryptoBuffer::with_u8_length/with_u16_length/with_u24_length/push*", "src/parse_buffer.rs ParseBuffer::read_u8/u16/u24/u32/slice"]}
{"id": "C03", "title": "Outgoing buffers are never overrun and never corrupt what was already written", "statement": "Every append operation on an outgoing buffer either appends exactly the requested bytes or fails leaving the bytes already present unchanged; it never writes outside the buffer and never panics.", "quantifier": "every buffer size, offset, fill level and payload", "why_tests_cant": "off-by-one errors depend on the exact relation of capacity, offset and payload length", "anchors": ["src/buffer.rs CryptoBuffer"]}
{"id": "C04", "title": "Every wire code point means exactly one thing in both directions", "statement": "For content types, alert levels, alert descriptions, handshake types, extension types, cipher suites, named groups, signature schemes, PSK modes and fragment-length codes: encoding a known value and decoding the code gives the value back, decoding a code and re-encoding gives the code back, distinct values have distinct codes, and unknown codes are rejected.", "quantifier": "all 8-bit or 16-bit code values and all enumeration values", "why_tests_cant": "a test enumerates a few values; two enumerators sharing or swapping a code go unnoticed", "anchors": ["src/content_types.rs", "src/alert.rs", "src/handshake/mod.rs HandshakeType", "src/extensions/mod.rs ExtensionType", "src/cipher_suites.rs", "src/extensions/extension_data/supported_groups.rs NamedGroup", "src/extensions/extension_data/signature_algorithms.rs SignatureScheme", "src/extensions/extension_data/psk_key_exchange_modes.rs", "src/extensions/extension_data/max_fragment_length.rs"]}
{"id": "C05", "title": "Unknown extensions are ignored, forbidden extensions abort", "statement": "In a message from the server, extensions with an unknown type have no effect wherever they appear in the list; an extension of a known type that is not permitted in that message makes decoding fail with a fatal illegal_parameter abort.", "quantifier": "every extension list, every position and every content of the unknown extension", "why_tests_cant": "position and combination of extensions are unbounded", "anchors": ["src/extensions/extension_group_macro.rs", "src/extensions/messages.rs"]}
{"id": "C06", "title": "ClientHello is the message that RFC 8446 and the configuration prescribe", "statement": "For every configuration whose names fit their length fields, the ClientHello the client emits decodes, under an independent RFC 8446 grammar, to: legacy version 0x0303, the 32 random bytes, empty session id, exactly the configured cipher suite, null compression, and the extensions in the prescribed order, each present iff configured and carrying exactly the configured values, with pre_shared_key last; every length field is exact.", "quantifier": "every configuration (server name, ALPN list, signature schemes, groups, fragment length, PSK identities), random value and public key", "why_tests_cant": "interacting optional fields and nested length prefixes give unboundedly many shapes", "anchors": ["src/handshake/client_hello.rs ClientHello::encode", "src/extensions/messages.rs ClientHelloExtension", "src/config.rs TlsConfig"]}
{"id": "C07", "title": "An over-large message is refused before anything is sent", "statement": "If a handshake message does not fit the write buffer, the call returns an error and not a single byte of it reaches the transport.", "quantifier": "every write buffer size and every message", "why_tests_cant": "the failing boundary depends on every field length", "anchors": ["src/write_buffer.rs write_record", "src/connection.rs client_hello/client_cert/client_cert_verify/client_finished"]}
{"id": "C08", "title": "Alert messages round-trip", "statement": "Encoding any alert and decoding it gives the same level and description, and an alert body that is not a known level and description is rejected.", "quantifier": "all level/description pairs and all byte strings", "why_tests_cant": "completeness over all codes", "anchors": ["src/alert.rs Alert::encode/parse"]}
{"id": "C09", "title": "Handshake message length field delimits the message", "statement": "A handshake message is accepted only if its 24-bit length field equals the length of the body that was decoded.", "quantifier": "every handshake byte string", "why_tests_cant": "needs the relation between the declared and consumed length on all inputs", "anchors": ["src/handshake/mod.rs ServerHandshake::parse"]}
{"id": "C10", "title": "Outgoing byte stream is neither lost, duplicated, reordered nor altered", "statement": "After any sequence of write and flush calls on an open connection over a transport that does not fail, the plaintexts of the application-data records given to the transport, followed by the bytes still buffered, are exactly the concatenation of the accepted prefixes of the write calls; after a successful flush nothing is left buffered.", "quantifier": "every sequence of write/flush calls, every slice content and length, every write buffer size that allows progress", "why_tests_cant": "depends on the interplay of call sizes with the buffer boundary over unbounded histories", "anchors": ["src/asynch.rs TlsConnection::write/flush, TlsWriter", "src/blocking.rs TlsConnection::write/flush", "src/write_buffer.rs WriteBuffer"]}
{"id": "C11", "title": "A conforming peer can decrypt everything that was sent", "statement": "Each application-data record handed to the transport is byte for byte the RFC 8446 TLSCiphertext: type 23, version 0x0303, exact length, and the AEAD of content plus content-type byte under the client application key, the sequence-number nonce, and the header as additional data, with sequence numbers consecutive from zero.", "quantifier": "every sequence of write/flush calls over a transport that does not fail, every key, iv and AEAD", "why_tests_cant": "a test peer checks one run; the sequence number and length are functions of the whole history", "anchors": ["src/connection.rs encrypt", "src/write_buffer.rs close_record", "src/record.rs ClientRecordHeader", "src/key_schedule.rs KeyScheduleState::get_nonce/increment_counter"]}
{"id": "C12", "title": "No nonce is used for two different records under one key", "statement": "No two different records are ever sealed with the same key and nonce and handed to the transport, whatever the transport does (including failing writes) and whatever calls the application makes.", "quantifier": "every history of API calls and every transport behaviour, including failures at any call and cancellation of async operations", "why_tests_cant": "reuse needs a failure at a particular point of a history, followed by a retry", "anchors": ["src/asynch.rs flush/close_internal", "src/blocking.rs flush/close_internal", "src/connection.rs respond", "src/key_schedule.rs WriteKeySchedule::increment_counter"]}
{"id": "C13", "title": "No application data moves before the handshake succeeded or after the connection closed", "statement": "On a connection that has not completed the handshake, or whose peer closed it, write, read into a buffer that is not empty, read_buffered and fill_buf return the missing-handshake error, touch neither transport nor buffers, and deliver nothing; read into an empty buffer returns Ok(0) and touches nothing either.", "quantifier": "every connection state that is not open, every argument", "why_tests_cant": "must hold in every reachable and unreachable closed state", "anchors": ["src/asynch.rs write/read_buffered", "src/blocking.rs write/read_buffered"]}
{"id": "C14", "title": "write makes progress", "statement": "On an open connection, with any write buffer accepted by the constructor, write of a non-empty slice over a working transport returns n with 0 < n <= slice length.", "quantifier": "every write buffer size the constructor accepts, every fill level reachable, every slice", "why_tests_cant": "boundary sizes just above the documented overhead are not exercised by tests", "anchors": ["src/write_buffer.rs WriteBuffer::new/append/is_full", "src/config.rs TLS_RECORD_OVERHEAD", "src/asynch.rs write"]}
{"id": "C15", "title": "Flush policy decides exactly when the transport is flushed", "statement": "A flush call on a connection with buffered data performs exactly one write of the record and then, exactly if the policy is strict, one transport flush; with nothing buffered it does no I/O at all; a record sent because the buffer became full follows the same rule.", "quantifier": "every connection state and both policies", "why_tests_cant": "must hold for all histories of calls", "anchors": ["src/flush_policy.rs", "src/asynch.rs flush", "src/blocking.rs flush"]}
{"id": "C16", "title": "close flushes data and sends an authenticated close_notify", "statement": "close on a connection whose handshake succeeded sends any buffered application data and then, as the last record, a close_notify alert protected with the client application key.", "quantifier": "every state reachable after a successful handshake, including after the peer closed", "why_tests_cant": "the state after the peer closed is rarely covered; wrong protection is invisible to a client-side test", "anchors": ["src/asynch.rs close_internal", "src/blocking.rs close_internal", "src/record.rs ClientRecord::close_notify"]}
{"id": "C17", "title": "Write-side calls never panic", "statement": "No sequence of write, flush, close and set_flush_policy calls panics, whatever the transport does, starting from any state that open (successful or failed) leaves behind.", "quantifier": "every history of calls, every transport failure schedule, every write buffer accepted by the constructor", "why_tests_cant": "the panic needs a failed handshake with a message of a particular size followed by close", "anchors": ["src/write_buffer.rs close_record (unwrap), start_record (debug_assert)", "src/asynch.rs flush/close"]}
{"id": "C18", "title": "Outgoing records respect the TLS 1.3 size limit", "statement": "No application-data record carries more than 2^14 bytes of content, and the record length field is always the true length.", "quantifier": "every write buffer size and every history of writes", "why_tests_cant": "needs quantification over buffer sizes beyond those used in tests", "anchors": ["src/write_buffer.rs max_block_size, close_record", "src/connection.rs encrypt"]}
{"id": "C19", "title": "How the transport fragments the input does not matter", "statement": "The results of any sequence of read calls depend only on the bytes received, not on how the transport splits them into reads.", "quantifier": "every byte stream, every way of cutting it into chunks, every sequence of read calls", "why_tests_cant": "the number of fragmentations is exponential", "anchors": ["src/record_reader.rs RecordReader::read/advance/next_record_header"]}
{"id": "C20", "title": "Honest peer: everything sent is delivered, in order, once", "statement": "If the peer sends application-data records (any sizes that fit the read buffer, any amount of zero padding, empty ones included) and new-session tickets are not interleaved with garbage, then reads deliver exactly the concatenation of their contents.", "quantifier": "every list of record contents and paddings, every chunking, every sequence of read sizes", "why_tests_cant": "unbounded histories and buffer wrap-around positions", "anchors": ["src/record_reader.rs", "src/connection.rs decrypt_record", "src/read_buffer.rs", "src/common/decrypted_buffer_info.rs", "src/asynch.rs read_application_data"]}
{"id": "C21", "title": "Attacker in the middle: delivered bytes are a prefix of what the peer sent", "statement": "Whatever an attacker does to the bytes on the wire (drop, replay, reorder, truncate, inject plaintext or garbage records), and whatever errors occur, the concatenation of all bytes ever delivered to the application is a prefix of the application data the peer sent, provided no AEAD forgery occurs.", "quantifier": "every attacker-chosen byte stream, every chunking and failure schedule, every sequence of read calls, every AEAD", "why_tests_cant": "adversarial schedules cannot be enumerated", "anchors": ["src/connection.rs decrypt_record", "src/key_schedule.rs ReadKeySchedule", "src/record_reader.rs", "src/asynch.rs read*"]}
{"id": "C22", "title": "A successful read into a non-empty buffer returns at least one byte", "statement": "read with a non-empty buffer never returns Ok(0) and never returns more than the buffer length; read with an empty buffer returns Ok(0) without I/O.", "quantifier": "every state, every transport behaviour, every buffer length", "why_tests_cant": "empty application-data records arriving in any number must be skipped", "anchors": ["src/asynch.rs read/read_buffered", "src/blocking.rs read/read_buffered"]}
{"id": "C23", "title": "The buffered-read API consumes exactly what the application took", "statement": "For any sequence of read_buffered (with any peek/pop/pop_into calls, then drop or revert), fill_buf/consume and read calls, each received byte is handed over as consumed exactly once and in order; reverted or merely peeked bytes are seen again; a dropped untouched buffer discards all its bytes.", "quantifier": "every sequence of operations and counts", "why_tests_cant": "combinatorial histories", "anchors": ["src/read_buffer.rs ReadBuffer", "src/common/decrypted_buffer_info.rs", "src/asynch.rs BufRead"]}
{"id": "C24", "title": "Reader never touches memory outside its buffer", "statement": "Receiving records never indexes outside the read buffer and never panics, whatever the transport delivers and whatever errors it returned before; a record larger than the buffer is refused with an insufficient-space error.", "quantifier": "every buffer size, every stream, every failure schedule", "why_tests_cant": "needs failure in mid-record followed by another read", "anchors": ["src/record_reader.rs advance/consume/ensure_contiguous"]}
{"id": "C25", "title": "A transport error during read can be retried", "statement": "If the transport reports an error (for example a timeout) in the middle of a record, a later read continues with the same record and no data is lost.", "quantifier": "every point of failure in every stream", "why_tests_cant": "failure points are unbounded", "anchors": ["src/record_reader.rs next_record_header/advance"]}
{"id": "C26", "title": "A record that fails authentication changes nothing", "statement": "If a protected record does not authenticate, the call returns a crypto error, delivers no bytes and leaves the keys and the sequence number unchanged.", "quantifier": "every state, every ciphertext", "why_tests_cant": "all ciphertexts", "anchors": ["src/connection.rs decrypt_record"]}
{"id": "C27", "title": "Record padding and content type are recovered exactly", "statement": "For every content, every content type other than the padding byte, and every amount of zero padding, removing protection yields exactly the content and the type; an all-zero or empty inner plaintext is rejected with an error.", "quantifier": "every content, type and padding length", "why_tests_cant": "unbounded; the all-zero and empty cases are corner cases", "anchors": ["src/connection.rs decrypt_record"]}
{"id": "C28", "title": "Peer close is reported once and is final", "statement": "When a close_notify is received the read reports connection-closed, all data received before it has been delivered, and afterwards every read and write reports missing handshake; the connection never becomes open again through reads and writes.", "quantifier": "every history, including split reader and writer", "why_tests_cant": "histories", "anchors": ["src/common/decrypted_read_handler.rs", "src/asynch.rs read_application_data"]}
{"id": "C29", "title": "After the handshake only authenticated records influence the connection", "statement": "Once the connection is open, a record that is not protected under the peer's key cannot close it, panic it, or otherwise change its state.", "quantifier": "every unprotected record", "why_tests_cant": "needs an attacker record in every state", "anchors": ["src/connection.rs decrypt_record lines 90-92", "src/common/decrypted_read_handler.rs"]}
{"id": "C30", "title": "No message from the peer can panic the client after the handshake", "statement": "On an open connection no byte sequence from the network makes a read call panic.", "quantifier": "every input stream, every AEAD", "why_tests_cant": "the panicking inputs must be protected with the right key, so fuzzing does not find them", "anchors": ["src/connection.rs decrypt_record (last().unwrap())", "src/common/decrypted_read_handler.rs (unimplemented!)"]}
{"id": "C31", "title": "Reader and writer halves do not interfere", "statement": "After split, any interleaving of reader and writer calls gives each half the same results and leaves the same state as running the reader calls and the writer calls separately, apart from the shared open flag; a close_notify seen by the reader makes later writes fail and nothing re-opens the connection.", "quantifier": "every interleaving of every two call sequences", "why_tests_cant": "interleavings are exponential", "anchors": ["src/asynch.rs TlsReader/TlsWriter/split", "src/blocking.rs TlsReader/TlsWriter/split"]}
{"id": "C32", "title": "open never runs forever", "statement": "open terminates for every finite server behaviour; each handshake step either consumes input or advances the state.", "quantifier": "every input stream, every configuration and provider", "why_tests_cant": "non-termination cannot be observed by a finite test", "anchors": ["src/asynch.rs TlsConnection::open", "src/connection.rs State::process"]}
{"id": "C33", "title": "open succeeds only after the server proved knowledge of the handshake keys", "statement": "If open returns Ok then a Finished message was received whose MAC equals HMAC(finished key of the server handshake traffic secret, hash of all handshake messages before it), where that secret is derived as RFC 8446 prescribes from the configured PSK and the Diffie-Hellman result of this handshake.", "quantifier": "every server byte stream, every configuration, every crypto suite", "why_tests_cant": "the set of server behaviours is unbounded", "anchors": ["src/connection.rs process_server_verify", "src/key_schedule.rs verify_server_finished/create_server_finished"]}
{"id": "C34", "title": "open succeeds only if the server was authenticated by the configured verifier", "statement": "With a verifier and no PSK, if open returns Ok then the verifier accepted a Certificate message and a CertificateVerify signature of this handshake.", "quantifier": "every server byte stream, every verifier", "why_tests_cant": "absence of messages is a behaviour that conforming test servers never show", "anchors": ["src/connection.rs process_server_verify"]}
{"id": "C35", "title": "Key schedule is that of RFC 8446", "statement": "Handshake and application traffic secrets, keys and IVs, Finished keys and the PSK binder key are the values RFC 8446 section 7.1 defines from the PSK (or zeros), the Diffie-Hellman result and the transcript hashes.", "quantifier": "every PSK, shared secret, transcript, and every hash/HKDF function", "why_tests_cant": "test vectors pin one input; the composition must hold for all", "anchors": ["src/key_schedule.rs KeySchedule"]}
{"id": "C36", "title": "Transcript is exactly the handshake messages exchanged", "statement": "At every point of the handshake the transcript that is hashed is the concatenation, in order, of the bytes of every handshake message sent and received so far.", "quantifier": "every handshake run", "why_tests_cant": "histories", "anchors": ["src/handshake/mod.rs ServerHandshake::read, ClientHandshake::finalize", "src/record.rs finish_record", "src/connection.rs client_finished_finalize"]}
{"id": "C37", "title": "Client Finished is correct and sent exactly once, encrypted", "statement": "If open returns Ok, the last record sent in the handshake is the client Finished, protected with the client handshake key, whose MAC is the RFC 8446 value over all preceding handshake messages.", "quantifier": "every handshake run", "why_tests_cant": "histories", "anchors": ["src/connection.rs client_finished", "src/key_schedule.rs create_client_finished"]}
{"id": "C38", "title": "PSK binder is the RFC 8446 value over the truncated ClientHello", "statement": "With a PSK configured, the ClientHello ends with the binder list; each binder is the HMAC under the binder key of the hash of the ClientHello up to and excluding the binder list, and the message sent is the message hashed into the transcript.", "quantifier": "every configuration with PSK", "why_tests_cant": "lengths and positions vary with the configuration", "anchors": ["src/handshake/mod.rs ClientHandshake::finalize", "src/handshake/client_hello.rs ClientHello::finalize", "src/handshake/binder.rs", "src/extensions/extension_data/pre_shared_key.rs", "src/key_schedule.rs create_psk_binder"]}
{"id": "C39", "title": "Client authentication answers the request that was made", "statement": "A client Certificate is sent iff the server sent a CertificateRequest, it carries the request's context and the configured certificate (or an empty list), and a CertificateVerify follows iff a certificate was sent, signing exactly the RFC 8446 client context string and the transcript hash.", "quantifier": "every handshake run, every provider", "why_tests_cant": "combinations of request, certificate, signer failure", "anchors": ["src/connection.rs client_cert/client_cert_verify", "src/handshake/certificate.rs", "src/handshake/certificate_verify.rs"]}
{"id": "C40", "title": "Handshake messages after ServerHello are sent encrypted", "statement": "Every record the client sends after it processed ServerHello, including alerts, is protected with the current client key.", "quantifier": "every handshake run including failing ones", "why_tests_cant": "error paths", "anchors": ["src/connection.rs handle_processing_error, client_cert, client_finished", "src/record.rs ClientRecord"]}
{"id": "C41", "title": "The negotiated parameters are among those offered", "statement": "open succeeds only if ServerHello selected TLS 1.3, the offered cipher suite and the offered key-share group.", "quantifier": "every ServerHello", "why_tests_cant": "all field values", "anchors": ["src/handshake/server_hello.rs ServerHello::parse/calculate_shared_secret", "src/connection.rs process_server_hello"]}
{"id": "C42", "title": "A failed open leaves the connection closed", "statement": "If open on a fresh connection returns an error, the connection is not open: write and read report missing handshake and no application data can be sent.", "quantifier": "every failure in every handshake run", "why_tests_cant": "failure points", "anchors": ["src/asynch.rs open", "src/blocking.rs open"]}
{"id": "C43", "title": "A server alert during the handshake is reported with its level and description", "statement": "If the server answers with an alert record during the handshake, open fails with handshake-aborted carrying exactly that level and description.", "quantifier": "every alert, every point of the handshake", "why_tests_cant": "points of the handshake", "anchors": ["src/connection.rs process_server_hello/process_server_verify"]}
{"id": "C44", "title": "An aborting client sends the alert", "statement": "When open fails with an abort carrying an alert level and description, that alert was sent to the server as a TLS alert record.", "quantifier": "every abort reason, every point of the handshake", "why_tests_cant": "error paths", "anchors": ["src/connection.rs handle_processing_error", "src/record.rs ClientRecordHeader::header_content_type"]}
{"id": "C45", "title": "Handshake runs through the states in order", "statement": "A handshake step only moves to a successor state of the TLS 1.3 client state machine, and Ok from open implies ClientHello was sent first, ServerHello and server Finished were received, and client Finished sent last.", "quantifier": "every run", "why_tests_cant": "histories", "anchors": ["src/connection.rs State::process"]}
{"id": "C46", "title": "An honest server is always accepted", "statement": "For every conforming server flight (ServerHello, EncryptedExtensions, optional Certificate and CertificateVerify accepted by the verifier, Finished), open returns Ok, for any chunking, and both sides hold the same application keys.", "quantifier": "every lawful crypto suite, configuration, certificate, chunking that fits the buffers", "why_tests_cant": "a test uses one server and one configuration", "anchors": ["src/asynch.rs open", "src/connection.rs State::process"]}
{"id": "C47", "title": "Distinct sequence numbers give distinct nonces", "statement": "For a fixed iv the per-record nonces of different sequence numbers differ, and the sequence number never wraps around.", "quantifier": "all 2^64 sequence numbers, every iv", "why_tests_cant": "2^64 values", "anchors": ["src/key_schedule.rs get_nonce/pad/increment_counter"]}
{"id": "C48", "title": "HKDF labels are unambiguous and always fit", "statement": "Different (length, label, context) triples give different HKDF info strings, the info string is the RFC 8446 HkdfLabel, and none of the derivations the library makes can overflow its label buffer.", "quantifier": "every label, context and length in range, every hash size", "why_tests_cant": "injectivity", "anchors": ["src/key_schedule.rs HkdfLabel/make_expanded_hkdf_label"]}
{"id": "C49", "title": "Host name matching accepts exactly the names the rules allow", "statement": "A certificate name matches a host name iff it is equal ignoring ASCII case, or it is a wildcard of the form '*.' + at least two further labels whose remainder equals the host name after its first dot, ignoring case; names with characters outside letters, digits, '-', '.', '*' never match.", "quantifier": "every pair of strings", "why_tests_cant": "the space of strings; wildcard corner cases", "anchors": ["src/pki.rs tls_hostname_match_impl"]}
{"id": "C50", "title": "SAN takes precedence over CN", "statement": "If the leaf certificate has DNS subject alternative names, only these are compared with the host name and the common name is ignored (as the doc comment says).", "quantifier": "every set of names", "why_tests_cant": "all name combinations", "anchors": ["src/pki.rs tls_hostname_match"]}
{"id": "C51", "title": "A certificate chain is accepted only if every link is signed, from the CA to the leaf", "statement": "The native verifier accepts a certificate list only if each certificate's signature verifies under the key of its issuer in the chain and the last one under the configured CA, and, if a clock is available, every certificate in the list is within its validity period, and the leaf's names match the expected host.", "quantifier": "every certificate list, every signature scheme implementation", "why_tests_cant": "chains of any length", "anchors": ["src/pki.rs CertificateChain, CertVerifier::verify_certificate, verify_certificate"]}
{"id": "C52", "title": "Signature verification covers the right content with the right key", "statement": "verify_signature of the native verifier accepts only if the signature over 64 spaces, the TLS 1.3 server context string, zero byte and the hash of the transcript up to the Certificate message verifies under the public key of the first certificate received.", "quantifier": "every transcript, certificate, signature", "why_tests_cant": "all inputs", "anchors": ["src/pki.rs CertVerifier::verify_signature", "src/webpki.rs verify_signature"]}
{"id": "C53", "title": "Signature verification works for every supported cipher suite", "statement": "verify_signature of either verifier builds the to-be-signed content for SHA-256 and SHA-384 transcripts and returns an error, never a panic, when called without a certificate.", "quantifier": "every hash length of the supported suites, every call order", "why_tests_cant": "call order and the second suite are untested", "anchors": ["src/webpki.rs verify_signature", "src/pki.rs verify_signature"]}
{"id": "C54", "title": "Configuration builders never panic", "statement": "No sequence of configuration builder calls panics.", "quantifier": "every sequence of builder calls", "why_tests_cant": "repetition counts", "anchors": ["src/config.rs TlsConfig::enable_rsa_signatures/with_psk"]}
{"id": "C55", "title": "RFC-encoded server messages decode to their fields", "statement": "Every ServerHello, EncryptedExtensions, CertificateRequest, Certificate (up to 16 certificates), CertificateVerify, Finished and NewSessionTicket encoded as RFC 8446 prescribes, with permitted and well-formed extensions within the library's list capacities, is decoded to exactly the values it carries, in order, and exactly its bytes are consumed whatever precedes or follows it.", "quantifier": "every message of the seven kinds, every field value, every surrounding byte string", "why_tests_cant": "the space of field values, certificate lists, extension lists and positions is unbounded", "anchors": ["src/handshake/mod.rs:202-240", "src/handshake/server_hello.rs:19-54", "src/handshake/certificate.rs:32-100", "src/extensions/extension_group_macro.rs:28-95"]}
{"id": "C56", "title": "The decoder accepts only well-formed messages", "statement": "Every byte string that the handshake message decoder accepts is the RFC 8446 encoding of a message of one of the seven server kinds with all fields within their ranges (up to the value of the 24-bit length field, see C09), and the decoded fields are those of that message; in particular a Finished, a CertificateRequest context, a certificate list or a signature handed to the handshake is exactly the byte range the encoding assigns to it.", "quantifier": "every byte string, every position in it, every accepted message", "why_tests_cant": "soundness of a decoder quantifies over all accepted byte strings, an unbounded set", "anchors": ["src/handshake/mod.rs:202-240", "src/parse_buffer.rs:40-220", "src/extensions/extension_group_macro.rs:28-95"]}
{"id": "C57", "title": "webpki verifier: accepted leaf is valid for CA, time and host, and the signature covers the right content", "statement": "If the webpki verifier accepts a certificate list, its first entry is a certificate that webpki accepts for server authentication under the configured CA at the current time (the epoch when there is no clock) and, if a host name is expected, for that host name; if it then accepts a CertificateVerify, webpki verified the signature with that certificate over 64 spaces, the server context string, a zero byte and the hash of the transcript shown with the Certificate.", "quantifier": "every certificate list, host, transcript, signature and behaviour of the webpki library", "why_tests_cant": "all inputs of an external library and all message contents", "anchors": ["src/webpki.rs verify_certificate/verify_signature"]}
{"id": "C58", "title": "Only certificate authorities may issue certificates", "statement": "The native verifier accepts a chain only if every certificate used as an issuer is a CA certificate (basicConstraints cA) and carries the subject name that the issued certificate names as its issuer.", "quantifier": "every certificate list", "why_tests_cant": "needs a quantifier over all certificate contents; a missing check has no failing unit test", "anchors": ["src/pki.rs verify_certificate"]}
{"id": "C59", "title": "Every DNS name of the leaf counts", "statement": "A certificate list that is otherwise acceptable is accepted for a host name whenever any DNS name of the leaf's subjectAltName matches it.", "quantifier": "every leaf certificate, every number and order of names", "why_tests_cant": "the number of names in a certificate is unbounded", "anchors": ["src/pki.rs extract_san_dns_names"]}
{"id": "C60", "title": "A successful open with the crate's verifiers authenticates what the server sent", "statement": "If open succeeds with a new native (or webpki) verifier for a CA, then every Certificate message the server sent leads to that CA, is within its validity period if there is a clock, and names the configured server, and every CertificateVerify is preceded by a Certificate (with no other Certificate or CertificateVerify in between) and is a valid signature, under the key of its first certificate, of the ClientHello, ServerHello and all messages up to and including that Certificate as they were on the wire.", "quantifier": "every server behaviour, transport, configuration, certificate and signature library", "why_tests_cant": "needs all server flights and the exact bytes of the transcript", "anchors": ["src/pki.rs:94-148", "src/webpki.rs:150-188", "src/connection.rs", "src/asynch.rs:95-129"]}
{"id": "C61", "title": "No certificate makes the native verifier panic", "statement": "Whatever certificates a server sends, verify_certificate of the native verifier returns a result and does not panic.", "quantifier": "every certificate list, CA, clock and feature set", "why_tests_cant": "all byte strings as certificates, combined with all CA keys", "anchors": ["src/pki.rs:290-475", "src/der_certificate.rs:230-281"]}
{"id": "C62", "title": "webpki verifier uses the intermediates the server sends", "statement": "A leaf that is issued through intermediate certificates present in the Certificate message is accepted by the webpki verifier.", "quantifier": "every certificate list", "why_tests_cant": "unbounded chains; the test set has only leaf certificates issued by the CA itself", "anchors": ["src/webpki.rs:226-296"]}
{"id": "C63", "title": "An empty certificate list is refused", "statement": "verify_certificate of either verifier returns an error for a Certificate message without certificates (RFC 8446 4.4.2.4).", "quantifier": "every configuration of the verifier, with or without server name", "why_tests_cant": "tests use server flights with certificates; the missing check has no failing unit test", "anchors": ["src/pki.rs:94-125", "src/webpki.rs:150-188"]}
{"id": "C64", "title": "Valid chains are accepted", "statement": "A Certificate message whose certificates lead, each signed by the next and the last by the CA, to the configured CA, all within their validity period, signed with algorithms that are compiled in, with subject and subjectAltName of the sizes the library supports, is accepted for every host name that matches one of the first three DNS names or the last common name of the leaf.", "quantifier": "every chain of any length, every clock, every CA, every host name", "why_tests_cant": "unbounded chains and names", "anchors": ["src/pki.rs:94-475"]}
{"id": "C65", "title": "Without a server name only nameless certificates pass", "statement": "If no server name is configured and the native verifier accepts a non-empty certificate list, then the leaf has no common name and no DNS name.", "quantifier": "every certificate list, CA, clock", "why_tests_cant": "all certificate contents", "anchors": ["src/pki.rs:94-125", "src/pki.rs:200-290"]}
{"id": "C66", "title": "open never panics", "statement": "open returns Ok or an error, whatever the transport delivers and however it fails.", "quantifier": "every configuration, provider, verifier state, input, chunking and I/O failure pattern", "why_tests_cant": "all inputs of a network peer", "anchors": ["src/asynch.rs:80-130", "src/connection.rs:155-700", "src/pki.rs:94-268"]}
{"id": "C67", "title": "open can be retried", "statement": "If open fails with an I/O error, a later open on the same connection object, with a working transport and a conforming server that open on a new connection accepts, succeeds.", "quantifier": "every connection, failure point, configuration and server", "why_tests_cant": "all failure points of the transport", "anchors": ["src/asynch.rs:95-129", "src/key_schedule.rs:338-351", "src/connection.rs:387-408"]}
{"id": "C68", "title": "After a failed open no application data moves", "statement": "After open returned an error, whatever the connection was before, write is refused and read delivers nothing.", "quantifier": "every connection, also one that is already open, every failure", "why_tests_cant": "all histories of calls", "anchors": ["src/asynch.rs:95-129", "src/asynch.rs:139-160", "src/asynch.rs:197-220"]}
{"id": "C69", "title": "A conforming server with a valid certificate is accepted", "statement": "With the native verifier (or webpki), a conforming server whose certificate chain leads to the configured CA, is in its validity period and names the configured host, and whose CertificateVerify is a valid signature of the leaf key over the RFC 8446 content, is accepted: open returns Ok.", "quantifier": "every lawful suite, library, chain, host, position of other messages in the flight, record layout and chunking", "why_tests_cant": "all chains, hosts, flights and transports", "anchors": ["src/pki.rs", "src/webpki.rs:150-296", "src/connection.rs:264-600"]}
{"id": "C70", "title": "Providers without verifier authenticate nobody", "statement": "NoVerify behaves exactly like having no verifier; with UnsecureProvider, or a CryptoProvider that only has default methods, every conforming server is accepted whatever Certificate and CertificateVerify it sends, or without any.", "quantifier": "every suite, configuration, server input and transport behaviour (NoVerify); every conforming flight, record layout and chunking (the others)", "why_tests_cant": "all inputs, certificates and flights", "anchors": ["src/config.rs:94-116", "src/config.rs:141-171", "src/config.rs:206-265", "src/connection.rs:438-499"]}
{"id": "C71", "title": "Outcome of client authentication that cannot be done", "statement": "If a conforming server asks for a certificate and the client has one: without a signer, open returns the signer's error after sending Certificate and close_notify and never Finished (InvalidPrivateKey for UnsecureProvider with a missing or malformed key); if the signer fails or its signature is too long, open panics.", "quantifier": "every suite, configuration, provider, conforming flight, record layout and chunking", "why_tests_cant": "all providers, flights and transports", "anchors": ["src/connection.rs:501-598", "src/config.rs:248-265"]}
{"id": "C72", "title": "Exactly which inputs make open succeed", "statement": "On a fresh connection over a transport without I/O errors, with room for the client's own messages, open returns Ok if and only if the verifier accepts the host name and the received bytes begin with: a plaintext handshake record holding a well-formed ServerHello with a usable key share, then records under the server's handshake keys (or plaintext handshake records, or change_cipher_spec) that fit the read buffer and carry whole well-formed messages of the expected kinds, every Finished being the correct MAC over all messages before it, the last record being the first with a Finished, the verifier accepting every Certificate and CertificateVerify shown to it, and the client having an answer to a CertificateRequest.", "quantifier": "every suite, configuration, provider, verifier, input byte sequence and chunking", "why_tests_cant": "an if-and-only-if over all byte sequences", "anchors": ["src/connection.rs:167-636", "src/asynch.rs:95-137", "src/record_reader.rs:108-279", "src/handshake/mod.rs:185-241"]}
{"id": "C73", "title": "Exactly which server messages are read", "statement": "The handshake decoder reads a message from a byte string exactly if the string begins with the RFC 8446 encoding of a ServerHello, EncryptedExtensions, CertificateRequest, Certificate, CertificateVerify, Finished or NewSessionTicket in which every extension of a known type is permitted in that message and has the content RFC 8446/6066/7301 give it (known groups, schemes and fragment codes; extra bytes after the content are tolerated in some), with at most 4, 16, 6, 2 and 1 such extensions and at most 16 certificates. A well-formed message that is not readable is refused: with an illegal_parameter abort if the first offending extension is of a type not permitted there, with DecodeError if it is permitted.", "quantifier": "every byte string, every message, every extension list", "why_tests_cant": "an if-and-only-if over all byte strings", "anchors": ["src/extensions/messages.rs:1-106", "src/extensions/extension_group_macro.rs:28-95", "src/extensions/extension_data/key_share.rs:11-92", "src/extensions/extension_data/supported_groups.rs:88-94", "src/extensions/extension_data/signature_algorithms.rs:146-153", "src/extensions/extension_data/alpn.rs:24-43", "src/handshake/mod.rs:203-241"]}
{"id": "C74", "title": "Unknown values in lists of known extensions are ignored", "statement": "A CertificateRequest whose signature_algorithms, or EncryptedExtensions whose supported_groups, contain values the client does not know (RFC 8701 reserved values, values registered later) next to known ones is read as if the unknown values were not there.", "quantifier": "every list of 16-bit values, every position", "why_tests_cant": "quantifies over all value lists", "anchors": ["src/extensions/extension_data/signature_algorithms.rs:146-153", "src/extensions/extension_data/supported_groups.rs:88-94", "src/parse_buffer.rs:151-168"]}
{"id": "C75", "title": "ClientHello extensions are read back as written", "statement": "Every extension the client writes into its ClientHello is read back by the library's own ClientHello extension parser as the same value, consuming exactly its bytes, whatever surrounds them.", "quantifier": "every extension value within field sizes and capacities, every surrounding byte string", "why_tests_cant": "quantifies over all extension contents", "anchors": ["src/extensions/messages.rs:19-44", "src/extensions/extension_group_macro.rs:20-65", "src/extensions/extension_data/server_name.rs:40-107", "src/extensions/extension_data/psk_key_exchange_modes.rs:37-52"]}
{"id": "C76", "title": "Reading calls refine a reader of the received byte stream", "statement": "After a successful open over a transport without errors, what any history of read, fill_buf, consume and read_buffered calls returns (slices, bytes, errors, panics) and the state it leaves are determined by the received bytes alone, through a small specification of a reader: one record after another, protected records numbered from 0 under the server's application keys, session tickets and empty records passed over, each other record an error that leaves the rest readable, close_notify ending the connection. No buffer offset, chunk boundary or earlier call has any other influence.", "quantifier": "every received byte string (honest or not), every chunking, every buffer size, every history of calls, every suite", "why_tests_cant": "quantifies over all byte streams, chunkings and call histories", "anchors": ["src/asynch.rs:197-241", "src/asynch.rs:379-412", "src/asynch.rs:468-492", "src/record_reader.rs:108-160", "src/record_reader.rs:179-263", "src/connection.rs:28-94", "src/record.rs:192-221"]}
{"id": "C77", "title": "open refines a description of the handshake on the received byte stream", "statement": "On a fresh connection over a transport without errors, and with room for the client's own messages, what open does (success, panic, which error), the records it has sent by then including the alert, the keys it ends with and the bytes it leaves in the transport are determined by the received bytes and the answers of the verifier and the signer alone, through a small specification of the client's side of the handshake: cut the next record off the stream, read the ServerHello, take note of one message after another (transcript hash for the certificate verifier, MAC of Finished over exactly the preceding messages), answer a CertificateRequest, send Finished. The specification allows exactly one outcome for each input.", "quantifier": "every received byte string (honest or not), every chunking, every buffer size, every configuration, verifier, signer, client certificate and suite", "why_tests_cant": "quantifies over all byte streams and chunkings, with an exact outcome for each", "anchors": ["src/asynch.rs:82-129", "src/handshake/mod.rs:203-241", "src/connection.rs:28-94", "src/connection.rs:165-233", "src/connection.rs:341-640", "src/record_reader.rs:32-160", "src/record.rs:192-221", "src/record.rs:60-160"]}
{"id": "C78", "title": "Writing calls refine a writer of records", "statement": "What any history of write, flush, set_flush_policy and finally close returns, and exactly what it hands to the transport (records, transport flushes, parts of records when the transport fails), is determined by the calls, the transport's answers and the write keys, through a small specification: one record being collected with at most (size of the write buffer - 133) bytes, sent when full or flushed, protected under consecutive numbers that advance only when the transport takes the whole record, the transport flushed after each record under the strict policy only; close sends what is left, then close_notify, and flushes the transport. No buffer offset or earlier call has any other influence.", "quantifier": "every history of calls, every data, every sequence of transport answers (including errors after any number of bytes), every buffer size, every suite", "why_tests_cant": "quantifies over all call histories and all ways the transport can fail", "anchors": ["src/asynch.rs:139-195", "src/asynch.rs:244-278", "src/asynch.rs:500-545", "src/write_buffer.rs:22-287", "src/flush_policy.rs:1-36"]}
{"id": "C79", "title": "A whole connection refines a description without buffers", "statement": "From new over open, any interleaving of reading and writing calls, to close: every result and everything handed to the transport is determined by the received bytes, the transport's answers and the calls through the specifications of the handshake (C77), the reader (C76) and the writer (C78) put together: the two sides share nothing but whether the connection is still open. The description allows exactly one history.", "quantifier": "every received byte string, every chunking, every sequence of transport answers, every interleaving of calls, every configuration, verifier, signer and suite", "why_tests_cant": "quantifies over all byte streams, transport behaviours and interleavings of calls of both halves", "anchors": ["src/asynch.rs:57-75", "src/asynch.rs:82-129", "src/asynch.rs:139-278", "src/asynch.rs:379-412", "src/asynch.rs:468-545", "src/write_buffer.rs:22-287", "src/record_reader.rs:32-263"]}
{"id": "C80", "title": "The certificate decoder accepts exactly the DER encodings of certificates within its limits", "statement": "A byte string is decoded to a certificate if and only if it is, octet for octet and with nothing left over, a DER encoding (X.690: shortest lengths, minimal integers and object identifiers, valid times) of that certificate in the structure of RFC 5280 section 4.1, within the library's capacities (seven RDNs of one attribute, twelve extensions). Encodings are unambiguous: one byte string, one certificate, one to-be-signed part; the times are the seconds since 1970 of the civil date encoded.", "quantifier": "every byte string, every certificate, every set of known tags", "why_tests_cant": "exactness of a decoder quantifies over all byte strings and all certificates", "anchors": ["src/der_certificate.rs:18-22", "src/der_certificate.rs:61-72", "src/der_certificate.rs:86-98", "src/der_certificate.rs:112-117", "src/der_certificate.rs:131-191", "src/pki.rs:283-288"]}
{"id": "C81", "title": "The native verifier on concrete certificates", "statement": "If the native verifier accepts a certificate list, every entry is the DER encoding of a certificate within its validity period whose signature over exactly the encoded to-be-signed part of that same certificate verifies under the key encoded in the next entry, the last one under the key encoded in the CA, and the name that matches the host is a dNSName or common name encoded in the first one; conversely such a chain within the library's limits is accepted, by the verifier and by a whole handshake.", "quantifier": "every certificate list, every host, clock, signature implementation, every handshake", "why_tests_cant": "quantifies over all byte strings a server can send as certificates", "anchors": ["src/pki.rs:31-63", "src/pki.rs:107-147", "src/pki.rs:150-172", "src/pki.rs:270-335", "src/der_certificate.rs:193-281"]}
{"id": "C82", "title": "The signature algorithm is the signed one", "statement": "The native verifier accepts a certificate only if the signature algorithm it uses (signatureAlgorithm, not covered by the signature) is the one named in the signed part (RFC 5280 section 4.1.1.2).", "quantifier": "every certificate", "why_tests_cant": "a missing check has no failing unit test", "anchors": ["src/pki.rs:336-463", "src/der_certificate.rs:86-92"]}
{"id": "C83", "title": "Unknown critical extensions are refused", "statement": "The native verifier refuses a certificate with an extension marked critical that it does not process (RFC 5280 section 4.2).", "quantifier": "every certificate, every extension", "why_tests_cant": "a missing check has no failing unit test", "anchors": ["src/pki.rs:290-335", "src/der_certificate.rs:112-117", "src/der_certificate.rs:230-281"]}
{"id": "C84", "title": "Every certificate is decoded", "statement": "Every DER encoding of a certificate of RFC 5280 is decoded, whatever the number of name elements, attributes and extensions.", "quantifier": "every certificate", "why_tests_cant": "the number of elements is unbounded", "anchors": ["src/der_certificate.rs:171-191"]}
{"id": "C85", "title": "Transport failures surface, once and unchanged", "statement": "A call that meets a failed read, write or flush of the transport returns that failure's error kind and asks nothing more of the transport; a read that delivers nothing is returned as IoError; a call that meets no failure never returns either error. This holds for open, close and every reading and writing call, in any state of the connection.", "quantifier": "every state, every behaviour of the transport, every call, every provider that does not itself return transport errors (the crate's do not)", "why_tests_cant": "a failure may occur at any of unboundedly many reads and writes, in any state", "anchors": ["src/record_reader.rs:140-225", "src/connection.rs:325-390", "src/asynch.rs:160-260", "src/asynch.rs:430-440", "src/asynch.rs:520-535"]}
{"id": "C86", "title": "A server may decline the offered pre-shared key", "statement": "A client that offers a pre-shared key with (EC)DHE completes the handshake with a conforming server that does not select the key: then all keys are derived without it; if the server selects it they are derived with it.", "quantifier": "every configuration with a pre-shared key, every server, every ServerHello", "why_tests_cant": "which keys are used depends on the whole ServerHello and on what the server does with it; tests use servers that accept the key", "anchors": ["src/connection.rs:385-420", "src/handshake/client_hello.rs:130-175", "src/handshake/server_hello.rs:25-83"]}
{"id": "C87", "title": "Extensions in answers were asked for", "statement": "Every extension in an accepted ServerHello or EncryptedExtensions is permitted in that message and of a type that the client's ClientHello has offered.", "quantifier": "every server, every list of extensions, every configuration", "why_tests_cant": "the lists of extensions are unbounded; tests use servers that behave", "anchors": ["src/handshake/server_hello.rs:25-83", "src/handshake/encrypted_extensions.rs:1-19", "src/extensions/messages.rs:1-106"]}
{"id": "C88", "title": "The negotiated maximum fragment length is respected", "statement": "After a handshake in which a maximum fragment length was agreed on, no record the client sends has more content than that.", "quantifier": "every configuration, every buffer size, every interleaving of calls, every slice written", "why_tests_cant": "all sizes of buffers and slices and all interleavings", "anchors": ["src/config.rs:368-400", "src/asynch.rs:160-230", "src/write_buffer.rs:1-120"]}
{"id": "C89", "title": "The peer may update its keys", "statement": "A KeyUpdate of the peer changes the receiving keys to the next generation and data the peer sends after it is delivered.", "quantifier": "every place in the stream, every number of updates, every data", "why_tests_cant": "a peer may update its keys at any point of an unbounded stream", "anchors": ["src/handshake/mod.rs:185-241", "src/connection.rs:28-92"]}
{"id": "C90", "title": "A HelloRetryRequest is recognised", "statement": "A HelloRetryRequest is never taken for a ServerHello; it is answered with a second ClientHello or the handshake fails.", "quantifier": "every message with the random of a HelloRetryRequest, every continuation of the stream", "why_tests_cant": "messages and what follows them are unbounded", "anchors": ["src/handshake/server_hello.rs:25-83", "src/connection.rs:415-470"]}
{"id": "C91", "title": "The server signs with a scheme that was offered", "statement": "The scheme of every accepted CertificateVerify is one of those in the client's signature_algorithms and its algorithm is part of the build.", "quantifier": "every configuration, every build, every server, every sequence of handshake messages", "why_tests_cant": "all combinations of offered and used schemes in all builds", "anchors": ["src/pki.rs:150-268", "src/handshake/certificate_verify.rs:1-56", "src/connection.rs:480-600"]}
{"id": "C92", "title": "Every authentic record counts", "statement": "Every record of the peer that authenticates advances the receiving record number by one, whatever it contains, so that what the peer sends next can be read.", "quantifier": "every state of an open connection, every content of an authentic record, every sequence of records after it", "why_tests_cant": "contents and streams are unbounded; the effect shows only in records after the one that causes it", "anchors": ["src/connection.rs:40-92", "src/asynch.rs:280-350", "src/key_schedule.rs:185-200"]}
{"id": "C93", "title": "A key is used with its own algorithm", "statement": "A public key from a certificate is used only with a signature algorithm for the kind of key that the certificate names.", "quantifier": "every certificate, every scheme, every signature", "why_tests_cant": "certificates are unbounded", "anchors": ["src/der_certificate.rs:1-80", "src/pki.rs:150-268"]}
{"id": "C94", "title": "Only verifiable schemes are offered", "statement": "The schemes that a configuration made with the builder offers can be verified by the native verifier of the same build where they may be used.", "quantifier": "every sequence of builder calls, every set of features", "why_tests_cant": "all sequences of calls in all builds; a test runs in one build", "anchors": ["src/config.rs:291-357", "src/pki.rs:150-268", "Cargo.toml:55-66"]}
{"id": "C95", "title": "The shipped suites meet the assumptions", "statement": "Whatever the other theorems assume about a cipher suite (lengths of outputs, decryption inverts encryption, a decrypted text is one tag shorter) holds for TLS_AES_128_GCM_SHA256 and TLS_AES_256_GCM_SHA384 with P-256, with the primitives as published.", "quantifier": "every key, nonce, additional data, text, salt, label and length", "why_tests_cant": "keys and texts are unbounded; test vectors check single points", "anchors": ["src/config.rs:33-63", "src/key_schedule.rs:1-30", "src/connection.rs:21"]}
{"id": "C96", "title": "Reader and writer used at the same time", "statement": "If the two halves of a split connection are driven by two tasks whose steps interleave arbitrarily around the shared open flag, every call behaves as if it happened in one piece at a moment between its beginning and its return: the results and the final state are those of a sequential history of the same calls on the unsplit connection, consistent with each task's order and with real time, and neither half ever waits for the other.", "quantifier": "every connection state, every two lists of calls, every schedule of steps (finished or stopped anywhere)", "why_tests_cant": "the number of interleavings is unbounded and a race shows up only in particular ones", "anchors": ["src/asynch.rs:273-302", "src/asynch.rs:351-412", "src/asynch.rs:415-540", "src/blocking.rs"]}
{"id": "C97", "title": "What is written shows on the wire only through its length and the cipher", "statement": "After a successful open, two histories of calls that differ only in the contents of the slices given to write (same lengths, same flushes, same reading calls, same policy changes), against the same server bytes and the same behaviour of the transport, return the same results and hand the transport records with the same headers and lengths, in the same order, with the same flushes and failures; the same holds for close afterwards. Every other byte handed to the transport is output of the AEAD: with an AEAD that ignores the message apart from its length, everything seen is identical.", "quantifier": "for all ciphersuites with the length laws, configurations, verifiers, server byte streams, transport failures, pairs of call histories of any length and any interleaving of reading and writing calls", "why_tests_cant": "A statement about pairs of runs over all contents: a test compares finitely many contents, and a leak (a stale byte of the reused buffer sent in clear, a content-dependent flush, a header or length taken from data) shows only for particular contents, positions and buffer states.", "anchors": ["src/write_buffer.rs:24-265", "src/asynch.rs:175-272", "src/connection.rs:96-150"]}
{"id": "C98", "title": "Client and server agree on the keys", "statement": "With either cipher suite of the crate: a server that decodes the ClientHello by RFC 8446, takes the secp256r1 key share it finds there, answers with the public key of its own secret and computes the shared secret itself, computes the very secret the client computes from the server's share; after a successful open both directions of the connection use the keys the server derives from it, and a server that builds its whole flight from that secret is a conforming server in the sense of C46, C69 and C70.", "quantifier": "for all client and server secrets (nonzero scalars), both suites, all configurations whose ClientHello fits its length fields, all server flights and transports", "why_tests_cant": "Agreement for all pairs of secrets is the commutativity of scalar multiplication in the group of the curve, including every exceptional case of the formulas; a test tries a few pairs.", "anchors": ["src/handshake/client_hello.rs:34-160", "src/handshake/server_hello.rs:58-75", "src/connection.rs:410-440", "src/config.rs:44-63"]}
{"id": "C99", "title": "What is signed verifies", "statement": "The CertificateVerify the client sends with UnsecureProvider is an ECDSA signature that verifies under the public key of the configured private key over the content RFC 8446 prescribes; conversely a CertificateVerify or certificate signed by anyone with ECDSA on P-256 and SHA-256 (any nonce) under the private key of the leaf or issuer is accepted as signed by the native verifier. Signatures are at most 72 bytes in DER.", "quantifier": "for all private keys, messages, nonces, certificates, configurations and connections", "why_tests_cant": "A test signs a few messages; leading zeros or high bits of r and s, which change the DER form, and exceptional points occur for particular nonces only.", "anchors": ["src/config.rs:206-265", "src/connection.rs:560-620", "src/pki.rs:60-180"]}
{"id": "C100", "title": "Errors of the verifiers name their cause", "statement": "When a verifier of the crate rejects a Certificate or CertificateVerify, the error says what is wrong: InvalidCertificate for a certificate outside its period, a forged one, one that is not X.509 or one for another host; DecodeError for what cannot be decoded; InvalidSignatureScheme for an algorithm not compiled in; ParseError for a malformed certificate signature; OutOfMemory for an otherwise acceptable message that does not fit; InvalidSignature for a forged handshake signature. The defect is that of the entry nearest to the CA that has one: everything between it and the CA is in order. Conversely such a defect is reported by its error.", "quantifier": "for all Certificate and CertificateVerify messages, CAs, hosts, clocks, storage sizes, certificate libraries and feature selections", "why_tests_cant": "A test has a few bad certificates with one defect each; which error wins for combinations of defects at different positions, and that no error is raised for another reason, is a statement about all chains.", "anchors": ["src/pki.rs:107-147", "src/pki.rs:150-268", "src/pki.rs:290-475", "src/webpki.rs:163-187", "src/webpki.rs:190-296"]}
{"id": "C101", "title": "Every accepted key share is a public key", "statement": "The key share of the ServerHello is accepted exactly if it encodes a point of P-256 (uncompressed or compressed). Then it is the public key of some secret, and a successful open leaves the connection with the keys that the owner of this secret derives on its own from the ClientHello: there is no share off the curve, at infinity, or in a small subgroup. The shared secret is the coordinate of a point, and two client secrets give the same shared secret only if their scalars are equal or opposite modulo the group order, whatever share the server sends.", "quantifier": "for all byte strings sent as key share, client secrets, configurations and server behaviours, with the suites of the crate", "why_tests_cant": "A test tries a few bad shares. That every accepted string lies in the group of prime order, and that no share confines the secret, needs the number of points of the curve.", "anchors": ["src/handshake/server_hello.rs:66-80", "src/connection.rs:415-440", "src/extensions/extension_data/key_share.rs"]}
{"id": "C102", "title": "Randomness is drawn afresh and used once", "statement": "A ClientHello takes its random and its ephemeral secret from the provider's generator: the next 32 bytes are the random, and the first following block of 32 bytes that is a private key of P-256 is the secret. These are what is on the wire and what the keys come from. Two calls of open, whatever their outcome, use different bytes of the generator. Every private key comes from exactly one block, so the choice has no bias, and different private keys give different key shares.", "quantifier": "for all generators, configurations, connections, providers and sequences of two opens", "why_tests_cant": "A test sees some ClientHellos that differ; that no byte is used twice and no private key preferred, for any generator output, is a statement about all streams.", "anchors": ["src/handshake/client_hello.rs:41-54", "src/record.rs:93-104", "src/connection.rs:387-410", "src/config.rs:144-145", "src/config.rs:244-246"]}
{"id": "C103", "title": "Finished, binders and signatures tie both sides to one handshake", "statement": "If the client accepts a server's Finished, then the PSK, the shared secret, the ClientHello the server saw, and the ServerHello and flight the server sent are exactly the client's, byte for byte, and the connection has the application keys the server derives from its own values; likewise for a server that accepts the client's Finished, or a binder of the ClientHello. A client's Finished is never a server's. What one side signs is never what the other side signs, and it determines the transcript. Each of these holds unless two different strings out of an explicit list (the strings both sides feed to the hash function on the way) have the same digest.", "quantifier": "for all configurations, server behaviours, byte streams, and all values a server may have computed with, with SHA-256 and SHA-384 as built into HMAC and HKDF", "why_tests_cant": "A test shows that two honest sides agree. That no other transcript, secret or PSK whatsoever could have led to the accepted value is a statement about all of them, and needs the whole key schedule to be injective up to collisions.", "anchors": ["src/key_schedule.rs:47-138", "src/key_schedule.rs:226-330", "src/connection.rs:440-640", "src/handshake/client_hello.rs:100-190"]}
{"id": "C104", "title": "Traffic secrets and keys do not repeat", "statement": "Two traffic secrets (of the client or the server, for the handshake or for application data, of one connection or of two) are equal only if they have the same role, the same PSK, the same shared secret and the same transcript; the same holds for the write keys. In particular the two directions of a connection never share a key, and connections opened with different client randoms share none. Each holds unless two different strings out of an explicit list have digests that agree (for keys: on as many bytes as a key has).", "quantifier": "for all configurations, providers, server behaviours and pairs of connections, with the suites of the crate", "why_tests_cant": "Key reuse across connections or directions does not show in any single run; that it cannot happen is a statement about all pairs of runs.", "anchors": ["src/key_schedule.rs:47-138", "src/key_schedule.rs:226-330", "src/handshake/client_hello.rs:41-54"]}
{"id": "C105", "title": "Dropping an async call", "statement": "Dropping the future of a call while it waits for the transport (a timeout, the losing branch of a select) does not damage the connection: no record is lost, repeated or misread, bytes accepted by earlier calls are still sent, later calls return what they would have returned had the dropped call not been made, and nothing panics.", "quantifier": "for all histories of calls of open, read, write, flush and close, each awaited or dropped at any of its await points, and all behaviours of the transport", "why_tests_cant": "A call can be dropped at every await, and what happens then depends on how the bytes were cut into pieces by the network; a test drops a few calls at a few places.", "anchors": ["src/asynch.rs:95-275", "src/asynch.rs:379-540", "src/record_reader.rs:47-200", "src/connection.rs:167-200", "src/connection.rs:341-380"]}
{"id": "C106", "title": "A truncated stream is not taken for a complete one", "statement": "If a reading call reports that the peer has closed the connection, then the peer has sent close_notify and the application had been given everything the peer sent before it. Cutting the stream, or inserting anything into it, never looks like the peer's orderly end of the data.", "quantifier": "for all transports (any bytes, chunks, errors, ends of stream), all histories of reading calls, all sequences of records of the peer, against an attacker who cannot forge protected records", "why_tests_cant": "A test cuts one stream at a few places; that no cut and no insertion at all is mistaken for an orderly end is about all byte streams and all histories.", "anchors": ["src/common/decrypted_read_handler.rs:36-63", "src/connection.rs:28-94", "src/asynch.rs:212-241", "src/asynch.rs:379-412"]}
{"id": "C107", "title": "Records of the sizes TLS allows are accepted, longer ones refused", "statement": "Every record a conforming peer may send (at most 2^14 + 1 bytes of inner plaintext, RFC 8446 5.2) is delivered, and a record longer than 2^14 + 256 bytes is refused, whatever the size of the read buffer.", "quantifier": "for all suites, record contents, reader states, calls and sizes of the read buffer", "why_tests_cant": "The boundary depends on the size of the buffer, the padding and the expansion of the cipher; tests use one buffer and a few record sizes.", "anchors": ["src/record_reader.rs:24-40", "src/record_reader.rs:108-265", "src/lib.rs:20-40", "src/asynch.rs:44-70"]}
{"id": "C108", "title": "A key is replaced before its usage limit", "statement": "No more records are sent under one key than the limit of the cipher allows (RFC 8446 5.5: 2^24.5 full-size records for AES-GCM); before that the client updates its key or ends the connection.", "quantifier": "for all histories of writing calls on an open connection and all behaviours of the transport", "why_tests_cant": "No test sends 2^24 records, let alone 2^64.", "anchors": ["src/key_schedule.rs:140-225", "src/asynch.rs:95-205", "src/asynch.rs:414-540"]}
{"id": "C109", "title": "Change_cipher_spec records are dropped, and only those", "statement": "An unprotected change_cipher_spec record of the single byte 1 is dropped wherever it arrives between the ClientHello and the server's Finished (RFC 8446 section 5, appendix D.4): the handshake ends as it does without it. One of other content, or a protected one, makes the handshake fail.", "quantifier": "for all byte streams, all numbers and places of such records, all divisions of the stream into chunks, all configurations, providers and suites", "why_tests_cant": "A test puts one such record at one place; middleboxes and servers choose number, place and content.", "anchors": ["src/change_cipher_spec.rs:15-19", "src/connection.rs:320-350", "src/connection.rs:420-495", "src/record.rs:150-230"]}
{"id": "C110", "title": "A fatal alert or error ends the connection", "statement": "After a fatal alert, a record that does not authenticate or a protocol violation by the peer, the connection is closed (RFC 8446 sections 5.2 and 6.2): no application data is accepted from or sent to the peer any more, and the peer is told by an alert unless it sent one.", "quantifier": "for all byte streams, all states of an open connection, all later calls of both halves, all suites", "why_tests_cant": "A test sends one alert and sees an error; whether anything is sent or delivered afterwards depends on every later call.", "anchors": ["src/common/decrypted_read_handler.rs:42-49", "src/asynch.rs:222-241", "src/asynch.rs:391-412", "src/connection.rs:44-50"]}
{"id": "C111", "title": "No record is accepted twice", "statement": "A protected record that was accepted cannot be replayed (RFC 8446 section 5.3, appendix E.2): whatever it contained, sending the same bytes again does not have its effect again, because the nonce has changed.", "quantifier": "for all states of the reading half, all records and their contents, all suites", "why_tests_cant": "Needs every content type and every way the processing of a record can end; a replay needs a recorded ciphertext of each.", "anchors": ["src/connection.rs:39-90", "src/key_schedule.rs:191-193", "src/common/decrypted_read_handler.rs:42-49"]}
{"id": "C112", "title": "The server's messages come in the order of the protocol", "statement": "open succeeds only if the server sent ServerHello, EncryptedExtensions, at most one CertificateRequest, then Certificate and CertificateVerify or (with a PSK) neither, then Finished, each once and nothing after it under the handshake keys (RFC 8446 sections 2 and 4).", "quantifier": "for all byte streams, configurations, providers, verifiers and suites", "why_tests_cant": "The wrong orders are unbounded and each needs a Finished computed over it.", "anchors": ["src/connection.rs:438-515", "src/handshake/mod.rs:185-250"]}
{"id": "C113", "title": "Repeated extensions and wrong fixed values are refused", "statement": "A message from the server with the same extension twice in a block, a ServerHello with a compression method other than 0, a CertificateRequest or server Certificate with a non-empty context during the handshake make the handshake fail (RFC 8446 sections 4.1.3, 4.2, 4.3.2, 4.4.2).", "quantifier": "for all messages, extension lists and surrounding bytes", "why_tests_cant": "Repetitions and values are unbounded; each needs a handshake around it.", "anchors": ["src/extensions/extension_group_macro.rs:67-95", "src/handshake/server_hello.rs:19-60", "src/handshake/certificate_request.rs:13-40", "src/handshake/certificate.rs:30-60"]}
{"id": "C114", "title": "After the ServerHello only protected handshake messages are accepted", "statement": "open fails if the server sends a handshake message after its ServerHello without protecting it under the handshake keys (RFC 8446 sections 2 and 5.2).", "quantifier": "for all acceptable flights of the server, all configurations, providers, verifiers and suites", "why_tests_cant": "Needs every message and flight, with a Finished computed over it, in the clear.", "anchors": ["src/connection.rs:90-92", "src/connection.rs:438-515"]}
{"id": "C115", "title": "The owner of the certificate's key is at the other end", "statement": "If open succeeds with a certificate verifier, then the server at the other end of the connection is the owner of the key in a certificate that leads to the configured CA and names the configured server: the owner took part in a handshake with exactly this client's ClientHello, and the secret from which the application keys are derived is the one that handshake agreed on. Nobody can get in between the two without forging a signature or finding two strings with the same hash.", "quantifier": "for all configurations, providers, certificate authorities, peers that send any bytes at all, all sets of handshakes in which the owner of the key has made signatures, both shipped cipher suites and both verifiers", "why_tests_cant": "It is about everything an attacker in the middle could send or replay, and about every way in which the key's owner may have used the key before; tests fix one server.", "anchors": ["src/connection.rs:438-498", "src/pki.rs:94-148", "src/webpki.rs:150-188", "src/key_schedule.rs:338-365"]}
{"id": "C116", "title": "What the application reads was sent by the owner of the certificate's key", "statement": "If open succeeds with a certificate verifier, then everything that reading calls deliver afterwards is a prefix of what the owner of the key in the server's certificate sent on a connection whose ClientHello was this client's, whatever is done to the bytes on the way. Anything else needs a forged signature, a forged Finished, a forged record, or two strings with the same hash.", "quantifier": "for all configurations, providers, certificate authorities, received bytes and chunkings, all connections the owner of the key has had, all sequences of reading calls, both shipped cipher suites and both verifiers", "why_tests_cant": "It joins the signature, the key exchange, the key schedule, Finished and the record layer against an attacker who controls every byte and may use anything the owner has ever sent; tests run one server without an attacker.", "anchors": ["src/connection.rs:438-498", "src/connection.rs:28-94", "src/key_schedule.rs:338-365", "src/asynch.rs:197-242", "src/pki.rs:94-148"]}
{"id": "C117", "title": "The owner of the certificate's key receives what the application writes", "statement": "If open succeeds with a certificate verifier, then the owner of the key in the server's certificate, with the keys it derives itself, gets from the records as they were sent exactly the bytes the write calls accepted (less those still buffered), in order; whatever is done to the records on the way, as long as it opens them it gets a beginning of those bytes, and if it gets a close_notify it has got all of them. Anything else needs a forged signature, a forged Finished, a forged record, or two strings with the same hash.", "quantifier": "for all configurations, providers, certificate authorities, received bytes and chunkings, all connections the owner of the key has had, all interleavings of calls on the connection followed by close, all lists of records that may arrive instead, both shipped cipher suites and both verifiers", "why_tests_cant": "It joins the signature, the key exchange, the key schedule, Finished and the writing side over every history of calls and every manipulation on the way; tests run one server without an attacker.", "anchors": ["src/connection.rs:438-498", "src/key_schedule.rs:338-388", "src/asynch.rs:139-182", "src/asynch.rs:244-271", "src/write_buffer.rs:159-287"]}
{"id": "C118", "title": "A holder of the pre-shared key is at the other end", "statement": "If open succeeds with a pre-shared key configured, then (unless somebody without that key made the server's Finished, or two strings with the same hash are exhibited) a holder of the same key took part in exactly this handshake: the same ClientHello, ServerHello, shared secret and server messages. If the Finished reached the client as it was sent, both have the same application keys, what the application reads is a prefix of what the holder sent unless a record is forged, and over a working transport with a write buffer below 65652 bytes the holder gets what the application writes. One connection of a holder serves at most one connection of the clients.", "quantifier": "for all configurations with a pre-shared key, all providers and verifiers, received bytes and chunkings, all connections that holders of keys have had, and all calls afterwards", "why_tests_cant": "Tests run one server that has the right key; the claim is about every peer, including those without it, and needs injectivity of the key schedule up to explicit hash collisions.", "anchors": ["src/connection.rs:387-408", "src/connection.rs:479-492", "src/key_schedule.rs:309-388", "src/config.rs:403-407"]}
{"id": "C119", "title": "The client's private key signs only the client's own handshake", "statement": "In one open, successful or not, the client's private key is used for nothing or for one content, the one RFC 8446 prescribes for the CertificateVerify of this handshake: with the client's own ClientHello, after a CertificateRequest and a Finished with the right verify_data arrived and the verifier accepted what the server sent, and after the client's certificate was sent. Nothing is signed without a client certificate, without a request, or for a server that has not proved the handshake keys. The content signed fits no other handshake unless the hash has a collision, and is never one a server signs.", "quantifier": "for all configurations, providers, signers and verifiers, all received bytes, chunkings and transport failures", "why_tests_cant": "That a key is not used as an oracle is a statement about all inputs an attacker may send: the outcome must not depend on any other signature the key could have made.", "anchors": ["src/connection.rs:479-498", "src/connection.rs:501-538", "src/connection.rs:540-598"]}
{"id": "C120", "title": "The blocking and the asynchronous interface do the same", "statement": "A sequence of calls on a blocking connection returns the same results, reads the same bytes from the transport and asks it for the same writes and flushes in the same order as the same calls on an asynchronous connection whose futures are awaited to their end. The reading and writing halves handed out by split return what the methods of the unsplit connection return.", "quantifier": "for all connections, configurations, providers, sequences of calls (open, write, flush, flush policy, read, fill_buf, consume, read_buffered, close), received bytes, chunkings and transport failures", "why_tests_cant": "The crate has four hand-written copies of its connection; tests run each copy on a few scripts, while an application relies on every behaviour of one copy being that of the others.", "anchors": ["src/blocking.rs:57-290", "src/blocking.rs:359-526", "src/asynch.rs:56-271", "src/connection.rs:167-385", "src/record_reader.rs:108-226"]}
{"id": "C121", "title": "write_all and read_exact transfer exactly what was asked", "statement": "On an open connection write_all of a slice ends without a panic; if it succeeds every byte of the slice was accepted, in order and once, and over a working transport it succeeds and all records that became full have been sent. read_exact of n bytes ends; if it succeeds it returns exactly n bytes, the next n bytes of the server's data; an error is the error of the read that failed.", "quantifier": "for all connections after a successful open and any calls of both halves, slices, buffer sizes, received bytes, chunkings and transport failures", "why_tests_cant": "The methods applications call most are loops of the embedded-io traits around write and read; whether they end, and lose or repeat nothing, depends on every value write and read can return in every buffer state, a handful of which the tests reach.", "anchors": ["src/asynch.rs:311-347", "src/asynch.rs:463-530", "src/blocking.rs:301-345", "src/blocking.rs:448-526", "tests/early_data_test.rs:81-85"]}
{"id": "C122", "title": "The end of the stream is reported as the embedded-io traits prescribe", "statement": "After the server has closed the connection and its data has been read, read returns Ok(0) and fill_buf an empty slice, however often they are called, and no data follows.", "quantifier": "for all connections after a successful open and any calls of both halves, and all received bytes", "why_tests_cant": "Generic code over embedded_io::Read loops until Ok(0); whether any state can produce it, and whether anything can follow, is a statement about all states of the reader.", "anchors": ["src/asynch.rs:311-332", "src/asynch.rs:391-412", "src/application_data.rs:1-30", "src/blocking.rs:301-345"]}
{"id": "C123", "title": "Only what the private key has signed is accepted", "statement": "With ECDSA on P-256 every public key the native verifier accepts belongs to exactly one private key, and under it a signature verifies if and only if it is the DER encoding of a signature made with that private key over exactly these bytes, for some nonce: no other encoding, no numbers out of range. So after a successful open every CertificateVerify with ecdsa_secp256r1_sha256 was made with the private key of the leaf over the client's own ClientHello and the messages up to the Certificate, and every certificate with ecdsa-with-SHA256 with the private key of the next certificate or the configured CA. Names are compared only if they are well-formed UTF-8.", "quantifier": "for all keys, messages, byte strings offered as signatures, certificate chains, configurations and connections", "why_tests_cant": "A test offers a few wrong signatures; that nothing else among all byte strings is accepted - malformed DER, zero or oversized numbers, points at infinity - is a statement about all of them.", "anchors": ["src/pki.rs:60-184", "src/pki.rs:320-353"]}
{"id": "C124", "title": "Validity is judged by the clock as it is during the handshake", "statement": "With a clock, every certificate of every Certificate message accepted in a successful open was within its validity period at a time the clock was read during that very open - one reading for each certificate with the native verifier, one for each message with webpki; so if the clock shows times between t0 and t1 meanwhile, no certificate that expired before t0 or becomes valid after t1 is accepted, however the clock moves. The clock makes the native verifier refuse nothing else, and changes nothing else in what a successful open does.", "quantifier": "for all clocks (arbitrary sequences of readings), certificate lists, states of the verifier, servers, configurations and connections", "why_tests_cant": "A test uses one fixed time; that no reading is cached, skipped or applied to another certificate, and that the clock has no further influence on the handshake, concerns all sequences of readings.", "anchors": ["src/pki.rs:107-132", "src/pki.rs:324-331", "src/webpki.rs:163-172", "src/config.rs:129-139"]}
{"id": "C125", "title": "The clock of the crate gives the machine's time, whatever it is set to", "statement": "The clock that comes with the crate (SystemTime) never crashes and gives the machine's time in whole seconds since 1970, rounded down, for every setting of the machine's clock.", "quantifier": "for all times of the machine at each call, all verifiers, certificate lists and states", "why_tests_cant": "Tests run on machines whose clock is right; devices with an unset clock are not among them.", "anchors": ["src/lib.rs:150-164"]}
{"id": "C126", "title": "A certificate is used only for what it was issued for", "statement": "The client accepts a server's certificate only if the certificate was issued for that use: if it has a keyUsage extension, digitalSignature is among the uses; if it has an extKeyUsage extension, serverAuth (or any) is among the purposes; and it has no critical extension the client does not understand (RFC 8446 4.4.2.2, RFC 5280 4.2). Violated: the native verifier looks at no extension but subjectAltName, so the holder of a certificate issued for clients only, whose key may not sign, can run a server for the name in it.", "quantifier": "for all decodable certificates, chains, authorities and clocks", "why_tests_cant": "A test tries certificates that were made for servers; that a verdict cannot depend on any extension but one is a statement about all pairs of certificates that differ elsewhere.", "anchors": ["src/der_certificate.rs:230-281", "src/pki.rs:290-475"]}
{"id": "C127", "title": "A whole session with a TLS 1.3 server", "statement": "For every server that follows RFC 8446 with P-256 and one of the shipped suites - it takes the client's share out of the ClientHello, computes all its keys itself from its own secret and the messages it has seen, may ask for a client certificate, and either knows the pre-shared key or presents a certificate chain that is valid for the requested host and signs with the leaf's private key - a client on a reliable transport with large enough buffers opens the connection; the server, with its own keys, accepts the client's second flight (with the client's certificate and signature where asked for); the client reads exactly the data the server sends, in whatever portions and however reads and writes alternate; and the server decrypts exactly what the client writes.", "quantifier": "for all shipped suites, configurations, client and server secrets and randoms, certificate chains, private keys, ways the transport cuts the stream, record sizes and paddings, and read sizes", "why_tests_cant": "A test runs a few sessions with one peer; that every conforming peer, with every key and every record split, reaches a working session is a statement over all of them, and depends on both sides deriving the same keys by separate computations.", "anchors": ["src/connection.rs:300-620", "src/asynch.rs:90-260", "src/key_schedule.rs:1-330", "src/pki.rs:60-290", "src/handshake/client_hello.rs:60-160"]}
{"id": "C128", "title": "RSA servers and certificates", "statement": "With the feature `rsa` and the key of an RSA key pair, the native verifier accepts exactly the signatures that RFC 8017 lets the owner of the private exponent make: RSASSA-PSS with a salt as long as the digest for rsa_pss_rsae_sha256, -sha384 and -sha512 in CertificateVerify, and RSASSA-PKCS1-v1_5 with SHA-256, SHA-384 or SHA-512 in certificates. Hence a TLS 1.3 server with such a key and a chain that is valid for the requested host gets a whole session as in C127.", "quantifier": "for all two-prime RSA keys up to 4096 bits with public exponent below 2^33, messages, salts and signatures; and for sessions for all shipped suites, configurations, secrets, chains and ways the transport cuts the stream", "why_tests_cant": "The integration test runs one server with one 2048-bit key and one digest; that every signature of every key owner verifies, and that nothing else does, is a statement over all keys, salts and messages.", "anchors": ["src/pki.rs:202-254", "src/pki.rs:385-456", "src/der_certificate.rs:46-59"]}
{"id": "C129", "title": "ECDSA on P-384: servers and certificates", "statement": "With the feature `p384`, the keys that the native verifier accepts for ecdsa_secp384r1_sha384 are exactly the encodings of the public keys of private keys, each belonging to one private key; the signatures it accepts under a key are exactly the DER encodings of what ECDSA with SHA-384 produces with that private key for some nonce. Hence after a successful open every CertificateVerify with that scheme and every certificate with ecdsa-with-SHA384 was signed with the private key concerned, and a TLS 1.3 server with such a key and a chain valid for the requested host gets a whole session as in C127.", "quantifier": "for all private keys, byte strings as keys, messages and signatures; for sessions for all shipped suites, configurations, secrets, chains and ways the transport cuts the stream", "why_tests_cant": "No test of the project uses a P-384 key; that every signature of every key owner verifies and nothing else does is a statement over all keys, nonces and messages.", "anchors": ["src/pki.rs:183-191", "src/pki.rs:352-367", "src/der_certificate.rs:35-39"]}
{"id": "C130", "title": "The verdict of the verifier is the result of open", "statement": "With a TLS 1.3 server that computes everything else correctly, `open` returns exactly what the verifier says of the server's certificates and then of its signature over the handshake up to them: success, the verifier's own error (which is then the only thing besides the ClientHello that reaches the wire, as an alert), or its panic. With the native verifier and certificates valid for the host, `open` succeeds if and only if the CertificateVerify is a signature of the leaf's key by a scheme compiled in; every other case has the error given by a table, and never is the result a success. In particular a server with a valid certificate for a key that is not RSA and that names rsa_pss_rsae_sha256 makes the client panic when the feature `rsa` is on, whatever it sends as signature.", "quantifier": "for all shipped suites, verifiers, configurations, secrets, certificates, signatures, signature schemes and ways the transport cuts the stream", "why_tests_cant": "The tests run against servers that sign correctly. That no certificate and no signature of any server changes the result in another way than the verifier decided needs a statement over all of them.", "anchors": ["src/connection.rs:349-475", "src/pki.rs:106-262", "src/handshake/certificate_verify.rs:45-75"]}
{"id": "C131", "title": "A session that the server ends", "statement": "A TLS 1.3 server completes the handshake, sends records of application data and session tickets, then its close_notify, and after it the transport delivers whatever it likes. Then `open` succeeds, and the reading calls of the application (read, read_buffered with any use of the ReadBuffer, in any order and interleaved with writes) return the data the server sent, in order, complete and without loss at the end; the call that would wait for more after the last byte reports ConnectionClosed exactly once; later ones report MissingHandshake; nothing behind the close_notify is ever returned.", "quantifier": "for all shipped suites, servers (PSK, native or webpki verification), configurations, data, record boundaries, tickets, trailing bytes, transport chunkings and sequences of calls", "why_tests_cant": "A test runs one exchange with one pattern of reads. That no interleaving of calls and no way the stream is cut loses the last bytes before the close or returns something after it is a statement over all of them.", "anchors": ["src/asynch.rs:193-241", "src/common/decrypted_read_handler.rs:20-64", "src/connection.rs:28-94", "src/record_reader.rs:30-110"]}
{"id": "C132", "title": "After the server has closed, the client can still send and its close reaches the server", "statement": "RFC 8446 section 6.1: a close_notify ends one direction only, and both parties send one. After the server's close_notify was read, writes of the application are still accepted and reach the server, and `close` sends a close_notify that the server recognises as such.", "quantifier": "for all lawful suites, configurations, verifiers, servers, connections and sequences of calls before and after the server's close_notify", "why_tests_cant": "The defect is in every connection closed by the peer first, but what a server makes of the last bytes is outside what a test of the client sees; that no sequence of calls avoids it needs a statement over all of them.", "anchors": ["src/asynch.rs:137-160", "src/asynch.rs:243-263", "src/record.rs:106-111", "src/common/decrypted_read_handler.rs:40-50"]}
{"id": "C133", "title": "After the handshake, what the server sends determines everything", "statement": "A TLS 1.3 server completes the handshake correctly and then sends any bytes whatsoever (data, tickets, alerts, KeyUpdate, forged or malformed records, a truncated stream, nothing). Every interleaving of reading and writing calls, and a close after them, has exactly the results and the effects on the transport that a description without buffers gives, which knows only the two application secrets the server itself computes, those bytes, the sizes of the two buffers and the calls; nothing else of the handshake, of the configuration, of the contents of the buffers or of the way the stream is cut has any influence.", "quantifier": "for all shipped suites, servers (PSK, or certificates with the native verifier, or any verifier that accepts), configurations, bytes after the handshake, chunkings and sequences of calls", "why_tests_cant": "That two runs which differ only in chunking, buffer contents or configuration agree on all later behaviour, for every continuation of the stream, is a statement about all of them.", "anchors": ["src/asynch.rs:70-263", "src/common/decrypted_read_handler.rs:20-64", "src/connection.rs:28-94", "src/write_buffer.rs:60-230"]}
{"id": "C134", "title": "Two threads on a blocking connection", "statement": "If the reader and the writer that split of the blocking connection hands out are used in two threads, then however their steps interleave around the shared open flag, every call behaves as if it had happened in one piece at a moment between its beginning and its return: there is an order of the calls, with each thread's in their order, in which a single thread gets the same results and leaves the connection the same. Neither thread waits for the other.", "quantifier": "for all suites, states of the connection, transports, lists of calls of the two threads and schedules", "why_tests_cant": "The number of interleavings is unbounded and a test sees the ones the scheduler happens to choose.", "anchors": ["src/blocking.rs:263-290", "src/blocking.rs:369-402", "src/blocking.rs:485-525"]}
{"id": "C135", "title": "The halves may be interrupted at every operation of the transport", "statement": "Two tasks drive the reader and the writer of a split connection and each may be stopped at any of its operations on the transport (in the middle of a header, between the parts of a record, between the writing of a record and the increment of the counter), while the other goes on. Still every call behaves as if it had happened in one piece at a moment between its beginning and its return: there is an order of the calls in which a single task gets the same results and leaves the connection the same. The same holds if the code between two accesses of the open flag is cut into steps in any other way, and neither half ever waits for the other.", "quantifier": "for all suites, states of the connection, transports, lists of calls, ways to cut the code into steps, and schedules", "why_tests_cant": "The number of interleavings is unbounded and grows with every operation of the transport; a test sees those that its executor chooses.", "anchors": ["src/asynch.rs:297-322", "src/asynch.rs:379-412", "src/asynch.rs:498-540", "src/record_reader.rs:108-265"]}
{"id": "C136", "title": "The connection after its halves", "statement": "A connection may be split, its halves used by two tasks or threads, dropped, and the connection used, split again or closed. However the steps of the two sides interleave in each of these periods, the calls return what they return when one task makes them in a certain order, and the connection is afterwards what it is after those calls. In particular close at the end, on a connection that is still open and over a transport that does not fail, leaves exactly the data accepted from all the writers on the wire, in order and protected, followed by one protected close_notify.", "quantifier": "for all suites, connections, numbers of periods, calls of the halves in each of them, ways to cut the calls into steps, and schedules", "why_tests_cant": "Numbers of periods and interleavings are unbounded; a test tries a few.", "anchors": ["src/asynch.rs:244-302", "src/blocking.rs:236-290", "src/write_buffer.rs:36-50", "src/record_reader.rs:31-48"]}
{"id": "C137", "title": "Dropping one half in the middle of a call leaves the other direction alone", "statement": "The halves of a split connection are used by two tasks. If the future of a reading call is dropped at any point while the writer is between two calls, then what the writer has returned, and all later writing on the connection, is as in a history of calls none of which was dropped; close then still delivers everything the writer accepted, followed by one protected close_notify, if the connection is open and the transport does not fail. If a writing call is dropped while the reader is between two calls, the same holds for what has been and will be read.", "quantifier": "for all suites, connections, lists of calls, points at which a call is dropped, ways to cut the calls into steps, and schedules", "why_tests_cant": "The points at which a future can be dropped, and the interleavings with the other half, are unbounded in number.", "anchors": ["src/asynch.rs:244-302", "src/asynch.rs:379-412", "src/asynch.rs:498-540"]}
{"id": "C138", "title": "The order of memory accesses does not matter", "statement": "The two halves of a split connection share only the open flag. Even if the thread with the writer sees the stores of the other thread late (any value that the coherence of a single atomic allows, as with Relaxed accesses), the two threads come to states, and get results, that some interleaving with immediately visible stores brings: when both have returned from all their calls there is an order of these, each thread's in its order, in which a single thread gets the same results and leaves the connection the same. A writer may only learn late that the connection was closed.", "quantifier": "for all suites, connections, lists of calls, schedules, and choices of the value that each load returns within coherence", "why_tests_cant": "Which stale value a load returns depends on the hardware and the moment; tests run on a strongly ordered machine never see one.", "anchors": ["src/asynch.rs:29", "src/asynch.rs:379-412", "src/asynch.rs:500-521", "src/blocking.rs:29", "src/blocking.rs:369-402", "src/blocking.rs:485-506"]}
{"id": "C139", "title": "What sending costs", "statement": "A call of the writing side gives the transport at most one record and at most one flush, however much data it is passed and whatever the transport answers; close gives it at most two of each. Over a transport that takes everything, a history of calls on an open connection puts on the wire the data it accepted (less what is still collected) plus exactly 22 bytes per record, and makes at most one record per call of flush plus one per full record of data (write buffer less 133 bytes): the library never splits data into more records than that.", "quantifier": "for all suites with outputs of the right lengths, lists of calls, buffer sizes, flush policies, answers of the transport (for the number of uses), states of the writing side", "why_tests_cant": "The bound is over all histories of calls and all sizes; a test measures the traffic of a few.", "anchors": ["src/asynch.rs:139-195", "src/asynch.rs:244-278", "src/asynch.rs:500-545", "src/write_buffer.rs:22-287", "src/flush_policy.rs:1-36"]}
{"id": "C140", "title": "Reading takes no more than it needs and does not wait for more", "statement": "A reading call that delivers data, or that finds that the peer has closed the connection, has taken whole records from the transport and not one byte of the next, and none at all if data was left from before. It returns the same, and leaves the connection in the same state, if after these records the stream ends or goes on in any other way: it never waits for bytes beyond the record with the data, and what follows cannot change what has been delivered. The same holds of open: it ends with the record that holds the server's Finished.", "quantifier": "for all lawful suites, reading calls, states of an open reading side between records, transports without errors in any chunking, and continuations of the stream", "why_tests_cant": "A test fixes what comes after the record and how it is cut into chunks; the claim is about all continuations.", "anchors": ["src/asynch.rs:197-241", "src/asynch.rs:379-412", "src/asynch.rs:468-492", "src/record_reader.rs:108-160", "src/record_reader.rs:179-263", "src/connection.rs:28-94", "src/connection.rs:167-263"]}
{"id": "C141", "title": "A server cannot make open send more than a few records", "statement": "However many records and messages the server sends, and whatever is in them, open sends at most four records if it succeeds (ClientHello, at most Certificate and CertificateVerify, Finished) and at least two; if it fails or panics it has sent at most three. Each record is followed by one flush of the transport, and nothing else is sent.", "quantifier": "for all lawful suites, configurations, providers, byte streams of the server in any chunking, buffers with room for the client's own messages, transports that take everything", "why_tests_cant": "The bound is over all byte streams, in particular endless flights of change_cipher_spec records or requests for certificates.", "anchors": ["src/connection.rs:167-263", "src/connection.rs:299-636", "src/asynch.rs:95-137"]}
{"id": "C142", "title": "A larger read buffer changes nothing but which records are refused as too large", "statement": "Take two connections in the same state that receive the same bytes, in any chunks, the second with a read buffer at least as large. If no reading call on the first fails with InsufficientSpace, any history of reading calls gives the same results on the second (the same bytes seen and taken, the same errors) and leaves it at the same place of the stream. If open on the first does not fail with InsufficientSpace, open on the second ends in the same way; in particular if it succeeds on the first it succeeds on the second, with the same keys and the same bytes left unread. With two read buffers of at least 65535 bytes each, reading calls have the same results without any condition.", "quantifier": "for all lawful suites, configurations, providers, byte streams in any two chunkings, pairs of read buffer sizes, histories of reading calls; write buffers with room for the client's own messages, transports without errors", "why_tests_cant": "It compares two executions over all pairs of buffer sizes and all inputs; where records lie in the buffer, and whether bytes are moved, differs between the two.", "anchors": ["src/record_reader.rs:28-37", "src/record_reader.rs:105-124", "src/record_reader.rs:179-203", "src/record_reader.rs:245-268", "src/asynch.rs:95-137"]}
