# Formal model of embedded-tls: design

Source: `/repo` (drogue-iot/embedded-tls, pinned commit).  Prover: Lean 4.33.0, Mathlib where useful.
Everything lives in `lean/Verif`.  `properties.jsonl` lists the properties, `MANIFEST.json` maps each to theorems,
`seeded/LOG.jsonl` records the mutation tests.

How to read that log.  A line with a non-empty `failed` is an edit after which the named declarations no longer
check; that shows the proof depends on the edited part, and is evidence (not proof) that the claim became false.
Lines with `"generated": true` come from a script that applies small textual edits to the model: their `claim` was
filled in afterwards from the first declaration that failed (the build is stopped there), not written down before.
The other lines are edits chosen by hand with the claim they should break.  `failed: []` means that nothing was
caught: `note` says whether every theorem still proved or the edited model did not compile.  Until 2026-11-17 16:30
UTC only caught edits were logged as they happened; the uncaught ones from before were recovered from the output of
the runs and may be incomplete.

## 1. Modelling conventions

* **Bytes** are `List UInt8`; `usize`/`u16`/... quantities are `Nat`, with the truncations (`as u8`, `as u16`)
  written out where the code has them.
* **Results.** `Res ε α = ok a | err e | panic`.  Stateful Rust functions (`&mut self`) become
  `σ → Res ε α × σ`: the state is returned also with an error, because a Rust `?` leaves the mutations made so far.
  `panic` stands for every Rust panic: slice index out of range, `unwrap` on `None`/`Err`, `unimplemented!`, `todo!`,
  failed `assert!`/`debug_assert!`, and arithmetic overflow/underflow in a build with overflow checks.
  So "does not panic" covers debug builds, and therefore release builds as well (a debug run that does not
  panic performs the same computation in release).
* **Loops** are structural recursions on a fuel computed from the input; running out of fuel is `panic`, so the
  no-panic theorems also prove that the fuel always suffices, i.e. that the Rust loop terminates.
* **Buffers** are modelled as the arrays the code uses (read buffer with `decoded`/`pending`, write buffer with `pos`,
  `CryptoBuffer` with `offset`/`len`), not as ideal queues; in-place decryption overwrites the read buffer.
* **Transport.** Input: a finite list of events, each a chunk of bytes or an I/O error; `read n` returns at most `n`
  bytes of the first chunk; an exhausted list is end of stream.  Every finite behaviour of an `embedded_io` reader is
  of this form.  Output: a log of `write_all`/`flush` calls, with a schedule that makes any call fail, after any number
  of bytes.  An async future dropped at an await point leaves the same state as an I/O error at that point, so the
  failure schedules also cover cancellation; this is proved (`C105_as_failure`) from a model of the futures.
* **Sync and async.** `asynch.rs`/`blocking.rs` and `process`/`process_blocking` are the same modulo
  `.await`; one model function cites both.  `Model/Blocking` transcribes the blocking text anew, and C120 proves that it does
  what that model does, and what the futures of `Model/Future` do when awaited.
* **Cryptography** is a parameter (`Suite`): hash, HKDF extract/expand, HMAC, AEAD, ECDH as arbitrary functions.
  Laws (`Suite.Lawful`: output lengths, decrypt after encrypt gives the plaintext back) are hypotheses of the theorems
  that need them, and a concrete toy suite satisfying them is given so that no theorem is vacuous.
  A streaming hash state is modelled by the list of bytes absorbed.
* **Provider.** RNG output, ephemeral secret, verifier, signer (which may be absent, or fail to sign), and client certificate are parameters; the two
  verifiers of the crate (`pki.rs`, `webpki.rs`) are modelled separately over abstract DER/signature primitives.

## 2. Plan per property

| id | what is modelled | how it is proved |
|----|------------------|------------------|
| C01 | `ParseBuffer`, every `parse` function, `ServerRecord::decode`, coalescing loop | a `Safe` predicate closed under the combinators (in bounds, no panic, monotone position); fuel never runs out |
| C02, C03 | `CryptoBuffer`, `ParseBuffer` | `Appends` denotation of encoders, length-prefix combinators compose |
| C04, C08 | enum tables | case analysis over the enumeration in one direction, over all `Nat` codes in the other |
| C05 | `extension_group!` parse/parse_vector | induction over the extension list |
| C06, C38 | `ClientHello::encode`, extensions, `finalize`, binders | encoder denotation = independent RFC 8446 grammar (`Spec/ClientHello`) |
| C07 | `write_record`, handshake senders | the log is unchanged when the record is not built |
| C09 | handshake header | false: witness; the transcript part that does hold as `_partial` |
| C10, C11, C15, C18 | `WriteBuffer`, `write`, `flush`, `encrypt` | invariant over operation lists; records equal `Spec.tlsCiphertext` |
| C12 | the same plus failing transport | false with failing writes: witness; `_partial` for histories without failed write |
| C13, C14, C16, C17 | the API functions | case analysis; witnesses for the false parts |
| C19, C20, C23 | `RecordReader`, transport, read path; C19 also over `open`, any calls and `close` | refinement to a record-stream spec; a relation between two runs for C19 |
| C21, C26 | the same with adversarial input | invariant: delivered ++ buffered is a prefix of the peer's stream. `no AEAD forgery` is said of the records that the run takes (`Unforged`), or of the bytes received (`Spec.NoForgeryIn`, `C21_stream`); said of all ciphertexts it would contradict that sealed records open (`Suite.Lawful`) |
| C22, C24, C25, C27-C30 | read path | case analysis, invariants, witnesses for false parts |
| C31 | `split` | commutation of reader and writer steps over arbitrary interleavings |
| C32-C46 | `State::process`, `open`, key schedule, handshake messages | step invariants by induction over the loop; symbolic execution for C46 |
| C47, C48 | nonce, HKDF label | arithmetic on big-endian digits |
| C49, C50 | `tls_hostname_match*` | equivalence with a label-based spec |
| C51-C53, C58, C59 | `pki.rs` over an abstract DER and signature library (`PkiLib`) | induction over the chain |
| C53, C57 | `webpki.rs` over an abstract `WebLib` | case analysis |
| C54 | `TlsConfig` | induction over the list of builder calls |
| C60 | `open` with the two verifiers | invariant of the verifier over the server's messages, on top of `open_session` |
| C61, C62 | the two verifiers | case analysis, witnesses |
| C63, C65 | the native verifier without server name, the empty list | case analysis, witness |
| C64 (and C59 for the first three names) | converse of C51: the chain loop and the name extraction succeed on what the specification describes | induction over the chain and over the general names |
| C66 | `open` on a new connection | every step is shown panic-free except at listed places; invariant over the states that the verifier's own calls reach |
| C69 | C46 with the verifier's run computed for a flight with one Certificate and one CertificateVerify | composition of C46, C64 and completeness of the signature check |
| C70 | `NoVerify`, default methods of `CryptoProvider`, `UnsecureProvider` (Model/Provider.lean) over a parameter for `p256` | congruence of `process` in the verifier; instances of C46 without verifier |
| C71 | `client_cert`, `client_cert_verify` with an absent or failing signer | the run of C46 up to the end of the server's flight, then the failing step |
| C72 | `open` as a whole, against a description of byte sequences (`Acceptable`) that does not mention it | the description of a successful run (C13, C46) made two-sided: record sizes, position of Finished, client's answer |
| C73 | every payload parser of the five server extension groups, the extension loop, the message parsers | each parser accepts exactly its grammar (`Sound` gives one direction, `Reads` the other); the first offending extension decides the error |
| C74 | `read_list` with `SignatureScheme::parse`, `NamedGroup::parse` | counterexample; the exact set of accepted lists |
| C75 | payload encoders and the ClientHello extension group | encoders `Appends` the bytes that the parsers `Reads`; conversely `ReadsOnly`: what the parsers accept begins with those bytes |
| C76 | the whole reading path (`Spec/Reader.lean` is the reader: relations, no buffer) | refinement, record by record, then by induction over the loop and the calls; the reader is proved deterministic, so the description is exact |
| C77 | `open` as a whole, against `Spec/Open.lean` (relations on the byte stream; no buffer, chunk or loop) | refinement: record by record, message by message, then the client's answer; the grammar of server messages (`Begins`) is proved unambiguous, so the description is deterministic and exact (`C77_exact`, `C77_success_iff`, `C77_panic_iff`) |
| C78 | the whole writing path and `close` (`Spec/Writer.lean` is the writer: functions, no buffer) | refinement, call by call, for every sequence of transport answers (`C78_writer`, `C78_close`) |
| C79 | everything from `new` to `close` | C76, C77 and C78 put together by induction over the interleaving (`C79_duplex`); the state `open` leaves is the description's `justOpened` (`C79_whole` for any transport, `C79_life` from the first byte); deterministic (`C79_deterministic`) |
| C80, C84 | the decoders derived for `der_certificate.rs`, over a concrete DER reader (Model/Der.lean), against relations between values and encodings (`Spec/X509.lean`, X.690 and RFC 5280) | each decoder `Reads`/`Whole` exactly its relation, composed along the structure; capacities are parameters in the proof, so that unambiguity holds without limits and what exceeds the limits is refused |
| C81-C83 | `pki.rs` with that decoder in place of the abstract one (`PkiLib.withDer`) | C51, C60, C64, C69 transported: the element the code hashes is the encoded to-be-signed part; counterexamples are concrete certificates |
| C67, C68 | `open` on a connection that has been used | witnesses; case analysis for the parts that hold |
| C55 | all decoders of server messages | forward symbolic execution over RFC encoders (`Spec/ServerMessages`) |
| C56 | the same | inversion: every accepting run yields an RFC encoding |
| C85 | the answers the transport has in store (`Rx`, `Tx.ctl`) before and after a call, and the result of the call (`Spec/Transport.lean`) | every function of the model that does not touch the transport returns no transport error (`Proofs/IoErrors.lean`); reads and writes stop at the first failure; the relation composes along sequencing, and along the loop of the handshake |
| C86-C92, C94 | `open` and the reading calls against the rules of RFC 8446 and RFC 6066 about offers and answers (`Spec/Negotiation.lean`) | witnesses are whole connections; what holds or always fails follows from the session (C60, C76, C77 descriptions): a HelloRetryRequest cannot be a session, a KeyUpdate is an unreadable message of the reader, an authentic record that is not dealt with leaves the reader's number |
| C93 | concrete certificates (as C80-C84); every key used in a handshake with the native verifier | witness; partial theorem from C81 |
| C95 | SHA-256/384, HMAC, HKDF, AES-GCM and P-256 defined concretely from the standards | `Suite.Lawful` proved for both suites; published vectors (FIPS 180-4, SP 800-38D, RFC 4231, 6979, 8448) and three recorded connections with OpenSSL 3.0.15 as checks |
| C96 | each call of a half as a tree of local steps, loads and stores of the `AtomicBool`; a schedule interleaves two tasks | sequential run of the trees = the sequential model; simulation with linearization points (writer: its load, reader: the clearing store, otherwise the return); well-founded trees give wait-freedom |
| C97 | two runs of the model of both halves after `open`, differing in the contents of written slices | relation of the two states through the writer of C78 (its proofs need of the suite only `Sized`, the lengths of sealed messages, so they hold for an AEAD that ignores the message); induction over the history, then `close` |
| C98 | the concrete P-256 arithmetic of the suites | the Jacobian formulas of `Spec/P256` represent the group law of Mathlib's Weierstrass curve over `ZMod p` (primality of p and n by Pratt certificates; n G = 0 by computation); scalar multiplication commutes; the server reads the share by the RFC decoder of C06 |
| C99 | ECDSA on P-256, DER of signatures | the verification equation in the group of order n; DER round trip; combined with the session of C24 and the predicates of C64, C69 |
| C100 | `verifyCertEntry`, `verifyChain`, `verifyPkiSignature`, `webVerifyChain`, `webCheckSignature` and the two `TlsVerifier`s | inductive relations between a message, what is wrong with it and an error (`Spec/Complaint`); soundness and completeness by cases along the function, the position in the chain by induction. Not every unreadable name is read (the DNS names after the third are not), hence readability as hypothesis of the converse |
| C101 | SEC 1 decoding of key shares, the order of the curve | `sec1Decode` characterised by the equation of the curve (square roots by powers, p = 3 mod 4); the curve has no point of order two (the cubic has no root: gcd with X^p - X by computation), at most 2p+1 points, and a point of prime order n > (2p+1)/3, so exactly n points; lifted to `open` by the session of C24 |
| C102 | the generator as a stream of bytes, `ClientHello::new` | drawing characterised by positions in the stream (rejection sampling by induction); combined with the session of C24; block and private key correspond one to one (big-endian round trip), public keys by the order of the group (C101) |
| C103 | the session of C24, HMAC and HKDF over a hash function (`Spec/Clash`) | the key schedule is peeled from the outside (HMAC, HKDF-Expand of one block, labels): equal results have equal inputs or exhibit two colliding strings out of an explicit list; no assumption on the hash function is made |
| C104 | the same | the same, for pairs of secrets with different labels; a ClientHello can be told from what follows it, and its random can be read off (C98) |
| C105 | the async functions as futures (synchronous stretches and awaits of the transport), histories of calls awaited or dropped | every future is shown to await to the function of the sequential model (`C105_awaited`), and a dropped one to leave what a failing transport would (`C105_as_failure`), by induction over futures and lists of calls; dropping between records is harmless (induction along `fill`); a dropped write is described completely through the writer of C78; elsewhere refuted |
| C106 | the reading calls over any transport, the peer's fragments, AEAD without forgeries as in C21 | no function but the handler of alerts returns ConnectionClosed (`Proofs/CloseErrors.lean`); then the invariant of C21 up to the call that reports it; partial: an unprotected close_notify counts too (`C106_refuted`) |
| C107 | the record reader with a buffer of any size | acceptance from C20 with the RFC bound on inner plaintexts, refusal from the check against the buffer; partial: neither half holds for all buffer sizes (`C107_refuted_large`, `C107_refuted_small`, both for every suite and state) |
| C108 | the writer of C78 over any transport | counting complete records along any history; partial: the only limit is 2^64 (`C108_refuted`, for every number of records below it) |
| C109 | the description of `open` (C77) on a stream and the same stream with such records put in (`Interspersed`) | induction on the insertion, determinism of the description; protected ones from the session of every successful `open`; partial: `C109_refuted_first` (every stream beginning with such a record), `C109_refuted_value` |
| C110 | histories of calls of both halves (`runAny`) after a reading call that failed | contrapositive of C28 (only `ConnectionClosed` closes), frame of the writing half, induction on later writes; partial: `C110_goes_on` (every other error: still open, nothing sent, writes go out as before), `C110_refuted` |
| C111 | one reading step, from any state | case analysis of `decrypt_record` with the read handler, injectivity of nonces (C47); partial: `C111_refuted_alert` (every alert but close_notify), `C111_refuted` |
| C112 | the session of every successful `open` (C33), the flight of C46 with messages in any order | partial: `C112_any_order` (for every list of such messages there is an accepted flight), `C112_refuted`, `C112_refuted_native` |
| C113 | the extension decoder on a block written twice; handshakes with such messages | partial: false of the code: `C113_repeated` (every block, every message), `C113_refuted` |
| C114 | the exact description of accepted inputs (C72), with the records of a flight replaced by unprotected ones | false of the code: `C114_in_clear` (every acceptable input), `C114_refuted` |
| C115 | C60 (what is signed), C103 (same signed content: same transcript or a hash collision), C29 (a transcript splits uniquely into messages) and C98 (both ends of a key exchange agree) put together; the outcome is a forged signature, a hash collision, or the owner's run. | refuted as stated (no CertificateVerify needed, C34), partial for servers that send one |
| C116 | C115 for the peer, C103 for the Finished (one last Finished, `lastFinished_unique`), C21_stream for the data, all with the owner's own keys | composition; partial as C115: CertificateVerify may be missing (`C115_refuted`) |
| C117 | C116 for the peer and its keys, C10 and C16 for whole connections, and a receiver by RFC 8446 section 5.2 with the owner's keys (`HearsApp`) | composition; partial as C115, C11, C12 and C16 |
| C118 | the connections of holders of keys as servers see them (`HolderLife`: key, ClientHello, ServerHello, shared secret, messages, fragments) | C103 for the last Finished, then C21 and C117 with the holder's keys; C104's argument for at most one client |
| C119 | the signer as an arbitrary function in the provider (`Provider.signer`); signing leaves no other trace | noninterference: two signers that agree on one content give the same `open`; an invariant of the steps (`SignAt`) says what has happened before the signature |
| C120 | `Model/Blocking`: `blocking.rs` and the `_blocking` functions of `record_reader.rs` and `connection.rs` transcribed anew, the methods of the connection and of the halves apart | each method proved equal to its counterpart (loops by induction, the copied open flag by `NeverOpens`), then histories by induction; the futures by C105 |
| C121 | `Model/EmbeddedIo`: the default methods `write_all` and `read_exact` of the `embedded-io` traits over `Conn.write` and `Conn.read` | induction on the bytes left: `write` takes at least one byte (`C13`), `read` returns at least one (`C22`); closed form of the records sent; `C20_whole` and `C21_stream` for the data |
| C122 | `Model/EmbeddedIo`, `Model/Conn` | `C122_never`: no call ever returns `Ok(0)` or an empty slice (refutes it in every state); `C122_final_partial`: the end is final, and reported as errors |
| C123 | the libraries' ECDSA, DER and SEC 1 decoding on P-256 | the DER decoder accepts one encoding per pair; the verification equation solved for the nonce in the group of prime order; combined with the session of `C64` |
| C124 | `Model/Clock`: a clock as the sequence of its answers, both verifiers asking it where the code does | simulation of `open` over verifiers that answer alike (`Proofs/VerifierSim`); a still clock gives the model of `Model/Pki`; induction over the chain and over the verifier's run |
| C125 | `systemClock` in `Model/Clock` | arithmetic; the verifiers with it |
| C126 | `Model/Pki` with the concrete libraries; a certificate made with OpenSSL and a flight recorded from an OpenSSL server | `C126_refuted`: verifier and handshake evaluated on them; `C126_partial`: the verifier is the same function whatever rewrites issuer and other extensions of the decoded certificates |
| C127 | `Spec/Textbook`: a server written from RFC 8446 alone, with its own key schedule; the client is `Conn.new`, `Conn.open_`, reads and writes | `C127_psk` (no verifier, with or without pre-shared key), `C127_certificate`, `C127_der` (native verifier, concrete ECDSA on P-256), `C127_webpki` (webpki verifier), `C127_client_auth` (the server asks, the client signs): from C98, C117, C46 and the agreement of the two Diffie-Hellman computations |
| C128 | `Model/Rsa`: RSASSA-PSS-VERIFY and RSASSA-PKCS1-V1_5-VERIFY, SHA-512 and RSAPublicKey; `Spec/Rsa`: key pairs and the signing operations | `C128_signatures` (exactly these, from Fermat's theorem for both primes and the encodings), `C128_server`, `C128_certificate`, `C128_session`; examples with a 2048-bit key whose primes are proved prime, a certificate and signatures from OpenSSL |
| C129 | `Spec/P384`: the curve, SEC 1 and ECDSA with SHA-384; `Model/P384`: `PkiLib.withP384` | `Proofs/P384*`: p and n prime (Pratt certificates), the formulas are the group law, the group has order n, encodings; then `C129_key`, `C129_signature`, `C129_encoding`, `C129_server`, `C129_certificate`, `C129_every`, `C129_open`, `C129_session`; examples with a certificate and signatures from OpenSSL |
| C130 | `Conn.open_` with any verifier and a `Spec.Textbook` server | the run of the handshake up to the CertificateVerify is computed from C77's exact description: `C130_verdict`; for the native verifier the table `Spec.SignatureVerdict`: `C130_native`, `C130_owner`, `C130_panic`, `C130_panic_ed25519`; with the tables of C100: `C130_complaint`, `C130_webpki` (exact); examples: one server makes a client with `rsa` panic, one that cannot sign is refused |
| C131 | `Spec.Ends` (relation between the data sent, the calls and their results) and `Spec.Session131` | the handshake by C127's `textbook_opens` with arbitrary bytes after it; then an invariant (`Nearing`) of the reader: what is buffered plus what is left on the stream is the data not yet returned; induction over the calls (`reads_end`); `C131_session`, `C131_psk`, `C131_native`, `C131_webpki`; `Spec.Ends.complete`: reads until the closing report return all the data |
| C132 | `Spec.NotClosed` (what a receiver by RFC 8446 5.2 has of the records sent) | false: `C132_never` (every connection, every further sequence of calls: writes refused, no close_notify ever received, not even after deletions or injections of foreign records by the network); what holds: `C132_close_partial`, the data accepted before still arrives complete and in order |
| C133 | `Spec.Textbook.setting` (keys the server computes), `Spec.Uses` of C79 started at `Spec.justOpened` | `textbook_opens` gives the state after `open`, `open_are` puts it into the relation of C79, `used_of` does the rest: `C133_session`, `C133_psk`, `C133_native`; examples with any bytes after the handshake; determinism of the description is `C79_deterministic`; `C133_webpki`; `C133_blocking` for the methods of `blocking.rs` (through C120); `C133_same` and `C133_chunks`: two connections that differ in chunking, contents of the buffers and earlier log behave alike; `C133_tasks`, `C133_threads`: the halves driven by two tasks or threads (with C96, C134) |
| C134 | `Model/Threads.lean`: the calls of `blocking.rs` as sequences of steps, loads and stores of the flag (steps as coarse as in C96) | the programs are those of C96 step by step (`Reader.prog_eq`, `Writer.prog_eq`), one thread alone is `Blk.halves` (C120): `C134_linearizable`, `C134_wait_free`, `C134_history`; examples with a closure alert handled in the middle of a `write` |
| C135 | `Cut` (two programs make the same accesses of the flag, in the same local state, with any local steps between them); `Fine.reader`, `Fine.writer`: the calls with one step for each operation of the transport | a run with cut programs is simulated by one with the programs of C96 (`Cut.sim_sys`), the longer the schedule the longer the simulating one: `C135_linearizable`, `C135_wait_free`, `C135_history`; the programs of the code are such cuts (`Fine.reader_cut`, `Fine.writer_cut`): `C135_transport`; the blocking halves: `C135_threads`; with C133: `C135_session` |
| C136 | `Sys.join` puts the halves back (the writer's flush policy is a copy), `Rounds`: any number of periods | `C135_history` for each period, the calls keep the policy and the shared secrets (`runAny_keeps`), induction: `C136_rejoin`; with C16 for whole connections: `C136_close`; example with two periods after a handshake |
| C137 | a schedule of C135 that ends while one half is inside a call; `Sys.join` of C136 drops both halves | from `C135_linearizable` for the half that is between two calls; reading and writing calls depend on their half only: `C137_reader_dropped`, `C137_writer_dropped`, `C137_close`; what the dropped call does to its own direction is C105 |
| C138 | `Model/Memory.lean`: the writer has a list of the values of the flag that it may still see; every step of it may catch up by any amount | only the reader stores (`Fine.writer_noStore`), so a run is simulated by one with immediate stores in which the reader lags behind (`Weak.Lag`): `C138_sequential`; with C136 `C138_history`, with C133 `C138_session`; example in which a `write` succeeds after the reader has returned the closure |
| C139 | on the writer of `Spec/Writer.lean`, which the code is (C78): at most two uses per call (`writeCall_uses`); each call conserves data (`Costs`) | `C139_calls`, `C139_close`, `C139_overhead` by induction over the history |
| C140 | on the reader of `Spec/Reader.lean`, which the code is (C76): every step is independent of what follows its record (`next_local`, `fill_local`, `call_local`) | `C140_prompt` with the uniqueness of the reader's steps; `C140_whole` after `open` and any reading calls; `C140_open` for `open` from C77 (`opens_local`) |
| C141 | on the description of the handshake in `Spec/Open.lean`, which `open` is (C77): `opens_count` by cases, `replies_count` | `C141_open` |
| C142 | on the descriptions of the reader (C76) and of the handshake (C77), both of which are exact: `calls_larger` and `opens_larger` by induction on the description | `C142_reads`, `C142_full`, `C142_open`, `C142_opens` |

Properties that the code violates are kept at full strength in `properties.jsonl`; the Lean development then contains
a refutation (a concrete run of the model that violates it) and a theorem with suffix `_partial` for the part that holds.

## 3. Where things are

| model | code | specification it is compared with |
|-------|------|------------------------------------|
| `Model/ParseBuffer`, `CryptoBuffer`, `Codec`, `Extensions`, `Unpad` | `parse_buffer.rs`, `buffer.rs`, `extensions/`, `handshake/*.rs`, `connection.rs:52-67` | `Spec/CodePoints`, `ServerMessages`, `ClientMessages` |
| `Model/Suite`, `KeySchedule` | `key_schedule.rs`, `cipher_suites.rs` | `Spec/KeySchedule` (RFC 8446 section 7.1) |
| `Model/Record`, `RecordReader`, `Conn`, `ReadBuffer` | `record.rs`, `record_reader.rs`, `write_buffer.rs`, `read_buffer.rs`, `common/`, `asynch.rs`, `blocking.rs` | `Spec/Record`, `Spec/Stream` |
| `Model/Handshake` | `handshake/`, `connection.rs`, `config.rs` (provider traits) | `Spec/Handshake` (a session read off the wire), `Spec/Server` (a conforming server), `Spec/Textbook` (one that computes all its keys itself) |
| `Model/Hostname`, `Pki`, `Webpki` | `pki.rs`, `der_certificate.rs`, `webpki.rs` | `Spec/Hostname`, `Spec/Pki` |
| `Model/Clock` | `TlsClock`, `NoClock` (`config.rs`), `SystemTime` (`lib.rs`), the verifiers with a moving clock | `Spec/Pki` (`ValidAt`), `ValidWhenRead` |
| `Model/Der` | the derived decoders of `der_certificate.rs` | `Spec/X509` (X.690, RFC 5280) |
| `Model/ConfigBuilder` | `config.rs` | the statement itself |
| `Model/P384` | `pki.rs:183-191,352-367`: the crate `p384` (feature `p384`), from FIPS 186-4 and SEC 1 | `Spec/P384` |
| `Model/Rsa` | `pki.rs:202-254,385-456`: the crate `rsa` (feature `rsa`), from RFC 8017 | `Spec/Rsa` |
| `Model/Suites`, `Libs` | the primitives named in `config.rs:33-63`, `pki.rs`, `config.rs:206-265` | `Spec/Sha2`, `Gcm`, `P256` (FIPS 180-4, FIPS 197, SP 800-38D, FIPS 186-4, RFC 2104, 5869, 6979) |
| `Model/Rng` | `ClientHello::new`, `CryptoProvider::rng` (`EphemeralSecret::random` of `p256` as rejection sampling of 32-byte blocks) | `Draws` in `Props/Rng` |
| `Model/ErrorKind` | `lib.rs:131-140` | `Surfaced` in `Spec/Transport` |
| `Model/Concurrent` | `asynch.rs:273-302`, `351-540` (`TlsReader`, `TlsWriter` on two tasks) | the sequential model |
| `Model/Threads` | `blocking.rs:263-290`, `369-402`, `453-525` (`TlsReader`, `TlsWriter` in two threads) | `Model/Blocking` |
| `Model/FineGrain` | `asynch.rs:379-412`, `498-540`, `record_reader.rs:108-265`, one step for each operation of the transport | `write_all` is one operation |
| `Model/Memory` | the accesses of the `AtomicBool` in `asynch.rs` and `blocking.rs`, in any coherent memory | only the writer sees stores late (it is the reader that stores) |
| `Model/Blocking` | `blocking.rs`, the `_blocking` functions of `record_reader.rs` and `connection.rs` | the sequential model, `Model/Future` |
| `Model/EmbeddedIo` | the default methods `write_all` and `read_exact` of `embedded-io` 0.7 (crate source, not in the repository) over `asynch.rs:311-347`, `463-530` | `Model/Conn` |
| `Model/Future` | every `async fn` of `asynch.rs`, `record_reader.rs` and `connection.rs`, with its await points | the sequential model |

How the main groups are proved:

* **Record layer** (`Props/WritePath`, `ReadPath`, `ReadSafety`, `Close`, `Split`, `Honest`): invariants over arbitrary
  lists of API calls over an arbitrary transport, refined to a byte-stream specification.
* **Handshake** (`Proofs/HandshakeRun`, `HandshakeOpen`, `Session`): every successful `open` is inverted step by step into a
  `Session`, i.e. records on the wire, decrypted with keys of `Spec/KeySchedule`, decoded as RFC messages (by C56).
  Statements about authentication, transcript, Finished and keys are about that session, not about model variables.
* **Forward direction** (`Proofs/HandshakeFwd`, `HandshakeComplete`, `ServerFlight`): for every flight of a conforming server
  `open` is executed symbolically and shown to succeed (C46).
* **Failing handshakes** (`Proofs/HandshakeInv`, `HandshakeFail`, `Props/Termination`): relations preserved by every step,
  whether it succeeds or not (`Moves`, `StepRel`), give termination, transcript, protection and alerts for all runs.
* **Whole connections** (`Props/AfterOpen`, `WholeLife`): the hypotheses of the record-layer theorems are shown to hold after
  the constructor and `open`, so that those theorems apply to every connection a program can have; the counterexamples are
  repeated on connections obtained that way.
* **Whole sessions** (`Props/Textbook`, `Ending`, `HalfClose`, `AnyServer`, `AnyServer2`, `DerSession`, `Verdict`): a server that computes all its
  keys itself (`Spec/Textbook`), put together with the client from the constructor to `close`.
* **Both ends** (`Props/SameHandshake`, `KeyOwner`, `Forgery`, `OwnerData`, `OwnerHears`, `PskHolder`, `SignOnce`): who is at the
  other end.  Cryptographic assumptions appear as alternatives in the conclusion: a collision of the hash that is exhibited
  (`Clash`), a signature or Finished nobody made, a record that opens although nobody sealed it (`NoForgeryIn`).

## 4. Findings

Properties that are false of the code, each with a machine-checked counterexample:

| id | what happens |
|----|--------------|
| C09 | the 24-bit length of a handshake message is read and ignored |
| C12 | after a failed or cancelled write the next record reuses the nonce for other data |
| C16 | after the peer's close_notify the client closes with a plaintext record of content type 20 |
| C17 | after a failed `open` with a small write buffer, `flush`/`close` can panic |
| C18 | with write buffers above 16517 bytes records exceed 2^14; from 65652 bytes the length field wraps |
| C24, C25 | an I/O error inside a record leaves the reader in a state from which it can panic or lose the stream |
| C27, C30 | a record with an empty inner plaintext panics (index underflow) |
| C29 | an unauthenticated close_notify closes; an unauthenticated handshake record panics |
| C34 | a server Finished is accepted although no Certificate or CertificateVerify was sent; so anybody can answer any client without PSK and share its application keys (`C34_anyone`, for the crate's suites with the real primitives and any verifier) |
| C36 | bytes after the first message of an unprotected record are neither processed nor hashed |
| C39 | a CertificateRequest coalesced after Finished is accepted but no client Certificate is sent |
| C40, C44 | alerts after ServerHello are sent in the clear, with content type 20; none for a refused ServerHello |
| C41 | version, suite, session id and group of the ServerHello are not compared with the offer |
| C43 | an alert after ServerHello is not reported as such: in the clear or protected, whatever was accepted before, `open` returns `InvalidRecord` (`C43_later`) |
| C46 | messages split over records and unknown supported_groups entries are refused |
| C50 | the common name of the leaf is compared although it has DNS names |
| C53 | `verify_signature` without certificate panics (a server can cause it: CertificateVerify without Certificate, or a second one); the webpki verifier cannot verify with SHA-384 suites |
| C54 | repeated `enable_rsa_signatures`, or `with_psk` with five identities, panics |
| C58 | any certificate can act as issuer: neither basicConstraints nor issuer names are looked at; shown also with certificates and a server of OpenSSL (`C58_refuted_open`: the holder of a certificate for `attacker.test` is accepted as `example.com`) |
| C59 | DNS names after the third are ignored |
| C61 | a certificate marked as Ed25519-signed, under a CA key that does not have 32 bytes, panics before authentication |
| C62 | the webpki verifier ignores all certificates but the first |
| C63 | without a server name the native verifier accepts an empty certificate list |
| C65 | without a server name a leaf with a common name is accepted if that name is not UTF-8 (a name read earlier in the subject is then forgotten) or is not the first attribute of its element |
| C66 | `open` panics at a protected record with an empty inner plaintext, a CertificateVerify out of place, an Ed25519 or RSA key mismatch, a raw public key as client certificate, a signer whose `try_sign` fails or a client signature above 104 bytes (512 with `rsa`); these are all the cases |
| C67 | `open` cannot be retried: early secret and transcript of the failed attempt stay in the key schedule |
| C68 | a failed `open` on an open connection leaves it open; unread data may by then be overwritten by bytes of an unauthenticated record, which `read` then delivers |
| C74 | one unknown value (for example a GREASE value of RFC 8701) in the signature_algorithms of a CertificateRequest or the supported_groups of EncryptedExtensions makes the handshake fail with DecodeError |
| C75 | ALPN names are not read back, and the ClientHello pre_shared_key parser panics (neither is reachable in a client) |
| C76 | the reader of the specification shows what the code does with bad records: after an unauthenticated record of any kind (forged, change_cipher_spec, plaintext alert or handshake) reading goes on, an unprotected session ticket is accepted, and an oversized record is skipped by its header only, so that its body is read as records |
| C77 | the description lists what a server can have the client accept or answer oddly: an unprotected handshake message after ServerHello counts like a protected one, a change_cipher_spec record of any content is passed over at any point, a plaintext alert after ServerHello is reported as InvalidRecord, a record after which the counter would overflow panics |
| C78 | the writer of the specification shows what the code does at the edges: writing an empty slice begins a record, so that the next flush sends a record without content; a write or flush that fails loses the bytes collected by earlier successful writes, and the next record has the number of the lost one (see C12) |
| C82 | the algorithm used for a certificate's signature is not compared with the one in its signed part |
| C83 | critical extensions are not looked at: name constraints, key usage or unknown restrictions have no effect |
| C84 | a name with an element of two attributes or with more than seven elements, or a certificate with more than twelve extensions, is refused as undecodable |
| C86 | with a pre-shared key configured, the keys are always derived from it: a server that declines the key is refused, one that uses it without selecting it is accepted |
| C87 | extensions nobody asked for are accepted: a selected identity without an offered key, an application protocol, a fragment length |
| C88 | the negotiated maximum fragment length has no effect on what is sent; only the size of the write buffer limits it (documented in `config.rs:377-378`) |
| C89 | a KeyUpdate is an error and the data after it is lost |
| C90 | no HelloRetryRequest is answered; the random that marks one is not looked at |
| C91 | the scheme of CertificateVerify is not compared with the ones offered |
| C92 | an authentic record that causes an error (a warning alert, a KeyUpdate, an unreadable ticket) does not advance the record number; nothing the peer sends after it can be read, not even close_notify |
| C93 | the algorithm of a certificate's key is not looked at |
| C94 | P-384 and Ed25519 are offered in every build, RSA in every build with `alloc`, also where they cannot be verified |
| C105 | a read dropped in the middle of a record loses the record and the place in the stream: the rest of the record is taken for headers, and bytes of anyone on the network can then make the next read panic; a flush dropped while the transport waits loses what `write` had accepted, and the next record reuses the nonce of the one that may have been sent |
| C106 | anyone on the path can end the stream: seven unprotected bytes (`15 03 03 00 02 01 00`) between two records are reported as the peer's close, though the peer sent more data |
| C107 | with the 16384-byte read buffer of the documentation's example (`lib.rs:27`) a conforming server's full-size record is refused (`InsufficientSpace`); with a buffer larger than 16640 bytes records longer than TLS allows are accepted instead of a record_overflow alert |
| C108 | the client never updates its sending key and has no limit on records per key other than the 64-bit counter |
| C109 | a change_cipher_spec record before the ServerHello makes `open` fail (`InvalidRecord`); after it, one of any content is dropped (`change_cipher_spec.rs:15`: the content is not looked at) |
| C110 | only close_notify closes a connection: after a fatal alert (`InternalError`) or a forged record (`CryptoError`) it stays open, no alert is sent, later writes are sent and later records are delivered (`decrypted_read_handler.rs:42-49`) |
| C111 | a protected alert other than close_notify can be replayed (see C92: it is not counted, `connection.rs:70-88`): the same record is accepted and reported again, as often as an attacker sends it |
| C112 | the order and number of the server's messages is not checked: a flight without EncryptedExtensions, with several, with CertificateRequest after Certificate, or with messages after Finished is accepted (`connection.rs:438-515`) |
| C113 | repeated extensions are accepted in every message (up to the capacity of the list), and so are compression methods other than 0 and non-empty certificate_request_contexts |
| C114 | unprotected EncryptedExtensions, Certificate, CertificateVerify and Finished messages are accepted after the ServerHello (`connection.rs:90-92`) |
| C115 | A server that presents the genuine certificates, which are public, and no CertificateVerify is accepted (`C115_refuted`): it needs no key at all. Same cause as C34. |
| C122 | the end of the stream is never `Ok(0)`: the first read after `close_notify` fails with `ConnectionClosed`, later ones with `MissingHandshake`, so generic read-to-end code always fails (`C122_never`, `C122_refuted`) |
| C125 | the clock for `SystemTime` unwraps `duration_since`: on a machine set to a time before 1970 the first certificate received crashes the client |
| C126 | `pki.rs:290-475` reads no extension but subjectAltName: keyUsage, extKeyUsage and unknown critical extensions are ignored; a certificate for clients only is accepted for a server (`C126_refuted`, recorded with OpenSSL, which refuses it) |
| C130 | `pki.rs:196` and `pki.rs:212` unwrap the parsing of the leaf's key: with the feature `ed25519` or `rsa`, a server with a valid ECDSA certificate that names ed25519 or rsa_pss_rsae_sha256 in its CertificateVerify crashes the client (`C130_panic`, `C130_panic_ed25519`) |
| C132 | after the peer's close_notify `asynch.rs:244-263` and `record.rs:106-111` have no half-closed state: writes are refused, and `close` sends its alert as a plaintext record of content type 20 (change_cipher_spec), which is no record of the connection; the peer never gets a close_notify, in every connection that the peer closes first (`C132_never`) |

## 5. Trusted base

* The Lean 4 kernel and the axioms `propext`, `Classical.choice`, `Quot.sound` (no others; checked by `vcheck`).
* The hand translation from Rust to the model (each definition cites file and lines).
* External crates, not modelled: `aes-gcm`, `sha2`, `hkdf`, `hmac`, `p256` (parameters), `heapless` (capacity checks
  written out), `embedded-io` traits (transport; the default methods `write_all` and `read_exact` are transcribed in `Model/EmbeddedIo`
  from the crate), `der`/`const-oid`/`webpki` (parameters of the PKI model),
  `digest` streaming (a hash state is the bytes absorbed).
* Parameters of the PKI model: `PkiLib` (decoding of a certificate, DER headers, UTF-8 check, key and signature formats,
  signature verification) with the single law that a DER header is not empty, and `WebLib` (trust anchor, end-entity
  certificate, chain, name and signature checks of `webpki`) without laws.  In `Model/Pki` and `Model/Webpki` the clock is one
  value; `Model/Clock` has the clock asked where the code asks it, and C124 connects the two.  Of `SystemTime` only its
  nanoseconds relative to 1970 are modelled (any sequence of them).
* The concrete decoder of certificates (`Model/Der`, used for C80-C84) stands for the crates `der` 0.8 and `const-oid`, whose
  source is not in the repository; it is written from X.690 and these assumptions: tags have one octet and the set of tags
  the crate knows is a parameter; lengths have at most four octets; object identifiers have at most 39 octets, arcs below
  2^32 and a second arc below 40; the unused bits of a bit string are not looked at; optional fields are recognised by the
  next tag, unknown context-specific fields are not skipped; dates begin with 1970, two-digit years from 50 are 19xx; a set or
  sequence with more elements than its capacity is an error.  The theorems over `PkiLib` (C51 and others) do not depend on it.
* `Model/Suites` and `Model/Libs` instantiate the parameters with the published algorithms (`Spec/Sha2`, `Spec/Gcm`, `Spec/P256`,
  ECDSA on P-256 with RFC 6979 nonces, UTF-8).  That the crates `sha2`, `aes-gcm`, `p256` implement them is assumed, as is that
  `PublicKey::from_sec1_bytes` accepts uncompressed and compressed points (the compact form is left out).  The group law of the
  curve (C98, C99, C101) is Mathlib's for Weierstrass curves; the constants of the curve are those of FIPS 186-4.  Points are
  decoded in the uncompressed and compressed forms of SEC 1; the `compact` form (tag 5) that the `sec1` crate may also take is not
  modelled.
* `Model/Rsa` stands for the crate `rsa` 0.9, whose source is not in the repository: RSASSA-PSS with a salt as long as the digest and
  RSASSA-PKCS1-v1_5 with DigestInfo, as RFC 8017 has them; public keys with an odd modulus of at most 4096 bits and an odd exponent
  from 2 to 2^33 - 1; every byte string counts as a decoded signature.  The kernel checks it against signatures and a certificate
  made by OpenSSL (`Props/Rsa`).
* `Model/P384` stands for the crate `p384` 0.13 in the same way as `Spec/P256` for `p256` (uncompressed and compressed points, DER
  signatures with both numbers in range, no further condition on `s`).  Checked against a certificate and a signature made by
  OpenSSL (`Props/P384`).  Ed25519 stays a parameter.
* `Props/OpenSsl` validates the translation: the model with these instances, run as a client, completed three connections with
  OpenSSL 3.0.15 (certificate checked by the native verifier; client certificate with AES-256 and SHA-384; pre-shared key).  The
  server's bytes are recorded and the kernel recomputes that the model sends the recorded answers.
* `Model/Future` assumes of the transport that a `read` which is dropped while it waits has taken no byte; a `write_all` that is
  dropped has sent some prefix.  No local of the async functions has a `Drop` that touches the connection.
* Not modelled: logging, `defmt`/`Debug` impls, feature gates other than as parameters, zeroisation, timing.
