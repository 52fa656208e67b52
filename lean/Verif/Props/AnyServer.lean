import Verif.Props.Textbook
import Verif.Props.Duplex

/-! # C133: after the handshake, whatever the server does -/

namespace ETls

open Spec Crypto

variable {V : Type} {S : Suite}

namespace Spec

/-- The keys by RFC 8446 of a session with this server, and the sizes of the buffers. -/
def Textbook.setting (t : Textbook) (S : Suite) (hello : Bytes) (readBuffer writeBuffer : Nat) : Setting where
  readKey := writeKey S (t.serverSecret S hello)
  readIv := writeIv S (t.serverSecret S hello)
  writeKey := writeKey S (t.clientSecret S hello)
  writeIv := writeIv S (t.clientSecret S hello)
  cap := readBuffer
  limit := writeBuffer - 133

end Spec

/-- **C133** A server of TLS 1.3 as in C127, and a client whose verifier (if any) accepts its flight; after the handshake the transport
delivers any bytes `rest` whatsoever, and takes what is sent.  Then `open` succeeds, and every interleaving of reading and writing
calls and a `close` after them have exactly the results and effects on the transport that the description of C79 gives, which knows
only the two secrets that the server computes, the bytes `rest`, the sizes of the two buffers and the calls. -/
theorem C133_session (hs : Shipped S) (cfg : Config) (p : Provider V) (v : V) (t : Textbook) (ht : t.Sized)
    (hpsk : t.psk = cfg.psk.map (·.1)) (hfit : HelloFits S cfg p) (ha : scalarOf p.secret ≠ 0) (hb : scalarOf t.secret ≠ 0)
    (hhost : ∀ ops name, p.verifier = some ops → cfg.serverName = some name → ∃ v', ops.setHostname name v = (.ok (), v'))
    (hver : ∀ ops, p.verifier = some ops → ∃ v', verifierRun ops ((t.flight S (helloMsg S cfg p)).tr0 (helloMsg S cfg p))
      (withBytes (t.flight S (helloMsg S cfg p)).msgs) (hostVst cfg p v) = (.ok (), v'))
    {ms : List Bytes} (hms : clientReply S p (t.transcript S (helloMsg S cfg p)) (if t.request then some [] else none) = some ms)
    (hsig : t.request = true → p.clientCert ≠ none → ∀ sign scheme, p.signer = .ok (sign, scheme) → ∀ m sig, sign m = some sig → sig.length ≤ signatureSize S)
    {rx : Rx} {tx : Tx} {rb wb : Bytes} {c : Conn} (hn : Conn.new S rx tx rb wb = .ok c) (hclean : rx.Clean) (hrel : Reliable tx)
    {rest : Bytes} (hrx : rx.bytes = t.answer S (helloMsg S cfg p) ++ rest)
    (hhello : 5 + helloLength S cfg p ≤ wb.length) (hwb : 133 ≤ wb.length) (hwb' : wb.length < 65652) (hrb : 192 ≤ rb.length)
    (hcert : t.certificate.bytes.length + 17 ≤ rb.length) (hreply : ∀ m ∈ ms, m.length + 22 ≤ wb.length ∧ m.length + 17 < 65536) :
    ∃ c', Conn.open_ S cfg p v c = (.ok (), c') ∧ c'.opened = true ∧ Reliable c'.tx ∧
      ∀ ops : List AnyOp, Used S (t.setting S (helloMsg S cfg p) rb.length wb.length) ops (justOpened rest c'.tx.ctl) c' := by
  have hS := C95_lawful S hs
  obtain ⟨c', h1, h2⟩ := textbook_opens hs cfg p v t ht hpsk hfit ha hb hhost hver hms hsig hn hclean hrel hrx hhello hwb hwb' hrb hcert
    hreply
  obtain ⟨a1, a2, a3⟩ := open_are S hS cfg p v hn hclean hwb h1
  refine ⟨c', h1, h2.opened, h2.reliable, fun ops => ?_⟩
  have hu := used_of S hS ops _ _ a1
  have hset : c'.setting = t.setting S (helloMsg S cfg p) rb.length wb.length := by
    have k1 : c'.ks.server.st = _ := h2.keys
    simp only [Conn.setting, k1, h2.clientKeys, a2, a3]
    rfl
  rw [hset] at hu
  have hr : c'.rx.bytes = rest := h2.bytes
  rw [hr] at hu
  exact hu

/-- **C133, no verifier** as `C127_psk`. -/
theorem C133_psk (hs : Shipped S) (cfg : Config) (p : Provider V) (hv : p.verifier = none) (v : V) (t : Textbook) (ht : t.Sized)
    (hc : t.request = true → p.clientCert = none)
    (hpsk : t.psk = cfg.psk.map (·.1)) (hfit : HelloFits S cfg p) (ha : scalarOf p.secret ≠ 0) (hb : scalarOf t.secret ≠ 0)
    {rx : Rx} {tx : Tx} {rb wb : Bytes} {c : Conn} (hn : Conn.new S rx tx rb wb = .ok c) (hclean : rx.Clean) (hrel : Reliable tx)
    {rest : Bytes} (hrx : rx.bytes = t.answer S (helloMsg S cfg p) ++ rest)
    (hhello : 5 + helloLength S cfg p ≤ wb.length) (hwb : 133 ≤ wb.length) (hwb' : wb.length < 65652) (hrb : 192 ≤ rb.length)
    (hcert : t.certificate.bytes.length + 17 ≤ rb.length) :
    ∃ c', Conn.open_ S cfg p v c = (.ok (), c') ∧ c'.opened = true ∧ Reliable c'.tx ∧
      ∀ ops : List AnyOp, Used S (t.setting S (helloMsg S cfg p) rb.length wb.length) ops (justOpened rest c'.tx.ctl) c' :=
  C133_session hs cfg p v t ht hpsk hfit ha hb (fun ops _ h => by rw [hv] at h; cases h) (fun ops h => by rw [hv] at h; cases h)
    (textbook_no_certificate p hc _).1 (fun h h' => absurd (hc h) h') hn hclean hrel hrx hhello hwb hwb' hrb hcert
    (fun m hm => by rw [(textbook_no_certificate (S := S) p hc []).2 m hm]; omega)

/-- **C133, certificates** as `C127_certificate`, for any signature scheme of the native verifier. -/
theorem C133_native (hs : Shipped S) (L : PkiLib) (F : Features) (now : Option Nat) (N : Nat) (cfg : Config)
    (p : Provider PkiVerifier) (ca : CertEntry) (hv : p.verifier = some (pkiOps L S F now N))
    (hEd : ∀ k, L.keyOk .ed25519 k = true → k.length = 32)
    (host : Bytes) (hname : cfg.serverName = some host) (hlen : host.length ≤ 64)
    (t : Textbook) (hrand : t.random.length = 32) (hc : t.request = true → p.clientCert = none)
    (hchain : ValidChain L F now ca host t.certs)
    (hscheme : ∃ s, (s, t.scheme) ∈ signatureSchemes) (hsign : ∀ m, SignedWith L F t.certs t.scheme m (t.sign m))
    (hsl : ∀ m, (t.sign m).length + 8 ≤ max 80 t.certificate.bytes.length) (hcerts : t.certs.length ≤ 16) (hmsg : t.certificate.bytes.length ≤ 16384) (hN : t.certificate.bytes.length ≤ N)
    (hpsk : t.psk = cfg.psk.map (·.1)) (hfit : HelloFits S cfg p) (ha : scalarOf p.secret ≠ 0) (hb : scalarOf t.secret ≠ 0)
    {rx : Rx} {tx : Tx} {rb wb : Bytes} {c : Conn} (hn : Conn.new S rx tx rb wb = .ok c) (hclean : rx.Clean) (hrel : Reliable tx)
    {rest : Bytes} (hrx : rx.bytes = t.answer S (helloMsg S cfg p) ++ rest)
    (hhello : 5 + helloLength S cfg p ≤ wb.length) (hwb : 133 ≤ wb.length) (hwb' : wb.length < 65652) (hrb : 192 ≤ rb.length)
    (hcert : t.certificate.bytes.length + 17 ≤ rb.length) :
    ∃ c', Conn.open_ S cfg p (PkiVerifier.new ca) c = (.ok (), c') ∧ c'.opened = true ∧ Reliable c'.tx ∧
      ∀ ops : List AnyOp, Used S (t.setting S (helloMsg S cfg p) rb.length wb.length) ops (justOpened rest c'.tx.ctl) c' := by
  have hS := C95_lawful S hs
  have ht : t.Sized := ⟨hrand, hmsg, hcerts, hscheme, hsl⟩
  have hx := C98_conforming hs cfg p hfit ha hb (x := t.flight S (helloMsg S cfg p))
    (by rw [← hpsk]; exact textbook_shaped (helloMsg S cfg p) hs ht) (dheFrom_agrees hs cfg p hfit t.secret ha hb)
  have hne : t.certs ≠ [] := by
    intro h
    obtain ⟨leaf, rest, _, _, _, _, e, _⟩ := hsign []
    rw [h] at e
    cases e
  have hauth : AuthFlight (ValidChain L F now ca host) (SignedWith L F) S N (helloMsg S cfg p)
      (t.flight S (helloMsg S cfg p)) :=
    textbook_auth _ hne hN hchain hsign
  refine C133_session hs cfg p _ t ht hpsk hfit ha hb ?_
    (run_authenticated S N cfg p _ _ _ hv hx (textbook_accepted _ hs ht) host hname (pkiSetHostname_fits hlen _) hauth
      (native_accepts S hS now N ca hEd host))
    (textbook_no_certificate p hc _).1 (fun h h' => absurd (hc h) h')
    hn hclean hrel hrx hhello hwb hwb' hrb hcert
    (fun m hm => by rw [(textbook_no_certificate (S := S) p hc []).2 m hm]; omega)
  intro ops name ho hnn
  rw [hv] at ho
  injection ho with ho
  subst ho
  rw [hname] at hnn
  injection hnn with hnn
  subst hnn
  exact ⟨_, pkiSetHostname_fits hlen _⟩

/-! ## Examples -/

set_option maxRecDepth 100000 in
-- C133_psk: after the handshake anything may come
example (rest : Bytes) : ∃ rx c c', Conn.new (aes128GcmSha256 false) rx ⟨[], []⟩ (List.replicate 2048 0) (List.replicate 2048 0) = .ok c ∧
    Conn.open_ (aes128GcmSha256 false) recPskCfg recPskProvider () c = (.ok (), c') ∧
    ∀ ops, Used (aes128GcmSha256 false) (pskServer.setting (aes128GcmSha256 false) (helloMsg (aes128GcmSha256 false) recPskCfg recPskProvider) 2048 2048)
      ops (justOpened rest c'.tx.ctl) c' := by
  obtain ⟨c, hc⟩ := new_exists (aes128GcmSha256 false)
    [.data (pskServer.answer (aes128GcmSha256 false) (helloMsg (aes128GcmSha256 false) recPskCfg recPskProvider) ++ rest)] 2048 (by decide)
  have hl : 5 + helloLength (aes128GcmSha256 false) recPskCfg recPskProvider ≤ 2048 := by decide +kernel
  obtain ⟨c', k1, -, -, k2⟩ := C133_psk ⟨false, .inl rfl⟩ recPskCfg recPskProvider rfl () pskServer
    ⟨by decide, by decide, by decide, ⟨.ecdsaSecp256r1Sha256, by decide⟩, fun _ => le_trans (show 0 + 8 ≤ 80 by decide) (le_max_left _ _)⟩ (fun h => by cases h) (by decide +kernel) recPsk_fits rec_scalar
    (by decide +kernel) hc
    (by intro e he; exact ⟨_, by simp [Textbook.answer, ServerFlight.bytes, plaintextRecord], List.mem_singleton.1 he⟩)
    (by intro a ha; cases ha) (rest := rest) (by simp [Rx.bytes]) (by simpa using hl) (by simp) (by simp) (by simp)
    (by rw [List.length_replicate]; decide)
  rw [List.length_replicate] at k2
  exact ⟨_, c, c', hc, k1, k2⟩

set_option maxRecDepth 100000 in
-- C133_native
example (rest : Bytes) : ∃ rx c c', Conn.new (aes128GcmSha256 false) rx ⟨[], []⟩ (List.replicate 2048 0) (List.replicate 2048 0) = .ok c ∧
    Conn.open_ (aes128GcmSha256 false) (recCfg []) trustingClient (PkiVerifier.new (.x509 selfCert)) c = (.ok (), c') ∧
    ∀ ops, Used (aes128GcmSha256 false) (selfServer.setting (aes128GcmSha256 false) (helloMsg (aes128GcmSha256 false) (recCfg []) trustingClient) 2048 2048)
      ops (justOpened rest c'.tx.ctl) c' := by
  obtain ⟨dc, h1, h2, -⟩ := selfCert_reads
  obtain ⟨c, hc⟩ := new_exists (aes128GcmSha256 false)
    [.data (selfServer.answer (aes128GcmSha256 false) (helloMsg (aes128GcmSha256 false) (recCfg []) trustingClient) ++ rest)] 2048 (by decide)
  have hm := selfServer_certificate
  obtain ⟨c', k1, -, -, k2⟩ := C133_native ⟨false, .inl rfl⟩ (noPki.concrete derTags) ⟨false, false, false⟩ none 1024 (recCfg []) trustingClient
    (.x509 selfCert) rfl (by intro k hk; cases hk) (ascii "example.com") rec_name.2 (by decide) selfServer (List.length_replicate ..)
    (fun _ => rfl) selfCert_chain ⟨.ecdsaSecp256r1Sha256, by decide⟩
    (fun m => C99_server noPki derTags ⟨false, false, false⟩ (by constructor <;> decide +kernel) h1 h2 (selfServer_signs m))
    (fun m => by have := ecdsaSigned_length (selfServer_signs m); omega) (by show [selfCert].length ≤ 16; decide)
    (by omega) hm (by rw [rec_name.1]; rfl) trusting_fits.1 rec_scalar (by show scalarOf [7] ≠ 0; decide +kernel) hc
    (by intro e he; exact ⟨_, by simp [Textbook.answer, ServerFlight.bytes, plaintextRecord], List.mem_singleton.1 he⟩)
    (by intro a ha; cases ha) (rest := rest) (by simp [Rx.bytes]) (by have := trusting_fits.2; simp; omega) (by simp) (by simp) (by simp)
    (by simp; omega)
  rw [List.length_replicate] at k2
  exact ⟨_, c, c', hc, k1, k2⟩

end ETls
