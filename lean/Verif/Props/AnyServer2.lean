import Verif.Props.AnyServer
import Verif.Props.Blocking

/-! # C133 with webpki, through the blocking interface, and for two clients -/

namespace ETls

open Spec Crypto

variable {V W : Type} {S : Suite}

/-- **C133, webpki** as `C127_webpki`. -/
theorem C133_webpki (hs : Shipped S) (W : WebLib) (alloc : Bool) (now : Option Nat) (N : Nat) (cfg : Config)
    (p : Provider PkiVerifier) (ca : CertEntry) (hv : p.verifier = some (webOps W S alloc now N))
    (hparse : ∀ anchor leaf, W.chainOk anchor leaf (now.getD 0) = true → W.anchorOk anchor = true ∧ W.leafOk leaf = true)
    (h32 : S.hashLen ≤ 32) (host : Bytes) (hname : cfg.serverName = some host) (hlen : host.length ≤ 64)
    (t : Textbook) (hrand : t.random.length = 32) (hc : t.request = true → p.clientCert = none)
    (hchain : WebAccepts W now ca (some host) t.certs) {leaf : Bytes} (hleaf : t.certs.head? = some leaf)
    (hscheme : t.scheme = 0x0403) (hsign : ∀ m, W.verify .ecdsaP256Sha256 leaf m (t.sign m) = true ∧ (t.sign m).length ≤ 72)
    (hcerts : t.certs.length ≤ 16) (hmsg : t.certificate.bytes.length ≤ 16384) (hN : t.certificate.bytes.length ≤ N)
    (hpsk : t.psk = cfg.psk.map (·.1)) (hfit : HelloFits S cfg p) (ha : scalarOf p.secret ≠ 0) (hb : scalarOf t.secret ≠ 0)
    {rx : Rx} {tx : Tx} {rb wb : Bytes} {c : Conn} (hn : Conn.new S rx tx rb wb = .ok c) (hclean : rx.Clean) (hrel : Reliable tx)
    {rest : Bytes} (hrx : rx.bytes = t.answer S (helloMsg S cfg p) ++ rest)
    (hhello : 5 + helloLength S cfg p ≤ wb.length) (hwb : 133 ≤ wb.length) (hwb' : wb.length < 65652) (hrb : 192 ≤ rb.length)
    (hcert : t.certificate.bytes.length + 17 ≤ rb.length) :
    ∃ c', Conn.open_ S cfg p (PkiVerifier.new ca) c = (.ok (), c') ∧ c'.opened = true ∧ Reliable c'.tx ∧
      ∀ ops : List AnyOp, Used S (t.setting S (helloMsg S cfg p) rb.length wb.length) ops (justOpened rest c'.tx.ctl) c' := by
  have hS := C95_lawful S hs
  have ht : t.Sized := ⟨hrand, hmsg, hcerts, ⟨.ecdsaSecp256r1Sha256, by rw [hscheme]; decide⟩, fun m => by
    have := (hsign m).2; omega⟩
  have hx := C98_conforming hs cfg p hfit ha hb (x := t.flight S (helloMsg S cfg p))
    (by rw [← hpsk]; exact textbook_shaped (helloMsg S cfg p) hs ht) (dheFrom_agrees hs cfg p hfit t.secret ha hb)
  obtain ⟨more, hrest⟩ := List.head?_eq_some_iff.1 hleaf
  have hauth : AuthFlight (WebAccepts W now ca (some host)) (WebSignedWith W alloc) S N (helloMsg S cfg p)
      (t.flight S (helloMsg S cfg p)) :=
    textbook_auth _ (by rw [hrest]; simp) hN hchain fun m =>
      ⟨leaf, more, .ecdsaSecp256r1Sha256, .ecdsaP256Sha256, hrest, by rw [hscheme]; decide, by decide, .inr (by decide), (hsign m).1⟩
  refine C133_session hs cfg p _ t ht hpsk hfit ha hb ?_
    (run_authenticated S N cfg p _ _ _ hv hx (textbook_accepted _ hs ht) host hname (pkiSetHostname_fits hlen _) hauth
      (web_accepts S hS W alloc now N ca hparse h32 host))
    (textbook_no_certificate p hc _).1 (fun h h' => absurd (hc h) h')
    hn hclean hrel hrx hhello hwb hwb' hrb hcert
    (fun m hm => by rw [(textbook_no_certificate (S := S) p hc []).2 m hm]; omega)
  intro ops name ho hnn
  rw [hv] at ho
  injection ho with ho
  subst ho
  rw [hname] at hnn
  injection hnn with hnn
  subst hnn
  exact ⟨_, pkiSetHostname_fits hlen _⟩

/-- As `Used`, with the methods of `blocking.rs`: the two halves in any order, then `close`. -/
def UsedBlocking (S : Suite) (k : Setting) (ops : List AnyOp) (d : Duplex) (c : Conn) : Prop :=
  ∃ rs evs d', Uses S k (ops.map AnyOp.use) d rs evs d' ∧
    List.Forall₂ UseAgrees rs (Blk.halves S (ops.take rs.length) c).1 ∧
    (Blk.halves S (ops.take rs.length) c).2.tx.log = c.tx.log ++ evs ∧
    ∀ e, d' = some e → rs.length = ops.length ∧
      (Blk.close S (Blk.halves S ops c).2).1.map (fun _ => 0) =
        (e.writer.close S k.writeKey k.writeIv e.reader.opened e.answers).result ∧
      (Blk.close S (Blk.halves S ops c).2).2.tx.log =
        c.tx.log ++ evs ++ (e.writer.close S k.writeKey k.writeIv e.reader.opened e.answers).events

theorem usedBlocking_of {k : Setting} {ops : List AnyOp} {d : Duplex} {c : Conn} (h : Used S k ops d c) : UsedBlocking S k ops d c := by
  obtain ⟨rs, evs, d', h1, h2, h3, h4⟩ := h
  refine ⟨rs, evs, d', h1, ?_, ?_, fun e he => ?_⟩
  · rw [(C120_halves (V := Unit) S _ c).1]; exact h2
  · rw [(C120_halves (V := Unit) S _ c).1]; exact h3
  · rw [(C120_halves (V := Unit) S _ c).1, Blk.close_eq]; exact h4 e he

/-- **C133, blocking interface** as `C133_session`, with the methods of `blocking.rs`. -/
theorem C133_blocking (hs : Shipped S) (cfg : Config) (p : Provider V) (v : V) (t : Textbook) (ht : t.Sized)
    (hpsk : t.psk = cfg.psk.map (·.1)) (hfit : HelloFits S cfg p) (ha : scalarOf p.secret ≠ 0) (hb : scalarOf t.secret ≠ 0)
    (hhost : ∀ ops name, p.verifier = some ops → cfg.serverName = some name → ∃ v', ops.setHostname name v = (.ok (), v'))
    (hver : ∀ ops, p.verifier = some ops → ∃ v', verifierRun ops ((t.flight S (helloMsg S cfg p)).tr0 (helloMsg S cfg p))
      (withBytes (t.flight S (helloMsg S cfg p)).msgs) (hostVst cfg p v) = (.ok (), v'))
    {ms : List Bytes} (hms : clientReply S p (t.transcript S (helloMsg S cfg p)) (if t.request then some [] else none) = some ms)
    (hsig : t.request = true → p.clientCert ≠ none → ∀ sign scheme, p.signer = .ok (sign, scheme) → ∀ m sig, sign m = some sig → sig.length ≤ signatureSize S)
    {rx : Rx} {tx : Tx} {rb wb : Bytes} {c : Conn} (hn : Blk.new S rx tx rb wb = .ok c) (hclean : rx.Clean) (hrel : Reliable tx)
    {rest : Bytes} (hrx : rx.bytes = t.answer S (helloMsg S cfg p) ++ rest)
    (hhello : 5 + helloLength S cfg p ≤ wb.length) (hwb : 133 ≤ wb.length) (hwb' : wb.length < 65652) (hrb : 192 ≤ rb.length)
    (hcert : t.certificate.bytes.length + 17 ≤ rb.length) (hreply : ∀ m ∈ ms, m.length + 22 ≤ wb.length ∧ m.length + 17 < 65536) :
    ∃ c', Blk.open_ S cfg p v c = (.ok (), c') ∧ c'.opened = true ∧
      ∀ ops : List AnyOp, UsedBlocking S (t.setting S (helloMsg S cfg p) rb.length wb.length) ops (justOpened rest c'.tx.ctl) c' := by
  obtain ⟨c', h1, h2, -, h3⟩ := C133_session hs cfg p v t ht hpsk hfit ha hb hhost hver hms hsig hn hclean hrel hrx hhello hwb hwb' hrb
    hcert hreply
  refine ⟨c', ?_, h2, fun ops => usedBlocking_of (h3 ops)⟩
  rw [Blk.open_eq]
  exact h1

/-- A call that panicked. -/
def Spec.UseResult.Panics (r : UseResult) : Prop := r = .read .abort ∨ r = .wrote .panic

theorem uses_ends {k : Setting} {us : List Use} {d : Duplex} {rs : List UseResult} {evs : List OutEv} {d' : Option Duplex}
    (h : Uses S k us d rs evs d') :
    (∃ r, rs.getLast? = some r ∧ r.Panics) ∨ ((∀ r ∈ rs, ¬ r.Panics) ∧ ∃ e, d' = some e) := by
  have hcons : ∀ (x : UseResult) (rs : List UseResult) (d' : Option Duplex), ¬ x.Panics →
      ((∃ r, rs.getLast? = some r ∧ r.Panics) ∨ ((∀ r ∈ rs, ¬ r.Panics) ∧ ∃ e, d' = some e)) →
      ((∃ r, (x :: rs).getLast? = some r ∧ r.Panics) ∨ ((∀ r ∈ x :: rs, ¬ r.Panics) ∧ ∃ e, d' = some e)) := by
    intro x rs d' hx h
    rcases h with ⟨r, h1, h2⟩ | ⟨h1, h2⟩
    · exact .inl ⟨r, by rw [List.getLast?_cons, h1]; rfl, h2⟩
    · refine .inr ⟨fun r hr => ?_, h2⟩
      rcases List.mem_cons.1 hr with rfl | hr
      · exact hx
      · exact h1 r hr
  induction h with
  | nil d => exact .inr ⟨fun _ h => (by cases h), d, rfl⟩
  | read c us d s r rs evs d' hc hr hu ih =>
    refine hcons _ _ _ ?_ ih
    rintro (h | h)
    · injection h with h; exact hr h
    · cases h
  | readAbort c us d s hc => exact .inl ⟨_, rfl, .inl rfl⟩
  | write c us d w rs evs d' hc hr hu ih =>
    refine hcons _ _ _ ?_ ih
    rintro (h | h)
    · cases h
    · injection h with h; exact hr h
  | writeAbort c us d w hc hr => exact .inl ⟨_, rfl, .inr rfl⟩

/-- What two connections show when they behave alike: the same results of the calls `ops` and the same effects on the transport, for
all calls or up to the first that panics; without a panic, the same result and effects of `close`. -/
def Alike (S : Suite) (ops : List AnyOp) (c1 c2 : Conn) : Prop :=
  ∃ rs evs, (∀ c, c = c1 ∨ c = c2 → List.Forall₂ UseAgrees rs (runAny S (ops.take rs.length) c).1 ∧
      (runAny S (ops.take rs.length) c).2.tx.log = c.tx.log ++ evs) ∧
    ((∃ r, rs.getLast? = some r ∧ r.Panics) ∨
      rs.length = ops.length ∧ (∀ r ∈ rs, ¬ r.Panics) ∧ ∃ r evs', ∀ c, c = c1 ∨ c = c2 →
        (Conn.close S (runAny S ops c).2).1 = r ∧ (Conn.close S (runAny S ops c).2).2.tx.log = c.tx.log ++ evs ++ evs')

/-- **C133, nothing else matters** Two connections that fit the description with the same keys, buffer sizes, remaining bytes and
answers of the transport, whatever else differs (configurations, contents of the buffers, the way the stream is cut, what was sent
before).  There is one list of results and one list of effects on the transport that both show: for all calls, or up to the first
that panics.  Without a panic `close` has the same result on both, and the same effects on the transport. -/
theorem C133_same {k : Setting} {ops : List AnyOp} {d : Duplex} {c1 c2 : Conn} (h1 : Used S k ops d c1) (h2 : Used S k ops d c2) :
    Alike S ops c1 c2 := by
  obtain ⟨rs, evs, d1, a1, a2, a3, a4⟩ := h1
  obtain ⟨rs', evs', d2, b1, b2, b3, b4⟩ := h2
  obtain ⟨rfl, rfl, rfl⟩ := C79_deterministic S a1 b1
  refine ⟨rs, evs, ?_, ?_⟩
  · rintro c (rfl | rfl)
    · exact ⟨a2, a3⟩
    · exact ⟨b2, b3⟩
  · rcases uses_ends a1 with h | ⟨h, e, rfl⟩
    · exact .inl h
    · obtain ⟨g1, g2, g3⟩ := a4 e rfl
      obtain ⟨-, j2, j3⟩ := b4 e rfl
      refine .inr ⟨g1, h, (Conn.close S (runAny S ops c1).2).1, (e.writer.close S k.writeKey k.writeIv e.reader.opened e.answers).events, ?_⟩
      rintro c (rfl | rfl)
      · exact ⟨rfl, g3⟩
      · refine ⟨?_, j3⟩
        have hj := j2.trans g2.symm
        revert hj
        cases (Conn.close S (runAny S ops c).2).1 <;> cases (Conn.close S (runAny S ops c1).2).1 <;> intro hj <;>
          simp_all [Res.map]

/-- A transport that has no failures in store has none after a successful `open`. -/
theorem open_ctl (cfg : Config) (p : Provider V) (hp : p.Plain) (v : V) {c c' : Conn} (h : Conn.open_ S cfg p v c = (.ok (), c'))
    (hc : c.tx.ctl = []) : c'.tx.ctl = [] := by
  have hq := C85_open S cfg p hp v c
  rw [h] at hq
  generalize hr : (Res.ok () : Res TlsError Unit) = r at hq
  cases hq with
  | quiet _ ha _ =>
    obtain ⟨evs, -, -, -, h4⟩ := ha
    rw [h4, hc, List.drop_nil]
  | readFailed _ _ => cases hr
  | ended _ _ => cases hr
  | writeFailed _ _ _ _ _ => cases hr

/-- **C133, chunks and buffers** Two connections with the same configuration to servers that do the same, over transports that deliver
the same bytes in any pieces, with buffers of the same sizes and any contents: both `open`, and afterwards they behave alike under
every sequence of calls, whatever the server sends. -/
theorem C133_chunks (hs : Shipped S) (cfg : Config) (p : Provider V) (hp : p.Plain) (v : V) (t : Textbook) (ht : t.Sized)
    (hpsk : t.psk = cfg.psk.map (·.1)) (hfit : HelloFits S cfg p) (ha : scalarOf p.secret ≠ 0) (hb : scalarOf t.secret ≠ 0)
    (hhost : ∀ ops name, p.verifier = some ops → cfg.serverName = some name → ∃ v', ops.setHostname name v = (.ok (), v'))
    (hver : ∀ ops, p.verifier = some ops → ∃ v', verifierRun ops ((t.flight S (helloMsg S cfg p)).tr0 (helloMsg S cfg p))
      (withBytes (t.flight S (helloMsg S cfg p)).msgs) (hostVst cfg p v) = (.ok (), v'))
    {ms : List Bytes} (hms : clientReply S p (t.transcript S (helloMsg S cfg p)) (if t.request then some [] else none) = some ms)
    (hsig : t.request = true → p.clientCert ≠ none → ∀ sign scheme, p.signer = .ok (sign, scheme) → ∀ m sig, sign m = some sig → sig.length ≤ signatureSize S)
    {rx1 rx2 : Rx} {log1 log2 : List OutEv} {rb1 rb2 wb1 wb2 : Bytes} {c1 c2 : Conn}
    (hn1 : Conn.new S rx1 ⟨[], log1⟩ rb1 wb1 = .ok c1) (hn2 : Conn.new S rx2 ⟨[], log2⟩ rb2 wb2 = .ok c2)
    (hclean1 : rx1.Clean) (hclean2 : rx2.Clean) (hsame : rx1.bytes = rx2.bytes ∧ rb1.length = rb2.length ∧ wb1.length = wb2.length)
    {rest : Bytes} (hrx : rx1.bytes = t.answer S (helloMsg S cfg p) ++ rest)
    (hhello : 5 + helloLength S cfg p ≤ wb1.length) (hwb : 133 ≤ wb1.length) (hwb' : wb1.length < 65652) (hrb : 192 ≤ rb1.length)
    (hcert : t.certificate.bytes.length + 17 ≤ rb1.length) (hreply : ∀ m ∈ ms, m.length + 22 ≤ wb1.length ∧ m.length + 17 < 65536) :
    ∃ c1' c2', Conn.open_ S cfg p v c1 = (.ok (), c1') ∧ Conn.open_ S cfg p v c2 = (.ok (), c2') ∧ ∀ ops, Alike S ops c1' c2' := by
  obtain ⟨e1, e2, e3⟩ := hsame
  obtain ⟨c1', h1, -, -, u1⟩ := C133_session hs cfg p v t ht hpsk hfit ha hb hhost hver hms hsig hn1 hclean1 (by intro a ha; cases ha) hrx
    hhello hwb hwb' hrb hcert hreply
  rw [e1] at hrx
  rw [e3] at hhello hwb hwb' hreply
  rw [e2] at hrb hcert
  obtain ⟨c2', h2, -, -, u2⟩ := C133_session hs cfg p v t ht hpsk hfit ha hb hhost hver hms hsig hn2 hclean2 (by intro a ha; cases ha) hrx
    hhello hwb hwb' hrb hcert hreply
  have k1 := open_ctl cfg p hp v h1 (by rw [(Conn.new_parts S hn1).2.2.1])
  have k2 := open_ctl cfg p hp v h2 (by rw [(Conn.new_parts S hn2).2.2.1])
  refine ⟨c1', c2', h1, h2, fun ops => ?_⟩
  have a1 := u1 ops
  have a2 := u2 ops
  rw [k1, e2, e3] at a1
  rw [k2] at a2
  exact C133_same a1 a2

/-! ## Examples -/

set_option maxRecDepth 100000 in
-- C133_webpki
example (rest : Bytes) : ∃ rx c c', Conn.new (aes128GcmSha256 false) rx ⟨[], []⟩ (List.replicate 2048 0) (List.replicate 2048 0) = .ok c ∧
    Conn.open_ (aes128GcmSha256 false) (recCfg []) webClient (PkiVerifier.new (.x509 selfCert)) c = (.ok (), c') ∧
    ∀ ops, Used (aes128GcmSha256 false) (selfServer.setting (aes128GcmSha256 false) (helloMsg (aes128GcmSha256 false) (recCfg []) webClient) 2048 2048)
      ops (justOpened rest c'.tx.ctl) c' := by
  obtain ⟨c, hc⟩ := new_exists (aes128GcmSha256 false)
    [.data (selfServer.answer (aes128GcmSha256 false) (helloMsg (aes128GcmSha256 false) (recCfg []) webClient) ++ rest)] 2048 (by decide)
  have hm := selfServer_certificate
  have hfit : HelloFits (aes128GcmSha256 false) (recCfg []) webClient :=
    ⟨trusting_fits.1.random, trusting_fits.1.alpn, trusting_fits.1.length⟩
  have hl : 5 + helloLength (aes128GcmSha256 false) (recCfg []) webClient ≤ 1024 := trusting_fits.2
  obtain ⟨c', k1, -, -, k2⟩ := C133_webpki ⟨false, .inl rfl⟩ selfWeb false none 1024 (recCfg []) webClient
    (.x509 selfCert) rfl (fun _ _ _ => ⟨rfl, rfl⟩) (by decide) (ascii "example.com") rec_name.2 (by decide) selfServer
    (List.length_replicate ..) (fun _ => rfl)
    ⟨selfCert, selfCert, [], rfl, rfl, by simp [selfWeb], by rintro name ⟨⟩; exact ⟨rfl, by simp [selfWeb]⟩⟩ (leaf := selfCert) rfl
    rfl selfWeb_verifies (by show [selfCert].length ≤ 16; decide)
    (by omega) hm (by rw [rec_name.1]; rfl) hfit rec_scalar (by show scalarOf [7] ≠ 0; decide +kernel) hc
    (by intro e he; exact ⟨_, by simp [Textbook.answer, ServerFlight.bytes, plaintextRecord], List.mem_singleton.1 he⟩)
    (by intro a ha; cases ha) (rest := rest) (by simp [Rx.bytes]) (by simp; omega) (by simp) (by simp) (by simp)
    (by simp; omega)
  rw [List.length_replicate] at k2
  exact ⟨_, c, c', hc, k1, k2⟩

set_option maxRecDepth 100000 in
-- C133_chunks, C133_same: the answer of the server and what comes after it in one piece, or in two
example (x : UInt8) (rest : Bytes) : ∃ rx1 rx2 c1 c2 c1' c2', rx1 ≠ rx2 ∧
    Conn.new (aes128GcmSha256 false) rx1 ⟨[], []⟩ (List.replicate 2048 0) (List.replicate 2048 0) = .ok c1 ∧
    Conn.new (aes128GcmSha256 false) rx2 ⟨[], []⟩ (List.replicate 2048 0) (List.replicate 2048 0) = .ok c2 ∧
    Conn.open_ (aes128GcmSha256 false) recPskCfg recPskProvider () c1 = (.ok (), c1') ∧
    Conn.open_ (aes128GcmSha256 false) recPskCfg recPskProvider () c2 = (.ok (), c2') ∧ ∀ ops, Alike (aes128GcmSha256 false) ops c1' c2' := by
  generalize hA : pskServer.answer (aes128GcmSha256 false) (helloMsg (aes128GcmSha256 false) recPskCfg recPskProvider) = A
  have hne : A ≠ [] := by rw [← hA]; simp [Textbook.answer, ServerFlight.bytes, plaintextRecord]
  obtain ⟨c1, hc1⟩ := new_exists (aes128GcmSha256 false) [.data (A ++ x :: rest)] 2048 (by decide)
  obtain ⟨c2, hc2⟩ := new_exists (aes128GcmSha256 false) [.data A, .data (x :: rest)] 2048 (by decide)
  have hl : 5 + helloLength (aes128GcmSha256 false) recPskCfg recPskProvider ≤ 2048 := by decide +kernel
  have hno := textbook_no_certificate (S := aes128GcmSha256 false) (t := pskServer) recPskProvider (fun h => by cases h)
  obtain ⟨c1', c2', k1, k2, k3⟩ := C133_chunks ⟨false, .inl rfl⟩ recPskCfg recPskProvider (unsecure_plain _ _) () pskServer
    ⟨by decide, by decide, by decide, ⟨.ecdsaSecp256r1Sha256, by decide⟩, fun _ => le_trans (show 0 + 8 ≤ 80 by decide) (le_max_left _ _)⟩
    (by decide +kernel) recPsk_fits rec_scalar (by decide +kernel) (fun _ _ h => by cases h) (fun _ h => by cases h)
    (hno _).1 (fun h => by cases h) hc1 hc2
    (by intro e he; exact ⟨_, by simp [hne], List.mem_singleton.1 he⟩)
    (by
      intro e he
      rcases List.mem_cons.1 he with rfl | he
      · exact ⟨A, hne, rfl⟩
      · exact ⟨_, by simp, List.mem_singleton.1 he⟩)
    ⟨by simp [Rx.bytes], rfl, rfl⟩ (rest := x :: rest) (by simp [Rx.bytes, hA]) (by simpa using hl) (by simp) (by simp) (by simp)
    (by rw [List.length_replicate]; decide) (fun m hm => by rw [(hno []).2 m hm]; simp)
  exact ⟨_, _, c1, c2, c1', c2', by simp, hc1, hc2, k1, k2, k3⟩

set_option maxRecDepth 100000 in
-- C133_blocking: a session through the blocking interface
example (rest : Bytes) : ∃ rx c c', Blk.new (aes128GcmSha256 false) rx ⟨[], []⟩ (List.replicate 2048 0) (List.replicate 2048 0) = .ok c ∧
    Blk.open_ (aes128GcmSha256 false) recPskCfg recPskProvider () c = (.ok (), c') ∧
    ∀ ops, UsedBlocking (aes128GcmSha256 false)
      (pskServer.setting (aes128GcmSha256 false) (helloMsg (aes128GcmSha256 false) recPskCfg recPskProvider) 2048 2048)
      ops (justOpened rest c'.tx.ctl) c' := by
  obtain ⟨c, hc⟩ := new_exists (aes128GcmSha256 false)
    [.data (pskServer.answer (aes128GcmSha256 false) (helloMsg (aes128GcmSha256 false) recPskCfg recPskProvider) ++ rest)] 2048 (by decide)
  have hl : 5 + helloLength (aes128GcmSha256 false) recPskCfg recPskProvider ≤ 2048 := by decide +kernel
  have hno := textbook_no_certificate (S := aes128GcmSha256 false) (t := pskServer) recPskProvider (fun h => by cases h)
  obtain ⟨c', k1, -, k2⟩ := C133_blocking ⟨false, .inl rfl⟩ recPskCfg recPskProvider () pskServer
    ⟨by decide, by decide, by decide, ⟨.ecdsaSecp256r1Sha256, by decide⟩, fun _ => le_trans (show 0 + 8 ≤ 80 by decide) (le_max_left _ _)⟩
    (by decide +kernel) recPsk_fits rec_scalar (by decide +kernel) (fun _ _ h => by cases h) (fun _ h => by cases h)
    (hno _).1 (fun h => by cases h) hc
    (by intro e he; exact ⟨_, by simp [Textbook.answer, ServerFlight.bytes, plaintextRecord], List.mem_singleton.1 he⟩)
    (by intro a ha; cases ha) (rest := rest) (by simp [Rx.bytes]) (by simpa using hl) (by simp) (by simp) (by simp)
    (by rw [List.length_replicate]; decide) (fun m hm => by rw [(hno []).2 m hm]; simp)
  rw [List.length_replicate] at k2
  exact ⟨_, c, c', hc, k1, k2⟩

end ETls
