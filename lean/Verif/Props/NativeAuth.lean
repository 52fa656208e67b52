import Verif.Props.Pki
import Verif.Proofs.ExServer

/-!
# C60, C61: `open` with the verifiers of the crate

What a successful `open` says about the server's certificates and signature when the provider's verifier is the native or
the webpki one, in terms of the messages on the wire.
-/

namespace ETls
open Spec

variable {V : Type}

/-- Neither Certificate nor CertificateVerify among the messages. -/
def noAuth (ms : List (Bytes × RawMsg)) : Prop :=
  ∀ m ∈ ms, (∀ ctx es, m.2 ≠ .certificate ctx es) ∧ ∀ s sig, m.2 ≠ .certificateVerify s sig

/-- Induction over the run of a verifier: `I before v` holds of the messages seen and the verifier's state, `Q before r` is
established for each message `r`. -/
theorem verifierRun_induct (ops : VerifierOps V) (tr0 : Bytes) (hl : Nat) (I : List (Bytes × RawMsg) → V → Prop)
    (Q : List (Bytes × RawMsg) → Bytes × RawMsg → Prop)
    (hcert : ∀ before m ctx es v v', I before v → RawMsg.WellSized hl (.certificate ctx es) →
      ops.verifyCertificate (tr0 ++ Session.bytesOf before ++ m) (certOf ctx es) v = (.ok (), v') →
      I (before ++ [(m, .certificate ctx es)]) v' ∧ Q before (m, .certificate ctx es))
    (hsig : ∀ before m s sig x v v', I before v → (x, s) ∈ signatureSchemes →
      ops.verifySignature ⟨x, sig⟩ v = (.ok (), v') →
      I (before ++ [(m, .certificateVerify s sig)]) v' ∧ Q before (m, .certificateVerify s sig))
    (hother : ∀ before m v, noAuth [m] → I before v → I (before ++ [m]) v ∧ Q before m) :
    ∀ (rest before : List (Bytes × RawMsg)) (v v' : V), (∀ m ∈ rest, m.2.WellSized hl) → I before v →
      verifierRun ops (tr0 ++ Session.bytesOf before) rest v = (.ok (), v') →
      I (before ++ rest) v' ∧ ∀ a r b, rest = a ++ r :: b → Q (before ++ a) r := by
  intro rest
  induction rest with
  | nil =>
    intro before v v' _ hI h
    simp only [verifierRun, M.pure_apply, Prod.mk.injEq, true_and] at h
    subst h
    exact ⟨by simpa using hI, by simp⟩
  | cons r rest ih =>
    intro before v v' hw hI h
    obtain ⟨m, r⟩ := r
    have hw' : ∀ m ∈ rest, m.2.WellSized hl := fun x hx => hw x (List.mem_cons_of_mem _ hx)
    have hb : tr0 ++ Session.bytesOf before ++ m = tr0 ++ Session.bytesOf (before ++ [(m, r)]) := by
      simp [Session.bytesOf]
    have close : ∀ w, I (before ++ [(m, r)]) w → Q before (m, r) →
        verifierRun ops (tr0 ++ Session.bytesOf before ++ m) rest w = (.ok (), v') →
        I (before ++ (m, r) :: rest) v' ∧ ∀ a x b, (m, r) :: rest = a ++ x :: b → Q (before ++ a) x := by
      intro w hw1 hq hr
      rw [hb] at hr
      obtain ⟨i1, i2⟩ := ih _ _ _ hw' hw1 hr
      refine ⟨by simpa using i1, fun a x b he => ?_⟩
      cases a with
      | nil =>
        simp only [List.nil_append, List.cons.injEq] at he
        rw [← he.1]
        simpa using hq
      | cons y a =>
        simp only [List.cons_append, List.cons.injEq] at he
        rw [← he.1]
        have := i2 a x b he.2
        simpa using this
    have hw1 := hw (m, r) List.mem_cons_self
    cases r with
    | certificate ctx es =>
      simp only [verifierRun] at h
      obtain ⟨_, w, h1, h2⟩ := M.bind_inv h
      obtain ⟨j1, j2⟩ := hcert before m ctx es v w hI hw1 h1
      exact close w j1 j2 h2
    | certificateVerify s sig =>
      obtain ⟨⟨x, hx⟩, _⟩ := hw1
      simp only [verifierRun, C04_signature_scheme.accept _ _ hx] at h
      obtain ⟨_, w, h1, h2⟩ := M.bind_inv h
      obtain ⟨j1, j2⟩ := hsig before m s sig x v w hI hx h1
      exact close w j1 j2 h2
    | serverHello a b c d e f =>
      obtain ⟨j1, j2⟩ := hother before (m, .serverHello a b c d e f) v (by simp [noAuth]) hI
      exact close v j1 j2 h
    | encryptedExtensions xs =>
      obtain ⟨j1, j2⟩ := hother before (m, .encryptedExtensions xs) v (by simp [noAuth]) hI
      exact close v j1 j2 h
    | certificateRequest ctx xs =>
      obtain ⟨j1, j2⟩ := hother before (m, .certificateRequest ctx xs) v (by simp [noAuth]) hI
      exact close v j1 j2 h
    | finished vd =>
      obtain ⟨j1, j2⟩ := hother before (m, .finished vd) v (by simp [noAuth]) hI
      exact close v j1 j2 h
    | newSessionTicket a b c d e =>
      obtain ⟨j1, j2⟩ := hother before (m, .newSessionTicket a b c d e) v (by simp [noAuth]) hI
      exact close v j1 j2 h

/-- The entries of a received Certificate, parsed again from their bytes. -/
theorem certOf_parse {hl : Nat} {ctx : Bytes} {es : List (Bytes × List RawExt)}
    (hw : RawMsg.WellSized hl (.certificate ctx es)) {entries : List CertEntry}
    (h : CertEntry.parseVector 16 ⟨es.flatMap certEntryBytes, 0⟩ = .ok entries) :
    entries = es.map fun e => .x509 e.1 := by
  have := certLoop_reads 16 es hw.2.1 [] ((es.flatMap certEntryBytes).length + 1) []
    (by have := flatMap_length_ge certEntryBytes es (fun e _ => by simp [certEntryBytes, be24]); omega)
  have h2 : CertEntry.parseVector 16 ⟨es.flatMap certEntryBytes, 0⟩ = certSpec 16 [] es := this
  rw [h2] at h
  simpa using certSpec_inv _ _ _ _ h

/-- The state both verifiers are in: CA and host never change, and the transcript kept is that of the last Certificate,
unless a CertificateVerify came since. -/
def VerifierState (ca : CertEntry) (host : Option Bytes) (tr0 : Bytes) (hl : Nat) (before : List (Bytes × RawMsg))
    (v : PkiVerifier) : Prop :=
  v.ca = ca ∧ v.host = host ∧ ∀ tr, v.transcript = some tr → ∃ a m ctx es b,
    before = a ++ (m, .certificate ctx es) :: b ∧ noAuth b ∧ RawMsg.WellSized hl (.certificate ctx es) ∧
    tr = tr0 ++ Session.bytesOf a ++ m ∧ v.certificate = some (ctx, es.flatMap certEntryBytes)

theorem VerifierState.certificate {ca : CertEntry} {host : Option Bytes} {tr0 : Bytes} {hl : Nat}
    {before : List (Bytes × RawMsg)} {v : PkiVerifier} {m ctx : Bytes} {es : List (Bytes × List RawExt)}
    (hw : RawMsg.WellSized hl (.certificate ctx es)) (h : VerifierState ca host tr0 hl before v) :
    VerifierState ca host tr0 hl (before ++ [(m, .certificate ctx es)])
      { v with certificate := some ((certOf ctx es).requestContext, (certOf ctx es).rawEntries),
               transcript := some (tr0 ++ Session.bytesOf before ++ m) } := by
  refine ⟨h.1, h.2.1, fun tr ht => ?_⟩
  simp only [Option.some.injEq] at ht
  exact ⟨before, m, ctx, es, [], rfl, by simp [noAuth], hw, ht.symm, rfl⟩

theorem VerifierState.signature {ca : CertEntry} {host : Option Bytes} {tr0 : Bytes} {hl : Nat}
    {before : List (Bytes × RawMsg)} {v : PkiVerifier} (m : Bytes × RawMsg) (h : VerifierState ca host tr0 hl before v) :
    VerifierState ca host tr0 hl (before ++ [m]) { v with transcript := none } :=
  ⟨h.1, h.2.1, fun tr ht => by cases ht⟩

theorem VerifierState.other {ca : CertEntry} {host : Option Bytes} {tr0 : Bytes} {hl : Nat}
    {before : List (Bytes × RawMsg)} {v : PkiVerifier} {m : Bytes × RawMsg} (hm : noAuth [m])
    (h : VerifierState ca host tr0 hl before v) : VerifierState ca host tr0 hl (before ++ [m]) v := by
  refine ⟨h.1, h.2.1, fun tr ht => ?_⟩
  obtain ⟨a, mc, ctx, es, b, h1, h2, h3, h4, h5⟩ := h.2.2 tr ht
  refine ⟨a, mc, ctx, es, b ++ [m], by rw [h1]; simp, ?_, h3, h4, h5⟩
  intro x hx
  rcases List.mem_append.1 hx with hx | hx
  · exact h2 x hx
  · exact hm x hx

/-- A successful `open` has told the verifier the host name. -/
theorem open_setHostname (S : Suite) (cfg : Config) (p : Provider V) (v : V) {c c' : Conn} {ops : VerifierOps V}
    (hv : p.verifier = some ops) (h : Conn.open_ S cfg p v c = (.ok (), c')) (name : Bytes)
    (hn : cfg.serverName = some name) : ∃ v', ops.setHostname name v = (.ok (), v') ∧ hostVst cfg p v = v' := by
  unfold Conn.open_ at h
  rcases ho : openSt S cfg p ⟨c, ⟨none, none, none, v⟩⟩ with ⟨r, s⟩
  rw [ho] at h
  simp only [Prod.mk.injEq] at h
  obtain ⟨rfl, rfl⟩ := h
  unfold openSt at ho
  obtain ⟨_, s0, h0, ho⟩ := M.bind_inv ho
  unfold setHostname at h0
  rw [hv, hn] at h0
  simp only [Prod.mk.injEq] at h0
  refine ⟨(ops.setHostname name v).2, ?_, by unfold hostVst; rw [hv, hn]⟩
  rw [← h0.1]

theorem pkiSetHostname_ok {name : Bytes} {v v' : PkiVerifier} (h : pkiSetHostname name v = (.ok (), v')) :
    name.length ≤ 64 ∧ v' = { v with host := some name } := by
  unfold pkiSetHostname at h
  by_cases hl : name.length ≤ 64
  · rw [if_pos hl] at h
    exact ⟨hl, ((Prod.mk.injEq _ _ _ _).mp h).2.symm⟩
  · rw [if_neg hl] at h; cases h

/-- What the client knows of the server's certificates and signatures after a handshake: every Certificate leads to the CA
and, if a server name was configured, names that server; every CertificateVerify was preceded by a Certificate, with no
other Certificate or CertificateVerify in between, and signs all handshake messages up to and including it. -/
def Authenticated (accepts : List Bytes → Prop) (signed : List Bytes → Nat → Bytes → Bytes → Prop) (S : Suite)
    (x : Session) : Prop :=
  (∀ before m ctx es after, x.msgs = before ++ (m, .certificate ctx es) :: after → accepts (es.map (·.1))) ∧
  ∀ before m code sig after, x.msgs = before ++ (m, .certificateVerify code sig) :: after →
    ∃ a mc ctx es b, before = a ++ (mc, .certificate ctx es) :: b ∧ noAuth b ∧
      signed (es.map (·.1)) code (serverSignedContent S (x.hello ++ x.sh ++ Session.bytesOf a ++ mc)) sig

/-- The certificates and signatures of a session with the native verifier. -/
theorem Established.native (S : Suite) (L : PkiLib) (F : Features) (now : Option Nat) (N : Nat) (cfg : Config)
    (p : Provider PkiVerifier) (ca : CertEntry) {c c' : Conn} {x : Session} (hx : Established S cfg p (PkiVerifier.new ca) c x c')
    (hv : p.verifier = some (pkiOps L S F now N)) (h : Conn.open_ S cfg p (PkiVerifier.new ca) c = (.ok (), c')) :
    (∀ name, cfg.serverName = some name → name.length ≤ 64) ∧
    Authenticated (LeadsTo L now ca cfg.serverName) (SignedByLeaf L) S x := by
  obtain ⟨v', hr⟩ := hx.verifier _ hv
  have hhost : (∀ name, cfg.serverName = some name → name.length ≤ 64) ∧
      VerifierState ca cfg.serverName x.tr0 S.hashLen [] (hostVst cfg p (PkiVerifier.new ca)) := by
    cases hn : cfg.serverName with
    | none =>
      refine ⟨by simp, ?_⟩
      unfold hostVst
      rw [hv, hn]
      exact ⟨rfl, rfl, fun tr ht => by cases ht⟩
    | some name =>
      obtain ⟨w, h1, h2⟩ := open_setHostname S cfg p _ hv h name hn
      obtain ⟨h3, h4⟩ := pkiSetHostname_ok h1
      refine ⟨fun n hnn => by injection hnn with hnn; rw [← hnn]; exact h3, ?_⟩
      rw [h2, h4]
      exact ⟨rfl, rfl, fun tr ht => by cases ht⟩
  refine ⟨hhost.1, ?_⟩
  have key := verifierRun_induct (pkiOps L S F now N) x.tr0 S.hashLen (VerifierState ca cfg.serverName x.tr0 S.hashLen)
    (fun before r => match r.2 with
      | .certificate _ es => LeadsTo L now ca cfg.serverName (es.map (·.1))
      | .certificateVerify code sig => ∃ a mc ctx es b, before = a ++ (mc, .certificate ctx es) :: b ∧ noAuth b ∧
          SignedByLeaf L (es.map (·.1)) code (serverSignedContent S (x.tr0 ++ Session.bytesOf a ++ mc)) sig
      | _ => True)
    (by
      intro before m ctx es v w hI hw hc
      obtain ⟨names, -, -, h4⟩ := pkiVerifyCertificate_ok hc
      refine ⟨by rw [h4]; exact hI.certificate hw, ?_⟩
      obtain ⟨certs, h5, h6, h7⟩ := C51_chain S now N _ _ _ _ hc
      have hcs : certs = es.map (·.1) := by
        have : List.map CertEntry.x509 (es.map (·.1)) = List.map CertEntry.x509 certs := by
          rw [← h5]; simp [certOf]
        exact ((List.map_inj_right (fun a b hab => by injection hab)).1 this).symm
      subst hcs
      rw [h5, hI.1] at h6
      exact ⟨h6, fun name hn => h7 name (by rw [hI.2.1]; exact hn)⟩)
    (by
      intro before m code sig sch v w hI hs hc
      obtain ⟨tr, ctx, raw, entries, h1, h2, h3, h4, h5⟩ := pkiVerifySignature_ok hc
      refine ⟨by rw [h5]; exact hI.signature _, ?_⟩
      obtain ⟨a, mc, ctx', es, b, k1, k2, k3, k4, k5⟩ := hI.2.2 tr h1
      rw [k5] at h2
      simp only [Option.some.injEq, Prod.mk.injEq] at h2
      rw [← h2.2] at h3
      have he := certOf_parse k3 h3
      obtain ⟨leaf, rest, dc, key, algo, m1, m2, m3, m4, m5⟩ := verifyPkiSignature_ok h4
      rw [he] at m1
      rw [k4] at m5
      refine ⟨a, mc, ctx', es, b, k1, k2, ?_⟩
      cases es with
      | nil => cases m1
      | cons e es =>
        simp only [List.map_cons, List.cons.injEq, CertEntry.x509.injEq] at m1
        exact ⟨e.1, es.map (·.1), dc, key, sch, algo, rfl, by rw [m1.1]; exact m2, m3, hs, m4, m5⟩)
    (by
      intro before m v hm hI
      refine ⟨hI.other hm, ?_⟩
      obtain ⟨h1, h2⟩ := hm m List.mem_cons_self
      obtain ⟨m, r⟩ := m
      cases r with
      | certificate ctx es => exact absurd rfl (h1 ctx es)
      | certificateVerify s sig => exact absurd rfl (h2 s sig)
      | _ => trivial)
    x.msgs [] _ v' (fun m hm => (hx.received.encoded m hm).1) hhost.2 (by simpa [Session.bytesOf] using hr)
  exact ⟨fun before m ctx es after hm => key.2 before _ after hm, fun before m code sig after hm => key.2 before _ after hm⟩

/-- **C60** If `open` succeeds with a new native verifier for the CA `ca`, then every Certificate the server sent leads to
`ca` (and names the configured server), and every CertificateVerify is a signature, valid under the key of the first
certificate of the Certificate before it, of the handshake messages up to and including that Certificate. -/
theorem C60_native (S : Suite) (hS : S.Lawful) (L : PkiLib) (F : Features) (now : Option Nat) (N : Nat) (cfg : Config)
    (p : Provider PkiVerifier) (ca : CertEntry) {c c' : Conn} (hf : c.Fresh S)
    (hv : p.verifier = some (pkiOps L S F now N)) (h : Conn.open_ S cfg p (PkiVerifier.new ca) c = (.ok (), c')) :
    (∀ name, cfg.serverName = some name → name.length ≤ 64) ∧
    ∃ x : Session, x.Received S (cfg.psk.map (·.1)) p.secret ∧ c.rx.bytes = x.received ++ c'.rx.bytes ∧
      Authenticated (LeadsTo L now ca cfg.serverName) (SignedByLeaf L) S x := by
  obtain ⟨x, hx⟩ := open_session S hS cfg p _ hf h
  obtain ⟨h1, h2⟩ := hx.native S L F now N cfg p ca hv h
  exact ⟨h1, x, hx.received, hx.bytes, h2⟩

/-- The certificates and signatures of a session with the webpki verifier. -/
theorem Established.webpki (S : Suite) (W : WebLib) (alloc : Bool) (now : Option Nat) (N : Nat) (cfg : Config)
    (p : Provider PkiVerifier) (ca : CertEntry) {c c' : Conn} {x : Session} (hx : Established S cfg p (PkiVerifier.new ca) c x c')
    (hv : p.verifier = some (webOps W S alloc now N)) (h : Conn.open_ S cfg p (PkiVerifier.new ca) c = (.ok (), c')) :
    (∀ name, cfg.serverName = some name → name.length ≤ 64) ∧
    Authenticated (WebAccepts W now ca cfg.serverName) (WebSigned W) S x := by
  obtain ⟨v', hr⟩ := hx.verifier _ hv
  have hhost : (∀ name, cfg.serverName = some name → name.length ≤ 64) ∧
      VerifierState ca cfg.serverName x.tr0 S.hashLen [] (hostVst cfg p (PkiVerifier.new ca)) := by
    cases hn : cfg.serverName with
    | none =>
      refine ⟨by simp, ?_⟩
      unfold hostVst
      rw [hv, hn]
      exact ⟨rfl, rfl, fun tr ht => by cases ht⟩
    | some name =>
      obtain ⟨w, h1, h2⟩ := open_setHostname S cfg p _ hv h name hn
      obtain ⟨h3, h4⟩ := pkiSetHostname_ok h1
      refine ⟨fun n hnn => by injection hnn with hnn; rw [← hnn]; exact h3, ?_⟩
      rw [h2, h4]
      exact ⟨rfl, rfl, fun tr ht => by cases ht⟩
  refine ⟨hhost.1, ?_⟩
  have key := verifierRun_induct (webOps W S alloc now N) x.tr0 S.hashLen
    (VerifierState ca cfg.serverName x.tr0 S.hashLen)
    (fun before r => match r.2 with
      | .certificate _ es => WebAccepts W now ca cfg.serverName (es.map (·.1))
      | .certificateVerify code sig => ∃ a mc ctx es b, before = a ++ (mc, .certificate ctx es) :: b ∧ noAuth b ∧
          WebSigned W (es.map (·.1)) code (serverSignedContent S (x.tr0 ++ Session.bytesOf a ++ mc)) sig
      | _ => True)
    (by
      intro before m ctx es v w hI hw hc
      obtain ⟨h1, h4⟩ := webVerifyCertificate_ok hc
      refine ⟨by rw [h4]; exact hI.certificate hw, ?_⟩
      obtain ⟨anchor, leaf, rest, k1, k2, -, k3, k4⟩ := webVerifyChain_ok h1
      rw [hI.1] at k1
      rw [hI.2.1] at k4
      cases es with
      | nil => cases k2
      | cons e es =>
        simp only [certOf, List.map_cons, List.cons.injEq, CertEntry.x509.injEq] at k2
        rw [← k2.1] at k3 k4
        exact ⟨anchor, e.1, es.map (·.1), k1, rfl, k3, k4⟩)
    (by
      intro before m code sig sch v w hI hs hc
      obtain ⟨tr, ctx, raw, entries, leaf, rest, algo, h1, h2, h3, h4, h5, h6, h7⟩ := webVerifySignature_ok hc
      refine ⟨by rw [h7]; exact hI.signature _, ?_⟩
      obtain ⟨a, mc, ctx', es, b, k1, k2, k3, k4, k5⟩ := hI.2.2 tr h1
      rw [k5] at h2
      simp only [Option.some.injEq, Prod.mk.injEq] at h2
      rw [← h2.2] at h3
      have he := certOf_parse k3 h3
      rw [h4] at he
      rw [k4] at h6
      refine ⟨a, mc, ctx', es, b, k1, k2, ?_⟩
      cases es with
      | nil => cases he
      | cons e es =>
        simp only [List.map_cons, List.cons.injEq, CertEntry.x509.injEq] at he
        rw [he.1] at h6
        exact ⟨e.1, es.map (·.1), sch, algo, rfl, hs, h5, h6⟩)
    (by
      intro before m v hm hI
      refine ⟨hI.other hm, ?_⟩
      obtain ⟨h1, h2⟩ := hm m List.mem_cons_self
      obtain ⟨m, r⟩ := m
      cases r with
      | certificate ctx es => exact absurd rfl (h1 ctx es)
      | certificateVerify s sig => exact absurd rfl (h2 s sig)
      | _ => trivial)
    x.msgs [] _ v' (fun m hm => (hx.received.encoded m hm).1) hhost.2 (by simpa [Session.bytesOf] using hr)
  exact ⟨fun before m ctx es after hm => key.2 before _ after hm, fun before m code sig after hm => key.2 before _ after hm⟩

/-- **C60 (webpki)** The same with the webpki verifier: webpki accepted the first certificate of every Certificate for the
CA, the time and the configured server, and verified every CertificateVerify with it. -/
theorem C60_webpki (S : Suite) (hS : S.Lawful) (W : WebLib) (alloc : Bool) (now : Option Nat) (N : Nat) (cfg : Config)
    (p : Provider PkiVerifier) (ca : CertEntry) {c c' : Conn} (hf : c.Fresh S)
    (hv : p.verifier = some (webOps W S alloc now N)) (h : Conn.open_ S cfg p (PkiVerifier.new ca) c = (.ok (), c')) :
    (∀ name, cfg.serverName = some name → name.length ≤ 64) ∧
    ∃ x : Session, x.Received S (cfg.psk.map (·.1)) p.secret ∧ c.rx.bytes = x.received ++ c'.rx.bytes ∧
      Authenticated (WebAccepts W now ca cfg.serverName) (WebSigned W) S x := by
  obtain ⟨x, hx⟩ := open_session S hS cfg p _ hf h
  obtain ⟨h1, h2⟩ := hx.webpki S W alloc now N cfg p ca hv h
  exact ⟨h1, x, hx.received, hx.bytes, h2⟩

/-! ### A toy server with certificate -/

/-- A provider with this verifier. -/
def authProv (ops : VerifierOps PkiVerifier) : Provider PkiVerifier :=
  ⟨List.replicate 32 9, [1], some ops, .err .internalError, none⟩

/-- The toy native verifier. -/
def toyNative : VerifierOps PkiVerifier := pkiOps toyPki toySuite allFeatures (some 20) 1000

/-- The toy webpki verifier. -/
def toyWebOps : VerifierOps PkiVerifier := webOps toyWeb toySuite false (some 20) 1000

/-- The Certificate message with these certificates. -/
def exCertMsg (certs : List Bytes) : RawMsg := .certificate [] (certs.map fun c => (c, []))

/-- The CertificateVerify of the key 3 over the messages up to the Certificate with `certs`. -/
def exCertVerify (certs : List Bytes) : RawMsg :=
  .certificateVerify 0x0403 (mix 4 ([3] ++ serverSignedContent toySuite
    (exHelloMsg exCfg ++ exSH.bytes ++ (RawMsg.encryptedExtensions []).bytes ++ (exCertMsg certs).bytes)))

/-- EncryptedExtensions, Certificate, CertificateVerify, Finished. -/
def exAuthFlight (certs : List Bytes) : List (List SrvMsg) :=
  [[exEE, .msg (exCertMsg certs)], [.msg (exCertVerify certs), .finished]]

/-- A leaf for example.com signed by the intermediate. -/
def exLeaf : Bytes := toyCert 2 3 10 50 "" ["example.com"]
/-- A leaf for example.com signed by the CA. -/
def exDirect : Bytes := toyCert 1 3 10 50 "" ["example.com"]

/-- The result of `open` against the toy server with these records. -/
def exAuthOpen (ops : VerifierOps PkiVerifier) (records : List (List SrvMsg)) : Res TlsError Unit :=
  (Conn.open_ toySuite exCfg (authProv ops) (PkiVerifier.new (.x509 toyCa))
    (exNew 600 [.data (exServer exCfg exSH records)])).1

set_option maxRecDepth 10000 in
example : exAuthOpen toyNative (exAuthFlight [exLeaf, toyInter]) = .ok () := by decide +kernel
set_option maxRecDepth 10000 in
example : exAuthOpen toyNative (exAuthFlight [toyCert 2 3 10 50 "" ["example.org"], toyInter]) = .err .invalidCertificate := by
  decide +kernel
set_option maxRecDepth 10000 in
example : exAuthOpen toyWebOps (exAuthFlight [exDirect]) = .ok () := by decide +kernel

/-! ## C61: panics of the native verifier -/

theorem extractCommonName_noPanic (L : PkiLib) : ∀ (subject : List (List Attr)) (cn : Option Bytes),
    extractCommonName L subject cn ≠ .panic := by
  intro subject
  induction subject with
  | nil => intro cn h; cases h
  | cons x xs ih =>
    intro cn
    cases x with
    | nil => simp [extractCommonName]
    | cons a as =>
      simp only [extractCommonName]
      split
      · split
        · exact ih _
        · simp
      · exact ih _

theorem sanLoop_noPanic (L : PkiLib) : ∀ (fuel : Nat) (b : Bytes) (names : List Bytes), b.length < fuel →
    sanLoop L fuel b names ≠ .panic := by
  intro fuel
  induction fuel with
  | zero => intro b names h; omega
  | succ fuel ih =>
    intro b names hb
    cases b with
    | nil => simp [sanLoop]
    | cons t ts =>
      simp only [sanLoop]
      cases hh : L.header (t :: ts) with
      | none => simp
      | some x =>
        obtain ⟨h, n⟩ := x
        simp only
        have hp := L.header_pos _ _ _ hh
        cases hd : derSlice n (List.drop h (t :: ts)) with
        | none => simp
        | some y =>
          obtain ⟨value, rest⟩ := y
          simp only
          have hl : rest.length < fuel := by
            obtain ⟨h1, -⟩ := derSlice_some hd
            have := congrArg List.length h1
            simp only [List.length_drop, List.length_append, List.length_cons] at this hb
            omega
          split
          · split
            · generalize (if names.length < 3 then names ++ [value] else names) = ns
              split
              · simp
              · exact ih _ _ hl
            · simp
          · exact ih _ _ hl

theorem extractSanDnsNames_noPanic (L : PkiLib) (c : DecodedCert) : extractSanDnsNames L c ≠ .panic := by
  unfold extractSanDnsNames
  cases c.extensions with
  | none => simp
  | some xs =>
    simp only
    generalize ([] : List Bytes) = names
    induction xs generalizing names with
    | nil => simp [sanExtensions]
    | cons e es ih =>
      unfold sanExtensions
      split
      · exact ih _
      · have : extractSan L e names ≠ .panic := by
          unfold extractSan
          split
          · simp
          · cases L.header e.value with
            | none => simp
            | some x =>
              obtain ⟨h, n⟩ := x
              simp only
              split
              · simp
              · cases derSlice n (List.drop h e.value) with
                | none => simp
                | some y => exact sanLoop_noPanic L _ _ _ (by simp)
        cases hx : extractSan L e names with
        | ok ns => simp only; exact ih _
        | err x => simp
        | panic => exact absurd hx this

/-- The one way in which checking a certificate panics: it is signed with Ed25519, and the key of the issuer does not have
32 bytes. -/
theorem verifyCertEntry_panic {L : PkiLib} {F : Features} {p q : CertEntry} {now : Option Nat}
    (h : verifyCertEntry L F p q now = .panic) :
    F.ed25519 = true ∧ ∃ issuer cert di dc key, p = .x509 issuer ∧ q = .x509 cert ∧ L.fromDer issuer = some di ∧
      L.fromDer cert = some dc ∧ di.publicKey = some key ∧ dc.sigAlg = ⟨[1, 3, 101, 112], none⟩ ∧ key.length ≠ 32 := by
  unfold verifyCertEntry at h
  cases p with
  | rawPublicKey _ => cases h
  | x509 issuer =>
    simp only at h
    cases h1 : L.fromDer issuer with
    | none => rw [h1] at h; cases h
    | some di =>
      rw [h1] at h
      simp only at h
      cases q with
      | rawPublicKey _ => cases h
      | x509 cert =>
        simp only at h
        cases h2 : L.fromDer cert with
        | none => rw [h2] at h; cases h
        | some dc =>
          rw [h2] at h
          simp only at h
          cases h3 : di.publicKey with
          | none => rw [h3] at h; cases h
          | some key =>
            rw [h3] at h
            simp only at h
            cases h4 : extractCommonName L dc.subject none with
            | err _ => rw [h4] at h; cases h
            | panic => exact absurd h4 (extractCommonName_noPanic L _ _)
            | ok cn =>
              rw [h4] at h
              simp only at h
              cases h5 : extractSanDnsNames L dc with
              | err _ => rw [h5] at h; cases h
              | panic => exact absurd h5 (extractSanDnsNames_noPanic L _)
              | ok sans =>
                rw [h5] at h
                simp only at h
                cases h6 : outOfPeriod now dc with
                | true => rw [h6] at h; cases h
                | false =>
                  rw [h6] at h
                  simp only [Bool.false_eq_true, if_false] at h
                  cases h7 : certTlvBytes L cert with
                  | none => rw [h7] at h; cases h
                  | some data =>
                    rw [h7] at h
                    simp only at h
                    cases h8 : certAlgo F dc.sigAlg with
                    | none => rw [h8] at h; cases h
                    | some algo =>
                      rw [h8] at h
                      simp only at h
                      cases h9 : checkCertSignature L algo key data dc.signature with
                      | err _ => rw [h9] at h; cases h
                      | ok b => rw [h9] at h; cases b <;> cases h
                      | panic =>
                        unfold checkCertSignature at h9
                        by_cases hk : algo = .ed25519 ∧ key.length ≠ 32
                        · obtain ⟨rfl, hk⟩ := hk
                          have hm := certAlgo_mem h8
                          have hF : F.ed25519 = true := by
                            unfold certAlgo at h8
                            cases hF : F.ed25519 with
                            | true => rfl
                            | false =>
                              rw [hF] at h8
                              simp only [Bool.false_eq_true, false_and, if_false] at h8
                              repeat (split at h8 <;> first | cases h8 | skip)
                              try cases h8
                          refine ⟨hF, issuer, cert, di, dc, key, rfl, rfl, h1, h2, h3, ?_, hk⟩
                          simpa [certificateAlgorithms] using hm
                        · rw [if_neg hk] at h9
                          split at h9
                          · cases h9
                          · cases hs : dc.signature with
                            | none => rw [hs] at h9; cases h9
                            | some sig =>
                              rw [hs] at h9
                              simp only at h9
                              split at h9 <;> cases h9

/-- **C61, the part that holds** Whatever the server sends, checking a certificate list with the native verifier panics only
if Ed25519 is compiled in and a certificate of the list is signed with Ed25519 while the key of its issuer (the next
certificate, or the CA) does not have 32 bytes. -/
theorem C61_native_partial (S : Suite) (L : PkiLib) (F : Features) (now : Option Nat) (N : Nat) (tr : Bytes) (c : CertMsg)
    (v : PkiVerifier) (h : ((pkiOps L S F now N).verifyCertificate tr c v).1 = .panic) :
    F.ed25519 = true ∧ ∃ (i : Nat) (issuer cert : Bytes) (di dc : DecodedCert) (key : Bytes),
      c.entries[i]? = some (.x509 cert) ∧ (c.entries ++ [v.ca])[i + 1]? = some (.x509 issuer) ∧
      L.fromDer issuer = some di ∧ L.fromDer cert = some dc ∧ di.publicKey = some key ∧
      dc.sigAlg = ⟨[1, 3, 101, 112], none⟩ ∧ key.length ≠ 32 := by
  have key : ∀ (rev : List CertEntry) (prev : CertEntry) (names : CertNames),
      verifyChain L F now prev rev names = .panic → ∃ (i : Nat) (p q : CertEntry), rev[i]? = some q ∧
        (prev :: rev)[i]? = some p ∧ verifyCertEntry L F p q now = .panic := by
    intro rev
    induction rev with
    | nil => intro prev names h; cases h
    | cons x xs ih =>
      intro prev names h
      unfold verifyChain at h
      cases hx : verifyCertEntry L F prev x now with
      | ok ns =>
        rw [hx] at h
        obtain ⟨i, p, q, h1, h2, h3⟩ := ih x ns h
        exact ⟨i + 1, p, q, by simpa using h1, by simpa using h2, h3⟩
      | err e => rw [hx] at h; cases h
      | panic => exact ⟨0, prev, x, rfl, rfl, hx⟩
  have hc : verifyChain L F now v.ca c.entries.reverse ⟨none, []⟩ = .panic := by
    simp only [pkiOps, pkiVerifyCertificate, M.get_bind] at h
    cases h1 : verifyChain L F now v.ca c.entries.reverse ⟨none, []⟩ with
    | panic => rfl
    | err e => rw [h1, M.lift_err_bind] at h; cases h
    | ok names =>
      rw [h1, M.lift_ok_bind] at h
      split at h
      · unfold certOwned at h
        by_cases h3 : c.requestContext.length ≤ 256
        · rw [if_pos h3] at h
          by_cases h4 : c.rawEntries.length ≤ N
          · rw [if_pos h4] at h; cases h
          · rw [if_neg h4] at h; cases h
        · rw [if_neg h3] at h; cases h
      · cases h
  obtain ⟨i, p, q, h1, h2, h3⟩ := key _ _ _ hc
  obtain ⟨hF, issuer, cert, di, dc, k, rfl, rfl, h4, h5, h6, h7, h8⟩ := verifyCertEntry_panic h3
  have hi : i < c.entries.length := by
    have := (List.getElem?_eq_some_iff.1 h1).1
    simpa using this
  refine ⟨hF, c.entries.length - 1 - i, issuer, cert, di, dc, k, ?_, ?_, h4, h5, h6, h7, h8⟩
  · rw [List.getElem?_reverse hi] at h1
    exact h1
  · have hr : v.ca :: c.entries.reverse = (c.entries ++ [v.ca]).reverse := by simp
    rw [hr, List.getElem?_reverse (by simp; omega)] at h2
    rw [← h2]
    congr 1
    simp
    omega

/-- The toy library, except that certificates whose period begins at second 25 are signed with Ed25519. -/
def toyEd : PkiLib :=
  { toyPki with fromDer := fun b => (toyDecode b).map fun d =>
      if d.notBefore = 25 then { d with sigAlg := ⟨[1, 3, 101, 112], none⟩ } else d }

set_option maxRecDepth 10000 in
/-- **C61, refuted** A server without any valid certificate makes `open` panic, before it has authenticated: it sends a
certificate marked as signed with Ed25519 while the key of the client's CA is of another kind. -/
theorem C61_refuted_open : ∃ (cfg : Config) (L : PkiLib) (ca : Bytes) (p : Provider PkiVerifier) (c : Conn),
    p.verifier = some (pkiOps L toySuite allFeatures (some 30) 1000) ∧ c.Fresh toySuite ∧
    (Conn.open_ toySuite cfg p (PkiVerifier.new (.x509 ca)) c).1 = .panic :=
  ⟨exCfg, toyEd, toyCa, authProv (pkiOps toyEd toySuite allFeatures (some 30) 1000),
    exNew 600 [.data (exServer exCfg exSH (exAuthFlight [toyCert 9 9 25 50 "" []]))], rfl, exNew_fresh _ _ (by decide),
    by decide +kernel⟩

set_option maxRecDepth 10000 in
/-- **C53, refuted by a server** With either verifier, a CertificateVerify without Certificate makes `open` panic, and so
does a second CertificateVerify after a correct one. -/
theorem C53_refuted_open : ∀ ops ∈ [toyNative, toyWebOps],
    exAuthOpen ops [[exEE, .msg (exCertVerify [exDirect])]] = .panic ∧
    exAuthOpen ops [[exEE, .msg (exCertMsg [exDirect]), .msg (exCertVerify [exDirect])],
      [.msg (exCertVerify [exDirect])]] = .panic := by
  intro ops h
  simp only [List.mem_cons, List.not_mem_nil, or_false] at h
  rcases h with rfl | rfl <;> exact ⟨by decide +kernel, by decide +kernel⟩

-- C62: the webpki verifier refuses what the native one accepts
set_option maxRecDepth 10000 in
example : exAuthOpen toyWebOps (exAuthFlight [exLeaf, toyInter]) = .err .invalidCertificate := by decide +kernel

end ETls
