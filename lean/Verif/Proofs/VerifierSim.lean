import Verif.Proofs.Session

/-!
# Two verifiers that answer alike

`open` uses the provider's verifier only through the three operations of `TlsVerifier`.  If two verifiers, whose states are
of different types, answer alike in related states, then `open` does the same with either.  `b = true`: they always answer
alike; `b = false`: the second accepts whatever the first accepts.
-/

namespace ETls
open Spec

/-- The outcomes that are carried over: all, or only success. -/
def Carried {α : Type} (b : Bool) (r : Res TlsError α) : Prop := b = true ∨ ∃ a, r = .ok a

/-- From related states, if the outcome of `m` is one to be carried over, `m'` has the same outcome and ends in a related
state. -/
def SimM {σ σ' α : Type} (b : Bool) (Q : σ → σ' → Prop) (m : M TlsError σ α) (m' : M TlsError σ' α) : Prop :=
  ∀ s s', Q s s' → Carried b (m s).1 → (m' s').1 = (m s).1 ∧ Q (m s).2 (m' s').2

variable {σ σ' α β : Type} {b : Bool} {Q : σ → σ' → Prop}

theorem SimM.pure (a : α) : SimM b Q (Pure.pure a) (Pure.pure a) := fun _ _ h _ => ⟨rfl, h⟩

theorem SimM.lift (r : Res TlsError α) : SimM b Q (M.lift r) (M.lift r) := fun _ _ h _ => ⟨rfl, h⟩

theorem SimM.fail (e : TlsError) : SimM b Q (M.fail e : M TlsError σ α) (M.fail e) := fun _ _ h _ => ⟨rfl, h⟩

theorem SimM.crash : SimM b Q (M.crash : M TlsError σ α) M.crash := fun _ _ h _ => ⟨rfl, h⟩

theorem SimM.bind {m : M TlsError σ α} {m' : M TlsError σ' α} {f : α → M TlsError σ β} {f' : α → M TlsError σ' β}
    (h : SimM b Q m m') (hf : ∀ a, SimM b Q (f a) (f' a)) : SimM b Q (m >>= f) (m' >>= f') := by
  intro s s' hq hc
  rcases hm : m s with ⟨r, t⟩
  rcases hm' : m' s' with ⟨r', t'⟩
  have key : Carried b r → r' = r ∧ Q t t' := by
    intro hr
    have := h s s' hq (by rw [hm]; exact hr)
    rw [hm, hm'] at this
    exact this
  cases r with
  | ok a =>
    obtain ⟨rfl, ht⟩ := key (.inr ⟨a, rfl⟩)
    rw [M.bind_ok hm] at hc ⊢
    rw [M.bind_ok hm']
    exact hf a t t' ht hc
  | err e =>
    rw [M.bind_err hm] at hc ⊢
    have hb : b = true := by
      rcases hc with hb | ⟨a, ha⟩
      · exact hb
      · cases ha
    obtain ⟨rfl, ht⟩ := key (.inl hb)
    rw [M.bind_err hm']
    exact ⟨rfl, ht⟩
  | panic =>
    rw [M.bind_panic hm] at hc ⊢
    have hb : b = true := by
      rcases hc with hb | ⟨a, ha⟩
      · exact hb
      · cases ha
    obtain ⟨rfl, ht⟩ := key (.inl hb)
    rw [M.bind_panic hm']
    exact ⟨rfl, ht⟩

/-- Reading the state: the continuations see related states. -/
theorem SimM.get_bind {f : σ → M TlsError σ β} {f' : σ' → M TlsError σ' β}
    (hf : ∀ s s', Q s s' → SimM b Q (f s) (f' s')) : SimM b Q (M.get >>= f) (M.get >>= f') := by
  intro s s' hq hc
  rw [M.get_bind] at hc ⊢
  rw [M.get_bind]
  exact hf s s' hq s s' hq hc

theorem SimM.modify {f : σ → σ} {f' : σ' → σ'} (h : ∀ s s', Q s s' → Q (f s) (f' s')) :
    SimM b Q (M.modify f) (M.modify f') := fun s s' hq _ => ⟨rfl, h s s' hq⟩

variable {V V' : Type} {R : V → V' → Prop}

/-- Handshake data that differ in the state of the verifier only. -/
def HsData.Rel (R : V → V' → Prop) (h : HsData V) (h' : HsData V') : Prop :=
  h'.trafficHash = h.trafficHash ∧ h'.secret = h.secret ∧ h'.certReq = h.certReq ∧ R h.vst h'.vst

/-- Handshake states that differ in the state of the verifier only. -/
def HSt.Rel (R : V → V' → Prop) (s : HSt V) (s' : HSt V') : Prop := s'.c = s.c ∧ HsData.Rel R s.h s'.h

/-- The second verifier answers as the first. -/
structure VerifierOps.Sim (b : Bool) (R : V → V' → Prop) (o : VerifierOps V) (o' : VerifierOps V') : Prop where
  hostname : ∀ name, SimM b R (o.setHostname name) (o'.setHostname name)
  certificate : ∀ tr c, SimM b R (o.verifyCertificate tr c) (o'.verifyCertificate tr c)
  signature : ∀ cv, SimM b R (o.verifySignature cv) (o'.verifySignature cv)

/-- Providers that differ in the verifier only, the second answering as the first. -/
structure Provider.Sim (b : Bool) (R : V → V' → Prop) (p : Provider V) (p' : Provider V') : Prop where
  random : p'.random = p.random
  secret : p'.secret = p.secret
  signer : p'.signer = p.signer
  cert : p'.clientCert = p.clientCert
  verifier : (p.verifier = none ∧ p'.verifier = none) ∨
    ∃ o o', p.verifier = some o ∧ p'.verifier = some o' ∧ VerifierOps.Sim b R o o'

theorem SimM.onConn (m : M TlsError Conn α) : SimM b (HSt.Rel R) (ETls.onConn m) (ETls.onConn m) := by
  intro s s' ⟨hc, hh⟩ _
  simp only [ETls.onConn]
  rw [hc]
  exact ⟨rfl, rfl, hh⟩

theorem SimM.onKs (m : M TlsError KeySchedule α) : SimM b (HSt.Rel R) (ETls.onKs m) (ETls.onKs m) := by
  intro s s' ⟨hc, hh⟩ _
  simp only [ETls.onKs]
  rw [hc]
  exact ⟨rfl, rfl, hh⟩

theorem SimM.modHs {f : HsData V → HsData V} {f' : HsData V' → HsData V'}
    (h : ∀ x x', HsData.Rel R x x' → HsData.Rel R (f x) (f' x')) :
    SimM b (HSt.Rel R) (ETls.modHs f) (ETls.modHs f') :=
  SimM.modify fun _ _ hq => ⟨hq.1, h _ _ hq.2⟩

/-! ## The callbacks of `decrypt_record` -/

/-- The state of the callback. -/
def CbRel (R : V → V' → Prop) (s : ReadKS × (HsData V × State)) (s' : ReadKS × (HsData V' × State)) : Prop :=
  s'.1 = s.1 ∧ HsData.Rel R s.2.1 s'.2.1 ∧ s'.2.2 = s.2.2

theorem SimM.onVerifier {m : M TlsError V α} {m' : M TlsError V' α} (h : SimM b R m m') :
    SimM b (CbRel R) (ETls.onVerifier m) (ETls.onVerifier m') := by
  intro ⟨k, hd, st⟩ ⟨k', hd', st'⟩ ⟨h1, h2, h3⟩ hc
  obtain ⟨i1, i2⟩ := h hd.vst hd'.vst h2.2.2.2 hc
  exact ⟨i1, h1, ⟨h2.1, h2.2.1, h2.2.2.1, i2⟩, h3⟩

variable (S : Suite)

theorem serverVerifyHandler_sim {p : Provider V} {p' : Provider V'} (hp : Provider.Sim b R p p') (rec : ServerRecord) :
    SimM b (CbRel R) (serverVerifyHandler S p rec) (serverVerifyHandler S p' rec) := by
  cases rec with
  | handshake m =>
    cases m with
    | encryptedExtensions => exact .pure ()
    | certificate c =>
      refine .get_bind ?_
      intro ⟨k, hd, st⟩ ⟨k', hd', st'⟩ ⟨h1, _, _⟩
      simp only at h1
      subst h1
      rcases hp.verifier with ⟨e, e'⟩ | ⟨o, o', e, e', ho⟩
      · simp only [e, e']; exact .pure ()
      · simp only [e, e']; exact .onVerifier (ho.certificate _ _)
    | certificateVerify v =>
      simp only [serverVerifyHandler]
      rcases hp.verifier with ⟨e, e'⟩ | ⟨o, o', e, e', ho⟩
      · simp only [e, e']; exact .pure ()
      · simp only [e, e']; exact .onVerifier (ho.signature _)
    | certificateRequest ctx =>
      refine .bind (.lift _) fun owned => .modify ?_
      intro ⟨k, hd, st⟩ ⟨k', hd', st'⟩ ⟨h1, h2, h3⟩
      exact ⟨h1, ⟨h2.1, h2.2.1, rfl, h2.2.2.2⟩, h3⟩
    | finished f =>
      refine .get_bind ?_
      intro ⟨k, hd, st⟩ ⟨k', hd', st'⟩ ⟨h1, h2, h3⟩
      simp only at h1 h2
      subst h1
      refine .bind (.lift _) fun good => ?_
      cases good with
      | false => exact .fail _
      | true =>
        simp only [if_true]
        rw [h2.2.2.1]
        cases hd.certReq.isSome with
        | true =>
          simp only [if_true]
          exact .modify fun ⟨k, x, st⟩ ⟨k', x', st'⟩ ⟨g1, g2, g3⟩ => ⟨g1, g2, rfl⟩
        | false =>
          refine .modify fun ⟨k, x, st⟩ ⟨k', x', st'⟩ ⟨g1, g2, g3⟩ => ?_
          simp only at g1
          subst g1
          exact ⟨rfl, ⟨rfl, g2.2⟩, rfl⟩
    | serverHello _ => exact .fail _
    | newSessionTicket => exact .fail _
  | changeCipherSpec => exact .pure ()
  | alert a => exact .fail _
  | appData a c d => exact .fail _

/-- The states of two callbacks with the same key schedule. -/
def KsRel {τ τ' : Type} (T : τ → τ' → Prop) (s : ReadKS × τ) (s' : ReadKS × τ') : Prop := s'.1 = s.1 ∧ T s.2 s'.2

theorem handshakeLoop_sim {τ τ' : Type} {T : τ → τ' → Prop}
    {cb : ServerRecord → M TlsError (ReadKS × τ) Unit} {cb' : ServerRecord → M TlsError (ReadKS × τ') Unit}
    (hcb : ∀ rec, SimM b (KsRel T) (cb rec) (cb' rec)) :
    ∀ (fuel : Nat) (p : PB), SimM b (KsRel T) (handshakeLoop S cb fuel p) (handshakeLoop S cb' fuel p) := by
  intro fuel
  induction fuel with
  | zero => intro p s s' h _; exact ⟨rfl, h⟩
  | succ n ih =>
    intro p ⟨k, t⟩ ⟨k', t'⟩ ⟨h1, h2⟩ hc
    simp only at h1 h2
    subst h1
    simp only [handshakeLoop] at hc ⊢
    by_cases hrem : p.buffer.length - p.pos > 0
    · rw [if_pos hrem] at hc ⊢
      rw [if_pos hrem]
      rcases hr : ServerHs.read S (p, k'.transcript) with ⟨r, p', tr⟩
      rw [hr] at hc
      cases r with
      | err e => exact ⟨rfl, rfl, h2⟩
      | panic => exact ⟨rfl, rfl, h2⟩
      | ok m =>
        simp only at hc ⊢
        rcases hm : cb (.handshake m) ({ k' with transcript := tr }, t) with ⟨r, kt⟩
        rcases hm' : cb' (.handshake m) ({ k' with transcript := tr }, t') with ⟨r', kt'⟩
        have key := hcb (.handshake m) ({ k' with transcript := tr }, t) ({ k' with transcript := tr }, t') ⟨rfl, h2⟩
        rw [hm, hm'] at key
        rw [hm] at hc
        cases r with
        | ok u =>
          obtain ⟨g1, g2⟩ := key (.inr ⟨u, rfl⟩)
          simp only at g1 g2
          subst g1
          exact ih p' kt kt' g2 hc
        | err e =>
          rcases hc with hb | ⟨a, ha⟩
          · obtain ⟨g1, g2⟩ := key (.inl hb)
            simp only at g1 g2
            subst g1
            exact ⟨rfl, g2⟩
          · cases ha
        | panic =>
          rcases hc with hb | ⟨a, ha⟩
          · obtain ⟨g1, g2⟩ := key (.inl hb)
            simp only at g1 g2
            subst g1
            exact ⟨rfl, g2⟩
          · cases ha
    · rw [if_neg hrem, if_neg hrem]
      exact ⟨rfl, rfl, h2⟩

theorem dispatchInner_sim {τ τ' : Type} {T : τ → τ' → Prop}
    {cb : ServerRecord → M TlsError (ReadKS × τ) Unit} {cb' : ServerRecord → M TlsError (ReadKS × τ') Unit}
    (hcb : ∀ rec, SimM b (KsRel T) (cb rec) (cb' rec)) (header : Bytes) (start : Nat) (pt : Bytes) :
    SimM b (KsRel T) (dispatchInner S cb header start pt) (dispatchInner S cb' header start pt) := by
  unfold dispatchInner
  split
  · exact .crash
  · split
    · exact .fail _
    · rename_i ct _
      cases ct with
      | handshake => exact handshakeLoop_sim S hcb _ _
      | applicationData => exact hcb _
      | alert => exact .bind (.lift _) fun a => hcb _
      | _ => exact .fail _

/-- The states of `decrypt_record` with two callbacks. -/
def DSt.Rel {τ τ' : Type} (T : τ → τ' → Prop) (s : DSt τ) (s' : DSt τ') : Prop :=
  s'.rks = s.rks ∧ s'.buf = s.buf ∧ T s.ext s'.ext

theorem decryptRecord_sim {τ τ' : Type} {T : τ → τ' → Prop}
    {cb : ServerRecord → M TlsError (ReadKS × τ) Unit} {cb' : ServerRecord → M TlsError (ReadKS × τ') Unit}
    (hcb : ∀ rec, SimM b (KsRel T) (cb rec) (cb' rec)) (rec : ServerRecord) :
    SimM b (DSt.Rel T) (decryptRecord S cb rec) (decryptRecord S cb' rec) := by
  have other : ∀ rec, SimM b (DSt.Rel T) (fun s => ((cb rec (s.rks, s.ext)).1,
        (⟨(cb rec (s.rks, s.ext)).2.1, s.buf, (cb rec (s.rks, s.ext)).2.2⟩ : DSt τ)))
      (fun s => ((cb' rec (s.rks, s.ext)).1, (⟨(cb' rec (s.rks, s.ext)).2.1, s.buf, (cb' rec (s.rks, s.ext)).2.2⟩ : DSt τ'))) := by
    intro rec ⟨k, bf, t⟩ ⟨k', bf', t'⟩ ⟨h1, h2, h3⟩ hc
    simp only at h1 h2 h3
    subst h1 h2
    obtain ⟨g1, g2, g3⟩ := hcb rec (k', t) (k', t') ⟨rfl, h3⟩ hc
    exact ⟨g1, g2, rfl, g3⟩
  cases rec with
  | appData header start data =>
    intro ⟨k, bf, t⟩ ⟨k', bf', t'⟩ ⟨h1, h2, h3⟩ hc
    simp only at h1 h2 h3
    subst h1 h2
    simp only [decryptRecord] at hc ⊢
    cases ho : S.open_ k'.st.key (k'.st.nonce S) header data with
    | none => exact ⟨rfl, rfl, rfl, h3⟩
    | some pt =>
      rw [ho] at hc
      simp only at hc ⊢
      rcases hm : dispatchInner S cb header start pt (k', t) with ⟨r, k1, t1⟩
      rcases hm' : dispatchInner S cb' header start pt (k', t') with ⟨r', k2, t2⟩
      have key := dispatchInner_sim S hcb header start pt (k', t) (k', t') ⟨rfl, h3⟩
      rw [hm, hm'] at key
      rw [hm] at hc
      cases r with
      | ok u =>
        obtain ⟨g1, g2, g3⟩ := key (.inr ⟨u, rfl⟩)
        simp only at g1 g2 g3
        subst g1 g2
        exact ⟨rfl, rfl, rfl, g3⟩
      | err e =>
        rcases hc with hb | ⟨a, ha⟩
        · obtain ⟨g1, g2, g3⟩ := key (.inl hb)
          simp only at g1 g2 g3
          subst g1 g2
          exact ⟨rfl, rfl, rfl, g3⟩
        · cases ha
      | panic =>
        rcases hc with hb | ⟨a, ha⟩
        · obtain ⟨g1, g2, g3⟩ := key (.inl hb)
          simp only at g1 g2 g3
          subst g1 g2
          exact ⟨rfl, rfl, rfl, g3⟩
        · cases ha
  | handshake m => exact other (.handshake m)
  | alert a => exact other (.alert a)
  | changeCipherSpec => exact other .changeCipherSpec

/-! ## The handshake -/

theorem processServerVerify_sim {p : Provider V} {p' : Provider V'} (hp : Provider.Sim b R p p') (rec : ServerRecord) :
    SimM b (HSt.Rel R) (processServerVerify S p rec) (processServerVerify S p' rec) := by
  intro s s' ⟨hc, hh⟩ hcar
  simp only [processServerVerify] at hcar ⊢
  rw [hc]
  rcases hm : decryptRecord S (serverVerifyHandler S p) rec ⟨s.c.ks.server, s.c.rr.buf, (s.h, State.serverVerify)⟩
    with ⟨r, d⟩
  rcases hm' : decryptRecord S (serverVerifyHandler S p') rec ⟨s.c.ks.server, s.c.rr.buf, (s'.h, State.serverVerify)⟩
    with ⟨r', d'⟩
  have key := decryptRecord_sim S (T := fun x x' => HsData.Rel R x.1 x'.1 ∧ x'.2 = x.2)
    (serverVerifyHandler_sim S hp) rec ⟨s.c.ks.server, s.c.rr.buf, (s.h, State.serverVerify)⟩
    ⟨s.c.ks.server, s.c.rr.buf, (s'.h, State.serverVerify)⟩ ⟨rfl, rfl, hh, rfl⟩
  rw [hm, hm'] at key
  rw [hm] at hcar
  have hr : Carried b r := by
    rcases hcar with hb | ⟨a, ha⟩
    · exact .inl hb
    · cases r with
      | ok u => exact .inr ⟨u, rfl⟩
      | err e => cases ha
      | panic => cases ha
  obtain ⟨g1, g2, g3, g4, g5⟩ := key hr
  simp only at g1 g2 g3 g4 g5 ⊢
  subst g1
  exact ⟨by rw [g5], by rw [g2, g3], g4⟩

/-- Reporting an error does not make it a success. -/
theorem handleProcessingError_not_ok (e : TlsError) (a : State) (c : Conn) :
    (handleProcessingError S (.err e) c).1 ≠ .ok a := by
  intro h
  have h : handleProcessingError S (.err e) c = (.ok a, (handleProcessingError S (.err e) c).2) := by rw [← h]
  cases e with
  | abortHandshake l d =>
    obtain ⟨_, _, _, h⟩ := M.bind_inv h
    obtain ⟨_, _, _, h⟩ := M.bind_inv h
    cases h
  | _ => cases h

theorem withErrorHandling_sim {m : M TlsError (HSt V) State} {m' : M TlsError (HSt V') State}
    (h : SimM b (HSt.Rel R) m m') : SimM b (HSt.Rel R) (withErrorHandling S m) (withErrorHandling S m') := by
  intro s s' hq hc
  simp only [withErrorHandling] at hc ⊢
  rcases hm : m s with ⟨r, t⟩
  rcases hm' : m' s' with ⟨r', t'⟩
  have key := h s s' hq
  rw [hm, hm'] at key
  rw [hm] at hc
  have hr : Carried b r := by
    rcases hc with hb | ⟨a, ha⟩
    · exact .inl hb
    · cases r with
      | ok u => exact .inr ⟨u, rfl⟩
      | err e =>
        exact absurd ha (handleProcessingError_not_ok S e a t.c)
      | panic =>
        exfalso
        simp only [onConn, handleProcessingError] at ha
        cases ha
  obtain ⟨g1, g2⟩ := key hr
  simp only at g1 g2
  subst g1
  exact SimM.onConn (handleProcessingError S r') t t' g2 hc

theorem clientHello_sim (cfg : Config) {p : Provider V} {p' : Provider V'} (hp : Provider.Sim b R p p') :
    SimM b (HSt.Rel R) (clientHello S cfg p) (clientHello S cfg p') := by
  unfold clientHello
  rw [hp.random, hp.secret]
  exact .bind (.onKs _) fun _ => .bind (.onConn _) fun _ =>
    .bind (.modHs fun _ _ h => ⟨h.1, rfl, h.2.2⟩) fun _ => .pure _

theorem processServerHello_sim (rec : ServerRecord) :
    SimM b (HSt.Rel R) (processServerHello S rec) (processServerHello S rec) := by
  unfold processServerHello
  split
  · refine .get_bind fun s s' hq => ?_
    rw [hq.2.2.1]
    split
    · exact .fail _
    · refine .bind (.modHs fun _ _ h => ⟨h.1, rfl, h.2.2⟩) fun _ => ?_
      split
      · exact .fail _
      · exact .bind (.onKs _) fun _ => .pure _
  · exact .fail _
  · exact .fail _
  · exact .fail _

theorem clientCert_sim {p : Provider V} {p' : Provider V'} (hp : Provider.Sim b R p p') :
    SimM b (HSt.Rel R) (clientCert S p) (clientCert S p') := by
  unfold clientCert
  refine .get_bind fun s s' hq => ?_
  rw [hq.1, hq.2.2.2.1, hp.cert]
  refine .bind (.modHs fun _ _ h => ⟨rfl, h.2⟩) fun _ => ?_
  split
  · exact .fail _
  · exact .bind (.onConn _) fun _ => .pure _

theorem clientCertVerify_sim {p : Provider V} {p' : Provider V'} (hp : Provider.Sim b R p p') :
    SimM b (HSt.Rel R) (clientCertVerify S p) (clientCertVerify S p') := by
  unfold clientCertVerify
  refine .get_bind fun s s' hq => ?_
  rw [hq.1, hp.signer]
  split
  · exact .crash
  · dsimp only
    split
    · exact .fail _
    · split
      · exact .crash
      · split
        · exact .crash
        · exact .bind (.onConn _) fun _ => .pure _
  · exact .bind (.onConn _) fun _ => .pure _

theorem clientFinished_sim : SimM b (HSt.Rel R) (clientFinished S) (clientFinished S) := by
  unfold clientFinished
  refine .get_bind fun s s' hq => ?_
  rw [hq.1]
  exact .bind (.lift _) fun _ => .onConn _

theorem clientFinishedFinalize_sim : SimM b (HSt.Rel R) (clientFinishedFinalize S) (clientFinishedFinalize S) := by
  unfold clientFinishedFinalize
  refine .get_bind fun s s' hq => ?_
  rw [hq.2.1]
  split
  · exact .fail _
  · exact .bind (.modHs fun _ _ h => ⟨rfl, h.2⟩) fun _ => .bind (.onKs _) fun _ => .bind (.onKs _) fun _ => .pure _

theorem process_sim (cfg : Config) {p : Provider V} {p' : Provider V'} (hp : Provider.Sim b R p p') (st : State) :
    SimM b (HSt.Rel R) (process S cfg p st) (process S cfg p' st) := by
  cases st with
  | clientHello =>
    simp only [process]
    exact .bind (clientHello_sim S cfg hp) fun _ => .bind (.onConn _) fun _ => .pure _
  | serverHello =>
    simp only [process]
    exact .bind (.onConn _) fun _ => withErrorHandling_sim S (processServerHello_sim S _)
  | serverVerify =>
    simp only [process]
    exact .bind (.onConn _) fun _ => withErrorHandling_sim S (processServerVerify_sim S hp _)
  | clientCert =>
    simp only [process]
    exact .bind (clientCert_sim S hp) fun _ => .bind (.onConn _) fun _ => .pure _
  | clientCertVerify =>
    simp only [process]
    exact .bind (clientCertVerify_sim S hp) fun _ => .bind (.onConn _) fun _ => .lift _
  | clientFinished =>
    simp only [process]
    exact .bind (clientFinished_sim S) fun _ => .bind (.onConn _) fun _ => clientFinishedFinalize_sim S
  | applicationData => exact .pure _

theorem openLoop_sim (cfg : Config) {p : Provider V} {p' : Provider V'} (hp : Provider.Sim b R p p') :
    ∀ (fuel : Nat) (st : State), SimM b (HSt.Rel R) (openLoop S cfg p fuel st) (openLoop S cfg p' fuel st) := by
  intro fuel
  induction fuel with
  | zero => intro st; exact .crash
  | succ n ih =>
    intro st
    simp only [openLoop]
    split
    · exact .pure _
    · exact .bind (process_sim S cfg hp st) fun st' => ih st'

theorem setHostname_sim (cfg : Config) {p : Provider V} {p' : Provider V'} (hp : Provider.Sim b R p p') :
    SimM b (HSt.Rel R) (setHostname cfg p) (setHostname cfg p') := by
  unfold setHostname
  rcases hp.verifier with ⟨e, e'⟩ | ⟨o, o', e, e', ho⟩
  · rw [e, e']; exact .pure _
  · rw [e, e']
    cases cfg.serverName with
    | none => exact .pure _
    | some name =>
      intro s s' ⟨hc, hh⟩ hcar
      obtain ⟨g1, g2⟩ := ho.hostname name _ _ hh.2.2.2 hcar
      exact ⟨g1, hc, hh.1, hh.2.1, hh.2.2.1, g2⟩

theorem openSt_sim (cfg : Config) {p : Provider V} {p' : Provider V'} (hp : Provider.Sim b R p p') :
    SimM b (HSt.Rel R) (openSt S cfg p) (openSt S cfg p') := by
  unfold openSt
  refine .bind (setHostname_sim cfg hp) fun _ => .get_bind fun s s' hq => ?_
  rw [hq.1]
  refine .bind (openLoop_sim S cfg hp _ _) fun _ => .modify fun s s' hq => ⟨?_, hq.2⟩
  simp only [hq.1]

/-- `open` with a verifier that answers as another: the same outcome, and the connection is left in the same state. -/
theorem open_sim (cfg : Config) {p : Provider V} {p' : Provider V'} (hp : Provider.Sim b R p p') {v : V} {v' : V'}
    (hv : R v v') (c : Conn) (hc : Carried b (Conn.open_ S cfg p v c).1) :
    Conn.open_ S cfg p' v' c = Conn.open_ S cfg p v c := by
  obtain ⟨g1, g2, _⟩ := openSt_sim S cfg hp ⟨c, ⟨none, none, none, v⟩⟩ ⟨c, ⟨none, none, none, v'⟩⟩
    ⟨rfl, rfl, rfl, rfl, hv⟩ hc
  unfold Conn.open_
  exact Prod.ext g1 g2

/-- The run of the verifier over the messages of a session. -/
theorem verifierRun_sim {o : VerifierOps V} {o' : VerifierOps V'} (ho : VerifierOps.Sim b R o o') :
    ∀ (ms : List (Bytes × RawMsg)) (tr : Bytes), SimM b R (verifierRun o tr ms) (verifierRun o' tr ms) := by
  intro ms
  induction ms with
  | nil => intro tr; exact .pure _
  | cons m ms ih =>
    intro tr
    obtain ⟨m, r⟩ := m
    cases r with
    | certificate ctx es => exact .bind (ho.certificate _ _) fun _ => ih _
    | certificateVerify s sig =>
      simp only [verifierRun]
      cases SignatureScheme.of s with
      | none => exact ih _
      | some x => exact .bind (ho.signature _) fun _ => ih _
    | _ => exact ih _

/-- A session established with one verifier is one established with a verifier that accepts what the first accepts. -/
theorem Established.sim {cfg : Config} {p : Provider V} {p' : Provider V'} (hp : Provider.Sim b R p p') {v : V} {v' : V'}
    (hv : R v v') {c c' : Conn} {x : Session} (hx : Established S cfg p v c x c')
    (h : Conn.open_ S cfg p v c = (.ok (), c')) : Established S cfg p' v' c x c' := by
  have e1 : p'.secret = p.secret := hp.secret
  have e2 : p'.random = p.random := hp.random
  refine ⟨by rw [e1]; exact hx.received, hx.bytes, by rw [e1, e2]; exact hx.hello, hx.sent, hx.kinds, hx.finished, ?_,
    by rw [hp.cert, hp.signer]; exact hx.ending, hx.clientKeys, hx.serverKeys, hx.opened⟩
  intro ops hops
  rcases hp.verifier with ⟨_, e'⟩ | ⟨o, o', e, e', ho⟩
  · rw [e'] at hops; cases hops
  · rw [e'] at hops
    injection hops with hops
    subst hops
    obtain ⟨w, hr⟩ := hx.verifier o e
    have hh : R (hostVst cfg p v) (hostVst cfg p' v') := by
      unfold hostVst
      rw [e, e']
      cases hn : cfg.serverName with
      | none => exact hv
      | some name =>
        have hok : (o.setHostname name v).1 = .ok () := by
          unfold Conn.open_ at h
          rcases hs : openSt S cfg p ⟨c, ⟨none, none, none, v⟩⟩ with ⟨r, s⟩
          rw [hs] at h
          simp only [Prod.mk.injEq] at h
          obtain ⟨rfl, rfl⟩ := h
          unfold openSt at hs
          obtain ⟨_, s0, h0, -⟩ := M.bind_inv hs
          unfold setHostname at h0
          rw [e, hn] at h0
          simp only [Prod.mk.injEq] at h0
          exact h0.1
        exact (ho.hostname name v v' hv (.inr ⟨(), hok⟩)).2
    obtain ⟨g1, -⟩ := verifierRun_sim ho x.msgs x.tr0 _ _ hh (by rw [hr]; exact .inr ⟨(), rfl⟩)
    rw [hr] at g1
    exact ⟨_, Prod.ext g1 rfl⟩

end ETls
