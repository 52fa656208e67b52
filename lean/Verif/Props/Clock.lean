import Verif.Proofs.VerifierSim
import Verif.Model.Clock
import Verif.Props.NativeAuth
import Verif.Props.Complaint

/-!
# C124, C125: the clock

The code asks the clock for every certificate (native verifier) or every Certificate message (webpki) anew.  With a clock
that stands still `open` is what the other theorems are about; with one that moves, every certificate accepted was within
its validity period when it was looked at, and everything that holds of a successful `open` without a clock holds too.
-/

namespace ETls
open Spec

variable {L : PkiLib} {F : Features}

theorem SimM.onFst {σ σ' τ α : Type} {b : Bool} {Q : σ × τ → σ' → Prop} {m : M TlsError σ α} {m' : M TlsError σ' α}
    (h : ∀ s t s', Q (s, t) s' → Carried b (m s).1 → (m' s').1 = (m s).1 ∧ Q ((m s).2, t) (m' s').2) :
    SimM b Q (ETls.onFst m) m' := by
  intro ⟨s, t⟩ s' hq hc
  exact h s t s' hq hc

/-- The same verifier, the number of readings forgotten. -/
def SameVerifier (s : Timed) (v : PkiVerifier) : Prop := v = s.1

theorem SameVerifier.onFst {b : Bool} {α : Type} (m : M TlsError PkiVerifier α) :
    SimM b SameVerifier (ETls.onFst m) m := by
  intro ⟨v, k⟩ v' hq _
  cases hq
  exact ⟨rfl, rfl⟩

theorem verifyChainClk_still {clk : Clock} {now : Option Nat} (hclk : ∀ k, clk k = .ok now) (l : List CertEntry) :
    ∀ (prev : CertEntry) (names : CertNames) (v : PkiVerifier) (k : Nat),
      verifyChainClk L F clk prev l names (v, k) = (verifyChain L F now prev l names, (v, (verifyChainClk L F clk prev l names (v, k)).2.2)) := by
  induction l with
  | nil => intro prev names v k; rfl
  | cons x xs ih =>
    intro prev names v k
    have hr : readClock clk (v, k) = (.ok now, (v, k + 1)) := by simp [readClock, hclk]
    simp only [verifyChainClk, verifyChain]
    rw [M.bind_ok hr]
    cases hx : verifyCertEntry L F prev x now with
    | ok n => rw [M.lift_ok_bind]; exact ih x n v (k + 1)
    | err e => rw [M.lift_err_bind]
    | panic => rw [M.lift_panic_bind]

/-- `verify_certificate` after the chain has been checked. -/
theorem pkiVerifyCertificate_after (now : Option Nat) (N : Nat) (tr : Bytes) (c : CertMsg) (v : PkiVerifier) :
    pkiVerifyCertificate L F now N tr c v =
      (M.lift (verifyChain L F now v.ca c.entries.reverse ⟨none, []⟩) >>= fun names =>
        if hostnameMatch names v.host then keepCertificate N tr c else M.fail .invalidCertificate) v := by
  unfold pkiVerifyCertificate keepCertificate
  rw [M.get_bind]

theorem pkiClockOps_still (S : Suite) {clk : Clock} {now : Option Nat} (N : Nat) (hclk : ∀ k, clk k = .ok now) :
    VerifierOps.Sim true SameVerifier (pkiClockOps L S F clk N) (pkiOps L S F now N) where
  hostname name := SameVerifier.onFst _
  signature cv := SameVerifier.onFst _
  certificate tr c := by
    intro ⟨v, k⟩ v' hq _
    cases hq
    simp only [pkiClockOps, pkiOps]
    rw [pkiVerifyCertificate_after]
    unfold pkiVerifyCertificateClk
    rw [M.get_bind]
    have hs := verifyChainClk_still (L := L) (F := F) hclk c.entries.reverse v.ca ⟨none, []⟩ v k
    cases hc : verifyChain L F now v.ca c.entries.reverse ⟨none, []⟩ with
    | ok names =>
      rw [hc] at hs
      rw [M.bind_ok hs, M.lift_ok_bind]
      cases hostnameMatch names v.host with
      | true => exact ⟨rfl, rfl⟩
      | false => exact ⟨rfl, rfl⟩
    | err e => rw [hc] at hs; rw [M.bind_err hs, M.lift_err_bind]; exact ⟨rfl, rfl⟩
    | panic => rw [hc] at hs; rw [M.bind_panic hs, M.lift_panic_bind]; exact ⟨rfl, rfl⟩

theorem webClockOps_still (S : Suite) (W : WebLib) (alloc : Bool) {clk : Clock} {now : Option Nat} (N : Nat)
    (hclk : ∀ k, clk k = .ok now) :
    VerifierOps.Sim true SameVerifier (webClockOps W S alloc clk N) (webOps W S alloc now N) where
  hostname name := SameVerifier.onFst _
  signature cv := SameVerifier.onFst _
  certificate tr c := by
    intro ⟨v, k⟩ v' hq _
    cases hq
    have hr : readClock clk (v, k) = (.ok now, (v, k + 1)) := by simp [readClock, hclk]
    simp only [webClockOps, webOps, webVerifyCertificateClk]
    rw [M.bind_ok hr]
    exact ⟨rfl, rfl⟩

/-- The provider with the verifier replaced by one with another kind of state. -/
def Provider.reverify {V V' : Type} (p : Provider V) (o : VerifierOps V') : Provider V' :=
  ⟨p.random, p.secret, some o, p.signer, p.clientCert⟩

theorem Provider.Sim.reverify {V V' : Type} {b : Bool} {R : V → V' → Prop} {p : Provider V} {o : VerifierOps V}
    {o' : VerifierOps V'} (hv : p.verifier = some o) (h : VerifierOps.Sim b R o o') :
    Provider.Sim b R p (p.reverify o') :=
  ⟨rfl, rfl, rfl, rfl, .inr ⟨o, o', hv, rfl, h⟩⟩

/-- **C124 (a clock that stands still)** If every reading of the clock is `now`, `open` with the verifiers of the crate does
what it does with the value `now`: the theorems stated with a value for the time speak about these clocks. -/
theorem C124_still (S : Suite) (clk : Clock) (now : Option Nat) (hclk : ∀ k, clk k = .ok now) (N : Nat) (cfg : Config)
    (p : Provider Timed) (v : PkiVerifier) (k : Nat) (c : Conn) :
    (∀ L F, p.verifier = some (pkiClockOps L S F clk N) →
      Conn.open_ S cfg p (v, k) c = Conn.open_ S cfg (p.reverify (pkiOps L S F now N)) v c) ∧
    ∀ W alloc, p.verifier = some (webClockOps W S alloc clk N) →
      Conn.open_ S cfg p (v, k) c = Conn.open_ S cfg (p.reverify (webOps W S alloc now N)) v c :=
  ⟨fun _ _ hv => (open_sim S cfg (.reverify hv (pkiClockOps_still S N hclk)) rfl c (.inl rfl)).symm,
   fun W alloc hv => (open_sim S cfg (.reverify hv (webClockOps_still S W alloc N hclk)) rfl c (.inl rfl)).symm⟩

/-! ## A clock that moves -/

/-- A certificate in its period is judged as without a clock. -/
theorem verifyCertEntry_inPeriod {p : CertEntry} {cert : Bytes} {now : Option Nat} (h : ValidAt L now cert) :
    verifyCertEntry L F p (.x509 cert) now = verifyCertEntry L F p (.x509 cert) none := by
  obtain ⟨dc, hd, -⟩ := id h
  have hp := (outOfPeriod_iff hd).2 h
  have hn : outOfPeriod none dc = false := rfl
  unfold verifyCertEntry
  simp only [hd, hp, hn]

/-- One certificate: with a reading it is accepted exactly if it is accepted without a clock and valid at that time. -/
theorem verifyCertEntry_now {p q : CertEntry} {now : Option Nat} {names : CertNames} :
    verifyCertEntry L F p q now = .ok names ↔
      verifyCertEntry L F p q none = .ok names ∧ ∃ cert, q = .x509 cert ∧ ValidAt L now cert := by
  constructor
  · intro h
    obtain ⟨issuer, cert, dc, -, rfl, h3, -, h5, -⟩ := verifyCertEntry_ok h
    exact ⟨by rw [← verifyCertEntry_inPeriod h5]; exact h, cert, rfl, h5⟩
  · rintro ⟨h, cert, rfl, hv⟩
    rw [verifyCertEntry_inPeriod hv]
    exact h

/-- From reading number `k` on, one reading for each certificate, the last of the list first: each is valid at its own. -/
def ValidWhenRead (L : PkiLib) (clk : Clock) (k : Nat) (certs : List Bytes) : Prop :=
  ∀ i cert, certs.reverse[i]? = some cert → ∃ now, clk (k + i) = .ok now ∧ ValidAt L now cert

/-- The loop over the chain with a clock that moves. -/
theorem verifyChainClk_ok {clk : Clock} (l : List CertEntry) : ∀ (prev : CertEntry) (names r : CertNames)
    (v : PkiVerifier) (k : Nat) (s : Timed), verifyChainClk L F clk prev l names (v, k) = (.ok r, s) ↔
      s = (v, k + l.length) ∧ verifyChain L F none prev l names = .ok r ∧
        ∀ i q, l[i]? = some q → ∃ cert now, q = .x509 cert ∧ clk (k + i) = .ok now ∧ ValidAt L now cert := by
  induction l with
  | nil =>
    intro prev names r v k s
    simp only [verifyChainClk, verifyChain, M.pure_apply, Prod.mk.injEq, List.length_nil, Nat.add_zero]
    constructor
    · rintro ⟨h, rfl⟩; exact ⟨rfl, h, by simp⟩
    · rintro ⟨rfl, h, -⟩; exact ⟨h, rfl⟩
  | cons x xs ih =>
    intro prev names r v k s
    simp only [verifyChainClk, verifyChain]
    constructor
    · intro h
      obtain ⟨now, t, h1, h⟩ := M.bind_inv h
      simp only [readClock, Prod.mk.injEq] at h1
      obtain ⟨h1, rfl⟩ := h1
      obtain ⟨n, t, h2, h⟩ := M.bind_inv h
      simp only [M.lift_apply, Prod.mk.injEq] at h2
      obtain ⟨h2, rfl⟩ := h2
      obtain ⟨g1, g2, g3⟩ := (ih _ _ _ _ _ _).1 h
      obtain ⟨h2, cert, rfl, hv⟩ := verifyCertEntry_now.1 h2
      refine ⟨by rw [g1, List.length_cons]; congr 1; omega, by rw [h2]; exact g2, ?_⟩
      intro i q hq
      cases i with
      | zero =>
        simp only [List.getElem?_cons_zero, Option.some.injEq] at hq
        exact ⟨cert, now, hq.symm, h1, hv⟩
      | succ i =>
        rw [List.getElem?_cons_succ] at hq
        obtain ⟨c', n', e1, e2, e3⟩ := g3 i q hq
        exact ⟨c', n', e1, by rw [← e2]; congr 1; omega, e3⟩
    · rintro ⟨rfl, h, hv⟩
      obtain ⟨cert, now, rfl, h1, h2⟩ := hv 0 x rfl
      have hr : readClock clk (v, k) = (.ok now, (v, k + 1)) := by
        simp only [readClock]
        rw [Nat.add_zero] at h1
        rw [h1]
      rw [M.bind_ok hr]
      rw [verifyCertEntry_inPeriod h2]
      cases hx : verifyCertEntry L F prev (.x509 cert) none with
      | err e => rw [hx] at h; cases h
      | panic => rw [hx] at h; cases h
      | ok n =>
        rw [hx] at h
        rw [M.lift_ok_bind]
        refine (ih _ _ _ _ _ _).2 ⟨by rw [List.length_cons]; congr 1; omega, h, fun i q hq => ?_⟩
        obtain ⟨c', n', e1, e2, e3⟩ := hv (i + 1) q (by rw [List.getElem?_cons_succ]; exact hq)
        exact ⟨c', n', e1, by rw [← e2]; congr 1; omega, e3⟩

/-- `verify_certificate` of the native verifier with a clock that moves: it accepts exactly what it accepts without a clock
if every certificate is valid at the reading made for it; it makes one reading for each. -/
theorem pkiVerifyCertificateClk_ok {clk : Clock} {N : Nat} {tr : Bytes} {c : CertMsg} {v v' : PkiVerifier} {k k' : Nat} :
    pkiVerifyCertificateClk L F clk N tr c (v, k) = (.ok (), (v', k')) ↔
      pkiVerifyCertificate L F none N tr c v = (.ok (), v') ∧ k' = k + c.entries.length ∧
      ∀ i q, c.entries.reverse[i]? = some q → ∃ cert now, q = .x509 cert ∧ clk (k + i) = .ok now ∧ ValidAt L now cert := by
  rw [pkiVerifyCertificate_after]
  unfold pkiVerifyCertificateClk
  rw [M.get_bind]
  constructor
  · intro h
    obtain ⟨names, s, h1, h2⟩ := M.bind_inv h
    obtain ⟨rfl, g2, g3⟩ := (verifyChainClk_ok _ _ _ _ _ _ _).1 h1
    rw [g2, M.lift_ok_bind]
    cases hm : hostnameMatch names v.host with
    | false => rw [hm] at h2; cases h2
    | true =>
      rw [hm, if_pos rfl] at h2
      rw [if_pos rfl]
      simp only [ETls.onFst, Prod.mk.injEq] at h2
      obtain ⟨h2, h3, h4⟩ := h2
      rw [List.length_reverse] at h4
      exact ⟨Prod.ext h2 h3, h4.symm, g3⟩
  · rintro ⟨h, rfl, g3⟩
    cases hc : verifyChain L F none v.ca c.entries.reverse ⟨none, []⟩ with
    | err e => rw [hc, M.lift_err_bind] at h; cases h
    | panic => rw [hc, M.lift_panic_bind] at h; cases h
    | ok names =>
      rw [hc, M.lift_ok_bind] at h
      rw [M.bind_ok ((verifyChainClk_ok _ _ _ _ _ _ _).2 ⟨rfl, hc, g3⟩)]
      cases hm : hostnameMatch names v.host with
      | false => rw [hm] at h; cases h
      | true =>
        rw [hm, if_pos rfl] at h
        rw [if_pos rfl]
        simp only [ETls.onFst, h, List.length_reverse]

/-- **C124 (native verifier, one Certificate)** With any clock, the native verifier accepts exactly the certificate lists
that it accepts without a clock and whose certificates are all valid at the reading of the clock made for them: nothing
expired or not yet valid is accepted, and the clock makes it refuse nothing else. -/
theorem C124_certificate (S : Suite) (clk : Clock) (N : Nat) (tr : Bytes) (c : CertMsg) (v v' : PkiVerifier) (k : Nat)
    (certs : List Bytes) (hc : c.entries = certs.map .x509) :
    (pkiClockOps L S F clk N).verifyCertificate tr c (v, k) = (.ok (), (v', k + certs.length)) ↔
      (pkiOps L S F none N).verifyCertificate tr c v = (.ok (), v') ∧ ValidWhenRead L clk k certs := by
  simp only [pkiClockOps, pkiOps]
  rw [pkiVerifyCertificateClk_ok, hc]
  simp only [List.length_map, true_and, ValidWhenRead, ← List.map_reverse]
  refine and_congr_right fun _ => ⟨fun h i cert hi => ?_, fun h i q hq => ?_⟩
  · obtain ⟨c', now, e1, e2⟩ := h i (.x509 cert) (by rw [List.getElem?_map, hi]; rfl)
    injection e1 with e1
    exact ⟨now, by rw [e1]; exact e2⟩
  · rw [List.getElem?_map, Option.map_eq_some_iff] at hq
    obtain ⟨cert, hi, rfl⟩ := hq
    obtain ⟨now, e⟩ := h i cert hi
    exact ⟨cert, now, rfl, e⟩

/-- The second verifier is the first without its clock. -/
theorem pkiClockOps_moving (S : Suite) (clk : Clock) (N : Nat) :
    VerifierOps.Sim false SameVerifier (pkiClockOps L S F clk N) (pkiOps L S F none N) where
  hostname name := SameVerifier.onFst _
  signature cv := SameVerifier.onFst _
  certificate tr c := by
    intro ⟨v, k⟩ v' hq hc
    cases hq
    rcases hc with hc | ⟨u, hc⟩
    · cases hc
    · simp only [pkiClockOps, pkiOps] at hc ⊢
      rcases hm : pkiVerifyCertificateClk L F clk N tr c (v, k) with ⟨r, w, k'⟩
      rw [hm] at hc
      simp only at hc
      subst hc
      obtain ⟨h, -, -⟩ := pkiVerifyCertificateClk_ok.1 hm
      rw [h]
      exact ⟨rfl, rfl⟩

/-- **C124 (nothing else changes)** Whatever a successful `open` with the native verifier and any clock does, `open` does
without a clock too, from the same state: what is proved of the one holds of the other. -/
theorem C124_moving (S : Suite) (L : PkiLib) (F : Features) (clk : Clock) (N : Nat) (cfg : Config) (p : Provider Timed)
    (hv : p.verifier = some (pkiClockOps L S F clk N)) (v : PkiVerifier) (k : Nat) {c c' : Conn}
    (h : Conn.open_ S cfg p (v, k) c = (.ok (), c')) :
    Conn.open_ S cfg (p.reverify (pkiOps L S F none N)) v c = (.ok (), c') := by
  rw [open_sim S cfg (.reverify hv (pkiClockOps_moving S clk N)) (v := (v, k)) rfl c (by rw [h]; exact .inr ⟨(), rfl⟩), h]

/-- **C124** If `open` succeeds with a new native verifier and any clock, every Certificate the server sent leads to the CA
and names the configured server, every certificate in it was within its validity period at the reading of the clock made for
it during this `open`, and every CertificateVerify is a signature as in C60. -/
theorem C124_native (S : Suite) (hS : S.Lawful) (L : PkiLib) (F : Features) (clk : Clock) (N : Nat) (cfg : Config)
    (p : Provider Timed) (ca : CertEntry) (k0 : Nat) {c c' : Conn} (hf : c.Fresh S)
    (hv : p.verifier = some (pkiClockOps L S F clk N))
    (h : Conn.open_ S cfg p (PkiVerifier.new ca, k0) c = (.ok (), c')) :
    ∃ x : Session, x.Received S (cfg.psk.map (·.1)) p.secret ∧ c.rx.bytes = x.received ++ c'.rx.bytes ∧
      Authenticated (fun certs => LeadsTo L none ca cfg.serverName certs ∧ ∃ k, k0 ≤ k ∧ ValidWhenRead L clk k certs)
        (SignedByLeaf L) S x := by
  obtain ⟨x, hx⟩ := open_session S hS cfg p _ hf h
  have hp : Provider.Sim false SameVerifier p (p.reverify (pkiOps L S F none N)) :=
    .reverify hv (pkiClockOps_moving S clk N)
  have hx' := hx.sim S hp (v := (PkiVerifier.new ca, k0)) (v' := PkiVerifier.new ca) rfl h
  obtain ⟨-, h2⟩ := hx'.native S L F none N cfg _ ca rfl (C124_moving S L F clk N cfg p hv _ _ h)
  refine ⟨x, hx.received, hx.bytes, ?_, h2.2⟩
  obtain ⟨v', hr⟩ := hx.verifier _ hv
  have key := verifierRun_induct (pkiClockOps L S F clk N) x.tr0 S.hashLen (fun _ s => k0 ≤ s.2)
    (fun _ r => match r.2 with
      | .certificate _ es => ∃ k, k0 ≤ k ∧ ValidWhenRead L clk k (es.map (·.1))
      | _ => True)
    (by
      rintro before m ctx es ⟨v, k⟩ ⟨w, k'⟩ hI hw hc
      obtain ⟨-, rfl, h3⟩ := pkiVerifyCertificateClk_ok.1 hc
      refine ⟨Nat.le_trans hI (Nat.le_add_right _ _), k, hI, fun i cert hi => ?_⟩
      obtain ⟨cert', now, e1, e2⟩ := h3 i (.x509 cert) (by
        simp only [certOf]
        rw [← List.map_reverse, List.getElem?_map]
        rw [← List.map_reverse, List.getElem?_map, Option.map_eq_some_iff] at hi
        obtain ⟨a, ha, rfl⟩ := hi
        rw [ha]; rfl)
      injection e1 with e1
      exact ⟨now, by rw [e1]; exact e2⟩)
    (by
      rintro before m s sig y ⟨v, k⟩ ⟨w, k'⟩ hI _ hc
      simp only [pkiClockOps, ETls.onFst, Prod.mk.injEq] at hc
      exact ⟨by rw [← hc.2.2]; exact hI, trivial⟩)
    (by
      intro before m v hm hI
      refine ⟨hI, ?_⟩
      obtain ⟨h1, -⟩ := hm m List.mem_cons_self
      obtain ⟨m, r⟩ := m
      cases r with
      | certificate ctx es => exact absurd rfl (h1 ctx es)
      | _ => trivial)
    x.msgs [] (hostVst cfg p (PkiVerifier.new ca, k0)) v' (fun m hm => (hx.received.encoded m hm).1)
    (by
      unfold hostVst
      rw [hv]
      cases cfg.serverName <;> exact Nat.le_refl _)
    (by simpa [Session.bytesOf] using hr)
  exact fun before m ctx es after hm => ⟨h2.1 before m ctx es after hm, key.2 before _ after hm⟩

/-- **C124 (expired certificates)** If during `open` the clock shows times between `t0` and `t1`, no certificate that
expired before `t0` or becomes valid after `t1` is accepted. -/
theorem C124_expired (S : Suite) (hS : S.Lawful) (L : PkiLib) (F : Features) (clk : Clock) (N : Nat) (cfg : Config)
    (p : Provider Timed) (ca : CertEntry) (k0 t0 t1 : Nat)
    (hclk : ∀ k now, k0 ≤ k → clk k = .ok now → ∃ t, now = some t ∧ t0 ≤ t ∧ t ≤ t1) {c c' : Conn} (hf : c.Fresh S)
    (hv : p.verifier = some (pkiClockOps L S F clk N))
    (h : Conn.open_ S cfg p (PkiVerifier.new ca, k0) c = (.ok (), c')) :
    ∃ x : Session, x.Received S (cfg.psk.map (·.1)) p.secret ∧ c.rx.bytes = x.received ++ c'.rx.bytes ∧
      ∀ before m ctx es after, x.msgs = before ++ (m, .certificate ctx es) :: after → ∀ e ∈ es,
        ∃ dc, L.fromDer e.1 = some dc ∧ dc.notBefore ≤ t1 ∧ t0 ≤ dc.notAfter := by
  obtain ⟨x, h1, h2, h3, -⟩ := C124_native S hS L F clk N cfg p ca k0 hf hv h
  refine ⟨x, h1, h2, fun before m ctx es after hm e he => ?_⟩
  obtain ⟨-, k, hk, hval⟩ := h3 before m ctx es after hm
  have hmem : e.1 ∈ (es.map (·.1)).reverse := List.mem_reverse.2 (List.mem_map.2 ⟨e, he, rfl⟩)
  obtain ⟨i, hi⟩ := List.getElem?_of_mem hmem
  obtain ⟨now, g1, dc, g2, g3⟩ := hval i e.1 hi
  obtain ⟨t, rfl, q1, q2⟩ := hclk _ _ (Nat.le_trans hk (Nat.le_add_right k i)) g1
  obtain ⟨r1, r2⟩ := g3 t rfl
  exact ⟨dc, g2, by omega, by omega⟩

open Classical in
/-- webpki as it answers at some reading of the clock from number `k0` on. -/
noncomputable def atSomeReading (W : WebLib) (clk : Clock) (k0 : Nat) : WebLib :=
  { W with chainOk := fun anchor leaf _ =>
      decide (∃ k now, k0 ≤ k ∧ clk k = .ok now ∧ W.chainOk anchor leaf (now.getD 0) = true) }

theorem webVerifyChain_some {W : WebLib} {clk : Clock} {k0 k : Nat} {host : Option Bytes} {ca : CertEntry}
    {entries : List CertEntry} {now : Option Nat} (hk : k0 ≤ k) (hn : clk k = .ok now)
    (h : webVerifyChain W host ca entries now = .ok ()) :
    webVerifyChain (atSomeReading W clk k0) host ca entries none = .ok () := by
  obtain ⟨anchor, leaf, rest, rfl, rfl, -, h1, -⟩ := webVerifyChain_ok h
  have e : (atSomeReading W clk k0).chainOk anchor leaf 0 = true := by
    simp only [atSomeReading, decide_eq_true_eq]
    exact ⟨k, now, hk, hn, h1⟩
  have e1 : (atSomeReading W clk k0).anchorOk = W.anchorOk := rfl
  have e2 : (atSomeReading W clk k0).leafOk = W.leafOk := rfl
  have e3 : (atSomeReading W clk k0).nameOk = W.nameOk := rfl
  have e4 : (atSomeReading W clk k0).validFor = W.validFor := rfl
  simp only [webVerifyChain, Option.getD_none, e, e1, e2, e3, e4, h1] at h ⊢
  exact h

theorem webClockOps_moving (S : Suite) (W : WebLib) (alloc : Bool) (clk : Clock) (N k0 : Nat) :
    VerifierOps.Sim false (fun (s : Timed) v => v = s.1 ∧ k0 ≤ s.2) (webClockOps W S alloc clk N)
      (webOps (atSomeReading W clk k0) S alloc none N) where
  hostname name := by
    intro ⟨v, k⟩ v' hq _
    obtain ⟨rfl, hk⟩ := hq
    exact ⟨rfl, rfl, hk⟩
  signature cv := by
    intro ⟨v, k⟩ v' hq _
    obtain ⟨rfl, hk⟩ := hq
    exact ⟨rfl, rfl, hk⟩
  certificate tr c := by
    intro ⟨v, k⟩ v' hq hc
    obtain ⟨hq, hk⟩ := hq
    simp only at hq hk
    subst hq
    rcases hc with hc | ⟨u, hc⟩
    · cases hc
    · simp only [webClockOps, webOps] at hc ⊢
      rcases hm : webVerifyCertificateClk W clk N tr c (v', k) with ⟨r, w, k'⟩
      rw [hm] at hc
      simp only at hc
      subst hc
      obtain ⟨now, t, h1, h⟩ := M.bind_inv hm
      simp only [readClock, Prod.mk.injEq] at h1
      obtain ⟨h1, rfl⟩ := h1
      simp only [ETls.onFst, Prod.mk.injEq] at h
      obtain ⟨h, h3, h4⟩ := h
      have h : webVerifyCertificate W now N tr c v' = (.ok (), w) := Prod.ext h h3
      obtain ⟨g1, -⟩ := webVerifyCertificate_ok h
      have g2 := webVerifyChain_some hk h1 g1
      have h5 : webVerifyCertificate (atSomeReading W clk k0) none N tr c v' = (.ok (), w) := by
        unfold webVerifyCertificate at h ⊢
        rw [M.get_bind, g1, M.lift_ok_bind] at h
        rw [M.get_bind, g2, M.lift_ok_bind]
        exact h
      rw [h5]
      exact ⟨rfl, rfl, by show k0 ≤ k'; omega⟩

/-- **C124 (webpki)** If `open` succeeds with a new webpki verifier and any clock, webpki accepted the first certificate of
every Certificate for the CA and the configured server at a time the clock showed during this `open` (the epoch if it showed
none), and every CertificateVerify as in C60. -/
theorem C124_webpki (S : Suite) (hS : S.Lawful) (W : WebLib) (alloc : Bool) (clk : Clock) (N : Nat) (cfg : Config)
    (p : Provider Timed) (ca : CertEntry) (k0 : Nat) {c c' : Conn} (hf : c.Fresh S)
    (hv : p.verifier = some (webClockOps W S alloc clk N))
    (h : Conn.open_ S cfg p (PkiVerifier.new ca, k0) c = (.ok (), c')) :
    ∃ x : Session, x.Received S (cfg.psk.map (·.1)) p.secret ∧ c.rx.bytes = x.received ++ c'.rx.bytes ∧
      Authenticated (fun certs => ∃ k now, k0 ≤ k ∧ clk k = .ok now ∧ WebAccepts W now ca cfg.serverName certs)
        (WebSigned W) S x := by
  obtain ⟨x, hx⟩ := open_session S hS cfg p _ hf h
  have hp := Provider.Sim.reverify hv (webClockOps_moving S W alloc clk N k0)
  have hx' := hx.sim S hp (v := (PkiVerifier.new ca, k0)) (v' := PkiVerifier.new ca) ⟨rfl, Nat.le_refl _⟩ h
  have ho := open_sim S cfg hp (v := (PkiVerifier.new ca, k0)) (v' := PkiVerifier.new ca) ⟨rfl, Nat.le_refl _⟩ c
    (by rw [h]; exact .inr ⟨(), rfl⟩)
  rw [h] at ho
  obtain ⟨-, h2⟩ := hx'.webpki S (atSomeReading W clk k0) alloc none N cfg _ ca rfl ho
  refine ⟨x, hx.received, hx.bytes, fun before m ctx es after hm => ?_, h2.2⟩
  obtain ⟨anchor, leaf, rest, e1, e2, e3, e4⟩ := h2.1 before m ctx es after hm
  simp only [atSomeReading, decide_eq_true_eq] at e3
  obtain ⟨k, now, g1, g2, g3⟩ := e3
  exact ⟨k, now, g1, g2, anchor, leaf, rest, e1, e2, g3, e4⟩

/-! ## The clock that comes with the crate -/

/-- **C125 (refuted)** On a machine whose time is before 1970 checking any certificate crashes, with either verifier. -/
theorem C125_refuted (S : Suite) (L : PkiLib) (F : Features) (W : WebLib) (alloc : Bool) (N : Nat) (time : Nat → Int)
    (v : PkiVerifier) (k : Nat) (hk : time k < 0) (tr : Bytes) (c : CertMsg) (hc : c.entries ≠ []) :
    ((pkiClockOps L S F (systemClock time) N).verifyCertificate tr c (v, k)).1 = .panic ∧
    ((webClockOps W S alloc (systemClock time) N).verifyCertificate tr c (v, k)).1 = .panic := by
  have hr : readClock (systemClock time) (v, k) = (.panic, (v, k + 1)) := by
    simp only [readClock, systemClock, if_pos hk]
  constructor
  · simp only [pkiClockOps, pkiVerifyCertificateClk]
    rw [M.get_bind]
    cases he : c.entries.reverse with
    | nil => exact absurd (List.reverse_eq_nil_iff.1 he) hc
    | cons x xs =>
      have : verifyChainClk L F (systemClock time) v.ca (x :: xs) ⟨none, []⟩ (v, k) = (.panic, (v, k + 1)) := by
        simp only [verifyChainClk]
        rw [M.bind_panic hr]
      rw [M.bind_panic this]
  · simp only [webClockOps, webVerifyCertificateClk]
    rw [M.bind_panic hr]

/-- **C125 (partial)** From 1970 on the clock of the crate never crashes and gives the time of the machine in whole seconds,
rounded down.  Not provable: earlier times (`C125_refuted`). -/
theorem C125_partial (time : Nat → Int) (k : Nat) (hk : 0 ≤ time k) :
    ∃ t : Nat, systemClock time k = .ok (some t) ∧ (t : Int) * 1000000000 ≤ time k ∧
      time k < ((t : Int) + 1) * 1000000000 := by
  refine ⟨(time k).toNat / 1000000000, ?_, ?_, ?_⟩
  · simp only [systemClock]
    rw [if_neg (by omega)]
  · omega
  · omega

/-! ## A concrete clock -/

/-- A provider with this verifier. -/
def timedProv (ops : VerifierOps Timed) : Provider Timed :=
  ⟨List.replicate 32 9, [1], some ops, .err .internalError, none⟩

/-- The connection to the toy server with certificates. -/
def exTimedConn (records : List (List SrvMsg)) : Conn := exNew 600 [.data (exServer exCfg exSH records)]

/-- `open` of the toy client with the native verifier and this clock. -/
def exTimedOpen (clk : Clock) (records : List (List SrvMsg)) : Res TlsError Unit :=
  (Conn.open_ toySuite exCfg (timedProv (pkiClockOps toyPki toySuite allFeatures clk 1000))
    (PkiVerifier.new (.x509 toyCa), 0) (exTimedConn records)).1

/-- A clock that shows `t` first and advances by `d` from reading to reading. -/
def ticking (t d : Nat) : Clock := fun k => .ok (some (t + d * k))

set_option maxRecDepth 10000 in
theorem exTimedOpen_ok : exTimedOpen (ticking 20 1) (exAuthFlight [exLeaf, toyInter]) = .ok () := by decide +kernel
/- the leaf is valid until 50: at 50 it is accepted, at 51 it is not -/
set_option maxRecDepth 10000 in
example : exTimedOpen (ticking 40 10) (exAuthFlight [exLeaf, toyInter]) = .ok () := by decide +kernel
set_option maxRecDepth 10000 in
example : exTimedOpen (ticking 40 11) (exAuthFlight [exLeaf, toyInter]) = .err .invalidCertificate := by decide +kernel
set_option maxRecDepth 10000 in
example : exTimedOpen (systemClock fun k => 20999999999 + k) (exAuthFlight [exLeaf, toyInter]) = .ok () := by
  decide +kernel
set_option maxRecDepth 10000 in
example : exTimedOpen (systemClock fun k => -1 + k) (exAuthFlight [exLeaf, toyInter]) = .panic := by decide +kernel

theorem ok_of_fst {σ : Type} {x : Res TlsError Unit × σ} (h : x.1 = .ok ()) : ∃ c', x = (.ok (), c') :=
  ⟨x.2, Prod.ext h rfl⟩

/-- The successful one, as a run. -/
theorem exTimed_run : ∃ c', Conn.open_ toySuite exCfg (timedProv (pkiClockOps toyPki toySuite allFeatures (ticking 20 1) 1000))
    (PkiVerifier.new (.x509 toyCa), 0) (exTimedConn (exAuthFlight [exLeaf, toyInter])) = (.ok (), c') :=
  ok_of_fst exTimedOpen_ok

example := exTimed_run.imp fun _ h => C124_moving toySuite toyPki allFeatures (ticking 20 1) 1000 exCfg _ rfl _ 0 h
example := exTimed_run.imp fun _ h => C124_native toySuite toySuite_lawful toyPki allFeatures (ticking 20 1) 1000 exCfg _
  (.x509 toyCa) 0 (exNew_fresh _ _ (by decide)) rfl h
/- with a clock that shows times between 20 and 49 -/
def exLateClock : Clock := fun k => .ok (some (20 + k % 30))
set_option maxRecDepth 10000 in
theorem exLate_ok : exTimedOpen exLateClock (exAuthFlight [exLeaf, toyInter]) = .ok () := by decide +kernel
example := (ok_of_fst exLate_ok).imp fun _ h => C124_expired toySuite toySuite_lawful toyPki allFeatures exLateClock 1000
  exCfg _ (.x509 toyCa) 0 20 49
  (fun k now _ hk => ⟨20 + k % 30, by simpa [exLateClock] using hk.symm, by omega, by omega⟩)
  (exNew_fresh _ _ (by decide)) rfl h
example (k : Nat) (c : Conn) := (C124_still toySuite (ticking 20 0) (some 20) (fun k => by simp [ticking]) 1000 exCfg
  (timedProv (pkiClockOps toyPki toySuite allFeatures (ticking 20 0) 1000)) (PkiVerifier.new (.x509 toyCa)) k c).1 _ _ rfl
example (k : Nat) (c : Conn) := (C124_still toySuite clockless none (fun _ => rfl) 1000 exCfg
  (timedProv (webClockOps toyWeb toySuite false clockless 1000)) (PkiVerifier.new (.x509 toyCa)) k c).2 _ _ rfl
/- the toy leaf under the toy CA, a reading for each of the two certificates -/
example : (pkiOps toyPki toySuite allFeatures none 1000).verifyCertificate [1] (toyMsg [exLeaf, toyInter])
      ⟨.x509 toyCa, some (ascii "example.com"), none, none⟩ = (.ok (), ⟨.x509 toyCa, some (ascii "example.com"), some [1],
        some ([], (toyMsg [exLeaf, toyInter]).rawEntries)⟩) ∧
    ValidWhenRead toyPki (ticking 20 1) 0 [exLeaf, toyInter] := by
  rw [← C124_certificate toySuite (ticking 20 1) 1000 [1] (toyMsg [exLeaf, toyInter]) _ _ 0 [exLeaf, toyInter] rfl]
  decide +kernel
/-- The webpki verifier with a clock. -/
def exTimedWeb : Res TlsError Unit :=
  (Conn.open_ toySuite exCfg (timedProv (webClockOps toyWeb toySuite false (ticking 20 1) 1000))
    (PkiVerifier.new (.x509 toyCa), 0) (exTimedConn (exAuthFlight [exDirect]))).1
set_option maxRecDepth 10000 in
theorem exTimedWeb_ok : exTimedWeb = .ok () := by decide +kernel
example := (ok_of_fst exTimedWeb_ok).imp fun _ h => C124_webpki toySuite toySuite_lawful toyWeb false (ticking 20 1) 1000
  exCfg _ (.x509 toyCa) 0 (exNew_fresh _ _ (by decide)) rfl h
example := C125_refuted toySuite toyPki allFeatures toyWeb false 1000 (fun _ => -5) (PkiVerifier.new (.x509 toyCa)) 0
  (by decide) [] (toyMsg [exLeaf]) (by simp [toyMsg])
example : systemClock (fun _ => 1500000000) 3 = .ok (some 1) := by decide
example := C125_partial (fun _ => 1500000000) 3 (by decide)

end ETls
