import Verif.Props.AfterOpen
import Verif.Props.NativeAuth

/-!
# C66: what makes `open` panic

On a new connection `open` panics only for the causes listed in `OpenPanic`.
-/

namespace ETls
open Spec

variable (S : Suite) {V : Type}

/-! ## Operations that never panic -/

/-- The operation never panics. -/
def Quiet {ε σ α : Type} (m : M ε σ α) : Prop := ∀ s, (m s).1 ≠ .panic

namespace Quiet
variable {ε σ α β : Type}

theorem bind {m : M ε σ α} {g : α → M ε σ β} (h : Quiet m) (hg : ∀ a, Quiet (g a)) : Quiet (m >>= g) := by
  intro s
  have h1 := h s
  rcases hm : m s with ⟨r, s1⟩
  rw [hm] at h1
  cases r with
  | ok a => rw [M.bind_ok hm]; exact hg a s1
  | err e => rw [M.bind_err hm]; simp
  | panic => exact absurd rfl h1

theorem pure (a : α) : Quiet (ε := ε) (σ := σ) (Pure.pure a) := fun _ => by simp
theorem get : Quiet (M.get : M ε σ σ) := fun _ => by simp
theorem modify (f : σ → σ) : Quiet (M.modify f : M ε σ Unit) := fun _ => by simp
theorem fail (e : ε) : Quiet (M.fail e : M ε σ α) := fun _ => by simp
theorem lift {r : Res ε α} (h : r ≠ .panic) : Quiet (M.lift r : M ε σ α) := fun _ => by simpa using h
theorem ite {c : Prop} [Decidable c] {m n : M ε σ α} (hm : Quiet m) (hn : Quiet n) : Quiet (if c then m else n) := by
  split <;> assumption

end Quiet

/-- The labels of the key schedule are short. -/
theorem makeLabel_quiet (k : Option Bytes) (label : Bytes) (ctx : Option Bytes) (n : Nat) (h : label.length ≤ 100) :
    makeLabel S k label ctx n ≠ .panic := by
  unfold makeLabel
  rw [if_neg (by omega)]
  dsimp only
  generalize (_ ++ _ : Bytes) = l
  by_cases h1 : l.length > labelCap S
  · rw [if_pos h1]; simp
  · rw [if_neg h1]
    cases k with
    | none => simp
    | some k =>
      dsimp only
      by_cases h2 : n > 255 * S.hashLen
      · rw [if_pos h2]; simp
      · rw [if_neg h2]; simp

theorem calculate_quiet (label : Bytes) (sh : SharedState) (tr : Bytes) (h : label.length ≤ 100) :
    Quiet (KsState.calculate S label sh tr) :=
  (Quiet.lift (makeLabel_quiet S _ _ _ _ h)).bind fun _ => .ite (.fail _) ((Quiet.modify _).bind fun _ =>
    (Quiet.lift (makeLabel_quiet S _ _ _ _ (by decide))).bind fun _ => (Quiet.modify _).bind fun _ =>
    (Quiet.lift (makeLabel_quiet S _ _ _ _ (by decide))).bind fun _ => (Quiet.modify _).bind fun _ => .modify _)

theorem derived_quiet : Quiet (KeySchedule.onShared (SharedState.derived S)) := by
  intro k
  show (SharedState.derived S k.shared).1 ≠ .panic
  unfold SharedState.derived SharedState.deriveSecret
  have := makeLabel_quiet S k.shared.hkdf (ascii "derived") (some (S.hash [])) S.hashLen (by decide)
  cases h : makeLabel S k.shared.hkdf (ascii "derived") (some (S.hash [])) S.hashLen with
  | ok x => simp
  | err e => simp
  | panic => exact absurd h this

theorem trafficSecrets_quiet (a b : Bytes) (ha : a.length ≤ 100) (hb : b.length ≤ 100) :
    Quiet (KeySchedule.calculateTrafficSecrets S a b) :=
  Quiet.bind (fun k => calculate_quiet S a _ _ ha k.client.st) fun _ => fun k => calculate_quiet S b _ _ hb k.server.st

theorem onKs_quiet {α : Type} {m : M TlsError KeySchedule α} (h : Quiet m) : Quiet (onKs m : M TlsError (HSt V) α) :=
  fun s => h s.c.ks

theorem processServerHello_quiet (rec : ServerRecord) : Quiet (processServerHello (V := V) S rec) := by
  unfold processServerHello
  split
  · refine Quiet.get.bind fun s => ?_
    split
    · exact .fail _
    · refine Quiet.bind (.modify _) fun _ => ?_
      split
      · exact .fail _
      · exact (onKs_quiet ((Quiet.modify _).bind fun _ => (trafficSecrets_quiet S _ _ (by decide) (by decide)).bind fun _ =>
          derived_quiet S)).bind fun _ => .pure _
  · exact .fail _
  · exact .fail _
  · exact .fail _

theorem processServerHello_noAbort (rec : ServerRecord) : NoAbort (processServerHello (V := V) S rec) := by
  unfold processServerHello
  split
  · refine NoAbort.get.bind fun s => ?_
    split
    · exact .fail (by simp)
    · refine NoAbort.bind (.modify _) fun _ => ?_
      split
      · exact .fail (by simp)
      · refine (NoAbort.onKs ((NoAbort.modify _).bind fun _ => NoAbort.bind (NoAbort.bind ?_ fun _ => ?_) fun _ =>
            noAbort_derived S)).bind fun _ => .pure _
        · intro k l d; exact noAbort_calculate S _ _ _ k.client.st l d
        · intro k l d; exact noAbort_calculate S _ _ _ k.server.st l d
  · exact .fail (by simp)
  · exact .fail (by simp)
  · exact .fail (by simp)

theorem finalize_quiet : Quiet (clientFinishedFinalize (V := V) S) := by
  unfold clientFinishedFinalize
  refine Quiet.get.bind fun s => ?_
  split
  · exact .fail _
  · exact Quiet.bind (.modify _) fun _ => (onKs_quiet (.modify _)).bind fun _ =>
      (onKs_quiet ((Quiet.modify _).bind fun _ => (trafficSecrets_quiet S _ _ (by decide) (by decide)).bind fun _ =>
        derived_quiet S)).bind fun _ => .pure _

/-- Encoding a record into an idle write buffer. -/
theorem writeRecord_quiet (hS : S.Lawful) (rec : ClientRecord) {c : Conn} {bs bs' tr' : Bytes} (hi : c.wb.Idle)
    (hL : 5 ≤ c.wb.buffer.length) (ha : Appends (rec.encodePayload S) bs ())
    (hf : Finishes S rec c.ks.client bs c.ks.server.transcript bs' tr') : (Conn.writeRecord S rec c).1 ≠ .panic := by
  by_cases hfit : recordRoom rec.header bs ≤ c.wb.buffer.length
  · obtain ⟨wb, h1, _⟩ := writeRecord_ok S hS rec c.ks.client c.wb bs c.ks.server.transcript bs' tr' hi hL ha hf hfit
    rw [Conn.writeRecord_of S h1]; simp
  · obtain ⟨e, w', tr'', h1, _⟩ := writeRecord_short S hS rec c.ks.client c.wb bs c.ks.server.transcript bs' tr' hi hL ha
      hf (by omega)
    rw [Conn.writeRecord_of S h1]; simp

theorem respond_quiet (bytes : Bytes) {c : Conn} (hc : c.ks.client.st.counter + 1 < 2 ^ 64) : (respond bytes c).1 ≠ .panic := by
  have h := respond_cases bytes c hc
  generalize respond bytes c = res at h
  cases h <;> simp

theorem writeRecord_client (rec : ClientRecord) (c : Conn) : (Conn.writeRecord S rec c).2.ks.client = c.ks.client := by
  unfold Conn.writeRecord
  rcases WB.writeRecord S rec c.ks.client (c.wb, c.ks.server.transcript) with ⟨r, wb, tr⟩
  rfl

/-- Answering an error adds no panic. -/
theorem handling_panic (hS : S.Lawful) {m : M TlsError (HSt V) State} {s : HSt V}
    (hm : (∀ l d, (m s).1 ≠ .err (.abortHandshake l d)) ∨ ((m s).2.c.wb.Idle ∧ 5 ≤ (m s).2.c.wb.buffer.length ∧
      (m s).2.c.ks.client.st.counter + 1 < 2 ^ 64)) (h : (withErrorHandling S m s).1 = .panic) : (m s).1 = .panic := by
  unfold withErrorHandling at h
  rcases hms : m s with ⟨r, s2⟩
  rw [hms] at h hm
  simp only at h hm ⊢
  cases r with
  | ok a => simp [onConn, handleProcessingError] at h
  | panic => rfl
  | err e =>
    cases e with
    | abortHandshake l d =>
      obtain ⟨h1, h2, h3⟩ := hm.resolve_left fun hno => hno l d rfl
      unfold handleProcessingError at h
      simp only at h
      have hq := writeRecord_quiet S hS (.alert ⟨l, d⟩ false) h1 h2 (alert_appends ⟨l, d⟩) (finishes_alert S _ _ _ _ _)
      have hcl := writeRecord_client S (.alert ⟨l, d⟩ false) s2.c
      rcases hw : Conn.writeRecord S (.alert ⟨l, d⟩ false) s2.c with ⟨r, c3⟩
      rw [hw] at hq hcl
      simp only at hq hcl
      cases r with
      | err e => simp only [onConn] at h; rw [M.bind_err hw] at h; simp at h
      | panic => exact absurd rfl hq
      | ok out =>
        simp only [onConn] at h
        rw [M.bind_ok hw] at h
        have hr := respond_quiet out (c := c3) (by rw [hcl]; exact h3)
        rcases hrr : respond out c3 with ⟨r4, c4⟩
        rw [hrr] at hr
        cases r4 with
        | ok u => rw [M.bind_ok hrr] at h; simp at h
        | err e => rw [M.bind_err hrr] at h; simp at h
        | panic => exact absurd rfl hr
    | _ => simp [onConn, handleProcessingError] at h

/-! ## The verifier -/

/-- The certificate message is one that the decoder produces. -/
def CertMsg.Decoded (c : CertMsg) : Prop := ∃ q q', CertMsg.parse q = (.ok c, q')

theorem parse_decoded {q q' : PB} {c : CertMsg} (h : ServerHs.parse S q = (.ok (.certificate c), q')) : c.Decoded := by
  unfold ServerHs.parse at h
  obtain ⟨t, q1, _, h⟩ := M.bind_inv h
  obtain ⟨_, q2, _, h⟩ := M.bind_inv h
  cases t with
  | certificate =>
    simp only at h
    obtain ⟨c', q3, h1, h2⟩ := M.bind_inv h
    simp only [M.pure_apply, Prod.mk.injEq, Res.ok.injEq, ServerHs.certificate.injEq] at h2
    obtain ⟨rfl, rfl⟩ := h2
    exact ⟨_, _, h1⟩
  | _ =>
    exfalso
    simp only at h
    first
    | (obtain ⟨_, _, _, h2⟩ := M.bind_inv h; simp at h2)
    | simp at h

theorem read_decoded {q q' : PB} {tr tr' : Bytes} {c : CertMsg}
    (h : ServerHs.read S (q, tr) = (.ok (.certificate c), (q', tr'))) : c.Decoded := by
  unfold ServerHs.read at h
  rcases hp : ServerHs.parse S q with ⟨r, q1⟩
  simp only [hp] at h
  cases r with
  | err e => simp at h
  | panic => simp at h
  | ok h0 =>
    cases h0 with
    | certificate c' =>
      simp only [Prod.mk.injEq, Res.ok.injEq, ServerHs.certificate.injEq] at h
      rw [h.1] at hp
      exact parse_decoded S hp
    | _ => simp at h

/-- A check that the client asks of its verifier. -/
inductive AuthCall where
  | certificate (transcript : Bytes) (c : CertMsg)
  | certificateVerify (v : CertVerify)

/-- Successful checks `calls`, in this order, bring the verifier from state `v`
to `u`. -/
inductive VCalls (p : Provider V) (v : V) : List AuthCall → V → Prop where
  | none : VCalls p v [] v
  | certificate (ops : VerifierOps V) (hv : p.verifier = some ops) (tr : Bytes) (c : CertMsg) (hc : c.Decoded)
      {calls : List AuthCall} {u u' : V} (h : VCalls p v calls u) (ha : ops.verifyCertificate tr c u = (.ok (), u')) :
      VCalls p v (calls ++ [.certificate tr c]) u'
  | certificateVerify (ops : VerifierOps V) (hv : p.verifier = some ops) (c : CertVerify)
      {calls : List AuthCall} {u u' : V} (h : VCalls p v calls u) (ha : ops.verifySignature c u = (.ok (), u')) :
      VCalls p v (calls ++ [.certificateVerify c]) u'

/-- The verifier can be in state `u`. -/
def VReach (p : Provider V) (v u : V) : Prop := ∃ calls, VCalls p v calls u

/-- A check of the verifier panics, after the checks `calls` succeeded. -/
inductive VerifierPanic (p : Provider V) (v : V) : Prop where
  | certificate (ops : VerifierOps V) (hv : p.verifier = some ops) (calls : List AuthCall) (u : V) (hu : VCalls p v calls u)
      (tr : Bytes) (c : CertMsg) (hc : c.Decoded) (h : (ops.verifyCertificate tr c u).1 = .panic) : VerifierPanic p v
  | certificateVerify (ops : VerifierOps V) (hv : p.verifier = some ops) (calls : List AuthCall) (u : V)
      (hu : VCalls p v calls u) (c : CertVerify) (h : (ops.verifySignature c u).1 = .panic) : VerifierPanic p v

/-- What the callback of the server's messages leaves alone. -/
def AtVerify (p : Provider V) (v : V) (k : KsState) (x : ReadKS × (HsData V × State)) : Prop :=
  x.1.st = k ∧ VReach p v x.2.1.vst

theorem handler_panic {p : Provider V} {v : V} {k : KsState} (rec : ServerRecord) {x : ReadKS × (HsData V × State)}
    (hx : AtVerify p v k x) (hdec : ∀ c, rec = .handshake (.certificate c) → c.Decoded)
    (h : (serverVerifyHandler S p rec x).1 = .panic) : VerifierPanic p v := by
  obtain ⟨k', hd, st⟩ := x
  cases rec with
  | changeCipherSpec => simp [serverVerifyHandler] at h
  | alert a => simp [serverVerifyHandler] at h
  | appData a b c => simp [serverVerifyHandler] at h
  | handshake m =>
    cases m with
    | serverHello e => simp [serverVerifyHandler] at h
    | newSessionTicket => simp [serverVerifyHandler] at h
    | encryptedExtensions => simp [serverVerifyHandler] at h
    | certificate c =>
      rw [serverVerifyHandler_cert] at h
      rcases hv : p.verifier with _ | ops
      · rw [hv] at h; simp at h
      · rw [hv] at h
        obtain ⟨calls, hu⟩ := hx.2
        exact .certificate ops hv calls _ hu _ c (hdec c rfl) h
    | certificateVerify c =>
      simp only [serverVerifyHandler] at h
      rcases hv : p.verifier with _ | ops
      · rw [hv] at h; simp at h
      · rw [hv] at h
        obtain ⟨calls, hu⟩ := hx.2
        exact .certificateVerify ops hv calls _ hu c h
    | certificateRequest ctx =>
      simp only [serverVerifyHandler] at h
      unfold certRequestOwned at h
      split at h
      · rw [M.lift_ok_bind] at h; simp at h
      · rw [M.lift_err_bind] at h; simp at h
    | finished f =>
      exfalso
      simp only [serverVerifyHandler] at h
      rw [M.get_bind] at h
      simp only at h
      have hq : k'.verifyServerFinished S f ≠ .panic := by
        unfold ReadKS.verifyServerFinished
        have := makeLabel_quiet S k'.st.trafficSecret (ascii "finished") none S.hashLen (by decide)
        cases hl : makeLabel S k'.st.trafficSecret (ascii "finished") none S.hashLen with
        | panic => exact absurd hl this
        | err e => simp
        | ok key => cases f.hash <;> simp
      revert h
      refine Quiet.bind (.lift hq) (fun good => .ite (.ite (.modify _) (.modify _)) (.fail _)) _

theorem handler_keeps {p : Provider V} {v : V} {k : KsState} (m : ServerHs) {x x' : ReadKS × (HsData V × State)}
    (hx : AtVerify p v k x) (hdec : ∀ c, m = .certificate c → c.Decoded) (h : serverVerifyHandler S p (.handshake m) x = (.ok (), x')) : AtVerify p v k x' := by
  obtain ⟨k', hd, st⟩ := x
  cases m with
  | serverHello e => simp [serverVerifyHandler] at h
  | newSessionTicket => simp [serverVerifyHandler] at h
  | encryptedExtensions => simp [serverVerifyHandler] at h; rw [← h]; exact hx
  | certificate c =>
    rw [serverVerifyHandler_cert] at h
    rcases hv : p.verifier with _ | ops
    · rw [hv] at h; simp at h; rw [← h]; exact hx
    · rw [hv] at h
      simp only [onVerifier_run, Prod.mk.injEq] at h
      rw [← h.2]
      obtain ⟨calls, hu⟩ := hx.2
      exact ⟨hx.1, _, .certificate ops hv k'.transcript c (hdec c rfl) hu (Prod.ext h.1 rfl)⟩
  | certificateVerify c =>
    simp only [serverVerifyHandler] at h
    rcases hv : p.verifier with _ | ops
    · rw [hv] at h; simp at h; rw [← h]; exact hx
    · rw [hv] at h
      simp only [onVerifier_run, Prod.mk.injEq] at h
      rw [← h.2]
      obtain ⟨calls, hu⟩ := hx.2
      exact ⟨hx.1, _, .certificateVerify ops hv c hu (Prod.ext h.1 rfl)⟩
  | certificateRequest ctx =>
    simp only [serverVerifyHandler] at h
    unfold certRequestOwned at h
    split at h
    · rw [M.lift_ok_bind] at h; simp at h; rw [← h]; exact hx
    · rw [M.lift_err_bind] at h; simp at h
  | finished f =>
    simp only [serverVerifyHandler] at h
    rw [M.get_bind] at h
    simp only at h
    obtain ⟨good, x1, h1, h2⟩ := M.bind_inv h
    simp only [M.lift_apply, Prod.mk.injEq] at h1
    obtain ⟨_, rfl⟩ := h1
    split at h2
    · split at h2
      · simp at h2; rw [← h2]; exact hx
      · simp at h2; rw [← h2]; exact hx
    · simp at h2

theorem handshakeLoop_panic {p : Provider V} {v : V} {k : KsState} (fuel : Nat) :
    ∀ (q : PB) (x : ReadKS × (HsData V × State)), q.pos ≤ q.buffer.length → q.buffer.length - q.pos < fuel → AtVerify p v k x →
      ((handshakeLoop S (serverVerifyHandler S p) fuel q x).1 = .panic → VerifierPanic p v) ∧
      (∀ x', handshakeLoop S (serverVerifyHandler S p) fuel q x = (.ok (), x') → AtVerify p v k x') := by
  induction fuel with
  | zero => intro q x _ h; omega
  | succ f ih =>
    intro q x hp hf hx
    obtain ⟨rk, t⟩ := x
    unfold handshakeLoop
    simp only
    by_cases hrem : q.buffer.length - q.pos > 0
    · rw [if_pos hrem]
      obtain ⟨h1, h2, h3, h4, h5⟩ := C01_handshake S q rk.transcript hp
      rcases hm : ServerHs.read S (q, rk.transcript) with ⟨r, p', tr⟩
      rw [hm] at h1 h2 h3 h4 h5
      cases r with
      | panic => exact absurd rfl h1
      | err e => simp
      | ok h =>
        simp only at h2 h3 h4 ⊢
        have h6 := h5 h rfl
        simp only at h6
        have hx' : AtVerify p v k ({ rk with transcript := tr }, t) := hx
        have hdec : ∀ c, h = .certificate c → c.Decoded := fun c hc => read_decoded S (c := c) (by rw [← hc]; exact hm)
        rcases hcm : serverVerifyHandler S p (.handshake h) ({ rk with transcript := tr }, t) with ⟨r, k', t'⟩
        cases r with
        | panic => exact ⟨fun _ => handler_panic S (.handshake h) hx' (fun c hc => hdec c (by simpa using hc)) (by rw [hcm]), by simp⟩
        | err e => simp
        | ok u => exact ih p' (k', t') (by rw [h2]; exact h4) (by rw [h2]; omega) (handler_keeps S h hx' hdec hcm)
    · rw [if_neg hrem]
      refine ⟨by simp, ?_⟩
      intro x' h
      simp only [Prod.mk.injEq, true_and] at h
      rw [← h]; exact hx

/-- Decrypting one record of the server's flight panics only if the inner plaintext is empty, the record counter is
exhausted, or the verifier panics; if it succeeds, the verifier's checks did. -/
theorem decrypt_panic {p : Provider V} {v : V} (rec : ServerRecord) (d : DSt (HsData V × State))
    (hv : VReach p v d.ext.1.vst) (hdec : ∀ c, rec = .handshake (.certificate c) → c.Decoded) :
    ((decryptRecord S (serverVerifyHandler S p) rec d).1 = .panic →
      VerifierPanic p v ∨ 2 ^ 64 ≤ d.rks.st.counter + 1 ∨
      ∃ hdr start data, rec = .appData hdr start data ∧ S.open_ d.rks.st.key (d.rks.st.nonce S) hdr data = some []) ∧
    ∀ d', decryptRecord S (serverVerifyHandler S p) rec d = (.ok (), d') → VReach p v d'.ext.1.vst := by
  have hx : AtVerify p v d.rks.st (d.rks, d.ext) := ⟨rfl, hv⟩
  cases rec with
  | handshake m =>
    refine ⟨fun h => .inl (handler_panic S _ hx hdec h), fun d' h => ?_⟩
    simp only [decryptRecord, Prod.mk.injEq] at h
    rw [← h.2]
    exact (handler_keeps S m hx (fun c hc => hdec c (by rw [hc])) (Prod.ext h.1 rfl)).2
  | changeCipherSpec =>
    refine ⟨fun h => by simp [decryptRecord, serverVerifyHandler] at h, fun d' h => ?_⟩
    simp only [decryptRecord, serverVerifyHandler, M.pure_apply, Prod.mk.injEq, true_and] at h
    rw [← h]
    exact hv
  | alert a => simp [decryptRecord, serverVerifyHandler]
  | appData hdr start data =>
    simp only [decryptRecord]
    rcases ho : S.open_ d.rks.st.key (d.rks.st.nonce S) hdr data with _ | pt
    · simp
    · by_cases hpt : pt = []
      · subst hpt
        refine ⟨fun _ => .inr (.inr ⟨hdr, start, data, rfl, ho⟩), fun d' h => ?_⟩
        simp [dispatchInner, stripPadding] at h
      · simp only
        have hne : stripPadding pt ≠ [] := by
          unfold stripPadding
          split
          · exact hpt
          · rename_i h
            intro hr
            exact h (List.reverse_eq_nil_iff.mp hr)
        have hd : ((dispatchInner S (serverVerifyHandler S p) hdr start pt (d.rks, d.ext)).1 = .panic → VerifierPanic p v) ∧
            ∀ x', dispatchInner S (serverVerifyHandler S p) hdr start pt (d.rks, d.ext) = (.ok (), x') →
              AtVerify p v d.rks.st x' := by
          unfold dispatchInner
          cases hgl : (stripPadding pt).getLast? with
          | none => exact absurd (List.getLast?_eq_none_iff.mp hgl) hne
          | some b =>
            simp only
            cases ContentType.of b.toNat with
            | none => simp
            | some ct =>
              cases ct with
              | handshake => exact handshakeLoop_panic S _ _ _ (Nat.zero_le _) (by simp [PB.new]) hx
              | applicationData => simp [serverVerifyHandler]
              | alert =>
                obtain ⟨h1, _⟩ := alertParse_good (PB.new (stripPadding pt).dropLast) (PB.new_valid _)
                simp only
                cases hm : (Alert.parse (PB.new (stripPadding pt).dropLast)).1 with
                | panic => exact absurd hm h1
                | ok a => rw [M.lift_ok_bind]; simp [serverVerifyHandler]
                | err e => rw [M.lift_err_bind]; simp
              | invalid => simp
              | changeCipherSpec => simp
        rcases hdi : dispatchInner S (serverVerifyHandler S p) hdr start pt (d.rks, d.ext) with ⟨r, k', t'⟩
        rw [hdi] at hd
        cases r with
        | panic => exact ⟨fun _ => .inl (hd.1 rfl), by simp⟩
        | err e => simp
        | ok u =>
          obtain ⟨hk, hv'⟩ := hd.2 _ rfl
          simp only at hk hv' ⊢
          refine ⟨fun h => .inr (.inl ?_), fun d' h => ?_⟩
          · by_contra hc
            unfold ReadKS.increment KsState.increment at h
            rw [hk, if_pos (by omega)] at h
            simp at h
          · simp only [Prod.mk.injEq] at h
            rw [← h.2]
            exact hv'

/-! ## The handshake -/

/-- The records the client may have sent under its current keys when a state is entered. -/
def sentBound : State → Nat
  | .clientHello | .serverVerify | .clientCert | .applicationData => 0
  | .serverHello | .clientCertVerify => 1
  | .clientFinished => 2

/-- A successful step keeps the verifier in states reached by successful calls and the client's record number small. -/
theorem HsAt.step_reach (hS : S.Lawful) (cfg : Config) (p : Provider V) {v : V} {c : Conn} (hf : c.Fresh S) {st st' : State}
    {s s' : HSt V} (ha : HsAt S cfg p c st s) (hst : st ≠ .applicationData) (h : process S cfg p st s = (.ok st', s'))
    (hv : VReach p v s.h.vst) (hc : s.c.ks.client.st.counter ≤ sentBound st) :
    VReach p v s'.h.vst ∧ s'.c.ks.client.st.counter ≤ sentBound st' := by
  cases ha with
  | start s hs =>
    obtain ⟨sc, sh⟩ := s
    simp only at hs
    subst hs
    obtain ⟨binders, msg, wb, ctl, a1, a2, a3, a4, a5, rfl, rfl⟩ := step_hello S hS cfg p hf.idle hf.room hf.keys h
    exact ⟨hv, by simp [WriteKS.next, KeySchedule.new, KsState.new, sentBound]⟩
  | hello s msg hh htr hsh hin hsent hsec hrd hwr hop =>
    obtain ⟨hdr, rh, m, junk, exts, secret, dhe, rr', rx', b1, b2, b3, b4, b5, b6, b7, b8, b9, b10, b11, b12, rfl, rfl⟩ :=
      step_serverHello S hS cfg p (cfg.psk.map (·.1)) (by rw [hrd]; exact hf.reader) (by rw [hrd]; exact hf.nothingRead)
        hsh h
    exact ⟨hv, by simp [trafficState, sentBound]⟩
  | waiting s hello shRecord sh exts dhe fl hl =>
    refine ⟨?_, ?_⟩
    · simp only [process] at h
      rcases hr : onConn (onRd (RdHalf.readRecord S)) s with ⟨r, s1⟩
      cases r with
      | err e => rw [M.bind_err hr] at h; cases h
      | panic => rw [M.bind_panic hr] at h; cases h
      | ok rec =>
        rw [M.bind_ok hr] at h
        have h := withErrorHandling_ok S h
        obtain ⟨rr', rx', tr', hb, payload, hd, start, e1, e2, e3, e4, e5, e6, e7, e8, e9, e10, e11, e12⟩ :=
          hsRead_ok S hl.reader.1 hl.reader.2.1 hr
        obtain ⟨t1, t2, t3, t4⟩ := serverRecordDecode_types S hd start payload _ _ _ e10
        subst e1
        unfold processServerVerify at h
        simp only at h
        rcases hdr : decryptRecord S (serverVerifyHandler S p) rec ⟨{ s.c.ks.server with transcript := tr' }, rr'.buf,
          (s.h, State.serverVerify)⟩ with ⟨r, d⟩
        rw [hdr] at h
        cases r with
        | err e => simp [Res.map] at h
        | panic => simp [Res.map] at h
        | ok u =>
          simp only [Prod.mk.injEq] at h
          rw [← h.2]
          exact (decrypt_panic S rec _ hv (fun c hc => by
            obtain ⟨_, q, u2⟩ := t2 _ hc
            exact read_decoded S u2)).2 d hdr
    · have hk := hl.received.keys S
      obtain ⟨record, ms, n, rr', rx', hd', i1, i2, i3, i4, i5, i6, i7, i8, rfl⟩ := step_verify S hS cfg p
        (secret := serverHandshakeTraffic S (cfg.psk.map (·.1)) dhe (hello ++ sh)) hl.reader.1 hl.reader.2.1
        (by rw [hk]; rfl) h
      simp only [sentBound] at hc
      exact Nat.le_trans hc (Nat.zero_le _)
  | replying st s hello shRecord sh exts dhe fl cm hs' hl =>
    have hiv : s.c.ks.client.st.iv.length = S.ivLen := by rw [hl.clientKeys]; exact trafficState_iv S hS _
    have hroom : 5 ≤ s.c.wb.buffer.length := by rw [hl.writer.2]; exact hf.room
    rcases hs' with ⟨rfl, rfl⟩ | rfl | rfl
    · obtain ⟨ctx, certs, wb, ctl, c1, c2, c3, c4, c5, c6, rfl⟩ := step_clientCert S hS cfg p hl.writer.1 hroom hiv h
      refine ⟨hv, ?_⟩
      have h1 : s.c.ks.client.st.counter = 0 := Nat.le_zero.1 hc
      show s.c.ks.client.st.counter + 1 ≤ _
      rw [h1, c6]
      split <;> decide
    · obtain ⟨sign, scheme, sig, wb, ctl, e1, e2, e3, e4, e5, rfl, rfl⟩ := step_clientCertVerify S hS cfg p hl.writer.1 hroom hiv h
      exact ⟨hv, Nat.succ_le_succ hc⟩
    · obtain ⟨t, wb, ctl, d1, d2, d3, rfl, rfl⟩ := step_clientFinished S hS cfg p (cfg.psk.map (·.1)) dhe
        (clientHandshakeTraffic S (cfg.psk.map (·.1)) dhe (hello ++ sh)) hl.writer.1 hroom hiv
        (by rw [hl.clientKeys]; rfl) hl.sharedSecret h
      exact ⟨hv, by simp [trafficState, sentBound]⟩
  | done => exact absurd rfl hst

theorem HsAt.steps_reach (hS : S.Lawful) (cfg : Config) (p : Provider V) {v : V} {c : Conn} (hf : c.Fresh S) {n : Nat}
    {st st' : State} {s s' : HSt V} (h : HsSteps S cfg p n st s st' s') (ha : HsAt S cfg p c st s) (hv : VReach p v s.h.vst)
    (hc : s.c.ks.client.st.counter ≤ sentBound st) : VReach p v s'.h.vst ∧ s'.c.ks.client.st.counter ≤ sentBound st' := by
  induction h with
  | none st s => exact ⟨hv, hc⟩
  | more hst hp _ ih =>
    obtain ⟨h1, h2⟩ := ha.step_reach S hS cfg p hf hst hp hv hc
    exact ih (ha.step S hS cfg p hf hst hp) h1 h2

/-- The server answers the client's `hello` with a ServerHello `sh`, and a later record, protected with the handshake
traffic key of the server that these two messages and the Diffie-Hellman result `dhe` give, has an empty inner plaintext. -/
def EmptyRecord (cfg : Config) (p : Provider V) (c : Conn) : Prop :=
  ∃ (shdr sh before hdr data after hello dhe : Bytes) (binders : List Bytes) (exts : List Ext) (seq : Nat),
    c.rx.bytes = shdr ++ (sh ++ before) ++ (hdr ++ data) ++ after ∧
    hello = (expectedHello cfg S.codePoint p.random (S.pubKey p.secret) binders).bytes ∧
    ParsedAs S sh (.serverHello exts) ∧ serverHelloSharedSecret S exts p.secret = some dhe ∧
    S.open_ (writeKey S (serverHandshakeTraffic S (cfg.psk.map (·.1)) dhe (hello ++ sh)))
      (nonce (writeIv S (serverHandshakeTraffic S (cfg.psk.map (·.1)) dhe (hello ++ sh))) seq) hdr data = some []

/-- What makes `open` on the connection `c` panic. -/
inductive OpenPanic (cfg : Config) (p : Provider V) (v : V) (c : Conn) : Prop where
  /-- the verifier panics when it is told the host name -/
  | hostname (ops : VerifierOps V) (name : Bytes) (hv : p.verifier = some ops) (hn : cfg.serverName = some name)
      (h : (ops.setHostname name v).1 = .panic) : OpenPanic cfg p v c
  /-- a check of the verifier panics, after the host name was set and other checks succeeded -/
  | verifier (h : VerifierPanic p (hostVst cfg p v)) : OpenPanic cfg p v c
  /-- the provider panics when it is asked for the signer -/
  | signer (h : p.signer = .panic) : OpenPanic cfg p v c
  /-- the signer fails to sign -/
  | sign (sign : Bytes → Option Bytes) (scheme : SignatureScheme) (content : Bytes) (h : p.signer = .ok (sign, scheme))
      (hn : sign content = none) : OpenPanic cfg p v c
  /-- the signer makes a signature that is longer than the buffer for it -/
  | signature (sign : Bytes → Option Bytes) (scheme : SignatureScheme) (content sig : Bytes)
      (h : p.signer = .ok (sign, scheme)) (hs : sign content = some sig)
      (hl : (if S.rsa then 512 else 104) < sig.length) : OpenPanic cfg p v c
  /-- the client's certificate is a raw public key -/
  | rawPublicKey (key : Bytes) (h : p.clientCert = some (.rawPublicKey key)) : OpenPanic cfg p v c
  /-- the server sends a record protected with its handshake traffic key whose inner plaintext is empty -/
  | emptyRecord (h : EmptyRecord S cfg p c) : OpenPanic cfg p v c

theorem Incoming.count {k : KsState} {record : Bytes} {ms : List (Bytes × ServerHs)} {n : Nat}
    (h : Incoming S k record ms n) : n ≤ record.length := by
  cases h with
  | plain => exact Nat.zero_le _
  | changeCipherSpec => exact Nat.zero_le _
  | protected_ hdr ct rh hd =>
    unfold RecordHeader.decode at hd
    split at hd
    · simp
    · cases hd

theorem Received.count {k k' : KsState} {fl : List (Bytes × List (Bytes × ServerHs))} (h : Received S k fl k') :
    k'.counter ≤ k.counter + (flightBytes fl).length := by
  induction h with
  | nil k => simp
  | cons k k' record ms n rest h _ ih =>
    have := h.count S
    simp only [flightBytes, List.flatMap_cons, List.length_append] at ih ⊢
    omega

/-- The rest of a sending step. -/
theorem send_panic {α β : Type} {m : M TlsError (HSt V) α} {out : α → Bytes} {k : α → M TlsError (HSt V) β} {s : HSt V}
    (hm : (m s).1 ≠ .panic) (hc : (m s).2.c.ks.client.st.counter + 1 < 2 ^ 64)
    (hk : ∀ a s', m s = (.ok a, s') → Quiet (k a)) :
    ((m >>= fun a => onConn (respond (out a)) >>= fun _ => k a) s).1 ≠ .panic := by
  rcases hms : m s with ⟨r, s1⟩
  rw [hms] at hm hc
  cases r with
  | panic => exact absurd rfl hm
  | err e => rw [M.bind_err hms]; simp
  | ok a =>
    rw [M.bind_ok hms]
    have hr := respond_quiet (out a) (c := s1.c) hc
    rcases hrr : respond (out a) s1.c with ⟨r2, c2⟩
    rw [hrr] at hr
    cases r2 with
    | panic => exact absurd rfl hr
    | err e => rw [M.bind_err (onConn_err hrr)]; simp
    | ok u => rw [M.bind_ok (onConn_ok hrr)]; exact hk a _ hms _

/-- A step that panics. -/
theorem process_panic (hS : S.Lawful) (cfg : Config) (p : Provider V) (v : V) {c : Conn} (hf : c.Fresh S)
    (hsize : c.rx.bytes.length < 2 ^ 64) {st : State} {s : HSt V} (ha : HsAt S cfg p c st s)
    (hv : VReach p (hostVst cfg p v) s.h.vst) (hc : s.c.ks.client.st.counter ≤ sentBound st) (hst : st ≠ .applicationData)
    (h : (process S cfg p st s).1 = .panic) : OpenPanic S cfg p v c := by
  have hidle := ha.idle S hf.idle
  have hL : 5 ≤ s.c.wb.buffer.length := by rw [hidle.2]; exact hf.room
  have hi : s.c.wb.Idle := hidle.1
  have hc' : s.c.ks.client.st.counter + 1 < 2 ^ 64 := by
    have : sentBound st ≤ 2 := by cases st <;> decide
    omega
  have hreadq : s.c.rr.Inv → s.c.rr.pending = 0 → (onConn (onRd (RdHalf.readRecord S)) s).1 ≠ .panic := by
    intro h1 h2
    exact (readRecord_any S ⟨s.c.rr, s.c.rx, s.c.ks.server.transcript⟩ h1).noPanic h2
  cases ha with
  | start s hs =>
    exfalso
    obtain ⟨sc, sh⟩ := s
    simp only at hs
    subst hs
    by_cases hfit : 5 + helloLength S cfg p ≤ sc.wb.buffer.length
    · obtain ⟨binders, msg, wb, h1, h2, h3, h4, h5, h6, h7⟩ := clientHello_run S hS cfg p ⟨sc, sh⟩ hi (by
        simp only [hf.keys]; rfl) hfit
      unfold process at h
      refine send_panic (out := Prod.snd) (k := fun a => Pure.pure a.1) ?_ ?_ (fun _ _ _ => .pure _) h
      · rw [h7]; simp
      · rw [h7]; exact hc'
    · obtain ⟨e, h1, _⟩ := C07_client_hello S hS cfg p ⟨sc, sh⟩ hi hf.keys hL (by
        simp only; omega)
      rw [h] at h1
      cases h1
  | hello s msg hh htr hsh hin hsent hsec hrd hwr hop =>
    exfalso
    simp only [process] at h
    have hq := hreadq (by rw [hrd]; exact hf.reader) (by rw [hrd]; exact hf.nothingRead)
    rcases hr : onConn (onRd (RdHalf.readRecord S)) s with ⟨r, s1⟩
    rw [hr] at hq
    cases r with
    | err e => rw [M.bind_err hr] at h; cases h
    | panic => exact hq rfl
    | ok rec =>
      rw [M.bind_ok hr] at h
      exact processServerHello_quiet S rec s1 (handling_panic S hS (.inl fun l d => processServerHello_noAbort S rec s1 l d) h)
  | waiting s hello shRecord sh exts dhe fl hl =>
    simp only [process] at h
    have hq := hreadq hl.reader.1 hl.reader.2.1
    rcases hr : onConn (onRd (RdHalf.readRecord S)) s with ⟨r, s1⟩
    rw [hr] at hq
    cases r with
    | err e => rw [M.bind_err hr] at h; cases h
    | panic => exact absurd rfl hq
    | ok rec =>
      rw [M.bind_ok hr] at h
      obtain ⟨rr', rx', tr', hb, payload, hd, start, e1, e2, e3, e4, e5, e6, e7, e8, e9, e10, e11, e12⟩ :=
        hsRead_ok S hl.reader.1 hl.reader.2.1 hr
      obtain ⟨t1, t2, t3, t4⟩ := serverRecordDecode_types S hd start payload _ _ _ e10
      subst e1
      have h := handling_panic S hS (.inr ⟨hi, hL, hc'⟩) h
      unfold processServerVerify at h
      simp only at h
      have hdp := (decrypt_panic S rec ⟨{ s.c.ks.server with transcript := tr' }, rr'.buf, (s.h, State.serverVerify)⟩ hv
        (fun c hc => by
          obtain ⟨_, q, u2⟩ := t2 _ hc
          exact read_decoded S u2)).1
      have hk := hl.received.keys S
      rcases hdp (by
        rcases hdr : decryptRecord S (serverVerifyHandler S p) rec ⟨{ s.c.ks.server with transcript := tr' }, rr'.buf,
          (s.h, State.serverVerify)⟩ with ⟨r, d⟩
        rw [hdr] at h
        cases r with
        | panic => rfl
        | ok u => simp [Res.map] at h
        | err e => simp [Res.map] at h) with hp | hp | ⟨hdr, st, data, rfl, ho⟩
      · exact .verifier hp
      · exfalso
        have h1 := hl.received.count S
        have h2 := congrArg List.length hl.bytes
        have h3 := congrArg List.length e9
        simp only [List.length_append, trafficState] at h1 h2 h3
        simp only at hp
        omega
      · obtain ⟨rfl, rfl, rfl, u4, rfl⟩ := t1 _ _ _ rfl
        have hdata := RecordHeader.decode_data hb hd e7
        simp only at ho
        rw [nonce_eq S hS.ivLen_eq _ (by rw [hk]; exact trafficState_iv S hS _)] at ho
        rw [hk] at ho
        obtain ⟨binders, hbin, -⟩ := hl.isHello
        obtain ⟨shdr, -, junk, -, -, -, hsr⟩ := hl.serverHello
        refine .emptyRecord ⟨shdr, sh, junk ++ flightBytes fl, hd.data, data, rx'.bytes, hello, dhe, binders, exts,
          s.c.ks.server.st.counter, ?_, hbin, hl.parsed, hl.shared, ho⟩
        rw [hl.bytes, hsr, e9, hdata]
        simp
  | replying st s hello shRecord sh exts dhe fl cm hs' hl =>
    rcases hs' with ⟨rfl, rfl⟩ | rfl | rfl
    · by_cases hraw : ∃ key, p.clientCert = some (.rawPublicKey key)
      · obtain ⟨key, hkey⟩ := hraw
        exact .rawPublicKey key hkey
      · exfalso
        obtain ⟨certs, hcerts⟩ : ∃ certs : List Bytes, p.clientCert.toList = certs.map .x509 := by
          rcases hcc : p.clientCert with _ | ⟨d⟩ | ⟨d⟩
          · exact ⟨[], rfl⟩
          · exact ⟨[d], rfl⟩
          · exact absurd ⟨d, hcc⟩ hraw
        unfold process at h
        revert h
        have key : (clientCert S p s).1 ≠ .panic ∧ (clientCert S p s).2.c.ks.client = s.c.ks.client := by
          unfold clientCert
          rw [M.get_bind]
          unfold modHs
          rw [M.modify_bind]
          rcases hreq : s.h.certReq with _ | ctx
          · simp only [hreq]; exact ⟨by simp, rfl⟩
          · simp only [hreq, hcerts]
            have hq := writeRecord_quiet S hS (.handshake (.clientCert ⟨[], ctx, certs.map .x509⟩) true) hi hL
              (clientCert_appends S [] ctx certs) (finishes_encrypted S _ _ _ _)
            have hcl := writeRecord_client S (.handshake (.clientCert ⟨[], ctx, certs.map .x509⟩) true) s.c
            rcases hw : Conn.writeRecord S (.handshake (.clientCert ⟨[], ctx, certs.map .x509⟩) true) s.c with ⟨r, c1⟩
            rw [hw] at hq hcl
            cases r with
            | panic => exact absurd rfl hq
            | ok out =>
              rw [M.bind_ok (onConn_ok (s := ⟨s.c, ⟨some s.c.ks.server.transcript, s.h.secret, some ctx, s.h.vst⟩⟩) hw)]
              exact ⟨by simp, hcl⟩
            | err e =>
              rw [M.bind_err (onConn_err (s := ⟨s.c, ⟨some s.c.ks.server.transcript, s.h.secret, some ctx, s.h.vst⟩⟩) hw)]
              exact ⟨by simp, hcl⟩
        exact send_panic (out := Prod.snd) (k := fun a => Pure.pure a.1) key.1 (by rw [key.2]; exact hc') fun _ _ _ => .pure _
    · rcases hsig : p.signer with ⟨sign, scheme⟩ | e | _
      · cases hsg : sign (clientSignedContent S s.c.ks.server.transcript) with
        | none => exact .sign sign scheme _ hsig hsg
        | some sig =>
        by_cases hlong : signatureSize S < sig.length
        · exact .signature sign scheme _ sig hsig hsg hlong
        · exfalso
          unfold process at h
          revert h
          have key : (clientCertVerify S p s).1 ≠ .panic ∧ (clientCertVerify S p s).2.c.ks.client = s.c.ks.client ∧
              ∀ a s', clientCertVerify S p s = (.ok a, s') → a.1 ≠ .panic := by
            unfold clientCertVerify
            rw [M.get_bind]
            simp only [hsig]
            split
            · exact ⟨by simp, rfl, by simp⟩
            · rw [hsg]
              simp only
              rw [if_neg hlong]
              have hq := writeRecord_quiet S hS (.handshake (.clientCertVerify ⟨scheme, sig⟩) true) hi hL (certVerify_appends S scheme _) (finishes_encrypted S _ _ _ _)
              have hcl := writeRecord_client S (.handshake (.clientCertVerify ⟨scheme, sig⟩) true) s.c
              rcases hw : Conn.writeRecord S (.handshake (.clientCertVerify ⟨scheme, sig⟩) true) s.c with ⟨r, c1⟩
              rw [hw] at hq hcl
              cases r with
              | panic => exact absurd rfl hq
              | ok out =>
                rw [M.bind_ok (onConn_ok hw)]
                refine ⟨by simp, hcl, fun a s' h => ?_⟩
                simp only [M.pure_apply, Prod.mk.injEq, Res.ok.injEq] at h
                rw [← h.1]; simp
              | err e =>
                rw [M.bind_err (onConn_err hw)]
                exact ⟨by simp, hcl, by simp⟩
          exact send_panic (out := Prod.snd) (k := fun a => M.lift a.1) key.1 (by rw [key.2.1]; exact hc')
            fun a s' h => .lift (key.2.2 a s' h)
      · exfalso
        unfold process at h
        revert h
        have key : (clientCertVerify S p s).1 ≠ .panic ∧ (clientCertVerify S p s).2.c.ks.client = s.c.ks.client ∧
            ∀ a s', clientCertVerify S p s = (.ok a, s') → a.1 ≠ .panic := by
          unfold clientCertVerify
          rw [M.get_bind]
          simp only [hsig]
          have hq := writeRecord_quiet S hS (.alert ⟨.warning, .closeNotify⟩ true) hi hL
            (alert_appends ⟨.warning, .closeNotify⟩) (finishes_alert S _ _ _ _ _)
          have hcl := writeRecord_client S (.alert ⟨.warning, .closeNotify⟩ true) s.c
          rcases hw : Conn.writeRecord S (.alert ⟨.warning, .closeNotify⟩ true) s.c with ⟨r, c1⟩
          rw [hw] at hq hcl
          cases r with
          | panic => exact absurd rfl hq
          | ok out =>
            rw [M.bind_ok (onConn_ok hw)]
            refine ⟨by simp, hcl, fun a s' h => ?_⟩
            simp only [M.pure_apply, Prod.mk.injEq, Res.ok.injEq] at h
            rw [← h.1]; simp
          | err e =>
            rw [M.bind_err (onConn_err hw)]
            exact ⟨by simp, hcl, by simp⟩
        exact send_panic (out := Prod.snd) (k := fun a => M.lift a.1) key.1 (by rw [key.2.1]; exact hc')
          fun a s' h => .lift (key.2.2 a s' h)
      · exact .signer hsig
    · exfalso
      unfold process at h
      revert h
      have key : (clientFinished S s).1 ≠ .panic ∧ (clientFinished S s).2.c.ks.client = s.c.ks.client := by
        unfold clientFinished
        rw [M.get_bind, C35_client_finished S hS s.c.ks (clientHandshakeTraffic S (cfg.psk.map (·.1)) dhe (hello ++ sh))
          (by rw [hl.clientKeys]; rfl)]
        simp only [Res.mapErr]
        rw [M.lift_ok_bind]
        exact ⟨writeRecord_quiet S hS (.handshake (.finished _) true) hi hL (finished_appends S _ _)
          (finishes_encrypted S _ _ _ _), writeRecord_client S _ s.c⟩
      exact send_panic (out := id) (k := fun _ => clientFinishedFinalize S) key.1 (by rw [key.2]; exact hc')
        fun _ _ _ => finalize_quiet S
  | done => exact absurd rfl hst

/-- **C66, the part that holds** `open` on a new connection, whatever the transport delivers (fewer than 2^64 bytes) and
however it fails, panics only if the verifier panics in a state that its own successful calls lead to, the provider's signer
does not keep to its contract (it panics, fails to sign or its signature has more than 104 bytes, 512 with the feature `rsa`), the client's certificate is a raw public
key, or the server, in possession of the handshake traffic secret, sends a protected record with an empty inner plaintext. -/
theorem C66_open_partial (hS : S.Lawful) (cfg : Config) (p : Provider V) (v : V) {c : Conn} (hf : c.Fresh S)
    (hsize : c.rx.bytes.length < 2 ^ 64) (h : (Conn.open_ S cfg p v c).1 = .panic) : OpenPanic S cfg p v c := by
  rcases open_ends_host S cfg p v c with ⟨ops, name, h1, h2, _, ho⟩ | ⟨v', r, s', hset, he, h1, _⟩
  · rw [ho] at h
    exact .hostname ops name h1 h2 h
  · have hv : VReach p (hostVst cfg p v) v' := by
      have e : hostVst cfg p v = v' := by
        unfold setHostname at hset
        unfold hostVst
        cases hp : p.verifier with
        | none =>
          rw [hp] at hset
          simpa only [M.pure_apply, Prod.mk.injEq, true_and, HSt.mk.injEq, HsData.mk.injEq] using hset
        | some ops =>
          cases hn : cfg.serverName with
          | none =>
            rw [hp, hn] at hset
            simpa only [M.pure_apply, Prod.mk.injEq, true_and, HSt.mk.injEq, HsData.mk.injEq] using hset
          | some name =>
            rw [hp, hn] at hset
            simp only [Prod.mk.injEq, true_and, HSt.mk.injEq, HsData.mk.injEq] at hset
            exact hset.2
      rw [e]
      exact ⟨[], .none⟩
    have hstart : HsAt S cfg p c .clientHello ⟨c, ⟨none, none, none, v'⟩⟩ := .start _ rfl
    rcases he.last with ⟨rfl, _⟩ | ⟨n, st1, s1, hn, hst, rfl, ⟨e, rfl, _⟩ | ⟨rfl, hpan⟩⟩
    · rw [h] at h1; cases h1
    · rw [h] at h1; cases h1
    · obtain ⟨k1, k2⟩ := hstart.steps_reach S hS cfg p hf hn hv (by simp [hf.keys, KeySchedule.new, KsState.new])
      exact process_panic S hS cfg p v hf hsize (hstart.steps S hS cfg p hf hn) k1 k2 hst hpan

/-- **C66 without verifier** With a provider that has no verifier, a certificate that is not a raw public key, and a signer
within its contract, `open` panics only if the server sends an empty inner plaintext. -/
theorem C66_without_verifier_partial (hS : S.Lawful) (cfg : Config) (p : Provider V) (v : V) {c : Conn} (hf : c.Fresh S)
    (hsize : c.rx.bytes.length < 2 ^ 64) (hv : p.verifier = none) (hraw : ∀ key, p.clientCert ≠ some (.rawPublicKey key))
    (hsig : p.signer ≠ .panic)
    (hlen : ∀ sign scheme m, p.signer = .ok (sign, scheme) → ∃ sig, sign m = some sig ∧ sig.length ≤ 104)
    (h : (Conn.open_ S cfg p v c).1 = .panic) : EmptyRecord S cfg p c := by
  cases C66_open_partial S hS cfg p v hf hsize h with
  | hostname ops name h1 => rw [hv] at h1; cases h1
  | verifier h1 =>
    cases h1 with
    | certificate ops h2 => rw [hv] at h2; cases h2
    | certificateVerify ops h2 => rw [hv] at h2; cases h2
  | signer h1 => exact absurd h1 hsig
  | sign sign scheme content h1 h2 =>
    obtain ⟨sig, h3, _⟩ := hlen sign scheme content h1
    rw [h2] at h3
    cases h3
  | signature sign scheme content sig h1 h2 h3 =>
    obtain ⟨sig', h4, h5⟩ := hlen sign scheme content h1
    rw [h2] at h4
    injection h4 with h4
    subst h4
    split at h3 <;> omega
  | rawPublicKey key h1 => exact absurd h1 (hraw key)
  | emptyRecord h1 => exact h1

/-- The last check was that of a Certificate. -/
def LastIsCertificate (calls : List AuthCall) (c : CertMsg) : Prop := ∃ tr, calls.getLast? = some (.certificate tr c)

theorem pkiSetHostname_noPanic (name : Bytes) (v : PkiVerifier) : (pkiSetHostname name v).1 ≠ .panic := by
  unfold pkiSetHostname
  by_cases h : name.length ≤ 64
  · rw [if_pos h]; simp
  · rw [if_neg h]; simp

theorem hostVst_transcript {cfg : Config} {p : Provider PkiVerifier} {ops : VerifierOps PkiVerifier}
    (hv : p.verifier = some ops) (hops : ops.setHostname = pkiSetHostname) (v : PkiVerifier) :
    (hostVst cfg p v).transcript = v.transcript ∧ (hostVst cfg p v).ca = v.ca := by
  unfold hostVst
  cases hn : cfg.serverName with
  | none => rw [hv]; exact ⟨rfl, rfl⟩
  | some name =>
    rw [hv]
    simp only [hops]
    unfold pkiSetHostname
    by_cases h : name.length ≤ 64
    · rw [if_pos h]; exact ⟨rfl, rfl⟩
    · rw [if_neg h]; exact ⟨rfl, rfl⟩

theorem pkiVerifySignature_taken {L : PkiLib} {F : Features} {cv : CertVerify} {v v' : PkiVerifier}
    (h : pkiVerifySignature L S F cv v = (.ok (), v')) : v'.transcript = none ∧ v'.ca = v.ca := by
  unfold pkiVerifySignature at h
  rw [M.get_bind] at h
  rcases ht : v.transcript with _ | tr
  · rw [ht] at h; cases h
  · rw [ht] at h
    simp only [M.modify_bind] at h
    cases h1 : serverSigned S 146 tr with
    | err e => rw [h1, M.lift_err_bind] at h; cases h
    | panic => rw [h1, M.lift_panic_bind] at h; cases h
    | ok msg =>
      rw [h1, M.lift_ok_bind] at h
      rcases hc : v.certificate with _ | ⟨ctx, raw⟩
      · rw [hc] at h; cases h
      · rw [hc] at h
        simp only at h
        cases h2 : CertEntry.parseVector 16 ⟨raw, 0⟩ with
        | err e => rw [h2, M.lift_err_bind] at h; cases h
        | panic => rw [h2, M.lift_panic_bind] at h; cases h
        | ok entries =>
          rw [h2, M.lift_ok_bind, M.lift_apply] at h
          simp only [Prod.mk.injEq] at h
          rw [← h.2]; exact ⟨rfl, rfl⟩

theorem webVerifySignature_taken {W : WebLib} {alloc : Bool} {cv : CertVerify} {v v' : PkiVerifier}
    (h : webVerifySignature W S alloc cv v = (.ok (), v')) : v'.transcript = none ∧ v'.ca = v.ca := by
  unfold webVerifySignature at h
  rw [M.get_bind] at h
  rcases ht : v.transcript with _ | tr
  · rw [ht] at h; cases h
  · rw [ht] at h
    simp only [M.modify_bind] at h
    cases h1 : serverSigned S 130 tr with
    | err e => rw [h1, M.lift_err_bind] at h; cases h
    | panic => rw [h1, M.lift_panic_bind] at h; cases h
    | ok msg =>
      rw [h1, M.lift_ok_bind] at h
      rcases hc : v.certificate with _ | ⟨ctx, raw⟩
      · rw [hc] at h; cases h
      · rw [hc] at h
        simp only at h
        cases h2 : CertEntry.parseVector 16 ⟨raw, 0⟩ with
        | err e => rw [h2, M.lift_err_bind] at h; cases h
        | panic => rw [h2, M.lift_panic_bind] at h; cases h
        | ok entries =>
          rw [h2, M.lift_ok_bind, M.lift_apply] at h
          simp only [Prod.mk.injEq] at h
          rw [← h.2]; exact ⟨rfl, rfl⟩

/-- What the stored transcript says about the checks made so far, for a verifier whose check of the signature takes the
transcript that its check of the certificate stores. -/
theorem calls_transcript {p : Provider PkiVerifier} {ops : VerifierOps PkiVerifier} (hv : p.verifier = some ops)
    (hcert : ∀ tr c v v', ops.verifyCertificate tr c v = (.ok (), v') → v'.ca = v.ca)
    (hsig : ∀ cv v v', ops.verifySignature cv v = (.ok (), v') → v'.transcript = none ∧ v'.ca = v.ca)
    {v u : PkiVerifier} (h0 : v.transcript = none) {calls : List AuthCall} (h : VCalls p v calls u) :
    u.ca = v.ca ∧ ((u.transcript = none ∧ ∀ c, ¬ LastIsCertificate calls c) ∨
      ∃ tr c w, c.Decoded ∧ LastIsCertificate calls c ∧ ops.verifyCertificate tr c w = (.ok (), u)) := by
  induction h with
  | none => exact ⟨rfl, .inl ⟨h0, by rintro c ⟨tr, h⟩; simp at h⟩⟩
  | certificate ops' hv' tr c hc _ ha ih =>
    rw [hv] at hv'
    injection hv' with hv'
    subst hv'
    exact ⟨(hcert _ _ _ _ ha).trans ih.1, .inr ⟨tr, c, _, hc, ⟨tr, by simp⟩, ha⟩⟩
  | certificateVerify ops' hv' c _ ha ih =>
    rw [hv] at hv'
    injection hv' with hv'
    subst hv'
    have := hsig _ _ _ ha
    exact ⟨this.2.trans ih.1, .inl ⟨this.1, by rintro c ⟨tr, h⟩; simp at h⟩⟩

/-- The ways in which a check of the native verifier panics. -/
inductive NativePanic (L : PkiLib) (F : Features) (p : Provider PkiVerifier) (v : PkiVerifier) : Prop where
  /-- a certificate of the chain has an Ed25519 signature, and the key of its issuer does not have 32 bytes -/
  | issuerKey (c : CertMsg) (i : Nat) (issuer cert key : Bytes) (di dc : DecodedCert) (hF : F.ed25519 = true)
      (h1 : c.entries[i]? = some (.x509 cert)) (h2 : (c.entries ++ [v.ca])[i + 1]? = some (.x509 issuer))
      (h3 : L.fromDer issuer = some di) (h4 : L.fromDer cert = some dc) (h5 : di.publicKey = some key)
      (h6 : dc.sigAlg = ⟨[1, 3, 101, 112], none⟩) (h7 : key.length ≠ 32) : NativePanic L F p v
  /-- CertificateVerify does not come after a Certificate -/
  | misplaced (calls : List AuthCall) (u : PkiVerifier) (h : VCalls p v calls u) (hl : ∀ c, ¬ LastIsCertificate calls c) :
      NativePanic L F p v
  /-- the scheme of CertificateVerify does not go with the key of the leaf -/
  | leafKey (calls : List AuthCall) (u : PkiVerifier) (h : VCalls p v calls u) (c : CertMsg) (hl : LastIsCertificate calls c)
      (cv : CertVerify) (leaf : Bytes) (rest : List CertEntry) (dc : DecodedCert) (key : Bytes)
      (h1 : c.entries = .x509 leaf :: rest) (h2 : L.fromDer leaf = some dc) (h3 : dc.publicKey = some key)
      (h4 : (cv.scheme = .ed25519 ∧ key.length ≠ 32) ∨
        (cv.scheme = .rsaPssRsaeSha256 ∧ L.keyOk .rsaPssSha256 key = false)) : NativePanic L F p v

/-- **C66 with the native verifier** Every panic of a check has one of three causes, all under the control of the server:
the key of the issuer of an Ed25519 certificate has a wrong length, CertificateVerify does not follow a Certificate, or its
scheme does not go with the key of the leaf. -/
theorem C66_native_partial (hS : S.Lawful) (L : PkiLib) (F : Features) (now : Option Nat) (N : Nat) (cfg : Config)
    (p : Provider PkiVerifier) (hv : p.verifier = some (pkiOps L S F now N)) (ca : CertEntry)
    (h : VerifierPanic p (hostVst cfg p (PkiVerifier.new ca))) : NativePanic L F p (hostVst cfg p (PkiVerifier.new ca)) := by
  have h0 := hostVst_transcript (cfg := cfg) hv rfl (PkiVerifier.new ca)
  have inv := fun calls u => calls_transcript (calls := calls) (u := u) hv
    (fun tr c v v' h => by obtain ⟨_, _, _, rfl⟩ := pkiVerifyCertificate_ok h; rfl)
    (fun cv v v' h => pkiVerifySignature_taken S h) h0.1
  cases h with
  | certificate ops hv' calls u hu tr c hc h =>
    rw [hv] at hv'
    injection hv' with hv'
    subst hv'
    obtain ⟨hF, i, issuer, cert, di, dc, key, k1, k2, k3, k4, k5, k6, k7⟩ := C61_native_partial S L F now N tr c u h
    rw [(inv calls u hu).1] at k2
    exact .issuerKey c i issuer cert key di dc hF k1 k2 k3 k4 k5 k6 k7
  | certificateVerify ops hv' calls u hu cv h =>
    rw [hv] at hv'
    injection hv' with hv'
    subst hv'
    rcases (inv calls u hu).2 with ⟨_, hl⟩ | ⟨tr, c, w, ⟨q, q', hq⟩, hl, ha⟩
    · exact .misplaced calls u hu hl
    · rcases C53_native_partial S hS now N tr c cv q q' w u hq ha with k | ⟨_, leaf, rest, dc, key, k1, k2, k3, k4⟩
      · rw [h] at k; simp at k
      · exact .leafKey calls u hu c hl cv leaf rest dc key k1 k2 k3 k4

theorem webVerifyCertificate_noPanic (W : WebLib) (now : Option Nat) (N : Nat) (tr : Bytes) (c : CertMsg) (v : PkiVerifier) :
    (webVerifyCertificate W now N tr c v).1 ≠ .panic := by
  have h1 : webVerifyChain W v.host v.ca c.entries now ≠ .panic := by
    unfold webVerifyChain
    repeat' split
    all_goals try dsimp only
    all_goals repeat' split
    all_goals simp
  have h2 : certOwned N c ≠ .panic := by
    unfold certOwned
    repeat' split
    all_goals simp
  unfold webVerifyCertificate
  rw [M.get_bind]
  exact Quiet.bind (.lift h1) (fun _ => .bind (.lift h2) fun _ => .modify _) v

/-- **C66 with the webpki verifier** A check panics only if CertificateVerify does not follow a Certificate. -/
theorem C66_webpki_partial (hS : S.Lawful) (W : WebLib) (alloc : Bool) (now : Option Nat) (N : Nat) (cfg : Config)
    (p : Provider PkiVerifier) (hv : p.verifier = some (webOps W S alloc now N)) (ca : CertEntry)
    (h : VerifierPanic p (hostVst cfg p (PkiVerifier.new ca))) :
    ∃ calls u, VCalls p (hostVst cfg p (PkiVerifier.new ca)) calls u ∧ ∀ c, ¬ LastIsCertificate calls c := by
  have h0 := hostVst_transcript (cfg := cfg) hv rfl (PkiVerifier.new ca)
  have inv := fun calls u => calls_transcript (calls := calls) (u := u) hv
    (fun tr c v v' h => by obtain ⟨_, rfl⟩ := webVerifyCertificate_ok h; rfl)
    (fun cv v v' h => webVerifySignature_taken S h) h0.1
  cases h with
  | certificate ops hv' calls u hu tr c hc h =>
    rw [hv] at hv'
    injection hv' with hv'
    subst hv'
    exact absurd h (webVerifyCertificate_noPanic W now N tr c u)
  | certificateVerify ops hv' calls u hu cv h =>
    rw [hv] at hv'
    injection hv' with hv'
    subst hv'
    rcases (inv calls u hu).2 with ⟨_, hl⟩ | ⟨tr, c, w, ⟨q, q', hq⟩, hl, ha⟩
    · exact ⟨calls, u, hu, hl⟩
    · exfalso
      by_cases h32 : S.hashLen ≤ 32
      · have := C53_webpki_partial S hS h32 W alloc now N tr c cv q q' w u hq ha
        rw [h] at this; simp at this
      · obtain ⟨-, rfl⟩ := webVerifyCertificate_ok ha
        revert h
        simp only [webOps, webVerifySignature, M.get_bind, M.modify_bind]
        rw [serverSigned_eq S hS, if_neg (by omega), M.lift_err_bind]
        simp

/-- The server's first protected record with an empty inner plaintext. -/
def exEmptyInner : Bytes :=
  let key := writeKey toySuite (exSecret exCfg exSH)
  let n := Spec.nonce (writeIv toySuite (exSecret exCfg exSH)) 0
  let aad := ciphertextHeader 0
  plaintextRecord 22 [3, 3] exSH.bytes ++ (aad ++ (toySuite.sealCt key n aad [] ++ toySuite.sealTag key n aad []))

/-- A flight that asks for the client's certificate. -/
def exAsk : List (List SrvMsg) := [[exEE, .msg (.certificateRequest [] []), .finished]]

/-- A client whose certificate is `cert` and whose signatures are `sig`. -/
def exSigning (cert : CertEntry) (sig : Option Bytes) : Provider Unit :=
  ⟨List.replicate 32 9, [1], none, .ok (fun _ => sig, .ecdsaSecp256r1Sha256), some cert⟩

set_option maxRecDepth 20000 in
/-- **C66 is false** A server makes `open` panic with an empty inner plaintext, with a CertificateVerify that does not follow
a Certificate, and (native verifier) with an Ed25519 certificate; it makes a client panic that has a raw public key, a
signer that fails or one with long signatures, if it asks for the certificate. -/
theorem C66_refuted :
    (Conn.open_ toySuite exCfg exProv () (exNew 400 [.data exEmptyInner])).1 = .panic ∧
    exAuthOpen toyNative [[exEE, .msg (exCertVerify [exDirect])]] = .panic ∧
    exAuthOpen toyWebOps [[exEE, .msg (exCertVerify [exDirect])]] = .panic ∧
    exAuthOpen (pkiOps toyEd toySuite allFeatures (some 30) 1000) (exAuthFlight [toyCert 9 9 25 50 "" []]) = .panic ∧
    (Conn.open_ toySuite exCfg (exSigning (.rawPublicKey [1]) (some (List.replicate 70 1))) ()
      (exNew 400 [.data (exServer exCfg exSH exAsk)])).1 = .panic ∧
    (Conn.open_ toySuite exCfg (exSigning (.x509 [1]) none) ()
      (exNew 400 [.data (exServer exCfg exSH exAsk)])).1 = .panic ∧
    (Conn.open_ toySuite exCfg (exSigning (.x509 [1]) (some (List.replicate 105 1))) ()
      (exNew 400 [.data (exServer exCfg exSH exAsk)])).1 = .panic := by
  decide +kernel

-- the same client with an X.509 certificate and short signatures gets through
set_option maxRecDepth 20000 in
example : (Conn.open_ toySuite exCfg (exSigning (.x509 [1]) (some (List.replicate 104 1))) ()
    (exNew 400 [.data (exServer exCfg exSH exAsk)])).1 = .ok () := by decide +kernel

-- with the feature `rsa` there is room for a signature of 105 bytes
set_option maxRecDepth 20000 in
example : (Conn.open_ { toySuite with rsa := true } exCfg (exSigning (.x509 [1]) (some (List.replicate 105 1))) ()
    (exNew 400 [.data (exServer exCfg exSH exAsk)])).1 = .ok () := by decide +kernel

-- C66_open_partial and C66_native_partial at one of them
example : OpenPanic toySuite exCfg exProv () (exNew 400 [.data exEmptyInner]) :=
  C66_open_partial toySuite toySuite_lawful exCfg exProv () (exNew_fresh _ _ (by decide))
    (by decide +kernel) C66_refuted.1

end ETls
