import Verif.Proofs.HandshakeInv

/-! # What a handshake step sends, whatever its outcome -/

namespace ETls

variable (S : Suite) {V : Type}
open Spec

/-- The transport events of trying to send the record `r`: it was not handed over, cut off by a failure, not flushed
because the record counter or the flush failed, or sent. -/
inductive Attempt (r : Bytes) : List OutEv → Prop where
  | nothing : Attempt r []
  | cut (q : Bytes) (h : q <+: r) : Attempt r [.partialWrite q]
  | notCounted : Attempt r [.wrote r]
  | notFlushed : Attempt r [.wrote r, .flushFailed]
  | sent : Attempt r [.wrote r, .flushed]

theorem respond_attempt (r : Bytes) (c : Conn) : ∃ evs, Attempt r evs ∧ (respond r c).2.tx.log = c.tx.log ++ evs ∧
    ((respond r c).1 = .ok () → evs = [.wrote r, .flushed]) := by
  by_cases hc : c.ks.client.st.counter + 1 < 2 ^ 64
  · have hcase := respond_cases r c hc
    generalize respond r c = res at hcase
    cases hcase with
    | failed k q ctl' hp hn => exact ⟨_, .cut q hp, rfl, by simp⟩
    | flushFailed k ctl' hn => exact ⟨_, .notFlushed, rfl, by simp⟩
    | done ctl' hr => exact ⟨_, .sent, rfl, fun _ => rfl⟩
  · unfold respond
    have hwks : (WrHalf.onTx (Tx.writeAll r) c.wr).2.wks = c.ks.client := rfl
    have htx : ∃ x, (x = [.wrote r] ∨ ∃ q, q <+: r ∧ x = [.partialWrite q]) ∧
        (WrHalf.onTx (Tx.writeAll r) c.wr).2.tx.log = c.tx.log ++ x ∧
        ((WrHalf.onTx (Tx.writeAll r) c.wr).1 = .ok () → x = [.wrote r]) := by
      unfold WrHalf.onTx Tx.writeAll
      have hw : c.wr.tx = c.tx := rfl
      rw [hw]
      rcases hctl : c.tx.ctl with _ | ⟨_ | ⟨k, n⟩, rest⟩
      · exact ⟨_, .inl rfl, rfl, fun _ => rfl⟩
      · exact ⟨_, .inl rfl, rfl, fun _ => rfl⟩
      · exact ⟨_, .inr ⟨r.take n, List.take_prefix _ _, rfl⟩, rfl, by simp⟩
    obtain ⟨x, hx, hlog, hok⟩ := htx
    rcases hw : WrHalf.onTx (Tx.writeAll r) c.wr with ⟨res, w⟩
    rw [hw] at hwks hlog hok
    simp only at hwks hlog hok
    have h1 : onWr (WrHalf.onTx (Tx.writeAll r)) c = (res, c.setWr w) := by simp only [onWr, hw]
    have hfail : ∃ evs, Attempt r evs ∧ c.tx.log ++ x = c.tx.log ++ evs := by
      rcases hx with rfl | ⟨q, hq, rfl⟩
      · exact ⟨_, .notCounted, rfl⟩
      · exact ⟨_, .cut q hq, rfl⟩
    obtain ⟨evs, ha, he⟩ := hfail
    cases res with
    | err e => rw [M.bind_err h1]; exact ⟨evs, ha, hlog.trans he, by simp⟩
    | panic => rw [M.bind_panic h1]; exact ⟨evs, ha, hlog.trans he, by simp⟩
    | ok u =>
      rw [M.bind_ok h1]
      have h3 : onWr WrHalf.increment (c.setWr w) = (.panic, (c.setWr w)) := by
        unfold onWr WrHalf.increment WriteKS.increment KsState.increment
        have hc' : ¬ (c.setWr w).wr.wks.st.counter + 1 < 2 ^ 64 := by
          rw [Conn.setWr_wr, hwks]; exact hc
        simp only [if_neg hc']
        rfl
      rw [M.bind_panic h3]
      exact ⟨evs, ha, hlog.trans he, by simp⟩

/-- An operation that does not touch the outgoing transport. -/
def KeepsTx {α : Type} (m : M TlsError (HSt V) α) : Prop := Keeps (fun s : HSt V => s.c.tx) m

theorem keepsTx_write (rec : ClientRecord) : KeepsTx (V := V) (onConn (Conn.writeRecord S rec)) :=
  fun s => Conn.writeRecord_tx S rec s.c

/-- Preparing a record and sending it. -/
theorem send_attempt {α β : Type} {m : M TlsError (HSt V) α} {out : α → Bytes} {k : α → M TlsError (HSt V) β}
    (hm : KeepsTx m) (hk : ∀ a, KeepsTx (k a)) {Q : Bytes → Prop} {s : HSt V} (hne : ∃ r, Q r)
    (hQ : ∀ a s1, m s = (.ok a, s1) → Q (out a)) :
    ∃ r evs, Q r ∧ Attempt r evs ∧
      ((do let a ← m; onConn (respond (out a)); k a : M TlsError (HSt V) β) s).2.c.tx.log = s.c.tx.log ++ evs := by
  have h1 := hm s
  rcases hms : m s with ⟨r, s1⟩
  rw [hms] at h1
  simp only at h1
  obtain ⟨r0, hr0⟩ := hne
  cases r with
  | err e => rw [M.bind_err hms]; exact ⟨r0, [], hr0, .nothing, by simp [h1]⟩
  | panic => rw [M.bind_panic hms]; exact ⟨r0, [], hr0, .nothing, by simp [h1]⟩
  | ok a =>
    rw [M.bind_ok hms]
    obtain ⟨evs, e1, e2, _⟩ := respond_attempt (out a) s1.c
    refine ⟨out a, evs, hQ a s1 hms, e1, ?_⟩
    rw [h1] at e2
    rcases hr : respond (out a) s1.c with ⟨r2, c2⟩
    rw [hr] at e2
    cases r2 with
    | err e => rw [M.bind_err (onConn_err hr)]; exact e2
    | panic => rw [M.bind_panic (onConn_panic hr)]; exact e2
    | ok u =>
      rw [M.bind_ok (onConn_ok hr)]
      exact (congrArg Tx.log (hk a _)).trans e2

/-- An encrypted record that `write_record` prepares on an idle buffer. -/
theorem writeRecord_protected (hS : S.Lawful) (rec : ClientRecord) (he : rec.header.isEncrypted = true)
    {c c1 : Conn} {bs bs' tr' out : Bytes} (hi : c.wb.Idle) (hL : 5 ≤ c.wb.buffer.length)
    (hiv : c.ks.client.st.iv.length = S.ivLen) (ha : Appends (rec.encodePayload S) bs ())
    (hf : Finishes S rec c.ks.client bs c.ks.server.transcript bs' tr')
    (h : Conn.writeRecord S rec c = (.ok out, c1)) :
    out = ciphertextRecord S c.ks.client.st.key c.ks.client.st.iv c.ks.client.st.counter
      (UInt8.ofNat rec.header.trailerContentType.code) bs' := by
  obtain ⟨wb, _, _, k3, _, _⟩ := Conn.writeRecord_inv S hS rec hi hL ha hf h
  rw [k3, recordBytes_spec S hS _ hiv _ he]

theorem writeRecord_protected_hs (hS : S.Lawful) (m : ClientHs) {c c1 : Conn} {bs out : Bytes} (hi : c.wb.Idle)
    (hL : 5 ≤ c.wb.buffer.length) (hiv : c.ks.client.st.iv.length = S.ivLen) (ha : Appends (m.encode S) bs ())
    (h : Conn.writeRecord S (.handshake m true) c = (.ok out, c1)) :
    out = ciphertextRecord S c.ks.client.st.key c.ks.client.st.iv c.ks.client.st.counter 22 bs :=
  writeRecord_protected S hS (.handshake m true) rfl hi hL hiv ha (finishes_encrypted S _ _ _ _) h

/-- The states in which the client sends its last flight: whatever the outcome of the step, at most one record is sent,
and it is protected with the current client key and number. -/
theorem process_replying (hS : S.Lawful) (cfg : Config) (p : Provider V) {st : State} {s : HSt V}
    (hst : st = .clientCert ∨ st = .clientCertVerify ∨ st = .clientFinished)
    (hi : s.c.wb.Idle) (hL : 5 ≤ s.c.wb.buffer.length) (hiv : s.c.ks.client.st.iv.length = S.ivLen) :
    ∃ ty content evs, Attempt (ciphertextRecord S s.c.ks.client.st.key s.c.ks.client.st.iv s.c.ks.client.st.counter
        ty content) evs ∧ (process S cfg p st s).2.c.tx.log = s.c.tx.log ++ evs := by
  suffices ∃ r evs, (∃ ty content, r = ciphertextRecord S s.c.ks.client.st.key s.c.ks.client.st.iv
      s.c.ks.client.st.counter ty content) ∧ Attempt r evs ∧
      (process S cfg p st s).2.c.tx.log = s.c.tx.log ++ evs by
    obtain ⟨r, evs, ⟨ty, content, rfl⟩, h1, h2⟩ := this
    exact ⟨ty, content, evs, h1, h2⟩
  have hne : ∃ r, (∃ ty content, r = ciphertextRecord S s.c.ks.client.st.key s.c.ks.client.st.iv
      s.c.ks.client.st.counter ty content) := ⟨_, 0, [], rfl⟩
  rcases hst with rfl | rfl | rfl
  · unfold process
    refine send_attempt (out := Prod.snd) (k := fun a => Pure.pure a.1) ?_ (fun a => Keeps.pure _) hne ?_
    · unfold clientCert
      refine Keeps.get.bind fun s => Keeps.bind (fun _ => rfl) fun _ => ?_
      split
      · exact Keeps.fail _
      · exact (keepsTx_write S _).bind fun _ => Keeps.pure _
    · intro a s1 h1
      unfold clientCert at h1
      rw [M.get_bind] at h1
      unfold modHs at h1
      rw [M.modify_bind] at h1
      rcases hctx : s.h.certReq with _ | ctx
      · simp only [hctx] at h1; simp at h1
      · simp only [hctx] at h1
        obtain ⟨out, s3, k1, k2⟩ := M.bind_inv h1
        obtain ⟨c1, k3, rfl⟩ := onConn_inv k1
        simp only [M.pure_apply, Prod.mk.injEq, Res.ok.injEq] at k2
        obtain ⟨rfl, rfl⟩ := k2
        simp only at k3 ⊢
        rcases hcert : p.clientCert with _ | ⟨cert⟩ | ⟨raw⟩
        · rw [hcert] at k3
          exact ⟨_, _, writeRecord_protected_hs S hS _ hi hL hiv (clientCert_appends S [] ctx []) k3⟩
        · rw [hcert] at k3
          exact ⟨_, _, writeRecord_protected_hs S hS _ hi hL hiv (clientCert_appends S [] ctx [cert]) k3⟩
        · rw [hcert] at k3
          exfalso
          have hno := rawCert_neverOk S [] ctx raw s.c.ks.client (s.c.wb, s.c.ks.server.transcript)
          rcases hw : WB.writeRecord S (.handshake (.clientCert ⟨[], ctx, [.rawPublicKey raw]⟩) true) s.c.ks.client
            (s.c.wb, s.c.ks.server.transcript) with ⟨r, wb, tr⟩
          have hw' := Conn.writeRecord_of S hw
          have hk : Conn.writeRecord S (.handshake (.clientCert ⟨[], ctx, [.rawPublicKey raw]⟩) true) s.c = (.ok out, c1) := k3
          rw [hw'] at hk
          simp only [Prod.mk.injEq] at hk
          exact hno out (wb, tr) (by rw [hw, hk.1])
  · unfold process
    refine send_attempt (out := Prod.snd) (k := fun a => M.lift a.1) ?_ (fun a => Keeps.lift _) hne ?_
    · unfold clientCertVerify
      refine Keeps.get.bind fun s => ?_
      split
      · exact Keeps.crash
      · simp only
        split
        · exact Keeps.fail _
        · split
          · exact Keeps.crash
          · split
            · exact Keeps.crash
            · exact (keepsTx_write S _).bind fun _ => Keeps.pure _
      · exact (keepsTx_write S _).bind fun _ => Keeps.pure _
    · intro a s1 h1
      unfold clientCertVerify at h1
      rw [M.get_bind] at h1
      rcases hsig : p.signer with ⟨sign, scheme⟩ | e | _
      · simp only [hsig] at h1
        by_cases hm : 146 < (clientSignedContent S s.c.ks.server.transcript).length
        · rw [if_pos hm] at h1; simp at h1
        · rw [if_neg hm] at h1
          cases hsg : sign (clientSignedContent S s.c.ks.server.transcript) with
          | none => rw [hsg] at h1; cases h1
          | some sig =>
            rw [hsg] at h1
            simp only at h1
            by_cases hl : signatureSize S < sig.length
            · rw [if_pos hl] at h1; simp at h1
            · rw [if_neg hl] at h1
              obtain ⟨out, s3, k1, k2⟩ := M.bind_inv h1
              obtain ⟨c1, k3, rfl⟩ := onConn_inv k1
              simp only [M.pure_apply, Prod.mk.injEq, Res.ok.injEq] at k2
              obtain ⟨rfl, rfl⟩ := k2
              exact ⟨_, _, writeRecord_protected_hs S hS _ hi hL hiv (certVerify_appends S scheme _) k3⟩
      · simp only [hsig] at h1
        obtain ⟨out, s3, k1, k2⟩ := M.bind_inv h1
        obtain ⟨c1, k3, rfl⟩ := onConn_inv k1
        simp only [M.pure_apply, Prod.mk.injEq, Res.ok.injEq] at k2
        obtain ⟨rfl, rfl⟩ := k2
        exact ⟨_, _, writeRecord_protected S hS (.alert ⟨.warning, .closeNotify⟩ true) rfl hi hL hiv
          (alert_appends ⟨.warning, .closeNotify⟩) (finishes_alert S _ _ _ _ _) k3⟩
      · simp only [hsig] at h1; simp at h1
  · unfold process
    refine send_attempt (out := id) (k := fun _ => clientFinishedFinalize S) ?_ ?_ hne ?_
    · unfold clientFinished
      exact Keeps.get.bind fun s => (Keeps.lift _).bind fun _ => keepsTx_write S _
    · intro _
      unfold clientFinishedFinalize
      refine Keeps.get.bind fun s => ?_
      split
      · exact Keeps.fail _
      · exact Keeps.bind (fun _ => rfl) fun _ => Keeps.bind (fun _ => rfl) fun _ => Keeps.bind (fun _ => rfl) fun _ => Keeps.pure _
    · intro a s1 h1
      unfold clientFinished at h1
      rw [M.get_bind] at h1
      obtain ⟨f, s2, h2, h3⟩ := M.bind_inv h1
      simp only [M.lift_apply, Prod.mk.injEq] at h2
      obtain ⟨_, rfl⟩ := h2
      obtain ⟨c1, k3, rfl⟩ := onConn_inv h3
      obtain ⟨v, o⟩ := f
      exact ⟨_, _, writeRecord_protected_hs S hS _ hi hL hiv (finished_appends S v o) k3⟩

/-- The record in which an alert is sent unprotected: content type 20, not 21. -/
def plainAlert (l : AlertLevel) (d : AlertDescription) : Bytes :=
  plaintextRecord 20 [3, 1] [UInt8.ofNat l.code, UInt8.ofNat d.code]

theorem writeRecord_plainAlert (hS : S.Lawful) (l : AlertLevel) (d : AlertDescription) {c c1 : Conn} {out : Bytes}
    (hi : c.wb.Idle) (hL : 5 ≤ c.wb.buffer.length) (h : Conn.writeRecord S (.alert ⟨l, d⟩ false) c = (.ok out, c1)) :
    out = plainAlert l d := by
  obtain ⟨wb, _, _, k3, _, _⟩ := Conn.writeRecord_inv S hS (.alert ⟨l, d⟩ false) hi hL (alert_appends ⟨l, d⟩)
    (finishes_alert S _ _ _ _ _) h
  rw [k3]
  simp [recordBytes, ClientRecord.header, ClientRecordHeader.isEncrypted, ClientRecordHeader.bytes3,
    ClientRecordHeader.headerContentType, ClientRecordHeader.version, plainAlert, plaintextRecord, ContentType.code]
  rfl

/-- Waiting for the server: whatever the outcome of the step, at most one record is sent, and it is the unprotected
alert of the error. -/
theorem process_waiting (hS : S.Lawful) (cfg : Config) (p : Provider V) {st : State} {s : HSt V}
    (hst : st = .serverHello ∨ st = .serverVerify) (hi : s.c.wb.Idle) (hL : 5 ≤ s.c.wb.buffer.length) :
    ((process S cfg p st s).2.c.tx.log = s.c.tx.log ∧ (7 ≤ s.c.wb.buffer.length → ∀ l d,
      (process S cfg p st s).1 = .err (.abortHandshake l d) →
      (onConn (onRd (RdHalf.readRecord S)) s).1 = .err (.abortHandshake l d))) ∨
    ∃ l d evs, Attempt (plainAlert l d) evs ∧ (process S cfg p st s).2.c.tx.log = s.c.tx.log ++ evs ∧
      ((process S cfg p st s).1 = .err (.abortHandshake l d) → evs = [.wrote (plainAlert l d), .flushed]) ∧
      ∀ l' d', (process S cfg p st s).1 = .err (.abortHandshake l' d') → l' = l ∧ d' = d := by
  have hread : KeepsTx (V := V) (onConn (onRd (RdHalf.readRecord S))) := fun _ => rfl
  have hreadw : ∀ s : HSt V, (onConn (onRd (RdHalf.readRecord S)) s).2.c.wb = s.c.wb := fun _ => rfl
  have key : ∀ {m : M TlsError (HSt V) State} {s1 : HSt V}, KeepsTx m → (m s1).2.c.wb = s1.c.wb → s1.c.wb.Idle →
      5 ≤ s1.c.wb.buffer.length →
      ((withErrorHandling S m s1).2.c.tx.log = s1.c.tx.log ∧ (7 ≤ s1.c.wb.buffer.length → ∀ l d,
        (withErrorHandling S m s1).1 ≠ .err (.abortHandshake l d))) ∨
      ∃ l d evs, Attempt (plainAlert l d) evs ∧ (withErrorHandling S m s1).2.c.tx.log = s1.c.tx.log ++ evs ∧
        ((withErrorHandling S m s1).1 = .err (.abortHandshake l d) → evs = [.wrote (plainAlert l d), .flushed]) ∧
        ∀ l' d', (withErrorHandling S m s1).1 = .err (.abortHandshake l' d') → l' = l ∧ d' = d := by
    intro m s1 hm hmw hi hL
    unfold withErrorHandling
    have h1 := hm s1
    rcases hms : m s1 with ⟨r, s2⟩
    rw [hms] at h1 hmw
    simp only at h1 hmw ⊢
    have hother : ∀ r', (onConn (M.lift r') s2 : Res TlsError State × HSt V).2.c.tx.log = s1.c.tx.log := by
      intro r'; exact congrArg Tx.log h1
    cases r with
    | ok a => exact .inl ⟨hother _, fun _ l d h => by simp [onConn, handleProcessingError] at h⟩
    | panic => exact .inl ⟨hother _, fun _ l d h => by simp [onConn, handleProcessingError] at h⟩
    | err e =>
      cases e with
      | abortHandshake l d =>
        unfold handleProcessingError
        simp only
        rcases hw : Conn.writeRecord S (.alert ⟨l, d⟩ false) s2.c with ⟨r, c3⟩
        have htx : c3.tx = s2.c.tx := by
          have := Conn.writeRecord_tx S (.alert ⟨l, d⟩ false) s2.c
          rw [hw] at this; exact this
        have hfits : 7 ≤ s1.c.wb.buffer.length → ∃ out, r = .ok out := by
          intro h7
          obtain ⟨wb, g1, _, _⟩ := writeRecord_ok S hS (.alert ⟨l, d⟩ false) s2.c.ks.client s2.c.wb
            [UInt8.ofNat l.code, UInt8.ofNat d.code] s2.c.ks.server.transcript _ _ (by rw [hmw]; exact hi)
            (by rw [hmw]; exact hL) (alert_appends ⟨l, d⟩) (finishes_alert S _ _ _ _ _) (by
              rw [hmw]; simpa [recordRoom, ClientRecord.header, ClientRecordHeader.isEncrypted] using h7)
          rw [Conn.writeRecord_of S g1] at hw
          exact ⟨_, (congrArg Prod.fst hw).symm⟩
        cases r with
        | err e =>
          refine .inl ⟨?_, fun h7 => absurd (hfits h7) (by simp)⟩
          simp only [onConn]
          rw [M.bind_err hw]
          simp only [htx, h1]
        | panic =>
          refine .inl ⟨?_, fun h7 => absurd (hfits h7) (by simp)⟩
          simp only [onConn]
          rw [M.bind_panic hw]
          simp only [htx, h1]
        | ok out =>
          have ho := writeRecord_plainAlert S hS l d (by rw [hmw]; exact hi) (by rw [hmw]; exact hL) hw
          subst ho
          obtain ⟨evs, e1, e2, e3⟩ := respond_attempt (plainAlert l d) c3
          rw [htx, h1] at e2
          refine .inr ⟨l, d, evs, e1, ?_⟩
          simp only [onConn]
          rw [M.bind_ok hw]
          rcases hr : respond (plainAlert l d) c3 with ⟨r2, c4⟩
          rw [hr] at e2 e3
          simp only at e2 e3
          have hne : ∀ {e : TlsError}, respond (plainAlert l d) c3 = (.err e, c4) → ∃ k, e = .io k := by
            intro e he
            by_cases hc : c3.ks.client.st.counter + 1 < 2 ^ 64
            · have hcase := respond_cases (plainAlert l d) c3 hc
              rw [he] at hcase
              cases hcase with
              | failed k => exact ⟨k, rfl⟩
              | flushFailed k => exact ⟨k, rfl⟩
            · unfold respond at he
              rcases hw2 : WrHalf.onTx (Tx.writeAll (plainAlert l d)) c3.wr with ⟨res, w⟩
              have hwks : w.wks = c3.ks.client := by
                have : (WrHalf.onTx (Tx.writeAll (plainAlert l d)) c3.wr).2.wks = c3.wr.wks := rfl
                rw [hw2] at this
                exact this
              have h4 : onWr (WrHalf.onTx (Tx.writeAll (plainAlert l d))) c3 = (res, c3.setWr w) := by
                simp only [onWr, hw2]
              cases res with
              | err e' =>
                rw [M.bind_err h4] at he
                simp only [Prod.mk.injEq, Res.err.injEq] at he
                rw [← he.1]
                have h5 : (Tx.writeAll (plainAlert l d) c3.tx).1 = .err e' := congrArg Prod.fst hw2
                unfold Tx.writeAll at h5
                split at h5
                · simp at h5
                · simp at h5
                · simp only [Res.err.injEq] at h5; exact ⟨_, h5.symm⟩
              | panic => rw [M.bind_panic h4] at he; cases he
              | ok u =>
                rw [M.bind_ok h4] at he
                have h6 : onWr WrHalf.increment (c3.setWr w) = (.panic, (c3.setWr w)) := by
                  unfold onWr WrHalf.increment WriteKS.increment KsState.increment
                  have hc' : ¬ (c3.setWr w).wr.wks.st.counter + 1 < 2 ^ 64 := by
                    rw [Conn.setWr_wr, hwks]; exact hc
                  simp only [if_neg hc']
                  rfl
                rw [M.bind_panic h6] at he
                cases he
          cases r2 with
          | ok u =>
            rw [M.bind_ok hr]
            simp only [M.lift_apply]
            refine ⟨e2, fun _ => e3 rfl, fun l' d' h => ?_⟩
            simp only [Res.err.injEq, TlsError.abortHandshake.injEq] at h
            exact ⟨h.1.symm, h.2.symm⟩
          | err e =>
            obtain ⟨k, rfl⟩ := hne hr
            rw [M.bind_err hr]
            exact ⟨e2, by simp, by simp⟩
          | panic =>
            rw [M.bind_panic hr]
            exact ⟨e2, by simp, by simp⟩
      | _ => exact .inl ⟨hother _, fun _ l d h => by simp [onConn, handleProcessingError] at h⟩
  have hsh : ∀ rec, KeepsTx (V := V) (processServerHello S rec) ∧
      Keeps (fun s : HSt V => s.c.wb) (processServerHello S rec) := by
    intro rec
    have gen : ∀ {β : Type} (f : HSt V → β) (_ : ∀ {α : Type} (m : M TlsError KeySchedule α), Keeps f (onKs (V := V) m))
        (_ : ∀ g, Keeps f (modHs (V := V) g)), Keeps f (processServerHello (V := V) S rec) := by
      intro β f hk hm
      unfold processServerHello
      split
      · refine Keeps.get.bind fun s => ?_
        split
        · exact Keeps.fail _
        · refine (hm _).bind fun _ => ?_
          split
          · exact Keeps.fail _
          · exact (hk _).bind fun _ => Keeps.pure _
      · exact Keeps.fail _
      · exact Keeps.fail _
      · exact Keeps.fail _
    exact ⟨gen _ (fun _ _ => rfl) fun _ _ => rfl, gen _ (fun _ _ => rfl) fun _ _ => rfl⟩
  have main : ∀ (m : ServerRecord → M TlsError (HSt V) State), (∀ rec, KeepsTx (m rec) ∧ Keeps (fun s : HSt V => s.c.wb) (m rec)) →
      ∀ q : M TlsError (HSt V) State, q = (do
        let rec ← onConn (onRd (RdHalf.readRecord S))
        withErrorHandling S (m rec)) →
      ((q s).2.c.tx.log = s.c.tx.log ∧ (7 ≤ s.c.wb.buffer.length → ∀ l d, (q s).1 = .err (.abortHandshake l d) →
        (onConn (onRd (RdHalf.readRecord S)) s).1 = .err (.abortHandshake l d))) ∨
      ∃ l d evs, Attempt (plainAlert l d) evs ∧ (q s).2.c.tx.log = s.c.tx.log ++ evs ∧
        ((q s).1 = .err (.abortHandshake l d) → evs = [.wrote (plainAlert l d), .flushed]) ∧
        ∀ l' d', (q s).1 = .err (.abortHandshake l' d') → l' = l ∧ d' = d := by
    intro m hm q hq
    subst hq
    have h1 := hread s
    have h2 := hreadw s
    rcases hr : (onConn (onRd (RdHalf.readRecord S)) s : Res TlsError ServerRecord × HSt V) with ⟨r, s1⟩
    rw [hr] at h1 h2
    simp only at h1 h2
    cases r with
    | err e => rw [M.bind_err hr]; exact .inl ⟨congrArg Tx.log h1, fun _ l d h => by simpa using h⟩
    | panic => rw [M.bind_panic hr]; exact .inl ⟨congrArg Tx.log h1, fun _ l d h => by simp at h⟩
    | ok rec =>
      rw [M.bind_ok hr]
      have := key (hm rec).1 ((hm rec).2 s1) (by rw [h2]; exact hi) (by rw [h2]; exact hL)
      rw [h1, h2] at this
      exact this.imp (fun h => ⟨h.1, fun h7 l d he => absurd he (h.2 h7 l d)⟩) id
  rcases hst with rfl | rfl
  · exact main (processServerHello S) hsh _ rfl
  · exact main (processServerVerify S p) (fun rec => ⟨fun _ => rfl, fun _ => rfl⟩) _ rfl

end ETls
