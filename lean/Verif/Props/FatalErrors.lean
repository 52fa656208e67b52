import Verif.Props.Split
import Verif.Props.WholeLife

/-! # C110: what a fatal alert, a record that does not authenticate and a protocol violation do to an open connection

RFC 8446 sections 5.2 and 6.2: the connection is closed, an alert is sent (unless one was received), the keys are
forgotten.  The code closes a connection for a close_notify alert only. -/

namespace ETls

variable (S : Suite)

open Spec (Fragment)

/-- **C110, in part** An error ends the connection, as far as the application sees, only if it is `ConnectionClosed`:
then every later call of either half fails (those that only take what was already received excepted, and there is
nothing left to take).  Missing: the same after any other fatal alert or error (`C110_refuted`). -/
theorem C110_close_partial (hol : S.OpenLength) (op : ROp) (c : Conn) (hg : c.rd.Good) (ho : c.opened = true)
    (hc : ((AnyOp.reader op).run S c).2.opened = false) (hp : (op.run S c.rd).1 ≠ .panic) (ops : List AnyOp) :
    ((AnyOp.reader op).run S c).1 = .read (.err .connectionClosed) ∧
    ((AnyOp.reader op).run S c).2.rd.unread = [] ∧
    (runAny S ops ((AnyOp.reader op).run S c).2).2.opened = false := by
  have h := C28_only_close S hol op c.rd hg ho hc hp
  refine ⟨congrArg AnyOut.read h.1, h.2, ?_⟩
  cases hx : (runAny S ops ((AnyOp.reader op).run S c).2).2.opened with
  | false => rfl
  | true => rw [C31_never_opens S ops _ hx] at hc; cases hc

/-- **C110, refuted in general** After every other error of a reading call — whatever the peer or an attacker sent — the
connection is still open, nothing was sent (no alert), and whatever is written afterwards is sent exactly as if the
error had not happened. -/
theorem C110_goes_on (hol : S.OpenLength) (op : ROp) (c : Conn) (hg : c.rd.Good) (ho : c.opened = true)
    {e : TlsError} (he : (op.run S c.rd).1 = .err e) (hne : e ≠ .connectionClosed) (ws : List WOp) :
    ((AnyOp.reader op).run S c).2.opened = true ∧
    ((AnyOp.reader op).run S c).2.tx = c.tx ∧
    (runAny S (ws.map .writer) ((AnyOp.reader op).run S c).2).1 = (runAny S (ws.map .writer) c).1 ∧
    (runAny S (ws.map .writer) ((AnyOp.reader op).run S c).2).2.tx = (runAny S (ws.map .writer) c).2.tx := by
  have hopen : ((AnyOp.reader op).run S c).2.opened = true := by
    cases hx : ((AnyOp.reader op).run S c).2.opened with
    | true => rfl
    | false =>
      have h := C28_only_close S hol op c.rd hg ho hx (by rw [he]; intro h; cases h)
      rw [he] at h
      injection h.1 with h1
      exact absurd h1 hne
  have hwr : ((AnyOp.reader op).run S c).2.wr = c.wr := by
    have h1 : ((AnyOp.reader op).run S c).2.wr = { c.wr with opened := ((AnyOp.reader op).run S c).2.opened } := rfl
    rw [h1, hopen, ← ho]
    rfl
  refine ⟨hopen, congrArg WrHalf.tx hwr, ?_⟩
  generalize ((AnyOp.reader op).run S c).2 = c1 at hwr
  clear hopen he hne ho hg
  induction ws generalizing c c1 with
  | nil => exact ⟨rfl, congrArg WrHalf.tx hwr⟩
  | cons w ws ih =>
    have hstep : ((AnyOp.writer w).run S c1).1 = ((AnyOp.writer w).run S c).1 ∧
        ((AnyOp.writer w).run S c1).2.wr = ((AnyOp.writer w).run S c).2.wr := by
      constructor
      · show AnyOut.wrote (w.run S c1.wr).1 = AnyOut.wrote (w.run S c.wr).1
        rw [hwr]
      · show (w.run S c1.wr).2 = (w.run S c.wr).2
        rw [hwr]
    have h2 := ih _ _ hstep.2
    exact ⟨List.cons_eq_cons.2 ⟨hstep.1, h2.1⟩, h2.2⟩

set_option maxRecDepth 10000 in
/-- **C110, refuted** After a handshake an attacker puts in a forged record, and the server sends data and a fatal alert
(handshake_failure).  The reader reports `CryptoError`, delivers the data and reports `InternalError`; after each of the
errors the application writes and the record is sent. -/
theorem C110_refuted :
    let rx : Rx := [.data (([23, 3, 3, 0, 20] ++ List.replicate 20 0) ++ exApp 0 ⟨23, [7, 8], 0⟩ ++ exApp 1 ⟨21, [2, 40], 0⟩)]
    (exOpened [] rx).1 = .ok () ∧
    (runAny toySuite [.reader (.read 10), .writer (.write [5]), .writer .flush, .reader (.read 10), .reader (.read 10),
        .writer (.write [6]), .writer .flush] (exOpened [] rx).2).1 =
      [.read (.err .cryptoError), .wrote (.ok 1), .wrote (.ok 0), .read (.ok ⟨[7, 8], [[7, 8]], [7, 8]⟩),
        .read (.err .internalError), .wrote (.ok 1), .wrote (.ok 0)] := by
  decide +kernel

/-! # C111: no record is accepted twice

RFC 8446 section 5.3: the sequence number is incremented by one after reading each record; so no record can be replayed.
`connection.rs:70-88` increments it after the callback, which returns early with `?` for an alert (C92 has the consequence
for the records that follow). -/

/-- **C111, in part** A protected record that is received without an error has opened under the current sequence number
and is counted: the same bytes would be tried with another nonce afterwards.  Missing: the same when the record is an
alert (`C111_refuted_alert`). -/
theorem C111_counted_partial (hS : S.Lawful) (h h1 h2 : RdHalf) (hiv : h.rks.st.iv.length = S.ivLen)
    (hdr ct : Bytes) (start : Nat) (hr : RdHalf.readRecord S h = (.ok (.appData hdr start ct), h1))
    (ha : RdHalf.readApplicationData S h = (.ok (), h2)) :
    (∃ pt, S.open_ h.rks.st.key (h.rks.st.nonce S) hdr ct = some pt) ∧
    h2.rks.st = { h.rks.st with counter := h.rks.st.counter + 1 } ∧ h2.rks.st.nonce S ≠ h.rks.st.nonce S := by
  have f1 : h1.rks.st = h.rks.st := by
    unfold RdHalf.readRecord at hr
    injection hr with _ hr
    rw [← hr]
  unfold RdHalf.readApplicationData at ha
  rw [M.bind_ok hr] at ha
  unfold RdHalf.decrypt decryptRecord at ha
  simp only [f1] at ha
  rcases ho : S.open_ h.rks.st.key (KsState.nonce S h.rks.st) hdr ct with _ | pt
  · rw [ho] at ha; cases ha
  rw [ho] at ha
  simp only at ha
  have hdisp := dispatch_cases S h1.rr.buf.length start hdr pt h1.rks h1.dec h1.opened
  generalize dispatchInner S (readHandler h1.rr.buf.length) hdr start pt (h1.rks, (h1.dec, h1.opened)) = res at ha hdisp
  obtain ⟨res, k', d', o'⟩ := res
  have hk : res = .ok () → k'.st = h.rks.st := by
    intro hres
    subst hres
    cases hdisp with
    | data content hs hb => exact f1
    | tickets content hs k' hk => exact hk.trans f1
  cases res with
  | err e => cases ha
  | panic => cases ha
  | ok u =>
    simp only [ReadKS.increment, KsState.increment, hk rfl] at ha
    split at ha
    · next hc =>
      simp only [Prod.mk.injEq, true_and] at ha
      have hst : h2.rks.st = { h.rks.st with counter := h.rks.st.counter + 1 } := by rw [← ha]
      refine ⟨⟨pt, rfl⟩, hst, fun hn => ?_⟩
      rw [hst] at hn
      have := C47_nonce_injective S hS h.rks.st.iv hiv (h.rks.st.counter + 1) h.rks.st.counter hc (by omega) hn
      omega
    · cases ha

/-- **C111, refuted in general** Every protected alert but close_notify leaves the sequence number as it is: the same
record is accepted again, as often as an attacker sends it, and the next record of the server is tried with the wrong
nonce. -/
theorem C111_refuted_alert (op : ROp) (hop : op.Fills) (h h1 : RdHalf) (hg : h.Good) (ho : h.opened = true)
    (hu : h.unread = []) (hdr ct : Bytes) (start : Nat) (content : Bytes) (k : Nat) (a : Alert)
    (ha : (Alert.parse (PB.new content)).1 = .ok a) (hne : a.description ≠ .closeNotify)
    (hr : RdHalf.readRecord S h = (.ok (.appData hdr start ct), h1))
    (hop' : S.open_ h.rks.st.key (h.rks.st.nonce S) hdr ct = some (Fragment.inner ⟨21, content, k⟩)) :
    (op.run S h).1 = .err .internalError ∧ (op.run S h).2.rks.st = h.rks.st ∧ (op.run S h).2.opened = true ∧
      (op.run S h).2.unread = [] := by
  have hfr : h1.rks.st = h.rks.st ∧ h1.opened = h.opened ∧ h1.dec = h.dec := by
    unfold RdHalf.readRecord at hr
    injection hr with _ hr
    rw [← hr]
    exact ⟨rfl, rfl, rfl⟩
  obtain ⟨f1, f2, f3⟩ := hfr
  have hd : ∃ h2, RdHalf.decrypt S (.appData hdr start ct) h1 = (.err .internalError, h2) ∧ h2.opened = h.opened ∧
      h2.dec = h.dec ∧ h2.rks.st = h.rks.st := by
    unfold RdHalf.decrypt decryptRecord
    simp only [f1, hop']
    rw [(C27_dispatch_partial S (readHandler h1.rr.buf.length) hdr start (h1.rks, (h1.dec, h1.opened))).2.2.1
      content k a ha]
    simp only [readHandler, if_neg hne]
    exact ⟨_, rfl, f2, f3, f1⟩
  obtain ⟨h2, d1, d2, d3, d4⟩ := hd
  have hra : RdHalf.readApplicationData S h = (.err .internalError, h2) := by
    unfold RdHalf.readApplicationData
    rw [M.bind_ok hr, d1]
  have hf : RdHalf.fill S h = (.err .internalError, h2) := by
    unfold RdHalf.fill
    rw [M.get_bind, if_pos ho]
    unfold RdHalf.fillLoop
    rw [M.get_bind, if_pos ((h.isEmpty_iff hg).2 hu), M.bind_err hra]
  rw [op.run_fills S hop, M.bind_err hf]
  exact ⟨rfl, d4, d2.trans ho, unread_same h h2 hg hu d3⟩

set_option maxRecDepth 10000 in
/-- **C111, refuted** The server cancels (user_canceled, a warning, RFC 8446 6.1) and then sends close_notify as it should;
an attacker has repeated the first alert.  The reader accepts both copies, and does not recognise the close_notify: for
the application the connection is never closed. -/
theorem C111_refuted :
    let rx : Rx := [.data (exApp 0 ⟨21, [1, 90], 0⟩ ++ exApp 0 ⟨21, [1, 90], 0⟩ ++ exApp 1 ⟨21, [1, 0], 0⟩)]
    (exOpened [] rx).1 = .ok () ∧
    (runReads toySuite [.read 10, .read 10, .read 10, .read 10] (exOpened [] rx).2.rd).1 =
      [.err .internalError, .err .internalError, .err .cryptoError, .err .ioError] ∧
    (runReads toySuite [.read 10, .read 10, .read 10, .read 10] (exOpened [] rx).2.rd).2.opened = true := by
  decide +kernel

/-! ## Examples -/

-- C110_close_partial: a close_notify alert
example : (AnyOp.run toySuite (.reader (.read 10)) (exConn [.data (sealInner 0 [1, 0, 21])])).2.opened = false ∧
    ((ROp.read 10).run toySuite (exConn [.data (sealInner 0 [1, 0, 21])]).rd).1 ≠ .panic := by decide +kernel

-- C111_counted_partial: application data
example : ∃ hdr start ct, (RdHalf.readRecord toySuite (exConn [.data (exRecord 0 [7, 8])]).rd).1 = .ok (.appData hdr start ct) ∧
    (RdHalf.readApplicationData toySuite (exConn [.data (exRecord 0 [7, 8])]).rd).1 = .ok () :=
  ⟨[23, 3, 3, 0, 19], 0, (exRecord 0 [7, 8]).drop 5, by decide +kernel, by decide +kernel⟩

-- C111_refuted_alert: a fatal alert (bad_record_mac)
example : (RdHalf.readRecord toySuite (exConn [.data (sealInner 0 [2, 20, 21])]).rd).1 =
      .ok (.appData [23, 3, 3, 0, 19] 0 ((sealInner 0 [2, 20, 21]).drop 5)) ∧
    toySuite.open_ (List.replicate 16 3) ((exConn []).rd.rks.st.nonce toySuite) [23, 3, 3, 0, 19]
      ((sealInner 0 [2, 20, 21]).drop 5) = some (Fragment.inner ⟨21, [2, 20], 0⟩) ∧
    (exConn []).rd.rks.st.key = List.replicate 16 3 ∧
    (Alert.parse (PB.new [2, 20])).1 = .ok ⟨.fatal, .badRecordMac⟩ := by decide +kernel

-- C110_goes_on: a fatal alert (bad_record_mac)
example : ((ROp.read 10).run toySuite (exConn [.data (sealInner 0 [2, 20, 21])]).rd).1 = .err .internalError ∧
    (exConn [.data (sealInner 0 [2, 20, 21])]).opened = true := by decide +kernel

end ETls
