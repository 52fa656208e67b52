import Verif.Proofs.ConnWrite
import Verif.Props.CodePoints

/-! # C16: closing the connection -/

namespace ETls

variable (S : Suite)
open Spec

theorem ciphertextRecords_single (key iv : Bytes) (seq : Nat) (t : UInt8) (x : Bytes) :
    ciphertextRecords S key iv seq [(t, x)] = [ciphertextRecord S key iv seq t x] := rfl

/-- `close` with content `content` in the write buffer: the buffered data, then `close_notify`, then a flush. -/
theorem close_run (hS : S.Lawful) (c : Conn) (content : Bytes) (hw : c.wr.Ready S content) (ho : c.opened = true)
    (ht : Reliable c.tx) (hc : c.ks.client.st.counter + 2 < 2 ^ 64) :
    ∃ (evs : List OutEv) (sent : List Bytes), (Conn.close S c).1 = .ok () ∧
      (Conn.close S c).2.tx.log = c.tx.log ++ evs ∧ sent.flatten = content ∧
      evs.getLast? = some .flushed ∧
      wrote evs = ciphertextRecords S c.ks.client.st.key c.ks.client.st.iv c.ks.client.st.counter
        (sent.map (fun x => (23, x)) ++ [(21, alertMsg 1 0)]) ∧
      ∀ x ∈ sent, x.length ≤ c.wb.buffer.length - 133 := by
  obtain ⟨evs, sent, f1, f2, f3, f4, f5, f6, f7, f8, f9, f10, f11, f12, f13, f14⟩ :=
    flush_step S hS c.wr content hw (by show c.ks.client.st.counter + 1 < _; omega)
  obtain ⟨g1, g2, g3⟩ := f14 ht
  generalize hfl : WrHalf.flush S c.wr = fl at *
  obtain ⟨r, w1⟩ := fl
  simp only at f2 f3 f4 f5 f6 f7 f8 f9 f10 g1 g2
  subst g2
  have hflush : Conn.flush S c = (.ok (), c.setWr w1) := by simp only [Conn.flush, onWr, hfl]
  have hcnt : w1.wks.st.counter + 1 < 2 ^ 64 := by
    rw [f10]; show c.ks.client.st.counter + sent.length + 1 < _; omega
  have hsz : 133 ≤ w1.wb.buffer.length := f2.size
  obtain ⟨wb2, k1, k2, k3⟩ := writeRecord_ok S hS (ClientRecord.closeNotify true) w1.wks w1.wb
    (alertMsg 1 0) (c.setWr w1).ks.server.transcript (alertMsg 1 0) _ f3 (by omega) (alert_appends ⟨.warning, .closeNotify⟩)
    (finishes_alert S _ _ _ _ _)
    (by
      have : recordRoom (ClientRecord.closeNotify true).header (alertMsg 1 0) = 24 := by
        simp [recordRoom, ClientRecord.closeNotify, ClientRecord.header, ClientRecordHeader.isEncrypted, alertMsg]
      omega)
  have hspec := recordBytes_spec S hS w1.wks f2.iv (ClientRecord.closeNotify true).header rfl (alertMsg 1 0)
  rw [hspec] at k1
  have hwr := Conn.writeRecord_of S (c := c.setWr w1) k1
  generalize hrec : ciphertextRecord S w1.wks.st.key w1.wks.st.iv w1.wks.st.counter
    (UInt8.ofNat (ClientRecord.closeNotify true).header.trailerContentType.code) (alertMsg 1 0) = rec at *
  have hopen : (c.setWr w1).opened = true := by show w1.opened = true; rw [f5]; exact ho
  have hclose : Conn.close S c = respond rec ((c.setWr w1).wrote wb2 (c.setWr w1).ks.server.transcript) := by
    unfold Conn.close
    rw [M.bind_ok hflush, M.get_bind]
    simp only [hopen]
    rw [M.bind_ok hwr]
    rfl
  rw [hclose]
  have hcase := respond_cases rec ((c.setWr w1).wrote wb2 (c.setWr w1).ks.server.transcript) hcnt
  have hrel : Reliable ((c.setWr w1).wrote wb2 (c.setWr w1).ks.server.transcript).tx := g1
  generalize hres : respond rec ((c.setWr w1).wrote wb2 (c.setWr w1).ks.server.transcript) = res at hcase
  cases hcase with
  | failed _ _ _ _ hn => exact absurd hrel hn
  | flushFailed _ _ hn => exact absurd hrel hn
  | done ctl' hr =>
    refine ⟨evs ++ [.wrote rec, .flushed], sent, rfl, ?_, g3, by simp, ?_, f13⟩
    · show w1.tx.log ++ _ = _
      rw [f9, List.append_assoc]; rfl
    · rw [wrote_append, f12, ciphertextRecords_append, List.length_map, ciphertextRecords_single]
      have : wrote [.wrote rec, .flushed] = [rec] := rfl
      rw [this, ← hrec, f7, f8, f10]
      rfl

/-- **C16 (partial)** On a connection that the application opened and the peer has not closed, after any history of
`write`/`flush` calls, over a transport that does not fail: `close` succeeds; the records sent, history and close
together, are the protected application data accepted by the `write` calls followed by exactly one protected
`close_notify` alert (warning, 0) as the last record, all under the client's key with consecutive sequence numbers; the
transport has been flushed after it.  Missing: the case of a peer that has closed first, see `C16_refuted`. -/
theorem C16_close_partial (hS : S.Lawful) (ops : List WOp) (c : Conn) (hi : c.wb.Idle)
    (hL : 133 ≤ c.wb.buffer.length) (hiv : c.ks.client.st.iv.length = S.ivLen) (ho : c.opened = true)
    (ht : Reliable c.tx) (hc : c.ks.client.st.counter + ops.length + 2 < 2 ^ 64) :
    ∃ (evs : List OutEv) (sent : List Bytes),
      (Conn.close S (c.setWr (runOps S ops c.wr).2)).1 = .ok () ∧
      (Conn.close S (c.setWr (runOps S ops c.wr).2)).2.tx.log = c.tx.log ++ evs ∧
      evs.getLast? = some .flushed ∧
      wrote evs = ciphertextRecords S c.ks.client.st.key c.ks.client.st.iv c.ks.client.st.counter
        (sent.map (fun x => (23, x)) ++ [(21, alertMsg 1 0)]) ∧
      sent.flatten = accepted ops (runOps S ops c.wr).1 := by
  obtain ⟨c', evs, sent, h⟩ := ops_run S hS ops c.wr [] ⟨.idle hi, hL, hiv⟩ (by
    show c.ks.client.st.counter + ops.length < _; omega)
  obtain ⟨g1, g2, g3⟩ := h.reliable ht ho
  have hcnt := h.counter
  have hle := h.sentLe
  generalize hw : (runOps S ops c.wr).2 = w at *
  obtain ⟨e2, s2, k1, k2, k3, k4, k5, -⟩ := close_run S hS (c.setWr w) c' h.ready (h.opened.trans ho) g1
    (by
      have : c.wr.wks.st.counter = c.ks.client.st.counter := rfl
      show w.wks.st.counter + 2 < _; omega)
  refine ⟨evs ++ e2, sent ++ s2, k1, ?_, ?_, ?_, ?_⟩
  · rw [k2]
    show w.tx.log ++ _ = _
    rw [h.log, List.append_assoc]; rfl
  · rw [List.getLast?_append, k4]; rfl
  · rw [wrote_append, h.wrote, k5]
    show _ ++ ciphertextRecords S w.wks.st.key w.wks.st.iv w.wks.st.counter _ = _
    rw [h.key, h.iv, h.counter, List.map_append, List.append_assoc, ciphertextRecords_append (a := sent.map _)]
    simp only [List.length_map]
    rfl
  · rw [List.flatten_append, k3, ← g3]; rfl

/-- An open connection between toy endpoints with write and read buffers of 200 bytes, for the examples. -/
def exConn (rx : Rx) : Conn where
  rx := rx
  tx := ⟨[], []⟩
  opened := true
  ks := { KeySchedule.new toySuite with
    client := ⟨⟨none, 0, List.replicate 16 1, List.replicate 12 2⟩, none⟩
    server := ⟨⟨none, 0, List.replicate 16 3, List.replicate 12 4⟩, []⟩ }
  rr := RR.new (List.replicate 200 0)
  wb := ⟨List.replicate 200 0, 0, none⟩
  dec := ⟨0, 0, 0⟩
  fp := .strict

example : (exConn []).wb.Idle ∧ 133 ≤ (exConn []).wb.buffer.length ∧
    (exConn []).ks.client.st.iv.length = toySuite.ivLen ∧ (exConn []).opened = true ∧ Reliable (exConn []).tx :=
  ⟨⟨rfl, rfl⟩, by decide +kernel, rfl, rfl, by intro c hc; cases hc⟩

example : (Conn.close toySuite ((exConn []).setWr (runOps toySuite [.write [1, 2]] (exConn []).wr).2)).2.tx.log =
    [.wrote (ciphertextRecord toySuite (List.replicate 16 1) (List.replicate 12 2) 0 23 [1, 2]), .flushed,
     .wrote (ciphertextRecord toySuite (List.replicate 16 1) (List.replicate 12 2) 1 21 [1, 0]), .flushed] := by
  decide +kernel

/-- **C16, refuted in general** After the peer has closed the connection (an authentic `close_notify` read by the
application), `close` sends the seven plaintext bytes `20 3 1 0 2 1 0` as the only record. -/
theorem C16_refuted : ∃ c : Conn, c.opened = true ∧ c.wb.Idle ∧ Reliable c.tx ∧
    c.rx = [.data (ciphertextRecord toySuite c.ks.server.st.key c.ks.server.st.iv 0 21 (alertMsg 1 0))] ∧
    (Conn.read toySuite 10 c).1 = .err .connectionClosed ∧
    (Conn.close toySuite (Conn.read toySuite 10 c).2).1 = .ok () ∧
    (Conn.close toySuite (Conn.read toySuite 10 c).2).2.tx.log = [.wrote [20, 3, 1, 0, 2, 1, 0], .flushed] :=
  ⟨exConn [.data (ciphertextRecord toySuite (List.replicate 16 3) (List.replicate 12 4) 0 21 [1, 0])],
    by decide +kernel, ⟨rfl, rfl⟩, (by intro c hc; cases hc), by decide +kernel, by decide +kernel, by decide +kernel, by decide +kernel⟩

end ETls
