import Verif.Spec.Writer
import Verif.Props.WholeLife

/-! # C78: writing calls refine a writer of records -/

namespace ETls

variable (S : Suite)

open Spec (Writer Wrote WriteCall)

/-- The write buffer holds the record being collected. -/
inductive WB.Pends (w : WB) : Option Bytes → Prop where
  | idle (h : w.Idle) : Pends w none
  | record (c : Bytes) (h : w.Holds .applicationData c) (hl : c.length ≤ w.buffer.length - 133) : Pends w (some c)

/-- The writing half `w` is in the state `x` of the writer. -/
structure WrHalf.Is (w : WrHalf) (x : Writer) : Prop where
  pends : w.wb.Pends x.pending
  seq : x.seq = w.wks.st.counter
  policy : x.policy = w.fp
  size : 133 ≤ w.wb.buffer.length
  iv : w.wks.st.iv.length = S.ivLen

/-- A call with result `r` that leads from `w` to `w'` does what the writer does. -/
structure Does (w : WrHalf) (r : Res TlsError Nat) (w' : WrHalf) (y : Wrote) : Prop where
  result : r = y.result
  tx : w'.tx = ⟨y.answers, w.tx.log ++ y.events⟩
  writer : w'.Is S y.writer
  key : w'.wks.st.key = w.wks.st.key
  iv : w'.wks.st.iv = w.wks.st.iv
  size : w'.wb.buffer.length = w.wb.buffer.length
  opened : w'.opened = w.opened

/-- The call on the writing half and what the application gets. -/
def WOp.spec : WOp → WriteCall
  | .write bs => .write bs
  | .flush => .flush
  | .setFlushPolicy p => .setFlushPolicy p

theorem WB.Pends.ready {w : WB} {p : Option Bytes} (h : w.Pends p) : w.Ready (p.getD []) := by
  cases h with
  | idle h => exact .idle h
  | record c h hl => exact .open_ c h hl

theorem WrHalf.Is.ready {w : WrHalf} {x : Writer} (h : w.Is S x) : w.Ready S (x.pending.getD []) :=
  ⟨h.pends.ready, h.size, h.iv⟩

/-- Sending a record does what the writer's `send` does. -/
theorem sendRecord_does (bytes : Bytes) (fl : Bool) (w : WrHalf) (x : Writer) (hx : w.Is S x) :
    Does S w ((sendRecord bytes fl w).1.map fun _ => 0) (sendRecord bytes fl w).2 (Spec.send bytes fl x w.tx.ctl) := by
  obtain ⟨⟨ctl, log⟩, opened, wks, wb, fp⟩ := w
  have hseq : x.seq = wks.st.counter := hx.seq
  have hnext : ∀ t, WrHalf.Is S ⟨t, opened, wks.next, wb, fp⟩ { x with seq := x.seq + 1 } := fun t =>
    ⟨hx.pends, by show x.seq + 1 = wks.st.counter + 1; rw [hseq], hx.policy, hx.size, hx.iv⟩
  have hsame : ∀ t, WrHalf.Is S ⟨t, opened, wks, wb, fp⟩ x := fun t =>
    ⟨hx.pends, hseq, hx.policy, hx.size, hx.iv⟩
  have hgo : ∀ r, WrHalf.onTx (Tx.writeAll bytes) ⟨⟨ctl, log⟩, opened, wks, wb, fp⟩ =
        (.ok (), ⟨⟨r, log ++ [.wrote bytes]⟩, opened, wks, wb, fp⟩) → Spec.answer ctl = (none, r) →
      Does S ⟨⟨ctl, log⟩, opened, wks, wb, fp⟩ ((sendRecord bytes fl ⟨⟨ctl, log⟩, opened, wks, wb, fp⟩).1.map fun _ => 0)
        (sendRecord bytes fl ⟨⟨ctl, log⟩, opened, wks, wb, fp⟩).2 (Spec.send bytes fl x ctl) := by
    intro r hw ha
    unfold sendRecord Spec.send
    rw [M.bind_ok hw, ha]
    simp only
    by_cases hc : wks.st.counter + 1 < 2 ^ 64
    · have hinc : WrHalf.increment ⟨⟨r, log ++ [.wrote bytes]⟩, opened, wks, wb, fp⟩ =
          (.ok (), ⟨⟨r, log ++ [.wrote bytes]⟩, opened, wks.next, wb, fp⟩) := by
        unfold WrHalf.increment WriteKS.increment KsState.increment
        simp only
        rw [if_pos hc]; rfl
      rw [M.bind_ok hinc]
      have hc' : x.seq + 1 < 2 ^ 64 := by rw [hseq]; exact hc
      rw [if_pos hc']
      unfold Spec.settle
      cases fl with
      | false => exact ⟨rfl, rfl, hnext _, rfl, rfl, rfl, rfl⟩
      | true =>
        simp only [if_true]
        rcases r with _ | ⟨_ | ⟨k, n⟩, r⟩
        · exact ⟨rfl, by simp [WrHalf.onTx, Tx.flush, Spec.answer], hnext _, rfl, rfl, rfl, rfl⟩
        · exact ⟨rfl, by simp [WrHalf.onTx, Tx.flush, Spec.answer], hnext _, rfl, rfl, rfl, rfl⟩
        · exact ⟨rfl, by simp [WrHalf.onTx, Tx.flush, Spec.answer], hnext _, rfl, rfl, rfl, rfl⟩
    · have hinc : WrHalf.increment ⟨⟨r, log ++ [.wrote bytes]⟩, opened, wks, wb, fp⟩ =
          (.panic, ⟨⟨r, log ++ [.wrote bytes]⟩, opened, wks, wb, fp⟩) := by
        unfold WrHalf.increment WriteKS.increment KsState.increment
        simp only
        rw [if_neg hc]
      rw [M.bind_panic hinc]
      have hc' : ¬ x.seq + 1 < 2 ^ 64 := by rw [hseq]; exact hc
      rw [if_neg hc']
      exact ⟨rfl, rfl, hsame _, rfl, rfl, rfl, rfl⟩
  rcases ctl with _ | ⟨_ | ⟨k, n⟩, r⟩
  · exact hgo [] (by simp [WrHalf.onTx, Tx.writeAll]) rfl
  · exact hgo r (by simp [WrHalf.onTx, Tx.writeAll]) rfl
  · have hw : WrHalf.onTx (Tx.writeAll bytes) ⟨⟨.fail k n :: r, log⟩, opened, wks, wb, fp⟩ =
        (.err (.io k), ⟨⟨r, log ++ [.partialWrite (bytes.take n)]⟩, opened, wks, wb, fp⟩) := by
      simp [WrHalf.onTx, Tx.writeAll]
    unfold sendRecord Spec.send
    rw [M.bind_err hw]
    exact ⟨rfl, rfl, hsame _, rfl, rfl, rfl, rfl⟩

theorem flush_does (hS : S.Sized) (w : WrHalf) (x : Writer) (hx : w.Is S x) :
    Does S w ((WrHalf.flush S w).1.map fun _ => 0) (WrHalf.flush S w).2 (x.flush S w.wks.st.key w.wks.st.iv w.tx.ctl) := by
  obtain ⟨pending, seq, policy⟩ := x
  obtain ⟨hp, hseq, hpol, hsz, hiv⟩ := hx
  simp only at hp hseq hpol
  unfold Writer.flush
  cases hp with
  | idle hi =>
    rw [WrHalf.flush_idle S w hi.pos]
    exact ⟨rfl, by simp, ⟨.idle hi, hseq, hpol, hsz, hiv⟩, rfl, rfl, rfl, rfl⟩
  | record c hh hl =>
    obtain ⟨wb', h1, h2, h3⟩ := WrHalf.flush_holds S hS w .applicationData c hh
      (by simp [recordRoom, ClientRecordHeader.isEncrypted]; omega)
    have hd := sendRecord_does S (recordBytes S w.wks .applicationData c) w.fp.flushTransport { w with wb := wb' }
      ⟨none, seq, policy⟩ ⟨.idle h1, hseq, hpol, by simp only; omega, hiv⟩
    have hfl : (policy == .strict) = w.fp.flushTransport := by subst hpol; cases w.fp <;> rfl
    rw [recordBytes_spec S hS w.wks hiv .applicationData rfl c] at hd h3
    rw [h3]
    simp only
    rw [hfl, hseq]
    rw [hseq] at hd
    exact ⟨hd.result, hd.tx, hd.writer, hd.key, hd.iv, hd.size.trans h2, hd.opened⟩

theorem wop_does (hS : S.Sized) (op : WOp) (w : WrHalf) (x : Writer) (hx : w.Is S x) :
    Does S w (op.run S w).1 (op.run S w).2
      (op.spec.run S w.wks.st.key w.wks.st.iv (w.wb.buffer.length - 133) w.opened x w.tx.ctl) := by
  cases op with
  | setFlushPolicy p =>
    exact ⟨rfl, by simp [WOp.run, WOp.spec, WrHalf.setFlushPolicy, M.modify_bind, WriteCall.run],
      ⟨hx.pends, hx.seq, rfl, hx.size, hx.iv⟩, rfl, rfl, rfl, rfl⟩
  | flush =>
    have hrun : WOp.run S .flush w = ((WrHalf.flush S w).1.map (fun _ => 0), (WrHalf.flush S w).2) := by
      show (WrHalf.flush S >>= fun _ => pure 0) w = _
      rw [M.bind_def]
      rcases WrHalf.flush S w with ⟨_ | _ | _, w1⟩ <;> rfl
    rw [hrun]
    exact flush_does S hS w x hx
  | write bs =>
    show Does S w (WrHalf.write S bs w).1 (WrHalf.write S bs w).2
      (x.write S w.wks.st.key w.wks.st.iv (w.wb.buffer.length - 133) w.opened bs w.tx.ctl)
    unfold Writer.write
    by_cases ho : w.opened = true
    · rw [if_pos ho]
      have hr := hx.ready
      obtain ⟨wb', hb1, hb2, hb3⟩ := WrHalf.write_ready S w _ hr.wb ho hr.size bs
      have hcl : (x.pending.getD []).length ≤ w.wb.buffer.length - 133 := by
        have : ∀ p, w.wb.Pends p → (p.getD []).length ≤ w.wb.buffer.length - 133 := by
          intro p h
          cases h with
          | idle => simp
          | record _ _ h => exact h
        exact this _ hx.pends
      rw [hb3]
      have ht : min bs.length (w.wb.buffer.length - 133 - (x.pending.getD []).length) = x.takes (w.wb.buffer.length - 133) bs := rfl
      rw [ht] at hb2 ⊢
      have hnl : (bs.take (x.takes (w.wb.buffer.length - 133) bs)).length = x.takes (w.wb.buffer.length - 133) bs := by
        unfold Writer.takes; simp
      have hle : (x.pending.getD []).length + x.takes (w.wb.buffer.length - 133) bs ≤ w.wb.buffer.length - 133 := by
        unfold Writer.takes; omega
      have hw1 : WrHalf.Is S { w with wb := wb' } (x.add (w.wb.buffer.length - 133) bs) :=
        ⟨.record _ hb2 (by simp only [List.length_append, hnl, hb1]; exact hle), hx.seq, hx.policy,
          by simp only [hb1]; exact hx.size, hx.iv⟩
      by_cases hfull : (x.pending.getD []).length + x.takes (w.wb.buffer.length - 133) bs = w.wb.buffer.length - 133
      · rw [decide_eq_true hfull, if_pos hfull]
        generalize x.takes (w.wb.buffer.length - 133) bs = n at *
        have hd := flush_does S hS _ _ hw1
        have hrun : (WrHalf.flushIf S true >>= fun _ => pure n) { w with wb := wb' } =
            ((WrHalf.flush S { w with wb := wb' }).1.map (fun _ => n), (WrHalf.flush S { w with wb := wb' }).2) := by
          rw [M.bind_def, WrHalf.flushIf, if_pos rfl]
          rcases WrHalf.flush S { w with wb := wb' } with ⟨_ | _ | _, w1⟩ <;> rfl
        rw [hrun]
        refine ⟨?_, hd.tx, hd.writer, hd.key, hd.iv, hd.size.trans hb1, hd.opened⟩
        have := hd.result
        simp only
        rw [← this]
        cases (WrHalf.flush S { w with wb := wb' }).1 <;> rfl
      · rw [decide_eq_false hfull, if_neg hfull]
        exact ⟨rfl, by simp [WrHalf.flushIf], hw1, rfl, rfl, hb1, rfl⟩
    · have : WrHalf.write S bs w = (.err .missingHandshake, w) := by
        unfold WrHalf.write
        rw [M.get_bind, if_neg ho]; rfl
      rw [this, if_neg ho]
      exact ⟨rfl, by simp, hx, rfl, rfl, rfl, rfl⟩

/-- **C78.** Any history of writing calls, whatever the transport answers, is a history of the writer: the same results,
the same records and flushes handed to the transport in the same order, and the same state afterwards. -/
theorem C78_writer (hS : S.Sized) (ops : List WOp) : ∀ (w : WrHalf) (x : Writer), w.Is S x →
    let y := WriteCall.runAll S w.wks.st.key w.wks.st.iv (w.wb.buffer.length - 133) w.opened (ops.map WOp.spec) x w.tx.ctl
    (runOps S ops w).1 = y.1 ∧ (runOps S ops w).2.tx = ⟨y.2.2.2, w.tx.log ++ y.2.1⟩ ∧ (runOps S ops w).2.Is S y.2.2.1 := by
  induction ops with
  | nil =>
    intro w x hx
    exact ⟨rfl, by simp [runOps, WriteCall.runAll], hx⟩
  | cons op ops ih =>
    intro w x hx
    have hd := wop_does S hS op w x hx
    obtain ⟨i1, i2, i3⟩ := ih (op.run S w).2 _ hd.writer
    have hctl := congrArg Tx.ctl hd.tx
    have hlog := congrArg Tx.log hd.tx
    simp only at hctl hlog
    rw [hd.key, hd.iv, hd.size, hd.opened, hctl] at i1 i2 i3
    rw [hlog] at i2
    have hrun : runOps S (op :: ops) w =
        ((op.run S w).1 :: (runOps S ops (op.run S w).2).1, (runOps S ops (op.run S w).2).2) := rfl
    simp only [hrun, List.map_cons, WriteCall.runAll]
    refine ⟨by rw [i1, hd.result], ?_, i3⟩
    rw [i2, List.append_assoc]

/-- The record sent by `close`. -/
theorem closing_bytes (hS : S.Sized) (wks : WriteKS) (hiv : wks.st.iv.length = S.ivLen) (o : Bool) :
    recordBytes S wks (ClientRecord.closeNotify o).header [1, 0] = Spec.closing S wks.st.key wks.st.iv o wks.st.counter := by
  cases o with
  | true => exact recordBytes_spec S hS wks hiv _ rfl [1, 0]
  | false => rfl

theorem send_pending (bytes : Bytes) (fl : Bool) (x : Writer) (a : List OutCtl) :
    (Spec.send bytes fl x a).writer.pending = x.pending := by
  unfold Spec.send Spec.settle
  split
  · rfl
  · split
    · split
      · split <;> rfl
      · rfl
    · rfl

/-- Nothing is pending after a flush. -/
theorem flush_pending (key iv : Bytes) (x : Writer) (a : List OutCtl) : (x.flush S key iv a).writer.pending = none := by
  unfold Writer.flush
  split
  · assumption
  · exact send_pending _ _ _ _

/-- **C78, close** `close`, whatever the transport answers, does what the writer does. -/
theorem C78_close (hS : S.Sized) (c : Conn) (x : Writer) (hx : c.wr.Is S x) :
    Does S c.wr ((Conn.close S c).1.map fun _ => 0) (Conn.close S c).2.wr
      (x.close S c.ks.client.st.key c.ks.client.st.iv c.opened c.tx.ctl) := by
  have hd := flush_does S hS c.wr x hx
  rcases hfl : WrHalf.flush S c.wr with ⟨r, w1⟩
  rw [hfl] at hd
  have hflush : Conn.flush S c = (r, c.setWr w1) := by simp only [Conn.flush, onWr, hfl]
  unfold Conn.close Writer.close
  have hkey : c.wr.wks.st.key = c.ks.client.st.key := rfl
  have hiv : c.wr.wks.st.iv = c.ks.client.st.iv := rfl
  have htx : c.wr.tx = c.tx := rfl
  rw [hkey, hiv, htx] at hd
  have hpend := flush_pending S c.ks.client.st.key c.ks.client.st.iv x c.tx.ctl
  generalize x.flush S c.ks.client.st.key c.ks.client.st.iv c.tx.ctl = y at hd hpend ⊢
  have hres := hd.result
  cases r with
  | panic => rw [M.bind_panic hflush, ← hres]; exact hd
  | err e => rw [M.bind_err hflush, ← hres]; exact hd
  | ok u =>
    rw [M.bind_ok hflush, M.get_bind, ← hres]
    simp only [Res.map]
    have hopen : (c.setWr w1).opened = c.opened := hd.opened
    simp only at hd
    have hidle : w1.wb.Idle := by
      have := hd.writer.pends
      rw [hpend] at this
      cases this with
      | idle h => exact h
    rw [hopen]
    generalize hrec : ClientRecord.closeNotify c.opened = rec
    have hsz := hd.writer.size
    obtain ⟨wb2, k1, k2, k3⟩ := writeRecord_ok S hS rec w1.wks w1.wb
      [1, 0] (c.setWr w1).ks.server.transcript [1, 0] (c.setWr w1).ks.server.transcript hidle (by omega)
      (by subst hrec; exact alert_appends ⟨.warning, .closeNotify⟩)
      (by subst hrec; exact finishes_alert S _ _ _ _ _)
      (by
        have : recordRoom rec.header [1, 0] ≤ 24 := by
          subst hrec
          generalize c.opened = o
          cases o <;>
          simp [recordRoom, ClientRecord.closeNotify, ClientRecord.header, ClientRecordHeader.isEncrypted]
        omega)
    have hwr := Conn.writeRecord_of S (c := c.setWr w1) k1
    rw [M.bind_ok hwr]
    subst hrec
    have hbytes := closing_bytes S hS w1.wks hd.writer.iv c.opened
    have hseq : y.writer.seq = w1.wks.st.counter := hd.writer.seq
    have hk1 : w1.wks.st.key = c.ks.client.st.key := hd.key
    have hk2 : w1.wks.st.iv = c.ks.client.st.iv := hd.iv
    rw [hk1, hk2, ← hseq] at hbytes
    rw [hbytes]
    show Does S c.wr ((respond (Spec.closing S c.ks.client.st.key c.ks.client.st.iv c.opened y.writer.seq)
      ((c.setWr w1).wrote wb2 (c.setWr w1).ks.server.transcript)).1.map fun _ => 0) (respond _ _).2.wr _
    rw [respond_eq]
    have hs := sendRecord_does S (Spec.closing S c.ks.client.st.key c.ks.client.st.iv c.opened y.writer.seq) true
      ((c.setWr w1).wrote wb2 (c.setWr w1).ks.server.transcript).wr y.writer
      ⟨by rw [hpend]; exact .idle k2, hseq, hd.writer.policy, by
        show 133 ≤ wb2.buffer.length; omega, hd.writer.iv⟩
    have hctl : ((c.setWr w1).wrote wb2 (c.setWr w1).ks.server.transcript).wr.tx = ⟨y.answers, c.tx.log ++ y.events⟩ := hd.tx
    rw [hctl] at hs
    refine ⟨hs.result, ?_, hs.writer, hs.key.trans hd.key, hs.iv.trans hd.iv, hs.size.trans ?_, hs.opened.trans hd.opened⟩
    · have := hs.tx
      simp only [hctl, List.append_assoc] at this
      exact this
    · exact k3.trans hd.size

/-! ## Examples -/

theorem exWr_is (ctl : List OutCtl) : (exWr 136 ctl).Is toySuite ⟨none, 0, .strict⟩ :=
  ⟨.idle ⟨rfl, rfl⟩, rfl, rfl, by simp [exWr], by simp [exWr, toySuite]⟩

-- C78_writer: three bytes fit into a record; the transport fails on the first record, whose content is lost, and the
-- next record has the same number
set_option maxRecDepth 10000 in
example : (WriteCall.runAll toySuite (List.replicate 16 1) (List.replicate 12 2) 3 true
      [.write [1, 2], .write [3, 4], .flush, .write [5], .flush] ⟨none, 0, .strict⟩ [.fail 7 2]) =
    ([.ok 2, .err (.io 7), .ok 0, .ok 1, .ok 0],
      [.partialWrite [23, 3],
       .wrote (Spec.ciphertextRecord toySuite (List.replicate 16 1) (List.replicate 12 2) 0 23 [5]), .flushed],
      ⟨none, 1, .strict⟩, []) := by
  decide +kernel

set_option maxRecDepth 10000 in
example : (runOps toySuite [.write [1, 2], .write [3, 4], .flush, .write [5], .flush] (exWr 136 [.fail 7 2])).1 =
    [.ok 2, .err (.io 7), .ok 0, .ok 1, .ok 0] := by
  have h := (C78_writer toySuite toySuite_lawful [.write [1, 2], .write [3, 4], .flush, .write [5], .flush] _ _
    (exWr_is [.fail 7 2])).1
  rw [h]
  decide +kernel

-- C78_writer: writing nothing begins a record, and the flush after it sends a record without content
set_option maxRecDepth 10000 in
example : (WriteCall.runAll toySuite (List.replicate 16 1) (List.replicate 12 2) 3 true [.write [], .flush]
      ⟨none, 0, .relaxed⟩ []).2.1 =
    [.wrote (Spec.ciphertextRecord toySuite (List.replicate 16 1) (List.replicate 12 2) 0 23 [])] := by
  decide +kernel

end ETls
