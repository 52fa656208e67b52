import Verif.Model.Blocking
import Verif.Props.Cancel
import Verif.Props.Split

/-! # The methods of `blocking.rs` against those of `asynch.rs` -/

namespace ETls

variable (S : Suite)

namespace Blk

/-! ## The record reader -/

theorem headerLoop_eq (fuel : Nat) : ∀ (buf acc : Bytes), buf.length = 5 → acc.length ≤ 5 → buf.take acc.length = acc →
    Blk.headerLoop fuel buf acc.length = ETls.headerLoop fuel acc := by
  induction fuel with
  | zero => intros; rfl
  | succ fuel ih =>
    intro buf acc hb ha ht
    unfold Blk.headerLoop ETls.headerLoop
    split
    · rename_i h
      rw [h, ← hb, List.take_length] at ht
      rw [ht]
    · rename_i h
      funext rx
      rcases hr : Rx.read (5 - acc.length) rx with ⟨r, rx'⟩
      have hs := Rx.read_step (5 - acc.length) rx
      rw [hr] at hs
      cases hs with
      | ok bs _ hle _ _ =>
        rw [M.bind_ok hr, M.bind_ok hr]
        split
        · rfl
        · have hl : acc.length + bs.length = (acc ++ bs).length := by simp
          rw [hl]
          have hfit : acc.length + bs.length ≤ buf.length := by omega
          rw [ih (CB.splice buf acc.length bs) (acc ++ bs) (by rw [splice_length _ _ _ hfit]; exact hb) (by simp; omega)]
          simp only [CB.splice, ht, List.length_append]
          rw [← List.length_append, List.take_left']
          rfl
      | err => rw [M.bind_err hr, M.bind_err hr]

theorem nextRecordHeader_eq : Blk.nextRecordHeader = ETls.nextRecordHeader := by
  unfold Blk.nextRecordHeader ETls.nextRecordHeader
  have h := headerLoop_eq 6 (List.replicate 5 0) [] (by simp) (by simp) rfl
  simp only [List.length_nil] at h
  rw [h]

theorem advanceLoop_eq (amount fuel : Nat) : ∀ (remain : Nat) (s : RdSt),
    Blk.advanceLoop amount fuel remain s =
      ((ETls.advanceLoop amount fuel remain (s.rr, s.rx)).1,
        { s with
          rr := (ETls.advanceLoop amount fuel remain (s.rr, s.rx)).2.1
          rx := (ETls.advanceLoop amount fuel remain (s.rr, s.rx)).2.2 }) := by
  induction fuel with
  | zero => intro remain s; rfl
  | succ fuel ih =>
    intro remain s
    unfold Blk.advanceLoop ETls.advanceLoop
    by_cases h1 : amount ≤ s.rr.pending
    · simp only [if_pos h1, if_neg (show ¬ s.rr.pending < amount by omega)]
    · simp only [if_neg h1, if_pos (show s.rr.pending < amount by omega)]
      by_cases h2 : s.rr.buf.length < s.rr.decoded + s.rr.pending + remain
      · simp only [if_pos h2, if_pos (show s.rr.decoded + s.rr.pending > s.rr.buf.length ∨
          s.rr.decoded + s.rr.pending + remain > s.rr.buf.length from .inr h2)]
      · simp only [if_neg h2, if_neg (show ¬ (s.rr.decoded + s.rr.pending > s.rr.buf.length ∨
          s.rr.decoded + s.rr.pending + remain > s.rr.buf.length) by omega)]
        rcases hr : Rx.read remain s.rx with ⟨r, rx'⟩
        cases r with
        | ok bs =>
          cases bs with
          | nil => rfl
          | cons b bs =>
            simp only
            rw [ih]
            simp only [List.length_cons, Nat.add_eq_zero_iff, Nat.one_ne_zero, and_false, if_false]
        | err e => rfl
        | panic => rfl

theorem contiguous_eq {amount : Nat} {s : RdSt} {r : Res TlsError Unit} {rr : RR}
    (h : ensureContiguous amount s.rr = (r, rr)) : Blk.contiguous amount s = (r, { s with rr := rr }) := by
  simp only [Blk.contiguous, h]

theorem advance_eq (amount : Nat) : Blk.advance amount = RdSt.advance amount := by
  funext s
  unfold Blk.advance RdSt.advance ETls.advance
  rcases he : ensureContiguous amount s.rr with ⟨r, rr⟩
  have hc := contiguous_eq he
  cases r with
  | ok a => rw [M.bind_ok hc, advanceLoop_eq, M.bind_ok (onFst_ok he s.rx)]
  | err e => rw [M.bind_err hc, M.bind_err (onFst_err he s.rx)]
  | panic => rw [M.bind_panic hc, M.bind_panic (onFst_panic he s.rx)]

theorem header_eq : Blk.header = RdSt.header := by
  funext s
  unfold Blk.header RdSt.header
  rw [nextRecordHeader_eq]

theorem readRecord_eq : Blk.readRecord S = ETls.readRecord S := by
  unfold Blk.readRecord ETls.readRecord
  simp only [header_eq, advance_eq]

/-! ## Writing -/

theorem onTx_eq {α : Type} (m : M TlsError Tx α) : Blk.onTx m = onWr (WrHalf.onTx m) := rfl
theorem onWb_eq {α : Type} (m : M TlsError WB α) : Blk.onWb m = onWr (WrHalf.onWb m) := rfl
theorem incrementWrite_eq : Blk.incrementWrite = onWr WrHalf.increment := rfl

namespace Writer

theorem flush_eq : Writer.flush S = WrHalf.flush S := by
  funext w
  unfold Writer.flush WrHalf.flush
  rw [M.get_bind, M.get_bind]
  split
  · rfl
  · rcases h1 : WrHalf.onWb (WB.closeRecord S w.wks) w with ⟨r1, w1⟩
    have f1 : w1.fp = w.fp := by
      have := congrArg (fun x => x.2.fp) h1
      exact this.symm
    cases r1 with
    | err e => rw [M.bind_err h1, M.bind_err h1]
    | panic => rw [M.bind_panic h1, M.bind_panic h1]
    | ok slice =>
      rw [M.bind_ok h1, M.bind_ok h1]
      rcases h2 : WrHalf.onTx (Tx.writeAll slice) w1 with ⟨r2, w2⟩
      have f2 : w2.fp = w1.fp := by
        have := congrArg (fun x => x.2.fp) h2
        exact this.symm
      cases r2 with
      | err e => rw [M.bind_err h2, M.bind_err h2]
      | panic => rw [M.bind_panic h2, M.bind_panic h2]
      | ok _ =>
        rw [M.bind_ok h2, M.bind_ok h2]
        rcases h3 : WrHalf.increment w2 with ⟨r3, w3⟩
        have f3 : w3.fp = w2.fp := by
          have := congrArg (fun x => x.2.fp) h3
          exact this.symm
        cases r3 with
        | err e => rw [M.bind_err h3, M.bind_err h3]
        | panic => rw [M.bind_panic h3, M.bind_panic h3]
        | ok _ =>
          rw [M.bind_ok h3, M.bind_ok h3]
          unfold Writer.flushByPolicy
          rw [M.get_bind, f3, f2, f1]
          rfl

theorem startRecord_eq : Writer.startRecord S = WrHalf.ensureRecord S := by
  unfold Writer.startRecord WrHalf.ensureRecord
  rw [flush_eq]

theorem write_eq (bs : Bytes) : Writer.write S bs = WrHalf.write S bs := by
  unfold Writer.write WrHalf.write Writer.flushFull WrHalf.flushIf
  rw [startRecord_eq, flush_eq]
  simp only [bind_assoc]

theorem run_eq (op : WOp) : Writer.run S op = op.run S := by
  cases op with
  | write bs => exact write_eq S bs
  | flush => simp only [Writer.run, WOp.run, flush_eq]
  | setFlushPolicy p => rfl

end Writer

theorem onWr_get {α : Type} (g : WrHalf → M TlsError WrHalf α) : onWr (M.get >>= g) = M.get >>= fun c => onWr (g c.wr) := by
  rw [onWr_bind']; rfl
theorem onRd_get {α : Type} (g : RdHalf → M TlsError RdHalf α) : onRd (M.get >>= g) = M.get >>= fun c => onRd (g c.rd) := by
  rw [onRd_bind]; rfl
theorem onWr_ite {α : Type} (b : Bool) (x y : M TlsError WrHalf α) :
    onWr (if b = true then x else y) = if b = true then onWr x else onWr y := by cases b <;> rfl
theorem onRd_ite {α : Type} (b : Bool) (x y : M TlsError RdHalf α) :
    onRd (if b = true then x else y) = if b = true then onRd x else onRd y := by cases b <;> rfl

/-- The method of the connection is the method of the half, on the fields of the half. -/
theorem flush_half : Blk.flush S = onWr (Writer.flush S) := by
  unfold Blk.flush Writer.flush Blk.flushByPolicy Writer.flushByPolicy
  simp only [onWr_ite, onWr_bind']
  rfl

theorem startRecord_half : Blk.startRecord S = onWr (Writer.startRecord S) := by
  unfold Blk.startRecord Writer.startRecord
  simp only [onWr_ite, onWr_bind', flush_half]
  rfl

theorem flushFull_half : Blk.flushFull S = onWr (Writer.flushFull S) := by
  unfold Blk.flushFull Writer.flushFull
  simp only [onWr_ite, onWr_bind', flush_half]
  rfl

theorem write_half (bs : Bytes) : Blk.write S bs = onWr (Writer.write S bs) := by
  unfold Blk.write Writer.write
  simp only [onWr_ite, onWr_bind', startRecord_half, flushFull_half]
  rfl

theorem writer_half (op : WOp) : Blk.writer S op = onWr (Writer.run S op) := by
  cases op with
  | write bs => exact write_half S bs
  | flush =>
    simp only [Blk.writer, Writer.run, flush_half, onWr_bind']
    rfl
  | setFlushPolicy p =>
    simp only [Blk.writer, Writer.run, onWr_bind']
    rfl

theorem flush_eq : Blk.flush S = onWr (WrHalf.flush S) := by rw [flush_half, Writer.flush_eq]

theorem writer_eq (op : WOp) : Blk.writer S op = onWr (op.run S) := by rw [writer_half, Writer.run_eq]

theorem close_eq : Blk.close S = Conn.close S := by
  unfold Blk.close Conn.close Conn.flush
  rw [flush_eq]
  rfl

/-! ## Reading -/

namespace Reader

theorem readApplicationData_eq : Reader.readApplicationData S = RdHalf.readApplicationData S := by
  funext h
  unfold Reader.readApplicationData RdHalf.readApplicationData
  rw [readRecord_eq]
  rcases hr : ETls.readRecord S ⟨h.rr, h.rx, h.rks.transcript⟩ with ⟨r, s⟩
  have hrec : RdHalf.readRecord S h =
      (r, { h with rr := s.rr, rx := s.rx, rks := { h.rks with transcript := s.transcript } }) := by
    simp only [RdHalf.readRecord, hr]
  cases r with
  | err e => rw [M.bind_err hrec]
  | panic => rw [M.bind_panic hrec]
  | ok rec =>
    rw [M.bind_ok hrec]
    have hn := decrypt_never S rec { h with rr := s.rr, rx := s.rx, rks := { h.rks with transcript := s.transcript } }
    unfold RdHalf.decrypt at hn ⊢
    simp only at hn ⊢
    revert hn
    generalize (decryptRecord S (readHandler s.rr.buf.length) rec
      ⟨{ h.rks with transcript := s.transcript }, s.rr.buf, (h.dec, h.opened)⟩) = x
    intro hn
    cases ho : x.2.ext.2 with
    | false => rfl
    | true => rw [hn ho]; rfl

theorem fillLoop_eq (fuel : Nat) : Reader.fillLoop S fuel = RdHalf.fillLoop S fuel := by
  induction fuel with
  | zero => rfl
  | succ fuel ih =>
    unfold Reader.fillLoop RdHalf.fillLoop
    rw [readApplicationData_eq, ih]

theorem readBuffered_eq (ops : List RBufOp) (revert : Bool) : Reader.readBuffered S ops revert =
    RdHalf.fill S >>= fun _ => RdHalf.useBuffer ops revert := by
  unfold Reader.readBuffered RdHalf.fill
  rw [bind_assoc]
  congr 1
  funext h
  split
  · rw [fillLoop_eq]
  · rfl

theorem run_eq (op : ROp) : Reader.run S op = op.run S := by
  cases op with
  | read n => simp only [Reader.run, ROp.run, readBuffered_eq]
  | fillBuf => simp only [Reader.run, ROp.run, readBuffered_eq]
  | consume n => rfl
  | buffered ops rv => simp only [Reader.run, ROp.run, readBuffered_eq]

end Reader

theorem recordOf_eq : Blk.recordOf S = onRd (RdHalf.readRecord S) := by
  unfold Blk.recordOf
  rw [readRecord_eq]
  rfl

theorem handleRecord_eq (rec : ServerRecord) : Blk.handleRecord S rec = onRd (RdHalf.decrypt S rec) := rfl

theorem readApplicationData_eq : Blk.readApplicationData S = onRd (RdHalf.readApplicationData S) := by
  unfold Blk.readApplicationData RdHalf.readApplicationData
  rw [onRd_bind, recordOf_eq]
  rfl

theorem fillLoop_eq (fuel : Nat) : Blk.fillLoop S fuel = onRd (RdHalf.fillLoop S fuel) := by
  induction fuel with
  | zero => rfl
  | succ fuel ih =>
    unfold Blk.fillLoop RdHalf.fillLoop
    simp only [onRd_ite, onRd_bind, readApplicationData_eq, ih]
    rfl

theorem useBuffer_eq (ops : List RBufOp) (revert : Bool) : Blk.useBuffer ops revert = onRd (RdHalf.useBuffer ops revert) := by
  funext c
  by_cases h : c.dec.offset + c.dec.consumed ≤ c.dec.offset + c.dec.len ∧ c.dec.offset + c.dec.len ≤ c.rr.buf.length
  · have ha : RdHalf.available c.rd = (.ok ((c.rr.buf.drop (c.dec.offset + c.dec.consumed)).take
        (c.dec.offset + c.dec.len - (c.dec.offset + c.dec.consumed))), c.rd) := if_pos h
    unfold Blk.useBuffer onRd RdHalf.useBuffer
    rw [ha]
    simp only [if_pos h]
    generalize RBuf.runOps ops (RBuf.new ((c.rr.buf.drop (c.dec.offset + c.dec.consumed)).take
      (c.dec.offset + c.dec.len - (c.dec.offset + c.dec.consumed)))) = x
    rcases x with ⟨r, b⟩
    cases r <;> rfl
  · have ha : RdHalf.available c.rd = (.panic, c.rd) := if_neg h
    unfold Blk.useBuffer onRd RdHalf.useBuffer
    rw [ha]
    simp only [if_neg h]
    rfl

theorem readBuffered_eq (ops : List RBufOp) (revert : Bool) : Blk.readBuffered S ops revert =
    onRd (RdHalf.fill S >>= fun _ => RdHalf.useBuffer ops revert) := by
  unfold Blk.readBuffered RdHalf.fill
  rw [bind_assoc, onRd_get]
  congr 1
  funext c
  cases ho : c.opened with
  | true =>
    rw [if_pos rfl, if_pos (show c.rd.opened = true from ho), onRd_bind, fillLoop_eq, useBuffer_eq]
    rfl
  | false => rw [if_neg Bool.false_ne_true, if_neg (show ¬ c.rd.opened = true from by simp [Conn.rd, ho])]; rfl

theorem reader_eq (op : ROp) : Blk.reader S op = onRd (op.run S) := by
  cases op with
  | read n =>
    simp only [Blk.reader, Blk.read, ROp.run]
    split
    · rfl
    · exact readBuffered_eq S _ _
  | fillBuf => exact readBuffered_eq S _ _
  | consume n => exact useBuffer_eq _ _
  | buffered ops rv => exact readBuffered_eq S _ _

/-! ## The handshake -/

variable {V : Type}

theorem respond_eq (tx : Bytes) : Blk.respond tx = ETls.respond tx := rfl

theorem handleProcessingError_eq (r : Res TlsError State) : Blk.handleProcessingError S r = ETls.handleProcessingError S r := by
  rcases r with _ | e | _
  · rfl
  · cases e <;> rfl
  · rfl

theorem handled_eq (m : M TlsError (HSt V) State) : Blk.handled S m = withErrorHandling S m := by
  funext s
  show onConn (Blk.handleProcessingError S (m s).1) (m s).2 = onConn (ETls.handleProcessingError S (m s).1) (m s).2
  rw [handleProcessingError_eq]

theorem process_eq (cfg : Config) (p : Provider V) (st : State) : Blk.process S cfg p st = ETls.process S cfg p st := by
  cases st <;> simp only [Blk.process, ETls.process, respond_eq, handled_eq, recordOf_eq]

theorem openLoop_eq (cfg : Config) (p : Provider V) (fuel : Nat) : ∀ st,
    Blk.openLoop S cfg p fuel st = ETls.openLoop S cfg p fuel st := by
  induction fuel with
  | zero => intro st; rfl
  | succ fuel ih =>
    intro st
    unfold Blk.openLoop ETls.openLoop
    by_cases h : st = .applicationData
    · rw [if_neg (not_not_intro h), if_pos h]
    · rw [if_pos h, if_neg h, process_eq]
      congr 1
      funext st'
      exact ih st'

theorem setHostname_eq (cfg : Config) (p : Provider V) : Blk.setHostname cfg p = ETls.setHostname cfg p := by
  funext s
  unfold Blk.setHostname ETls.setHostname
  cases p.verifier <;> cases cfg.serverName <;> rfl

theorem open_eq (cfg : Config) (p : Provider V) (v : V) : Blk.open_ S cfg p v = Conn.open_ S cfg p v := by
  funext c
  unfold Blk.open_ Conn.open_ openSt
  simp only [setHostname_eq, openLoop_eq]
  rcases h1 : ETls.setHostname cfg p ⟨c, ⟨none, none, none, v⟩⟩ with ⟨r1, s1⟩
  cases r1 with
  | err e => rw [M.bind_err h1]
  | panic => rw [M.bind_panic h1]
  | ok _ =>
    rw [M.bind_ok h1, M.get_bind]
    simp only
    rcases h2 : ETls.openLoop S cfg p (s1.c.rx.size + 8) .clientHello s1 with ⟨r2, s2⟩
    cases r2 with
    | err e => rw [M.bind_err h2]
    | panic => rw [M.bind_panic h2]
    | ok _ => rw [M.bind_ok h2]; rfl

end Blk
end ETls
