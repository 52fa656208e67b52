import Verif.Proofs.Write
import Verif.Props.KeySchedule
import Verif.Spec.Record
import Verif.Model.Conn

/-! # The write path of a connection -/

namespace ETls

variable (S : Suite)

theorem recordBytes_spec (hS : S.Sized) (w : WriteKS) (hiv : w.st.iv.length = S.ivLen) (h : ClientRecordHeader)
    (he : h.isEncrypted = true) (content : Bytes) :
    recordBytes S w h content =
      Spec.ciphertextRecord S w.st.key w.st.iv w.st.counter (UInt8.ofNat h.trailerContentType.code) content := by
  unfold recordBytes Spec.ciphertextRecord Spec.ciphertextHeader Spec.innerPlaintext
  rw [if_pos he]
  simp only [KsState.nonce, C47_nonce_spec S hS w.st.counter w.st.iv hiv]
  rfl

/-- The write buffer is in a state in which application data can be written: nothing buffered, or an open
application-data record that leaves room for the trailer and the tag. -/
inductive WB.Ready (w : WB) : Bytes → Prop where
  | idle : w.Idle → Ready w []
  | open_ (c : Bytes) : w.Holds .applicationData c → c.length ≤ w.buffer.length - 133 → Ready w c

theorem maxBlockSize_ok (w : WB) (h : 128 ≤ w.buffer.length) :
    WB.maxBlockSize w = (.ok (w.buffer.length - 128), w) := by
  unfold WB.maxBlockSize TLS_RECORD_OVERHEAD
  rw [if_pos h]

/-- `append` to an open record. -/
theorem append_holds (w : WB) (h : ClientRecordHeader) (c : Bytes) (hw : w.Holds h c) (hL : 133 ≤ w.buffer.length)
    (hc : c.length ≤ w.buffer.length - 133) (bs : Bytes) :
    ∃ w', WB.append bs w = (.ok (min bs.length (w.buffer.length - 133 - c.length)), w') ∧
      w'.Holds h (c ++ bs.take (min bs.length (w.buffer.length - 133 - c.length))) ∧
      w'.buffer.length = w.buffer.length := by
  have hle := hw.le
  obtain ⟨buf, pos, hdr⟩ := w
  obtain ⟨h1, h2, x, y, rest, h3⟩ := hw
  simp only at h1 h2 h3 hL hc hle ⊢
  subst h1 h2
  have hspace : WB.space ⟨buf, 5 + c.length, some h⟩ =
      (.ok (buf.length - 133 - c.length), ⟨buf, 5 + c.length, some h⟩) := by
    unfold WB.space
    rw [M.bind_ok (maxBlockSize_ok _ (by simp only; omega)), M.get_bind]
    simp only
    rw [if_pos (by omega)]
    simp; omega
  unfold WB.append
  rw [M.bind_ok hspace]
  generalize hn : min bs.length (buf.length - 133 - c.length) = n
  have hnle : n ≤ bs.length ∧ 5 + c.length + n ≤ buf.length - 128 := by omega
  by_cases hpos : n > 0
  · simp only
    rw [if_pos hpos, M.get_bind]
    simp only
    rw [if_pos (by omega), M.modify_bind]
    refine ⟨⟨CB.splice buf (5 + c.length) (bs.take n), 5 + c.length + n, some h⟩, rfl,
      ⟨rfl, ?_, x, y, rest.drop n, ?_⟩, ?_⟩
    · simp; omega
    · simp only [h3]
      have hl : 5 + c.length = (h.bytes3 ++ ([x, y] ++ c)).length := by simp [h.bytes3_length]; omega
      have := splice_at_length (h.bytes3 ++ ([x, y] ++ c)) rest (bs.take n) _ hl
      simp only [List.append_assoc] at this
      simp only [List.append_assoc]
      rw [this]
      simp [List.length_take, Nat.min_eq_left hnle.1]
    · simp [CB.splice]; omega
  · have : n = 0 := by omega
    subst this
    refine ⟨_, rfl, ⟨rfl, ?_, x, y, rest, ?_⟩, rfl⟩
    · simp
    · simp [h3]

theorem isFull_holds (w : WB) (h : ClientRecordHeader) (c : Bytes) (hw : w.Holds h c) (hL : 128 ≤ w.buffer.length) :
    WB.isFull w = (.ok (decide (5 + c.length = w.buffer.length - 128)), w) := by
  unfold WB.isFull
  rw [M.bind_ok (maxBlockSize_ok _ hL), M.get_bind]
  simp only [hw.pos]
  rfl

theorem onWb_ok {α : Type} {m : M TlsError WB α} {w : WrHalf} {a : α} {b : WB} (h : m w.wb = (.ok a, b)) :
    WrHalf.onWb m w = (.ok a, { w with wb := b }) := by
  unfold WrHalf.onWb; simp only [h]

theorem onWb_err {α : Type} {m : M TlsError WB α} {w : WrHalf} {e : TlsError} {b : WB} (h : m w.wb = (.err e, b)) :
    WrHalf.onWb m w = (.err e, { w with wb := b }) := by
  unfold WrHalf.onWb; simp only [h]

theorem onWb_panic {α : Type} {m : M TlsError WB α} {w : WrHalf} {b : WB} (h : m w.wb = (.panic, b)) :
    WrHalf.onWb m w = (.panic, { w with wb := b }) := by
  unfold WrHalf.onWb; simp only [h]

/-- Sending one finished record: write it, count it, flush if the policy says so. -/
def sendRecord (bytes : Bytes) (doFlush : Bool) : M TlsError WrHalf Unit := do
  WrHalf.onTx (Tx.writeAll bytes)
  WrHalf.increment
  if doFlush then WrHalf.onTx Tx.flush else return ()

theorem WrHalf.flush_idle (w : WrHalf) (h : w.wb.pos = 0) : WrHalf.flush S w = (.ok (), w) := by
  unfold WrHalf.flush
  rw [M.get_bind, if_pos (by simp [WB.isEmpty, h])]
  rfl

/-- `flush` with an open record: the record is closed and sent. -/
theorem WrHalf.flush_holds (hS : S.Sized) (w : WrHalf) (h : ClientRecordHeader) (c : Bytes) (hw : w.wb.Holds h c)
    (hfit : recordRoom h c ≤ w.wb.buffer.length) :
    ∃ wb', wb'.Idle ∧ wb'.buffer.length = w.wb.buffer.length ∧
      WrHalf.flush S w = sendRecord (recordBytes S w.wks h c) w.fp.flushTransport { w with wb := wb' } := by
  obtain ⟨wb', h1, h2, h3⟩ := closeRecord_ok S hS w.wks w.wb h c hw hfit
  refine ⟨wb', h2, h3, ?_⟩
  unfold WrHalf.flush
  rw [M.get_bind, if_neg (by simp [WB.isEmpty, hw.pos])]
  rw [M.bind_ok (onWb_ok h1)]
  rfl

/-- `write` on an open connection: data is appended to the record; a full record is sent. -/
theorem WrHalf.write_ready (w : WrHalf) (c : Bytes) (hr : w.wb.Ready c) (ho : w.opened = true)
    (hL : 133 ≤ w.wb.buffer.length) (bs : Bytes) :
    ∃ wb', wb'.buffer.length = w.wb.buffer.length ∧
      wb'.Holds .applicationData (c ++ bs.take (min bs.length (w.wb.buffer.length - 133 - c.length))) ∧
      WrHalf.write S bs w =
        (do
          WrHalf.flushIf S (decide
            (c.length + min bs.length (w.wb.buffer.length - 133 - c.length) = w.wb.buffer.length - 133))
          return min bs.length (w.wb.buffer.length - 133 - c.length) : M TlsError WrHalf Nat)
          { w with wb := wb' } := by
  have key : ∃ wb1, (wb1 : WB).Holds .applicationData c ∧ wb1.buffer.length = w.wb.buffer.length ∧
      WrHalf.ensureRecord S w = (.ok (), { w with wb := wb1 }) := by
    cases hr with
    | idle hi =>
      obtain ⟨wb1, h1, h2, h3⟩ := startRecord_idle .applicationData w.wb hi (by omega)
      refine ⟨wb1, h2, h3, ?_⟩
      unfold WrHalf.ensureRecord
      rw [M.get_bind, if_neg (by simp [WB.contains, hi.header])]
      rw [M.bind_ok (WrHalf.flush_idle S w hi.pos), onWb_ok h1]
    | open_ _ hh hc =>
      refine ⟨w.wb, hh, rfl, ?_⟩
      unfold WrHalf.ensureRecord
      rw [M.get_bind, if_pos (by simp [WB.contains, hh.header])]; rfl
  have hc : c.length ≤ w.wb.buffer.length - 133 := by
    cases hr with
    | idle => simp
    | open_ _ _ h => exact h
  obtain ⟨wb1, k1, k2, k3⟩ := key
  obtain ⟨wb2, a1, a2, a3⟩ := append_holds wb1 _ c k1 (by omega) (by omega) bs
  have hf := isFull_holds wb2 _ _ a2 (by omega)
  rw [k2] at a1 a2
  refine ⟨wb2, by omega, a2, ?_⟩
  unfold WrHalf.write
  rw [M.get_bind, if_pos ho]
  rw [M.bind_ok k3, M.bind_ok (onWb_ok a1), M.bind_ok (onWb_ok hf)]
  have hlen : (bs.take (min bs.length (w.wb.buffer.length - 133 - c.length))).length =
      min bs.length (w.wb.buffer.length - 133 - c.length) := by simp
  have hd : decide (5 + (c ++ bs.take (min bs.length (w.wb.buffer.length - 133 - c.length))).length =
      wb2.buffer.length - 128) =
      decide (c.length + min bs.length (w.wb.buffer.length - 133 - c.length) = w.wb.buffer.length - 133) := by
    rw [decide_eq_decide, List.length_append, hlen, a3, k2]
    omega
  rw [k2, hd]

end ETls
