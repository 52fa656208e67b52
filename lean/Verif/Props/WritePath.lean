import Verif.Proofs.WritePath
import Verif.Proofs.Toy

/-! # C10–C15, C17, C18: writing application data -/

namespace ETls

variable (S : Suite)

/-- A call of the writing API. -/
inductive WOp where
  | write (bs : Bytes)
  | flush
  | setFlushPolicy (p : FlushPolicy)
deriving DecidableEq, Repr

/-- One call; the number is what `write` returned (0 for the others). -/
def WOp.run : WOp → M TlsError WrHalf Nat
  | .write bs => WrHalf.write S bs
  | .flush => do WrHalf.flush S; return 0
  | .setFlushPolicy p => do WrHalf.setFlushPolicy p; return 0

/-- A history of calls, with the result of each; errors do not stop the application from going on. -/
def runOps : List WOp → WrHalf → List (Res TlsError Nat) × WrHalf
  | [], w => ([], w)
  | op :: ops, w =>
    let (r, w1) := op.run S w
    let (rs, w2) := runOps ops w1
    (r :: rs, w2)

/-- What one call accepted: the first `n` bytes of the slice of a `write` that returned `Ok(n)`. -/
def acceptedBy : WOp → Res TlsError Nat → Bytes
  | .write bs, .ok n => bs.take n
  | _, _ => []

/-- What a history accepted, in order. -/
def accepted (ops : List WOp) (rs : List (Res TlsError Nat)) : Bytes := (List.zipWith acceptedBy ops rs).flatten

/-- The complete records handed to the transport, in order. -/
def wrote : List OutEv → List Bytes
  | [] => []
  | .wrote bs :: r => bs :: wrote r
  | _ :: r => wrote r

theorem wrote_append (a b : List OutEv) : wrote (a ++ b) = wrote a ++ wrote b := by
  induction a with
  | nil => rfl
  | cons x xs ih => cases x <;> simp [wrote, ih]

/-- The transport will not fail. -/
def Reliable (t : Tx) : Prop := ∀ c ∈ t.ctl, c = .ok

/-- The bytes accepted but not yet handed to the transport: what is in the write buffer after the record header. -/
def WrHalf.buffered (w : WrHalf) : Bytes := (w.wb.buffer.take w.wb.pos).drop 5

theorem ready_buffered (w : WrHalf) (c : Bytes) (h : w.wb.Ready c) : w.buffered = c := by
  unfold WrHalf.buffered
  cases h with
  | idle hi => simp [hi.pos]
  | open_ _ hh _ =>
    obtain ⟨_, hp, x, y, rest, hb⟩ := hh
    rw [hp, hb]
    have hl := ClientRecordHeader.applicationData.bytes3_length
    rcases hb3 : ClientRecordHeader.applicationData.bytes3 with _ | ⟨a, _ | ⟨b, _ | ⟨d, _ | ⟨e, t⟩⟩⟩⟩ <;>
      simp [hb3] at hl
    simp [Nat.add_comm 5]

/-- The write key schedule after one more record. -/
def WriteKS.next (w : WriteKS) : WriteKS := { w with st := { w.st with counter := w.st.counter + 1 } }

/-- The three things that can happen when a record is sent. -/
inductive Sent (bytes : Bytes) (fl : Bool) (w : WrHalf) : Res TlsError Unit × WrHalf → Prop where
  | failed (k : IoKind) (p : Bytes) (ctl' : List OutCtl) (hp : p <+: bytes) (hn : ¬ Reliable w.tx) :
      Sent bytes fl w (.err (.io k), { w with tx := ⟨ctl', w.tx.log ++ [.partialWrite p]⟩ })
  | flushFailed (k : IoKind) (ctl' : List OutCtl) (hf : fl = true) (hn : ¬ Reliable w.tx) :
      Sent bytes fl w (.err (.io k),
        { w with tx := ⟨ctl', w.tx.log ++ [.wrote bytes, .flushFailed]⟩, wks := w.wks.next })
  | done (ctl' : List OutCtl) (hr : Reliable w.tx → ∀ c ∈ ctl', c = .ok) :
      Sent bytes fl w (.ok (),
        { w with tx := ⟨ctl', w.tx.log ++ .wrote bytes :: (if fl then [.flushed] else [])⟩, wks := w.wks.next })

theorem sendRecord_cases (bytes : Bytes) (fl : Bool) (w : WrHalf) (hc : w.wks.st.counter + 1 < 2 ^ 64) :
    Sent bytes fl w (sendRecord bytes fl w) := by
  obtain ⟨⟨ctl, log⟩, opened, wks, wb, fp⟩ := w
  have hinc : ∀ t, WrHalf.increment ⟨t, opened, wks, wb, fp⟩ = (.ok (), ⟨t, opened, wks.next, wb, fp⟩) := by
    intro t
    unfold WrHalf.increment WriteKS.increment KsState.increment
    simp only
    rw [if_pos hc]; rfl
  have hok : ∀ ctl', (Reliable ⟨ctl, log⟩ → ∀ c ∈ ctl', c = .ok) →
      WrHalf.onTx (Tx.writeAll bytes) ⟨⟨ctl, log⟩, opened, wks, wb, fp⟩ =
        (.ok (), ⟨⟨ctl', log ++ [.wrote bytes]⟩, opened, wks, wb, fp⟩) →
      Sent bytes fl ⟨⟨ctl, log⟩, opened, wks, wb, fp⟩ (sendRecord bytes fl ⟨⟨ctl, log⟩, opened, wks, wb, fp⟩) := by
    intro ctl' hr hw
    unfold sendRecord
    rw [M.bind_ok hw, M.bind_ok (hinc _)]
    cases fl with
    | false =>
      exact Sent.done (w := ⟨⟨ctl, log⟩, opened, wks, wb, fp⟩) ctl' hr
    | true =>
      simp only [if_true]
      rcases ctl' with _ | ⟨c, r⟩
      · have := Sent.done (bytes := bytes) (fl := true) (w := ⟨⟨ctl, log⟩, opened, wks, wb, fp⟩) [] (by simp)
        simpa [WrHalf.onTx, Tx.flush] using this
      · cases c with
        | ok =>
          have := Sent.done (bytes := bytes) (fl := true) (w := ⟨⟨ctl, log⟩, opened, wks, wb, fp⟩) r
            (fun h x hx => hr h x (List.mem_cons_of_mem _ hx))
          simpa [WrHalf.onTx, Tx.flush] using this
        | fail k n =>
          have := Sent.flushFailed (bytes := bytes) (fl := true) (w := ⟨⟨ctl, log⟩, opened, wks, wb, fp⟩) k r rfl
            (fun h => by have := hr h (.fail k n) List.mem_cons_self; cases this)
          simpa [WrHalf.onTx, Tx.flush] using this
  rcases ctl with _ | ⟨c, r⟩
  · exact hok [] (by simp) (by simp [WrHalf.onTx, Tx.writeAll])
  · cases c with
    | ok => exact hok r (fun h x hx => h x (List.mem_cons_of_mem _ hx)) (by simp [WrHalf.onTx, Tx.writeAll])
    | fail k n =>
      have hw : WrHalf.onTx (Tx.writeAll bytes) ⟨⟨.fail k n :: r, log⟩, opened, wks, wb, fp⟩ =
          (.err (.io k), ⟨⟨r, log ++ [.partialWrite (bytes.take n)]⟩, opened, wks, wb, fp⟩) := by
        simp [WrHalf.onTx, Tx.writeAll]
      unfold sendRecord
      rw [M.bind_err hw]
      exact Sent.failed (w := ⟨⟨.fail k n :: r, log⟩, opened, wks, wb, fp⟩) k _ r (List.take_prefix _ _)
        (fun h => by have := h (.fail k n) List.mem_cons_self; cases this)

/-- A connection on which application data can be written: the handshake has installed a key and an iv of the right
size, the write buffer is large enough, and it holds nothing or an open application-data record with content `c`. -/
structure WrHalf.Ready (w : WrHalf) (c : Bytes) : Prop where
  wb : w.wb.Ready c
  size : 133 ≤ w.wb.buffer.length
  iv : w.wks.st.iv.length = S.ivLen

/-- What one call did: `evs` are the new transport events, `sent` the contents of the records sent completely. -/
structure Step (op : WOp) (w : WrHalf) (c : Bytes) (r : Res TlsError Nat) (w' : WrHalf) (c' : Bytes)
    (evs : List OutEv) (sent : List Bytes) : Prop where
  ready : w'.Ready S c'
  noPanic : r ≠ .panic
  size : w'.wb.buffer.length = w.wb.buffer.length
  opened : w'.opened = w.opened
  key : w'.wks.st.key = w.wks.st.key
  iv : w'.wks.st.iv = w.wks.st.iv
  log : w'.tx.log = w.tx.log ++ evs
  counter : w'.wks.st.counter = w.wks.st.counter + sent.length
  sentLe : sent.length ≤ 1
  wrote : wrote evs = Spec.ciphertextRecords S w.wks.st.key w.wks.st.iv w.wks.st.counter (sent.map fun x => (23, x))
  limit : ∀ x ∈ sent, x.length ≤ w.wb.buffer.length - 133
  notFull : (c.length = 0 ∨ c.length < w.wb.buffer.length - 133) →
    (c'.length = 0 ∨ c'.length < w.wb.buffer.length - 133)
  reliable : Reliable w.tx → w.opened = true →
    Reliable w'.tx ∧ (∃ n, r = .ok n) ∧ c ++ acceptedBy op r = sent.flatten ++ c'
  accepts : Reliable w.tx → Reliable w'.tx ∧ c ++ acceptedBy op r = sent.flatten ++ c'

theorem flush_step (hS : S.Lawful) (w : WrHalf) (c : Bytes) (hw : w.Ready S c)
    (hc : w.wks.st.counter + 1 < 2 ^ 64) :
    ∃ (evs : List OutEv) (sent : List Bytes), (WrHalf.flush S w).1 ≠ .panic ∧
      ((WrHalf.flush S w).2.Ready S []) ∧ (WrHalf.flush S w).2.wb.Idle ∧
      (WrHalf.flush S w).2.wb.buffer.length = w.wb.buffer.length ∧
      (WrHalf.flush S w).2.opened = w.opened ∧
      (WrHalf.flush S w).2.fp = w.fp ∧
      (WrHalf.flush S w).2.wks.st.key = w.wks.st.key ∧
      (WrHalf.flush S w).2.wks.st.iv = w.wks.st.iv ∧
      (WrHalf.flush S w).2.tx.log = w.tx.log ++ evs ∧
      (WrHalf.flush S w).2.wks.st.counter = w.wks.st.counter + sent.length ∧
      sent.length ≤ 1 ∧
      wrote evs = Spec.ciphertextRecords S w.wks.st.key w.wks.st.iv w.wks.st.counter (sent.map fun x => (23, x)) ∧
      (∀ x ∈ sent, x.length ≤ w.wb.buffer.length - 133) ∧
      (Reliable w.tx → Reliable (WrHalf.flush S w).2.tx ∧ (WrHalf.flush S w).1 = .ok () ∧ sent.flatten = c) := by
  obtain ⟨hwb, hsz, hiv⟩ := hw
  cases hwb with
  | idle hi =>
    rw [WrHalf.flush_idle S w hi.pos]
    exact ⟨[], [], by simp, ⟨.idle hi, hsz, hiv⟩, hi, rfl, rfl, rfl, rfl, rfl, by simp, rfl, by simp, rfl, by simp,
      fun h => ⟨h, rfl, rfl⟩⟩
  | open_ _ hh hcl =>
    obtain ⟨wb', h1, h2, h3⟩ := WrHalf.flush_holds S hS w .applicationData c hh
      (by simp [recordRoom, ClientRecordHeader.isEncrypted]; omega)
    rw [h3]
    have hspec := recordBytes_spec S hS w.wks hiv .applicationData rfl c
    have hcases := sendRecord_cases (recordBytes S w.wks .applicationData c) w.fp.flushTransport
      { w with wb := wb' } hc
    generalize hres : sendRecord (recordBytes S w.wks .applicationData c) w.fp.flushTransport { w with wb := wb' }
      = res at hcases
    cases hcases with
    | failed k p ctl' hp hn =>
      refine ⟨[.partialWrite p], [], by simp, ⟨.idle h1, ?_, hiv⟩, h1, h2, rfl, rfl, rfl, rfl, rfl, rfl, by simp, rfl, by simp, ?_⟩
      · simp only; omega
      · intro h; exact absurd h hn
    | flushFailed k ctl' hf hn =>
      refine ⟨[.wrote _, .flushFailed], [c], by simp, ⟨.idle h1, ?_, hiv⟩, h1, h2, rfl, rfl, rfl, rfl, rfl, rfl, by simp, ?_, ?_, ?_⟩
      · simp only; omega
      · simp only [ETls.wrote, hspec]; rfl
      · simpa using hcl
      · intro h; exact absurd h hn
    | done ctl' hr =>
      refine ⟨_, [c], by simp, ⟨.idle h1, ?_, hiv⟩, h1, h2, rfl, rfl, rfl, rfl, rfl, rfl, by simp, ?_, ?_, ?_⟩
      · simp only; omega
      · have : ETls.wrote (.wrote (recordBytes S w.wks .applicationData c) ::
            (if w.fp.flushTransport then [OutEv.flushed] else [])) = [recordBytes S w.wks .applicationData c] := by
          cases w.fp.flushTransport <;> rfl
        rw [this, hspec]; rfl
      · simpa using hcl
      · intro h; exact ⟨hr h, rfl, by simp⟩

theorem op_step (hS : S.Lawful) (op : WOp) (w : WrHalf) (c : Bytes) (hw : w.Ready S c)
    (hc : w.wks.st.counter + 1 < 2 ^ 64) :
    ∃ c' evs sent, Step S op w c (op.run S w).1 (op.run S w).2 c' evs sent := by
  cases op with
  | setFlushPolicy p =>
    refine ⟨c, [], [], ⟨hw.wb, hw.size, hw.iv⟩, by simp [WOp.run, WrHalf.setFlushPolicy, M.modify_bind], rfl, rfl,
      rfl, rfl, ?_, rfl, by simp, rfl, by simp, id, ?_, ?_⟩
    · simp [WOp.run, WrHalf.setFlushPolicy, M.modify_bind]
    · intro h _
      exact ⟨h, ⟨0, rfl⟩, by simp [acceptedBy]⟩
    · intro h
      exact ⟨h, by simp [acceptedBy]⟩
  | flush =>
    obtain ⟨evs, sent, h1, h2, _, h3, h4, _, h5, h6, h7, h8, h9, h10, h11, h12⟩ := flush_step S hS w c hw hc
    have hrun : WOp.run S .flush w = ((WrHalf.flush S w).1.map (fun _ => 0), (WrHalf.flush S w).2) := by
      show (WrHalf.flush S >>= fun _ => pure 0) w = _
      rw [M.bind_def]
      rcases WrHalf.flush S w with ⟨_ | _ | _, w1⟩ <;> rfl
    rw [hrun]
    refine ⟨[], evs, sent, ⟨h2, ?_, h3, h4, h5, h6, h7, h8, h9, h10, h11, fun _ => .inl rfl, ?_, ?_⟩⟩
    · cases hr : (WrHalf.flush S w).1 <;> simp [Res.map]
      exact h1 hr
    · intro h _
      obtain ⟨g1, g2, g3⟩ := h12 h
      exact ⟨g1, ⟨0, by simp only [g2, Res.map]⟩, by simp [acceptedBy, g3]⟩
    · intro h
      obtain ⟨g1, g2, g3⟩ := h12 h
      exact ⟨g1, by simp [acceptedBy, g3]⟩
  | write bs =>
    show ∃ c' evs sent, Step S (.write bs) w c (WrHalf.write S bs w).1 (WrHalf.write S bs w).2 c' evs sent
    by_cases ho : w.opened = true
    · obtain ⟨wb', hb1, hb2, hb3⟩ := WrHalf.write_ready S w c hw.wb ho hw.size bs
      have hcl : c.length ≤ w.wb.buffer.length - 133 := by
        cases hw.wb with
        | idle => simp
        | open_ _ _ h => exact h
      rw [hb3]
      generalize hn : min bs.length (w.wb.buffer.length - 133 - c.length) = n at *
      have hnl : (bs.take n).length = n := by simp; omega
      have hw1 : WrHalf.Ready S { w with wb := wb' } (c ++ bs.take n) :=
        ⟨.open_ _ hb2 (by simp only [List.length_append, hnl, hb1]; omega), by simp only [hb1]; exact hw.size, hw.iv⟩
      by_cases hfull : c.length + n = w.wb.buffer.length - 133
      · rw [decide_eq_true hfull]
        obtain ⟨evs, sent, h1, h2, _, h3, h4, _, h5, h6, h7, h8, h9, h10, h11, h12⟩ := flush_step S hS _ _ hw1 hc
        have hrun : (WrHalf.flushIf S true >>= fun _ => pure n) { w with wb := wb' } =
            ((WrHalf.flush S { w with wb := wb' }).1.map (fun _ => n), (WrHalf.flush S { w with wb := wb' }).2) := by
          rw [M.bind_def, WrHalf.flushIf, if_pos rfl]
          rcases WrHalf.flush S { w with wb := wb' } with ⟨_ | _ | _, w1⟩ <;> rfl
        rw [hrun]
        refine ⟨[], evs, sent, ⟨h2, ?_, h3.trans hb1, h4, h5, h6, h7, h8, h9, h10, ?_, fun _ => .inl rfl, ?_, ?_⟩⟩
        · cases hr : (WrHalf.flush S { w with wb := wb' }).1 <;> simp [Res.map]
          exact h1 hr
        · intro x hx
          have := h11 x hx
          simp only [hb1] at this
          exact this
        · intro h _
          obtain ⟨g1, g2, g3⟩ := h12 h
          refine ⟨g1, ⟨n, by simp only [g2, Res.map]⟩, ?_⟩
          simp [acceptedBy, g2, g3, Res.map]
        · intro h
          obtain ⟨g1, g2, g3⟩ := h12 h
          refine ⟨g1, ?_⟩
          simp [acceptedBy, g2, g3, Res.map]
      · rw [decide_eq_false hfull]
        refine ⟨c ++ bs.take n, [], [], ⟨hw1, ?_, hb1, rfl, rfl, rfl, ?_, rfl, by simp, rfl, by simp,
          fun _ => .inr ?_, ?_, ?_⟩⟩
        · simp [WrHalf.flushIf]
        · simp [WrHalf.flushIf]
        · simp only [List.length_append, hnl]; omega
        · intro h _
          exact ⟨h, ⟨n, rfl⟩, by simp [acceptedBy, WrHalf.flushIf]⟩
        · intro h
          exact ⟨h, by simp [acceptedBy, WrHalf.flushIf]⟩
    · have : WrHalf.write S bs w = (.err .missingHandshake, w) := by
        unfold WrHalf.write
        rw [M.get_bind, if_neg ho]; rfl
      rw [this]
      exact ⟨c, [], [], ⟨hw, by simp, rfl, rfl, rfl, rfl, by simp, rfl, by simp, rfl, by simp, id,
        fun _ h => absurd h ho, fun h => ⟨h, by simp [acceptedBy]⟩⟩⟩

/-- What a whole history did. -/
structure Steps (ops : List WOp) (w : WrHalf) (c : Bytes) (rs : List (Res TlsError Nat)) (w' : WrHalf) (c' : Bytes)
    (evs : List OutEv) (sent : List Bytes) : Prop where
  ready : w'.Ready S c'
  noPanic : ∀ r ∈ rs, r ≠ .panic
  length : rs.length = ops.length
  size : w'.wb.buffer.length = w.wb.buffer.length
  opened : w'.opened = w.opened
  key : w'.wks.st.key = w.wks.st.key
  iv : w'.wks.st.iv = w.wks.st.iv
  log : w'.tx.log = w.tx.log ++ evs
  counter : w'.wks.st.counter = w.wks.st.counter + sent.length
  sentLe : sent.length ≤ ops.length
  wrote : wrote evs = Spec.ciphertextRecords S w.wks.st.key w.wks.st.iv w.wks.st.counter (sent.map fun x => (23, x))
  limit : ∀ x ∈ sent, x.length ≤ w.wb.buffer.length - 133
  notFull : (c.length = 0 ∨ c.length < w.wb.buffer.length - 133) →
    (c'.length = 0 ∨ c'.length < w.wb.buffer.length - 133)
  reliable : Reliable w.tx → w.opened = true →
    Reliable w'.tx ∧ (∀ r ∈ rs, ∃ n, r = .ok n) ∧ c ++ accepted ops rs = sent.flatten ++ c'

theorem ciphertextRecords_append (key iv : Bytes) (seq : Nat) (a b : List (UInt8 × Bytes)) :
    Spec.ciphertextRecords S key iv seq (a ++ b) =
      Spec.ciphertextRecords S key iv seq a ++ Spec.ciphertextRecords S key iv (seq + a.length) b := by
  induction a generalizing seq with
  | nil => rfl
  | cons x xs ih =>
    simp only [List.cons_append, Spec.ciphertextRecords, ih, List.length_cons]
    rw [show seq + 1 + xs.length = seq + (xs.length + 1) by omega]

theorem ops_run (hS : S.Lawful) (ops : List WOp) (w : WrHalf) (c : Bytes) (hw : w.Ready S c)
    (hc : w.wks.st.counter + ops.length < 2 ^ 64) :
    ∃ c' evs sent, Steps S ops w c (runOps S ops w).1 (runOps S ops w).2 c' evs sent := by
  induction ops generalizing w c with
  | nil =>
    exact ⟨c, [], [], hw, by simp [runOps], rfl, rfl, rfl, rfl, rfl, by simp [runOps], rfl, by simp, rfl, by simp, id,
      fun h _ => ⟨h, by simp [runOps], by simp [accepted]⟩⟩
  | cons op ops ih =>
    simp only [List.length_cons] at hc
    obtain ⟨c1, e1, s1, h1⟩ := op_step S hS op w c hw (by omega)
    have hcnt := h1.counter
    have hle := h1.sentLe
    obtain ⟨c2, e2, s2, h2⟩ := ih (op.run S w).2 c1 h1.ready (by omega)
    have hrun : runOps S (op :: ops) w =
        ((op.run S w).1 :: (runOps S ops (op.run S w).2).1, (runOps S ops (op.run S w).2).2) := rfl
    rw [hrun]
    refine ⟨c2, e1 ++ e2, s1 ++ s2, h2.ready, ?_, ?_, h2.size.trans h1.size, h2.opened.trans h1.opened,
      h2.key.trans h1.key, h2.iv.trans h1.iv, ?_, ?_, ?_, ?_, ?_, ?_, ?_⟩
    · intro r hr
      rcases List.mem_cons.1 hr with rfl | hr
      · exact h1.noPanic
      · exact h2.noPanic r hr
    · simp [h2.length]
    · rw [h2.log, h1.log, List.append_assoc]
    · rw [h2.counter, h1.counter, List.length_append]; omega
    · have := h2.sentLe; simp only [List.length_append, List.length_cons]; omega
    · rw [wrote_append, h1.wrote, h2.wrote, h1.key, h1.iv, h1.counter, List.map_append, ciphertextRecords_append]
      simp
    · intro x hx
      rcases List.mem_append.1 hx with hx | hx
      · exact h1.limit x hx
      · have := h2.limit x hx; rw [h1.size] at this; exact this
    · intro h
      have := h2.notFull
      rw [h1.size] at this
      exact this (h1.notFull h)
    · intro h ho
      obtain ⟨g1, g2, g3⟩ := h1.reliable h ho
      obtain ⟨k1, k2, k3⟩ := h2.reliable g1 (h1.opened.trans ho)
      refine ⟨k1, ?_, ?_⟩
      · intro r hr
        rcases List.mem_cons.1 hr with rfl | hr
        · exact g2
        · exact k2 r hr
      · simp only [accepted, List.zipWith_cons_cons, List.flatten_cons] at k3 ⊢
        rw [← List.append_assoc, g3, List.append_assoc, k3, List.flatten_append, List.append_assoc]

/-! ## C10, C11 -/

/-- **C10** After any sequence of `write`/`flush`/`set_flush_policy` calls on an open connection over a transport
that does not fail, all calls succeed, the records handed to the transport are the protected application-data records
of some contents `sent`, and `sent` followed by what is still buffered is exactly what the `write` calls accepted. -/
theorem C10_stream (hS : S.Lawful) (ops : List WOp) (w : WrHalf) (hi : w.wb.Idle) (hL : 133 ≤ w.wb.buffer.length)
    (hiv : w.wks.st.iv.length = S.ivLen) (ho : w.opened = true) (ht : Reliable w.tx)
    (hc : w.wks.st.counter + ops.length < 2 ^ 64) :
    ∃ (evs : List OutEv) (sent : List Bytes), (runOps S ops w).2.tx.log = w.tx.log ++ evs ∧
      wrote evs = Spec.ciphertextRecords S w.wks.st.key w.wks.st.iv w.wks.st.counter
        (sent.map fun x => (23, x)) ∧
      (∀ r ∈ (runOps S ops w).1, ∃ n, r = .ok n) ∧
      sent.flatten ++ (runOps S ops w).2.buffered = accepted ops (runOps S ops w).1 := by
  obtain ⟨c', evs, sent, h⟩ := ops_run S hS ops w [] ⟨.idle hi, hL, hiv⟩ hc
  obtain ⟨g1, g2, g3⟩ := h.reliable ht ho
  refine ⟨evs, sent, h.log, h.wrote, g2, ?_⟩
  rw [ready_buffered _ _ h.ready.wb, ← g3]; rfl

/-- **C10** A `flush` at the end leaves nothing buffered: everything accepted has been sent. -/
theorem C10_flush (hS : S.Lawful) (ops : List WOp) (w : WrHalf) (hi : w.wb.Idle) (hL : 133 ≤ w.wb.buffer.length)
    (hiv : w.wks.st.iv.length = S.ivLen) (ho : w.opened = true) (ht : Reliable w.tx)
    (hc : w.wks.st.counter + ops.length + 1 < 2 ^ 64) :
    ∃ (evs : List OutEv) (sent : List Bytes), (WrHalf.flush S (runOps S ops w).2).1 = .ok () ∧
      (WrHalf.flush S (runOps S ops w).2).2.buffered = [] ∧
      (WrHalf.flush S (runOps S ops w).2).2.tx.log = w.tx.log ++ evs ∧
      wrote evs = Spec.ciphertextRecords S w.wks.st.key w.wks.st.iv w.wks.st.counter
        (sent.map fun x => (23, x)) ∧
      sent.flatten = accepted ops (runOps S ops w).1 := by
  obtain ⟨c', evs, sent, h⟩ := ops_run S hS ops w [] ⟨.idle hi, hL, hiv⟩ (by omega)
  obtain ⟨g1, g2, g3⟩ := h.reliable ht ho
  have hcnt := h.counter
  have hle := h.sentLe
  obtain ⟨e2, s2, f1, f2, f3, f4, f5, _, f6, f7, f8, f9, f10, f11, f12, f13⟩ :=
    flush_step S hS _ _ h.ready (by omega)
  obtain ⟨k1, k2, k3⟩ := f13 g1
  refine ⟨evs ++ e2, sent ++ s2, k2, ready_buffered _ _ f2.wb, ?_, ?_, ?_⟩
  · rw [f8, h.log, List.append_assoc]
  · rw [wrote_append, h.wrote, f11, h.key, h.iv, h.counter, List.map_append, ciphertextRecords_append]
    simp
  · rw [List.flatten_append, k3, ← g3]; rfl

theorem ok_of_bind_pure {ε σ α β : Type} {m : M ε σ α} {s : σ} {a b : β}
    (h : ((m >>= fun _ => pure a) s).1 = .ok b) : b = a := by
  rcases hm : m s with ⟨_ | _ | _, s1⟩
  · rw [M.bind_ok hm] at h; simp at h; exact h.symm
  · rw [M.bind_err hm] at h; simp at h
  · rw [M.bind_panic hm] at h; simp at h

/-- A write half just after a handshake, for the examples. -/
def exWr (n : Nat) (ctl : List OutCtl) : WrHalf :=
  ⟨⟨ctl, []⟩, true, ⟨⟨none, 0, List.replicate 16 1, List.replicate 12 2⟩, none⟩, ⟨List.replicate n 0, 0, none⟩, .strict⟩

example : (exWr 136 []).wb.Idle ∧ 133 ≤ (exWr 136 []).wb.buffer.length ∧
    (exWr 136 []).wks.st.iv.length = toySuite.ivLen ∧ (exWr 136 []).opened = true ∧ Reliable (exWr 136 []).tx :=
  ⟨⟨rfl, rfl⟩, by simp [exWr], rfl, rfl, by intro c hc; cases hc⟩

/-- With a 136-byte buffer (3 bytes of content per record) two writes of 2 and 5 bytes accept 2 and 1 bytes, one
record is sent, and nothing is left. -/
example : (runOps toySuite [.write [1, 2], .write [3, 4, 5, 6, 7]] (exWr 136 [])).1 = [.ok 2, .ok 1] ∧
    wrote (runOps toySuite [.write [1, 2], .write [3, 4, 5, 6, 7]] (exWr 136 [])).2.tx.log =
      [Spec.ciphertextRecord toySuite (List.replicate 16 1) (List.replicate 12 2) 0 23 [1, 2, 3]] ∧
    (runOps toySuite [.write [1, 2], .write [3, 4, 5, 6, 7]] (exWr 136 [])).2.buffered = [] := by
  decide +kernel

theorem receive_ciphertext (hS : S.Lawful) (key iv : Bytes) (seq : Nat) (t : UInt8) (content : Bytes)
    (hl : content.length + 17 < 65536) :
    Spec.receiveRecord S key iv seq (Spec.ciphertextRecord S key iv seq t content) = some (t, content) := by
  unfold Spec.receiveRecord Spec.ciphertextRecord
  simp only
  generalize hinner : Spec.innerPlaintext t content = inner
  have hil : inner.length = content.length + 1 := by rw [← hinner]; simp [Spec.innerPlaintext]
  generalize haad : Spec.ciphertextHeader inner.length = aad
  have hal : aad.length = 5 := by rw [← haad]; rfl
  have hbl : (S.sealCt key (Spec.nonce iv seq) aad inner ++ S.sealTag key (Spec.nonce iv seq) aad inner).length =
      inner.length + 16 := by
    rw [List.length_append, hS.sealCt_length, hS.sealTag_length]; rfl
  rw [← hal, List.take_left, List.drop_left, if_pos, hS.open_seal]
  · simp only
    rw [← hinner]
    simp [Spec.innerPlaintext]
  · rw [hbl]
    exact ⟨haad.symm, by omega⟩

theorem receive_ciphertexts (hS : S.Lawful) (key iv : Bytes) (seq : Nat) (fs : List (UInt8 × Bytes))
    (hl : ∀ f ∈ fs, f.2.length + 17 < 65536) :
    Spec.receiveRecords S key iv seq (Spec.ciphertextRecords S key iv seq fs) = some fs := by
  induction fs generalizing seq with
  | nil => rfl
  | cons f fs ih =>
    simp only [Spec.ciphertextRecords, Spec.receiveRecords]
    rw [receive_ciphertext S hS _ _ _ _ _ (hl f List.mem_cons_self), ih _ fun g hg => hl g (List.mem_cons_of_mem _ hg)]

/-- **C11** (for write buffers below 65652 bytes; above, the 16-bit length field wraps, see `C18_length_refuted`).
Every record handed to the transport is byte for byte the RFC 8446 `TLSCiphertext` of its content with consecutive
sequence numbers, and an RFC 8446 receiver with the same key and iv accepts them all, in order, and obtains exactly
the accepted bytes. -/
theorem C11_records_partial (hS : S.Lawful) (ops : List WOp) (w : WrHalf) (hi : w.wb.Idle)
    (hL : 133 ≤ w.wb.buffer.length) (hL' : w.wb.buffer.length < 65652)
    (hiv : w.wks.st.iv.length = S.ivLen) (ho : w.opened = true) (ht : Reliable w.tx)
    (hc : w.wks.st.counter + ops.length < 2 ^ 64) :
    ∃ (evs : List OutEv) (sent : List Bytes), (runOps S ops w).2.tx.log = w.tx.log ++ evs ∧
      wrote evs = Spec.ciphertextRecords S w.wks.st.key w.wks.st.iv w.wks.st.counter
        (sent.map fun x => (23, x)) ∧
      Spec.receiveRecords S w.wks.st.key w.wks.st.iv w.wks.st.counter (wrote evs) =
        some (sent.map fun x => (23, x)) ∧
      sent.flatten ++ (runOps S ops w).2.buffered = accepted ops (runOps S ops w).1 := by
  obtain ⟨c', evs, sent, h⟩ := ops_run S hS ops w [] ⟨.idle hi, hL, hiv⟩ hc
  obtain ⟨g1, g2, g3⟩ := h.reliable ht ho
  refine ⟨evs, sent, h.log, h.wrote, ?_, ?_⟩
  · rw [h.wrote]
    apply receive_ciphertexts S hS
    intro f hf
    obtain ⟨x, hx, rfl⟩ := List.mem_map.1 hf
    have := h.limit x hx
    simp only
    omega
  · rw [ready_buffered _ _ h.ready.wb, ← g3]; rfl

example : Spec.receiveRecords toySuite (List.replicate 16 1) (List.replicate 12 2) 0
    (wrote (runOps toySuite [.write [1, 2], .flush, .write [3, 4, 5, 6, 7]] (exWr 136 [])).2.tx.log) =
    some [(23, [1, 2]), (23, [3, 4, 5])] := by decide +kernel

/-! ## C12 -/

theorem nonces_nodup (hS : S.Lawful) (iv : Bytes) (hiv : iv.length = S.ivLen) (c n : Nat) (h : c + n < 2 ^ 64) :
    ((List.range n).map fun i => Spec.nonce iv (c + i)).Nodup := by
  rw [List.Nodup, List.pairwise_map]
  refine List.Pairwise.imp_of_mem ?_ (List.nodup_range (n := n))
  intro a b ha hb hne heq
  rw [List.mem_range] at ha hb
  apply hne
  have := C47_nonce_injective S hS iv hiv (c + a) (c + b) (by omega) (by omega)
  rw [C47_nonce_spec S hS _ _ hiv, C47_nonce_spec S hS _ _ hiv] at this
  have := this heq
  omega

/-- **C12** (part) Whatever the transport does, including failing writes and flushes, the records that were written
completely carry pairwise different nonces.  Missing: a record whose write failed (or was cancelled) after some or all
of its bytes were handed to the transport; see `C12_refuted`. -/
theorem C12_complete_records_partial (hS : S.Lawful) (ops : List WOp) (w : WrHalf) (hi : w.wb.Idle)
    (hL : 133 ≤ w.wb.buffer.length) (hiv : w.wks.st.iv.length = S.ivLen)
    (hc : w.wks.st.counter + ops.length < 2 ^ 64) :
    ∃ (evs : List OutEv) (sent : List Bytes), (runOps S ops w).2.tx.log = w.tx.log ++ evs ∧
      wrote evs = Spec.ciphertextRecords S w.wks.st.key w.wks.st.iv w.wks.st.counter
        (sent.map fun x => (23, x)) ∧
      ((List.range sent.length).map fun i => Spec.nonce w.wks.st.iv (w.wks.st.counter + i)).Nodup := by
  obtain ⟨c', evs, sent, h⟩ := ops_run S hS ops w [] ⟨.idle hi, hL, hiv⟩ hc
  have := h.sentLe
  exact ⟨evs, sent, h.log, h.wrote, nonces_nodup S hS _ hiv _ _ (by omega)⟩

/-- **C12 is false** with failing writes: the first `flush` hands all bytes of a record with content `[1]` to the
transport and fails; the next record, with content `[2]`, is sealed with the same key and the same sequence number. -/
theorem C12_refuted : ∃ (ops : List WOp) (w : WrHalf), w.wb.Idle ∧ w.opened = true ∧
    (runOps toySuite ops w).2.tx.log =
      [.partialWrite (Spec.ciphertextRecord toySuite w.wks.st.key w.wks.st.iv 0 23 [1]),
       .wrote (Spec.ciphertextRecord toySuite w.wks.st.key w.wks.st.iv 0 23 [2]), .flushed] ∧
    Spec.ciphertextRecord toySuite w.wks.st.key w.wks.st.iv 0 23 [1] ≠
      Spec.ciphertextRecord toySuite w.wks.st.key w.wks.st.iv 0 23 [2] :=
  ⟨[.write [1], .flush, .write [2], .flush], exWr 140 [.fail 0 1000], ⟨rfl, rfl⟩, rfl, by decide +kernel,
    by decide +kernel⟩

/-! ## C13 -/

/-- **C13** On a connection that is not open (handshake not completed, or closed by the peer), `write`, `read` into a
non-empty buffer, `read_buffered` and `fill_buf` return the missing-handshake error and leave the whole connection,
with buffers, keys and transport, untouched.  (`read` into an empty buffer returns `Ok(0)`, also without touching
anything.) -/
theorem C13_not_open (c : Conn) (h : c.opened = false) :
    (∀ bs, Conn.write S bs c = (.err .missingHandshake, c)) ∧
    (∀ n, 0 < n → Conn.read S n c = (.err .missingHandshake, c)) ∧
    Conn.read S 0 c = (.ok [], c) ∧
    Conn.fillBuf S c = (.err .missingHandshake, c) ∧
    onRd (RdHalf.fill S) c = (.err .missingHandshake, c) := by
  have hf : RdHalf.fill S c.rd = (.err .missingHandshake, c.rd) := by
    unfold RdHalf.fill
    rw [M.get_bind, if_neg (by simp [Conn.rd, h])]; rfl
  refine ⟨fun bs => ?_, fun n hn => ?_, rfl, ?_, ?_⟩
  · unfold Conn.write onWr
    have : WrHalf.write S bs c.wr = (.err .missingHandshake, c.wr) := by
      unfold WrHalf.write
      rw [M.get_bind, if_neg (by simp [Conn.wr, h])]; rfl
    rw [this]; rfl
  · unfold Conn.read onRd
    have : RdHalf.read S n c.rd = (.err .missingHandshake, c.rd) := by
      unfold RdHalf.read
      rw [if_neg (by omega), M.bind_err hf]
    rw [this]; rfl
  · unfold Conn.fillBuf onRd
    have : RdHalf.fillBuf S c.rd = (.err .missingHandshake, c.rd) := by
      unfold RdHalf.fillBuf
      rw [M.bind_err hf]
    rw [this]; rfl
  · unfold onRd
    rw [hf]; rfl

/-- A new connection is not open. -/
example (rx : Rx) (tx : Tx) (rb wb : Bytes) (c : Conn) (h : Conn.new S rx tx rb wb = .ok c) : c.opened = false := by
  unfold Conn.new at h
  rcases hw : WB.new wb with a | e | _ <;> rw [hw] at h <;> simp [Res.map] at h
  rw [← h]

/-! ## C14 -/

/-- C14 for write buffers of at least 134 bytes; `C14_progress` (AfterOpen.lean) shows that no connection with a
smaller one is ever open. After any history of calls with any transport failures, `write` of a non-empty slice over a transport that works from now
on returns `n` with `0 < n ≤` slice length. -/
theorem write_progress (hS : S.Lawful) (ops : List WOp) (w : WrHalf) (hi : w.wb.Idle)
    (hL : 134 ≤ w.wb.buffer.length) (hiv : w.wks.st.iv.length = S.ivLen) (ho : w.opened = true)
    (hc : w.wks.st.counter + ops.length + 1 < 2 ^ 64) (ht : Reliable (runOps S ops w).2.tx) (bs : Bytes)
    (hbs : bs ≠ []) :
    ∃ n w', WrHalf.write S bs (runOps S ops w).2 = (.ok n, w') ∧ 0 < n ∧ n ≤ bs.length := by
  obtain ⟨c', evs, sent, h⟩ := ops_run S hS ops w [] ⟨.idle hi, by omega, hiv⟩ (by omega)
  have hnf := h.notFull (.inl rfl)
  have hcnt := h.counter
  have hle := h.sentLe
  generalize hw2 : (runOps S ops w).2 = w2 at *
  have ho2 : w2.opened = true := h.opened.trans ho
  have hsz := h.size
  obtain ⟨wb', hb1, hb2, hb3⟩ := WrHalf.write_ready S w2 c' h.ready.wb ho2 h.ready.size bs
  obtain ⟨c2, e2, s2, st⟩ := op_step S hS (.write bs) w2 c' h.ready (by omega)
  obtain ⟨_, ⟨n, hn⟩, _⟩ := st.reliable ht ho2
  have hpos : 0 < bs.length := List.length_pos_iff.2 hbs
  refine ⟨n, (WrHalf.write S bs w2).2, Prod.ext hn rfl, ?_⟩
  have hn' : (WrHalf.write S bs w2).1 = .ok n := hn
  rw [hb3] at hn'
  have := ok_of_bind_pure hn'
  omega

example : ∃ n w', WrHalf.write toySuite [9] (runOps toySuite [.write [1, 2], .flush] (exWr 134 [])).2 = (.ok n, w') ∧
    0 < n ∧ n ≤ 1 :=
  write_progress toySuite toySuite_lawful _ (exWr 134 []) ⟨rfl, rfl⟩ (by simp [exWr]) rfl rfl (by decide)
    (by intro c hc; rw [show (runOps toySuite [.write [1, 2], .flush] (exWr 134 [])).2.tx.ctl = [] by decide +kernel] at hc; cases hc)
    [9] (by simp)

/-- The constructor accepts write buffers of 129 to 133 bytes; if a connection with one could be opened, `write` would
panic (129 to 132 bytes) or return `Ok(0)` for every slice (133 bytes).  `open` fails with such a buffer, because
ClientHello does not fit (`open_leaves` in AfterOpen.lean). -/
theorem write_tiny_buffers :
    (∀ n ∈ [129, 130, 131, 132], (WB.new (List.replicate n 0)).isOk = true ∧
      (WrHalf.write toySuite [7] (exWr n [])).1 = .panic) ∧
    (WB.new (List.replicate 133 0)).isOk = true ∧
    ∀ bs, (WrHalf.write toySuite bs (exWr 133 [])).1 = .ok 0 := by
  refine ⟨by decide +kernel, by decide +kernel, ?_⟩
  intro bs
  have hr : (exWr 133 []).Ready toySuite [] := ⟨.idle ⟨rfl, rfl⟩, by simp [exWr], rfl⟩
  obtain ⟨wb', hb1, hb2, hb3⟩ := WrHalf.write_ready toySuite (exWr 133 []) [] hr.wb rfl (by simp [exWr]) bs
  obtain ⟨c2, e2, s2, st⟩ := op_step toySuite toySuite_lawful (.write bs) (exWr 133 []) [] hr (by decide)
  obtain ⟨_, ⟨n, hn⟩, _⟩ := st.reliable (by intro c hc; cases hc) rfl
  have hn' : (WrHalf.write toySuite bs (exWr 133 [])).1 = .ok n := hn
  rw [hn']
  rw [hb3] at hn'
  have hz : min bs.length ((exWr 133 []).wb.buffer.length - 133 - ([] : Bytes).length) = 0 := by
    simp [exWr]
  rw [ok_of_bind_pure hn', hz]

/-! ## C15 -/

/-- **C15** `flush` with nothing buffered does nothing at all, in every state of the connection. -/
theorem C15_flush_empty (w : WrHalf) (h : w.wb.pos = 0) : WrHalf.flush S w = (.ok (), w) := WrHalf.flush_idle S w h

/-- The transport events that sending one record `bytes` may produce under a policy, with the outcome reported. -/
inductive SendEvents (bytes : Bytes) : FlushPolicy → Res TlsError Unit → List OutEv → Prop where
  | strict : SendEvents bytes .strict (.ok ()) [.wrote bytes, .flushed]
  | relaxed : SendEvents bytes .relaxed (.ok ()) [.wrote bytes]
  | writeFailed (p : FlushPolicy) (k : IoKind) (part : Bytes) : part <+: bytes →
      SendEvents bytes p (.err (.io k)) [.partialWrite part]
  | flushFailed (k : IoKind) : SendEvents bytes .strict (.err (.io k)) [.wrote bytes, .flushFailed]

theorem Sent.events {bytes : Bytes} {w : WrHalf} {r : Res TlsError Unit × WrHalf}
    (h : Sent bytes w.fp.flushTransport w r) :
    ∃ evs, r.2.tx.log = w.tx.log ++ evs ∧ SendEvents bytes w.fp r.1 evs ∧ (Reliable w.tx → r.1 = .ok ()) := by
  cases h with
  | failed k p ctl' hp hn => exact ⟨_, rfl, .writeFailed _ k p hp, fun h => absurd h hn⟩
  | flushFailed k ctl' hf hn =>
    refine ⟨_, rfl, ?_, fun h => absurd h hn⟩
    cases hfp : w.fp with
    | relaxed => rw [hfp] at hf; cases hf
    | strict => exact .flushFailed k
  | done ctl' hr =>
    refine ⟨_, rfl, ?_, fun _ => rfl⟩
    cases hfp : w.fp with
    | relaxed => exact .relaxed
    | strict => exact .strict

/-- **C15** `flush` with buffered application data `c` performs exactly one write, of the protected record, and then,
exactly if the policy is strict and the write succeeded, one transport flush. -/
theorem C15_flush (hS : S.Lawful) (w : WrHalf) (c : Bytes) (hh : w.wb.Holds .applicationData c)
    (hcl : c.length + 133 ≤ w.wb.buffer.length) (hiv : w.wks.st.iv.length = S.ivLen)
    (hc : w.wks.st.counter + 1 < 2 ^ 64) :
    ∃ evs, (WrHalf.flush S w).2.tx.log = w.tx.log ++ evs ∧
      SendEvents (Spec.ciphertextRecord S w.wks.st.key w.wks.st.iv w.wks.st.counter 23 c) w.fp (WrHalf.flush S w).1 evs ∧
      (Reliable w.tx → (WrHalf.flush S w).1 = .ok ()) := by
  obtain ⟨wb', h1, h2, h3⟩ := WrHalf.flush_holds S hS w .applicationData c hh
    (by simp [recordRoom, ClientRecordHeader.isEncrypted]; omega)
  rw [h3]
  have hspec := recordBytes_spec S hS w.wks hiv .applicationData rfl c
  have := (sendRecord_cases (recordBytes S w.wks .applicationData c) w.fp.flushTransport { w with wb := wb' } hc)
  rw [hspec] at this ⊢
  exact Sent.events (w := { w with wb := wb' }) this

/-- **C15** `write` does no I/O unless the record becomes full; then it sends it by the same rule. -/
theorem C15_write (hS : S.Lawful) (w : WrHalf) (c : Bytes) (hw : w.Ready S c) (ho : w.opened = true)
    (hc : w.wks.st.counter + 1 < 2 ^ 64) (bs : Bytes) :
    (c.length + bs.length < w.wb.buffer.length - 133 →
      (WrHalf.write S bs w).2.tx = w.tx ∧ (WrHalf.write S bs w).1 = .ok bs.length) ∧
    (w.wb.buffer.length - 133 ≤ c.length + bs.length →
      ∃ evs r, (WrHalf.write S bs w).2.tx.log = w.tx.log ++ evs ∧
        (WrHalf.write S bs w).1 = Res.map (fun () => w.wb.buffer.length - 133 - c.length) r ∧
        SendEvents (Spec.ciphertextRecord S w.wks.st.key w.wks.st.iv w.wks.st.counter 23
          (c ++ bs.take (w.wb.buffer.length - 133 - c.length))) w.fp r evs ∧
        (Reliable w.tx → r = .ok ())) := by
  obtain ⟨wb', hb1, hb2, hb3⟩ := WrHalf.write_ready S w c hw.wb ho hw.size bs
  have hcl : c.length ≤ w.wb.buffer.length - 133 := by
    cases hw.wb with
    | idle => simp
    | open_ _ _ h => exact h
  have hsz := hw.size
  rw [hb3]
  constructor
  · intro hlt
    have hmin : min bs.length (w.wb.buffer.length - 133 - c.length) = bs.length := by omega
    rw [hmin, decide_eq_false (by omega)]
    simp [WrHalf.flushIf]
  · intro hge
    have hmin : min bs.length (w.wb.buffer.length - 133 - c.length) = w.wb.buffer.length - 133 - c.length := by omega
    rw [hmin] at hb2 ⊢
    rw [decide_eq_true (by omega)]
    have hf := C15_flush S hS { w with wb := wb' } _ hb2
      (by simp only [List.length_append, List.length_take, hb1]; omega) hw.iv hc
    obtain ⟨evs, g1, g2, g3⟩ := hf
    refine ⟨evs, (WrHalf.flush S { w with wb := wb' }).1, ?_, ?_, g2, g3⟩
    · rw [← g1, M.bind_def, WrHalf.flushIf, if_pos rfl]
      rcases WrHalf.flush S { w with wb := wb' } with ⟨_ | _ | _, w1⟩ <;> rfl
    · rw [M.bind_def, WrHalf.flushIf, if_pos rfl]
      rcases WrHalf.flush S { w with wb := wb' } with ⟨_ | _ | _, w1⟩ <;> rfl

example : (exWr 136 []).Ready toySuite [] := ⟨.idle ⟨rfl, rfl⟩, by simp [exWr], rfl⟩
example : (WrHalf.write toySuite [1, 2, 3, 4] (exWr 136 [])).2.tx.log =
    [.wrote (Spec.ciphertextRecord toySuite (List.replicate 16 1) (List.replicate 12 2) 0 23 [1, 2, 3]), .flushed] := by
  decide +kernel
example : (WrHalf.write toySuite [1, 2, 3, 4] { exWr 136 [] with fp := .relaxed }).2.tx.log =
    [.wrote (Spec.ciphertextRecord toySuite (List.replicate 16 1) (List.replicate 12 2) 0 23 [1, 2, 3])] := by
  decide +kernel

/-! ## C17 -/

/-- **C17** (part) Starting from a state in which the write buffer is idle or holds an application-data record (what
a successful handshake leaves), with a write buffer of at least 133 bytes, no history of calls panics, whatever the
transport does, until 2^64 records have been sent. -/
theorem C17_no_panic_partial (hS : S.Lawful) (ops : List WOp) (w : WrHalf) (c : Bytes) (hw : w.Ready S c)
    (hc : w.wks.st.counter + ops.length < 2 ^ 64) : ∀ r ∈ (runOps S ops w).1, r ≠ .panic := by
  obtain ⟨c', evs, sent, h⟩ := ops_run S hS ops w c hw hc
  exact h.noPanic

example : ∀ r ∈ (runOps toySuite [.write [1], .flush, .write [2, 3, 4, 5], .flush]
    (exWr 136 [.fail 1 3, .ok, .fail 2 0])).1, r ≠ .panic :=
  C17_no_panic_partial toySuite toySuite_lawful _ _ [] ⟨.idle ⟨rfl, rfl⟩, by simp [exWr], rfl⟩ (by decide)

/-! ## C18 -/

/-- **C18** (for write buffers of at most 16517 bytes, see `C18_refuted`). No record carries more than 2^14 bytes and its length field is the
length of what follows. -/
theorem C18_limit_partial (hS : S.Lawful) (ops : List WOp) (w : WrHalf) (hi : w.wb.Idle)
    (hL : 133 ≤ w.wb.buffer.length) (hL' : w.wb.buffer.length ≤ 16517) (hiv : w.wks.st.iv.length = S.ivLen)
    (hc : w.wks.st.counter + ops.length < 2 ^ 64) :
    ∃ (evs : List OutEv) (sent : List Bytes), (runOps S ops w).2.tx.log = w.tx.log ++ evs ∧
      wrote evs = Spec.ciphertextRecords S w.wks.st.key w.wks.st.iv w.wks.st.counter
        (sent.map fun x => (23, x)) ∧
      (∀ x ∈ sent, x.length ≤ 2 ^ 14) ∧
      ∀ rec ∈ wrote evs, ∃ body, rec = [23, 3, 3] ++ Spec.u16 body.length ++ body ∧ body.length < 65536 := by
  obtain ⟨c', evs, sent, h⟩ := ops_run S hS ops w [] ⟨.idle hi, hL, hiv⟩ hc
  have hlim : ∀ x ∈ sent, x.length ≤ 2 ^ 14 := by
    intro x hx
    have := h.limit x hx
    omega
  refine ⟨evs, sent, h.log, h.wrote, hlim, ?_⟩
  rw [h.wrote]
  generalize w.wks.st.counter = seq
  clear h
  induction sent generalizing seq with
  | nil => intro rec hr; cases hr
  | cons x xs ih =>
    intro rec hr
    rcases List.mem_cons.1 hr with rfl | hr
    · have hx := hlim x List.mem_cons_self
      refine ⟨S.sealCt w.wks.st.key (Spec.nonce w.wks.st.iv seq)
          (Spec.ciphertextHeader (Spec.innerPlaintext 23 x).length) (Spec.innerPlaintext 23 x) ++
          S.sealTag w.wks.st.key (Spec.nonce w.wks.st.iv seq)
          (Spec.ciphertextHeader (Spec.innerPlaintext 23 x).length) (Spec.innerPlaintext 23 x), ?_, ?_⟩
      · rw [List.length_append, hS.sealCt_length, hS.sealTag_length]
        rfl
      · rw [List.length_append, hS.sealCt_length, hS.sealTag_length]
        simp [Spec.innerPlaintext, tagLen]; omega
    · exact ih (fun y hy => hlim y (List.mem_cons_of_mem _ hy)) _ rec hr

/-- One `write` of a slice that fills the buffer sends everything that fits as one record. -/
theorem write_fills (hS : S.Lawful) (w : WrHalf) (hi : w.wb.Idle) (hL : 133 ≤ w.wb.buffer.length)
    (hiv : w.wks.st.iv.length = S.ivLen) (ho : w.opened = true) (ht : Reliable w.tx) (hlog : w.tx.log = [])
    (hc : w.wks.st.counter + 1 < 2 ^ 64) (bs : Bytes) (hbs : w.wb.buffer.length - 133 ≤ bs.length) :
    wrote (WrHalf.write S bs w).2.tx.log =
      [Spec.ciphertextRecord S w.wks.st.key w.wks.st.iv w.wks.st.counter 23 (bs.take (w.wb.buffer.length - 133))] := by
  obtain ⟨evs, r, h1, h2, h3, h4⟩ := (C15_write S hS w [] ⟨.idle hi, hL, hiv⟩ ho hc bs).2 (by simpa using hbs)
  rw [h4 ht] at h3
  rw [h1, hlog]
  generalize w.fp = fp at h3
  cases h3 <;> simp [wrote]

theorem exWr_fills (n m : Nat) (hn : 133 ≤ n) (hm : n - 133 = m) :
    wrote (WrHalf.write toySuite (List.replicate m 7) (exWr n [])).2.tx.log =
      [Spec.ciphertextRecord toySuite (exWr n []).wks.st.key (exWr n []).wks.st.iv 0 23 (List.replicate m 7)] := by
  have hl : (exWr n []).wb.buffer.length = n := by simp only [exWr, List.length_replicate]
  have h := write_fills toySuite toySuite_lawful (exWr n []) ⟨rfl, rfl⟩ (by omega)
    rfl rfl (by intro c hc; cases hc) rfl (by show 0 + 1 < 2 ^ 64; decide) (List.replicate m 7)
    (by rw [List.length_replicate]; omega)
  rw [h, hl, hm, List.take_of_length_le (by rw [List.length_replicate]; exact Nat.le_refl _)]
  rfl

/-- **C18 is false** for write buffers above 16517 bytes: with 16640 bytes, the size the documentation gives as the largest
record, one `write` produces a record with 16507 bytes of content. -/
theorem C18_refuted : ∃ (w : WrHalf) (bs content : Bytes), w.wb.Idle ∧ w.opened = true ∧
    w.wb.buffer.length = 16640 ∧
    wrote (WrHalf.write toySuite bs w).2.tx.log =
      [Spec.ciphertextRecord toySuite w.wks.st.key w.wks.st.iv 0 23 content] ∧ content.length > 2 ^ 14 := by
  refine ⟨exWr 16640 [], List.replicate 16507 7, List.replicate 16507 7, ⟨rfl, rfl⟩, rfl, ?_, ?_, ?_⟩
  · unfold exWr; exact List.length_replicate
  · exact exWr_fills 16640 16507 (by decide) (by decide)
  · rw [List.length_replicate]; decide

/-- **C18 (length field) is false** for write buffers of 65652 bytes and more: the length field wraps to 0. -/
theorem C18_length_refuted : ∃ (w : WrHalf) (bs body : Bytes), w.wb.Idle ∧ w.opened = true ∧
    wrote (WrHalf.write toySuite bs w).2.tx.log = [[23, 3, 3, 0, 0] ++ body] ∧ body.length = 65536 := by
  have h := exWr_fills 65652 65519 (by decide) (by decide)
  have hil : (Spec.innerPlaintext 23 (List.replicate 65519 7)).length = 65520 := by
    unfold Spec.innerPlaintext
    rw [List.length_append, List.length_replicate, List.length_singleton]
  refine ⟨exWr 65652 [], List.replicate 65519 7,
      toySuite.sealCt (exWr 65652 []).wks.st.key (Spec.nonce (exWr 65652 []).wks.st.iv 0) [23, 3, 3, 0, 0]
      (Spec.innerPlaintext 23 (List.replicate 65519 7)) ++
      toySuite.sealTag (exWr 65652 []).wks.st.key (Spec.nonce (exWr 65652 []).wks.st.iv 0) [23, 3, 3, 0, 0]
      (Spec.innerPlaintext 23 (List.replicate 65519 7)), ⟨rfl, rfl⟩, rfl, h.trans ?_, ?_⟩
  · have hh : Spec.ciphertextHeader (Spec.innerPlaintext 23 (List.replicate 65519 7)).length = [23, 3, 3, 0, 0] := by
      rw [hil]; decide
    unfold Spec.ciphertextRecord
    simp only [hh]
  · rw [List.length_append, toySuite_lawful.sealCt_length, toySuite_lawful.sealTag_length, hil]
    rfl

end ETls
