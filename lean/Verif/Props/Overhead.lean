import Verif.Props.Writer
import Verif.Props.Close

/-! # What sending costs (C139)

How often a call uses the transport, and how many records and bytes a history of calls makes of the data it accepts. -/

namespace ETls

open Spec

variable (S : Suite)

/-! ## Uses of the transport -/

/-- Events that give the transport bytes, all of a record or only a part of it. -/
def OutEv.isData : OutEv → Bool
  | .wrote _ => true
  | .partialWrite _ => true
  | _ => false

/-- At most `n` writes, and at most `n` flushes. -/
def Uses (n : Nat) (evs : List OutEv) : Prop :=
  evs.countP (·.isData) ≤ n ∧ evs.countP (fun e => !e.isData) ≤ n

theorem Uses.append {m n : Nat} {a b : List OutEv} (ha : Uses m a) (hb : Uses n b) : Uses (m + n) (a ++ b) := by
  obtain ⟨a1, a2⟩ := ha
  obtain ⟨b1, b2⟩ := hb
  unfold Uses
  rw [List.countP_append, List.countP_append]
  omega

theorem Uses.nil (n : Nat) : Uses n [] := ⟨Nat.zero_le _, Nat.zero_le _⟩

theorem Uses.mono {m n : Nat} {a : List OutEv} (h : Uses m a) (hmn : m ≤ n) : Uses n a :=
  ⟨Nat.le_trans h.1 hmn, Nat.le_trans h.2 hmn⟩

/-- Sending a record. -/
theorem send_uses (record : Bytes) (fl : Bool) (w : Writer) (a : List OutCtl) :
    Uses 1 (Spec.send record fl w a).events := by
  unfold Spec.send
  rcases answer a with ⟨_ | ⟨k, n⟩, r⟩
  · dsimp only
    split
    · unfold settle
      split
      · rcases answer r with ⟨_ | ⟨k, n⟩, r'⟩ <;> simp [Uses, OutEv.isData]
      · simp [Uses, OutEv.isData]
    · simp [Uses, OutEv.isData]
  · simp [Uses, OutEv.isData]

/-- Flushing. -/
theorem writerFlush_uses (key iv : Bytes) (w : Writer) (a : List OutCtl) : Uses 1 (w.flush S key iv a).events := by
  unfold Writer.flush
  split
  · exact .nil 1
  · exact send_uses _ _ _ _

/-- Any call. -/
theorem writeCall_uses (key iv : Bytes) (limit : Nat) (o : Bool) (c : WriteCall) (w : Writer) (a : List OutCtl) :
    Uses 1 (c.run S key iv limit o w a).events := by
  cases c with
  | write bs =>
    show Uses 1 (w.write S key iv limit o bs a).events
    unfold Writer.write
    split
    · split
      · exact writerFlush_uses S key iv _ a
      · exact .nil 1
    · exact .nil 1
  | flush => exact writerFlush_uses S key iv w a
  | setFlushPolicy p => exact .nil 1

/-- C139: whatever the transport answers, a call of the writing side gives the transport at most one record and at most
one flush, however much data the application passes. -/
theorem C139_call (hS : S.Sized) (op : WOp) (w : WrHalf) (x : Writer) (hx : w.Is S x) :
    ∃ evs, (op.run S w).2.tx.log = w.tx.log ++ evs ∧ Uses 1 evs :=
  ⟨_, congrArg Tx.log (wop_does S hS op w x hx).tx, writeCall_uses S _ _ _ _ _ _ _⟩

/-- C139: so a history of calls uses the transport at most as often as it has calls. -/
theorem C139_calls (hS : S.Sized) (ops : List WOp) : ∀ (w : WrHalf) (x : Writer), w.Is S x →
    ∃ evs, (runOps S ops w).2.tx.log = w.tx.log ++ evs ∧ Uses ops.length evs := by
  induction ops with
  | nil => exact fun w x hx => ⟨[], by simp [runOps], .nil 0⟩
  | cons op ops ih =>
    intro w x hx
    obtain ⟨e1, h1, u1⟩ := C139_call S hS op w x hx
    obtain ⟨e2, h2, u2⟩ := ih (op.run S w).2 _ (wop_does S hS op w x hx).writer
    refine ⟨e1 ++ e2, ?_, ?_⟩
    · show (runOps S ops (op.run S w).2).2.tx.log = _
      rw [h2, h1, List.append_assoc]
    · exact (u1.append u2).mono (by simp only [List.length_cons]; omega)

/-- C139: closing gives the transport at most two records and two flushes. -/
theorem C139_close (hS : S.Sized) (c : Conn) (x : Writer) (hx : c.wr.Is S x) :
    ∃ evs, (Conn.close S c).2.tx.log = c.tx.log ++ evs ∧ Uses 2 evs := by
  refine ⟨_, congrArg Tx.log (C78_close S hS c x hx).tx, ?_⟩
  have h1 := writerFlush_uses S c.ks.client.st.key c.ks.client.st.iv x c.tx.ctl
  unfold Writer.close
  split
  · exact h1.append (send_uses _ _ _ _)
  · exact h1.mono (by omega)

/-! ## Records and bytes -/

/-- The number of calls of `flush` in a history. -/
def flushes (ops : List WOp) : Nat := ops.countP (· = .flush)

/-- A protected record of application data is 22 bytes longer than its content. -/
theorem ciphertextRecord_size (hS : S.Sized) (key iv : Bytes) (seq : Nat) (t : UInt8) (c : Bytes) :
    (Spec.ciphertextRecord S key iv seq t c).length = c.length + 22 := by
  have : ∀ d, (Spec.ciphertextHeader d).length = 5 := fun d => rfl
  simp only [Spec.ciphertextRecord, List.length_append, this, hS.sealCt_length, hS.sealTag_length, Spec.innerPlaintext,
    List.length_singleton, tagLen]
  omega

theorem answer_allOk {a : List OutCtl} (h : ∀ c ∈ a, c = .ok) :
    (answer a).1 = none ∧ ∀ c ∈ (answer a).2, c = .ok := by
  cases a with
  | nil => exact ⟨rfl, h⟩
  | cons c r =>
    cases h c (by simp)
    exact ⟨rfl, fun c hc => h c (List.mem_cons_of_mem _ hc)⟩

/-- Sending a record with a transport that takes everything. -/
theorem send_reliable (record : Bytes) (fl : Bool) (w : Writer) (a : List OutCtl) (h : ∀ c ∈ a, c = .ok)
    (hq : w.seq + 1 < 2 ^ 64) :
    (Spec.send record fl w a).result = .ok 0 ∧ wrote (Spec.send record fl w a).events = [record] ∧
      (Spec.send record fl w a).writer = { w with seq := w.seq + 1 } ∧
      ∀ c ∈ (Spec.send record fl w a).answers, c = .ok := by
  obtain ⟨h1, h2⟩ := answer_allOk h
  unfold Spec.send
  rcases ha : answer a with ⟨p, r⟩
  rw [ha] at h1 h2
  cases h1
  simp only [hq, if_true]
  unfold settle
  cases fl with
  | false => exact ⟨rfl, rfl, rfl, h2⟩
  | true =>
    obtain ⟨h3, h4⟩ := answer_allOk h2
    rcases hb : answer r with ⟨p', r'⟩
    rw [hb] at h3 h4
    cases h3
    exact ⟨rfl, rfl, rfl, h4⟩

/-- What a call does with the data: `n` records of `b` bytes, of which `full` have the largest content. -/
structure Costs (limit : Nat) (op : WOp) (x : Writer) (y : Wrote) : Prop where
  bytes : (wrote y.events).flatten.length + (y.writer.pending.getD []).length =
    (x.pending.getD []).length + (acceptedBy op y.result).length + 22 * (wrote y.events).length
  records : ∃ full, (wrote y.events).length ≤ full + (if op = .flush then 1 else 0) ∧
    full * limit + (y.writer.pending.getD []).length ≤ (x.pending.getD []).length + (acceptedBy op y.result).length
  seq : y.writer.seq ≤ x.seq + 1
  answers : ∀ c ∈ y.answers, c = .ok

/-- Flushing a record that has been begun. -/
theorem writerFlush_reliable (key iv : Bytes) (x : Writer) (content : Bytes) (hp : x.pending = some content)
    (a : List OutCtl) (ha : ∀ c ∈ a, c = .ok) (hq : x.seq + 1 < 2 ^ 64) :
    (x.flush S key iv a).result = .ok 0 ∧
      wrote (x.flush S key iv a).events = [Spec.ciphertextRecord S key iv x.seq 23 content] ∧
      (x.flush S key iv a).writer = { x with pending := none, seq := x.seq + 1 } ∧
      ∀ c ∈ (x.flush S key iv a).answers, c = .ok := by
  unfold Writer.flush
  rw [hp]
  exact send_reliable _ _ { x with pending := none } a ha hq

theorem call_costs (hS : S.Sized) (key iv : Bytes) (limit : Nat) (op : WOp) (x : Writer) (a : List OutCtl)
    (ha : ∀ c ∈ a, c = .ok) (hq : x.seq + 1 < 2 ^ 64) :
    Costs limit op x (op.spec.run S key iv limit true x a) := by
  cases op with
  | setFlushPolicy p =>
    exact ⟨by simp [WOp.spec, WriteCall.run, wrote, acceptedBy],
      ⟨0, by simp [WOp.spec, WriteCall.run, wrote], by simp [WOp.spec, WriteCall.run]⟩,
      by simp [WOp.spec, WriteCall.run], ha⟩
  | flush =>
    show Costs limit .flush x (x.flush S key iv a)
    cases hp : x.pending with
    | none =>
      have : x.flush S key iv a = ⟨.ok 0, [], x, a⟩ := by unfold Writer.flush; rw [hp]
      rw [this]
      exact ⟨by simp [wrote, acceptedBy], ⟨0, by simp [wrote], by simp⟩, by simp, ha⟩
    | some content =>
      obtain ⟨h1, h2, h3, h4⟩ := writerFlush_reliable S key iv x content hp a ha hq
      refine ⟨?_, ⟨0, ?_, ?_⟩, ?_, h4⟩
      · rw [h1, h2, h3, hp]
        simp [acceptedBy, ciphertextRecord_size S hS]
      · rw [h2]; simp
      · rw [h3]; simp
      · rw [h3]
        exact Nat.le_refl _
  | write bs =>
    show Costs limit (.write bs) x (x.write S key iv limit true bs a)
    have hlen : (bs.take (x.takes limit bs)).length = x.takes limit bs := by
      rw [List.length_take]
      unfold Writer.takes
      omega
    unfold Writer.write
    rw [if_pos rfl]
    split
    · rename_i hfull
      obtain ⟨h1, h2, h3, h4⟩ := writerFlush_reliable S key iv (x.add limit bs) _ rfl a ha hq
      refine ⟨?_, ⟨1, ?_, ?_⟩, ?_, h4⟩
      · simp only [h1, h2, h3]
        simp [acceptedBy, Res.map, ciphertextRecord_size S hS, hlen]
      · simp only [h2]; simp
      · simp only [h1, h3]
        simp [acceptedBy, Res.map]
        rw [List.length_take] at hlen
        omega
      · simp only [h3]
        exact Nat.le_refl _
    · refine ⟨?_, ⟨0, ?_, ?_⟩, ?_, ha⟩
      · simp [wrote, acceptedBy, Writer.add]
      · simp [wrote]
      · simp [acceptedBy, Writer.add]
      · exact Nat.le_succ _

/-- C139: over a transport that takes everything, with room for `limit` bytes of content in a record (the write buffer
less 133 bytes): a history of calls on an open connection adds 22 bytes per record to the data and nothing else, and makes
at most as many records as it has calls of `flush`, plus one per `limit` bytes of data.  (Data: what was collected before
and what the calls accepted.) -/
theorem C139_overhead (hS : S.Sized) (ops : List WOp) : ∀ (w : WrHalf) (x : Writer), w.Is S x → w.opened = true →
    Reliable w.tx → x.seq + ops.length < 2 ^ 64 →
    ∃ evs, (runOps S ops w).2.tx.log = w.tx.log ++ evs ∧
      (wrote evs).flatten.length + (runOps S ops w).2.buffered.length =
        w.buffered.length + (accepted ops (runOps S ops w).1).length + 22 * (wrote evs).length ∧
      ∃ full, (wrote evs).length ≤ flushes ops + full ∧
        full * (w.wb.buffer.length - 133) ≤ w.buffered.length + (accepted ops (runOps S ops w).1).length := by
  suffices H : ∀ (w : WrHalf) (x : Writer), w.Is S x → w.opened = true → Reliable w.tx → x.seq + ops.length < 2 ^ 64 →
      ∃ evs, (runOps S ops w).2.tx.log = w.tx.log ++ evs ∧
        (wrote evs).flatten.length + (runOps S ops w).2.buffered.length =
          w.buffered.length + (accepted ops (runOps S ops w).1).length + 22 * (wrote evs).length ∧
        ∃ full, (wrote evs).length ≤ flushes ops + full ∧
          full * (w.wb.buffer.length - 133) + (runOps S ops w).2.buffered.length ≤
            w.buffered.length + (accepted ops (runOps S ops w).1).length by
    intro w x hx ho hr hq
    obtain ⟨evs, h1, h2, full, h3, h4⟩ := H w x hx ho hr hq
    exact ⟨evs, h1, h2, full, h3, by omega⟩
  induction ops with
  | nil =>
    intro w x hx ho hr hq
    exact ⟨[], by simp [runOps], by simp [runOps, wrote, accepted], 0, by simp [wrote], by simp [runOps, accepted]⟩
  | cons op ops ih =>
    intro w x hx ho hr hq
    simp only [List.length_cons] at hq
    have hd := wop_does S hS op w x hx
    have hc := call_costs S hS w.wks.st.key w.wks.st.iv (w.wb.buffer.length - 133) op x w.tx.ctl hr (by omega)
    rw [ho] at hd
    generalize op.spec.run S w.wks.st.key w.wks.st.iv (w.wb.buffer.length - 133) true x w.tx.ctl = y at hd hc
    have b0 := ready_buffered w _ hx.pends.ready
    have b1 := ready_buffered _ _ hd.writer.pends.ready
    have hctl := congrArg Tx.ctl hd.tx
    have hlog := congrArg Tx.log hd.tx
    simp only at hctl hlog
    have hseq := hc.seq
    obtain ⟨evs, i1, i2, full, i3, i4⟩ := ih (op.run S w).2 y.writer hd.writer (hd.opened.trans ho)
      (by unfold Reliable; rw [hctl]; exact hc.answers) (by omega)
    obtain ⟨full1, r1, r2⟩ := hc.records
    have hb := hc.bytes
    have hres := hd.result
    rw [hd.size] at i4
    have e2 : (runOps S (op :: ops) w).2 = (runOps S ops (op.run S w).2).2 := rfl
    have e1 : (accepted (op :: ops) (runOps S (op :: ops) w).1).length =
        (acceptedBy op y.result).length + (accepted ops (runOps S ops (op.run S w).2).1).length := by
      rw [← hres]
      simp [accepted, runOps]
    have ef : flushes (op :: ops) = flushes ops + (if op = .flush then 1 else 0) := by
      simp [flushes, List.countP_cons]
    refine ⟨y.events ++ evs, ?_, ?_, full1 + full, ?_, ?_⟩
    · rw [e2, i1, hlog, List.append_assoc]
    · rw [e1, e2, wrote_append, List.flatten_append, List.length_append, List.length_append, b0]
      rw [b1] at i2
      omega
    · rw [ef, wrote_append, List.length_append]
      omega
    · rw [e1, e2, b0, Nat.add_mul]
      rw [b1] at i4
      omega

/-! ## Examples -/

-- C139_overhead: room for three bytes in a record; seven bytes are accepted, two records are full, one is flushed
set_option maxRecDepth 10000 in
example :
    let x := WriteCall.runAll toySuite (List.replicate 16 1) (List.replicate 12 2) 3 true
      [.write [1, 2, 3, 4], .write [4, 5], .write [6, 7], .write [7], .flush, .flush] ⟨none, 0, .relaxed⟩ []
    x.1 = [.ok 3, .ok 2, .ok 1, .ok 1, .ok 0, .ok 0] ∧ (wrote x.2.1).map List.length = [25, 25, 23] := by
  decide +kernel

set_option maxRecDepth 10000 in
example : ∃ evs, (runOps toySuite [.write [1, 2, 3, 4], .flush, .write [5], .flush] (exWr 136 [.ok])).2.tx.log = [] ++ evs ∧
    ∃ full, (wrote evs).length ≤ 2 + full ∧ full * 3 ≤
      (accepted [.write [1, 2, 3, 4], .flush, .write [5], .flush]
        (runOps toySuite [.write [1, 2, 3, 4], .flush, .write [5], .flush] (exWr 136 [.ok])).1).length := by
  obtain ⟨evs, h1, -, full, h2, h3⟩ := C139_overhead toySuite toySuite_lawful.sized
    [.write [1, 2, 3, 4], .flush, .write [5], .flush] _ _ (exWr_is [.ok]) rfl (by simp [Reliable, exWr]) (by decide)
  have hb : (exWr 136 [.ok]).buffered = [] := ready_buffered _ _ (exWr_is [.ok]).pends.ready
  rw [hb] at h3
  refine ⟨evs, h1, full, h2, ?_⟩
  simpa [exWr] using h3

-- C139_calls: also if the transport fails
set_option maxRecDepth 10000 in
example :
    let x := WriteCall.runAll toySuite (List.replicate 16 1) (List.replicate 12 2) 3 true
      [.write [1, 2], .write [3, 4], .flush, .write [5], .flush] ⟨none, 0, .strict⟩ [.fail 7 2]
    x.2.1.countP (·.isData) = 2 ∧ x.2.1.countP (fun e => !e.isData) = 1 := by
  decide +kernel

example : ∃ evs, (runOps toySuite [.write [1, 2], .write [3, 4], .flush, .write [5]] (exWr 136 [.fail 7 2])).2.tx.log =
    (exWr 136 [.fail 7 2]).tx.log ++ evs ∧ Uses 4 evs :=
  C139_calls toySuite toySuite_lawful.sized _ _ _ (exWr_is [.fail 7 2])

-- C139_close: with nothing collected one record and one flush; with something collected two of each (the example of C16)
example : ∃ evs, (Conn.close toySuite (exConn [])).2.tx.log = (exConn []).tx.log ++ evs ∧ Uses 2 evs :=
  C139_close toySuite toySuite_lawful.sized (exConn []) ⟨none, 0, .strict⟩
    ⟨.idle ⟨rfl, rfl⟩, rfl, rfl, by decide +kernel, rfl⟩

end ETls
