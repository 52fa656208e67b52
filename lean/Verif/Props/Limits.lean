import Verif.Props.Secrecy
import Verif.Props.Honest
import Verif.Props.Truncation

/-! # C107 and C108: limits on the size of records and on the use of a key -/

namespace ETls

variable (S : Suite)

open Spec (Fragment Writer WriteCall Wrote)

/-! ## C107 -/

/-- RFC 8446 5.2: the full encoded inner plaintext must not exceed 2^14 + 1 bytes. -/
def Conforms (f : Fragment) : Prop := f.inner.length ≤ 2 ^ 14 + 1

/-- **C107** With a read buffer of at least the documented size (`asynch.rs:48`: 16640 bytes), every sequence of records a
conforming peer may send after the handshake is delivered: no call panics or fails, except at the end of the stream, when
everything has been delivered. -/
theorem C107_accepts (hS : S.Lawful) (fs : List Fragment) (hconf : ∀ f ∈ fs, Conforms f) (hsend : ∀ f ∈ fs, Sendable S f)
    (h : RdHalf) (hg : h.Good) (hp : h.rr.pending = 0) (ho : h.opened = true) (hu : h.unread = [])
    (hclean : h.rx.Clean) (hiv : h.rks.st.iv.length = S.ivLen) (hc : h.rks.st.counter + fs.length < 2 ^ 64)
    (hb : h.rx.bytes = Spec.protectAll S h.rks.st.key h.rks.st.iv h.rks.st.counter fs)
    (hbuf : 16640 ≤ h.rr.buf.length) (ops : List ROp) :
    (∀ r ∈ (runReads S ops h).1, (∃ o, r = .ok o) ∨ r = .err .ioError) ∧
    (∀ i : Nat, (runReads S ops h).1[i]? = some (Res.err .ioError) → delivered ((runReads S ops h).1.take i) = dataOf fs) ∧
    ∀ sizes : List Nat, (∀ n ∈ sizes, n ≠ 0) → (dataOf fs).length ≤ sizes.length →
      delivered (runReads S (sizes.map .read) h).1 = dataOf fs := by
  have hh : Honest S fs h := by
    refine ⟨hg, hp, ho, hclean, hb, hiv, hc, hsend, fun f hf => ?_⟩
    have := hconf f hf
    unfold Conforms at this
    omega
  obtain ⟨h1, _, h3⟩ := C20_honest S hS fs h hh hu ops
  exact ⟨h1, h3, fun sizes hs he => C20_complete S hS fs h hh hu sizes hs he⟩

/-- A record that does not fit is refused by every call that comes to it. -/
theorem too_large_call (h : RdHalf) (hd : RecordHeader) (rx1 : Rx) (hh : nextRecordHeader h.rx = (.ok hd, rx1))
    (hl : h.rr.buf.length < hd.contentLength) (ho : h.opened = true) (hg : h.Good) (hu : h.unread = []) (op : ROp)
    (hop : op.Fills) : op.run S h = (.err .insufficientSpace, { h with rx := rx1 }) := by
  have h1 : RdHalf.readRecord S h = (.err .insufficientSpace, { h with rx := rx1 }) := by
    unfold RdHalf.readRecord
    rw [C24_too_large S ⟨h.rr, h.rx, h.rks.transcript⟩ hd rx1 hh hl]
  have h2 : RdHalf.readApplicationData S h = (.err .insufficientSpace, { h with rx := rx1 }) := by
    unfold RdHalf.readApplicationData
    rw [M.bind_err h1]
  have h3 : RdHalf.fill S h = (.err .insufficientSpace, { h with rx := rx1 }) := by
    unfold RdHalf.fill
    rw [M.get_bind, if_pos ho]
    unfold RdHalf.fillLoop
    rw [M.get_bind, if_pos ((h.isEmpty_iff hg).2 hu), M.bind_err h2]
  rw [op.run_fills S hop, M.bind_err h3]

/-- **C107, in part** With a read buffer of at most 16640 bytes, a record whose header announces more than TLS allows
(2^14 + 256 bytes) is refused, before its payload is read, by every call that comes to it.  Missing: that it is refused
with any larger buffer (`C107_refuted_large`). -/
theorem C107_refuses_partial (h : RdHalf) (hbuf : h.rr.buf.length ≤ 16640) (hd : RecordHeader) (rx1 : Rx)
    (hh : nextRecordHeader h.rx = (.ok hd, rx1)) (hl : 2 ^ 14 + 256 < hd.contentLength)
    (ho : h.opened = true) (hg : h.Good) (hu : h.unread = []) (op : ROp) (hop : op.Fills) :
    op.run S h = (.err .insufficientSpace, { h with rx := rx1 }) :=
  too_large_call S h hd rx1 hh (by omega) ho hg hu op hop

/-- **C107 is false for larger read buffers** Whatever the suite and the state of the reader: a record with more content
than TLS allows is delivered like any other, if only it fits the buffer. -/
theorem C107_refuted_large (hS : S.Lawful) (content : Bytes) (hlong : 2 ^ 14 + 240 < content.length)
    (hshort : content.length + 17 < 65536) (h : RdHalf) (hg : h.Good) (hp : h.rr.pending = 0) (ho : h.opened = true)
    (hu : h.unread = []) (hclean : h.rx.Clean) (hiv : h.rks.st.iv.length = S.ivLen) (hc : h.rks.st.counter + 1 < 2 ^ 64)
    (hb : h.rx.bytes = Spec.protectAll S h.rks.st.key h.rks.st.iv h.rks.st.counter [⟨23, content, 0⟩])
    (hbuf : content.length + 17 ≤ h.rr.buf.length) :
    ¬ Conforms ⟨23, content, 0⟩ ∧
    delivered (runReads S ((List.replicate content.length 1).map .read) h).1 = content := by
  have hin : (Fragment.inner ⟨23, content, 0⟩).length = content.length + 1 := by simp [Fragment.inner]
  have hdat : dataOf [(⟨23, content, 0⟩ : Fragment)] = content := by simp [dataOf, Fragment.appData]
  refine ⟨fun hcf => ?_, ?_⟩
  · unfold Conforms at hcf
    rw [hin] at hcf
    omega
  · have hh : Honest S [⟨23, content, 0⟩] h := by
      refine ⟨hg, hp, ho, hclean, hb, hiv, hc, ?_, ?_⟩
      · intro f hf
        rw [List.mem_singleton] at hf
        subst hf
        exact .inl rfl
      · intro f hf
        rw [List.mem_singleton] at hf
        subst hf
        rw [hin]
        omega
    have := C20_complete S hS _ h hh hu (List.replicate content.length 1)
      (by intro n hn; rw [List.mem_replicate] at hn; omega) (by rw [hdat]; simp)
    rw [this, hdat]

/-- **C107 is false for smaller read buffers**, those of the example in the documentation (`lib.rs:27`: 16384 bytes)
included: a conforming record with full content and no padding is refused, whatever the suite, and none of it is
delivered. -/
theorem C107_refuted_small (hS : S.Lawful) (content : Bytes) (hfull : content.length = 2 ^ 14) (h : RdHalf) (hg : h.Good)
    (ho : h.opened = true) (hu : h.unread = []) (hclean : h.rx.Clean)
    (hb : h.rx.bytes = Spec.protect S h.rks.st.key h.rks.st.iv h.rks.st.counter ⟨23, content, 0⟩)
    (hbuf : h.rr.buf.length ≤ 2 ^ 14 + 16) (op : ROp) (hop : op.Fills) :
    Conforms ⟨23, content, 0⟩ ∧ (op.run S h).1 = .err .insufficientSpace := by
  have hin : (Fragment.inner ⟨23, content, 0⟩).length = content.length + 1 := by simp [Fragment.inner]
  refine ⟨by unfold Conforms; rw [hin, hfull]; exact Nat.le_refl _, ?_⟩
  obtain ⟨hdr, ct, g1, g2, g3, g4, _⟩ := protect_parts S hS h.rks.st.key h.rks.st.iv h.rks.st.counter ⟨23, content, 0⟩
    (by rw [hin, hfull]; decide)
  rw [g1] at hb
  obtain ⟨k1, _⟩ := headerLoop_clean 6 [] h.rx (by simp) (by simp) hclean
  obtain ⟨rx1, k2, _⟩ := k1 (by rw [hb, List.length_append, g2]; simp)
  have hh : nextRecordHeader h.rx = (.ok ⟨.applicationData, (Fragment.inner ⟨23, content, 0⟩).length + 16, hdr⟩, rx1) := by
    unfold nextRecordHeader
    rw [M.bind_ok k2, hb]
    simp only [List.nil_append, List.length_nil, Nat.sub_zero]
    rw [List.take_append_of_le_length (by omega), List.take_of_length_le (by omega), g4]
    rfl
  rw [too_large_call S h _ rx1 hh (by simp only; rw [hin, hfull]; omega) ho hg hu op hop]

/-! ## C108 -/

/-- `n` times: write the bytes `bs`, and flush. -/
def writeFlush (bs : Bytes) : Nat → List WOp
  | 0 => []
  | n + 1 => .write bs :: .flush :: writeFlush bs n

/-- What the transport sees then: records `seq`, `seq + 1`, ... under one key, each flushed. -/
def flushedRecords (key iv bs : Bytes) : Nat → Nat → List OutEv
  | _, 0 => []
  | seq, n + 1 => .wrote (Spec.ciphertextRecord S key iv seq 23 bs) :: .flushed :: flushedRecords key iv bs (seq + 1) n

theorem writeFlush_run (key iv : Bytes) (limit : Nat) (bs : Bytes) (hl : bs.length < limit) (n : Nat) :
    ∀ (seq : Nat) (a : List OutCtl), (∀ c ∈ a, c = .ok) → seq + n < 2 ^ 64 →
    ∃ a', WriteCall.runAll S key iv limit true ((writeFlush bs n).map WOp.spec) ⟨none, seq, .strict⟩ a =
      ((List.replicate n [.ok bs.length, .ok 0]).flatten, flushedRecords S key iv bs seq n, ⟨none, seq + n, .strict⟩, a') := by
  induction n with
  | zero => intro seq a _ _; exact ⟨a, rfl⟩
  | succ n ih =>
    intro seq a ha hn
    have hw : WriteCall.run S key iv limit true (.write bs) ⟨none, seq, .strict⟩ a =
        ⟨.ok bs.length, [], ⟨some bs, seq, .strict⟩, a⟩ := by
      have ht : Writer.takes limit ⟨none, seq, .strict⟩ bs = bs.length := by
        simp only [Writer.takes, Option.getD_none, List.length_nil]; omega
      simp only [WriteCall.run, Writer.write, if_true, ht, Writer.add, Option.getD_none, List.length_nil, List.nil_append]
      rw [if_neg (by omega), List.take_of_length_le (Nat.le_refl _)]
    have hans : ∀ a : List OutCtl, (∀ c ∈ a, c = .ok) → ∃ a', Spec.answer a = (none, a') ∧ ∀ c ∈ a', c = .ok := by
      intro a ha
      match a with
      | [] => exact ⟨[], rfl, by simp⟩
      | .ok :: r => exact ⟨r, rfl, fun c hc => ha c (by simp [hc])⟩
      | .fail k m :: r => exact absurd (ha (.fail k m) (by simp)) (by simp)
    obtain ⟨a1, e1, ha1⟩ := hans a ha
    obtain ⟨a2, e2, ha2⟩ := hans a1 ha1
    have hf : WriteCall.run S key iv limit true .flush ⟨some bs, seq, .strict⟩ a =
        ⟨.ok 0, [.wrote (Spec.ciphertextRecord S key iv seq 23 bs), .flushed], ⟨none, seq + 1, .strict⟩, a2⟩ := by
      simp only [WriteCall.run, Writer.flush, Spec.send, e1]
      rw [if_pos (by omega)]
      simp only [Spec.settle, beq_self_eq_true, if_true, e2]
    obtain ⟨a', hr⟩ := ih (seq + 1) a2 ha2 (by omega)
    refine ⟨a', ?_⟩
    simp only [writeFlush, List.map_cons, WOp.spec, WriteCall.runAll]
    rw [hw]
    simp only
    rw [hf]
    simp only
    rw [hr]
    simp [flushedRecords, List.replicate_succ, Nat.add_comm 1, Nat.add_assoc]

theorem flushedRecords_count (key iv bs : Bytes) (n : Nat) : ∀ seq,
    wrote (flushedRecords S key iv bs seq n) = (List.range n).map fun i => Spec.ciphertextRecord S key iv (seq + i) 23 bs := by
  induction n with
  | zero => intro seq; rfl
  | succ n ih =>
    intro seq
    simp only [flushedRecords, wrote]
    rw [ih (seq + 1), List.range_succ_eq_map]
    simp [Function.comp_def, Nat.add_assoc, Nat.add_comm 1]

/-- **C108 is false** A connection made with `new` whose `open` succeeds, over a transport that does not fail: for every
number `n` of records below 2^64 — far beyond what RFC 8446 5.5 allows for AES-GCM (2^24.5) — `n` writes and flushes all
succeed and send `n` records under the one application key of the client; no `KeyUpdate` is ever sent. -/
theorem C108_refuted {V : Type} (hS : S.Lawful) (cfg : Config) (p : Provider V) (v : V) {rx : Rx} {tx : Tx} {rb wb : Bytes}
    {c c' : Conn} (hn : Conn.new S rx tx rb wb = .ok c) (hsize : 135 ≤ wb.length)
    (h : Conn.open_ S cfg p v c = (.ok (), c')) (hrel : Reliable c'.tx) (b : UInt8) (n : Nat) (hlt : n < 2 ^ 64) :
    (∀ r ∈ (runOps S (writeFlush [b] n) c'.wr).1, ∃ k, r = .ok k) ∧
    ∃ evs, (runOps S (writeFlush [b] n) c'.wr).2.tx.log = c'.tx.log ++ evs ∧
      wrote evs = (List.range n).map fun i => Spec.ciphertextRecord S c'.ks.client.st.key c'.ks.client.st.iv i 23 [b] := by
  have his := open_is S hS cfg p v hn (by omega) h
  obtain ⟨g1, g2, _⟩ := C78_writer S hS.sized (writeFlush [b] n) c'.wr _ his
  have hopen : c'.wr.opened = true := (open_reader S hS cfg p v hn h).2.2.2.2.2.2
  have hwl : c'.wr.wb.buffer.length = wb.length := by
    obtain ⟨hf, -, -, -, hwb, -, -⟩ := Conn.new_parts S hn
    obtain ⟨w, hd⟩ := open_describes S hS cfg p v hf h
    show c'.wb.buffer.length = _
    rw [hd.writer.2, hwb]
  obtain ⟨a', hr⟩ := writeFlush_run S c'.wr.wks.st.key c'.wr.wks.st.iv (c'.wr.wb.buffer.length - 133) [b]
    (by rw [hwl]; simp; omega) n 0 c'.wr.tx.ctl hrel (by omega)
  rw [hopen, hr] at g1 g2
  refine ⟨?_, _, congrArg Tx.log g2, ?_⟩
  · intro r hr'
    rw [g1] at hr'
    simp only [List.mem_flatten, List.mem_replicate] at hr'
    obtain ⟨l, ⟨_, rfl⟩, hl⟩ := hr'
    simp only [List.mem_cons, List.not_mem_nil, or_false] at hl
    rcases hl with rfl | rfl
    · exact ⟨_, rfl⟩
    · exact ⟨_, rfl⟩
  · simp only
    rw [flushedRecords_count]
    simp only [Nat.zero_add]
    rfl

/-- A call that does not panic counts the complete records it sends. -/
theorem counted_run (key iv : Bytes) (limit : Nat) (opened : Bool) (c : WriteCall) (x : Writer) (a : List OutCtl)
    (hx : x.seq < 2 ^ 64) (hp : (c.run S key iv limit opened x a).result ≠ .panic) :
    (c.run S key iv limit opened x a).writer.seq = x.seq + (wrote (c.run S key iv limit opened x a).events).length ∧
    (c.run S key iv limit opened x a).writer.seq < 2 ^ 64 := by
  have hsend : ∀ (rec : Bytes) (fl : Bool) (y : Writer), y.seq < 2 ^ 64 → (Spec.send rec fl y a).result ≠ .panic →
      (Spec.send rec fl y a).writer.seq = y.seq + (wrote (Spec.send rec fl y a).events).length ∧
      (Spec.send rec fl y a).writer.seq < 2 ^ 64 := by
    intro rec fl y hy hnp
    unfold Spec.send at hnp ⊢
    generalize Spec.answer a = x at hnp ⊢
    rcases x with ⟨_ | ⟨k, n⟩, r⟩
    · simp only at hnp ⊢
      by_cases hlt : y.seq + 1 < 2 ^ 64
      · rw [if_pos hlt]
        unfold Spec.settle
        split
        · rcases Spec.answer r with ⟨_ | ⟨k, n⟩, r'⟩
          · exact ⟨rfl, hlt⟩
          · exact ⟨rfl, hlt⟩
        · exact ⟨rfl, hlt⟩
      · rw [if_neg hlt] at hnp
        exact absurd rfl hnp
    · exact ⟨rfl, hy⟩
  have hflush : ∀ y : Writer, y.seq < 2 ^ 64 → (y.flush S key iv a).result ≠ .panic →
      (y.flush S key iv a).writer.seq = y.seq + (wrote (y.flush S key iv a).events).length ∧
      (y.flush S key iv a).writer.seq < 2 ^ 64 := by
    intro y hy hnp
    unfold Writer.flush at hnp ⊢
    split at hnp
    · exact ⟨rfl, hy⟩
    · exact hsend _ _ _ hy hnp
  cases c with
  | setFlushPolicy p => exact ⟨rfl, hx⟩
  | flush => exact hflush x hx hp
  | write bs =>
    simp only [WriteCall.run] at hp ⊢
    unfold Writer.write at hp ⊢
    split
    · split
      · rename_i ho hl
        rw [if_pos ho, if_pos hl] at hp
        refine hflush (x.add limit bs) hx fun h => hp ?_
        simp only
        rw [h]
        rfl
      · exact ⟨rfl, hx⟩
    · exact ⟨rfl, hx⟩

theorem counted_all (key iv : Bytes) (limit : Nat) (opened : Bool) (cs : List WriteCall) : ∀ (x : Writer) (a : List OutCtl),
    x.seq < 2 ^ 64 → (∀ r ∈ (WriteCall.runAll S key iv limit opened cs x a).1, r ≠ .panic) →
    x.seq + (wrote (WriteCall.runAll S key iv limit opened cs x a).2.1).length < 2 ^ 64 := by
  induction cs with
  | nil => intro x a hx _; exact hx
  | cons c cs ih =>
    intro x a hx hnp
    simp only [WriteCall.runAll] at hnp ⊢
    obtain ⟨h1, h2⟩ := counted_run S key iv limit opened c x a hx (hnp _ (by simp))
    have h3 := ih _ (c.run S key iv limit opened x a).answers h2 fun r hr => hnp r (by simp [hr])
    rw [wrote_append, List.length_append]
    omega

/-- **C108, in part** Whatever the writing calls and the transport do: as long as no call panics, fewer than 2^64 complete
records are sent under the application key.  Missing: that the key is replaced before the limit of the cipher
(`C108_refuted`). -/
theorem C108_partial {V : Type} (hS : S.Lawful) (cfg : Config) (p : Provider V) (v : V) {rx : Rx} {tx : Tx} {rb wb : Bytes}
    {c c' : Conn} (hn : Conn.new S rx tx rb wb = .ok c) (hsize : 133 ≤ wb.length)
    (h : Conn.open_ S cfg p v c = (.ok (), c')) (ops : List WOp)
    (hnp : ∀ r ∈ (runOps S ops c'.wr).1, r ≠ .panic) :
    ∃ evs, (runOps S ops c'.wr).2.tx.log = c'.tx.log ++ evs ∧ (wrote evs).length < 2 ^ 64 := by
  have his := open_is S hS cfg p v hn hsize h
  obtain ⟨g1, g2, _⟩ := C78_writer S hS.sized ops c'.wr _ his
  refine ⟨_, congrArg Tx.log g2, ?_⟩
  rw [g1] at hnp
  have := counted_all S _ _ _ _ _ _ _ (by simp) hnp
  omega

/-! ## Examples -/

set_option maxRecDepth 20000 in
/-- A case of `C108_refuted` and `C108_partial` (`n = 3`): after an ordinary handshake. -/
example : (exOpened [] []).1 = .ok () ∧ Reliable (exOpened [] []).2.tx ∧
    (runOps toySuite (writeFlush [5] 3) (exOpened [] []).2.wr).1 = [.ok 1, .ok 0, .ok 1, .ok 0, .ok 1, .ok 0] ∧
    (wrote (runOps toySuite (writeFlush [5] 3) (exOpened [] []).2.wr).2.tx.log).length =
      (wrote (exOpened [] []).2.tx.log).length + 3 := by
  refine ⟨by decide +kernel, ?_, by decide +kernel, by decide +kernel⟩
  have : (exOpened [] []).2.tx.ctl = [] := by decide +kernel
  intro c hc
  rw [this] at hc
  simp at hc

/-- The reading half of the examples with a read buffer of `n` bytes. -/
def exSized (n : Nat) (rx : Rx) : RdHalf := { (exConn rx).rd with rr := RR.new (List.replicate n 0) }

theorem exSized_good (n : Nat) (rx : Rx) : (exSized n rx).Good := by
  refine ⟨?_, Nat.zero_le _, Nat.le_refl _⟩
  show (RR.new (List.replicate n 0)).Inv
  unfold RR.Inv RR.new; simp

/-- A case of `C107_accepts` and `C107_refuted_small`: a full record, with read buffers of 16640 and 16384 bytes. -/
example (content : Bytes) (hlen : content.length = 2 ^ 14) :
    let f : Fragment := ⟨23, content, 0⟩
    let rx : Rx := [.data (Spec.protect toySuite (List.replicate 16 3) (List.replicate 12 4) 0 f)]
    delivered (runReads toySuite ((List.replicate (2 ^ 14) 1).map .read) (exSized 16640 rx)).1 = f.content ∧
    (ROp.run toySuite (.read 10) (exSized 16384 rx)).1 = .err .insufficientSpace := by
  intro f rx
  have hdat : dataOf [f] = content := by simp [dataOf, Fragment.appData, f]
  have hclean : rx.Clean := by
    intro x hx
    rw [List.mem_singleton] at hx
    exact ⟨_, by simp [Spec.protect, Spec.ciphertextHeader], hx⟩
  refine ⟨?_, ?_⟩
  · have := (C107_accepts toySuite toySuite_lawful [f] (by
        intro g hg; rw [List.mem_singleton] at hg; subst hg
        simp only [Conforms, Fragment.inner, f, List.length_append, List.length_replicate, hlen, List.length_singleton]
        exact Nat.le_refl _) (by
        intro g hg; rw [List.mem_singleton] at hg; subst hg; exact .inl rfl)
      (exSized 16640 rx) (exSized_good _ _) rfl rfl rfl hclean rfl (show 0 + 1 < 2 ^ 64 by decide) (by
        show Rx.bytes rx = Spec.protect toySuite _ _ 0 f ++ []
        rw [List.append_nil]
        exact List.append_nil _) (by
        show 16640 ≤ (List.replicate 16640 (0 : UInt8)).length
        rw [List.length_replicate]; exact Nat.le_refl _) []).2.2
      (List.replicate (2 ^ 14) 1) (by intro n hn; rw [List.mem_replicate] at hn; omega) (by rw [hdat, List.length_replicate, hlen]; exact Nat.le_refl _)
    rw [this, hdat]
  · refine (C107_refuted_small toySuite toySuite_lawful content hlen (exSized 16384 rx) (exSized_good _ _) rfl rfl hclean
      (List.append_nil _) ?_ (.read 10) (by simp [ROp.Fills])).2
    show (List.replicate 16384 (0 : UInt8)).length ≤ _
    rw [List.length_replicate]
    omega

end ETls
