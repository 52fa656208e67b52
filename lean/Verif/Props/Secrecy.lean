import Verif.Props.Duplex

/-! # C97: what is written shows on the wire only through its length and the cipher

Two applications make the same calls, except that the slices they write differ in their contents.  Nobody who sees the
results of the calls and the effects on the transport can tell which of the two is running, as far as this crate goes:
the lengths, the record headers, the flushes and every result are the same, and the remaining bytes are the output of
the AEAD alone.  The latter is said by letting the connection continue with an AEAD that ignores the message it is given
(apart from its length): then all effects on the transport are the same. -/

namespace ETls

variable (S : Suite) {V : Type}

open Spec (Writer Wrote WriteCall)

/-! ## The statement -/

/-- The same call, up to the contents of what is written. -/
inductive WOp.Alike : WOp → WOp → Prop where
  | write (bs bs' : Bytes) (h : bs.length = bs'.length) : Alike (.write bs) (.write bs')
  | flush : Alike .flush .flush
  | setFlushPolicy (p : FlushPolicy) : Alike (.setFlushPolicy p) (.setFlushPolicy p)

/-- The same call of either half, up to the contents of what is written. -/
inductive AnyOp.Alike : AnyOp → AnyOp → Prop where
  | reader (op : ROp) : Alike (.reader op) (.reader op)
  | writer (op op' : WOp) (h : op.Alike op') : Alike (.writer op) (.writer op')

/-- Bytes that look the same without a key: as many, and the same record header (the first five). -/
def SameLook (a b : Bytes) : Prop := a.length = b.length ∧ a.take 5 = b.take 5

/-- Effects on the transport that look the same without a key. -/
inductive OutEv.Looks : OutEv → OutEv → Prop where
  | wrote (a b : Bytes) (h : SameLook a b) : Looks (.wrote a) (.wrote b)
  | partialWrite (a b : Bytes) (h : SameLook a b) : Looks (.partialWrite a) (.partialWrite b)
  | flushed : Looks .flushed .flushed
  | flushFailed : Looks .flushFailed .flushFailed

/-- An AEAD whose output depends on the message only through its length. -/
def Suite.Blind : Prop :=
  ∀ k n a p p', p.length = p'.length → S.sealCt k n a p = S.sealCt k n a p' ∧ S.sealTag k n a p = S.sealTag k n a p'

/-- The suite `S` with an AEAD that seals as many zeros instead of the message. -/
def Suite.veiled : Suite :=
  { S with
    sealCt := fun k n a p => S.sealCt k n a (List.replicate p.length 0)
    sealTag := fun k n a p => S.sealTag k n a (List.replicate p.length 0) }

theorem Suite.veiled_blind : S.veiled.Blind := by
  intro k n a p p' h
  simp only [Suite.veiled, h, and_self]

theorem Suite.veiled_sized (hS : S.Sized) : S.veiled.Sized :=
  ⟨hS.ivLen_eq, fun k n a p => by simp only [Suite.veiled, hS.sealCt_length, List.length_replicate],
    fun k n a p => by simp only [Suite.veiled, hS.sealTag_length]⟩

/-! ## The writer -/

/-- Effects that look the same, and are the same if the AEAD is blind. -/
def VeilEv (e e' : OutEv) : Prop := e.Looks e' ∧ (S.Blind → e = e')

/-- Bytes that look the same, and are the same if the AEAD is blind. -/
def VeilEq (a b : Bytes) : Prop := SameLook a b ∧ (S.Blind → a = b)

/-- Writers that differ only in the contents of the record being collected. -/
structure Near (x x' : Writer) : Prop where
  pending : x.pending.map List.length = x'.pending.map List.length
  seq : x.seq = x'.seq
  policy : x.policy = x'.policy

/-- Calls that do the same, up to the contents of records. -/
structure NearDone (y y' : Wrote) : Prop where
  result : y.result = y'.result
  events : List.Forall₂ (VeilEv S) y.events y'.events
  writer : Near y.writer y'.writer
  answers : y.answers = y'.answers

theorem VeilEq.refl (a : Bytes) : VeilEq S a a := ⟨⟨rfl, rfl⟩, fun _ => rfl⟩

theorem VeilEq.take {a b : Bytes} (h : VeilEq S a b) (n : Nat) : VeilEq S (a.take n) (b.take n) := by
  refine ⟨⟨?_, ?_⟩, fun hb => by rw [h.2 hb]⟩
  · rw [List.length_take, List.length_take, h.1.1]
  · rw [List.take_take, List.take_take, Nat.min_comm, ← List.take_take, ← List.take_take, h.1.2]

theorem VeilEq.wrote {a b : Bytes} (h : VeilEq S a b) : VeilEv S (.wrote a) (.wrote b) :=
  ⟨.wrote _ _ h.1, fun hb => by rw [h.2 hb]⟩

theorem VeilEq.partialWrite {a b : Bytes} (h : VeilEq S a b) : VeilEv S (.partialWrite a) (.partialWrite b) :=
  ⟨.partialWrite _ _ h.1, fun hb => by rw [h.2 hb]⟩

theorem veilEv_flushed : VeilEv S .flushed .flushed := ⟨.flushed, fun _ => rfl⟩
theorem veilEv_flushFailed : VeilEv S .flushFailed .flushFailed := ⟨.flushFailed, fun _ => rfl⟩

theorem VeilEv.refl (e : OutEv) : VeilEv S e e := by
  refine ⟨?_, fun _ => rfl⟩
  cases e with
  | wrote => exact .wrote _ _ ⟨rfl, rfl⟩
  | partialWrite => exact .partialWrite _ _ ⟨rfl, rfl⟩
  | flushed => exact .flushed
  | flushFailed => exact .flushFailed

theorem veilEvs_refl (l : List OutEv) : List.Forall₂ (VeilEv S) l l := by
  induction l with
  | nil => exact .nil
  | cons e l ih => exact .cons (VeilEv.refl S e) ih

theorem veilEvs_looks {l l' : List OutEv} (h : List.Forall₂ (VeilEv S) l l') : List.Forall₂ OutEv.Looks l l' :=
  h.imp fun _ _ g => g.1

theorem veilEvs_eq {l l' : List OutEv} (h : List.Forall₂ (VeilEv S) l l') (hb : S.Blind) : l = l' := by
  induction h with
  | nil => rfl
  | cons g _ ih => rw [g.2 hb, ih]

/-- The record protecting contents of the same length. -/
theorem ciphertext_same (hS : S.Sized) (key iv : Bytes) (seq : Nat) (t : UInt8) (c c' : Bytes) (h : c.length = c'.length) :
    VeilEq S (Spec.ciphertextRecord S key iv seq t c) (Spec.ciphertextRecord S key iv seq t c') := by
  have hi : (Spec.innerPlaintext t c).length = (Spec.innerPlaintext t c').length := by
    simp only [Spec.innerPlaintext, List.length_append, h]
  refine ⟨⟨?_, ?_⟩, fun hb => ?_⟩
  · simp only [Spec.ciphertextRecord, Spec.ciphertextHeader, List.length_append, hS.sealCt_length, hS.sealTag_length, hi]
  · have : ∀ d, (Spec.ciphertextHeader d).length = 5 := fun d => rfl
    simp only [Spec.ciphertextRecord, hi]
    rw [List.take_append_of_le_length (Nat.le_of_eq (this _).symm),
      List.take_append_of_le_length (Nat.le_of_eq (this _).symm)]
  · simp only [Spec.ciphertextRecord, hi]
    rw [(hb _ _ _ _ _ hi).1, (hb _ _ _ _ _ hi).2]

theorem settle_near {r r' : Bytes} (hr : VeilEq S r r') (fl : Bool) {x x' : Writer} (hx : Near x x') (a : List OutCtl) :
    NearDone S (Spec.settle r fl x a) (Spec.settle r' fl x' a) := by
  unfold Spec.settle
  cases fl with
  | false => exact ⟨rfl, .cons hr.wrote .nil, hx, rfl⟩
  | true =>
    simp only [if_true]
    rcases Spec.answer a with ⟨_ | ⟨k, n⟩, l⟩
    · exact ⟨rfl, .cons hr.wrote (.cons (veilEv_flushed S) .nil), hx, rfl⟩
    · exact ⟨rfl, .cons hr.wrote (.cons (veilEv_flushFailed S) .nil), hx, rfl⟩

theorem send_near {r r' : Bytes} (hr : VeilEq S r r') (fl : Bool) {x x' : Writer} (hx : Near x x') (a : List OutCtl) :
    NearDone S (Spec.send r fl x a) (Spec.send r' fl x' a) := by
  unfold Spec.send
  rcases Spec.answer a with ⟨_ | ⟨k, n⟩, l⟩
  · simp only
    rw [← hx.seq]
    by_cases hc : x.seq + 1 < 2 ^ 64
    · rw [if_pos hc, if_pos hc]
      have hx1 : Near { x with seq := x.seq + 1 } { x' with seq := x.seq + 1 } := ⟨hx.pending, rfl, hx.policy⟩
      exact settle_near S hr fl hx1 l
    · rw [if_neg hc, if_neg hc]
      exact ⟨rfl, .cons hr.wrote .nil, hx, rfl⟩
  · exact ⟨rfl, .cons (hr.take S n).partialWrite .nil, hx, rfl⟩

theorem flush_near (hS : S.Sized) (key iv : Bytes) {x x' : Writer} (hx : Near x x') (a : List OutCtl) :
    NearDone S (x.flush S key iv a) (x'.flush S key iv a) := by
  obtain ⟨p, s, pol⟩ := x
  obtain ⟨p', s', pol'⟩ := x'
  obtain ⟨h1, h2, h3⟩ := hx
  simp only at h1 h2 h3
  subst h2 h3
  unfold Writer.flush
  rcases p with _ | c <;> rcases p' with _ | c' <;> simp only [Option.map_none, Option.map_some, Option.some.injEq,
    reduceCtorEq] at h1
  · exact ⟨rfl, .nil, ⟨rfl, rfl, rfl⟩, rfl⟩
  · exact send_near S (ciphertext_same S hS key iv s 23 c c' h1) _ ⟨rfl, rfl, rfl⟩ a

theorem Near.getD {x x' : Writer} (h : Near x x') : (x.pending.getD []).length = (x'.pending.getD []).length := by
  have := h.pending
  revert this
  rcases x.pending with _ | c <;> rcases x'.pending with _ | c' <;> simp

theorem write_near (hS : S.Sized) (key iv : Bytes) (limit : Nat) (o : Bool) {x x' : Writer} (hx : Near x x')
    (bs bs' : Bytes) (hb : bs.length = bs'.length) (a : List OutCtl) :
    NearDone S (x.write S key iv limit o bs a) (x'.write S key iv limit o bs' a) := by
  have hg := hx.getD
  have ht : x.takes limit bs = x'.takes limit bs' := by
    unfold Writer.takes
    rw [hg, hb]
  have ha : Near (x.add limit bs) (x'.add limit bs') := by
    refine ⟨?_, hx.seq, hx.policy⟩
    simp only [Writer.add, Option.map_some, List.length_append, List.length_take, hg, ht, hb]
  unfold Writer.write
  cases o with
  | false => exact ⟨rfl, .nil, hx, rfl⟩
  | true =>
    simp only [if_true]
    rw [← hg, ← ht]
    by_cases hf : (x.pending.getD []).length + x.takes limit bs = limit
    · rw [if_pos hf, if_pos hf]
      have h := flush_near S hS key iv ha a
      exact ⟨by simp only [h.result], h.events, h.writer, h.answers⟩
    · rw [if_neg hf, if_neg hf]
      exact ⟨rfl, .nil, ha, rfl⟩

theorem call_near (hS : S.Sized) (key iv : Bytes) (limit : Nat) (o : Bool) {x x' : Writer} (hx : Near x x') {op op' : WOp}
    (h : op.Alike op') (a : List OutCtl) :
    NearDone S (op.spec.run S key iv limit o x a) (op'.spec.run S key iv limit o x' a) := by
  cases h with
  | write bs bs' hb => exact write_near S hS key iv limit o hx bs bs' hb a
  | flush => exact flush_near S hS key iv hx a
  | setFlushPolicy p => exact ⟨rfl, .nil, ⟨hx.pending, hx.seq, rfl⟩, rfl⟩

theorem close_near (hS : S.Sized) (key iv : Bytes) (o : Bool) {x x' : Writer} (hx : Near x x') (a : List OutCtl) :
    NearDone S (x.close S key iv o a) (x'.close S key iv o a) := by
  have h := flush_near S hS key iv hx a
  unfold Writer.close
  generalize x.flush S key iv a = f at h ⊢
  generalize x'.flush S key iv a = f' at h ⊢
  rw [← h.result]
  cases f.result with
  | ok n =>
    simp only
    rw [← h.answers, ← h.writer.seq]
    have hs := send_near S (VeilEq.refl S (Spec.closing S key iv o f.writer.seq)) true h.writer f.answers
    exact ⟨hs.result, List.rel_append h.events hs.events, hs.writer, hs.answers⟩
  | err e => exact h
  | panic => exact h

/-! ## The connection -/

/-- Connections that differ only in what they have collected and sent. -/
structure Conn.Near (c c' : Conn) (x x' : Writer) : Prop where
  is : c.wr.Is S x
  is' : c'.wr.Is S x'
  near : ETls.Near x x'
  rd : c.rd = c'.rd
  key : c.ks.client.st.key = c'.ks.client.st.key
  iv : c.ks.client.st.iv = c'.ks.client.st.iv
  size : c.wb.buffer.length = c'.wb.buffer.length
  ctl : c.tx.ctl = c'.tx.ctl
  log : List.Forall₂ (VeilEv S) c.tx.log c'.tx.log

theorem Conn.Near.refl {c : Conn} {x : Writer} (h : c.wr.Is S x) : c.Near S c x x :=
  ⟨h, h, ⟨rfl, rfl, rfl⟩, rfl, rfl, rfl, rfl, rfl, veilEvs_refl S _⟩

/-- One call of either half. -/
theorem any_near (hS : S.Sized) {c c' : Conn} {x x' : Writer} (hc : c.Near S c' x x') {op op' : AnyOp} (h : op.Alike op') :
    (op.run S c).1 = (op'.run S c').1 ∧ ∃ y y', (op.run S c).2.Near S (op'.run S c').2 y y' := by
  cases h with
  | reader op =>
    have hr : op.run S c.rd = op.run S c'.rd := by rw [hc.rd]
    have hr1 : AnyOut.read (op.run S c.rd).1 = AnyOut.read (op.run S c'.rd).1 := by rw [hr]
    refine ⟨hr1, x, x', ?_⟩
    show (c.setRd (op.run S c.rd).2).Near S (c'.setRd (op.run S c'.rd).2) x x'
    rw [hr]
    generalize (op.run S c'.rd).2 = d
    exact ⟨⟨hc.is.pends, hc.is.seq, hc.is.policy, hc.is.size, hc.is.iv⟩,
      ⟨hc.is'.pends, hc.is'.seq, hc.is'.policy, hc.is'.size, hc.is'.iv⟩, hc.near, rfl, hc.key, hc.iv, hc.size, hc.ctl, hc.log⟩
  | writer op op' hw =>
    have d := wop_does S hS op c.wr x hc.is
    have d' := wop_does S hS op' c'.wr x' hc.is'
    have ho : c.opened = c'.opened := congrArg RdHalf.opened hc.rd
    have hn := call_near S hS c.ks.client.st.key c.ks.client.st.iv (c.wb.buffer.length - 133) c.opened hc.near hw c.tx.ctl
    have e' : op'.spec.run S c'.wr.wks.st.key c'.wr.wks.st.iv (c'.wr.wb.buffer.length - 133) c'.wr.opened x' c'.wr.tx.ctl =
        op'.spec.run S c.ks.client.st.key c.ks.client.st.iv (c.wb.buffer.length - 133) c.opened x' c.tx.ctl := by
      show op'.spec.run S c'.ks.client.st.key c'.ks.client.st.iv (c'.wb.buffer.length - 133) c'.opened x' c'.tx.ctl = _
      rw [hc.key, hc.iv, hc.size, hc.ctl, ho]
    have e : op.spec.run S c.wr.wks.st.key c.wr.wks.st.iv (c.wr.wb.buffer.length - 133) c.wr.opened x c.wr.tx.ctl =
        op.spec.run S c.ks.client.st.key c.ks.client.st.iv (c.wb.buffer.length - 133) c.opened x c.tx.ctl := rfl
    rw [e] at d
    rw [e'] at d'
    generalize op.spec.run S c.ks.client.st.key c.ks.client.st.iv (c.wb.buffer.length - 133) c.opened x c.tx.ctl = y at d hn
    generalize op'.spec.run S c.ks.client.st.key c.ks.client.st.iv (c.wb.buffer.length - 133) c.opened x' c.tx.ctl = y' at d' hn
    refine ⟨?_, y.writer, y'.writer, ?_⟩
    · show AnyOut.wrote (op.run S c.wr).1 = AnyOut.wrote (op'.run S c'.wr).1
      rw [d.result, d'.result, hn.result]
    · show (c.setWr (op.run S c.wr).2).Near S (c'.setWr (op'.run S c'.wr).2) y.writer y'.writer
      have o1 : (op.run S c.wr).2.opened = c.opened := d.opened
      have o2 : (op'.run S c'.wr).2.opened = c'.opened := d'.opened
      have r1 : (c.setWr (op.run S c.wr).2).rd = c.rd := by simp only [Conn.rd, Conn.setWr, o1]
      have r2 : (c'.setWr (op'.run S c'.wr).2).rd = c'.rd := by simp only [Conn.rd, Conn.setWr, o2]
      refine ⟨d.writer, d'.writer, hn.writer, by rw [r1, r2, hc.rd], (d.key.trans hc.key).trans d'.key.symm,
        (d.iv.trans hc.iv).trans d'.iv.symm, (d.size.trans hc.size).trans d'.size.symm, ?_, ?_⟩
      · show (op.run S c.wr).2.tx.ctl = (op'.run S c'.wr).2.tx.ctl
        rw [d.tx, d'.tx]; exact hn.answers
      · show List.Forall₂ _ (op.run S c.wr).2.tx.log (op'.run S c'.wr).2.tx.log
        rw [d.tx, d'.tx]; exact List.rel_append hc.log hn.events

theorem runAny_near (hS : S.Sized) {ops ops' : List AnyOp} (h : List.Forall₂ AnyOp.Alike ops ops') :
    ∀ {c c' : Conn} {x x' : Writer}, c.Near S c' x x' →
      (runAny S ops c).1 = (runAny S ops' c').1 ∧ ∃ y y', (runAny S ops c).2.Near S (runAny S ops' c').2 y y' := by
  induction h with
  | nil => intro c c' x x' hc; exact ⟨rfl, x, x', hc⟩
  | cons ha _ ih =>
    intro c c' x x' hc
    obtain ⟨h1, y, y', h2⟩ := any_near S hS hc ha
    obtain ⟨h3, h4⟩ := ih h2
    refine ⟨?_, h4⟩
    exact List.cons_eq_cons.mpr ⟨h1, h3⟩

/-- What an application and somebody watching the transport see of a history of calls and of `close` after it: the results
of the calls, the effects on the transport, and the same of `close`. -/
structure Seen where
  results : List AnyOut
  effects : List OutEv
  closed : Res TlsError Unit
  closing : List OutEv
deriving DecidableEq

/-- The history `ops` on the connection `c`, as seen. -/
def seen (ops : List AnyOp) (c : Conn) : Seen :=
  ⟨(runAny S ops c).1, (runAny S ops c).2.tx.log, (Conn.close S (runAny S ops c).2).1,
    (Conn.close S (runAny S ops c).2).2.tx.log⟩

/-- Seen without the keys, the two are the same. -/
structure Seen.Looks (a b : Seen) : Prop where
  results : a.results = b.results
  effects : List.Forall₂ OutEv.Looks a.effects b.effects
  closed : a.closed = b.closed
  closing : List.Forall₂ OutEv.Looks a.closing b.closing

theorem seen_near (hS : S.Sized) {ops ops' : List AnyOp} (h : List.Forall₂ AnyOp.Alike ops ops') {c : Conn} {x : Writer}
    (hx : c.wr.Is S x) :
    (seen S ops c).Looks (seen S ops' c) ∧ (S.Blind → seen S ops c = seen S ops' c) := by
  obtain ⟨h1, y, y', h2⟩ := runAny_near S hS h (Conn.Near.refl S hx)
  have d := C78_close S hS _ _ h2.is
  have d' := C78_close S hS _ _ h2.is'
  have ho : (runAny S ops c).2.opened = (runAny S ops' c).2.opened := congrArg RdHalf.opened h2.rd
  rw [← h2.key, ← h2.iv, ← ho, ← h2.ctl] at d'
  have hn := close_near S hS (runAny S ops c).2.ks.client.st.key (runAny S ops c).2.ks.client.st.iv (runAny S ops c).2.opened
    h2.near (runAny S ops c).2.tx.ctl
  have hr : (Conn.close S (runAny S ops c).2).1 = (Conn.close S (runAny S ops' c).2).1 := by
    have : (Conn.close S (runAny S ops c).2).1.map (fun _ => 0) = (Conn.close S (runAny S ops' c).2).1.map fun _ => 0 := by
      rw [d.result, d'.result, hn.result]
    revert this
    rcases (Conn.close S (runAny S ops c).2).1 with _ | _ | _ <;>
      rcases (Conn.close S (runAny S ops' c).2).1 with _ | _ | _ <;> simp [Res.map]
  have hl : List.Forall₂ (VeilEv S) (Conn.close S (runAny S ops c).2).2.tx.log (Conn.close S (runAny S ops' c).2).2.tx.log := by
    have e1 := congrArg Tx.log d.tx
    have e2 := congrArg Tx.log d'.tx
    have e1 : (Conn.close S (runAny S ops c).2).2.tx.log = _ := e1
    have e2 : (Conn.close S (runAny S ops' c).2).2.tx.log = _ := e2
    rw [e1, e2]
    exact List.rel_append h2.log hn.events
  refine ⟨⟨h1, veilEvs_looks S h2.log, hr, veilEvs_looks S hl⟩, fun hb => ?_⟩
  unfold seen
  rw [h1, hr, veilEvs_eq S h2.log hb, veilEvs_eq S hl hb]

/-- The writing half of a connection after a successful `open`. -/
theorem open_is (hS : S.Lawful) (cfg : Config) (p : Provider V) (v : V) {rx : Rx} {tx : Tx} {rb wb : Bytes} {c c' : Conn}
    (hn : Conn.new S rx tx rb wb = .ok c) (hsize : 133 ≤ wb.length) (h : Conn.open_ S cfg p v c = (.ok (), c')) :
    c'.wr.Is S ⟨none, 0, .strict⟩ := by
  obtain ⟨hf, -, -, -, hwb, -, hfp⟩ := Conn.new_parts S hn
  obtain ⟨w, hd⟩ := open_describes S hS cfg p v hf h
  refine ⟨.idle hd.writer.1, ?_, ?_, ?_, ?_⟩
  · show 0 = c'.ks.client.st.counter
    rw [hd.clientKeys]; rfl
  · show FlushPolicy.strict = c'.fp
    rw [hd.rest.2, hfp]
  · show 133 ≤ c'.wb.buffer.length
    rw [hd.writer.2, hwb]; exact hsize
  · show c'.ks.client.st.iv.length = S.ivLen
    rw [hd.clientKeys]; exact trafficState_iv S hS _

/-- **C97, lengths** Two histories of calls that differ only in the contents of the slices written, on a connection after
a successful `open`, whatever the server and the transport do: the same results, and record for record the same header
and length, the same flushes and the same failures; so is what `close` does afterwards. -/
theorem C97_lengths (hS : S.Lawful) (cfg : Config) (p : Provider V) (v : V) {rx : Rx} {tx : Tx} {rb wb : Bytes} {c c' : Conn}
    (hn : Conn.new S rx tx rb wb = .ok c) (hsize : 133 ≤ wb.length) (h : Conn.open_ S cfg p v c = (.ok (), c'))
    {ops ops' : List AnyOp} (ha : List.Forall₂ AnyOp.Alike ops ops') : (seen S ops c').Looks (seen S ops' c') :=
  (seen_near S hS ha (open_is S hS cfg p v hn hsize h)).1

/-- **C97, secrecy** If the connection continues after `open` with an AEAD that ignores the contents of the message (`T`
has the same lengths as `S`, and is otherwise arbitrary), then everything seen is the same: the contents reach the
transport through the AEAD and in no other way. -/
theorem C97_secret (hS : S.Lawful) (cfg : Config) (p : Provider V) (v : V) {rx : Rx} {tx : Tx} {rb wb : Bytes} {c c' : Conn}
    (hn : Conn.new S rx tx rb wb = .ok c) (hsize : 133 ≤ wb.length) (h : Conn.open_ S cfg p v c = (.ok (), c'))
    {ops ops' : List AnyOp} (ha : List.Forall₂ AnyOp.Alike ops ops') (T : Suite) (hT : T.Sized) (hb : T.Blind) :
    seen T ops c' = seen T ops' c' := by
  have hi := open_is S hS cfg p v hn hsize h
  exact (seen_near T hT ha ⟨hi.pends, hi.seq, hi.policy, hi.size, by rw [hi.iv, hS.ivLen_eq, hT.ivLen_eq]⟩).2 hb

/-- **C97** for the suite itself with its AEAD sealing zeros. -/
theorem C97_veiled (hS : S.Lawful) (cfg : Config) (p : Provider V) (v : V) {rx : Rx} {tx : Tx} {rb wb : Bytes} {c c' : Conn}
    (hn : Conn.new S rx tx rb wb = .ok c) (hsize : 133 ≤ wb.length) (h : Conn.open_ S cfg p v c = (.ok (), c'))
    {ops ops' : List AnyOp} (ha : List.Forall₂ AnyOp.Alike ops ops') : seen S.veiled ops c' = seen S.veiled ops' c' :=
  C97_secret S hS cfg p v hn hsize h ha _ (S.veiled_sized hS) S.veiled_blind

/-! ## Examples -/

/-- The connection of the examples after the handshake. -/
def exMinOpen : Conn := (Conn.open_ toySuite exCfg exProv () (exNew 400 [.data (exServer exCfg exSH exMin)])).2

theorem exAlike : List.Forall₂ AnyOp.Alike
    [.writer (.write [1, 2]), .reader (.read 3), .writer .flush, .writer (.write [3])]
    [.writer (.write [8, 9]), .reader (.read 3), .writer .flush, .writer (.write [7])] :=
  .cons (.writer _ _ (.write _ _ rfl)) (.cons (.reader _) (.cons (.writer _ _ .flush)
    (.cons (.writer _ _ (.write _ _ rfl)) .nil)))

-- C97_lengths and C97_veiled: the handshake of the examples, then two applications that write different bytes
set_option maxRecDepth 10000 in
example : (seen toySuite [.writer (.write [1, 2]), .reader (.read 3), .writer .flush, .writer (.write [3])] exMinOpen).Looks
      (seen toySuite [.writer (.write [8, 9]), .reader (.read 3), .writer .flush, .writer (.write [7])] exMinOpen) ∧
    seen toySuite.veiled [.writer (.write [1, 2]), .reader (.read 3), .writer .flush, .writer (.write [3])] exMinOpen =
      seen toySuite.veiled [.writer (.write [8, 9]), .reader (.read 3), .writer .flush, .writer (.write [7])] exMinOpen := by
  rcases hx : Conn.open_ toySuite exCfg exProv () (exNew 400 [.data (exServer exCfg exSH exMin)]) with ⟨r, c'⟩
  have hok := exMin_ok
  rw [hx] at hok
  simp only at hok
  subst hok
  have hc : exMinOpen = c' := by rw [exMinOpen, hx]
  rw [hc]
  exact ⟨C97_lengths toySuite toySuite_lawful exCfg exProv () (exNew_new 400 (by decide) _) (by simp) hx exAlike,
    C97_veiled toySuite toySuite_lawful exCfg exProv () (exNew_new 400 (by decide) _) (by simp) hx exAlike⟩

-- with the AEAD itself what is seen differs, and a slice of another length is seen even with the blind one
set_option maxRecDepth 10000 in
example : seen toySuite [.writer (.write [1, 2])] exMinOpen ≠ seen toySuite [.writer (.write [8, 9])] exMinOpen ∧
    seen toySuite.veiled [.writer (.write [1, 2])] exMinOpen ≠ seen toySuite.veiled [.writer (.write [1, 2, 3])] exMinOpen := by
  decide +kernel

end ETls
