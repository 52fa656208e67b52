import Verif.Props.Rejoin

/-! # C137: one half is dropped in the middle of a call

C105 says what a dropped call does to its own direction.  Here the other half is used at the same time; the schedule ends while
one task is inside a call (which is then dropped), and the other is between two calls. -/

namespace ETls

variable (S : Suite)

/-- **C137, the reader is dropped** The task with the reader may be anywhere inside a call, that with the writer is between two
calls; then both halves are dropped.  What the writer has returned, the writing direction of the connection and therefore all that
is written later, and its results, are those of a history of calls none of which was dropped. -/
theorem C137_reader_dropped {fr : ROp → Prog RdLoc ROut} {fw : WOp → Prog WrLoc Nat}
    (hr : ∀ op s, Cut s (fr op) s (ROp.prog S op)) (hw : ∀ op s, Cut s (fw op) s (WOp.prog S op)) (c : Conn) (rs : List ROp)
    (ws : List WOp) (hp : ∀ p, .setFlushPolicy p ∉ ws) (sched : List Who)
    (hi : ((Sys.split c rs ws).runWith fr fw sched).wr.cur = none) :
    let x := (Sys.split c rs ws).runWith fr fw sched
    ∃ ops, readerOps ops <+: rs ∧ writerOps ops ++ x.wr.todo = ws ∧ writerOuts (runAny S ops c).1 = x.wr.outs ∧
      (x.join c).wr = (runAny S ops c).2.wr ∧
      ∀ later : List WOp, (runAny S (later.map .writer) (x.join c)).1 = (runAny S (later.map .writer) (runAny S ops c).2).1 ∧
        (runAny S (later.map .writer) (x.join c)).2.wr = (runAny S (later.map .writer) (runAny S ops c).2).2.wr := by
  obtain ⟨lin, -, h⟩ := C135_linearizable S hr hw c rs ws
  obtain ⟨⟨begun, e1, e2, -⟩, -, -, -, -, -, h2⟩ := h sched
  obtain ⟨b1, b2, b3⟩ := h2 hi
  have hk := runAny_keeps S (lin sched) c fun p hm => hp p (by rw [b3]; exact List.mem_append_left _ hm)
  have hj : (((Sys.split c rs ws).runWith fr fw sched).join c).wr = (runAny S (lin sched) c).2.wr := by
    have hf : ((Sys.split c rs ws).runWith fr fw sched).wr.loc.fp = c.fp := by
      have := congrArg WrHalf.fp b2
      exact this.trans hk.1
    rw [← b2]
    exact congrArg (WrHalf.mk _ _ _ _) hf.symm
  refine ⟨lin sched, ?_, b3.symm, b1.symm, hj, ?_⟩
  · rw [e1]; exact e2.trans (List.prefix_append ..)
  · intro later
    generalize ((Sys.split c rs ws).runWith fr fw sched).join c = a at hj
    generalize (runAny S (lin sched) c).2 = b at hj
    clear * - hj
    induction later generalizing a b with
    | nil => exact ⟨rfl, hj⟩
    | cons op later ih =>
      have e : (onWr (op.run S) a).1 = (onWr (op.run S) b).1 := by
        show (op.run S a.wr).1 = (op.run S b.wr).1
        rw [hj]
      have e' : (onWr (op.run S) a).2.wr = (onWr (op.run S) b).2.wr := by
        show (op.run S a.wr).2 = (op.run S b.wr).2
        rw [hj]
      obtain ⟨i1, i2⟩ := ih _ _ e'
      exact ⟨congrArg₂ List.cons (congrArg AnyOut.wrote e) i1, i2⟩

/-- **C137, the writer is dropped** The same for the reading direction. -/
theorem C137_writer_dropped {fr : ROp → Prog RdLoc ROut} {fw : WOp → Prog WrLoc Nat}
    (hr : ∀ op s, Cut s (fr op) s (ROp.prog S op)) (hw : ∀ op s, Cut s (fw op) s (WOp.prog S op)) (c : Conn) (rs : List ROp)
    (ws : List WOp) (sched : List Who) (hi : ((Sys.split c rs ws).runWith fr fw sched).rd.cur = none) :
    let x := (Sys.split c rs ws).runWith fr fw sched
    ∃ ops, readerOps ops ++ x.rd.todo = rs ∧ writerOps ops <+: ws ∧ readerOuts (runAny S ops c).1 = x.rd.outs ∧
      (x.join c).rd = (runAny S ops c).2.rd ∧
      ∀ later : List ROp, (runAny S (later.map .reader) (x.join c)).1 = (runAny S (later.map .reader) (runAny S ops c).2).1 ∧
        (runAny S (later.map .reader) (x.join c)).2.rd = (runAny S (later.map .reader) (runAny S ops c).2).2.rd := by
  obtain ⟨lin, -, h⟩ := C135_linearizable S hr hw c rs ws
  obtain ⟨-, ⟨begun, e1, e2, -⟩, -, -, -, h1, -⟩ := h sched
  obtain ⟨b1, b2, b3⟩ := h1 hi
  have hj : (((Sys.split c rs ws).runWith fr fw sched).join c).rd = (runAny S (lin sched) c).2.rd := by
    rw [← b2]
    rfl
  refine ⟨lin sched, b3.symm, ?_, b1.symm, hj, ?_⟩
  · rw [e1]; exact e2.trans (List.prefix_append ..)
  · intro later
    generalize ((Sys.split c rs ws).runWith fr fw sched).join c = a at hj
    generalize (runAny S (lin sched) c).2 = b at hj
    clear * - hj
    induction later generalizing a b with
    | nil => exact ⟨rfl, hj⟩
    | cons op later ih =>
      have e : (onRd (op.run S) a).1 = (onRd (op.run S) b).1 := by
        show (op.run S a.rd).1 = (op.run S b.rd).1
        rw [hj]
      have e' : (onRd (op.run S) a).2.rd = (onRd (op.run S) b).2.rd := by
        show (op.run S a.rd).2 = (op.run S b.rd).2
        rw [hj]
      obtain ⟨i1, i2⟩ := ih _ _ e'
      exact ⟨congrArg₂ List.cons (congrArg AnyOut.read e) i1, i2⟩

/-- **C137, nothing written is lost** After a successful `open`, over a transport that does not fail: the reader is dropped
anywhere inside a call while the writer is between two calls, and the connection, still open, is closed.  `close` succeeds, all the
data that the writer has accepted is sent, protected and in order, then one protected `close_notify`. -/
theorem C137_close {V : Type} {fr : ROp → Prog RdLoc ROut} {fw : WOp → Prog WrLoc Nat}
    (hr : ∀ op s, Cut s (fr op) s (ROp.prog S op)) (hw : ∀ op s, Cut s (fw op) s (WOp.prog S op)) (hS : S.Lawful) (cfg : Config)
    (p : Provider V) (hp : p.random.length = 32) (v : V) {rx : Rx} {tx : Tx} {rb wb : Bytes} {c c' : Conn}
    (hn : Conn.new S rx tx rb wb = .ok c) (h : Conn.open_ S cfg p v c = (.ok (), c')) (ht : Reliable c'.tx) (rs : List ROp)
    (ws : List WOp) (hws : ∀ p, .setFlushPolicy p ∉ ws) (hl : rs.length + ws.length + 2 < 2 ^ 64) (sched : List Who)
    (hi : ((Sys.split c' rs ws).runWith fr fw sched).wr.cur = none) (ho : ((Sys.split c' rs ws).runWith fr fw sched).flag = true) :
    let x := (Sys.split c' rs ws).runWith fr fw sched
    ∃ (done : List WOp) (evs : List OutEv) (sent : List Bytes), done ++ x.wr.todo = ws ∧ (Conn.close S (x.join c')).1 = .ok () ∧
      (Conn.close S (x.join c')).2.tx.log = c'.tx.log ++ evs ∧ evs.getLast? = some .flushed ∧
      wrote evs = Spec.ciphertextRecords S c'.ks.client.st.key c'.ks.client.st.iv 0
        (sent.map (fun x => (23, x)) ++ [(21, Spec.alertMsg 1 0)]) ∧
      sent.flatten = accepted done x.wr.outs := by
  obtain ⟨ops, h1, h2, h3, h4, -⟩ := C137_reader_dropped S hr hw c' rs ws hws sched hi
  have e : ∀ ops : List AnyOp, ops.length = (readerOps ops).length + (writerOps ops).length := by
    intro ops
    induction ops with
    | nil => rfl
    | cons o ops ih => cases o <;> simp only [readerOps, writerOps, List.length_cons, ih] <;> omega
  have hlen : ops.length + 2 < 2 ^ 64 := by
    have a := h1.length_le
    have b := congrArg List.length h2
    rw [List.length_append] at b
    rw [e ops]
    omega
  obtain ⟨hf, _, _, _, hwb, _⟩ := Conn.new_parts S hn
  obtain ⟨g1, g2, g3, _, g5⟩ := open_leaves S hS cfg p hp v hf h
  obtain ⟨content, e1, s1, i⟩ := any_writes S hS ops c' []
    ⟨.idle g1, by show 133 ≤ c'.wb.buffer.length; omega, g3⟩ (by omega)
  obtain ⟨k1, k2⟩ := i.accepts ht
  have hcnt := i.counter
  have hle := i.sentLe
  intro x
  have hx : (x.join c').wr = (runAny S ops c').2.wr := h4
  have hks : (x.join c').ks.client = (runAny S ops c').2.ks.client := congrArg WrHalf.wks hx
  have htx : (x.join c').tx = (runAny S ops c').2.tx := congrArg WrHalf.tx hx
  obtain ⟨e2, s2, m1, m2, m3, m4, m5, -⟩ := close_run S hS (x.join c') content (by rw [hx]; exact i.ready) ho
    (by rw [htx]; exact k1) (by rw [hks]; omega)
  rw [htx] at m2
  rw [hks] at m5
  refine ⟨writerOps ops, e1 ++ e2, s1 ++ s2, h2, m1, ?_, ?_, ?_, ?_⟩
  · rw [m2, i.log, List.append_assoc]
  · rw [List.getLast?_append, m4]; rfl
  · rw [wrote_append, i.wrote, m5, i.key, i.iv, hcnt, g5, List.map_append, List.append_assoc,
      ciphertextRecords_append S _ _ _ (s1.map _), List.length_map]
  · rw [List.flatten_append, m3, ← h3, ← k2, List.nil_append]

/-! ## Examples -/

set_option maxRecDepth 100000 in
/-- The hypotheses of `C137_reader_dropped` and `C137_close` hold for a reader dropped in the middle of a record's header. -/
example :
    let x := (Sys.split exSplit0 [.read 10] [.write [1], .flush, .write [2]]).runWith (Fine.reader toySuite) (Fine.writer toySuite)
      (List.replicate 6 .reader ++ List.replicate 40 .writer)
    x.rd.cur.isSome ∧ x.rd.loc.rx ≠ exSplit0.rx ∧ x.wr.cur.isNone ∧ x.flag = true ∧ x.wr.outs = [.ok 1, .ok 0, .ok 1] := by
  decide +kernel

/-- Those of `C137_writer_dropped` for a writer dropped after it has sent a record and before it has counted it. -/
example :
    let x := (Sys.split exClosing [.read 10] [.write [1], .flush, .write [2]]).runWith (Fine.reader toySuite)
      (Fine.writer toySuite) (List.replicate 12 .writer ++ List.replicate 20 .reader)
    x.rd.cur.isNone ∧ x.wr.cur.isSome ∧ x.wr.loc.tx.log.length = 1 ∧ x.wr.loc.wks.st.counter = 0 ∧
      x.rd.outs = [.err .connectionClosed] := by
  decide +kernel

end ETls
