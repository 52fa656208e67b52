import Verif.Props.FineGrain

/-! # C136: the connection after the halves

`split` only borrows the connection (`asynch.rs:273-302`, `blocking.rs:263-290`): when both halves are dropped, the connection can
be used again, split again, or closed. -/

namespace ETls

variable (S : Suite)

/-- The connection `c` after the halves of it in `x` are dropped.  The flush policy of the writer is a copy
(`asynch.rs:298`). -/
def Sys.join (x : Sys) (c : Conn) : Conn where
  rx := x.rd.loc.rx
  tx := x.wr.loc.tx
  opened := x.flag
  ks := ⟨c.ks.shared, x.wr.loc.wks, x.rd.loc.rks⟩
  rr := x.rd.loc.rr
  wb := x.wr.loc.wb
  dec := x.rd.loc.dec
  fp := c.fp

theorem Sys.join_opened (x : Sys) (c : Conn) : (x.join c).opened = x.flag := rfl

/-- A time during which the connection is split: the calls of the two halves and the interleaving of their steps. -/
structure Round where
  reads : List ROp
  writes : List WOp
  sched : List Who

/-- The halves at the end of it. -/
def Round.sys (fr : ROp → Prog RdLoc ROut) (fw : WOp → Prog WrLoc Nat) (r : Round) (c : Conn) : Sys :=
  (Sys.split c r.reads r.writes).runWith fr fw r.sched

/-- Both halves have returned from all their calls, and the writer has not been asked to change its policy (it has no method for
that). -/
def Round.Over (fr : ROp → Prog RdLoc ROut) (fw : WOp → Prog WrLoc Nat) (r : Round) (c : Conn) : Prop :=
  (r.sys fr fw c).rd.Done r.reads.length ∧ (r.sys fr fw c).wr.Done r.writes.length ∧ ∀ p, .setFlushPolicy p ∉ r.writes

/-- Any number of such times, one after the other; what the reading and the writing calls have returned. -/
inductive Rounds (fr : ROp → Prog RdLoc ROut) (fw : WOp → Prog WrLoc Nat) :
    List Round → Conn → List (Res TlsError ROut) → List (Res TlsError Nat) → Conn → Prop
  | nil (c : Conn) : Rounds fr fw [] c [] [] c
  | cons (r : Round) (rs : List Round) (c c' : Conn) (os : List (Res TlsError ROut)) (ns : List (Res TlsError Nat))
      (ho : r.Over fr fw c) (h : Rounds fr fw rs ((r.sys fr fw c).join c) os ns c') :
      Rounds fr fw (r :: rs) c ((r.sys fr fw c).rd.outs ++ os) ((r.sys fr fw c).wr.outs ++ ns) c'

/-! ## Calls keep the policy and the shared secrets -/

def KeepsFp {α : Type} (m : M TlsError WrHalf α) : Prop := ∀ w, (m w).2.fp = w.fp

theorem KeepsFp.bind {α β : Type} {m : M TlsError WrHalf α} {g : α → M TlsError WrHalf β} (hm : KeepsFp m)
    (hg : ∀ a, KeepsFp (g a)) : KeepsFp (m >>= g) := by
  intro w
  rcases h : m w with ⟨r, w1⟩
  have e : w1.fp = w.fp := by have := hm w; rw [h] at this; exact this
  cases r with
  | ok a => rw [M.bind_ok h, hg a w1, e]
  | err x => rw [M.bind_err h]; exact e
  | panic => rw [M.bind_panic h]; exact e

theorem KeepsFp.get {α : Type} {g : WrHalf → M TlsError WrHalf α} (hg : ∀ a, KeepsFp (g a)) : KeepsFp (M.get >>= g) := by
  intro w
  rw [M.get_bind]
  exact hg w w

theorem KeepsFp.ite {α : Type} {b : Prop} [Decidable b] {m n : M TlsError WrHalf α} (hm : KeepsFp m) (hn : KeepsFp n) :
    KeepsFp (if b then m else n) := by
  split <;> assumption

theorem KeepsFp.pure {α : Type} (a : α) : KeepsFp (Pure.pure a : M TlsError WrHalf α) := fun _ => rfl
theorem KeepsFp.onWb {α : Type} (m : M TlsError WB α) : KeepsFp (WrHalf.onWb m) := fun _ => rfl
theorem KeepsFp.onTx {α : Type} (m : M TlsError Tx α) : KeepsFp (WrHalf.onTx m) := fun _ => rfl

theorem KeepsFp.flush : KeepsFp (WrHalf.flush S) :=
  .get fun _ => .ite (.pure _) <| (KeepsFp.onWb _).bind fun _ => (KeepsFp.onTx _).bind fun _ =>
    KeepsFp.bind (fun _ => rfl) fun _ => .ite (.onTx _) (.pure _)

theorem KeepsFp.write (bs : Bytes) : KeepsFp (WrHalf.write S bs) := by
  refine .get fun _ => .ite (KeepsFp.bind ?_ fun _ => (KeepsFp.onWb _).bind fun _ => (KeepsFp.onWb _).bind fun _ =>
    KeepsFp.bind ?_ fun _ => .pure _) fun _ => rfl
  · exact .get fun _ => .ite (.pure _) ((KeepsFp.flush S).bind fun _ => .onWb _)
  · exact .ite (.flush S) (.pure _)

theorem runAny_keeps (ops : List AnyOp) : ∀ c : Conn, (∀ p, .setFlushPolicy p ∉ writerOps ops) →
    (runAny S ops c).2.fp = c.fp ∧ (runAny S ops c).2.ks.shared = c.ks.shared := by
  induction ops with
  | nil => intro c _; exact ⟨rfl, rfl⟩
  | cons op ops ih =>
    intro c h
    cases op with
    | reader op =>
      obtain ⟨a, b⟩ := ih (AnyOp.run S (.reader op) c).2 h
      exact ⟨a, b⟩
    | writer op =>
      obtain ⟨a, b⟩ := ih (AnyOp.run S (.writer op) c).2 fun p hp => h p (List.mem_cons_of_mem _ hp)
      refine ⟨a.trans ?_, b⟩
      cases op with
      | write bs => exact KeepsFp.write S bs c.wr
      | flush => exact (KeepsFp.flush S).bind (fun _ => KeepsFp.pure 0) c.wr
      | setFlushPolicy p => exact absurd (List.mem_cons_self ..) (h p)

theorem runAny_append (a b : List AnyOp) : ∀ c : Conn, runAny S (a ++ b) c =
    ((runAny S a c).1 ++ (runAny S b (runAny S a c).2).1, (runAny S b (runAny S a c).2).2) := by
  induction a with
  | nil => intro c; rfl
  | cons op a ih => intro c; simp only [List.cons_append, runAny, ih]

/-- **C136** A connection is split any number of times, each time its halves are driven by two tasks (or threads), interrupted
anywhere, and dropped when they have returned from their calls.  Then the calls have returned what they return if one task makes
them in a certain order, and the connection is what it is after them: so is everything done with it later. -/
theorem C136_rejoin {fr : ROp → Prog RdLoc ROut} {fw : WOp → Prog WrLoc Nat}
    (hr : ∀ op s, Cut s (fr op) s (ROp.prog S op)) (hw : ∀ op s, Cut s (fw op) s (WOp.prog S op)) {rounds : List Round} {c c' : Conn}
    {os : List (Res TlsError ROut)} {ns : List (Res TlsError Nat)} (h : Rounds fr fw rounds c os ns c') :
    ∃ ops, readerOps ops = rounds.flatMap Round.reads ∧ writerOps ops = rounds.flatMap Round.writes ∧
      readerOuts (runAny S ops c).1 = os ∧ writerOuts (runAny S ops c).1 = ns ∧ (runAny S ops c).2 = c' := by
  induction h with
  | nil c => exact ⟨[], rfl, rfl, rfl, rfl, rfl⟩
  | cons r rs c c' os ns ho h ih =>
    obtain ⟨ops2, b1, b2, b3, b4, b5⟩ := ih
    obtain ⟨ops, a1, a2, a3, a4, a5, a6⟩ := C135_history S hr hw c r.reads r.writes r.sched ho.1 ho.2.1
    have hj : (runAny S ops c).2 = (r.sys fr fw c).join c := by
      obtain ⟨k1, k2⟩ := runAny_keeps S ops c (by rw [a2]; exact ho.2.2)
      generalize (runAny S ops c).2 = y at *
      obtain ⟨rx, tx, o, ⟨sh, cl, se⟩, rr, wb, dec, fp⟩ := y
      simp only [Conn.rd, RdLoc.half, RdHalf.mk.injEq] at a5
      simp only [Conn.wr, WrLoc.half, WrHalf.mk.injEq] at a6
      obtain ⟨e1, e2, e3, e4, e5⟩ := a5
      obtain ⟨f1, f2, f3, f4, f5⟩ := a6
      dsimp only at k1 k2
      subst e1 e2 e3 e4 e5 f1 f3 f4 k1 k2
      rfl
    refine ⟨ops ++ ops2, ?_, ?_, ?_, ?_, ?_⟩
    · rw [readerOps_append, a1, b1, List.flatMap_cons]
    · rw [writerOps_append, a2, b2, List.flatMap_cons]
    · rw [runAny_append, readerOuts_append, a3, hj, b3]; rfl
    · rw [runAny_append, writerOuts_append, a4, hj, b4]; rfl
    · rw [runAny_append, hj, b5]

/-- **C136, the end** A connection that was opened, split and used in that way any number of times, is still open, and whose
transport does not fail: `close` succeeds; after the handshake exactly the data accepted by the `write` calls of all the writers
was sent, in the order of these calls, protected, and then one protected `close_notify`; the transport was flushed last. -/
theorem C136_close {V : Type} {fr : ROp → Prog RdLoc ROut} {fw : WOp → Prog WrLoc Nat}
    (hr : ∀ op s, Cut s (fr op) s (ROp.prog S op)) (hw : ∀ op s, Cut s (fw op) s (WOp.prog S op)) (hS : S.Lawful) (cfg : Config)
    (p : Provider V) (hp : p.random.length = 32) (v : V) {rx : Rx} {tx : Tx} {rb wb : Bytes} {c c' : Conn}
    (hn : Conn.new S rx tx rb wb = .ok c) (h : Conn.open_ S cfg p v c = (.ok (), c')) (ht : Reliable c'.tx) {rounds : List Round}
    (hl : (rounds.flatMap Round.reads).length + (rounds.flatMap Round.writes).length + 2 < 2 ^ 64)
    {os : List (Res TlsError ROut)} {ns : List (Res TlsError Nat)} {d : Conn} (hd : Rounds fr fw rounds c' os ns d)
    (ho : d.opened = true) :
    ∃ (evs : List OutEv) (sent : List Bytes), (Conn.close S d).1 = .ok () ∧
      (Conn.close S d).2.tx.log = c'.tx.log ++ evs ∧ evs.getLast? = some .flushed ∧
      wrote evs = Spec.ciphertextRecords S c'.ks.client.st.key c'.ks.client.st.iv 0
        (sent.map (fun x => (23, x)) ++ [(21, Spec.alertMsg 1 0)]) ∧
      (∀ x ∈ sent, x.length + 133 ≤ wb.length) ∧ sent.flatten = accepted (rounds.flatMap Round.writes) ns := by
  obtain ⟨ops, h1, h2, -, h4, rfl⟩ := C136_rejoin S hr hw hd
  have e : ∀ ops : List AnyOp, ops.length = (readerOps ops).length + (writerOps ops).length := by
    intro ops
    induction ops with
    | nil => rfl
    | cons o ops ih => cases o <;> simp only [readerOps, writerOps, List.length_cons, ih] <;> omega
  have := C16_whole_partial S hS cfg p hp v hn h ht ops (by rw [e ops, h1, h2]; exact hl) ho
  rwa [h2, h4] at this

/-! ## Examples -/

/-- Two rounds: in the first the reader makes no call that waits, in the second it reads data while the writer is in the middle
of a call. -/
def exRound1 : Round :=
  ⟨[.read 0], [.write [1], .flush], List.replicate 6 .writer ++ List.replicate 5 .reader ++ List.replicate 20 .writer⟩
def exRound2 : Round :=
  ⟨[.read 10], [.write [2]], List.replicate 3 .writer ++ List.replicate 30 .reader ++ List.replicate 20 .writer⟩

/-- The connection in the examples: opened, with one record waiting. -/
def exSplit0 : Conn := (exOpened [] [.data (exApp 0 ⟨23, [7, 8], 2⟩)]).2
/-- ... after the first round, ... -/
def exSplit1 : Conn := (exRound1.sys (Fine.reader toySuite) (Fine.writer toySuite) exSplit0).join exSplit0
/-- ... and after the second. -/
def exSplit2 : Conn := (exRound2.sys (Fine.reader toySuite) (Fine.writer toySuite) exSplit1).join exSplit1

set_option maxRecDepth 100000 in
/-- The hypotheses of `C136_rejoin` and `C136_close` hold for them; what the calls return. -/
example : Rounds (Fine.reader toySuite) (Fine.writer toySuite) [exRound1, exRound2] exSplit0
      [.ok ⟨[], [[]], []⟩, .ok ⟨[7, 8], [[7, 8]], [7, 8]⟩] [.ok 1, .ok 0, .ok 1] exSplit2 ∧
    exSplit2.opened = true ∧ Reliable exSplit0.tx := by
  have k1 : let x := exRound1.sys (Fine.reader toySuite) (Fine.writer toySuite) exSplit0
      x.rd.cur.isNone ∧ x.rd.todo.isEmpty ∧ x.wr.cur.isNone ∧ x.wr.todo.isEmpty ∧ x.rd.outs = [.ok ⟨[], [[]], []⟩] ∧
        x.wr.outs = [.ok 1, .ok 0] ∧ exSplit0.tx.ctl.isEmpty := by decide +kernel
  have k2 : let x := exRound2.sys (Fine.reader toySuite) (Fine.writer toySuite) exSplit1
      x.rd.cur.isNone ∧ x.rd.todo.isEmpty ∧ x.wr.cur.isNone ∧ x.wr.todo.isEmpty ∧
        x.rd.outs = [.ok ⟨[7, 8], [[7, 8]], [7, 8]⟩] ∧ x.wr.outs = [.ok 1] ∧ x.flag = true := by decide +kernel
  obtain ⟨a1, a2, a3, a4, e1, e2, e0⟩ := k1
  obtain ⟨b1, b2, b3, b4, e3, e4, e5⟩ := k2
  have h1 : exRound1.Over (Fine.reader toySuite) (Fine.writer toySuite) exSplit0 :=
    ⟨⟨Option.isNone_iff_eq_none.1 a1, List.isEmpty_iff.1 a2, by rw [e1]; rfl⟩,
     ⟨Option.isNone_iff_eq_none.1 a3, List.isEmpty_iff.1 a4, by rw [e2]; rfl⟩, fun p hp => by simp [exRound1] at hp⟩
  have h2 : exRound2.Over (Fine.reader toySuite) (Fine.writer toySuite) exSplit1 :=
    ⟨⟨Option.isNone_iff_eq_none.1 b1, List.isEmpty_iff.1 b2, by rw [e3]; rfl⟩,
     ⟨Option.isNone_iff_eq_none.1 b3, List.isEmpty_iff.1 b4, by rw [e4]; rfl⟩, fun p hp => by simp [exRound2] at hp⟩
  have hb : Rounds (Fine.reader toySuite) (Fine.writer toySuite) [exRound2] exSplit1 _ _ exSplit2 :=
    Rounds.cons exRound2 [] exSplit1 exSplit2 [] [] h2 (Rounds.nil _)
  rw [e3, e4] at hb
  have h : Rounds (Fine.reader toySuite) (Fine.writer toySuite) [exRound1, exRound2] exSplit0 _ _ exSplit2 :=
    Rounds.cons exRound1 [exRound2] exSplit0 exSplit2 _ _ h1 hb
  rw [e1, e2] at h
  exact ⟨h, (Sys.join_opened _ _).trans e5, fun c hc => by rw [List.isEmpty_iff.1 e0] at hc; cases hc⟩

end ETls
