import Verif.Model.Threads
import Verif.Props.Concurrent
import Verif.Props.Blocking

/-! # C134: the two halves of a blocking connection in two threads -/

namespace ETls

variable (S : Suite)

namespace Blk

theorem Reader.record_eq : Reader.record S = RdHalf.readRecord S := by
  unfold Reader.record RdHalf.readRecord
  rw [readRecord_eq]

theorem Reader.leave_eq : Reader.leave = RdLoc.finish := by
  funext ⟨r, b⟩
  cases b <;> rfl

theorem Reader.dataProg_eq : Reader.dataProg S = RdLoc.readApplicationData S := by
  unfold Reader.dataProg RdLoc.readApplicationData
  rw [record_eq, leave_eq]
  rfl

theorem Reader.loopProg_eq (fuel : Nat) : Reader.loopProg S fuel = RdLoc.fillLoop S fuel := by
  induction fuel with
  | zero => rfl
  | succ n ih => simp only [Reader.loopProg, RdLoc.fillLoop, dataProg_eq, ih]

theorem Reader.bufferedProg_eq (ops : List RBufOp) (revert : Bool) : Reader.bufferedProg S ops revert =
    (RdLoc.fill S).bind fun _ => Prog.act (rdOwn (RdHalf.useBuffer ops revert)) := by
  unfold Reader.bufferedProg RdLoc.fill
  simp only [loopProg_eq]

theorem Reader.prog_eq : Reader.prog S = ROp.prog S := by
  funext op
  cases op <;> simp only [Reader.prog, ROp.prog, bufferedProg_eq]

theorem Writer.prog_eq : Writer.prog S = WOp.prog S := by
  funext op
  cases op <;> simp only [Writer.prog, WOp.prog, startRecord_eq, flush_eq, WrHalf.flushIf]

theorem threadStep_eq : threadStep S = Sys.step S := by
  funext x w
  cases w <;> simp only [threadStep, Sys.step, Reader.prog_eq, Writer.prog_eq]

theorem threads_eq (c : Conn) (rs : List ROp) (ws : List WOp) (sched : List Who) :
    threads S c rs ws sched = (Sys.split c rs ws).run S sched := by
  unfold threads Sys.run
  rw [threadStep_eq]
  rfl

end Blk

/-- **C134** Two threads use the two halves of a blocking connection, the calls `rs` in one and `ws` in the other, and their
steps interleave in any way.  At every moment `s` there is an order `lin s` of the calls that have taken effect, which only
grows, contains the calls of each thread in their order, has everything that returned and nothing that has not begun; the
results so far, the flag, and the half of a thread that is between two calls are those of these calls made one after the other
by a single thread. -/
theorem C134_linearizable (c : Conn) (rs : List ROp) (ws : List WOp) :
    ∃ lin : List Who → List AnyOp, (∀ s t, lin s <+: lin (s ++ t)) ∧ ∀ s,
      let x := Blk.threads S c rs ws s
      let q := Blk.halves S (lin s) c
      (∃ begun, rs = begun ++ x.rd.todo ∧ readerOps (lin s) <+: begun ∧ begun.length ≤ x.rd.outs.length + 1) ∧
      (∃ begun, ws = begun ++ x.wr.todo ∧ writerOps (lin s) <+: begun ∧ begun.length ≤ x.wr.outs.length + 1) ∧
      x.rd.outs <+: readerOuts q.1 ∧ x.wr.outs <+: writerOuts q.1 ∧ x.flag = q.2.opened ∧
      (x.rd.cur = none → x.rd.outs = readerOuts q.1 ∧ x.rd.loc.half x.flag = q.2.rd ∧
        rs = readerOps (lin s) ++ x.rd.todo) ∧
      (x.wr.cur = none → x.wr.outs = writerOuts q.1 ∧ x.wr.loc.half x.flag = q.2.wr ∧
        ws = writerOps (lin s) ++ x.wr.todo) := by
  obtain ⟨lin, h1, h2⟩ := C96_linearizable S c rs ws
  refine ⟨lin, h1, fun s => ?_⟩
  rw [Blk.threads_eq, (C120_halves (V := Unit) S (lin s) c).1]
  exact h2 s

/-- **C134** Neither thread waits for the other: each returns from all its calls after a number of its own steps that does not
depend on the schedule.  (Waiting for the transport is inside a step.) -/
theorem C134_wait_free (c : Conn) (rs : List ROp) (ws : List WOp) :
    (∃ N, ∀ sched : List Who, N ≤ sched.count .reader → (Blk.threads S c rs ws sched).rd.Done rs.length) ∧
    (∃ N, ∀ sched : List Who, N ≤ sched.count .writer → (Blk.threads S c rs ws sched).wr.Done ws.length) := by
  simp only [Blk.threads_eq]
  exact C96_wait_free S c rs ws

/-- **C134** When both threads are done, there is an order of all the calls, with each thread's in order, in which a single
thread gets the same results and leaves the connection the same. -/
theorem C134_history (c : Conn) (rs : List ROp) (ws : List WOp) (sched : List Who)
    (hr : (Blk.threads S c rs ws sched).rd.Done rs.length) (hw : (Blk.threads S c rs ws sched).wr.Done ws.length) :
    ∃ ops, readerOps ops = rs ∧ writerOps ops = ws ∧
      readerOuts (Blk.halves S ops c).1 = (Blk.threads S c rs ws sched).rd.outs ∧
      writerOuts (Blk.halves S ops c).1 = (Blk.threads S c rs ws sched).wr.outs ∧
      (Blk.halves S ops c).2.rd = (Blk.threads S c rs ws sched).rd.loc.half (Blk.threads S c rs ws sched).flag ∧
      (Blk.halves S ops c).2.wr = (Blk.threads S c rs ws sched).wr.loc.half (Blk.threads S c rs ws sched).flag := by
  rw [Blk.threads_eq] at *
  simp only [(C120_halves (V := Unit) S _ c).1]
  exact C96_history S c rs ws sched hr hw

/-! ## Examples -/

-- The reader handles a closure alert while a `write` that has loaded the flag is under way: that one succeeds, the next is
-- refused.
example : (Blk.threads toySuite exClosing [.read 10] [.write [1], .write [2]]
    ([.writer, .writer, .writer] ++ List.replicate 12 .reader ++ List.replicate 12 .writer)).seen =
    ([.err .connectionClosed], [.ok 1, .err .missingHandshake], false) := by decide +kernel

-- C134_history: both threads are done after this schedule
example : (Blk.threads toySuite exClosing [.read 10] [.write [1], .write [2]]
      ([.writer, .writer, .writer] ++ List.replicate 12 .reader ++ List.replicate 12 .writer)).rd.Done 1 ∧
    (Blk.threads toySuite exClosing [.read 10] [.write [1], .write [2]]
      ([.writer, .writer, .writer] ++ List.replicate 12 .reader ++ List.replicate 12 .writer)).wr.Done 2 := by
  exact ⟨⟨Option.isNone_iff_eq_none.1 (by decide +kernel), List.isEmpty_iff.1 (by decide +kernel), by decide +kernel⟩,
    ⟨Option.isNone_iff_eq_none.1 (by decide +kernel), List.isEmpty_iff.1 (by decide +kernel), by decide +kernel⟩⟩

end ETls
