import Verif.Props.DropHalf
import Verif.Model.Memory

/-! # C138: the order of memory accesses does not matter -/

namespace ETls

variable (S : Suite)

/-- A program that makes no store. -/
inductive NoStore {σ α : Type} : Prog σ α → Prop
  | ret (r : Res TlsError α) : NoStore (.ret r)
  | step (u : σ → σ) (n : σ → Prog σ α) (h : ∀ s, NoStore (n s)) : NoStore (.step u n)
  | load (k : Bool → Prog σ α) (h : ∀ b, NoStore (k b)) : NoStore (.load k)

theorem NoStore.bind {σ α β : Type} {p : Prog σ α} {f : α → Prog σ β} (hp : NoStore p) (hf : ∀ a, NoStore (f a)) :
    NoStore (p.bind f) := by
  induction hp with
  | ret r =>
    cases r with
    | ok a => exact hf a
    | err e => exact .ret _
    | panic => exact .ret _
  | step u n _ ih => exact .step _ _ ih
  | load k _ ih => exact .load _ ih

theorem NoStore.act {σ α : Type} (m : M TlsError σ α) : NoStore (Prog.act m) := .step _ _ fun _ => .ret _

theorem NoStore.ite {σ α : Type} {b : Prop} [Decidable b] {p q : Prog σ α} (hp : NoStore p) (hq : NoStore q) :
    NoStore (if b then p else q) := by
  split <;> assumption

/-- The writer of the asynchronous interface. -/
theorem writer_noStore (op : WOp) : NoStore (WOp.prog S op) := by
  cases op with
  | write bs =>
    exact .load _ fun b => .ite ((NoStore.act _).bind fun _ => (NoStore.act _).bind fun _ => (NoStore.act _).bind fun _ =>
      (NoStore.act _).bind fun _ => .ret _) (.ret _)
  | flush => exact (NoStore.act _).bind fun _ => .ret _
  | setFlushPolicy p => exact (NoStore.act _).bind fun _ => .ret _

theorem Fine.flush_noStore : NoStore (Fine.flushProg S) :=
  .step _ _ fun _ => .ite (.ret _) <| (NoStore.act _).bind fun _ => (NoStore.act _).bind fun _ => (NoStore.act _).bind fun _ =>
    .ite (.act _) (.ret _)

/-- ... with a step for each operation of the transport. -/
theorem Fine.writer_noStore (op : WOp) : NoStore (Fine.writer S op) := by
  cases op with
  | write bs =>
    exact .load _ fun b => .ite (NoStore.bind (.step _ _ fun _ => .ite (.ret _) ((flush_noStore S).bind fun _ => .act _)) fun _ =>
      (NoStore.act _).bind fun _ => (NoStore.act _).bind fun _ => NoStore.bind (.ite (flush_noStore S) (.ret _)) fun _ => .ret _)
      (.ret _)
  | flush => exact (flush_noStore S).bind fun _ => .ret _
  | setFlushPolicy p => exact (NoStore.act _).bind fun _ => .ret _

namespace Weak

variable {fr : ROp → Prog RdLoc ROut} {fw : WOp → Prog WrLoc Nat}

theorem steps_add {Op σ α : Type} (g : Op → Prog σ α) (m n : Nat) : ∀ x, Cut.steps g (m + n) x = Cut.steps g n (Cut.steps g m x) := by
  induction m with
  | zero => intro x; rw [Nat.zero_add]; rfl
  | succ m ih => intro x; rw [Nat.succ_add]; exact ih _

/-- Steps of the reader alone. -/
theorem run_readers (n : Nat) : ∀ y : Sys, y.runWith fr fw (List.replicate n .reader) =
    ⟨(Cut.steps fr n (y.flag, y.rd)).1, (Cut.steps fr n (y.flag, y.rd)).2, y.wr⟩ := by
  induction n with
  | zero => intro y; rfl
  | succ n ih =>
    intro y
    show Sys.runWith fr fw (y.stepWith fr fw .reader) (List.replicate n .reader) = _
    rw [ih]
    rfl

/-- The program that a task is in makes no store. -/
def Quiet (t : Task WOp WrLoc Nat) : Prop := ∀ p, t.cur = some p → NoStore p

theorem quiet_step (hw : ∀ op, NoStore (fw op)) {t : Task WOp WrLoc Nat} (h : Quiet t) (b : Bool) :
    (t.step fw b).1 = b ∧ Quiet (t.step fw b).2 := by
  obtain ⟨loc, todo, cur, outs⟩ := t
  cases cur with
  | none =>
    cases todo with
    | nil => exact ⟨rfl, h⟩
    | cons op ops =>
      refine ⟨rfl, fun p hp => ?_⟩
      cases hp
      exact hw op
  | some p =>
    have hp := h p rfl
    cases hp with
    | ret r => exact ⟨rfl, fun p hp => by cases hp⟩
    | step u n hn =>
      refine ⟨rfl, fun p hp => ?_⟩
      cases hp
      exact hn _
    | load k hk =>
      refine ⟨rfl, fun p hp => ?_⟩
      cases hp
      exact hk _

/-- `y`, in which every load sees the latest value, is where `x` was when the flag had the value that the writer has seen last,
except for the writer's own steps. -/
def Lag (fr : ROp → Prog RdLoc ROut) (x : Weak) (y : Sys) (n : Nat) : Prop :=
  y.wr = x.wr ∧ Quiet x.wr ∧ x.views = (List.range (n + 1)).map (fun i => (Cut.steps fr i (y.flag, y.rd)).1) ∧
    Cut.steps fr n (y.flag, y.rd) = (x.flag, x.rd)

theorem lag_step (hw : ∀ op, NoStore (fw op)) {x : Weak} {y : Sys} {n : Nat} (h : Lag fr x y n) (t : Turn) :
    ∃ s n', Lag fr (x.step fr fw t) (y.runWith fr fw s) n' := by
  obtain ⟨h1, h2, h3, h4⟩ := h
  cases t with
  | reader =>
    refine ⟨[], n + 1, h1, h2, ?_, ?_⟩
    · show x.views ++ [(x.rd.step fr x.flag).1] = (List.range (n + 1 + 1)).map fun i => (Cut.steps fr i (y.flag, y.rd)).1
      rw [List.range_succ, List.map_append, ← h3]
      congr 1
      show _ = [(Cut.steps fr (n + 1) (y.flag, y.rd)).1]
      rw [steps_add fr n 1, h4]
      rfl
    · show Cut.steps fr (n + 1) (y.flag, y.rd) = _
      rw [steps_add fr n 1, h4]
      rfl
  | writer k =>
    have key : ∃ m n', x.later k = (List.range (n' + 1)).map (fun i => (Cut.steps fr i (Cut.steps fr m (y.flag, y.rd))).1) ∧
        Cut.steps fr n' (Cut.steps fr m (y.flag, y.rd)) = (x.flag, x.rd) := by
      have hlen : x.views.length = n + 1 := by rw [h3, List.length_map, List.length_range]
      unfold later
      by_cases hk : k < x.views.length
      · refine ⟨k, n - k, ?_, ?_⟩
        · rw [if_pos hk, h3]
          apply List.ext_getElem
          · simp; omega
          · intro i a b
            simp only [List.getElem_drop, List.getElem_map, List.getElem_range, ← steps_add]
        · rw [← steps_add, show k + (n - k) = n by omega, h4]
      · refine ⟨n, 0, ?_, ?_⟩
        · rw [if_neg hk, h4]; rfl
        · rw [h4]; rfl
    obtain ⟨m, n', k1, k2⟩ := key
    refine ⟨List.replicate m .reader ++ [.writer], n', ?_⟩
    have hv : (x.later k).headD x.flag = (Cut.steps fr m (y.flag, y.rd)).1 := by
      rw [k1, List.range_succ_eq_map]; rfl
    have hy : y.runWith fr fw (List.replicate m .reader ++ [.writer]) = ⟨(Cut.steps fr m (y.flag, y.rd)).1,
        (Cut.steps fr m (y.flag, y.rd)).2, (x.wr.step fw (Cut.steps fr m (y.flag, y.rd)).1).2⟩ := by
      show (List.replicate m Who.reader ++ [Who.writer]).foldl (Sys.stepWith fr fw) y = _
      rw [List.foldl_append]
      show Sys.stepWith fr fw (y.runWith fr fw (List.replicate m .reader)) .writer = _
      rw [run_readers]
      simp only [Sys.stepWith, h1]
      rw [(quiet_step hw h2 _).1]
    rw [hy]
    refine ⟨?_, ?_, k1, k2⟩
    · show _ = (x.wr.step fw ((x.later k).headD x.flag)).2
      rw [hv]
    · exact (quiet_step hw h2 _).2

theorem lag_run (hw : ∀ op, NoStore (fw op)) (turns : List Turn) : ∀ {x : Weak} {y : Sys} {n : Nat}, Lag fr x y n →
    ∃ s n', Lag fr (turns.foldl (Weak.step fr fw) x) (y.runWith fr fw s) n' := by
  induction turns with
  | nil => intro x y n h; exact ⟨[], n, h⟩
  | cons t turns ih =>
    intro x y n h
    obtain ⟨s, n1, h1⟩ := lag_step hw h t
    obtain ⟨s', n2, h2⟩ := ih h1
    refine ⟨s ++ s', n2, ?_⟩
    have : y.runWith fr fw (s ++ s') = (y.runWith fr fw s).runWith fr fw s' := List.foldl_append
    rw [this]
    exact h2

end Weak

/-- **C138** Whatever the writing half sees of the flag, as long as it is coherent: the two tasks have come where some interleaving
of their steps brings them in which every load returns the latest value. -/
theorem C138_sequential {fr : ROp → Prog RdLoc ROut} {fw : WOp → Prog WrLoc Nat} (hw : ∀ op, NoStore (fw op)) (c : Conn)
    (rs : List ROp) (ws : List WOp) (turns : List Turn) :
    let x := Weak.run fr fw c rs ws turns
    ∃ sched, (Sys.split c rs ws).runWith fr fw sched = ⟨x.flag, x.rd, x.wr⟩ := by
  obtain ⟨s, n, h1, -, -, h4⟩ := Weak.lag_run (fr := fr) hw turns (x := ⟨[c.opened], c.opened, ⟨c.rd.loc, rs, none, []⟩,
    ⟨c.wr.loc, ws, none, []⟩⟩) (y := Sys.split c rs ws) (n := 0) ⟨rfl, fun p hp => (by cases hp), rfl, rfl⟩
  refine ⟨s ++ List.replicate n .reader, ?_⟩
  have : (Sys.split c rs ws).runWith fr fw (s ++ List.replicate n .reader) =
    ((Sys.split c rs ws).runWith fr fw s).runWith fr fw (List.replicate n .reader) := List.foldl_append
  rw [this, Weak.run_readers, h4, h1]
  rfl

/-- **C138, the code** With one step for each operation of the transport and any coherent memory: when both tasks have returned from
all their calls, there is an order of the calls, each task's in its order, in which one task gets the same results and leaves the
connection the same.  (In contrast to C96 the order need not respect that a call of one task ended before one of the other
began: the writer may learn late that the connection is closed, see the example.) -/
theorem C138_history (c : Conn) (rs : List ROp) (ws : List WOp) (hp : ∀ p, .setFlushPolicy p ∉ ws) (turns : List Turn)
    (dr : (Weak.run (Fine.reader S) (Fine.writer S) c rs ws turns).rd.Done rs.length)
    (dw : (Weak.run (Fine.reader S) (Fine.writer S) c rs ws turns).wr.Done ws.length) :
    let x := Weak.run (Fine.reader S) (Fine.writer S) c rs ws turns
    ∃ ops, readerOps ops = rs ∧ writerOps ops = ws ∧ readerOuts (runAny S ops c).1 = x.rd.outs ∧
      writerOuts (runAny S ops c).1 = x.wr.outs ∧ (runAny S ops c).2 = (Sys.mk x.flag x.rd x.wr).join c := by
  obtain ⟨sched, hs⟩ := C138_sequential (fr := Fine.reader S) (Fine.writer_noStore S) c rs ws turns
  have ho : (Round.mk rs ws sched).Over (Fine.reader S) (Fine.writer S) c := by
    refine ⟨?_, ?_, hp⟩
    · show ((Sys.split c rs ws).runWith (Fine.reader S) (Fine.writer S) sched).rd.Done _
      rw [hs]; exact dr
    · show ((Sys.split c rs ws).runWith (Fine.reader S) (Fine.writer S) sched).wr.Done _
      rw [hs]; exact dw
  obtain ⟨ops, h1, h2, h3, h4, h5⟩ := C136_rejoin S (Fine.reader_cut S) (Fine.writer_cut S)
    (Rounds.cons ⟨rs, ws, sched⟩ [] c _ [] [] ho (.nil _))
  have e : (Round.mk rs ws sched).sys (Fine.reader S) (Fine.writer S) c = _ := hs
  rw [e] at h3 h4 h5
  exact ⟨ops, by simpa using h1, by simpa using h2, by simpa using h3, by simpa using h4, h5⟩

/-- **C138 and C133** In a session (any connection that fits the description), the same: what the threads have seen and done to the
transport is what the description says about an order of the calls. -/
theorem C138_session {S : Suite} {k : Spec.Setting} {d : Spec.Duplex} {c : Conn} (hu : ∀ ops, Used S k ops d c) (rs : List ROp)
    (ws : List WOp) (turns : List Turn) (dr : (Weak.run (Fine.reader S) (Fine.writer S) c rs ws turns).rd.Done rs.length)
    (dw : (Weak.run (Fine.reader S) (Fine.writer S) c rs ws turns).wr.Done ws.length) :
    let x := Weak.run (Fine.reader S) (Fine.writer S) c rs ws turns
    TasksUsed S k d c rs ws ⟨x.flag, x.rd, x.wr⟩ := by
  obtain ⟨sched, hs⟩ := C138_sequential (fr := Fine.reader S) (Fine.writer_noStore S) c rs ws turns
  have h := C135_session hu rs ws sched (by rw [hs]; exact dr) (by rw [hs]; exact dw)
  rw [hs] at h
  exact h

/-! ## Examples -/

/-- The reader has got the closure alert and returned; the writer, which sees the flag late, still writes, and only later is
refused.  The calls in the order write, read, write give the same. -/
example :
    let x := Weak.run (Fine.reader toySuite) (Fine.writer toySuite) exClosing [.read 10] [.write [1], .write [2]]
      (List.replicate 20 .reader ++ List.replicate 8 (.writer 0) ++ List.replicate 8 (.writer 100))
    x.rd.outs = [.err .connectionClosed] ∧ x.wr.outs = [.ok 1, .err .missingHandshake] ∧ x.flag = false ∧
      x.rd.cur.isNone ∧ x.rd.todo.isEmpty ∧ x.wr.cur.isNone ∧ x.wr.todo.isEmpty ∧
      (runAny toySuite [.writer (.write [1]), .reader (.read 10), .writer (.write [2])] exClosing).1 =
        [.wrote (.ok 1), .read (.err .connectionClosed), .wrote (.err .missingHandshake)] := by
  decide +kernel

end ETls
