import Verif.Model.FineGrain

/-! # The open flag in a weak memory

The flag is an `AtomicBool` (`asynch.rs:29`, `blocking.rs:29`), loaded with `Acquire` and stored with `Release` (`asynch.rs:380`, `398`,
`409`, `501`).  `Model/Concurrent.lean` has every load return the latest value.  In the memory model of Rust (that of C++20) the
loads and stores of one atomic are coherent, but a thread may see the stores of another one late: a load returns a value that is
not older, in the order of modification, than the one the thread has seen or stored last.

Here the reading half, the only one that stores, sees the latest value, and the writing half any value that coherence allows.
Nothing else is shared by the halves (the transport is a pair of separate directions), so it does not matter what `Acquire` and
`Release` make visible besides the flag: the model also covers `Relaxed`. -/

namespace ETls

/-- The flag, the two tasks, and the values the flag has had since the value that the writing half has seen last (this one is the
first of them). -/
structure Weak where
  views : List Bool
  flag : Bool
  rd : Task ROp RdLoc ROut
  wr : Task WOp WrLoc Nat

/-- Who makes the next step; for the writing half also how far it catches up with the modifications of the flag. -/
inductive Turn where
  | reader
  | writer (catchUp : Nat)
deriving DecidableEq, Repr

/-- The values that the writing half has not yet gone past, after it has caught up. -/
def Weak.later (x : Weak) (n : Nat) : List Bool := if n < x.views.length then x.views.drop n else [x.flag]

/-- One step.  (The writing half makes no store, see `NoStore`.) -/
def Weak.step (fr : ROp → Prog RdLoc ROut) (fw : WOp → Prog WrLoc Nat) (x : Weak) : Turn → Weak
  | .reader => { x with
      flag := (x.rd.step fr x.flag).1, rd := (x.rd.step fr x.flag).2, views := x.views ++ [(x.rd.step fr x.flag).1] }
  | .writer n => { x with views := x.later n, wr := (x.wr.step fw ((x.later n).headD x.flag)).2 }

/-- `split` and the steps of a schedule. -/
def Weak.run (fr : ROp → Prog RdLoc ROut) (fw : WOp → Prog WrLoc Nat) (c : Conn) (rs : List ROp) (ws : List WOp)
    (turns : List Turn) : Weak :=
  turns.foldl (Weak.step fr fw) ⟨[c.opened], c.opened, ⟨c.rd.loc, rs, none, []⟩, ⟨c.wr.loc, ws, none, []⟩⟩

end ETls
