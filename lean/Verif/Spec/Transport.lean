import Verif.Model.RecordReader

/-! # What a call did to the transport, and what it must then return

`Rx` and `Tx` are the environment: the answers the transport is going to give.  A call uses up a prefix of them. -/

namespace ETls.Spec

/-- A delivery of at least one byte. -/
def Delivery (e : InEv) : Prop := ∃ b bs, e = .data (b :: bs)

/-- Between `rx` and `rx'` only deliveries have been used up, the last of them possibly in part. -/
def Drew (rx rx' : Rx) : Prop :=
  ∃ pre : Rx, (∀ e ∈ pre, Delivery e) ∧
    (rx = pre ++ rx' ∨ ∃ bs n rest, n < bs.length ∧ rx = pre ++ .data bs :: rest ∧ rx' = .data (bs.drop n) :: rest)

/-- A write or a flush that succeeded. -/
def Succeeded (e : OutEv) : Prop := (∃ bs, e = .wrote bs) ∨ e = .flushed

/-- Between `tx` and `tx'` every write and every flush was answered with success. -/
def Answered (tx tx' : Tx) : Prop :=
  ∃ evs : List OutEv, (∀ e ∈ evs, Succeeded e) ∧ tx'.log = tx.log ++ evs ∧
    (∀ a ∈ tx.ctl.take evs.length, a = .ok) ∧ tx'.ctl = tx.ctl.drop evs.length

/-- The errors that stand for a failure of the transport. -/
def TransportError (e : TlsError) : Prop := e = .ioError ∨ ∃ k, e = .io k

/-- How the outcome of a call depends on the transport. -/
inductive Surfaced {α : Type} (rx : Rx) (tx : Tx) : Res TlsError α → Rx → Tx → Prop
  /-- Nothing went wrong with the transport, and the outcome does not say so. -/
  | quiet {r rx' tx'} : Drew rx rx' → Answered tx tx' → (∀ e, r = .err e → ¬ TransportError e) → Surfaced rx tx r rx' tx'
  /-- A read failed: its error is returned, and nothing was asked of the transport afterwards. -/
  | readFailed {k rx' tx'} : Drew rx (.err k :: rx') → Answered tx tx' → Surfaced rx tx (.err (.io k)) rx' tx'
  /-- A read delivered nothing (end of stream): `IoError` is returned. -/
  | ended {rx' tx'} : (Drew rx [] ∧ rx' = [] ∨ Drew rx (.data [] :: rx')) → Answered tx tx' →
      Surfaced rx tx (.err .ioError) rx' tx'
  /-- A write or a flush failed: its error is returned, and nothing was asked of the transport afterwards. -/
  | writeFailed {k n ev rx' tx1 tx'} : Drew rx rx' → Answered tx tx1 → tx1.ctl = .fail k n :: tx'.ctl →
      tx'.log = tx1.log ++ [ev] → ((∃ bs, ev = .partialWrite bs) ∨ ev = .flushFailed) →
      Surfaced rx tx (.err (.io k)) rx' tx'

end ETls.Spec
