import Verif.Model.ErrorKind
import Verif.Props.Transport

/-! # C85: the kind of an error -/

namespace ETls

open Spec

/-- **C85, kinds** With C85 for reading, writing, `close` and `open`: code that is generic over `embedded_io` and looks at the
kind of an error gets the transport's own kind when the transport has failed; a kind other than `Other` means that it has, and
that the failed call was the last one made. -/
theorem C85_kind {α : Type} {rx rx' : Rx} {tx tx' : Tx} {e : TlsError} (h : Surfaced (α := α) rx tx (.err e) rx' tx') :
    (e.kind ≠ IoKind.other → (Drew rx (.err e.kind :: rx') ∧ Answered tx tx') ∨
      ∃ n tx1 ev, Drew rx rx' ∧ Answered tx tx1 ∧ tx1.ctl = .fail e.kind n :: tx'.ctl ∧ tx'.log = tx1.log ++ [ev] ∧
        ((∃ bs, ev = .partialWrite bs) ∨ ev = .flushFailed)) ∧
    (failures rx tx ≠ failures rx' tx' → ∃ k, e = .io k ∧ e.kind = k) := by
  refine ⟨fun hk => ?_, fun hf => ?_⟩
  · generalize hr : (Res.err e : Res TlsError α) = r at h
    cases h with
    | quiet a b c =>
      exfalso
      cases e <;> first | exact hk rfl | exact c _ hr.symm (.inr ⟨_, rfl⟩)
    | readFailed a b =>
      cases hr
      exact .inl ⟨a, b⟩
    | ended a b =>
      cases hr
      exact absurd rfl hk
    | writeFailed a b c d f =>
      cases hr
      exact .inr ⟨_, _, _, a, b, c, d, f⟩
  · have := C85_count h
    cases e with
    | io k => exact ⟨k, rfl, rfl⟩
    | _ => exact absurd this hf

-- a read that fails with kind 5, and one that fails because of the end of the stream
example : (onRd (ROp.run toySuite (.read 10)) (exConn [.data [23, 3], .err 5, .data [1]])).1 = .err (.io 5) ∧
    (TlsError.io 5).kind = 5 ∧ TlsError.ioError.kind = IoKind.other := by decide +kernel

end ETls
