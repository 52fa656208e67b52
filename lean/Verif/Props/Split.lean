import Verif.Props.ReadSafety

/-! # C31: the two halves of a connection -/

namespace ETls

variable (S : Suite)

/-- The reading calls of an interleaving. -/
def readerOps : List AnyOp → List ROp
  | [] => []
  | .reader op :: ops => op :: readerOps ops
  | .writer _ :: ops => readerOps ops

/-- The writing calls of an interleaving. -/
def writerOps : List AnyOp → List WOp
  | [] => []
  | .writer op :: ops => op :: writerOps ops
  | .reader _ :: ops => writerOps ops

/-- The results of the reading calls. -/
def readerOuts : List AnyOut → List (Res TlsError ROut)
  | [] => []
  | .read r :: rs => r :: readerOuts rs
  | .wrote _ :: rs => readerOuts rs

/-- The results of the writing calls. -/
def writerOuts : List AnyOut → List (Res TlsError Nat)
  | [] => []
  | .wrote r :: rs => r :: writerOuts rs
  | .read _ :: rs => writerOuts rs

/-- A history of reading calls on a reader alone (going on after panics too, unlike `runReads`: the other half may be
on another thread). -/
def runReader : List ROp → RdHalf → List (Res TlsError ROut) × RdHalf
  | [], h => ([], h)
  | op :: ops, h =>
    match op.run S h with
    | (r, h1) =>
      match runReader ops h1 with
      | (rs, h2) => (r :: rs, h2)

/-- **C31** The reader half: in any interleaving each reading call returns what it returns without the writer, and
the reader's state at the end is what it is without the writer. -/
theorem C31_reader (ops : List AnyOp) : ∀ c : Conn,
    readerOuts (runAny S ops c).1 = (runReader S (readerOps ops) c.rd).1 ∧
    (runAny S ops c).2.rd = (runReader S (readerOps ops) c.rd).2 := by
  induction ops with
  | nil => intro c; exact ⟨rfl, rfl⟩
  | cons op ops ih =>
    intro c
    cases op with
    | reader op =>
      obtain ⟨i1, i2⟩ := ih (onRd (op.run S) c).2
      have h1 : (onRd (op.run S) c).2.rd = (op.run S c.rd).2 := rfl
      rw [h1] at i1 i2
      exact ⟨congrArg _ i1, i2⟩
    | writer op =>
      obtain ⟨i1, i2⟩ := ih (onWr (op.run S) c).2
      have h1 : (onWr (op.run S) c).2.rd = c.rd := by
        have := WOp.run_opened S op c.wr
        simp only [onWr, Conn.setWr, Conn.rd]
        rw [this]
        rfl
      rw [h1] at i1 i2
      exact ⟨i1, i2⟩

/-- A computation of the reading half that never opens the connection. -/
def NeverOpens {σ α : Type} (o : σ → Bool) (m : M TlsError σ α) : Prop := ∀ s, o (m s).2 = true → o s = true

theorem NeverOpens.bind {σ α β : Type} {o : σ → Bool} {m : M TlsError σ α} {f : α → M TlsError σ β}
    (hm : NeverOpens o m) (hf : ∀ a, NeverOpens o (f a)) : NeverOpens o (m >>= f) := by
  intro s h
  have h1 := hm s
  rcases hr : m s with ⟨r, s1⟩
  rw [hr] at h1
  cases r with
  | ok a => rw [M.bind_ok hr] at h; exact h1 (hf a s1 h)
  | err e => rw [M.bind_err hr] at h; exact h1 h
  | panic => rw [M.bind_panic hr] at h; exact h1 h

/-- The open flag in the state the read handler works on. -/
def flagOf (s : ReadKS × (DecInfo × Bool)) : Bool := s.2.2

theorem readHandler_never (n : Nat) (rec : ServerRecord) : NeverOpens flagOf (readHandler n rec) := by
  intro ⟨k, d, o⟩ h
  cases rec with
  | appData hdr start data =>
    simp only [readHandler] at h
    split at h <;> exact h
  | alert a =>
    simp only [readHandler] at h
    split at h
    · cases h
    · exact h
  | changeCipherSpec => exact h
  | handshake m => cases m <;> exact h

theorem handshakeLoop_never (n fuel : Nat) : ∀ p, NeverOpens flagOf (handshakeLoop S (readHandler n) fuel p) := by
  induction fuel with
  | zero => intro p s h; exact h
  | succ fuel ih =>
    intro p ⟨k, t⟩ h
    unfold handshakeLoop at h
    simp only at h
    split at h
    · rcases hr : ServerHs.read S (p, k.transcript) with ⟨r, p', tr⟩
      rw [hr] at h
      cases r with
      | err e => exact h
      | panic => exact h
      | ok m =>
        simp only at h
        have h1 := readHandler_never n (.handshake m) ({ k with transcript := tr }, t)
        rcases hc : readHandler n (.handshake m) ({ k with transcript := tr }, t) with ⟨r, s1⟩
        rw [hc] at h h1
        cases r with
        | ok u => exact h1 (ih p' s1 h)
        | err e => exact h1 h
        | panic => exact h1 h
    · exact h

theorem dispatch_never (n : Nat) (hdr : Bytes) (start : Nat) (pt : Bytes) :
    NeverOpens flagOf (dispatchInner S (readHandler n) hdr start pt) := by
  unfold dispatchInner
  split
  · exact fun s h => h
  · split
    · exact fun s h => h
    · simp only
      split
      · exact handshakeLoop_never S n _ _
      · exact readHandler_never n _
      · exact NeverOpens.bind (fun s h => h) fun a => readHandler_never n _
      · exact fun s h => h

theorem decrypt_never (rec : ServerRecord) : NeverOpens RdHalf.opened (RdHalf.decrypt S rec) := by
  intro h ho
  unfold RdHalf.decrypt decryptRecord at ho
  cases rec with
  | appData hdr start data =>
    simp only at ho
    split at ho
    · exact ho
    · next pt _ =>
      have h1 := dispatch_never S h.rr.buf.length hdr start pt (h.rks, (h.dec, h.opened))
      rcases hr : dispatchInner S (readHandler h.rr.buf.length) hdr start pt (h.rks, (h.dec, h.opened)) with ⟨r, k, d, o⟩
      rw [hr] at ho h1
      cases r with
      | ok u => exact h1 ho
      | err e => exact h1 ho
      | panic => exact h1 ho
  | alert a => exact readHandler_never h.rr.buf.length (.alert a) (h.rks, (h.dec, h.opened)) ho
  | changeCipherSpec => exact ho
  | handshake m => exact readHandler_never h.rr.buf.length (.handshake m) (h.rks, (h.dec, h.opened)) ho

theorem readApp_never : NeverOpens RdHalf.opened (RdHalf.readApplicationData S) := by
  unfold RdHalf.readApplicationData
  exact NeverOpens.bind (fun h ho => ho) fun rec => decrypt_never S rec

theorem fillLoop_never (fuel : Nat) : NeverOpens RdHalf.opened (RdHalf.fillLoop S fuel) := by
  induction fuel with
  | zero => exact fun _ h => h
  | succ fuel ih =>
    unfold RdHalf.fillLoop
    refine NeverOpens.bind (fun _ h => h) fun h => ?_
    split
    · exact NeverOpens.bind (readApp_never S) fun _ => ih
    · exact fun _ h => h

theorem fill_never : NeverOpens RdHalf.opened (RdHalf.fill S) := by
  unfold RdHalf.fill
  refine NeverOpens.bind (fun _ h => h) fun h => ?_
  split
  · exact fillLoop_never S _
  · exact fun _ h => h

/-- No reading call opens the connection. -/
theorem ROp.never_opens (op : ROp) : NeverOpens RdHalf.opened (op.run S) := by
  have hu : ∀ ops rv, NeverOpens RdHalf.opened (RdHalf.useBuffer ops rv) := by
    intro ops rv h ho
    rwa [useBuffer_opened] at ho
  cases op with
  | read n =>
    simp only [ROp.run]
    split
    · exact fun _ h => h
    · exact (fill_never S).bind fun _ => hu _ _
  | fillBuf => exact (fill_never S).bind fun _ => hu _ _
  | consume n => exact hu _ _
  | buffered ops rv => exact (fill_never S).bind fun _ => hu _ _

/-- **C31** No interleaving of reading and writing calls opens a connection. -/
theorem C31_never_opens (ops : List AnyOp) : ∀ c : Conn, (runAny S ops c).2.opened = true → c.opened = true := by
  induction ops with
  | nil => intro c h; exact h
  | cons op ops ih =>
    intro c h
    have h1 := ih _ h
    cases op with
    | reader op => exact ROp.never_opens S op c.rd h1
    | writer op => exact (WOp.run_opened S op c.wr).symm.trans h1

/-- **C31** The writer half: in any interleaving the writing calls return, and leave, what they do without the reader,
except that from some call on (after the `k`-th) the open flag is down; that happens only if the reader's own
history ends closed, and if the connection is open at the end there is no exception. -/
theorem C31_writer (ops : List AnyOp) : ∀ c : Conn, ∃ k, k ≤ (writerOps ops).length ∧
    writerOuts (runAny S ops c).1 = (runOps S ((writerOps ops).take k) c.wr).1 ++
      (runOps S ((writerOps ops).drop k)
        { (runOps S ((writerOps ops).take k) c.wr).2 with opened := (runAny S ops c).2.opened }).1 ∧
    (runAny S ops c).2.wr = (runOps S ((writerOps ops).drop k)
        { (runOps S ((writerOps ops).take k) c.wr).2 with opened := (runAny S ops c).2.opened }).2 ∧
    ((runAny S ops c).2.opened = c.opened → k = (writerOps ops).length) := by
  induction ops with
  | nil => intro c; exact ⟨0, Nat.le_refl _, rfl, rfl, fun _ => rfl⟩
  | cons op ops ih =>
    intro c
    cases op with
    | writer op =>
      obtain ⟨k, i0, i1, i2, i3⟩ := ih (onWr (op.run S) c).2
      have h1 : (onWr (op.run S) c).2.wr = (op.run S c.wr).2 := rfl
      have h2 : (onWr (op.run S) c).2.opened = c.opened := WOp.run_opened S op c.wr
      rw [h1] at i1 i2
      rw [h2] at i3
      refine ⟨k + 1, by simp [writerOps]; exact i0, ?_, i2, fun h => by simp [writerOps, i3 h]⟩
      show (op.run S c.wr).1 :: writerOuts (runAny S ops (onWr (op.run S) c).2).1 = _
      rw [i1]
      rfl
    | reader op =>
      obtain ⟨k, i0, i1, i2, i3⟩ := ih (onRd (op.run S) c).2
      have hfin : (runAny S (.reader op :: ops) c).2 = (runAny S ops (onRd (op.run S) c).2).2 := rfl
      have houts : writerOuts (runAny S (.reader op :: ops) c).1 = writerOuts (runAny S ops (onRd (op.run S) c).2).1 := rfl
      have hw : writerOps (.reader op :: ops) = writerOps ops := rfl
      rw [hfin, houts, hw]
      by_cases ho : (onRd (op.run S) c).2.opened = c.opened
      · have h1 : (onRd (op.run S) c).2.wr = c.wr := by
          simp only [Conn.wr, ho]; rfl
        rw [h1] at i1 i2
        rw [ho] at i3
        exact ⟨k, i0, i1, i2, i3⟩
      · -- the flag has just been cleared
        have hf : (onRd (op.run S) c).2.opened = false := by
          cases h : (onRd (op.run S) c).2.opened with
          | false => rfl
          | true => exact absurd (h.trans (ROp.never_opens S op c.rd h).symm) ho
        have hc : c.opened = true := by
          cases h : c.opened with
          | true => rfl
          | false => exact absurd (hf.trans h.symm) ho
        have hend := (C28_final S ops _ hf).1
        have hk := i3 (hend.trans hf.symm)
        rw [hk, List.take_length, List.drop_length] at i1 i2
        have h1 : (onRd (op.run S) c).2.wr = { c.wr with opened := (runAny S ops (onRd (op.run S) c).2).2.opened } := by
          rw [hend, ← hf]
          rfl
        have hkeep : ∀ (l : List WOp) (w : WrHalf), (runOps S l w).2.opened = w.opened := by
          intro l
          induction l with
          | nil => intro w; rfl
          | cons a l ih => intro w; exact (ih _).trans (WOp.run_opened S a w)
        have hsame : ∀ (w : WrHalf) (o : Bool), w.opened = o → ({ w with opened := o } : WrHalf) = w := by
          intro w o h
          subst h
          rfl
        refine ⟨0, Nat.zero_le _, ?_, ?_, fun h => ?_⟩
        · rw [i1, h1, List.take_zero, List.drop_zero]
          simp [runOps]
        · rw [i2, h1, List.drop_zero]
          simp only [runOps, List.take_zero]
          exact hsame _ _ (hkeep (writerOps ops) _)
        · rw [hend, hc] at h; cases h

/-- A reader that sees a close between two writes. -/
example : writerOuts (runAny toySuite [.writer (.write [1]), .reader (.read 10), .writer (.write [2]), .writer .flush]
    (exConn [.data (Spec.protect toySuite (List.replicate 16 3) (List.replicate 12 4) 0 ⟨21, [1, 0], 0⟩)])).1 =
    [.ok 1, .err .missingHandshake, .ok 0] := by decide +kernel

/-- A reader that sees data between two writes. -/
example : (runAny toySuite [.writer (.write [1]), .reader (.read 10), .writer (.write [2]), .writer .flush]
    (exConn [.data (exRecord 0 [7, 8])])).1 =
    [.wrote (.ok 1), .read (.ok ⟨[7, 8], [[7, 8]], [7, 8]⟩), .wrote (.ok 1), .wrote (.ok 0)] := by decide +kernel

end ETls
