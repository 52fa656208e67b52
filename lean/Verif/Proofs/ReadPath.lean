import Verif.Model.ReadBuffer
import Verif.Spec.Stream
import Verif.Proofs.Transport
import Verif.Props.KeySchedule

/-! # Lemmas about the reading half, for any transport -/

namespace ETls

variable (S : Suite)

open Spec (BufCall)

/-! ## `ReadBuffer` -/

/-- The calls of the specification that the calls of the code stand for. -/
def RBufOp.call : RBufOp → BufCall
  | .peek n => .peek n
  | .peekAll => .peekAll
  | .pop n => .pop n
  | .popAll => .popAll
  | .popInto n => .pop n

theorem RBuf.peek_run (n : Nat) (b : RBuf) (hb : b.consumed ≤ b.data.length) :
    RBuf.peek n b = (.ok ((b.data.drop b.consumed).take n), { b with used := true }) := by
  unfold RBuf.peek
  rw [M.get_bind, M.modify_bind]
  unfold RBuf.slice RBuf.len
  simp only
  rw [if_pos (by omega)]
  have : List.take (min (b.data.length - b.consumed) n) (List.drop b.consumed b.data) =
      List.take n (List.drop b.consumed b.data) := by
    rw [List.take_eq_take_iff]; simp; omega
  rw [this]

theorem RBuf.pop_run (n : Nat) (b : RBuf) (hb : b.consumed ≤ b.data.length) :
    RBuf.pop n b = (.ok ((b.data.drop b.consumed).take n),
      ⟨b.data, b.consumed + min n (b.data.drop b.consumed).length, true⟩) := by
  unfold RBuf.pop
  rw [M.get_bind, M.modify_bind, M.modify_bind]
  unfold RBuf.slice RBuf.len
  simp only
  rw [if_pos (by omega)]
  have : List.take (min (b.data.length - b.consumed) n) (List.drop b.consumed b.data) =
      List.take n (List.drop b.consumed b.data) := by
    rw [List.take_eq_take_iff]; simp; omega
  rw [this, List.length_drop, Nat.min_comm]

theorem calls_le (cs : List BufCall) : ∀ d, (Spec.calls cs d).2 ≤ d.length := by
  induction cs with
  | nil => intro d; simp [Spec.calls]
  | cons c cs ih =>
    intro d
    cases c with
    | peek n => simpa [Spec.calls] using ih d
    | peekAll => simpa [Spec.calls] using ih d
    | pop n =>
      have := ih (d.drop n)
      simp only [Spec.calls, List.length_drop] at this ⊢; omega
    | popAll =>
      have := ih []
      simp only [Spec.calls, List.length_nil] at this ⊢; omega

theorem RBuf.runOps_run (ops : List RBufOp) : ∀ (b : RBuf), b.consumed ≤ b.data.length →
    RBuf.runOps ops b = (.ok (Spec.calls (ops.map RBufOp.call) (b.data.drop b.consumed)).1,
      ⟨b.data, b.consumed + (Spec.calls (ops.map RBufOp.call) (b.data.drop b.consumed)).2,
        b.used || !ops.isEmpty⟩) := by
  induction ops with
  | nil => intro b hb; simp [RBuf.runOps, Spec.calls]
  | cons op ops ih =>
    intro b hb
    have htk : ∀ l : Bytes, l.take l.length = l := fun l => List.take_of_length_le (Nat.le_refl _)
    have hlen : (b.data.drop b.consumed).length = b.len := by simp [RBuf.len]
    unfold RBuf.runOps
    cases op with
    | peek n =>
      simp only [RBufOp.run]
      rw [M.bind_ok (RBuf.peek_run n b hb), M.bind_ok (ih _ (by exact hb))]
      simp [RBufOp.call, Spec.calls]
    | peekAll =>
      simp only [RBufOp.run]
      have h1 : RBuf.peekAll b = (.ok (b.data.drop b.consumed), { b with used := true }) := by
        unfold RBuf.peekAll
        rw [M.get_bind, RBuf.peek_run _ b hb, ← hlen, htk]
      rw [M.bind_ok h1, M.bind_ok (ih _ (by exact hb))]
      simp [RBufOp.call, Spec.calls]
    | pop n =>
      simp only [RBufOp.run]
      have hle : b.consumed + min n (b.data.drop b.consumed).length ≤ b.data.length := by simp; omega
      rw [M.bind_ok (RBuf.pop_run n b hb), M.bind_ok (ih _ hle)]
      have hd : b.data.drop (b.consumed + min n (b.data.drop b.consumed).length) = (b.data.drop b.consumed).drop n := by
        rw [List.drop_drop, List.length_drop]
        by_cases h : n ≤ b.data.length - b.consumed
        · rw [Nat.min_eq_left h]
        · rw [List.drop_of_length_le, List.drop_of_length_le] <;> omega
      simp only [hd, List.map_cons, RBufOp.call, Spec.calls]
      simp [Nat.add_assoc]
    | popAll =>
      simp only [RBufOp.run]
      have h1 : RBuf.popAll b = (.ok (b.data.drop b.consumed), ⟨b.data, b.data.length, true⟩) := by
        unfold RBuf.popAll
        rw [M.get_bind, RBuf.pop_run _ b hb, ← hlen, htk, Nat.min_self]
        have : b.consumed + (b.data.drop b.consumed).length = b.data.length := by simp; omega
        rw [this]
      rw [M.bind_ok h1, M.bind_ok (ih _ (by simp))]
      have hd : b.data.drop b.data.length = [] := by simp
      simp only [hd, List.map_cons, RBufOp.call, Spec.calls]
      have : b.data.length = b.consumed + (b.data.drop b.consumed).length := by simp; omega
      simp only [M.pure_apply, Prod.mk.injEq, true_and, RBuf.mk.injEq]
      refine ⟨?_, by simp⟩
      rw [← Nat.add_assoc, ← this]
    | popInto n =>
      simp only [RBufOp.run]
      have h1 : RBuf.popInto n b = (.ok ((b.data.drop b.consumed).take n),
          ⟨b.data, b.consumed + min n (b.data.drop b.consumed).length, true⟩) := by
        unfold RBuf.popInto
        rw [M.bind_ok (RBuf.pop_run n b hb), if_pos (by simp; omega)]
        rfl
      have hle : b.consumed + min n (b.data.drop b.consumed).length ≤ b.data.length := by simp; omega
      rw [M.bind_ok h1, M.bind_ok (ih _ hle)]
      have hd : b.data.drop (b.consumed + min n (b.data.drop b.consumed).length) = (b.data.drop b.consumed).drop n := by
        rw [List.drop_drop, List.length_drop]
        by_cases h : n ≤ b.data.length - b.consumed
        · rw [Nat.min_eq_left h]
        · rw [List.drop_of_length_le, List.drop_of_length_le] <;> omega
      simp only [hd, List.map_cons, RBufOp.call, Spec.calls]
      simp [Nat.add_assoc]

/-! ## The reading half -/

/-- Bytes decrypted but not yet consumed. -/
def RdHalf.unread (h : RdHalf) : Bytes :=
  (h.rr.buf.drop (h.dec.offset + h.dec.consumed)).take (h.dec.len - h.dec.consumed)

/-- Indices are in range. -/
structure RdHalf.Good (h : RdHalf) : Prop where
  rr : h.rr.Inv
  dec : h.dec.offset + h.dec.len ≤ h.rr.buf.length
  consumed : h.dec.consumed ≤ h.dec.len

theorem RdHalf.unread_length (h : RdHalf) (hg : h.Good) : h.unread.length = h.dec.len - h.dec.consumed := by
  have := hg.dec
  have := hg.consumed
  simp [RdHalf.unread]; omega

theorem RdHalf.isEmpty_iff (h : RdHalf) (hg : h.Good) : h.dec.isEmpty = true ↔ h.unread = [] := by
  rw [← List.length_eq_zero_iff, h.unread_length hg]
  simp [DecInfo.isEmpty]

theorem RdHalf.available_run (h : RdHalf) (hg : h.Good) : RdHalf.available h = (.ok h.unread, h) := by
  have := hg.dec
  have := hg.consumed
  unfold RdHalf.available RdHalf.unread
  simp only
  rw [if_pos (by omega)]
  congr 3
  omega

/-- `h` after consuming `k` bytes. -/
def RdHalf.eat (k : Nat) (h : RdHalf) : RdHalf := { h with dec := { h.dec with consumed := h.dec.consumed + k } }

theorem RdHalf.eat_good (k : Nat) (h : RdHalf) (hg : h.Good) (hk : k ≤ h.unread.length) : (h.eat k).Good := by
  rw [h.unread_length hg] at hk
  have := hg.consumed
  exact ⟨hg.rr, hg.dec, by simp only [RdHalf.eat]; omega⟩

theorem RdHalf.eat_unread (k : Nat) (h : RdHalf) : (h.eat k).unread = h.unread.drop k := by
  unfold RdHalf.eat RdHalf.unread
  simp only
  rw [List.drop_take, List.drop_drop, Nat.sub_sub, Nat.add_assoc]

theorem borrow_take (cs : List BufCall) (rv : Bool) (d : Bytes) :
    (Spec.borrow cs rv d).2 = d.take (Spec.borrow cs rv d).2.length := by
  unfold Spec.borrow
  simp only
  split
  · simp
  · split
    · simp
    · simp

theorem RdHalf.useBuffer_run (ops : List RBufOp) (rv : Bool) (h : RdHalf) (hg : h.Good) :
    RdHalf.useBuffer ops rv h =
      (.ok ⟨h.unread, (Spec.borrow (ops.map RBufOp.call) rv h.unread).1, (Spec.borrow (ops.map RBufOp.call) rv h.unread).2⟩,
        h.eat (Spec.borrow (ops.map RBufOp.call) rv h.unread).2.length) := by
  unfold RdHalf.useBuffer
  rw [RdHalf.available_run h hg]
  simp only
  rw [RBuf.runOps_run ops (RBuf.new h.unread) (by simp [RBuf.new])]
  have hle := calls_le (ops.map RBufOp.call) h.unread
  simp only [RBuf.new, List.drop_zero, Bool.false_or, RBuf.dropped, Nat.zero_add, Spec.borrow]
  cases rv with
  | true => simp [RdHalf.eat]
  | false =>
    cases ops with
    | nil => simp [RdHalf.eat, Spec.calls]
    | cons o os =>
      simp only [List.isEmpty_cons, Bool.not_false, if_true, List.map_cons, reduceCtorEq, if_false, RdHalf.eat] at hle ⊢
      simp [hle]

/-! ## One record -/

theorem stripPadding_ne {pt : Bytes} (h : pt ≠ []) : stripPadding pt ≠ [] := by
  unfold stripPadding
  split
  · exact h
  · rename_i h'; simpa using h'

theorem stripPadding_prefix (pt : Bytes) : stripPadding pt <+: pt := by
  unfold stripPadding
  split
  · simp
  · have := List.dropWhile_suffix (fun b : UInt8 => b == 0) (l := pt.reverse)
    have := List.reverse_prefix.2 this
    simpa using this

/-- Handshake messages to an open connection: the key, counter and the rest are not touched; a panic means that some
message other than a session ticket was decoded. -/
theorem hsLoop_reader (n fuel : Nat) : ∀ (p : PB) (k : ReadKS) (t : DecInfo × Bool),
    (handshakeLoop S (readHandler n) fuel p (k, t)).2.2 = t ∧
    (handshakeLoop S (readHandler n) fuel p (k, t)).2.1.st = k.st ∧
    (p.pos ≤ p.buffer.length → p.buffer.length - p.pos < fuel →
      (handshakeLoop S (readHandler n) fuel p (k, t)).1 = .panic →
      ∃ q tr m s, ServerHs.read S (q, tr) = (.ok m, s) ∧ q.buffer = p.buffer ∧ m ≠ .newSessionTicket) := by
  induction fuel with
  | zero => intro p k t; exact ⟨rfl, rfl, fun _ h => by omega⟩
  | succ fuel ih =>
    intro p k t
    unfold handshakeLoop
    simp only
    by_cases hp : p.buffer.length - p.pos > 0
    · rw [if_pos hp]
      rcases hr : ServerHs.read S (p, k.transcript) with ⟨r, p', tr⟩
      cases r with
      | err e => exact ⟨rfl, rfl, by simp⟩
      | panic =>
        refine ⟨rfl, rfl, fun h1 h2 _ => ?_⟩
        have := (C01_handshake S p k.transcript h1).1
        rw [hr] at this
        exact absurd rfl this
      | ok m =>
        simp only
        cases m with
        | newSessionTicket =>
          simp only [readHandler, M.pure_apply]
          obtain ⟨g1, g2, g4⟩ := ih p' { k with transcript := tr } t
          refine ⟨g1, g2, fun h1 h2 h3 => ?_⟩
          obtain ⟨_, b1, b2, b3, b4⟩ := C01_handshake S p k.transcript h1
          rw [hr] at b1 b2 b3 b4
          simp only at b1 b2 b3 b4
          have b4 := b4 _ rfl
          obtain ⟨q, tr', m, s, q1, q2, q3⟩ := g4 (by rw [b1]; exact b3) (by rw [b1]; omega) h3
          exact ⟨q, tr', m, s, q1, q2.trans b1, q3⟩
        | _ =>
          simp only [readHandler, M.crash_apply]
          exact ⟨trivial, trivial, fun _ _ _ => ⟨p, k.transcript, _, _, hr, rfl, by simp⟩⟩
    · rw [if_neg hp]
      exact ⟨rfl, rfl, by simp⟩

/-- Why reading one record can panic. -/
inductive PanicCause (h : RdHalf) : Prop where
  /-- a previous I/O error left the record reader inside a record -/
  | pending (hp : h.rr.pending ≠ 0)
  /-- the next record on the wire authenticates, with an empty inner plaintext -/
  | emptyInner (hdr ct rest : Bytes) (hw : h.rx.bytes = hdr ++ ct ++ rest) (hl : hdr.length = 5)
      (ho : S.open_ h.rks.st.key (h.rks.st.nonce S) hdr ct = some [])
  /-- the next record on the wire authenticates and holds a handshake message other than a session ticket -/
  | protectedHandshake (hdr ct rest : Bytes) (hw : h.rx.bytes = hdr ++ ct ++ rest) (hl : hdr.length = 5)
      (pt content : Bytes) (ho : S.open_ h.rks.st.key (h.rks.st.nonce S) hdr ct = some pt)
      (hs : stripPadding pt = content ++ [22]) (q : PB) (tr : Bytes) (m : ServerHs) (s : PB × Bytes)
      (hr : ServerHs.read S (q, tr) = (.ok m, s)) (hq : q.buffer = content) (hm : m ≠ .newSessionTicket)
  /-- the next record on the wire is an unprotected handshake message other than a session ticket -/
  | plainHandshake (hdr data rest : Bytes) (hw : h.rx.bytes = hdr ++ data ++ rest) (rh : RecordHeader)
      (hd : RecordHeader.decode hdr = .ok rh) (ht : rh.contentType = .handshake) (hl : rh.contentLength = data.length)
      (m : ServerHs) (s : PB × Bytes)
      (hr : ServerHs.read S (PB.new data, h.rks.transcript) = (.ok m, s)) (hm : m ≠ .newSessionTicket)
  /-- 2^64 - 1 records have been received -/
  | counter (hc : 2 ^ 64 ≤ h.rks.st.counter + 1)

/-- In this state the reader takes a protected record with this header and ciphertext from the transport. -/
def RdHalf.Takes (h : RdHalf) (hdr ct : Bytes) : Prop :=
  ∃ start h1, RdHalf.readRecord S h = (.ok (.appData hdr start ct), h1)

/-- What receiving one record can do to the reading half. -/
inductive Outcome (h : RdHalf) : Res TlsError Unit → RdHalf → Prop where
  /-- application data -/
  | data (h' : RdHalf) (hdr ct pt content : Bytes) (start : Nat)
      (ho : S.open_ h.rks.st.key (h.rks.st.nonce S) hdr ct = some pt)
      (hs : stripPadding pt = content ++ [23]) (hst : h'.rks.st = { h.rks.st with counter := h.rks.st.counter + 1 })
      (hc : h.rks.st.counter + 1 < 2 ^ 64)
      (hopen : h'.opened = h.opened) (hdec : h'.dec = ⟨start, content.length, 0⟩) (hu : h'.unread = content)
      (hg : h'.Good) (hsz : h'.rx.size + 5 ≤ h.rx.size) (ht : h.Takes S hdr ct) : Outcome h (.ok ()) h'
  /-- protected session tickets -/
  | tickets (h' : RdHalf) (hdr ct pt content : Bytes) (ho : S.open_ h.rks.st.key (h.rks.st.nonce S) hdr ct = some pt)
      (hs : stripPadding pt = content ++ [22]) (hst : h'.rks.st = { h.rks.st with counter := h.rks.st.counter + 1 })
      (hc : h.rks.st.counter + 1 < 2 ^ 64)
      (hopen : h'.opened = h.opened) (hdec : h'.dec = h.dec)
      (hg : h'.Good) (hsz : h'.rx.size + 5 ≤ h.rx.size) (ht : h.Takes S hdr ct) : Outcome h (.ok ()) h'
  /-- an unprotected session ticket -/
  | plainTicket (h' : RdHalf) (hst : h'.rks.st = h.rks.st) (hopen : h'.opened = h.opened) (hdec : h'.dec = h.dec)
      (hg : h'.Good) (hsz : h'.rx.size + 5 ≤ h.rx.size) : Outcome h (.ok ()) h'
  /-- an error -/
  | error (h' : RdHalf) (e : TlsError) (hst : h'.rks.st = h.rks.st) (hdec : h'.dec = h.dec)
      (hopen : h'.opened = h.opened) (hg : h'.Good) (hsz : h'.rx.size ≤ h.rx.size) : Outcome h (.err e) h'
  /-- a close alert -/
  | closed (h' : RdHalf) (hst : h'.rks.st = h.rks.st) (hdec : h'.dec = h.dec)
      (hopen : h'.opened = false) (hg : h'.Good) (hsz : h'.rx.size ≤ h.rx.size) : Outcome h (.err .connectionClosed) h'
  /-- a panic -/
  | panic (h' : RdHalf) (hp : PanicCause S h) : Outcome h .panic h'

theorem of_eq_appData (b : UInt8) (h : ContentType.of b.toNat = some .applicationData) : b = 23 := by
  have : b.toNat = 23 := by
    unfold ContentType.of at h
    split at h <;> first | assumption | (simp at h)
  exact UInt8.toNat.inj this

theorem of_eq_handshake (b : UInt8) (h : ContentType.of b.toNat = some .handshake) : b = 22 := by
  have : b.toNat = 22 := by
    unfold ContentType.of at h
    split at h <;> first | assumption | (simp at h)
  exact UInt8.toNat.inj this

theorem of_eq_alert (b : UInt8) (h : ContentType.of b.toNat = some .alert) : b = 21 := by
  have : b.toNat = 21 := by
    unfold ContentType.of at h
    split at h <;> first | assumption | (simp at h)
  exact UInt8.toNat.inj this

/-- The length law of AEAD decryption: the ciphertext is the tag length longer than the plaintext. -/
def Suite.OpenLength : Prop := ∀ k n a c p, S.open_ k n a c = some p → p.length + 16 = c.length

theorem Suite.Lawful.openLength {S : Suite} (h : S.Lawful) : S.OpenLength := by
  intro k n a c p ho
  have := h.open_length k n a c p ho
  simp only [tagLen] at this
  omega

/-- What `dispatchInner` with the read handler does. -/
inductive Dispatched (n start : Nat) (pt : Bytes) (k : ReadKS) (d : DecInfo) (o : Bool) :
    Res TlsError Unit → ReadKS × (DecInfo × Bool) → Prop where
  | data (content : Bytes) (hs : stripPadding pt = content ++ [23]) (hb : start < n ∧ start + content.length < n) :
      Dispatched n start pt k d o (.ok ()) (k, (⟨start, content.length, 0⟩, o))
  | tickets (content : Bytes) (hs : stripPadding pt = content ++ [22]) (k' : ReadKS) (hk : k'.st = k.st) :
      Dispatched n start pt k d o (.ok ()) (k', (d, o))
  | error (e : TlsError) (k' : ReadKS) (hk : k'.st = k.st) : Dispatched n start pt k d o (.err e) (k', (d, o))
  | closed (hs : stripPadding pt ≠ []) : Dispatched n start pt k d o (.err .connectionClosed) (k, (d, false))
  | empty (hp : pt = []) (x : ReadKS × (DecInfo × Bool)) : Dispatched n start pt k d o .panic x
  | tooLong (content : Bytes) (hs : stripPadding pt = content ++ [23])
      (hb : ¬ (start < n ∧ start + content.length < n)) (x : ReadKS × (DecInfo × Bool)) :
      Dispatched n start pt k d o .panic x
  | message (content : Bytes) (hs : stripPadding pt = content ++ [22]) (q : PB) (tr : Bytes) (m : ServerHs)
      (s : PB × Bytes) (hr : ServerHs.read S (q, tr) = (.ok m, s)) (hq : q.buffer = content)
      (hm : m ≠ .newSessionTicket) (x : ReadKS × (DecInfo × Bool)) : Dispatched n start pt k d o .panic x

theorem dispatch_cases (n start : Nat) (hdr pt : Bytes) (k : ReadKS) (d : DecInfo) (o : Bool) :
    Dispatched S n start pt k d o (dispatchInner S (readHandler n) hdr start pt (k, (d, o))).1
      (dispatchInner S (readHandler n) hdr start pt (k, (d, o))).2 := by
  unfold dispatchInner
  rcases hl : (stripPadding pt).getLast? with _ | b
  · have : stripPadding pt = [] := by simpa using hl
    have : pt = [] := by
      by_contra hne
      exact stripPadding_ne hne this
    exact .empty this _
  · have hne : stripPadding pt ≠ [] := by intro h; rw [h] at hl; simp at hl
    have hsp : stripPadding pt = (stripPadding pt).dropLast ++ [b] := by
      rw [List.getLast?_eq_some_getLast hne] at hl
      injection hl with hl
      rw [← hl, List.dropLast_append_getLast]
    simp only
    rcases hct : ContentType.of b.toNat with _ | ct
    · exact .error _ _ rfl
    · simp only
      cases ct with
      | handshake =>
        have hb := of_eq_handshake b hct
        rw [hb] at hsp
        simp only
        generalize (stripPadding pt).dropLast = content at *
        obtain ⟨g1, g2, g3⟩ := hsLoop_reader S n (content.length + 1) (PB.new content) k (d, o)
        rcases hr : handshakeLoop S (readHandler n) (content.length + 1) (PB.new content) (k, (d, o)) with ⟨r, k', t'⟩
        rw [hr] at g1 g2 g3
        simp only at g1 g2 g3 ⊢
        subst g1
        cases r with
        | ok u => exact .tickets content hsp k' g2
        | err e => exact .error e k' g2
        | panic =>
          obtain ⟨q, tr, m, s, q1, q2, q3⟩ := g3 (by simp [PB.new]) (by simp [PB.new]) rfl
          exact .message content hsp q tr m s q1 q2 q3 _
      | applicationData =>
        have hb := of_eq_appData b hct
        rw [hb] at hsp
        simp only [readHandler]
        split
        · next h => exact .data _ hsp h
        · next h => exact .tooLong _ hsp h _
      | alert =>
        simp only
        have hnp : (Alert.parse (PB.new (stripPadding pt).dropLast)).1 ≠ .panic := by
          have := (alertParse_good (PB.new (stripPadding pt).dropLast) (PB.new_valid _)).1
          exact this
        rcases ha : (Alert.parse (PB.new (stripPadding pt).dropLast)).1 with a | e | _
        · rw [M.lift_ok_bind]
          simp only [readHandler]
          split
          · exact .closed hne
          · exact .error _ _ rfl
        · rw [M.lift_err_bind]
          exact .error _ _ rfl
        · exact absurd ha hnp
      | invalid => exact .error _ _ rfl
      | changeCipherSpec => exact .error _ _ rfl

theorem readHandler_plain (n : Nat) (rec : ServerRecord) (hrec : ∀ hdr start data, rec ≠ .appData hdr start data)
    (k : ReadKS) (d : DecInfo) (o : Bool) :
    (readHandler n rec (k, (d, o)) = (.ok (), (k, (d, o))) ∧ rec = .handshake .newSessionTicket) ∨
    (∃ e, readHandler n rec (k, (d, o)) = (.err e, (k, (d, o)))) ∨
    (readHandler n rec (k, (d, o)) = (.err .connectionClosed, (k, (d, false))) ∧
      ∃ a, rec = .alert a ∧ a.description = .closeNotify) ∨
    (readHandler n rec (k, (d, o)) = (.panic, (k, (d, o))) ∧ ∃ m, rec = .handshake m ∧ m ≠ .newSessionTicket) := by
  cases rec with
  | appData hdr start data => exact absurd rfl (hrec hdr start data)
  | alert a =>
    simp only [readHandler]
    split
    · next h => exact .inr (.inr (.inl ⟨rfl, a, rfl, h⟩))
    · exact .inr (.inl ⟨_, rfl⟩)
  | changeCipherSpec => exact .inr (.inl ⟨_, rfl⟩)
  | handshake m =>
    cases m with
    | newSessionTicket => exact .inl ⟨rfl, rfl⟩
    | _ => exact .inr (.inr (.inr ⟨rfl, _, rfl, by simp⟩))

theorem RecordHeader.decode_data (hb : Bytes) (hd : RecordHeader) (h : RecordHeader.decode hb = .ok hd) :
    hd.data = hb := by
  unfold RecordHeader.decode at h
  split at h
  · split at h
    · cases h
    · injection h with h; rw [← h]
  · cases h

theorem serverRecordDecode_ok (h : RecordHeader) (start : Nat) (data tr : Bytes) (rec : ServerRecord)
    (hr : (ServerRecord.decode S h start data tr).1 = .ok rec) :
    (∀ hdr st d, rec = .appData hdr st d → hdr = h.data ∧ d = data ∧ h.contentType = .applicationData) ∧
    (∀ m, rec = .handshake m → h.contentType = .handshake ∧ ∃ s, ServerHs.read S (PB.new data, tr) = (.ok m, s)) := by
  unfold ServerRecord.decode at hr
  split at hr
  · simp at hr
  · cases hct : h.contentType <;> simp only [hct] at hr
    · simp at hr
    · have : (Res.ok ServerRecord.changeCipherSpec : Res TlsError ServerRecord) = .ok rec := hr
      injection this with this
      subst this
      exact ⟨by simp, by simp⟩
    · generalize (Alert.parse (PB.new data)).1 = x at hr
      cases x with
      | ok a =>
        simp only [Res.map, Res.ok.injEq] at hr
        subst hr
        exact ⟨by simp, by simp⟩
      | err e => simp [Res.map] at hr
      | panic => simp [Res.map] at hr
    · rcases hx : ServerHs.read S (PB.new data, tr) with ⟨x, s⟩
      rw [hx] at hr
      cases x with
      | ok a =>
        simp only [Res.map, Res.ok.injEq] at hr
        subst hr
        refine ⟨by simp, fun m hm => ⟨rfl, s, ?_⟩⟩
        injection hm with hm
        rw [hm]
      | err e => simp [Res.map] at hr
      | panic => simp [Res.map] at hr
    · simp only [M.pure_apply, Res.ok.injEq] at hr
      subst hr
      refine ⟨fun hdr st d hrec => ?_, by simp⟩
      injection hrec with h1 h2 h3
      exact ⟨h1.symm, h3.symm, rfl⟩

/-- Receiving one record, from any state with valid indices, over any transport. -/
theorem readApp_cases (hol : S.OpenLength) (h : RdHalf) (hg : h.Good) :
    Outcome S h (RdHalf.readApplicationData S h).1 (RdHalf.readApplicationData S h).2 := by
  have hf := readRecord_any S ⟨h.rr, h.rx, h.rks.transcript⟩ hg.rr
  unfold RdHalf.readApplicationData
  rcases hr : ETls.readRecord S ⟨h.rr, h.rx, h.rks.transcript⟩ with ⟨r, rr', rx', tr'⟩
  rw [hr] at hf
  obtain ⟨f1, f2, f3, f4, f5, f6, f7, f8, f9⟩ := hf
  simp only at f1 f2 f3 f4 f5 f6 f7 f8 f9
  have hread : RdHalf.readRecord S h =
      (r, { h with rr := rr', rx := rx', rks := { h.rks with transcript := tr' } }) := by
    unfold RdHalf.readRecord
    rw [hr]
  have hgood : ∀ (b : Bytes) (k : ReadKS) (o : Bool), b.length = rr'.buf.length →
      RdHalf.Good { h with rr := { rr' with buf := b }, rx := rx', rks := k, opened := o } := by
    intro b k o hb
    refine ⟨?_, ?_, hg.consumed⟩
    · unfold RR.Inv at f1 ⊢; simp only; omega
    · have := hg.dec
      simp only; omega
  cases r with
  | panic =>
    rw [M.bind_panic hread]
    exact .panic _ (.pending fun hp => f7 hp rfl)
  | err e =>
    rw [M.bind_err hread]
    exact .error _ e rfl rfl rfl (hgood rr'.buf _ h.opened rfl) f3
  | ok rec =>
    rw [M.bind_ok hread]
    have hsz := f4 rec rfl
    cases rec with
    | appData hdr start data =>
      obtain ⟨d1, d2⟩ := f6 hdr start data rfl
      have hwire : h.rr.pending = 0 → ∃ rest, h.rx.bytes = hdr ++ data ++ rest ∧ hdr.length = 5 := by
        intro hp
        obtain ⟨hb, payload, hd, st, w1, w2, w3, w4, w5, -⟩ := f8 hp _ rfl
        obtain ⟨x1, x2, _⟩ := (serverRecordDecode_ok S hd st payload _ _ (congrArg Prod.fst w5)).1 _ _ _ rfl
        have := RecordHeader.decode_data hb hd w2
        rw [x1, x2, this]
        exact ⟨_, w4, w1⟩
      unfold RdHalf.decrypt decryptRecord
      simp only
      rcases ho : S.open_ h.rks.st.key (KsState.nonce S h.rks.st) hdr data with _ | pt
      · simp only
        exact .error _ _ rfl rfl rfl (hgood rr'.buf _ h.opened rfl) f3
      · simp only
        have hol' := hol _ _ _ _ _ ho
        have hspl := splice_length rr'.buf pt start (by omega)
        have hdisp := dispatch_cases S rr'.buf.length start hdr pt { h.rks with transcript := tr' } h.dec h.opened
        generalize dispatchInner S (readHandler rr'.buf.length) hdr start pt
          ({ h.rks with transcript := tr' }, (h.dec, h.opened)) = res at hdisp
        obtain ⟨res, k', d', o'⟩ := res
        simp only at hdisp
        cases hdisp with
        | data content hs hb =>
          simp only [ReadKS.increment, KsState.increment]
          by_cases hc : h.rks.st.counter + 1 < 2 ^ 64
          · rw [if_pos hc]
            have hpre : content.length + 1 ≤ pt.length := by
              have := (stripPadding_prefix pt).length_le
              rw [hs] at this
              simpa using this
            refine .data _ hdr data pt content start ho hs rfl hc rfl rfl ?_ ?_ hsz ⟨_, _, hread⟩
            · unfold RdHalf.unread
              simp only [Nat.add_zero, Nat.sub_zero]
              have h1 := splice_read rr'.buf pt start (by omega)
              have h2 : content <+: pt := by
                have := stripPadding_prefix pt
                rw [hs] at this
                exact (List.prefix_append _ _).trans this
              obtain ⟨z, hz⟩ := h2
              have : ((CB.splice rr'.buf start pt).drop start).take content.length =
                  ((((CB.splice rr'.buf start pt).drop start).take pt.length).take content.length) := by
                rw [List.take_take, Nat.min_eq_left (by omega)]
              rw [this, h1, ← hz, List.take_left]
            · refine ⟨?_, ?_, ?_⟩
              · unfold RR.Inv at f1 ⊢; simp only; omega
              · simp only; omega
              · simp
          · rw [if_neg hc]
            exact .panic _ (.counter (by omega))
        | tickets content hs k' hk =>
          simp only [ReadKS.increment, KsState.increment]
          simp only at hk
          by_cases hc : h.rks.st.counter + 1 < 2 ^ 64
          · rw [hk, if_pos hc]
            exact .tickets _ hdr data pt content ho hs rfl hc rfl rfl (hgood _ _ h.opened hspl) hsz ⟨_, _, hread⟩
          · rw [hk, if_neg hc]
            exact .panic _ (.counter (by omega))
        | error e k' hk =>
          exact .error _ e hk rfl rfl (hgood _ _ h.opened hspl) f3
        | closed hs =>
          exact .closed _ rfl rfl rfl (hgood _ _ false hspl) f3
        | empty hp x =>
          refine .panic _ ?_
          by_cases hpend : h.rr.pending = 0
          · obtain ⟨rest, w1, w2⟩ := hwire hpend
            rw [hp] at ho
            exact .emptyInner hdr data rest w1 w2 ho
          · exact .pending hpend
        | tooLong content hs hb x =>
          exfalso
          have := (stripPadding_prefix pt).length_le
          rw [hs] at this
          simp at this
          omega
        | message content hs q tr m s q1 q2 q3 x =>
          refine .panic _ ?_
          by_cases hpend : h.rr.pending = 0
          · obtain ⟨rest, w1, w2⟩ := hwire hpend
            exact .protectedHandshake hdr data rest w1 w2 pt content ho hs q tr m s q1 q2 q3
          · exact .pending hpend
    | alert al =>
      have hp := readHandler_plain rr'.buf.length (.alert al) (by simp) { h.rks with transcript := tr' } h.dec h.opened
      rcases hp with ⟨_, h2⟩ | ⟨e, h1⟩ | ⟨h1, _⟩ | ⟨_, m, h2, _⟩
      · cases h2
      · unfold RdHalf.decrypt decryptRecord
        simp only [h1]
        exact .error _ e rfl rfl rfl (hgood rr'.buf _ h.opened rfl) f3
      · unfold RdHalf.decrypt decryptRecord
        simp only [h1]
        exact .closed _ rfl rfl rfl (hgood rr'.buf _ false rfl) f3
      · cases h2
    | changeCipherSpec =>
      exact .error _ _ rfl rfl rfl (hgood rr'.buf _ h.opened rfl) f3
    | handshake m =>
      have hp := readHandler_plain rr'.buf.length (.handshake m) (by simp) { h.rks with transcript := tr' } h.dec h.opened
      rcases hp with ⟨h1, _⟩ | ⟨e, h1⟩ | ⟨_, a, h2, _⟩ | ⟨h1, m', h2, h3⟩
      · unfold RdHalf.decrypt decryptRecord
        simp only [h1]
        exact .plainTicket _ rfl rfl rfl (hgood rr'.buf _ h.opened rfl) hsz
      · unfold RdHalf.decrypt decryptRecord
        simp only [h1]
        exact .error _ e rfl rfl rfl (hgood rr'.buf _ h.opened rfl) f3
      · cases h2
      · unfold RdHalf.decrypt decryptRecord
        simp only [h1]
        refine .panic _ ?_
        by_cases hpend : h.rr.pending = 0
        · obtain ⟨hb, payload, hd, st, w1, w2, w3, w4, w5, -⟩ := f8 hpend _ rfl
          obtain ⟨x1, s, x2⟩ := (serverRecordDecode_ok S hd st payload _ _ (congrArg Prod.fst w5)).2 m rfl
          injection h2 with h2
          subst h2
          exact .plainHandshake hb payload _ w4 hd w2 x1 w3.symm m s x2 h3
        · exact .pending hpend

/-! ## Several records -/

/-- `RdSteps h h'`: from `h`, with nothing unread before each, some records were received successfully, giving `h'`. -/
inductive RdSteps : RdHalf → RdHalf → Prop where
  | refl (h : RdHalf) : RdSteps h h
  | step (h h1 h2 : RdHalf) (hu : h.unread = []) (hr : RdHalf.readApplicationData S h = (.ok (), h1))
      (hs : RdSteps h1 h2) : RdSteps h h2

/-- What filling the buffer can do. -/
inductive Filled (h : RdHalf) : Res TlsError Unit → RdHalf → Prop where
  | ok (h' : RdHalf) (hs : RdSteps S h h') (hu : h'.unread ≠ []) : Filled h (.ok ()) h'
  | err (h1 h' : RdHalf) (e : TlsError) (hs : RdSteps S h h1) (hu : h1.unread = [])
      (hr : RdHalf.readApplicationData S h1 = (.err e, h')) : Filled h (.err e) h'
  | panic (h1 h' : RdHalf) (hs : RdSteps S h h1) (hu : h1.unread = [])
      (hr : RdHalf.readApplicationData S h1 = (.panic, h')) : Filled h .panic h'

/-- What every successful step does. -/
theorem Outcome.ok_facts {h h' : RdHalf} (ho : Outcome S h (.ok ()) h') :
    h'.Good ∧ h'.rx.size + 5 ≤ h.rx.size ∧ h'.opened = h.opened ∧ h'.rks.st.key = h.rks.st.key ∧
      h'.rks.st.iv = h.rks.st.iv := by
  cases ho with
  | data _ hdr ct pt content start ho hs hst hc hopen hdec hu hg hsz ht => exact ⟨hg, hsz, hopen, by rw [hst], by rw [hst]⟩
  | tickets _ hdr ct pt content ho hs hst hc hopen hdec hg hsz ht => exact ⟨hg, hsz, hopen, by rw [hst], by rw [hst]⟩
  | plainTicket _ hst hopen hdec hg hsz => exact ⟨hg, hsz, hopen, by rw [hst], by rw [hst]⟩

theorem readApp_outcome (hol : S.OpenLength) {h h' : RdHalf} {r : Res TlsError Unit} (hg : h.Good)
    (hr : RdHalf.readApplicationData S h = (r, h')) : Outcome S h r h' := by
  have := readApp_cases S hol h hg
  rw [hr] at this
  exact this

theorem RdSteps.facts (hol : S.OpenLength) {h h' : RdHalf} (hs : RdSteps S h h') (hg : h.Good) :
    h'.Good ∧ h'.rx.size ≤ h.rx.size ∧ h'.opened = h.opened := by
  induction hs with
  | refl h => exact ⟨hg, Nat.le_refl _, rfl⟩
  | step h h1 h2 hu hr hs ih =>
    obtain ⟨g1, g2, g3, _⟩ := (readApp_outcome S hol hg hr).ok_facts
    obtain ⟨k1, k2, k3⟩ := ih g1
    exact ⟨k1, by omega, k3.trans g3⟩

theorem fillLoop_cases (hol : S.OpenLength) (fuel : Nat) : ∀ h : RdHalf, h.Good → h.rx.size < fuel →
    Filled S h (RdHalf.fillLoop S fuel h).1 (RdHalf.fillLoop S fuel h).2 := by
  induction fuel with
  | zero => intro h _ hf; omega
  | succ fuel ih =>
    intro h hg hf
    unfold RdHalf.fillLoop
    rw [M.get_bind]
    by_cases he : h.dec.isEmpty = true
    · rw [if_pos he]
      have hu := (h.isEmpty_iff hg).1 he
      rcases hr : RdHalf.readApplicationData S h with ⟨r, h1⟩
      cases r with
      | err e => rw [M.bind_err hr]; exact .err h h1 e (.refl h) hu hr
      | panic => rw [M.bind_panic hr]; exact .panic h h1 (.refl h) hu hr
      | ok u =>
        rw [M.bind_ok hr]
        obtain ⟨g1, g2, _⟩ := (readApp_outcome S hol hg hr).ok_facts
        have hi := ih h1 g1 (by omega)
        generalize RdHalf.fillLoop S fuel h1 = res at hi
        obtain ⟨res, h'⟩ := res
        simp only at hi ⊢
        cases hi with
        | ok _ hs hu' => exact .ok _ (.step h h1 _ hu hr hs) hu'
        | err h2 _ e hs hu' hr' => exact .err h2 _ e (.step h h1 _ hu hr hs) hu' hr'
        | panic h2 _ hs hu' hr' => exact .panic h2 _ (.step h h1 _ hu hr hs) hu' hr'
    · rw [if_neg he]
      exact .ok h (.refl h) fun hu => he ((h.isEmpty_iff hg).2 hu)

theorem fill_cases (hol : S.OpenLength) (h : RdHalf) (hg : h.Good) (ho : h.opened = true) :
    Filled S h (RdHalf.fill S h).1 (RdHalf.fill S h).2 := by
  unfold RdHalf.fill
  rw [M.get_bind, if_pos ho]
  exact fillLoop_cases S hol _ h hg (by omega)

theorem fill_closed (h : RdHalf) (ho : h.opened = false) : RdHalf.fill S h = (.err .missingHandshake, h) := by
  unfold RdHalf.fill
  rw [M.get_bind, if_neg (by simp [ho])]
  rfl

theorem fill_unread (h : RdHalf) (hg : h.Good) (ho : h.opened = true) (hu : h.unread ≠ []) :
    RdHalf.fill S h = (.ok (), h) := by
  unfold RdHalf.fill
  rw [M.get_bind, if_pos ho]
  unfold RdHalf.fillLoop
  rw [M.get_bind, if_neg]
  · rfl
  · intro he
    exact hu ((h.isEmpty_iff hg).1 he)

/-- The calls a `ROp` makes on the read buffer. -/
def ROp.calls : ROp → List RBufOp × Bool
  | .read n => ([.popInto n], false)
  | .fillBuf => ([.peekAll], false)
  | .consume n => ([.pop n], false)
  | .buffered ops rv => (ops, rv)

/-- Whether a call needs data to be available. -/
def ROp.Fills : ROp → Prop
  | .read n => n ≠ 0
  | .consume _ => False
  | _ => True

/-- A call that needs data fills the buffer and then uses it. -/
theorem ROp.run_fills (op : ROp) (hf : op.Fills) (h : RdHalf) :
    op.run S h = (do RdHalf.fill S; RdHalf.useBuffer op.calls.1 op.calls.2 : M TlsError RdHalf ROut) h := by
  cases op with
  | read n => simp only [ROp.Fills] at hf; simp only [ROp.run, ROp.calls]; rw [if_neg hf]
  | fillBuf => rfl
  | consume n => exact absurd hf (by simp [ROp.Fills])
  | buffered ops rv => rfl

/-- What a call can do, over any transport. -/
inductive Called (h : RdHalf) (op : ROp) : Res TlsError ROut → RdHalf → Prop where
  /-- `read` into an empty buffer -/
  | nothing (hop : op = .read 0) : Called h op (.ok ⟨[], [[]], []⟩) h
  /-- some bytes were shown -/
  | ok (h1 : RdHalf) (hs : RdSteps S h h1) (hg : h1.Good) (hu : op.Fills → h1.unread ≠ [])
      (hop : op ≠ .read 0) (hc : ¬ op.Fills → h1 = h) (hopen : op.Fills → h.opened = true) :
      Called h op (.ok ⟨h1.unread, (Spec.borrow (op.calls.1.map RBufOp.call) op.calls.2 h1.unread).1,
        (Spec.borrow (op.calls.1.map RBufOp.call) op.calls.2 h1.unread).2⟩)
        (h1.eat (Spec.borrow (op.calls.1.map RBufOp.call) op.calls.2 h1.unread).2.length)
  | notOpen (hf : op.Fills) (ho : h.opened = false) : Called h op (.err .missingHandshake) h
  | err (hf : op.Fills) (h1 h' : RdHalf) (e : TlsError) (hs : RdSteps S h h1) (hu : h1.unread = [])
      (hr : RdHalf.readApplicationData S h1 = (.err e, h')) (ho : h.opened = true) : Called h op (.err e) h'
  | panic (hf : op.Fills) (h1 h' : RdHalf) (hs : RdSteps S h h1) (hu : h1.unread = [])
      (hr : RdHalf.readApplicationData S h1 = (.panic, h')) (ho : h.opened = true) : Called h op .panic h'

theorem ROp.run_cases (hol : S.OpenLength) (op : ROp) (h : RdHalf) (hg : h.Good) :
    Called S h op (op.run S h).1 (op.run S h).2 := by
  by_cases hf : op.Fills
  · rw [op.run_fills S hf]
    cases ho : h.opened with
    | false =>
      rw [M.bind_err (fill_closed S h ho)]
      exact .notOpen hf ho
    | true =>
      have hc := fill_cases S hol h hg ho
      rcases hr : RdHalf.fill S h with ⟨r, h1⟩
      rw [hr] at hc
      simp only at hc
      cases hc with
      | ok _ hs hu =>
        obtain ⟨hg1, _, _⟩ := hs.facts S hol hg
        rw [M.bind_ok hr, RdHalf.useBuffer_run _ _ _ hg1]
        refine .ok h1 hs hg1 (fun _ => hu) ?_ (fun h => absurd hf h) (fun _ => ho)
        rintro rfl
        simp [ROp.Fills] at hf
      | err h2 _ e hs hu hr' => rw [M.bind_err hr]; exact .err hf h2 _ e hs hu hr' ho
      | panic h2 _ hs hu hr' => rw [M.bind_panic hr]; exact .panic hf h2 _ hs hu hr' ho
  · cases op with
    | read n =>
      simp only [ROp.Fills, not_not] at hf
      subst hf
      exact .nothing rfl
    | consume n =>
      simp only [ROp.run]
      rw [RdHalf.useBuffer_run _ _ _ hg]
      exact .ok h (.refl h) hg (fun h => absurd h hf) (by simp) (fun _ => rfl) (fun h => absurd h hf)
    | fillBuf => exact absurd trivial hf
    | buffered ops rv => exact absurd trivial hf

end ETls
