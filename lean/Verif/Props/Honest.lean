import Verif.Proofs.Honest
import Verif.Props.ReadSafety

/-! # C19, C20, C23 -/

namespace ETls

variable (S : Suite)

open Spec (Fragment Stream BufCall)

/-! ## C19 -/

/-- **C19** Two transports that deliver the same bytes in different non-empty chunks (then end): every history of
reading calls has the same results, and leaves readers that again differ only in the chunking of the same remaining
bytes.  (`Rx.Clean`: no errors, and no empty chunk, which would be an end of stream.) -/
theorem C19_chunking (ops : List ROp) : ∀ (h : RdHalf) (rx' : Rx), h.rx.Clean → rx'.Clean → rx'.bytes = h.rx.bytes →
    h.rr.Between h.rx.bytes →
    (runReads S ops { h with rx := rx' }).1 = (runReads S ops h).1 ∧
    ∃ rx'', rx''.Clean ∧ rx''.bytes = (runReads S ops h).2.rx.bytes ∧
      (runReads S ops { h with rx := rx' }).2 = { (runReads S ops h).2 with rx := rx'' } := by
  intro h rx' hc hc' hb hbt
  have hs : SameBytes h { h with rx := rx' } := ⟨rfl, hc, hc', hb, hbt⟩
  have key : ∀ (ops : List ROp) (h h' : RdHalf), SameBytes h h' →
      (runReads S ops h').1 = (runReads S ops h).1 ∧ SameBytes (runReads S ops h).2 (runReads S ops h').2 := by
    intro ops
    induction ops with
    | nil => intro h h' hs; exact ⟨rfl, hs⟩
    | cons op ops ih =>
      intro h h' hs
      obtain ⟨g1, g2⟩ := hs.run S op
      unfold runReads
      rcases hr : op.run S h with ⟨r, h1⟩
      rcases hr' : op.run S h' with ⟨r', h1'⟩
      rw [hr, hr'] at g1 g2
      simp only at g1 g2
      subst g1
      obtain ⟨i1, i2⟩ := ih h1 h1' g2
      cases r' with
      | panic => exact ⟨rfl, g2⟩
      | err e => simp only; exact ⟨by rw [i1], i2⟩
      | ok o => simp only; exact ⟨by rw [i1], i2⟩
  obtain ⟨k1, k2⟩ := key ops h _ hs
  exact ⟨k1, _, k2.clean', k2.bytes, k2.eq⟩

/-- The bytes one by one. -/
def byteWise (bs : Bytes) : Rx := bs.map fun b => .data [b]

theorem byteWise_clean (bs : Bytes) : (byteWise bs).Clean ∧ (byteWise bs).bytes = bs := by
  induction bs with
  | nil => exact ⟨(by intro e he; cases he), rfl⟩
  | cons b bs ih =>
    refine ⟨?_, ?_⟩
    · intro e he
      rcases List.mem_cons.1 he with rfl | he
      · exact ⟨[b], by simp, rfl⟩
      · exact ih.1 e he
    · show b :: (byteWise bs).bytes = b :: bs
      rw [ih.2]

/-- Two records in one chunk, and byte by byte. -/
example : (runReads toySuite [.read 1, .fillBuf, .read 10, .read 10, .read 1]
      (exConn (byteWise (exRecord 0 [7, 8] ++ exRecord 1 [9]))).rd).1 =
    (runReads toySuite [.read 1, .fillBuf, .read 10, .read 10, .read 1]
      (exConn [.data (exRecord 0 [7, 8] ++ exRecord 1 [9])]).rd).1 :=
  (C19_chunking toySuite _ (exConn [.data (exRecord 0 [7, 8] ++ exRecord 1 [9])]).rd _
    (by intro e he; simp only [exConn, Conn.rd, List.mem_singleton] at he; exact ⟨_, by decide, he⟩)
    (byteWise_clean _).1 (by rw [(byteWise_clean _).2]; simp [exConn, Conn.rd, Rx.bytes])
    ⟨by decide +kernel, .inl rfl⟩).1

/-! ## C23 -/

/-- The slices handed out by taking calls. -/
def poppedSlices : List RBufOp → List Bytes → Bytes
  | .peek _ :: ops, _ :: ds => poppedSlices ops ds
  | .peekAll :: ops, _ :: ds => poppedSlices ops ds
  | _ :: ops, d :: ds => d ++ poppedSlices ops ds
  | _, _ => []

/-- A sequence of calls on some bytes: what is taken is a prefix, made of the slices handed out by the taking calls
in order, and every looking call shows what comes after the bytes taken before it. -/
theorem calls_facts (ops : List RBufOp) : ∀ d : Bytes,
    (Spec.calls (ops.map RBufOp.call) d).1.length = ops.length ∧
    poppedSlices ops (Spec.calls (ops.map RBufOp.call) d).1 = d.take (Spec.calls (ops.map RBufOp.call) d).2 ∧
    ∀ (i : Nat) (s : Bytes), (Spec.calls (ops.map RBufOp.call) d).1[i]? = some s →
      poppedSlices (ops.take i) ((Spec.calls (ops.map RBufOp.call) d).1.take i) ++ s <+: d := by
  induction ops with
  | nil => intro d; exact ⟨rfl, by simp [Spec.calls, poppedSlices], by simp [Spec.calls]⟩
  | cons op ops ih =>
    intro d
    have look : ∀ (c : BufCall) (n : Nat), RBufOp.call op = c →
        Spec.calls (c :: ops.map RBufOp.call) d = (d.take n :: (Spec.calls (ops.map RBufOp.call) d).1,
          (Spec.calls (ops.map RBufOp.call) d).2) →
        (∀ ds s, poppedSlices (op :: ops) (s :: ds) = poppedSlices ops ds) →
        (∀ i ds s, poppedSlices (op :: ops.take i) (s :: ds) = poppedSlices (ops.take i) ds) →
        (Spec.calls ((op :: ops).map RBufOp.call) d).1.length = (op :: ops).length ∧
        poppedSlices (op :: ops) (Spec.calls ((op :: ops).map RBufOp.call) d).1 =
          d.take (Spec.calls ((op :: ops).map RBufOp.call) d).2 ∧
        ∀ (i : Nat) (s : Bytes), (Spec.calls ((op :: ops).map RBufOp.call) d).1[i]? = some s →
          poppedSlices ((op :: ops).take i) ((Spec.calls ((op :: ops).map RBufOp.call) d).1.take i) ++ s <+: d := by
      intro c n hc hcalls hp hp'
      obtain ⟨i1, i2, i3⟩ := ih d
      rw [List.map_cons, hc, hcalls]
      refine ⟨by simp [i1], by rw [hp]; exact i2, fun i s hs => ?_⟩
      cases i with
      | zero =>
        simp only [List.getElem?_cons_zero, Option.some.injEq] at hs
        subst hs
        simpa [poppedSlices] using List.take_prefix n d
      | succ i =>
        simp only [List.getElem?_cons_succ] at hs
        simp only [List.take_succ_cons]
        rw [hp']
        exact i3 i s hs
    have take : ∀ (c : BufCall) (n : Nat), RBufOp.call op = c →
        Spec.calls (c :: ops.map RBufOp.call) d = (d.take n :: (Spec.calls (ops.map RBufOp.call) (d.drop n)).1,
          min n d.length + (Spec.calls (ops.map RBufOp.call) (d.drop n)).2) →
        (∀ ds s, poppedSlices (op :: ops) (s :: ds) = s ++ poppedSlices ops ds) →
        (∀ i ds s, poppedSlices (op :: ops.take i) (s :: ds) = s ++ poppedSlices (ops.take i) ds) →
        (Spec.calls ((op :: ops).map RBufOp.call) d).1.length = (op :: ops).length ∧
        poppedSlices (op :: ops) (Spec.calls ((op :: ops).map RBufOp.call) d).1 =
          d.take (Spec.calls ((op :: ops).map RBufOp.call) d).2 ∧
        ∀ (i : Nat) (s : Bytes), (Spec.calls ((op :: ops).map RBufOp.call) d).1[i]? = some s →
          poppedSlices ((op :: ops).take i) ((Spec.calls ((op :: ops).map RBufOp.call) d).1.take i) ++ s <+: d := by
      intro c n hc hcalls hp hp'
      obtain ⟨i1, i2, i3⟩ := ih (d.drop n)
      rw [List.map_cons, hc, hcalls]
      refine ⟨by simp [i1], ?_, fun i s hs => ?_⟩
      · rw [hp, i2]
        simp only [List.take_add]
        congr 1
        · rw [List.take_eq_take_iff]; omega
        · congr 1
          by_cases h : n ≤ d.length
          · rw [Nat.min_eq_left h]
          · rw [List.drop_of_length_le, List.drop_of_length_le] <;> omega
      · cases i with
        | zero =>
          simp only [List.getElem?_cons_zero, Option.some.injEq] at hs
          subst hs
          simpa [poppedSlices] using List.take_prefix n d
        | succ i =>
          simp only [List.getElem?_cons_succ] at hs
          simp only [List.take_succ_cons]
          rw [hp', List.append_assoc]
          obtain ⟨z, hz⟩ := i3 i s hs
          refine ⟨z, ?_⟩
          rw [List.append_assoc, hz, List.take_append_drop]
    cases op with
    | peek n => exact look (.peek n) n rfl rfl (fun _ _ => rfl) (fun _ _ _ => rfl)
    | peekAll => exact look .peekAll d.length rfl (by simp [Spec.calls]) (fun _ _ => rfl) (fun _ _ _ => rfl)
    | pop n => exact take (.pop n) n rfl rfl (fun _ _ => rfl) (fun _ _ _ => rfl)
    | popAll => exact take .popAll d.length rfl (by simp [Spec.calls]) (fun _ _ => rfl) (fun _ _ _ => rfl)
    | popInto n => exact take (.pop n) n rfl rfl (fun _ _ => rfl) (fun _ _ _ => rfl)

/-- **C23** `read_buffered` over any transport, with any calls on the buffer, when it succeeds: the slices handed out
by looking and taking calls show what comes after the bytes taken before; if the buffer is dropped, what was taken
is gone and the rest is seen again; if it is dropped untouched everything is gone; if it is reverted everything is
seen again. -/
theorem C23_buffered (hol : S.OpenLength) (ops : List RBufOp) (rv : Bool) (h h' : RdHalf) (hg : h.Good) (o : ROut)
    (hr : ROp.run S (.buffered ops rv) h = (.ok o, h')) :
    o.shown ≠ [] ∧ o.seen.length = ops.length ∧
    (∀ (i : Nat) (s : Bytes), o.seen[i]? = some s → poppedSlices (ops.take i) (o.seen.take i) ++ s <+: o.shown) ∧
    o.taken ++ h'.unread = o.shown ∧
    o.taken = (if rv then [] else if ops = [] then o.shown else poppedSlices ops o.seen) := by
  have hc := ROp.run_cases S hol (.buffered ops rv) h hg
  rw [hr] at hc
  simp only at hc
  cases hc with
  | nothing hop => simp at hop
  | ok h1 hs hg1 hu hop hcs hopen =>
    simp only [ROp.calls]
    obtain ⟨f1, f2, f3⟩ := calls_facts ops h1.unread
    refine ⟨hu trivial, ?_, ?_, ?_, ?_⟩
    · simpa [Spec.borrow] using f1
    · simpa [Spec.borrow] using f3
    · rw [RdHalf.eat_unread]
      have hbt := borrow_take (ops.map RBufOp.call) rv h1.unread
      have := List.take_append_drop (Spec.borrow (ops.map RBufOp.call) rv h1.unread).2.length h1.unread
      rwa [← hbt] at this
    · simp only [Spec.borrow, List.map_eq_nil_iff, f2]

/-- **C23** The other reading calls over any transport, when they succeed: `read` takes the first bytes available,
`fill_buf` shows what is available and takes nothing, `consume` takes up to the given number; what was not taken is
seen again. -/
theorem C23_calls (hol : S.OpenLength) (h h' : RdHalf) (hg : h.Good) (o : ROut) :
    (∀ n, n ≠ 0 → ROp.run S (.read n) h = (.ok o, h') →
      o.shown ≠ [] ∧ o.taken = o.shown.take n ∧ o.seen = [o.taken] ∧ o.taken ++ h'.unread = o.shown) ∧
    (ROp.run S .fillBuf h = (.ok o, h') → o.shown ≠ [] ∧ o.taken = [] ∧ o.seen = [o.shown] ∧ h'.unread = o.shown) ∧
    (∀ n, ROp.run S (.consume n) h = (.ok o, h') →
      o.shown = h.unread ∧ o.taken = o.shown.take n ∧ o.taken ++ h'.unread = o.shown) := by
  refine ⟨fun n hn hr => ?_, fun hr => ?_, fun n hr => ?_⟩
  · have hc := ROp.run_cases S hol (.read n) h hg
    rw [hr] at hc
    simp only at hc
    cases hc with
    | nothing hop => simp at hop; exact absurd hop hn
    | ok h1 hs hg1 hu hop hcs hopen =>
      refine ⟨hu hn, ?_, ?_, ?_⟩
      · simp [ROp.calls, Spec.borrow, Spec.calls, RBufOp.call]
      · simp [ROp.calls, Spec.borrow, Spec.calls, RBufOp.call]
      · rw [RdHalf.eat_unread]
        have hbt := borrow_take ((ROp.read n).calls.1.map RBufOp.call) (ROp.read n).calls.2 h1.unread
        have := List.take_append_drop (Spec.borrow ((ROp.read n).calls.1.map RBufOp.call) (ROp.read n).calls.2 h1.unread).2.length h1.unread
        rwa [← hbt] at this
  · have hc := ROp.run_cases S hol .fillBuf h hg
    rw [hr] at hc
    simp only at hc
    cases hc with
    | nothing hop => simp at hop
    | ok h1 hs hg1 hu hop hcs hopen =>
      refine ⟨hu trivial, ?_, ?_, ?_⟩
      · simp [ROp.calls, Spec.borrow, Spec.calls, RBufOp.call]
      · simp [ROp.calls, Spec.borrow, Spec.calls, RBufOp.call]
      · rw [RdHalf.eat_unread]
        simp [ROp.calls, Spec.borrow, Spec.calls, RBufOp.call]
  · have hc := ROp.run_cases S hol (.consume n) h hg
    rw [hr] at hc
    simp only at hc
    cases hc with
    | nothing hop => simp at hop
    | ok h1 hs hg1 hu hop hcs hopen =>
      have hh := hcs (by simp [ROp.Fills])
      subst hh
      refine ⟨rfl, ?_, ?_⟩
      · simp [ROp.calls, Spec.borrow, Spec.calls, RBufOp.call]
      · rw [RdHalf.eat_unread]
        have hbt := borrow_take ((ROp.consume n).calls.1.map RBufOp.call) (ROp.consume n).calls.2 h1.unread
        have := List.take_append_drop (Spec.borrow ((ROp.consume n).calls.1.map RBufOp.call) (ROp.consume n).calls.2 h1.unread).2.length h1.unread
        rwa [← hbt] at this

/-- **C23** An honest peer: every history of reading calls of any kind has exactly the results of the specification
`Spec.Stream` (peeked or reverted bytes are there again, taken ones are not, a dropped untouched buffer is gone); the
only error is the end of the stream, and nothing panics. -/
theorem C23_refines (hS : S.Lawful) (ops : List ROp) : ∀ (fs : List Fragment) (h : RdHalf), Honest S fs h →
    (runReads S ops h).1.map specOut = ((Stream.run (ops.map ROp.spec) (streamOf fs h)).1).map some ∧
    ∃ fs', Honest S fs' (runReads S ops h).2 ∧
      streamOf fs' (runReads S ops h).2 = (Stream.run (ops.map ROp.spec) (streamOf fs h)).2 := by
  induction ops with
  | nil => intro fs h hh; exact ⟨rfl, fs, hh, rfl⟩
  | cons op ops ih =>
    intro fs h hh
    obtain ⟨fs1, r1, r2, r3⟩ := hh.run S hS op
    unfold runReads
    rcases hr : op.run S h with ⟨r, h1⟩
    rw [hr] at r1 r2 r3
    simp only at r1 r2 r3
    obtain ⟨i1, fs', i2, i3⟩ := ih fs1 h1 r1
    simp only [List.map_cons, Stream.run]
    rw [← r3]
    cases r with
    | panic => simp [specOut] at r2
    | err e => simp only [List.map_cons]; exact ⟨by rw [r2, i1], fs', i2, i3⟩
    | ok o => simp only [List.map_cons]; exact ⟨by rw [r2, i1], fs', i2, i3⟩

theorem fill_total (rest : List Bytes) : ∀ cur : Bytes, (Stream.fill cur rest).unread = cur ++ rest.flatten := by
  induction rest with
  | nil => intro cur; cases cur <;> simp [Stream.fill, Stream.unread]
  | cons r rs ih =>
    intro cur
    cases cur with
    | nil => simp [Stream.fill, ih]
    | cons c cs => simp [Stream.fill, Stream.unread]

/-- The bytes taken by a specification result. -/
def specTaken : Option (List Bytes × Bytes) → Bytes
  | some (_, t) => t
  | none => []

theorem use_total (cs : List BufCall) (rv : Bool) (s : Stream) :
    specTaken (s.use cs rv).1 ++ (s.use cs rv).2.unread = s.unread := by
  simp only [Stream.use, specTaken, Stream.unread]
  have hbt := borrow_take cs rv s.cur
  have := List.take_append_drop (Spec.borrow cs rv s.cur).2.length s.cur
  rw [← hbt] at this
  rw [← List.append_assoc, this]

theorem call_total (c : Spec.ReadCall) (s : Stream) :
    specTaken (c.run s).1 ++ (c.run s).2.unread = s.unread ∧ ((c.run s).1 = none → s.unread = []) := by
  have hft : ∀ cs rv, specTaken (s.fillThen cs rv).1 ++ (s.fillThen cs rv).2.unread = s.unread ∧
      ((s.fillThen cs rv).1 = none → s.unread = []) := by
    intro cs rv
    unfold Stream.fillThen
    by_cases h : s.unread = []
    · rw [if_pos h]; exact ⟨by rw [h]; rfl, fun _ => h⟩
    · rw [if_neg h]
      exact ⟨by rw [use_total, fill_total]; rfl, by simp [Stream.use]⟩
  cases c with
  | read n =>
    simp only [Spec.ReadCall.run]
    by_cases hn : n = 0
    · rw [if_pos hn]; exact ⟨rfl, by simp⟩
    · rw [if_neg hn]; exact hft _ _
  | fillBuf => exact hft _ _
  | consume n => exact ⟨use_total _ _ s, by simp [Spec.ReadCall.run, Stream.use]⟩
  | buffered cs rv => exact hft _ _

/-- The specification hands over each byte exactly once and in order, and reports the end of the stream only when
everything has been handed over. -/
theorem run_total (cs : List Spec.ReadCall) : ∀ s : Stream,
    ((Stream.run cs s).1.map specTaken).flatten ++ (Stream.run cs s).2.unread = s.unread ∧
    ∀ i : Nat, (Stream.run cs s).1[i]? = some none → (((Stream.run cs s).1.take i).map specTaken).flatten = s.unread := by
  induction cs with
  | nil => intro s; exact ⟨rfl, by simp [Stream.run]⟩
  | cons c cs ih =>
    intro s
    obtain ⟨i1, i2⟩ := ih (c.run s).2
    obtain ⟨c1, c2⟩ := call_total c s
    simp only [Stream.run]
    refine ⟨?_, fun i hi => ?_⟩
    · rw [List.map_cons, List.flatten_cons, List.append_assoc, i1, c1]
    · cases i with
      | zero =>
        simp only [List.getElem?_cons_zero, Option.some.injEq] at hi
        simp [c2 hi]
      | succ i =>
        simp only [List.getElem?_cons_succ] at hi
        simp only [List.take_succ_cons, List.map_cons, List.flatten_cons]
        rw [i2 i hi, c1]

/-! ## C20 -/

theorem delivered_spec (rs : List (Res TlsError ROut)) : ∀ (ss : List (Option (List Bytes × Bytes))),
    rs.map specOut = ss.map some → delivered rs = (ss.map specTaken).flatten := by
  induction rs with
  | nil => intro ss h; cases ss with
    | nil => rfl
    | cons s ss => simp at h
  | cons r rs ih =>
    intro ss h
    cases ss with
    | nil => simp at h
    | cons s ss =>
      simp only [List.map_cons, List.cons.injEq] at h
      have h1 : takenOf r = specTaken s := by
        cases r with
        | ok o => simp only [specOut, Option.some.injEq] at h; rw [← h.1]; rfl
        | err e =>
          cases e <;> simp only [specOut, reduceCtorEq, false_and, Option.some.injEq] at h
          rw [← h.1]; rfl
        | panic => simp [specOut] at h
      have := ih ss h.2
      simp only [delivered] at this ⊢
      simp only [List.map_cons, List.flatten_cons, h1, this]

/-- **C20** An honest peer's records (application data of any size that fits, any padding, empty ones included, and
session tickets), over any chunking, read with any calls: no call panics, the only error is the end of the stream;
what is delivered, followed by what is still unread and still to come, is exactly the application data sent; and the
end of the stream is reported only when all of it has been delivered. -/
theorem C20_honest (hS : S.Lawful) (fs : List Fragment) (h : RdHalf) (hh : Honest S fs h) (hu : h.unread = [])
    (ops : List ROp) :
    (∀ r ∈ (runReads S ops h).1, (∃ o, r = .ok o) ∨ r = .err .ioError) ∧
    (∃ fs', Honest S fs' (runReads S ops h).2 ∧
      delivered (runReads S ops h).1 ++ ((runReads S ops h).2.unread ++ dataOf fs') = dataOf fs) ∧
    ∀ i : Nat, (runReads S ops h).1[i]? = some (Res.err .ioError) →
      delivered ((runReads S ops h).1.take i) = dataOf fs := by
  obtain ⟨r1, fs', r2, r3⟩ := C23_refines S hS ops fs h hh
  obtain ⟨t1, t2⟩ := run_total (ops.map ROp.spec) (streamOf fs h)
  have hs0 : (streamOf fs h).unread = dataOf fs := by
    simp [streamOf, Stream.unread, hu, dataOf, List.flatMap]
  rw [hs0] at t1 t2
  refine ⟨fun r hr => ?_, ⟨fs', r2, ?_⟩, fun i hi => ?_⟩
  · have : specOut r ∈ (runReads S ops h).1.map specOut := List.mem_map_of_mem hr
    rw [r1] at this
    obtain ⟨s, _, hs⟩ := List.mem_map.1 this
    cases r with
    | ok o => exact .inl ⟨o, rfl⟩
    | panic => simp [specOut] at hs
    | err e => cases e <;> simp only [specOut, reduceCtorEq] at hs; exact .inr rfl
  · rw [delivered_spec _ _ r1, ← t1]
    congr 1
    rw [← r3]
    simp [streamOf, Stream.unread, dataOf, List.flatMap]
  · have h1 : ((runReads S ops h).1.take i).map specOut =
        ((Stream.run (ops.map ROp.spec) (streamOf fs h)).1.take i).map some := by
      rw [List.map_take, r1, List.map_take]
    rw [delivered_spec _ _ h1]
    apply t2
    have : ((runReads S ops h).1.map specOut)[i]? = some (some none) := by
      rw [List.getElem?_map, hi]; rfl
    rw [r1, List.getElem?_map] at this
    cases hx : (Stream.run (ops.map ROp.spec) (streamOf fs h)).1[i]? with
    | none => rw [hx] at this; simp at this
    | some s => rw [hx] at this; simpa using this

/-- Each `read` of the specification takes a byte or finds the end. -/
theorem read_progress (n : Nat) (hn : n ≠ 0) (s : Stream) : s.unread = [] ∨ specTaken ((Spec.ReadCall.read n).run s).1 ≠ [] := by
  simp only [Spec.ReadCall.run]
  rw [if_neg hn]
  unfold Stream.fillThen
  by_cases h : s.unread = []
  · exact .inl h
  · right
    rw [if_neg h]
    have hcur : ∀ (rest : List Bytes) (cur : Bytes), cur ++ rest.flatten ≠ [] → (Stream.fill cur rest).cur ≠ [] := by
      intro rest
      induction rest with
      | nil => intro cur h; cases cur with
        | nil => simp at h
        | cons c cs => simp [Stream.fill]
      | cons r rs ih =>
        intro cur h
        cases cur with
        | nil => exact ih r (by simpa using h)
        | cons c cs => simp [Stream.fill]
    have hc := hcur s.rest s.cur h
    simp only [Stream.use, specTaken, Spec.borrow, Spec.calls, Bool.false_eq_true, if_false, reduceCtorEq]
    intro h0
    have := congrArg List.length h0
    simp at this
    rcases this with h1 | h1
    · exact hn h1
    · exact hc h1

/-- **C20** Everything arrives: as many `read`s with non-empty buffers as there are bytes are enough to receive all
the data. -/
theorem C20_complete (hS : S.Lawful) (fs : List Fragment) (h : RdHalf) (hh : Honest S fs h) (hu : h.unread = [])
    (sizes : List Nat) (hsz : ∀ n ∈ sizes, n ≠ 0) (henough : (dataOf fs).length ≤ sizes.length) :
    delivered (runReads S (sizes.map .read) h).1 = dataOf fs := by
  have r1 := (C23_refines S hS (sizes.map .read) fs h hh).1
  rw [delivered_spec _ _ r1]
  have hs0 : (streamOf fs h).unread = dataOf fs := by
    simp [streamOf, Stream.unread, hu, dataOf, List.flatMap]
  rw [← hs0] at henough ⊢
  generalize streamOf fs h = s at *
  clear r1 hs0 hu hh
  induction sizes generalizing s with
  | nil =>
    simp only [List.length_nil, Nat.le_zero, List.length_eq_zero_iff] at henough
    rw [henough]; rfl
  | cons n ns ih =>
    obtain ⟨c1, _⟩ := call_total (.read n) s
    simp only [List.map_cons, Stream.run, List.flatten_cons, ROp.spec]
    have hlen := congrArg List.length c1
    simp only [List.length_append] at hlen
    rw [ih (fun m hm => hsz m (List.mem_cons_of_mem _ hm)) ((Spec.ReadCall.read n).run s).2 ?_, c1]
    rcases read_progress n (hsz n List.mem_cons_self) s with h0 | h0
    · rw [h0] at hlen; simp at hlen; simp [hlen.2]
    · have : 0 < (specTaken ((Spec.ReadCall.read n).run s).1).length := List.length_pos_iff.2 h0
      simp at henough
      omega

/-- Data, an empty padded record, a session ticket, data. -/
def exFragments : List Fragment :=
  [⟨23, [1, 2, 3], 2⟩, ⟨23, [], 5⟩, ⟨22, (Spec.RawMsg.newSessionTicket 7 8 [1] [2, 3] []).bytes, 0⟩, ⟨23, [4], 0⟩]

def exHonest : RdHalf :=
  (exConn [.data (Spec.protectAll toySuite (List.replicate 16 3) (List.replicate 12 4) 0 exFragments)]).rd

theorem exHonest_honest : Honest toySuite exFragments exHonest := by
  refine ⟨⟨by unfold RR.Inv; decide +kernel, by decide +kernel, by decide +kernel⟩, by decide +kernel, rfl, ?_,
    by decide +kernel, by decide +kernel, by decide +kernel, ?_, by decide +kernel⟩
  · intro e he
    simp only [exHonest, exConn, Conn.rd, List.mem_singleton] at he
    exact ⟨_, by decide +kernel, he⟩
  · intro f hf
    simp only [exFragments, List.mem_cons, List.not_mem_nil, or_false] at hf
    rcases hf with rfl | rfl | rfl | rfl
    · exact .inl rfl
    · exact .inl rfl
    · refine .inr ⟨rfl, ?_⟩
      rw [← List.append_nil (Spec.RawMsg.bytes _)]
      exact .cons 7 8 [1] [2, 3] [] [] (by simp [Spec.RawMsg.WellSized]; decide) ⟨by decide, .nil⟩ [] .nil
    · exact .inl rfl

example : delivered (runReads toySuite ([3, 1, 1, 1].map .read) exHonest).1 = [1, 2, 3, 4] :=
  C20_complete toySuite toySuite_lawful exFragments exHonest exHonest_honest (by decide +kernel) [3, 1, 1, 1]
    (by decide) (by decide +kernel)

/-- Looking, reverting, dropping. -/
example : (runReads toySuite [.buffered [.peek 2, .pop 1, .peekAll] false, .buffered [.popAll] true, .buffered [] false,
      .fillBuf, .consume 1, .read 5] exHonest).1 =
    [.ok ⟨[1, 2, 3], [[1, 2], [1], [2, 3]], [1]⟩, .ok ⟨[2, 3], [[2, 3]], []⟩, .ok ⟨[2, 3], [], [2, 3]⟩,
     .ok ⟨[4], [[4]], []⟩, .ok ⟨[4], [[4]], [4]⟩, .err .ioError] := by decide +kernel

end ETls
