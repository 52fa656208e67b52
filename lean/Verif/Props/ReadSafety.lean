import Verif.Props.ReadPath

/-! # C21 (example), C24, C25, C28, C29, C30 -/

namespace ETls

variable (S : Suite)

open Spec (Fragment)

/-! ## C21: the hypotheses are satisfiable -/

/-- The states that `RdSteps` reaches; `none` if there are more than `fuel`. -/
def visited : Nat → RdHalf → Option (List RdHalf)
  | 0, _ => none
  | n + 1, h =>
    if h.unread = [] then
      match RdHalf.readApplicationData S h with
      | (.ok (), h1) => (visited n h1).map (h :: ·)
      | _ => some [h]
    else some [h]

theorem visited_all : ∀ (n : Nat) (h : RdHalf) (l : List RdHalf), visited S n h = some l → ∀ h1, RdSteps S h h1 → h1 ∈ l := by
  intro n
  induction n with
  | zero => intro h l hl; cases hl
  | succ n ih =>
    intro h l hl h1 hs
    unfold visited at hl
    cases hs with
    | refl =>
      split at hl
      · split at hl
        · rw [Option.map_eq_some_iff] at hl
          obtain ⟨l', -, rfl⟩ := hl
          exact List.mem_cons_self
        · injection hl with hl; subst hl; exact List.mem_cons_self
      · injection hl with hl; subst hl; exact List.mem_cons_self
    | step _ h2 _ hu hr hs =>
      rw [if_pos hu, hr] at hl
      simp only [Option.map_eq_some_iff] at hl
      obtain ⟨l', h3, rfl⟩ := hl
      exact List.mem_cons_of_mem _ (ih h2 l' h3 h1 hs)

/-- `Genuine`, computed. -/
def genuine (peer : List Fragment) (h : RdHalf) : Bool :=
  match (RdHalf.readRecord S h).1 with
  | .ok (.appData hdr _ ct) =>
    match S.open_ h.rks.st.key (Spec.nonce h.rks.st.iv h.rks.st.counter) hdr ct with
    | some p => (peer[h.rks.st.counter]?.map Fragment.inner) == some p
    | none => true
  | _ => true

theorem genuine_iff {peer : List Fragment} {h : RdHalf} (hg : genuine S peer h = true) : Genuine S peer h := by
  rintro hdr ct p ⟨st, h1, hr⟩ ho
  unfold genuine at hg
  rw [hr] at hg
  simp only [ho, beq_iff_eq, Option.map_eq_some_iff] at hg
  obtain ⟨f, h2, h3⟩ := hg
  exact ⟨f, h2, h3.symm⟩

/-- `Unforged`, computed. -/
def unforged (peer : List Fragment) (ops : List ROp) (h : RdHalf) : Bool :=
  (List.range (ops.length + 1)).all fun i =>
    match visited S 20 (runReads S (ops.take i) h).2 with
    | some l => l.all (genuine S peer)
    | none => false

theorem unforged_iff {peer : List Fragment} {ops : List ROp} {h : RdHalf} (hg : unforged S peer ops h = true) :
    Unforged S peer ops h := by
  intro i h1 _ hs
  have key : ∀ j, j < ops.length + 1 → RdSteps S (runReads S (ops.take j) h).2 h1 → Genuine S peer h1 := by
    intro j hj hs
    unfold unforged at hg
    rw [List.all_eq_true] at hg
    have := hg j (List.mem_range.mpr hj)
    split at this
    · rename_i l hl
      rw [List.all_eq_true] at this
      exact genuine_iff S (this h1 (visited_all S _ _ l hl h1 hs))
    · cases this
  by_cases hi : i < ops.length + 1
  · exact key i hi hs
  · refine key ops.length (by omega) ?_
    rw [List.take_length]
    rw [List.take_of_length_le (by omega)] at hs
    exact hs

/-- Record `seq` of the peer of `exConn`. -/
def exPeer (seq : Nat) (f : Fragment) : Bytes := Spec.protect toySuite (List.replicate 16 3) (List.replicate 12 4) seq f

set_option maxRecDepth 20000 in
/-- A case of `C21_prefix`: an attacker between the client and a peer that sends `[7, 8, 9]`, `[10]` and `[11]` puts an
unprotected record in front, a record of noise after the first one, repeats the first, leaves out the second and cuts the
stream. -/
example :
    let peer : List Fragment := [⟨23, [7, 8, 9], 1⟩, ⟨23, [10], 0⟩, ⟨23, [11], 0⟩]
    let h := (exConn [.data ([20, 3, 3, 0, 1, 1] ++ exPeer 0 ⟨23, [7, 8, 9], 1⟩ ++ [23, 3, 3, 0, 21] ++ List.replicate 21 99 ++
      exPeer 0 ⟨23, [7, 8, 9], 1⟩ ++ exPeer 2 ⟨23, [11], 0⟩ ++ [23, 3])]).rd
    let ops : List ROp := [.read 10, .read 2, .read 2, .read 2, .read 2, .read 2, .read 2]
    toySuite.Lawful ∧ Unforged toySuite peer ops h ∧ (runReads toySuite ops h).1.map takenOf = [[], [7, 8], [9], [], [], [], []] := by
  intro peer h ops
  exact ⟨toySuite_lawful, unforged_iff _ (by decide +kernel), by decide +kernel⟩

/-! ## C24 -/

/-- A history of calls of the record reader; the application goes on after errors. -/
def runRecords : Nat → RdSt → List (Res TlsError ServerRecord) × RdSt
  | 0, s => ([], s)
  | n + 1, s =>
    match readRecord S s with
    | (r, s1) =>
      match runRecords n s1 with
      | (rs, s2) => (r :: rs, s2)

/-- An error of the transport: reported by it, or the end of the stream. -/
def IsIo : Res TlsError ServerRecord → Prop
  | .err .ioError => True
  | .err (.io _) => True
  | _ => False

/-- **C24, in part** Over any transport, from any reader between two records (a new one in particular): as long as no
earlier call failed with an I/O error, a call does not panic; the size of the buffer never changes and, whatever
errors occurred, the indices stay inside the buffer.  Missing: no panic after an I/O error in the middle of a record
(`C24_refuted`). -/
theorem C24_partial (n : Nat) : ∀ (s : RdSt), s.rr.Inv →
    (runRecords S n s).2.rr.Inv ∧ (runRecords S n s).2.rr.buf.length = s.rr.buf.length ∧
    (s.rr.pending = 0 → ∀ i : Nat, (∀ (j : Nat) (r : Res TlsError ServerRecord), j < i → (runRecords S n s).1[j]? = some r → ¬ IsIo r) →
      (runRecords S n s).1[i]? ≠ some Res.panic) := by
  induction n with
  | zero => intro s h; exact ⟨h, rfl, by simp [runRecords]⟩
  | succ n ih =>
    intro s h
    have hf := readRecord_any S s h
    unfold runRecords
    rcases hr : readRecord S s with ⟨r, s1⟩
    rw [hr] at hf
    obtain ⟨i1, i2, i3⟩ := ih s1 hf.inv
    refine ⟨i1, i2.trans hf.bufLen, fun hp i hio => ?_⟩
    cases i with
    | zero => simpa using hf.noPanic hp
    | succ i =>
      have h0 := hio 0 r (by omega) rfl
      have hp1 := hf.between hp (by
        constructor
        · rintro rfl; exact h0 trivial
        · rintro k rfl; exact h0 trivial)
      simp only [List.getElem?_cons_succ]
      exact i3 hp1 i fun j r hj hjr => hio (j + 1) r (by omega) (by simpa using hjr)

/-- **C24** A record that does not fit the read buffer is refused with an insufficient-space error, whatever the state
of the reader and the transport. -/
theorem C24_too_large (s : RdSt) (hd : RecordHeader) (rx1 : Rx)
    (hh : nextRecordHeader s.rx = (.ok hd, rx1)) (hl : s.rr.buf.length < hd.contentLength) :
    readRecord S s = (.err .insufficientSpace, { s with rx := rx1 }) := by
  obtain ⟨rr, rx, tr⟩ := s
  simp only at hh hl
  unfold readRecord
  have h1 : RdSt.header ⟨rr, rx, tr⟩ = (.ok hd, ⟨rr, rx1, tr⟩) := by
    simp only [RdSt.header, hh]
  rw [M.bind_ok h1]
  have h2 : ensureContiguous hd.contentLength rr = (.err .insufficientSpace, rr) := by
    unfold ensureContiguous
    rw [if_pos (by omega), if_pos (by omega)]
  have h3 : RdSt.advance hd.contentLength ⟨rr, rx1, tr⟩ = (.err .insufficientSpace, ⟨rr, rx1, tr⟩) := by
    simp only [RdSt.advance, ETls.advance]
    rw [M.bind_err (onFst_err h2 rx1)]
  rw [M.bind_err h3]

example : (RR.new (List.replicate 20 0)).Inv ∧ (RR.new (List.replicate 20 0)).pending = 0 :=
  ⟨by unfold RR.Inv; decide +kernel, rfl⟩

example : nextRecordHeader [.data [23, 3], .data [3, 1, 0, 9]] = (.ok ⟨.applicationData, 256, [23, 3, 3, 1, 0]⟩, [.data [9]]) := by
  decide +kernel

/-- **C24, refuted in general** A 20-byte read buffer, a 20-byte record of which 15 bytes arrive before the transport
reports an error; the next call reads a header announcing 18 bytes and then panics (`record_reader.rs:191` slices
`buf[15..][..18]`). -/
theorem C24_refuted : ∃ s : RdSt, s.rr = RR.new (List.replicate 20 0) ∧
    (runRecords toySuite 2 s).1 = [.err (.io 5), .panic] :=
  ⟨⟨RR.new (List.replicate 20 0),
    [.data ([23, 3, 3, 0, 20] ++ List.replicate 15 1), .err 5, .data ([23, 3, 3, 0, 18] ++ List.replicate 18 2)], []⟩,
    rfl, by decide +kernel⟩

/-! ## C25 -/

/-- **C25, in part** An error reported while the reader is between two records costs nothing: the call returns it, and
afterwards everything is as if the transport had not reported it.  Missing: errors in the middle of a record
(`C25_refuted`). -/
theorem C25_partial (op : ROp) (hop : op.Fills) (h : RdHalf) (hg : h.Good) (ho : h.opened = true)
    (hu : h.unread = []) (k : IoKind) (rest : Rx) (hrx : h.rx = .err k :: rest) :
    op.run S h = (.err (.io k), { h with rx := rest }) := by
  have h1 : ETls.readRecord S ⟨h.rr, h.rx, h.rks.transcript⟩ = (.err (.io k), ⟨h.rr, rest, h.rks.transcript⟩) := by
    rw [hrx]; rfl
  have h2 : RdHalf.readRecord S h = (.err (.io k), { h with rx := rest }) := by
    unfold RdHalf.readRecord
    rw [h1]
  have h3 : RdHalf.readApplicationData S h = (.err (.io k), { h with rx := rest }) := by
    unfold RdHalf.readApplicationData
    rw [M.bind_err h2]
  have hf : RdHalf.fill S h = (.err (.io k), { h with rx := rest }) := by
    unfold RdHalf.fill
    rw [M.get_bind, if_pos ho]
    unfold RdHalf.fillLoop
    rw [M.get_bind, if_pos ((h.isEmpty_iff hg).2 hu), M.bind_err h3]
  rw [op.run_fills S hop, M.bind_err hf]

/-- **C25** With unread data a transport error cannot be noticed at all: no I/O happens. -/
theorem C25_no_io (op : ROp) (h : RdHalf) (hg : h.Good) (ho : h.opened = true) (hu : h.unread ≠ []) (rx : Rx) :
    (op.run S { h with rx := rx }).1 = (op.run S h).1 ∧ (op.run S { h with rx := rx }).2.rx = rx := by
  have key : ∀ h : RdHalf, h.Good → h.opened = true → h.unread ≠ [] → op.run S h = (if op = .read 0 then
      (.ok ⟨[], [[]], []⟩, h) else (.ok ⟨h.unread, (Spec.borrow (op.calls.1.map RBufOp.call) op.calls.2 h.unread).1,
        (Spec.borrow (op.calls.1.map RBufOp.call) op.calls.2 h.unread).2⟩,
        h.eat (Spec.borrow (op.calls.1.map RBufOp.call) op.calls.2 h.unread).2.length)) := by
    intro h hg ho hu
    by_cases hf : op.Fills
    · rw [op.run_fills S hf, M.bind_ok (fill_unread S h hg ho hu), RdHalf.useBuffer_run _ _ _ hg, if_neg]
      rintro rfl
      simp [ROp.Fills] at hf
    · cases op with
      | read n =>
        simp only [ROp.Fills, not_not] at hf
        subst hf
        rw [if_pos rfl]; rfl
      | consume n =>
        simp only [ROp.run]
        rw [RdHalf.useBuffer_run _ _ _ hg, if_neg (by simp)]
        rfl
      | fillBuf => exact absurd trivial hf
      | buffered ops rv => exact absurd trivial hf
  rw [key h hg ho hu, key { h with rx := rx } ⟨hg.rr, hg.dec, hg.consumed⟩ ho hu]
  split
  · exact ⟨rfl, rfl⟩
  · exact ⟨rfl, rfl⟩

/-- A record of two bytes of application data for the examples. -/
def exRecord (seq : Nat) (content : Bytes) : Bytes :=
  Spec.protect toySuite (List.replicate 16 3) (List.replicate 12 4) seq ⟨23, content, 0⟩

/-- **C25, refuted in general** The same bytes, with and without a transport error after the seventh byte of the
first record: without it everything is delivered, with it nothing ever is, because the reader takes the bytes after
the error for a new header. -/
theorem C25_refuted : ∃ a b : Bytes, a ++ b = exRecord 0 [7, 8] ++ exRecord 1 [9] ∧
    ((runReads toySuite [.read 10, .read 10] (exConn [.data a, .data b]).rd).1.map takenOf).flatten = [7, 8, 9] ∧
    ((runReads toySuite (List.replicate 12 (.read 10)) (exConn [.data a, .err 5, .data b]).rd).1.map takenOf).flatten = [] ∧
    (runReads toySuite (List.replicate 12 (.read 10)) (exConn [.data a, .err 5, .data b]).rd).2.rx = [] :=
  ⟨(exRecord 0 [7, 8] ++ exRecord 1 [9]).take 7, (exRecord 0 [7, 8] ++ exRecord 1 [9]).drop 7, by decide +kernel,
    by decide +kernel, by decide +kernel, by decide +kernel⟩

example : (exConn [.err 5]).rd.Good ∧ (exConn [.err 5]).rd.unread = [] ∧ (exConn [.err 5]).rd.opened = true :=
  ⟨⟨by unfold RR.Inv; decide +kernel, by decide +kernel, by decide +kernel⟩, by decide +kernel, rfl⟩

/-! ## C28 -/

/-- **C28** A protected `close_notify` as the next record, when everything before it has been consumed (the reader
does not look at it before): the call reports connection-closed, the connection is closed, nothing is delivered and
nothing is left to deliver. -/
theorem C28_close (op : ROp) (hop : op.Fills) (h h1 : RdHalf) (hg : h.Good) (ho : h.opened = true)
    (hu : h.unread = []) (hdr ct : Bytes) (start : Nat) (lvl : UInt8) (k : Nat) (hlvl : lvl = 1 ∨ lvl = 2)
    (hr : RdHalf.readRecord S h = (.ok (.appData hdr start ct), h1))
    (hop' : S.open_ h.rks.st.key (h.rks.st.nonce S) hdr ct = some (Fragment.inner ⟨21, [lvl, 0], k⟩)) :
    (op.run S h).1 = .err .connectionClosed ∧ (op.run S h).2.opened = false ∧ (op.run S h).2.unread = [] := by
  have hfr : h1.rks.st = h.rks.st ∧ h1.opened = h.opened ∧ h1.dec = h.dec := by
    unfold RdHalf.readRecord at hr
    injection hr with _ hr
    rw [← hr]
    exact ⟨rfl, rfl, rfl⟩
  obtain ⟨f1, f2, f3⟩ := hfr
  have hal : ∃ l, (Alert.parse (PB.new [lvl, 0])).1 = .ok ⟨l, .closeNotify⟩ := by
    rcases hlvl with rfl | rfl
    · exact ⟨.warning, by decide +kernel⟩
    · exact ⟨.fatal, by decide +kernel⟩
  obtain ⟨l, hal⟩ := hal
  have hd : ∃ h2, RdHalf.decrypt S (.appData hdr start ct) h1 = (.err .connectionClosed, h2) ∧ h2.opened = false ∧
      h2.dec = h.dec := by
    unfold RdHalf.decrypt decryptRecord
    simp only [f1, hop']
    rw [(C27_dispatch_partial S (readHandler h1.rr.buf.length) hdr start (h1.rks, (h1.dec, h1.opened))).2.2.1
      [lvl, 0] k ⟨l, .closeNotify⟩ hal]
    simp only [readHandler, if_pos]
    exact ⟨_, rfl, rfl, f3⟩
  obtain ⟨h2, d1, d2, d3⟩ := hd
  have hra : RdHalf.readApplicationData S h = (.err .connectionClosed, h2) := by
    unfold RdHalf.readApplicationData
    rw [M.bind_ok hr, d1]
  have hf : RdHalf.fill S h = (.err .connectionClosed, h2) := by
    unfold RdHalf.fill
    rw [M.get_bind, if_pos ho]
    unfold RdHalf.fillLoop
    rw [M.get_bind, if_pos ((h.isEmpty_iff hg).2 hu), M.bind_err hra]
  rw [op.run_fills S hop, M.bind_err hf]
  exact ⟨rfl, d2, unread_same h h2 hg hu d3⟩

/-- **C28** A call closes the connection only by reporting connection-closed, with everything consumed. -/
theorem C28_only_close (hol : S.OpenLength) (op : ROp) (h : RdHalf) (hg : h.Good) (ho : h.opened = true)
    (hc : (op.run S h).2.opened = false) (hp : (op.run S h).1 ≠ .panic) :
    (op.run S h).1 = .err .connectionClosed ∧ (op.run S h).2.unread = [] := by
  have hcases := ROp.run_cases S hol op h hg
  generalize op.run S h = res at hc hp hcases ⊢
  obtain ⟨r, h'⟩ := res
  simp only at hc hp hcases ⊢
  cases hcases with
  | nothing hop => rw [ho] at hc; cases hc
  | ok h1 hs hg1 hu hop hcs hopen =>
    have := (hs.facts S hol hg).2.2
    rw [show (RdHalf.eat _ h1).opened = h1.opened from rfl, this, ho] at hc
    cases hc
  | notOpen hf ho' => rw [ho] at ho'; cases ho'
  | err hf h1 _ e hs hu hr ho' =>
    obtain ⟨g1, _, g3⟩ := hs.facts S hol hg
    cases readApp_outcome S hol g1 hr with
    | error _ _ hst hdec hopen hg' hsz => rw [hopen, g3, ho] at hc; cases hc
    | closed _ hst hdec hopen hg' hsz => exact ⟨rfl, unread_same h1 h' g1 hu hdec⟩
  | panic hf h1 _ hs hu hr ho' => exact absurd rfl hp

/-- One call of either half of a connection. -/
inductive AnyOp where
  | reader (op : ROp)
  | writer (op : WOp)
deriving DecidableEq, Repr

/-- What such a call returns. -/
inductive AnyOut where
  | read (r : Res TlsError ROut)
  | wrote (r : Res TlsError Nat)
deriving DecidableEq, Repr

/-- One call. -/
def AnyOp.run (op : AnyOp) (c : Conn) : AnyOut × Conn :=
  match op with
  | .reader op => (.read (onRd (op.run S) c).1, (onRd (op.run S) c).2)
  | .writer op => (.wrote (onWr (op.run S) c).1, (onWr (op.run S) c).2)

/-- A history of calls, on a connection or on its two halves (`asynch.rs:274-302` `split` shares the open flag). -/
def runAny : List AnyOp → Conn → List AnyOut × Conn
  | [], c => ([], c)
  | op :: ops, c =>
    match op.run S c with
    | (r, c1) =>
      match runAny ops c1 with
      | (rs, c2) => (r :: rs, c2)

/-- What every call on a closed connection returns: reading calls that need data and writes report a missing
handshake (the exceptions are `read` into an empty buffer, `consume`, `flush` and the policy setter). -/
def Refused : AnyOp → AnyOut → Prop
  | .reader op, r => op.Fills → r = .read (.err .missingHandshake)
  | .writer (.write _), r => r = .wrote (.err .missingHandshake)
  | .writer _, _ => True

theorem useBuffer_opened (ops : List RBufOp) (rv : Bool) (h : RdHalf) :
    (RdHalf.useBuffer ops rv h).2.opened = h.opened := by
  have ha : ∃ r, RdHalf.available h = (r, h) := by
    unfold RdHalf.available
    simp only
    split <;> exact ⟨_, rfl⟩
  obtain ⟨r, ha⟩ := ha
  unfold RdHalf.useBuffer
  rw [ha]
  cases r with
  | ok d =>
    simp only
    rcases RBuf.runOps ops (RBuf.new d) with ⟨_ | _ | _, _⟩ <;> rfl
  | err e => rfl
  | panic => rfl

theorem onWb_opened {α : Type} (m : M TlsError WB α) (w : WrHalf) : (WrHalf.onWb m w).2.opened = w.opened := rfl
theorem onTx_opened {α : Type} (m : M TlsError Tx α) (w : WrHalf) : (WrHalf.onTx m w).2.opened = w.opened := rfl

/-- A computation of the writing half that leaves the open flag alone. -/
def KeepsOpen {α : Type} (m : M TlsError WrHalf α) : Prop := ∀ w, (m w).2.opened = w.opened

theorem KeepsOpen.bind {α β : Type} {m : M TlsError WrHalf α} {f : α → M TlsError WrHalf β} (hm : KeepsOpen m)
    (hf : ∀ a, KeepsOpen (f a)) : KeepsOpen (m >>= f) := by
  intro w
  have h1 := hm w
  rcases hr : m w with ⟨r, w1⟩
  rw [hr] at h1
  cases r with
  | ok a => rw [M.bind_ok hr, hf a w1]; exact h1
  | err e => rw [M.bind_err hr]; exact h1
  | panic => rw [M.bind_panic hr]; exact h1

theorem KeepsOpen.get : KeepsOpen (M.get : M TlsError WrHalf WrHalf) := fun _ => rfl

theorem flush_keeps : KeepsOpen (WrHalf.flush S) := by
  unfold WrHalf.flush
  refine KeepsOpen.get.bind fun w => ?_
  split
  · exact fun _ => rfl
  · refine KeepsOpen.bind (fun _ => rfl) fun slice => KeepsOpen.bind (fun _ => rfl) fun _ =>
      KeepsOpen.bind (fun _ => rfl) fun _ => ?_
    split <;> exact fun _ => rfl

theorem WOp.run_opened (op : WOp) : KeepsOpen (op.run S) := by
  cases op with
  | write bs =>
    simp only [WOp.run]
    unfold WrHalf.write
    refine KeepsOpen.get.bind fun w => ?_
    split
    · refine KeepsOpen.bind ?_ fun _ => KeepsOpen.bind (fun _ => rfl) fun _ => KeepsOpen.bind (fun _ => rfl) fun full =>
        KeepsOpen.bind ?_ fun _ => fun _ => rfl
      · unfold WrHalf.ensureRecord
        refine KeepsOpen.get.bind fun w => ?_
        split
        · exact fun _ => rfl
        · exact KeepsOpen.bind (flush_keeps S) fun _ => fun _ => rfl
      · unfold WrHalf.flushIf
        split
        · exact flush_keeps S
        · exact fun _ => rfl
    · exact fun _ => rfl
  | flush =>
    simp only [WOp.run]
    exact KeepsOpen.bind (flush_keeps S) fun _ => fun _ => rfl
  | setFlushPolicy p =>
    simp only [WOp.run]
    exact KeepsOpen.bind (fun _ => rfl) fun _ => fun _ => rfl

/-- **C28** Closed is final: any later history of reading and writing calls reports missing handshake throughout and
never opens the connection again. -/
theorem C28_final (ops : List AnyOp) : ∀ (c : Conn), c.opened = false →
    (runAny S ops c).2.opened = false ∧ List.Forall₂ Refused ops (runAny S ops c).1 := by
  induction ops with
  | nil => intro c h; exact ⟨h, .nil⟩
  | cons op ops ih =>
    intro c h
    have h1 : (op.run S c).2.opened = false ∧ Refused op (op.run S c).1 := by
      cases op with
      | reader op =>
        by_cases hf : op.Fills
        · have : op.run S c.rd = (.err .missingHandshake, c.rd) := by
            rw [op.run_fills S hf, M.bind_err (fill_closed S c.rd h)]
          simp only [AnyOp.run, onRd, this, Refused]
          exact ⟨h, fun _ => trivial⟩
        · refine ⟨?_, fun hf' => absurd hf' hf⟩
          cases op with
          | read n =>
            simp only [ROp.Fills, not_not] at hf
            subst hf
            exact h
          | consume n =>
            exact (useBuffer_opened _ _ c.rd).trans h
          | fillBuf => exact absurd trivial hf
          | buffered ops rv => exact absurd trivial hf
      | writer op =>
        refine ⟨(WOp.run_opened S op c.wr).trans h, ?_⟩
        cases op with
        | write bs =>
          have : WrHalf.write S bs c.wr = (.err .missingHandshake, c.wr) := by
            unfold WrHalf.write
            rw [M.get_bind, if_neg (by simp [Conn.wr, h])]
            rfl
          simp only [AnyOp.run, onWr, WOp.run, this, Refused]
        | flush => trivial
        | setFlushPolicy p => trivial
    obtain ⟨i1, i2⟩ := ih (op.run S c).2 h1.1
    exact ⟨i1, .cons h1.2 i2⟩

/-- A close, then reads and writes. -/
example : (runAny toySuite [.reader (.read 10), .reader (.read 10), .writer (.write [1]), .reader .fillBuf]
    (exConn [.data (Spec.protect toySuite (List.replicate 16 3) (List.replicate 12 4) 0 ⟨21, [1, 0], 3⟩)])).1 =
    [.read (.err .connectionClosed), .read (.err .missingHandshake), .wrote (.err .missingHandshake),
     .read (.err .missingHandshake)] := by decide +kernel

/-! ## C29 -/

/-- **C29, in part** Once the connection is open, a record that is not of the protected type delivers nothing and does
not touch the keys, the sequence number or the unread data; the open flag changes only if the record is a
`close_notify` alert; a panic happens only if it is a handshake message.  Missing: a `close_notify` must not close,
a handshake message must not panic (`C29_refuted_close`, `C29_refuted_panic`). -/
theorem C29_partial (h : RdHalf) (rec : ServerRecord) (hrec : ∀ hdr start data, rec ≠ .appData hdr start data) :
    (RdHalf.decrypt S rec h).2.rks = h.rks ∧ (RdHalf.decrypt S rec h).2.dec = h.dec ∧
    (RdHalf.decrypt S rec h).2.rr = h.rr ∧ (RdHalf.decrypt S rec h).2.unread = h.unread ∧
    ((∀ l, rec ≠ .alert ⟨l, .closeNotify⟩) → (RdHalf.decrypt S rec h).2 = h) ∧
    ((∀ m, rec = .handshake m → m = .newSessionTicket) → (RdHalf.decrypt S rec h).1 ≠ .panic) := by
  have hp := readHandler_plain h.rr.buf.length rec hrec h.rks h.dec h.opened
  have hd : RdHalf.decrypt S rec h = ((readHandler h.rr.buf.length rec (h.rks, (h.dec, h.opened))).1,
      { h with rks := (readHandler h.rr.buf.length rec (h.rks, (h.dec, h.opened))).2.1,
               dec := (readHandler h.rr.buf.length rec (h.rks, (h.dec, h.opened))).2.2.1,
               opened := (readHandler h.rr.buf.length rec (h.rks, (h.dec, h.opened))).2.2.2 }) := by
    unfold RdHalf.decrypt decryptRecord
    cases rec with
    | appData hdr start data => exact absurd rfl (hrec hdr start data)
    | _ => rfl
  rw [hd]
  rcases hp with ⟨h1, _⟩ | ⟨e, h1⟩ | ⟨h1, a, h2, h3⟩ | ⟨h1, m, h2, h3⟩
  · rw [h1]; exact ⟨rfl, rfl, rfl, rfl, fun _ => rfl, fun _ => by simp⟩
  · rw [h1]; exact ⟨rfl, rfl, rfl, rfl, fun _ => rfl, fun _ => by simp⟩
  · rw [h1]
    refine ⟨rfl, rfl, rfl, rfl, fun hn => ?_, fun _ => by simp⟩
    obtain ⟨l, d⟩ := a
    simp only at h3
    subst h3
    exact absurd h2 (hn l)
  · rw [h1]
    exact ⟨rfl, rfl, rfl, rfl, fun _ => rfl, fun hn => absurd (hn m h2) h3⟩

/-- **C29, refuted in general** Seven unauthenticated bytes close an open connection: the read reports
connection-closed, and the authentic record that follows is never delivered. -/
theorem C29_refuted_close :
    (runReads toySuite [.read 10, .read 10] (exConn [.data ([21, 3, 3, 0, 2, 1, 0] ++ exRecord 0 [7, 8])]).rd).1 =
      [.err .connectionClosed, .err .missingHandshake] := by decide +kernel

/-- **C29, refuted in general** Eleven unauthenticated bytes (an EncryptedExtensions message) panic the reader
(`decrypted_read_handler.rs:54` `unimplemented!`). -/
theorem C29_refuted_panic :
    (runReads toySuite [.read 10] (exConn [.data [22, 3, 3, 0, 6, 8, 0, 0, 2, 0, 0]]).rd).1 = [.panic] := by
  decide +kernel

/-! ## C30 -/

/-- **C30, in part** On an open connection a reading call panics only for one of five reasons, at a state reached
after some successfully received records: see `PanicCause`.  Missing: that these do not panic either
(`C30_refuted_empty`, `C30_refuted_handshake`, `C29_refuted_panic`, `C24_refuted`). -/
theorem C30_partial (hol : S.OpenLength) (op : ROp) (h : RdHalf) (hg : h.Good) (hp : (op.run S h).1 = .panic) :
    ∃ h1, RdSteps S h h1 ∧ PanicCause S h1 := by
  have hcases := ROp.run_cases S hol op h hg
  generalize op.run S h = res at hp hcases
  obtain ⟨r, h'⟩ := res
  simp only at hp hcases
  subst hp
  cases hcases with
  | panic hf h1 _ hs hu hr ho =>
    cases readApp_outcome S hol (hs.facts S hol hg).1 hr with
    | panic _ hp => exact ⟨h1, hs, hp⟩

/-- The tag and ciphertext of an inner plaintext, as an honest sealer would produce them. -/
def sealInner (seq : Nat) (inner : Bytes) : Bytes :=
  let aad := Spec.ciphertextHeader inner.length
  let n := Spec.nonce (List.replicate 12 4) seq
  aad ++ (toySuite.sealCt (List.replicate 16 3) n aad inner ++ toySuite.sealTag (List.replicate 16 3) n aad inner)

/-- **C30, refuted in general** An authentic record with an empty inner plaintext panics the reader. -/
theorem C30_refuted_empty :
    (runReads toySuite [.read 10] (exConn [.data (sealInner 0 [])]).rd).1 = [.panic] := by decide +kernel

/-- **C30, refuted in general** An authentic handshake message other than a session ticket panics the reader (here an
EncryptedExtensions message after the handshake). -/
theorem C30_refuted_handshake :
    (runReads toySuite [.read 10] (exConn [.data (sealInner 0 [8, 0, 0, 2, 0, 0, 22])]).rd).1 = [.panic] := by
  decide +kernel

end ETls
