import Verif.Proofs.IoErrors
import Verif.Spec.Transport
import Verif.Props.ReadSafety
import Verif.Props.Handshake
import Verif.Model.Provider
import Verif.Model.Webpki

/-! # C85: failures of the transport are reported, and nothing else is reported as one -/

namespace ETls

open Spec (Delivery Drew Succeeded Answered TransportError Surfaced)

variable (S : Suite) {V : Type} {tx : Tx} {rx : Rx}

theorem drew_refl (rx : Rx) : Drew rx rx := ⟨[], by simp, .inl rfl⟩

theorem drew_cons {e : InEv} (he : Delivery e) {rx rx' : Rx} (h : Drew rx rx') : Drew (e :: rx) rx' := by
  obtain ⟨pre, hp, hr⟩ := h
  refine ⟨e :: pre, ?_, ?_⟩
  · intro x hx
    rcases List.mem_cons.1 hx with rfl | hx
    · exact he
    · exact hp x hx
  · rcases hr with rfl | ⟨bs, n, rest, hn, rfl, rfl⟩
    · exact .inl rfl
    · exact .inr ⟨bs, n, rest, hn, rfl, rfl⟩

theorem drew_append {pre : Rx} (hp : ∀ e ∈ pre, Delivery e) {rx rx' : Rx} (h : Drew rx rx') : Drew (pre ++ rx) rx' := by
  induction pre with
  | nil => exact h
  | cons e pre ih =>
    exact drew_cons (hp e (by simp)) (ih fun x hx => hp x (by simp [hx]))

theorem drew_part {bs : Bytes} {n : Nat} (hn : n < bs.length) (rest : Rx) :
    Drew (.data bs :: rest) (.data (bs.drop n) :: rest) := ⟨[], by simp, .inr ⟨bs, n, rest, hn, rfl, rfl⟩⟩

theorem drew_trans {a b c : Rx} (h1 : Drew a b) (h2 : Drew b c) : Drew a c := by
  obtain ⟨pre, hp, hr⟩ := h1
  rcases hr with rfl | ⟨bs, n, rest, hn, rfl, rfl⟩
  · exact drew_append hp h2
  · refine drew_append hp ?_
    obtain ⟨pre2, hp2, hr2⟩ := h2
    cases pre2 with
    | nil =>
      rcases hr2 with h | ⟨bs', m, rest', hm, h, rfl⟩
      · simp only [List.nil_append] at h
        rw [← h]
        exact drew_part hn rest
      · simp only [List.nil_append, List.cons.injEq, InEv.data.injEq] at h
        obtain ⟨rfl, rfl⟩ := h
        rw [List.drop_drop]
        refine drew_part ?_ rest
        rw [List.length_drop] at hm
        omega
    | cons e pre2 =>
      have hb : Delivery (.data bs) := by
        cases bs with
        | nil => simp at hn
        | cons b bs => exact ⟨b, bs, rfl⟩
      have hp2' : ∀ x ∈ pre2, Delivery x := fun x hx => hp2 x (by simp [hx])
      rcases hr2 with h | ⟨bs', m, rest', hm, h, rfl⟩
      · simp only [List.cons_append, List.cons.injEq] at h
        rw [h.2]
        exact drew_cons hb (drew_append hp2' (drew_refl _))
      · simp only [List.cons_append, List.cons.injEq] at h
        rw [h.2]
        exact drew_cons hb (drew_append hp2' (drew_part hm rest'))

theorem answered_refl (tx : Tx) : Answered tx tx := ⟨[], by simp, by simp, by simp, by simp⟩

theorem answered_trans {a b c : Tx} (h1 : Answered a b) (h2 : Answered b c) : Answered a c := by
  obtain ⟨e1, p1, l1, t1, d1⟩ := h1
  obtain ⟨e2, p2, l2, t2, d2⟩ := h2
  refine ⟨e1 ++ e2, ?_, ?_, ?_, ?_⟩
  · intro e he
    rcases List.mem_append.1 he with h | h
    · exact p1 e h
    · exact p2 e h
  · rw [l2, l1, List.append_assoc]
  · intro x hx
    rw [List.length_append, List.take_add] at hx
    rcases List.mem_append.1 hx with h | h
    · exact t1 x h
    · rw [d1] at t2; exact t2 x h
  · rw [d2, d1, List.drop_drop, List.length_append]

theorem Plain_iff (e : TlsError) : e.Plain ↔ ¬ TransportError e := by
  unfold TransportError
  cases e <;> simp [TlsError.Plain]

theorem Res.Plain.not {α : Type} {r : Res TlsError α} (h : r.Plain) : ∀ e, r = .err e → ¬ TransportError e :=
  fun e he => (Plain_iff e).1 (h.out e he)

/-- Nothing happened to the transport before. -/
theorem surf_after {β : Type} {rx rx1 rx' : Rx} {tx tx1 tx' : Tx} {r : Res TlsError β}
    (h1 : Drew rx rx1) (h2 : Answered tx tx1) (h : Surfaced rx1 tx1 r rx' tx') : Surfaced rx tx r rx' tx' := by
  cases h with
  | quiet a b c => exact .quiet (drew_trans h1 a) (answered_trans h2 b) c
  | readFailed a b => exact .readFailed (drew_trans h1 a) (answered_trans h2 b)
  | ended a b =>
    exact .ended (a.imp (fun x => ⟨drew_trans h1 x.1, x.2⟩) fun x => drew_trans h1 x) (answered_trans h2 b)
  | writeFailed a b c d e => exact .writeFailed (drew_trans h1 a) (answered_trans h2 b) c d e

/-- The result type does not matter to a failure. -/
theorem surf_err {α β : Type} {rx rx' : Rx} {tx tx' : Tx} {e : TlsError}
    (h : Surfaced rx tx (.err e : Res TlsError α) rx' tx') : Surfaced rx tx (.err e : Res TlsError β) rx' tx' := by
  cases h with
  | quiet a b c => exact .quiet a b fun e' he' => by cases he'; exact c _ rfl
  | readFailed a b => exact .readFailed a b
  | ended a b => exact .ended a b
  | writeFailed a b c d e => exact .writeFailed a b c d e

/-- An operation on a state that contains a transport. -/
def Surfaces {σ α : Type} (π : σ → Rx × Tx) (m : M TlsError σ α) : Prop :=
  ∀ s, Surfaced (π s).1 (π s).2 (m s).1 (π (m s).2).1 (π (m s).2).2

namespace Surfaces
variable {σ τ α β : Type} {π : σ → Rx × Tx}

theorem bind {m : M TlsError σ α} {g : α → M TlsError σ β} (h : Surfaces π m) (hg : ∀ a, Surfaces π (g a)) :
    Surfaces π (m >>= g) := by
  intro s
  have h1 := h s
  rcases hm : m s with ⟨r, s1⟩
  rw [hm] at h1
  cases r with
  | ok a =>
    rw [M.bind_ok hm]
    cases h1 with
    | quiet a1 b1 _ => exact surf_after a1 b1 (hg a s1)
  | err e => rw [M.bind_err hm]; exact surf_err h1
  | panic =>
    rw [M.bind_panic hm]
    cases h1 with
    | quiet a1 b1 _ => exact .quiet a1 b1 (by intro e he; cases he)

theorem bindR {m : M TlsError σ α} {g : α → M TlsError σ β} {P : α → Prop} (h : Surfaces π m) (hr : Returns m P)
    (hg : ∀ a, P a → Surfaces π (g a)) : Surfaces π (m >>= g) := by
  intro s
  have h1 := h s
  rcases hm : m s with ⟨r, s1⟩
  rw [hm] at h1
  cases r with
  | ok a =>
    rw [M.bind_ok hm]
    cases h1 with
    | quiet a1 b1 _ => exact surf_after a1 b1 (hg a (hr s a s1 hm) s1)
  | err e => rw [M.bind_err hm]; exact surf_err h1
  | panic =>
    rw [M.bind_panic hm]
    cases h1 with
    | quiet a1 b1 _ => exact .quiet a1 b1 (by intro e he; cases he)

/-- An operation that leaves the transport alone. -/
theorem still {m : M TlsError σ α} (hk : Keeps π m) (he : Errs m) : Surfaces π m := by
  intro s
  rw [hk s]
  exact .quiet (drew_refl _) (answered_refl _) (he.out s).not

theorem pure (a : α) : Surfaces π (Pure.pure a : M TlsError σ α) := still (Keeps.pure _) (Errs.pure _)
theorem get : Surfaces π (M.get : M TlsError σ σ) := still Keeps.get Errs.get
theorem fail {e : TlsError} (h : e.Plain) : Surfaces π (M.fail e : M TlsError σ α) := still (Keeps.fail _) (Errs.fail h)
theorem crash : Surfaces π (M.crash : M TlsError σ α) := still Keeps.crash Errs.crash

end Surfaces

/-! ## Reading -/

/-- The part of `Surfaced` that concerns reading. -/
def ReadSurfaced {α : Type} (rx : Rx) (r : Res TlsError α) (rx' : Rx) : Prop :=
  (Drew rx rx' ∧ r.Plain) ∨ (∃ k, r = .err (.io k) ∧ Drew rx (.err k :: rx')) ∨
    (r = .err .ioError ∧ (Drew rx [] ∧ rx' = [] ∨ Drew rx (.data [] :: rx')))

theorem ReadSurfaced.to {α : Type} {rx rx' : Rx} {r : Res TlsError α} (h : ReadSurfaced rx r rx') (tx : Tx) :
    Surfaced rx tx r rx' tx := by
  rcases h with ⟨a, b⟩ | ⟨k, rfl, a⟩ | ⟨rfl, a⟩
  · exact .quiet a (answered_refl _) b.not
  · exact .readFailed a (answered_refl _)
  · exact .ended a (answered_refl _)

theorem ReadSurfaced.after {α : Type} {rx rx1 rx' : Rx} {r : Res TlsError α} (h1 : Drew rx rx1)
    (h : ReadSurfaced rx1 r rx') : ReadSurfaced rx r rx' := by
  rcases h with ⟨a, b⟩ | ⟨k, rfl, a⟩ | ⟨rfl, a⟩
  · exact .inl ⟨drew_trans h1 a, b⟩
  · exact .inr (.inl ⟨k, rfl, drew_trans h1 a⟩)
  · exact .inr (.inr ⟨rfl, a.imp (fun x => ⟨drew_trans h1 x.1, x.2⟩) fun x => drew_trans h1 x⟩)

/-- What one read of the transport did. -/
theorem read_cases (n : Nat) (hn : 0 < n) (rx : Rx) :
    (∃ bs rx', Rx.read n rx = (.ok bs, rx') ∧ bs.length ≤ n ∧ 0 < bs.length ∧ Drew rx rx') ∨
    (∃ rx', Rx.read n rx = (.ok [], rx') ∧ (Drew rx [] ∧ rx' = [] ∨ Drew rx (.data [] :: rx'))) ∨
    (∃ k rx', Rx.read n rx = (.err (.io k), rx') ∧ Drew rx (.err k :: rx')) := by
  rcases rx with _ | ⟨⟨bs⟩ | ⟨k⟩, rest⟩
  · exact .inr (.inl ⟨[], rfl, .inl ⟨drew_refl _, rfl⟩⟩)
  · simp only [Rx.read]
    split
    · rename_i hle
      cases bs with
      | nil => exact .inr (.inl ⟨rest, rfl, .inr (drew_refl _)⟩)
      | cons b bs => exact .inl ⟨b :: bs, rest, rfl, hle, by simp, drew_cons ⟨b, bs, rfl⟩ (drew_refl _)⟩
    · rename_i hle
      refine .inl ⟨bs.take n, _, rfl, by simp; omega, by simp; omega, drew_part (by omega) rest⟩
  · exact .inr (.inr ⟨k, rest, rfl, drew_refl _⟩)

theorem headerLoop_surfaced : ∀ (fuel : Nat) (acc : Bytes), acc.length ≤ 5 → ∀ rx : Rx,
    ReadSurfaced rx (headerLoop fuel acc rx).1 (headerLoop fuel acc rx).2
  | 0, _, _, rx => .inl ⟨drew_refl _, .panic⟩
  | fuel + 1, acc, ha, rx => by
    unfold headerLoop
    split
    · exact .inl ⟨drew_refl _, .ok _⟩
    · rcases read_cases (5 - acc.length) (by omega) rx with ⟨bs, rx', h, hl, hp, ht⟩ | ⟨rx', h, ht⟩ | ⟨k, rx', h, ht⟩
      · rw [M.bind_ok h, if_neg (by omega)]
        exact (headerLoop_surfaced fuel _ (by rw [List.length_append]; omega) rx').after ht
      · rw [M.bind_ok h, if_pos List.length_nil]
        exact .inr (.inr ⟨rfl, ht⟩)
      · rw [M.bind_err h]
        exact .inr (.inl ⟨k, rfl, ht⟩)

theorem plain_headerDecode (h : Bytes) : (RecordHeader.decode h).Plain := by
  unfold RecordHeader.decode
  split
  · split
    · exact .err (by trivial)
    · exact .ok _
  · exact .panic

theorem advanceLoop_surfaced (amount : Nat) : ∀ (fuel remain : Nat) (s : RR × Rx), amount ≤ remain + s.1.pending →
    ReadSurfaced s.2 (advanceLoop amount fuel remain s).1 (advanceLoop amount fuel remain s).2.2
  | 0, _, s, _ => .inl ⟨drew_refl _, .panic⟩
  | fuel + 1, remain, (r, rx), hr => by
    unfold advanceLoop
    simp only at hr ⊢
    split
    · split
      · exact .inl ⟨drew_refl _, .panic⟩
      · rcases read_cases remain (by omega) rx with ⟨bs, rx', h, hl, hp, ht⟩ | ⟨rx', h, ht⟩ | ⟨k, rx', h, ht⟩
        · rw [h]
          simp only
          rw [if_neg (by omega)]
          exact (advanceLoop_surfaced amount fuel (remain - bs.length)
            ({ r with buf := CB.splice r.buf (r.decoded + r.pending) bs, pending := r.pending + bs.length }, rx')
            (by simp only; omega)).after ht
        · rw [h]
          exact .inr (.inr ⟨rfl, ht⟩)
        · rw [h]
          exact .inr (.inl ⟨k, rfl, ht⟩)
    · exact .inl ⟨drew_refl _, .ok _⟩

theorem errs_ensureContiguous (n : Nat) : Errs (ensureContiguous n) := by
  refine ⟨fun r => ?_⟩
  unfold ensureContiguous
  errs

theorem readRecord_surfaced (s : RdSt) : ReadSurfaced s.rx (readRecord S s).1 (readRecord S s).2.rx := by
  obtain ⟨rr, rx, tr⟩ := s
  have h1 := headerLoop_surfaced 6 [] (by simp) rx
  have hn : ReadSurfaced rx (nextRecordHeader rx).1 (nextRecordHeader rx).2 := by
    unfold nextRecordHeader
    rcases hh : headerLoop 6 [] rx with ⟨r, rx1⟩
    rw [hh] at h1
    cases r with
    | ok h =>
      rw [M.bind_ok hh]
      rcases h1 with ⟨a, b⟩ | ⟨k, hk, _⟩ | ⟨hk, _⟩
      · exact .inl ⟨a, plain_headerDecode h⟩
      · cases hk
      · cases hk
    | err e =>
      rw [M.bind_err hh]
      rcases h1 with ⟨a, b⟩ | ⟨k, hk, a⟩ | ⟨hk, a⟩
      · exact .inl ⟨a, b.cast⟩
      · cases hk; exact .inr (.inl ⟨k, rfl, a⟩)
      · cases hk; exact .inr (.inr ⟨rfl, a⟩)
    | panic =>
      rw [M.bind_panic hh]
      rcases h1 with ⟨a, b⟩ | ⟨k, hk, a⟩ | ⟨hk, a⟩
      · exact .inl ⟨a, .panic⟩
      · cases hk
      · cases hk
  unfold readRecord
  rcases hh : nextRecordHeader rx with ⟨r, rx1⟩
  rw [hh] at hn
  have hhs : RdSt.header ⟨rr, rx, tr⟩ = (r, ⟨rr, rx1, tr⟩) := by simp only [RdSt.header, hh]
  cases r with
  | err e =>
    rw [M.bind_err hhs]
    rcases hn with ⟨a, b⟩ | ⟨k, hk, a⟩ | ⟨hk, a⟩
    · exact .inl ⟨a, b.cast⟩
    · cases hk; exact .inr (.inl ⟨k, rfl, a⟩)
    · cases hk; exact .inr (.inr ⟨rfl, a⟩)
  | panic =>
    rw [M.bind_panic hhs]
    rcases hn with ⟨a, b⟩ | ⟨k, hk, a⟩ | ⟨hk, a⟩
    · exact .inl ⟨a, .panic⟩
    · cases hk
    · cases hk
  | ok h =>
    rw [M.bind_ok hhs]
    have ht : Drew rx rx1 := by
      rcases hn with ⟨a, b⟩ | ⟨k, hk, a⟩ | ⟨hk, a⟩
      · exact a
      · cases hk
      · cases hk
    refine ReadSurfaced.after ht ?_
    have hadv : ReadSurfaced rx1 (advance h.contentLength (rr, rx1)).1 (advance h.contentLength (rr, rx1)).2.2 := by
      unfold advance
      have he := (errs_ensureContiguous h.contentLength).out rr
      rcases hx : ensureContiguous h.contentLength rr with ⟨r1, rr1⟩
      rw [hx] at he
      cases r1 with
      | err e => rw [M.bind_err (onFst_err hx rx1)]; exact .inl ⟨drew_refl _, he.cast⟩
      | panic => rw [M.bind_panic (onFst_panic hx rx1)]; exact .inl ⟨drew_refl _, .panic⟩
      | ok u =>
        rw [M.bind_ok (onFst_ok hx rx1)]
        exact advanceLoop_surfaced _ _ _ (rr1, rx1) (by simp only; omega)
    rcases hx : advance h.contentLength (rr, rx1) with ⟨r2, rr2, rx2⟩
    rw [hx] at hadv
    have hadvs : RdSt.advance h.contentLength ⟨rr, rx1, tr⟩ = (r2, ⟨rr2, rx2, tr⟩) := by simp only [RdSt.advance, hx]
    cases r2 with
    | err e =>
      rw [M.bind_err hadvs]
      rcases hadv with ⟨a, b⟩ | ⟨k, hk, a⟩ | ⟨hk, a⟩
      · exact .inl ⟨a, b.cast⟩
      · cases hk; exact .inr (.inl ⟨k, rfl, a⟩)
      · cases hk; exact .inr (.inr ⟨rfl, a⟩)
    | panic =>
      rw [M.bind_panic hadvs]
      rcases hadv with ⟨a, b⟩ | ⟨k, hk, a⟩ | ⟨hk, a⟩
      · exact .inl ⟨a, .panic⟩
      · cases hk
      · cases hk
    | ok u =>
      rw [M.bind_ok hadvs]
      have hk : (consumeRecord S h ⟨rr2, rx2, tr⟩).2.rx = rx2 := by
        unfold consumeRecord
        simp only
        split
        · rfl
        · split
          · rfl
          · rfl
      rw [hk]
      rcases hadv with ⟨a, b⟩ | ⟨k, hk, a⟩ | ⟨hk, a⟩
      · exact .inl ⟨a, (errs_consume S h).out _⟩
      · cases hk
      · cases hk

/-- The transport of a reading half, beside some sending side. -/
def RdHalf.io (tx : Tx) (h : RdHalf) : Rx × Tx := (h.rx, tx)

theorem readRecord_surfaces : Surfaces (RdHalf.io tx) (RdHalf.readRecord S) :=
  fun h => (readRecord_surfaced S ⟨h.rr, h.rx, h.rks.transcript⟩).to tx

theorem fillLoop_surfaces : ∀ n, Surfaces (RdHalf.io tx) (RdHalf.fillLoop S n)
  | 0 => Surfaces.crash
  | n + 1 => by
    unfold RdHalf.fillLoop
    refine Surfaces.get.bind fun h => ?_
    split
    · refine Surfaces.bind ((readRecord_surfaces S).bind fun rec => ?_) fun _ => fillLoop_surfaces n
      exact Surfaces.still (fun _ => rfl) ⟨fun h => (errs_decrypt S (errs_readHandler _) rec).out _⟩
    · exact Surfaces.pure _

theorem fill_surfaces : Surfaces (RdHalf.io tx) (RdHalf.fill S) := by
  unfold RdHalf.fill
  refine Surfaces.get.bind fun h => ?_
  split
  · exact fillLoop_surfaces S _
  · exact Surfaces.fail (by trivial)

theorem useBuffer_surfaces (ops : List RBufOp) (rv : Bool) : Surfaces (RdHalf.io tx) (RdHalf.useBuffer ops rv) := by
  refine Surfaces.still ?_ (errs_useBuffer ops rv)
  intro h
  have ha : ∃ r, RdHalf.available h = (r, h) := by
    unfold RdHalf.available
    simp only
    split <;> exact ⟨_, rfl⟩
  obtain ⟨r, ha⟩ := ha
  unfold RdHalf.useBuffer
  rw [ha]
  cases r with
  | ok d =>
    simp only
    rcases RBuf.runOps ops (RBuf.new d) with ⟨r2, b⟩
    cases r2 <;> rfl
  | err e => rfl
  | panic => rfl

theorem ROp.surfaces (op : ROp) : Surfaces (RdHalf.io tx) (op.run S) := by
  cases op with
  | read n =>
    simp only [ROp.run]
    split
    · exact Surfaces.pure _
    · exact (fill_surfaces S).bind fun _ => useBuffer_surfaces _ _
  | fillBuf => exact (fill_surfaces S).bind fun _ => useBuffer_surfaces _ _
  | consume n => exact useBuffer_surfaces _ _
  | buffered ops rv => exact (fill_surfaces S).bind fun _ => useBuffer_surfaces _ _

/-! ## Writing -/

/-- The transport of a writing half, beside some receiving side. -/
def WrHalf.io (rx : Rx) (w : WrHalf) : Rx × Tx := (rx, w.tx)

theorem writeAll_surfaces (bs : Bytes) : Surfaces (WrHalf.io rx) (WrHalf.onTx (Tx.writeAll bs)) := by
  rintro ⟨⟨ctl, log⟩, o, k, wb, fp⟩
  rcases ctl with _ | ⟨_ | ⟨k, n⟩, rest⟩
  · exact .quiet (drew_refl _) ⟨[.wrote bs], by simp [Succeeded], rfl, by simp [WrHalf.io], rfl⟩ (by intro e h; cases h)
  · exact .quiet (drew_refl _) ⟨[.wrote bs], by simp [Succeeded], rfl, by simp [WrHalf.io], rfl⟩ (by intro e h; cases h)
  · exact .writeFailed (drew_refl _) (answered_refl _) rfl rfl (.inl ⟨_, rfl⟩)

theorem txFlush_surfaces : Surfaces (WrHalf.io rx) (WrHalf.onTx Tx.flush) := by
  rintro ⟨⟨ctl, log⟩, o, k, wb, fp⟩
  rcases ctl with _ | ⟨_ | ⟨k, n⟩, rest⟩
  · exact .quiet (drew_refl _) ⟨[.flushed], by simp [Succeeded], rfl, by simp [WrHalf.io], rfl⟩ (by intro e h; cases h)
  · exact .quiet (drew_refl _) ⟨[.flushed], by simp [Succeeded], rfl, by simp [WrHalf.io], rfl⟩ (by intro e h; cases h)
  · exact .writeFailed (drew_refl _) (answered_refl _) rfl rfl (.inr rfl)

theorem increment_surfaces : Surfaces (WrHalf.io rx) WrHalf.increment :=
  Surfaces.still (fun _ => rfl) ⟨fun _ => plain_increment⟩

theorem onWb_surfaces {α : Type} {m : M TlsError WB α} (h : Errs m) : Surfaces (WrHalf.io rx) (WrHalf.onWb m) :=
  Surfaces.still (fun _ => rfl) ⟨fun w => h.out w.wb⟩

theorem flush_surfaces : Surfaces (WrHalf.io rx) (WrHalf.flush S) := by
  unfold WrHalf.flush
  refine Surfaces.get.bind fun w => ?_
  split
  · exact Surfaces.pure _
  · refine (onWb_surfaces (errs_closeRecord S _)).bind fun _ => (writeAll_surfaces _).bind fun _ =>
      increment_surfaces.bind fun _ => ?_
    split
    · exact txFlush_surfaces
    · exact Surfaces.pure _

theorem WOp.surfaces (op : WOp) : Surfaces (WrHalf.io rx) (op.run S) := by
  cases op with
  | write bs =>
    unfold WOp.run WrHalf.write
    refine Surfaces.get.bind fun w => ?_
    split
    · refine Surfaces.bind ?_ fun _ => (onWb_surfaces (errs_append _)).bind fun _ => (onWb_surfaces errs_isFull).bind
        fun full => Surfaces.bind ?_ fun _ => Surfaces.pure _
      · unfold WrHalf.ensureRecord
        refine Surfaces.get.bind fun w => ?_
        split
        · exact Surfaces.pure _
        · exact (flush_surfaces S).bind fun _ => onWb_surfaces (errs_startRecord _)
      · unfold WrHalf.flushIf
        split
        · exact flush_surfaces S
        · exact Surfaces.pure _
    · exact Surfaces.fail (by trivial)
  | flush => exact (flush_surfaces S).bind fun _ => Surfaces.pure _
  | setFlushPolicy p =>
    exact Surfaces.bind (Surfaces.still (fun _ => rfl) (Errs.modify _)) fun _ => Surfaces.pure _

/-! ## Whole connections -/

/-- The transport of a connection. -/
def Conn.io (c : Conn) : Rx × Tx := (c.rx, c.tx)

theorem onRd_surfaces {α : Type} {m : M TlsError RdHalf α} (h : ∀ tx, Surfaces (RdHalf.io tx) m) :
    Surfaces Conn.io (onRd m) := fun c => h c.tx c.rd

theorem onWr_surfaces {α : Type} {m : M TlsError WrHalf α} (h : ∀ rx, Surfaces (WrHalf.io rx) m) :
    Surfaces Conn.io (onWr m) := fun c => h c.rx c.wr

theorem connWriteRecord_surfaces (rec : ClientRecord) : Surfaces Conn.io (Conn.writeRecord S rec) :=
  Surfaces.still (fun _ => rfl) ⟨fun c => (errs_writeRecord S rec c.ks.client).out (c.wb, c.ks.server.transcript)⟩

theorem respond_surfaces (bs : Bytes) : Surfaces Conn.io (respond bs) :=
  (onWr_surfaces fun _ => writeAll_surfaces bs).bind fun _ => (onWr_surfaces fun _ => increment_surfaces).bind fun _ =>
    onWr_surfaces fun _ => txFlush_surfaces

theorem close_surfaces : Surfaces Conn.io (Conn.close S) := by
  unfold Conn.close
  exact (onWr_surfaces fun _ => flush_surfaces S).bind fun _ => Surfaces.get.bind fun _ =>
    (connWriteRecord_surfaces S _).bind fun _ => respond_surfaces _

/-! ## Opening -/

/-- The transport during the handshake. -/
def HSt.io (s : HSt V) : Rx × Tx := s.c.io

/-- A provider that does not itself report transport errors. -/
structure Provider.Plain (p : Provider V) : Prop where
  setHostname : ∀ ops, p.verifier = some ops → ∀ n v e v', ops.setHostname n v = (.err e, v') → ¬ TransportError e
  verifyCertificate : ∀ ops, p.verifier = some ops → ∀ t c v e v',
    ops.verifyCertificate t c v = (.err e, v') → ¬ TransportError e
  verifySignature : ∀ ops, p.verifier = some ops → ∀ s v e v', ops.verifySignature s v = (.err e, v') → ¬ TransportError e
  signer : ∀ e, p.signer = .err e → ¬ TransportError e

theorem errs_of {σ α : Type} {m : M TlsError σ α} (h : ∀ s e s', m s = (.err e, s') → ¬ TransportError e) : Errs m := by
  refine ⟨fun s => ⟨fun e he => (Plain_iff e).2 ?_⟩⟩
  rcases hm : m s with ⟨r, s'⟩
  rw [hm] at he
  simp only at he
  subst he
  exact h s e s' hm

theorem onConn_surfaces {α : Type} {m : M TlsError Conn α} (h : Surfaces Conn.io m) :
    Surfaces (HSt.io (V := V)) (onConn m) := fun s => h s.c

theorem onKs_surfaces {α : Type} {m : M TlsError KeySchedule α} (h : Errs m) : Surfaces (HSt.io (V := V)) (onKs m) :=
  Surfaces.still (fun _ => rfl) ⟨fun s => h.out s.c.ks⟩

theorem modHs_surfaces (f : HsData V → HsData V) : Surfaces HSt.io (modHs f) :=
  Surfaces.still (fun _ => rfl) (Errs.modify _)

theorem errs_derived : Errs (SharedState.derived S) := by
  refine ⟨fun s => ?_⟩
  have := plain_makeLabel S s.hkdf (ascii "derived") (some (S.hash [])) S.hashLen
  unfold SharedState.derived SharedState.deriveSecret
  split
  · exact .ok _
  · rename_i heq; rw [heq] at this; exact this.cast
  · exact .panic

theorem errs_onShared {α : Type} {m : M TlsError SharedState α} (h : Errs m) : Errs (KeySchedule.onShared m) :=
  ⟨fun k => h.out k.shared⟩

theorem errs_early (psk : Option Bytes) : Errs (KeySchedule.initializeEarlySecret S psk) := by
  unfold KeySchedule.initializeEarlySecret
  refine (Errs.modify _).bind fun _ => Errs.get.bind fun _ => (Errs.lift (plain_makeLabel S _ _ _ _)).bind fun _ => ?_
  split
  · exact Errs.fail (by trivial)
  · exact (Errs.modify _).bind fun _ => errs_onShared (errs_derived S)

theorem errs_calculate (label : Bytes) (sh : SharedState) (tr : Bytes) : Errs (KsState.calculate S label sh tr) := by
  unfold KsState.calculate
  refine (Errs.lift (plain_makeLabel S _ _ _ _)).bind fun _ => ?_
  split
  · exact Errs.fail (by trivial)
  · exact (Errs.modify _).bind fun _ => (Errs.lift (plain_makeLabel S _ _ _ _)).bind fun _ => (Errs.modify _).bind fun _ =>
      (Errs.lift (plain_makeLabel S _ _ _ _)).bind fun _ => (Errs.modify _).bind fun _ => Errs.modify _

theorem errs_secrets (a b : Bytes) : Errs (KeySchedule.calculateTrafficSecrets S a b) :=
  Errs.bind ⟨fun k => (errs_calculate S a k.shared k.server.transcript).out k.client.st⟩ fun _ =>
    ⟨fun k => (errs_calculate S b k.shared k.server.transcript).out k.server.st⟩

theorem handling_surfaces {m : M TlsError (HSt V) State} (hk : Keeps HSt.io m) (he : Errs m) :
    Surfaces HSt.io (withErrorHandling S m) := by
  intro s
  have h1 := hk s
  have h2 := he.out s
  unfold withErrorHandling
  rcases hm : m s with ⟨r, s1⟩
  rw [hm] at h1 h2
  simp only at h1 h2 ⊢
  rw [← h1]
  refine onConn_surfaces ?_ s1
  unfold handleProcessingError
  split
  · exact (connWriteRecord_surfaces S _).bind fun _ => (respond_surfaces _).bind fun _ =>
      Surfaces.still (Keeps.lift _) (Errs.lift h2)
  · exact Surfaces.still (Keeps.lift _) (Errs.lift h2)

theorem errs_verifyHandler {p : Provider V} (hp : p.Plain) (rec : ServerRecord) : Errs (serverVerifyHandler S p rec) := by
  have hv : ∀ {m : M TlsError V Unit}, Errs m → Errs (onVerifier m) := fun h => ⟨fun s => h.out s.2.1.vst⟩
  cases rec with
  | changeCipherSpec => exact Errs.pure _
  | alert a => exact Errs.fail (by trivial)
  | appData a b c => exact Errs.fail (by trivial)
  | handshake h =>
    cases h with
    | encryptedExtensions => exact Errs.pure _
    | certificate c =>
      unfold serverVerifyHandler
      refine Errs.get.bind fun k => ?_
      cases hq : p.verifier with
      | none => exact Errs.pure _
      | some ops => exact hv (errs_of (hp.verifyCertificate ops hq _ c))
    | certificateVerify v =>
      unfold serverVerifyHandler
      cases hq : p.verifier with
      | none => exact Errs.pure _
      | some ops => exact hv (errs_of (hp.verifySignature ops hq v))
    | certificateRequest ctx =>
      unfold serverVerifyHandler
      refine (Errs.lift ?_).bind fun _ => Errs.modify _
      unfold certRequestOwned
      split
      · exact .ok _
      · exact .err (by trivial)
    | finished f =>
      unfold serverVerifyHandler
      refine Errs.get.bind fun k => (Errs.lift ?_).bind fun good => ?_
      · unfold ReadKS.verifyServerFinished
        have := plain_makeLabel S k.1.st.trafficSecret (ascii "finished") none S.hashLen
        split
        · rename_i heq; rw [heq] at this; exact this.cast
        · exact .panic
        · split
          · exact .err (by trivial)
          · exact .ok _
      · errs
    | serverHello x => exact Errs.fail (by trivial)
    | newSessionTicket => exact Errs.fail (by trivial)

theorem process_surfaces (cfg : Config) {p : Provider V} (hp : p.Plain) (st : State) :
    Surfaces HSt.io (process S cfg p st) := by
  have hread : Surfaces (HSt.io (V := V)) (onConn (onRd (RdHalf.readRecord S))) :=
    onConn_surfaces (onRd_surfaces fun _ => readRecord_surfaces S)
  cases st with
  | clientHello =>
    unfold process clientHello
    exact ((onKs_surfaces (errs_early S _)).bind fun _ => (onConn_surfaces (connWriteRecord_surfaces S _)).bind fun _ =>
      (modHs_surfaces _).bind fun _ => Surfaces.pure _).bind fun _ =>
      (onConn_surfaces (respond_surfaces _)).bind fun _ => Surfaces.pure _
  | serverHello =>
    unfold process
    refine hread.bind fun rec => handling_surfaces S ?_ ?_
    · unfold processServerHello
      split
      · refine Keeps.get.bind fun s => ?_
        split
        · exact Keeps.fail _
        · refine Keeps.bind (fun _ => rfl) fun _ => ?_
          split
          · exact Keeps.fail _
          · exact Keeps.bind (fun _ => rfl) fun _ => Keeps.pure _
      · exact Keeps.fail _
      · exact Keeps.fail _
      · exact Keeps.fail _
    · unfold processServerHello
      split
      · refine Errs.get.bind fun s => ?_
        split
        · exact Errs.fail (by trivial)
        · refine Errs.bind (Errs.modify _) fun _ => ?_
          split
          · exact Errs.fail (by trivial)
          · have hks : ∀ x, Errs (KeySchedule.initializeHandshakeSecret S x) := fun x =>
              (Errs.modify _).bind fun _ => (errs_secrets S _ _).bind fun _ => errs_onShared (errs_derived S)
            exact Errs.bind ⟨fun s => (hks _).out s.c.ks⟩ fun _ => Errs.pure _
      · exact Errs.fail (by trivial)
      · exact Errs.fail (by trivial)
      · exact Errs.fail (by trivial)
  | serverVerify =>
    unfold process
    refine hread.bind fun rec => handling_surfaces S (fun s => rfl) ⟨fun s => ?_⟩
    exact Res.Plain.map ((errs_decrypt S (errs_verifyHandler S hp) rec).out _) _
  | clientCert =>
    unfold process clientCert
    refine Surfaces.bind ?_ fun _ => (onConn_surfaces (respond_surfaces _)).bind fun _ => Surfaces.pure _
    refine Surfaces.get.bind fun s => (modHs_surfaces _).bind fun _ => ?_
    split
    · exact Surfaces.fail (by trivial)
    · exact (onConn_surfaces (connWriteRecord_surfaces S _)).bind fun _ => Surfaces.pure _
  | clientCertVerify =>
    unfold process
    refine Surfaces.bindR (P := fun x => x.1.Plain) ?_ ?_ fun x hx => (onConn_surfaces (respond_surfaces _)).bind fun _ =>
      Surfaces.still (Keeps.lift _) (Errs.lift hx)
    · unfold clientCertVerify
      refine Surfaces.get.bind fun s => ?_
      split
      · exact Surfaces.crash
      · dsimp only
        split
        · exact Surfaces.fail (by trivial)
        · split
          · exact Surfaces.crash
          · split
            · exact Surfaces.crash
            · exact (onConn_surfaces (connWriteRecord_surfaces S _)).bind fun _ => Surfaces.pure _
      · exact (onConn_surfaces (connWriteRecord_surfaces S _)).bind fun _ => Surfaces.pure _
    · unfold clientCertVerify
      intro s a s' ha
      rw [M.get_bind] at ha
      cases hs : p.signer with
      | panic => rw [hs] at ha; cases ha
      | ok x =>
        rw [hs] at ha
        dsimp only at ha
        split at ha
        · cases ha
        · cases hm : x.1 (clientSignedContent S s.c.ks.server.transcript) with
          | none => rw [hm] at ha; cases ha
          | some sig =>
            rw [hm] at ha
            dsimp only at ha
            split at ha
            · cases ha
            · obtain ⟨x, s1, _, h2⟩ := M.bind_inv ha
              cases h2
              exact .ok _
      | err e =>
        rw [hs] at ha
        obtain ⟨x, s1, _, h2⟩ := M.bind_inv ha
        cases h2
        exact .err ((Plain_iff e).2 (hp.signer e hs))
  | clientFinished =>
    unfold process clientFinished clientFinishedFinalize
    refine Surfaces.bind (Surfaces.get.bind fun s => Surfaces.bind (Surfaces.still (Keeps.lift _) (Errs.lift ?_)) fun f =>
      onConn_surfaces (connWriteRecord_surfaces S _)) fun _ => (onConn_surfaces (respond_surfaces _)).bind fun _ =>
      Surfaces.get.bind fun s => ?_
    · have := (plain_makeLabel S s.c.ks.client.st.trafficSecret (ascii "finished") none S.hashLen)
      cases s.c.ks.createClientFinished S with
      | ok a => exact .ok _
      | err e => exact .err (by trivial)
      | panic => exact .panic
    · split
      · exact Surfaces.fail (by trivial)
      · refine (modHs_surfaces _).bind fun _ => (onKs_surfaces (Errs.modify _)).bind fun _ =>
          (onKs_surfaces ?_).bind fun _ => Surfaces.pure _
        exact (Errs.modify _).bind fun _ => (errs_secrets S _ _).bind fun _ => errs_onShared (errs_derived S)
  | applicationData => exact Surfaces.pure _

theorem openLoop_surfaces (cfg : Config) {p : Provider V} (hp : p.Plain) : ∀ n st, Surfaces HSt.io (openLoop S cfg p n st)
  | 0, _ => Surfaces.crash
  | n + 1, st => by
    unfold openLoop
    split
    · exact Surfaces.pure _
    · exact (process_surfaces S cfg hp st).bind fun st' => openLoop_surfaces cfg hp n st'

theorem open_surfaces (cfg : Config) {p : Provider V} (hp : p.Plain) (v : V) :
    Surfaces Conn.io (Conn.open_ S cfg p v) := by
  have h : Surfaces HSt.io (openSt S cfg p) := by
    unfold openSt
    refine Surfaces.bind ?_ fun _ => Surfaces.get.bind fun _ => (openLoop_surfaces S cfg hp _ _).bind fun _ =>
      Surfaces.still (fun _ => rfl) (Errs.modify _)
    unfold setHostname
    cases hq : p.verifier with
    | none => exact Surfaces.pure _
    | some ops =>
      cases cfg.serverName with
      | none => exact Surfaces.pure _
      | some name => exact Surfaces.still (fun _ => rfl) ⟨fun s => (errs_of (hp.setHostname ops hq name)).out s.h.vst⟩
  exact fun c => h ⟨c, ⟨none, none, none, v⟩⟩

/-! ## The crate's providers -/

theorem noVerify_plain (random secret : Bytes) (cert : Option CertEntry)
    (signer : Res TlsError ((Bytes → Option Bytes) × SignatureScheme)) (hs : ∀ e, signer = .err e → ¬ TransportError e) :
    Provider.Plain (V := V) ⟨random, secret, some noVerify, signer, cert⟩ where
  setHostname := by rintro ops h n v e v' h'; cases h; cases h'
  verifyCertificate := by rintro ops h t c v e v' h'; cases h; cases h'
  verifySignature := by rintro ops h t v e v' h'; cases h; cases h'
  signer := hs

theorem unsecure_plain (L : P256Lib) (u : UnsecureProvider) : (u.provider (V := V) L).Plain where
  setHostname := by intro ops h; cases h
  verifyCertificate := by intro ops h; cases h
  verifySignature := by intro ops h; cases h
  signer := by
    intro e h
    change u.signer L = .err e at h
    unfold UnsecureProvider.signer at h
    rw [← Plain_iff]
    split at h
    · cases h; trivial
    · split at h
      · cases h; trivial
      · cases h

theorem not_of_errs {σ α : Type} {m : M TlsError σ α} (h : Errs m) : ∀ s e s', m s = (.err e, s') → ¬ TransportError e := by
  intro s e s' hm
  have := h.out s
  rw [hm] at this
  exact this.not e rfl

theorem errs_setHostname (n : Bytes) : Errs (pkiSetHostname n) := by unfold pkiSetHostname; errs

theorem plain_certOwned (N : Nat) (c : CertMsg) : (certOwned N c).Plain := by unfold certOwned; errs

theorem plain_serverSigned (cap : Nat) (t : Bytes) : (serverSigned S cap t).Plain := by
  unfold serverSigned; errs

theorem plain_parseVector (p : PB) : (CertEntry.parseVector 16 p).Plain := by
  have hentry : Errs CertEntry.parse := by
    unfold CertEntry.parse
    have := errs_extVector certificateGroup 2
    errs
  exact (errs_readListLoop 16 (full := .decodeError) trivial hentry _ _).out p

theorem native_plain (L : PkiLib) (F : Features) (now : Option Nat) (N : Nat) (random secret : Bytes)
    (signer : Res TlsError ((Bytes → Option Bytes) × SignatureScheme)) (cert : Option CertEntry)
    (hs : ∀ e, signer = .err e → ¬ TransportError e) :
    Provider.Plain ⟨random, secret, some (pkiOps L S F now N), signer, cert⟩ where
  setHostname := by rintro ops h n; cases h; exact not_of_errs (errs_setHostname n)
  verifyCertificate := by
    rintro ops h t c; cases h
    refine not_of_errs ?_
    show Errs (pkiVerifyCertificate L F now N t c)
    have hc : ∀ a b, (verifyCertEntry L F a b now).Plain := by
      intro a b
      have hk : ∀ al k d s, (checkCertSignature L al k d s).Plain := by
        intro al k d s; unfold checkCertSignature; errs
      unfold verifyCertEntry
      repeat' first
        | exact .err (by trivial)
        | exact .panic
        | exact .ok _
        | split
      rename_i heq
      exact (heq ▸ hk _ _ _ _ : (Res.err _ : Res TlsError Bool).Plain).cast
    have hch : ∀ es prev ns, (verifyChain L F now prev es ns).Plain := by
      intro es
      induction es with
      | nil => intro _ _; exact .ok _
      | cons e es ih =>
        intro prev ns
        have := hc prev e
        unfold verifyChain
        split
        · exact ih _ _
        · rename_i heq; rw [heq] at this; exact this.cast
        · exact .panic
    unfold pkiVerifyCertificate
    refine Errs.get.bind fun v => (Errs.lift (hch _ _ _)).bind fun ns => ?_
    split
    · exact (Errs.lift (plain_certOwned N c)).bind fun _ => Errs.modify _
    · exact Errs.fail (by trivial)
  verifySignature := by
    rintro ops h cv; cases h
    refine not_of_errs ?_
    show Errs (pkiVerifySignature L S F cv)
    unfold pkiVerifySignature
    refine Errs.get.bind fun v => ?_
    split
    · exact Errs.crash
    · refine (Errs.modify _).bind fun _ => (Errs.lift (plain_serverSigned S _ _)).bind fun _ => ?_
      split
      · exact Errs.crash
      · refine (Errs.lift (plain_parseVector _)).bind fun _ => Errs.lift ?_
        unfold verifyPkiSignature
        repeat' first
          | exact .err (by trivial)
          | exact .panic
          | exact .ok _
          | split
  signer := hs

theorem webpki_plain (W : WebLib) (alloc : Bool) (now : Option Nat) (N : Nat) (random secret : Bytes)
    (signer : Res TlsError ((Bytes → Option Bytes) × SignatureScheme)) (cert : Option CertEntry)
    (hs : ∀ e, signer = .err e → ¬ TransportError e) :
    Provider.Plain ⟨random, secret, some (webOps W S alloc now N), signer, cert⟩ where
  setHostname := by rintro ops h n; cases h; exact not_of_errs (errs_setHostname n)
  verifyCertificate := by
    rintro ops h t c; cases h
    refine not_of_errs ?_
    show Errs (webVerifyCertificate W now N t c)
    unfold webVerifyCertificate
    refine Errs.get.bind fun v => (Errs.lift ?_).bind fun ns => (Errs.lift (plain_certOwned N c)).bind fun _ => Errs.modify _
    unfold webVerifyChain
    repeat' first
      | exact .err (by trivial)
      | exact .panic
      | exact .ok _
      | dsimp only
      | split
  verifySignature := by
    rintro ops h cv; cases h
    refine not_of_errs ?_
    show Errs (webVerifySignature W S alloc cv)
    unfold webVerifySignature
    refine Errs.get.bind fun v => ?_
    split
    · exact Errs.crash
    · refine (Errs.modify _).bind fun _ => (Errs.lift (plain_serverSigned S _ _)).bind fun _ => ?_
      split
      · exact Errs.crash
      · refine (Errs.lift (plain_parseVector _)).bind fun _ => Errs.lift ?_
        unfold webCheckSignature
        repeat' first
          | exact .err (by trivial)
          | exact .panic
          | exact .ok _
          | split
  signer := hs

/-! ## C85 -/

/-- **C85, reading calls** on a connection or its reading half, in any state. -/
theorem C85_read (op : ROp) (c : Conn) :
    Surfaced c.rx c.tx (onRd (op.run S) c).1 (onRd (op.run S) c).2.rx (onRd (op.run S) c).2.tx :=
  onRd_surfaces (fun _ => op.surfaces S) c

/-- **C85, writing calls** on a connection or its writing half, in any state. -/
theorem C85_write (op : WOp) (c : Conn) :
    Surfaced c.rx c.tx (onWr (op.run S) c).1 (onWr (op.run S) c).2.rx (onWr (op.run S) c).2.tx :=
  onWr_surfaces (fun _ => op.surfaces S) c

/-- **C85, `close`**, in any state. -/
theorem C85_close (c : Conn) : Surfaced c.rx c.tx (Conn.close S c).1 (Conn.close S c).2.rx (Conn.close S c).2.tx :=
  close_surfaces S c

/-- **C85, `open`**, in any state and with any provider that does not itself return transport errors. -/
theorem C85_open (cfg : Config) (p : Provider V) (hp : p.Plain) (v : V) (c : Conn) :
    Surfaced c.rx c.tx (Conn.open_ S cfg p v c).1 (Conn.open_ S cfg p v c).2.rx (Conn.open_ S cfg p v c).2.tx :=
  open_surfaces S cfg hp v c

/-- How many failures the transport still has in store. -/
def failures (rx : Rx) (tx : Tx) : Nat :=
  rx.countP (fun e => match e with | .err _ => true | _ => false) +
    tx.ctl.countP (fun e => match e with | .fail _ _ => true | _ => false)

theorem drew_failures {a b : Rx} (h : Drew a b) : a.countP (fun e => match e with | .err _ => true | _ => false) =
    b.countP (fun e => match e with | .err _ => true | _ => false) := by
  obtain ⟨pre, hp, hr⟩ := h
  have h0 : pre.countP (fun e => match e with | .err _ => true | _ => false) = 0 := by
    rw [List.countP_eq_zero]
    intro e he
    obtain ⟨b, bs, rfl⟩ := hp e he
    simp
  rcases hr with rfl | ⟨bs, n, rest, _, rfl, rfl⟩
  · rw [List.countP_append, h0, Nat.zero_add]
  · rw [List.countP_append, h0, Nat.zero_add, List.countP_cons, List.countP_cons]

theorem answered_failures {a b : Tx} (h : Answered a b) :
    a.ctl.countP (fun e => match e with | .fail _ _ => true | _ => false) =
    b.ctl.countP (fun e => match e with | .fail _ _ => true | _ => false) := by
  obtain ⟨evs, _, _, ht, hd⟩ := h
  rw [hd]
  conv => lhs; rw [← List.take_append_drop evs.length a.ctl, List.countP_append]
  have h0 : (a.ctl.take evs.length).countP (fun e => match e with | .fail _ _ => true | _ => false) = 0 := by
    rw [List.countP_eq_zero]
    intro e he
    rw [ht e he]
    simp
  rw [h0, Nat.zero_add]

/-- **C85, counted** A call meets at most one failure of the transport; it meets one exactly if it returns that
failure's error. -/
theorem C85_count {α : Type} {rx rx' : Rx} {tx tx' : Tx} {r : Res TlsError α} (h : Surfaced rx tx r rx' tx') :
    failures rx tx = failures rx' tx' + (match r with | .err (.io _) => 1 | _ => 0) := by
  unfold failures
  cases h with
  | quiet a b c =>
    rw [drew_failures a, answered_failures b]
    split
    · exact absurd (.inr ⟨_, rfl⟩) (c _ rfl)
    · rfl
  | readFailed a b =>
    rw [drew_failures a, answered_failures b, List.countP_cons]
    simp only [if_true]
    omega
  | ended a b =>
    rw [answered_failures b]
    rcases a with ⟨a, rfl⟩ | a
    · rw [drew_failures a]
      rfl
    · rw [drew_failures a, List.countP_cons]
      simp
  | writeFailed a b c d e =>
    rw [drew_failures a, answered_failures b, c, List.countP_cons]
    simp only [if_true]
    omega

/-- A read that fails in the middle of a record, one that meets the end of the stream, and one that meets no failure. -/
example : (onRd (ROp.run toySuite (.read 10)) (exConn [.data [23, 3], .err 5, .data [1]])).1 = .err (.io 5) ∧
    (onRd (ROp.run toySuite (.read 10)) (exConn [.data [23, 3], .err 5, .data [1]])).2.rx = [.data [1]] ∧
    (onRd (ROp.run toySuite (.read 10)) (exConn [.data [23, 3]])).1 = .err .ioError ∧
    (onRd (ROp.run toySuite (.read 10)) (exConn [.data (exRecord 0 [7, 8]), .err 5])).2.rx = [.err 5] := by
  decide +kernel

/-- A write that fails. -/
example : (onWr (WOp.run toySuite .flush) { exConn [] with
      tx := ⟨[.fail 9 3], []⟩, wb := ⟨List.replicate 200 0, 6, some .applicationData⟩ }).1 = .err (.io 9) := by
  decide +kernel

/-- A provider of the crate meets the hypothesis of `C85_open`. -/
example : Provider.Plain (V := Unit) (defaultProvider [] []) where
  setHostname := by intro ops h; cases h
  verifyCertificate := by intro ops h; cases h
  verifySignature := by intro ops h; cases h
  signer := by intro e h; cases h; simp [TransportError]

end ETls
