import Verif.Proofs.ConnWrite
import Verif.Props.Messages

/-! # The receiving side of the transport and the record reader -/

namespace ETls

variable (S : Suite)

/-- All bytes the transport will still deliver. -/
def Rx.bytes : Rx → Bytes
  | [] => []
  | .data bs :: r => bs ++ Rx.bytes r
  | .err _ :: r => Rx.bytes r

/-- A transport that only delivers non-empty chunks (until the end of the stream). -/
def Rx.Clean (rx : Rx) : Prop := ∀ e ∈ rx, ∃ bs, bs ≠ [] ∧ e = .data bs

theorem Rx.Clean.tail {e : InEv} {rx : Rx} (h : Rx.Clean (e :: rx)) : Rx.Clean rx :=
  fun x hx => h x (List.mem_cons_of_mem _ hx)

theorem Rx.bytes_le_size (rx : Rx) : rx.bytes.length ≤ rx.size := by
  induction rx with
  | nil => simp [Rx.bytes]
  | cons e r ih => cases e <;> simp [Rx.bytes, Rx.size] <;> omega

/-- A clean transport with nothing to deliver is at its end. -/
theorem Rx.Clean.eq_nil {rx : Rx} (h : rx.Clean) (hb : rx.bytes = []) : rx = [] := by
  cases rx with
  | nil => rfl
  | cons e r =>
    obtain ⟨bs, h1, rfl⟩ := h e List.mem_cons_self
    simp [Rx.bytes] at hb
    exact absurd hb.1 h1

/-- What any `read` does. -/
inductive ReadStep (n : Nat) (rx : Rx) : Res TlsError Bytes × Rx → Prop where
  | ok (bs : Bytes) (rx' : Rx) (hn : bs.length ≤ n) (hb : rx.bytes = bs ++ rx'.bytes)
      (hs : rx'.size + bs.length ≤ rx.size) : ReadStep n rx (.ok bs, rx')
  | err (k : IoKind) (rx' : Rx) (hb : rx.bytes = rx'.bytes) (hs : rx'.size ≤ rx.size) :
      ReadStep n rx (.err (.io k), rx')

theorem Rx.read_step (n : Nat) (rx : Rx) : ReadStep n rx (Rx.read n rx) := by
  unfold Rx.read
  cases rx with
  | nil => exact .ok [] [] (by simp) rfl (by simp)
  | cons e r =>
    cases e with
    | err k => exact .err k r rfl (by simp [Rx.size])
    | data bs =>
      simp only
      split
      · next h => exact .ok bs r h rfl (by simp [Rx.size]; omega)
      · next h =>
        refine .ok (bs.take n) _ (by simp; omega) ?_ ?_
        · simp only [Rx.bytes]; rw [← List.append_assoc, List.take_append_drop]
        · simp [Rx.size]; omega

/-- What `read` does on a clean transport. -/
theorem Rx.read_clean (n : Nat) (hn : 0 < n) (rx : Rx) (hc : rx.Clean) :
    ∃ bs rx', Rx.read n rx = (.ok bs, rx') ∧ rx'.Clean ∧ bs.length ≤ n ∧ rx.bytes = bs ++ rx'.bytes ∧
      (bs = [] → rx = [] ∧ rx' = []) := by
  unfold Rx.read
  cases rx with
  | nil => exact ⟨[], [], rfl, hc, by simp, rfl, fun _ => ⟨rfl, rfl⟩⟩
  | cons e r =>
    obtain ⟨bs, h1, rfl⟩ := hc e List.mem_cons_self
    simp only
    split
    · next h => exact ⟨bs, r, rfl, hc.tail, h, rfl, fun h => absurd h h1⟩
    · next h =>
      refine ⟨bs.take n, .data (bs.drop n) :: r, rfl, ?_, by simp; omega, ?_, ?_⟩
      · intro x hx
        rcases List.mem_cons.1 hx with rfl | hx
        · exact ⟨_, by intro h'; have := congrArg List.length h'; simp at this; omega, rfl⟩
        · exact hc.tail x hx
      · simp only [Rx.bytes]; rw [← List.append_assoc, List.take_append_drop]
      · intro h'
        have := congrArg List.length h'
        simp at this
        rcases this with h'' | h''
        · omega
        · exact absurd h'' h1

/-- The header loop on a clean transport. -/
theorem headerLoop_clean (fuel : Nat) : ∀ (acc : Bytes) (rx : Rx), acc.length ≤ 5 → 5 - acc.length < fuel → rx.Clean →
    (5 - acc.length ≤ rx.bytes.length → ∃ rx', headerLoop fuel acc rx = (.ok (acc ++ rx.bytes.take (5 - acc.length)), rx') ∧
      rx'.Clean ∧ rx'.bytes = rx.bytes.drop (5 - acc.length)) ∧
    (rx.bytes.length < 5 - acc.length → headerLoop fuel acc rx = (.err .ioError, [])) := by
  induction fuel with
  | zero => intro acc rx _ h; omega
  | succ fuel ih =>
    intro acc rx hl hf hc
    unfold headerLoop
    by_cases h5 : acc.length = 5
    · rw [if_pos h5]
      refine ⟨fun _ => ⟨rx, ?_, hc, ?_⟩, fun h => by omega⟩
      · simp [h5]
      · simp [h5]
    · rw [if_neg h5]
      obtain ⟨bs, rx1, h1, h2, h3, h4, h6⟩ := Rx.read_clean (5 - acc.length) (by omega) rx hc
      rw [M.bind_ok h1]
      by_cases h0 : bs.length = 0
      · rw [if_pos h0]
        have : bs = [] := List.length_eq_zero_iff.1 h0
        obtain ⟨hx, hx'⟩ := h6 this
        subst hx hx'
        refine ⟨fun h => ?_, fun _ => rfl⟩
        simp [Rx.bytes] at h; omega
      · rw [if_neg h0]
        obtain ⟨g1, g2⟩ := ih (acc ++ bs) rx1 (by simp; omega) (by simp; omega) h2
        simp only [List.length_append] at g1 g2
        have hlen : rx.bytes.length = bs.length + rx1.bytes.length := by rw [h4]; simp
        refine ⟨fun h => ?_, fun h => ?_⟩
        · obtain ⟨rx', k1, k2, k3⟩ := g1 (by omega)
          refine ⟨rx', ?_, k2, ?_⟩
          · rw [k1, h4, List.append_assoc, List.take_append]
            congr 3
            rw [List.take_of_length_le (l := bs) (by omega)]
            congr 2
            omega
          · rw [k3, h4, List.drop_append, List.drop_of_length_le (l := bs) (by omega), List.nil_append]
            congr 1
            omega
        · exact g2 (by omega)

theorem splice_splice (buf x y : Bytes) (p : Nat) (hp : p + x.length ≤ buf.length) :
    CB.splice (CB.splice buf p x) (p + x.length) y = CB.splice buf p (x ++ y) := by
  have h1 : (buf.take p).length = p := by simp; omega
  have : CB.splice buf p x = (buf.take p ++ x) ++ buf.drop (p + x.length) := by simp [CB.splice]
  rw [this, splice_at_length _ _ _ _ (by simp; omega)]
  simp [CB.splice, List.drop_drop]
  congr 1
  omega

theorem splice_nil (buf : Bytes) (p : Nat) : CB.splice buf p [] = buf := by
  simp [CB.splice]

theorem splice_length (buf bs : Bytes) (p : Nat) (h : p + bs.length ≤ buf.length) :
    (CB.splice buf p bs).length = buf.length := by
  simp [CB.splice]; omega

/-- The spliced bytes are found where they were put. -/
theorem splice_read (buf bs : Bytes) (p : Nat) (h : p ≤ buf.length) :
    ((CB.splice buf p bs).drop p).take bs.length = bs := by
  have h1 : (buf.take p).length = p := by simp; omega
  simp only [CB.splice]
  rw [List.append_assoc, List.drop_append, List.drop_of_length_le (by omega), List.nil_append, h1, Nat.sub_self,
    List.drop_zero, List.take_left]

/-- The payload loop on a clean transport, with nothing left over from an earlier record. -/
theorem advanceLoop_clean (amount : Nat) (fuel : Nat) : ∀ (remain : Nat) (r : RR) (rx : Rx), remain < fuel →
    r.pending + remain = amount → r.decoded + amount ≤ r.buf.length → rx.Clean →
    (remain ≤ rx.bytes.length → ∃ rx', advanceLoop amount fuel remain (r, rx) =
        (.ok (), ({ r with buf := CB.splice r.buf (r.decoded + r.pending) (rx.bytes.take remain), pending := amount }, rx')) ∧
      rx'.Clean ∧ rx'.bytes = rx.bytes.drop remain) ∧
    (rx.bytes.length < remain → advanceLoop amount fuel remain (r, rx) =
        (.err .ioError, ({ r with buf := CB.splice r.buf (r.decoded + r.pending) rx.bytes,
                                  pending := r.pending + rx.bytes.length }, []))) := by
  induction fuel with
  | zero => intro remain r rx h; omega
  | succ fuel ih =>
    intro remain r rx hf hp hd hc
    unfold advanceLoop
    by_cases hlt : r.pending < amount
    · simp only
      rw [if_pos hlt, if_neg (by omega)]
      obtain ⟨bs, rx1, h1, h2, h3, h4, h6⟩ := Rx.read_clean remain (by omega) rx hc
      simp only [h1]
      by_cases h0 : bs.length = 0
      · rw [if_pos h0]
        have hbs : bs = [] := List.length_eq_zero_iff.1 h0
        obtain ⟨hx, hx'⟩ := h6 hbs
        subst hx hx'
        refine ⟨fun h => ?_, fun _ => ?_⟩
        · simp [Rx.bytes] at h; omega
        · simp [Rx.bytes, splice_nil]
      · rw [if_neg h0]
        obtain ⟨g1, g2⟩ := ih (remain - bs.length)
          { r with buf := CB.splice r.buf (r.decoded + r.pending) bs, pending := r.pending + bs.length } rx1
          (by omega) (by simp only; omega) (by simp only; rw [splice_length _ _ _ (by omega)]; exact hd) h2
        have hlen : rx.bytes.length = bs.length + rx1.bytes.length := by rw [h4]; simp
        simp only [← Nat.add_assoc] at g1 g2
        have hsp := fun y => splice_splice r.buf bs y (r.decoded + r.pending) (by omega)
        refine ⟨fun h => ?_, fun h => ?_⟩
        · obtain ⟨rx', k1, k2, k3⟩ := g1 (by omega)
          refine ⟨rx', ?_, k2, ?_⟩
          · rw [k1, hsp, h4, List.take_append, List.take_of_length_le (l := bs) (by omega)]
          · rw [k3, h4, List.drop_append, List.drop_of_length_le (l := bs) (by omega), List.nil_append]
        · rw [g2 (by omega), hsp, h4]
          simp [Nat.add_assoc]
    · simp only
      rw [if_neg hlt]
      have h0 : remain = 0 := by omega
      subst h0
      refine ⟨fun _ => ⟨rx, ?_, hc, by simp⟩, fun h => by omega⟩
      have : r.pending = amount := by omega
      simp [splice_nil, ← this]

/-- The reader of one record as a function of the bytes still to come: the result, and the new reader, rest of the
bytes and transcript. -/
def pureRead (rr : RR) (bytes tr : Bytes) : Res TlsError ServerRecord × (RR × (Bytes × Bytes)) :=
  if bytes.length < 5 then (.err .ioError, (rr, ([], tr)))
  else
    match RecordHeader.decode (bytes.take 5) with
    | .err e => (.err e, (rr, (bytes.drop 5, tr)))
    | .panic => (.panic, (rr, (bytes.drop 5, tr)))
    | .ok h =>
      let n := h.contentLength
      if n > rr.buf.length then (.err .insufficientSpace, (rr, (bytes.drop 5, tr)))
      else
        let at_ := if rr.decoded + n > rr.buf.length then 0 else rr.decoded
        let rest := bytes.drop 5
        if rest.length < n then
          (.err .ioError, (⟨CB.splice rr.buf at_ rest, at_, rest.length⟩, ([], tr)))
        else
          let (r, tr') := ServerRecord.decode S h at_ (rest.take n) tr
          (r, (⟨CB.splice rr.buf at_ (rest.take n), at_ + n, 0⟩, (rest.drop n, tr')))

/-- The reader is between two records, or the stream has ended. -/
structure RR.Between (rr : RR) (bytes : Bytes) : Prop where
  decoded : rr.decoded ≤ rr.buf.length
  pending : rr.pending = 0 ∨ bytes = []

theorem splice_empty_front (buf : Bytes) (x : Bytes) : CB.splice buf 0 (List.take 0 x) = buf := by
  simp [CB.splice]

/-- `record_reader::read` on a clean transport depends on the bytes only. -/
theorem readRecord_clean (rr : RR) (rx : Rx) (tr : Bytes) (hc : rx.Clean) (hb : rr.Between rx.bytes) :
    ∃ rx', rx'.Clean ∧ rx'.bytes = (pureRead S rr rx.bytes tr).2.2.1 ∧
      readRecord S ⟨rr, rx, tr⟩ =
        ((pureRead S rr rx.bytes tr).1, ⟨(pureRead S rr rx.bytes tr).2.1, rx', (pureRead S rr rx.bytes tr).2.2.2⟩) := by
  obtain ⟨h1, h2⟩ := headerLoop_clean 6 [] rx (by simp) (by simp) hc
  simp only [List.length_nil, Nat.sub_zero, List.nil_append] at h1 h2
  unfold pureRead readRecord
  by_cases h5 : rx.bytes.length < 5
  · rw [if_pos h5]
    have hh : RdSt.header ⟨rr, rx, tr⟩ = (.err .ioError, ⟨rr, [], tr⟩) := by
      simp only [RdSt.header, nextRecordHeader]
      rw [M.bind_err (h2 h5)]
    rw [M.bind_err hh]
    exact ⟨[], (by intro e he; cases he), rfl, rfl⟩
  · rw [if_neg h5]
    obtain ⟨rx1, g1, g2, g3⟩ := h1 (by omega)
    have hh : RdSt.header ⟨rr, rx, tr⟩ = (RecordHeader.decode (rx.bytes.take 5), ⟨rr, rx1, tr⟩) := by
      simp only [RdSt.header, nextRecordHeader]
      rw [M.bind_ok g1]
      rfl
    rcases hd : RecordHeader.decode (rx.bytes.take 5) with h | e | _
    · rw [hd] at hh
      rw [M.bind_ok hh]
      simp only
      have hp : rr.pending = 0 := by
        rcases hb.pending with h | h
        · exact h
        · simp [h] at h5
      obtain ⟨buf, dec, pend⟩ := rr
      simp only at hp
      subst hp
      have hdl : dec ≤ buf.length := hb.decoded
      generalize hn : h.contentLength = n
      by_cases hbig : n > buf.length
      · rw [if_pos hbig]
        have ha : RdSt.advance n ⟨⟨buf, dec, 0⟩, rx1, tr⟩ = (.err .insufficientSpace, ⟨⟨buf, dec, 0⟩, rx1, tr⟩) := by
          have : ensureContiguous n ⟨buf, dec, 0⟩ = (.err .insufficientSpace, ⟨buf, dec, 0⟩) := by
            unfold ensureContiguous
            simp only
            rw [if_pos (by omega), if_pos hbig]
          simp only [RdSt.advance, ETls.advance]
          rw [M.bind_err (onFst_err this rx1)]
        rw [M.bind_err ha]
        exact ⟨rx1, g2, g3, rfl⟩
      · rw [if_neg hbig]
        generalize hat : (if dec + n > buf.length then 0 else dec) = at_
        have hatn : at_ + n ≤ buf.length := by
          rw [← hat]; split <;> omega
        have hens : ensureContiguous n ⟨buf, dec, 0⟩ = (.ok (), ⟨buf, at_, 0⟩) := by
          unfold ensureContiguous
          simp only
          split
          · next hx =>
            rw [if_neg (by omega)]
            rw [if_pos hx] at hat
            subst hat
            simp [splice_nil]
          · next hx =>
            rw [if_neg hx] at hat
            rw [hat]
        obtain ⟨a1, a2⟩ := advanceLoop_clean n (n + 1) n ⟨buf, at_, 0⟩ rx1 (by omega) (by simp) hatn g2
        simp only [Nat.add_zero, Nat.zero_add] at a1 a2
        rw [g3] at a1 a2
        by_cases hshort : (rx.bytes.drop 5).length < n
        · rw [if_pos hshort]
          have ha : RdSt.advance n ⟨⟨buf, dec, 0⟩, rx1, tr⟩ = (.err .ioError,
              ⟨⟨CB.splice buf at_ (rx.bytes.drop 5), at_, (rx.bytes.drop 5).length⟩, [], tr⟩) := by
            simp only [RdSt.advance, ETls.advance]
            rw [M.bind_ok (onFst_ok hens rx1), a2 hshort]
          rw [M.bind_err ha]
          exact ⟨[], (by intro e he; cases he), rfl, rfl⟩
        · rw [if_neg hshort]
          obtain ⟨rx2, k1, k2, k3⟩ := a1 (by omega)
          have ha : RdSt.advance n ⟨⟨buf, dec, 0⟩, rx1, tr⟩ = (.ok (),
              ⟨⟨CB.splice buf at_ ((rx.bytes.drop 5).take n), at_, n⟩, rx2, tr⟩) := by
            simp only [RdSt.advance, ETls.advance]
            rw [M.bind_ok (onFst_ok hens rx1), k1]
          rw [M.bind_ok ha]
          have htl : ((rx.bytes.drop 5).take n).length = n := by simp at hshort ⊢; omega
          have hsl : ((CB.splice buf at_ ((rx.bytes.drop 5).take n)).drop at_).take n = (rx.bytes.drop 5).take n := by
            have := splice_read buf ((rx.bytes.drop 5).take n) at_ (by omega)
            rw [htl] at this
            exact this
          have hlen := splice_length buf ((rx.bytes.drop 5).take n) at_ (by omega)
          refine ⟨rx2, k2, ?_, ?_⟩
          · rw [k3]
          · unfold consumeRecord
            simp only [hn]
            rw [if_neg (by omega), if_neg (by omega), hsl]
            simp
    · rw [hd] at hh
      rw [M.bind_err hh]
      exact ⟨rx1, g2, g3, rfl⟩
    · rw [hd] at hh
      rw [M.bind_panic hh]
      exact ⟨rx1, g2, g3, rfl⟩

/-! ## Any transport -/

/-- The header loop on any transport: no panic; five bytes in case of success. -/
theorem headerLoop_any (fuel : Nat) : ∀ (acc : Bytes) (rx : Rx), acc.length ≤ 5 → 5 - acc.length < fuel →
    (headerLoop fuel acc rx).1 ≠ .panic ∧ (headerLoop fuel acc rx).2.size ≤ rx.size ∧
    (headerLoop fuel acc rx).2.bytes <:+ rx.bytes ∧
    ∀ h, (headerLoop fuel acc rx).1 = .ok h → h.length = 5 ∧
      (headerLoop fuel acc rx).2.size + (5 - acc.length) ≤ rx.size ∧
      acc ++ rx.bytes = h ++ (headerLoop fuel acc rx).2.bytes := by
  induction fuel with
  | zero => intro acc rx _ h; omega
  | succ fuel ih =>
    intro acc rx hl hf
    unfold headerLoop
    by_cases h5 : acc.length = 5
    · rw [if_pos h5]
      refine ⟨by simp, by simp, by simp, ?_⟩
      intro h hh
      simp only [M.pure_apply, Res.ok.injEq] at hh
      subst hh
      refine ⟨h5, ?_, rfl⟩
      simp [h5]
    · rw [if_neg h5]
      have hstep := Rx.read_step (5 - acc.length) rx
      rcases hr : Rx.read (5 - acc.length) rx with ⟨r, rx1⟩
      rw [hr] at hstep
      cases hstep with
      | err k _ hb hs =>
        rw [M.bind_err hr]
        exact ⟨by simp, hs, by rw [hb]; simp, by simp⟩
      | ok bs _ hn hb hs =>
        rw [M.bind_ok hr]
        by_cases h0 : bs.length = 0
        · rw [if_pos h0]
          refine ⟨by simp, by simp only [M.fail_apply]; omega, ?_, by simp⟩
          simp only [M.fail_apply]
          rw [hb]; simp
        · rw [if_neg h0]
          obtain ⟨g1, g2, g3, g4⟩ := ih (acc ++ bs) rx1 (by simp; omega) (by simp; omega)
          refine ⟨g1, by omega, ?_, ?_⟩
          · rw [hb]; exact g3.trans (by simp)
          · intro h hh
            obtain ⟨k1, k2, k3⟩ := g4 h hh
            refine ⟨k1, ?_, ?_⟩
            · simp only [List.length_append] at k2; omega
            · rw [hb, ← List.append_assoc, k3]

/-- Buffer indices are in range. -/
def RR.Inv (rr : RR) : Prop := rr.decoded + rr.pending ≤ rr.buf.length

/-- The payload loop on any transport. -/
theorem advanceLoop_any (amount fuel : Nat) : ∀ (remain : Nat) (r : RR) (rx : Rx), remain < fuel → r.Inv →
    (advanceLoop amount fuel remain (r, rx)).2.1.Inv ∧
    (advanceLoop amount fuel remain (r, rx)).2.1.buf.length = r.buf.length ∧
    (advanceLoop amount fuel remain (r, rx)).2.1.decoded = r.decoded ∧
    (advanceLoop amount fuel remain (r, rx)).2.2.size ≤ rx.size ∧
    (advanceLoop amount fuel remain (r, rx)).2.2.bytes <:+ rx.bytes ∧
    ((advanceLoop amount fuel remain (r, rx)).1 = .ok () →
      amount ≤ (advanceLoop amount fuel remain (r, rx)).2.1.pending) ∧
    (∀ e, (advanceLoop amount fuel remain (r, rx)).1 = .err e → e = .ioError ∨ ∃ k, e = .io k) ∧
    (r.pending + remain = amount → r.decoded + amount ≤ r.buf.length →
      (advanceLoop amount fuel remain (r, rx)).1 ≠ .panic ∧
      (advanceLoop amount fuel remain (r, rx)).2.1.pending ≤ amount ∧
      ((advanceLoop amount fuel remain (r, rx)).1 = .ok () → ∃ bs, bs.length = remain ∧
        rx.bytes = bs ++ (advanceLoop amount fuel remain (r, rx)).2.2.bytes ∧
        (advanceLoop amount fuel remain (r, rx)).2.1.buf = CB.splice r.buf (r.decoded + r.pending) bs)) := by
  induction fuel with
  | zero => intro remain r rx h; omega
  | succ fuel ih =>
    intro remain r rx hf hinv
    unfold advanceLoop
    by_cases hlt : r.pending < amount
    · simp only
      rw [if_pos hlt]
      by_cases hoob : r.decoded + r.pending > r.buf.length ∨ r.decoded + r.pending + remain > r.buf.length
      · rw [if_pos hoob]
        refine ⟨hinv, rfl, rfl, by simp, by simp, by simp, by simp, fun h1 h2 => ?_⟩
        exfalso; omega
      · rw [if_neg hoob]
        have hstep := Rx.read_step remain rx
        rcases hr : Rx.read remain rx with ⟨res, rx1⟩
        rw [hr] at hstep
        cases hstep with
        | err k _ hb hs =>
          refine ⟨hinv, rfl, rfl, hs, by rw [hb]; simp, by simp, ?_, fun h1 h2 => ⟨by simp, by simp only; omega, by simp⟩⟩
          intro e he
          simp only [Res.err.injEq] at he
          exact .inr ⟨k, he.symm⟩
        | ok bs _ hn hb hs =>
          simp only
          by_cases h0 : bs.length = 0
          · rw [if_pos h0]
            refine ⟨hinv, rfl, rfl, by simp only; omega, by rw [hb]; simp, by simp, ?_,
              fun h1 h2 => ⟨by simp, by simp only; omega, by simp⟩⟩
            intro e he
            simp only [Res.err.injEq] at he
            exact .inl he.symm
          · rw [if_neg h0]
            have hsl := splice_length r.buf bs (r.decoded + r.pending) (by omega)
            obtain ⟨g1, g2, g3, g4, g5, g6, g7, g8⟩ := ih (remain - bs.length)
              { r with buf := CB.splice r.buf (r.decoded + r.pending) bs, pending := r.pending + bs.length } rx1
              (by omega) (by unfold RR.Inv; simp only; omega)
            simp only at g2 g3 g8
            refine ⟨g1, by omega, g3, by omega, ?_, g6, g7, fun h1 h2 => ?_⟩
            · rw [hb]; exact g5.trans (by simp)
            · obtain ⟨k1, k2, k3⟩ := g8 (by omega) (by omega)
              refine ⟨k1, k2, fun h => ?_⟩
              obtain ⟨bs', j1, j2, j3⟩ := k3 h
              refine ⟨bs ++ bs', by simp; omega, by rw [hb, j2, List.append_assoc], ?_⟩
              rw [j3, ← Nat.add_assoc, splice_splice _ _ _ _ (by omega)]
    · simp only
      rw [if_neg hlt]
      exact ⟨hinv, rfl, rfl, by simp, by simp, fun _ => by simp only; omega, by simp,
        fun h1 h2 => ⟨by simp, by simp only; omega, fun _ => ⟨[], by simp; omega, by simp, by simp [splice_nil]⟩⟩⟩

theorem ensureContiguous_any (n : Nat) (r : RR) (h : r.Inv) :
    (ensureContiguous n r).1 ≠ .panic ∧ (ensureContiguous n r).2.Inv ∧
    (ensureContiguous n r).2.buf.length = r.buf.length ∧ (ensureContiguous n r).2.pending = r.pending ∧
    ((ensureContiguous n r).1 = .ok () → (ensureContiguous n r).2.decoded + n ≤ r.buf.length) ∧
    (r.buf.length < n → ensureContiguous n r = (.err .insufficientSpace, r)) ∧
    ∀ e, (ensureContiguous n r).1 = .err e → r.buf.length < n := by
  unfold ensureContiguous
  have hinv := h
  unfold RR.Inv at h
  by_cases h1 : r.decoded + n > r.buf.length
  · rw [if_pos h1]
    by_cases h2 : n > r.buf.length
    · rw [if_pos h2]
      exact ⟨by simp, hinv, rfl, rfl, by simp, by simp, fun _ _ => h2⟩
    · rw [if_neg h2, if_neg (by omega)]
      have hl : ((r.buf.drop r.decoded).take r.pending).length = r.pending := by simp; omega
      have hsl := splice_length r.buf ((r.buf.drop r.decoded).take r.pending) 0 (by omega)
      refine ⟨by simp, ?_, hsl, rfl, fun _ => by simp only; omega, fun h => absurd h h2, by simp⟩
      unfold RR.Inv
      simp only
      omega
  · rw [if_neg h1]
    exact ⟨by simp, hinv, rfl, rfl, fun _ => by simp only; omega, fun h => by omega, by simp⟩

/-- What is known about one call of the record reader on any transport, from a state with valid indices. -/
structure ReadFacts (s : RdSt) (r : Res TlsError ServerRecord) (s' : RdSt) : Prop where
  inv : s'.rr.Inv
  bufLen : s'.rr.buf.length = s.rr.buf.length
  size : s'.rx.size ≤ s.rx.size
  okSize : ∀ rec, r = .ok rec → s'.rx.size + 5 ≤ s.rx.size
  suffix : s'.rx.bytes <:+ s.rx.bytes
  appData : ∀ hdr start data, r = .ok (.appData hdr start data) →
    start + data.length ≤ s'.rr.buf.length ∧ (s'.rr.buf.drop start).take data.length = data
  /-- only a reader left in the middle of a record can panic -/
  noPanic : s.rr.pending = 0 → r ≠ .panic
  /-- a record is made of a header and as many bytes as it says, consecutive on the wire -/
  wire : s.rr.pending = 0 → ∀ rec, r = .ok rec → ∃ hb payload hd start, hb.length = 5 ∧
    RecordHeader.decode hb = .ok hd ∧ payload.length = hd.contentLength ∧
    s.rx.bytes = hb ++ payload ++ s'.rx.bytes ∧
    ServerRecord.decode S hd start payload s.transcript = (.ok rec, s'.transcript) ∧
    payload.length ≤ s.rr.buf.length
  /-- only an I/O error leaves the reader in the middle of a record -/
  between : s.rr.pending = 0 → (r ≠ .err .ioError ∧ ∀ k, r ≠ .err (.io k)) → s'.rr.pending = 0

theorem serverRecordDecode_appData (h : RecordHeader) (start : Nat) (data tr : Bytes) (hdr : Bytes) (st : Nat)
    (d : Bytes) (hr : (ServerRecord.decode S h start data tr).1 = .ok (.appData hdr st d)) : st = start ∧ d = data := by
  unfold ServerRecord.decode at hr
  split at hr
  · simp at hr
  · cases hct : h.contentType <;> simp only [hct] at hr
    · simp at hr
    · simp only [changeCipherSpecRead] at hr
      have : (Res.ok ServerRecord.changeCipherSpec : Res TlsError ServerRecord) = .ok (.appData hdr st d) := hr
      simp at this
    · generalize (Alert.parse (PB.new data)).1 = x at hr
      cases x <;> simp [Res.map] at hr
    · generalize (ServerHs.read S (PB.new data, tr)).1 = x at hr
      cases x <;> simp [Res.map] at hr
    · simp only [M.pure_apply, Res.ok.injEq, ServerRecord.appData.injEq] at hr
      exact ⟨hr.2.1.symm, hr.2.2.symm⟩

theorem readRecord_any (s : RdSt) (h : s.rr.Inv) : ReadFacts S s (readRecord S s).1 (readRecord S s).2 := by
  obtain ⟨rr, rx, tr⟩ := s
  obtain ⟨a1, a2, a3, a4⟩ := headerLoop_any 6 [] rx (by simp) (by simp)
  simp only at h
  unfold readRecord
  rcases hl : headerLoop 6 [] rx with ⟨r, rx1⟩
  rw [hl] at a1 a2 a3 a4
  simp only at a1 a2 a3 a4
  have hnil : rr.pending = 0 → rr.pending = 0 := id
  cases r with
  | panic => exact absurd rfl a1
  | err e =>
    have hh : RdSt.header ⟨rr, rx, tr⟩ = (.err e, ⟨rr, rx1, tr⟩) := by
      simp only [RdSt.header, nextRecordHeader]
      rw [M.bind_err hl]
    rw [M.bind_err hh]
    exact ⟨h, rfl, a2, by simp, a3, by simp, by simp, by simp, fun hp _ => hp⟩
  | ok hb =>
    obtain ⟨b1, b2, b3⟩ := a4 hb rfl
    simp only [List.length_nil, Nat.sub_zero] at b2
    have hh : RdSt.header ⟨rr, rx, tr⟩ = (RecordHeader.decode hb, ⟨rr, rx1, tr⟩) := by
      simp only [RdSt.header, nextRecordHeader]
      rw [M.bind_ok hl]
      rfl
    have hnp := C01_header hb b1
    rcases hd : RecordHeader.decode hb with hd' | e | _
    · rw [hd] at hh
      rw [M.bind_ok hh]
      clear hnil
      generalize hn : hd'.contentLength = n
      obtain ⟨e1, e2, e3, e4, e5, e6, e7⟩ := ensureContiguous_any n rr h
      rcases hens : ensureContiguous n rr with ⟨r, rr1⟩
      rw [hens] at e1 e2 e3 e4 e5 e7
      simp only at e1 e2 e3 e4 e5 e7
      cases r with
      | panic => exact absurd rfl e1
      | err e =>
        have hlt := e7 e rfl
        have := e6 hlt
        rw [hens] at this
        injection this with h1 h2
        have ha : RdSt.advance n ⟨rr, rx1, tr⟩ = (.err e, ⟨rr1, rx1, tr⟩) := by
          simp only [RdSt.advance, ETls.advance]
          rw [M.bind_err (onFst_err hens rx1)]
        rw [M.bind_err ha]
        exact ⟨e2, e3, a2, by simp, a3, by simp, by simp, by simp, fun hp _ => e4.trans hp⟩
      | ok u =>
        have e5 := e5 rfl
        obtain ⟨g1, g2, g3, g4, g5, g6, g7, g8⟩ := advanceLoop_any n (n + 1) n rr1 rx1 (by omega) e2
        rcases hadv : advanceLoop n (n + 1) n (rr1, rx1) with ⟨r, rr2, rx2⟩
        rw [hadv] at g1 g2 g3 g4 g5 g6 g7 g8
        simp only at g1 g2 g3 g4 g5 g6 g7 g8
        have ha : RdSt.advance n ⟨rr, rx1, tr⟩ = (r, ⟨rr2, rx2, tr⟩) := by
          simp only [RdSt.advance, ETls.advance]
          rw [M.bind_ok (onFst_ok hens rx1), hadv]
        have hnp2 := fun hp : rr.pending = 0 =>
          g8 (by rw [e4, hp]; omega) (by omega)
        cases r with
        | panic =>
          rw [M.bind_panic ha]
          exact ⟨g1, by simp only; omega, by simp only; omega, by simp, g5.trans a3, by simp,
            fun hp => absurd rfl (hnp2 hp).1, by simp, fun hp => absurd rfl (hnp2 hp).1⟩
        | err e =>
          rw [M.bind_err ha]
          refine ⟨g1, by simp only; omega, by simp only; omega, by simp, g5.trans a3, by simp, by simp, by simp, ?_⟩
          intro hp ⟨hx, hy⟩
          rcases g7 e rfl with rfl | ⟨k, rfl⟩
          · exact absurd rfl hx
          · exact absurd rfl (hy k)
        | ok u =>
          rw [M.bind_ok ha]
          have hpn := g6 rfl
          unfold RR.Inv at g1
          unfold consumeRecord
          simp only [hn]
          rw [if_neg (by omega), if_neg (by omega)]
          have hdl : ((rr2.buf.drop rr2.decoded).take n).length = n := by simp; omega
          have hnpd := C01_plaintext_record S hd' rr2.decoded ((rr2.buf.drop rr2.decoded).take n) tr
            (by rw [hdl, hn])
          have hwire : rr.pending = 0 → ∃ bs, bs.length = n ∧ rx1.bytes = bs ++ rx2.bytes ∧
              (rr2.buf.drop rr2.decoded).take n = bs := by
            intro hp
            obtain ⟨_, _, k3⟩ := hnp2 hp
            obtain ⟨bs, j1, j2, j3⟩ := k3 rfl
            refine ⟨bs, j1, j2, ?_⟩
            rw [j3, g3, e4, hp, Nat.add_zero, ← j1]
            apply splice_read
            unfold RR.Inv at e2
            omega
          have happ := serverRecordDecode_appData S hd' rr2.decoded ((rr2.buf.drop rr2.decoded).take n) tr
          generalize hres : ServerRecord.decode S hd' rr2.decoded ((rr2.buf.drop rr2.decoded).take n) tr = res at *
          obtain ⟨r, tr'⟩ := res
          refine ⟨?_, by simp only; omega, by simp only; omega, fun _ _ => by simp only; omega, g5.trans a3, ?_,
            fun _ => hnpd, ?_, ?_⟩
          · unfold RR.Inv; simp only; omega
          · intro hdr start data hr
            obtain ⟨rfl, rfl⟩ := happ hdr start data hr
            rw [hdl]
            exact ⟨by simp only; omega, rfl⟩
          · intro hp rec hrec
            obtain ⟨bs, j1, j2, j3⟩ := hwire hp
            refine ⟨hb, bs, hd', rr2.decoded, b1, hd, by omega, ?_, ?_⟩
            · simp only [List.nil_append] at b3
              simp only
              rw [b3, j2, List.append_assoc]
            · refine ⟨?_, by simp only; omega⟩
              rw [← j3, hres]
              simp only at hrec
              rw [hrec]
          · intro hp _
            have := (hnp2 hp).2.1
            simp only; omega
    · rw [hd] at hh
      rw [M.bind_err hh]
      exact ⟨h, rfl, a2, by simp, a3, by simp, by simp, by simp, fun hp _ => hp⟩
    · exact absurd hd hnp

end ETls
