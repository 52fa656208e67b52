import Verif.Proofs.Future
import Verif.Proofs.Honest
import Verif.Proofs.Session
import Verif.Props.Close
import Verif.Props.Writer

/-! # Dropping the future of a call: C105 -/

namespace ETls

variable (S : Suite) {V : Type}

open Spec (Writer)

/-! ## A dropped call is a call that failed -/

/-- **C105** A history of calls, any of which may have been dropped while it waited for the transport, leaves the
connection exactly as the same calls, all awaited, with a transport that has delivered and accepted the same bytes and
fails at the moments when the calls were dropped: the calls that were not dropped return the same, the others an error of
the transport.  Everything proved for every transport therefore holds for histories with dropped calls. -/
theorem C105_as_failure (k : IoKind) {calls : List (Call V)} {c c' : Conn} {outs : List (Option CallOut)}
    (h : History S calls c outs c') : ∃ c0, c.Alike c0 ∧
      runCalls S calls c0 = (List.zipWith (fun call o => o.getD (call.failed k)) calls outs, c') := by
  suffices hs : ∀ c0', c'.Alike c0' → ∃ c0, c.Alike c0 ∧
      runCalls S calls c0 = (List.zipWith (fun (call : Call V) o => o.getD (call.failed k)) calls outs, c0') from
    hs c' (.refl c')
  induction h with
  | nil c => intro c0' ha; exact ⟨c0', ha, rfl⟩
  | cons h rest ih =>
    intro c0' ha
    obtain ⟨c1, h1, h2⟩ := ih c0' ha
    obtain ⟨c0, h3, h4⟩ := h.twin S k c1 h1
    refine ⟨c0, h3, ?_⟩
    simp only [runCalls, h4, h2, List.zipWith_cons_cons]

/-- **C105** A call that is not dropped is the function of the model of the other files, and every call can be awaited:
the results of a history without dropped calls are those of the other theorems. -/
theorem C105_awaited {calls : List (Call V)} {c c' : Conn} {outs : List CallOut} :
    History S calls c (outs.map some) c' ↔ runCalls S calls c = (outs, c') := by
  induction calls generalizing c outs with
  | nil =>
    constructor
    · intro h
      generalize ho : outs.map some = os at h
      cases h
      rw [List.map_eq_nil_iff] at ho
      rw [ho]
      rfl
    · intro h
      simp only [runCalls, Prod.mk.injEq] at h
      obtain ⟨rfl, rfl⟩ := h
      exact .nil _
  | cons call calls ih =>
    constructor
    · intro h
      generalize ho : outs.map some = os at h
      cases h with
      | @cons _ _ _ c1 _ o os h rest =>
        cases outs with
        | nil => cases ho
        | cons o' outs =>
          simp only [List.map_cons, List.cons.injEq] at ho
          obtain ⟨rfl, rfl⟩ := ho
          have h1 := h.run S
          have h2 := ih.1 rest
          simp only [runCalls, h1, h2]
    · intro h
      simp only [runCalls, Prod.mk.injEq] at h
      obtain ⟨rfl, rfl⟩ := h
      exact .cons (call.can_await S c) (ih.2 rfl)

/-! ## Reading calls dropped between two records -/

/-- Bytes that are a number of whole records: five bytes of header, the last two of them the length of what follows. -/
inductive WholeRecords : Bytes → Prop where
  | nil : WholeRecords []
  | cons (t v1 v2 l1 l2 : UInt8) (payload rest : Bytes) (hl : payload.length = 256 * l1.toNat + l2.toNat)
      (hr : WholeRecords rest) : WholeRecords ([t, v1, v2, l1, l2] ++ payload ++ rest)

namespace Cancel

/-- The length in a record header. -/
theorem decode_length {hb : Bytes} {hd : RecordHeader} (h : RecordHeader.decode hb = .ok hd) :
    ∃ t v1 v2 l1 l2 : UInt8, hb = [t, v1, v2, l1, l2] ∧ hd.contentLength = 256 * l1.toNat + l2.toNat := by
  obtain ⟨v1, v2, h1, h2⟩ := header_shape h
  refine ⟨_, v1, v2, _, _, h1, ?_⟩
  simp only [UInt8.toNat_ofNat']
  omega

/-- The first record of whole records. -/
theorem whole_cut {t v1 v2 l1 l2 : UInt8} {x : Bytes} (h : WholeRecords ([t, v1, v2, l1, l2] ++ x)) :
    ∃ payload rest, x = payload ++ rest ∧ payload.length = 256 * l1.toNat + l2.toNat ∧ WholeRecords rest := by
  generalize hb : [t, v1, v2, l1, l2] ++ x = b at h
  cases h with
  | nil => cases hb
  | cons t' v1' v2' l1' l2' payload rest hl hr =>
    simp only [List.cons_append, List.nil_append, List.cons.injEq] at hb
    obtain ⟨-, -, -, rfl, rfl, rfl⟩ := hb
    exact ⟨payload, rest, rfl, hl, hr⟩

theorem whole_rest {t v1 v2 l1 l2 : UInt8} {payload rest : Bytes} (hl : payload.length = 256 * l1.toNat + l2.toNat)
    (h : WholeRecords ([t, v1, v2, l1, l2] ++ payload ++ rest)) : WholeRecords rest := by
  rw [List.append_assoc] at h
  obtain ⟨p, r, h1, h2, h3⟩ := whole_cut h
  obtain ⟨-, rfl⟩ := List.append_inj h1 (hl.trans h2.symm)
  exact h3

/-- What the header loop has taken when it is dropped. -/
theorem header_dropped (fuel : Nat) : ∀ (acc : Bytes) (s s' : Conn) (w w' : Net), acc.length ≤ 5 →
    (Fut.headerLoop fuel acc).Ends s w none s' w' →
    s' = s ∧ ∃ t, w.rx.bytes = t ++ w'.rx.bytes ∧ acc.length + t.length < 5 ∧ (t = [] → w' = w) := by
  induction fuel with
  | zero => intro acc s s' w w' _ h; cases h
  | succ fuel ih =>
    intro acc s s' w w' ha h
    unfold Fut.headerLoop at h
    split at h
    · cases h
    · next hne =>
      cases h with
      | readDropped => exact ⟨rfl, [], rfl, by simp only [List.length_nil]; omega, fun _ => rfl⟩
      | @read _ _ _ _ _ _ _ bs rx hr h =>
        have hst := Rx.read_step (5 - acc.length) w.rx
        rw [hr] at hst
        cases hst with
        | ok _ _ hn hb hs =>
          simp only at h
          split at h
          · cases h
          · next hb0 =>
            obtain ⟨h1, t, h2, h3, _⟩ := ih (acc ++ bs) s s' ⟨rx, w.tx⟩ w' (by rw [List.length_append]; omega) h
            refine ⟨h1, bs ++ t, ?_, ?_, ?_⟩
            · rw [hb]; simp only at h2; rw [h2, List.append_assoc]
            · rw [List.length_append] at h3 ⊢; omega
            · intro he
              have := congrArg List.length he
              simp only [List.length_append, List.length_nil] at this
              omega

/-- What the header loop has taken when it is finished. -/
theorem header_done (fuel : Nat) : ∀ (acc hb : Bytes) (s s' : Conn) (w w' : Net), acc.length ≤ 5 →
    (Fut.headerLoop fuel acc).Ends s w (some (.ok hb)) s' w' →
    s' = s ∧ w'.tx = w.tx ∧ ∃ t, w.rx.bytes = t ++ w'.rx.bytes ∧ hb = acc ++ t := by
  induction fuel with
  | zero => intro acc hb s s' w w' _ h; cases h
  | succ fuel ih =>
    intro acc hb s s' w w' ha h
    unfold Fut.headerLoop at h
    split at h
    · cases h
      exact ⟨rfl, rfl, [], rfl, by simp⟩
    · next hne =>
      cases h with
      | @read _ _ _ _ _ _ _ bs rx hr h =>
        have hst := Rx.read_step (5 - acc.length) w.rx
        rw [hr] at hst
        cases hst with
        | ok _ _ hn hx hs =>
          simp only at h
          split at h
          · cases h
          · obtain ⟨h1, h2, t, h3, h4⟩ := ih (acc ++ bs) hb s s' ⟨rx, w.tx⟩ w' (by rw [List.length_append]; omega) h
            refine ⟨h1, h2, bs ++ t, ?_, ?_⟩
            · rw [hx]; simp only at h3; rw [h3, List.append_assoc]
            · rw [h4, List.append_assoc]

/-- What the payload loop has taken when it is dropped: less than is missing. -/
theorem advance_dropped (amount fuel : Nat) : ∀ (remain : Nat) (s s' : Conn) (w w' : Net),
    remain + s.rr.pending = amount → (Fut.advanceLoop amount fuel remain).Ends s w none s' w' →
    ∃ t, w.rx.bytes = t ++ w'.rx.bytes ∧ t.length < remain := by
  induction fuel with
  | zero => intro remain s s' w w' _ h; cases h
  | succ fuel ih =>
    intro remain s s' w w' ha h
    unfold Fut.advanceLoop Fut.look at h
    cases h with
    | step h =>
      simp only [id] at h
      split at h
      · next hp =>
        split at h
        · cases h
        · cases h with
          | readDropped => exact ⟨[], rfl, by simp only [List.length_nil]; omega⟩
          | @read _ _ _ _ _ _ _ bs rx hr h =>
            have hst := Rx.read_step remain w.rx
            rw [hr] at hst
            cases hst with
            | ok _ _ hn hb hs =>
              simp only at h
              split at h
              · cases h
              · next hb0 =>
                cases h with
                | step h =>
                  obtain ⟨t, h2, h3⟩ := ih _ (Conn.received bs s) s' ⟨rx, w.tx⟩ w'
                    (by simp only [Conn.received]; omega) h
                  refine ⟨bs ++ t, ?_, ?_⟩
                  · rw [hb]; simp only at h2; rw [h2, List.append_assoc]
                  · rw [List.length_append]; omega
      · cases h

/-- A reading of a record that is dropped and has taken whole records has taken nothing and changed nothing. -/
theorem readRecord_dropped {s s' : Conn} {w w' : Net} {t : Bytes} (hp : s.rr.pending = 0)
    (h : (Fut.readRecord S).Ends s w none s' w') (ht : w.rx.bytes = t ++ w'.rx.bytes) (hw : WholeRecords t) :
    s' = s ∧ w' = w := by
  have hlen : ∀ {x : Bytes}, w.rx.bytes = x ++ w'.rx.bytes → x = t := fun hx => List.append_cancel_right (hx.symm.trans ht)
  unfold Fut.readRecord Fut.nextRecordHeader at h
  rw [Fut.bind_assoc] at h
  rcases h.bind_inv with ⟨_, h⟩ | ⟨e, he, _⟩ | ⟨he, _⟩ | ⟨hb, s1, w1, h1, h2⟩
  · obtain ⟨h1, x, h2, h3, h4⟩ := header_dropped 6 [] s s' w w' (by simp) h
    have := hlen h2
    subst this
    refine ⟨h1, h4 ?_⟩
    cases hw with
    | nil => rfl
    | cons =>
      simp only [List.length_append, List.length_cons, List.length_nil] at h3
      omega
  · cases he
  · cases he
  · obtain ⟨rfl, _, x, h3, h4⟩ := header_done 6 [] hb s s1 w w1 (by simp) h1
    rw [List.nil_append] at h4
    subst h4
    rcases hd : RecordHeader.decode hb with hd' | e | _
    · rw [hd] at h2
      obtain ⟨t0, v1, v2, l1, l2, rfl, hlen2⟩ := decode_length hd
      change ((Fut.advance hd'.contentLength).bind _).Ends s1 w1 none s' w' at h2
      rcases h2.bind_inv with ⟨_, h⟩ | ⟨e, he, _⟩ | ⟨he, _⟩ | ⟨_, s2, w2, _, h5⟩
      · unfold Fut.advance at h
        rcases h.bind_inv with ⟨_, h⟩ | ⟨e, he, _⟩ | ⟨he, _⟩ | ⟨_, s3, w3, h5, h6⟩
        · unfold Fut.act at h
          cases h with
          | step h => cases h
        · cases he
        · cases he
        · have hs3 : s3.rr.pending = 0 ∧ w3 = w1 := by
            unfold Fut.act at h5
            cases h5 with
            | step h5 =>
              generalize ho : some (Res.ok (_ : Unit)) = o at h5
              cases h5
              refine ⟨?_, rfl⟩
              unfold Conn.ensureContiguous ETls.ensureContiguous
              simp only
              split
              · split
                · exact hp
                · split <;> exact hp
              · exact hp
          obtain ⟨hp3, rfl⟩ := hs3
          obtain ⟨y, h7, h8⟩ := advance_dropped _ _ _ s3 s' w3 w' (by omega) h6
          have := hlen (x := [t0, v1, v2, l1, l2] ++ y) (by rw [h3, h7, List.append_assoc])
          subst this
          obtain ⟨payload, rest, rfl, h9, _⟩ := whole_cut hw
          rw [List.length_append] at h8
          omega
      · cases he
      · cases he
      · unfold Fut.act at h5
        cases h5 with
        | step h => cases h
    · rw [hd] at h2; cases h2
    · rw [hd] at h2; cases h2

/-- A future only takes bytes from the input, in order. -/
theorem _root_.ETls.Fut.Ends.suffix {σ α : Type} {f : Fut σ α} {s s' : σ} {w w' : Net} {o : Option (Res TlsError α)}
    (h : f.Ends s w o s' w') : w'.rx.bytes <:+ w.rx.bytes := by
  induction h with
  | step h ih => exact ih
  | @read n k s s' w w' o bs rx hr h ih =>
    have hst := Rx.read_step n w.rx
    rw [hr] at hst
    cases hst with
    | ok _ _ hn hb hs => rw [hb]; exact ih.trans (List.suffix_append _ _)
  | @readFails n k s w e rx hr =>
    have hst := Rx.read_step n w.rx
    rw [hr] at hst
    cases hst with
    | err _ _ hb hs => rw [hb]; exact List.suffix_refl _
  | write hr h ih => exact ih
  | flush hr h ih => exact ih
  | _ => exact List.suffix_refl _

/-- A record that was read is a whole record, and the reader is between records again. -/
theorem readApp_whole {h h' : RdHalf} (hg : h.Good) (hp : h.rr.pending = 0)
    (hr : RdHalf.readApplicationData S h = (.ok (), h')) : h'.rr.pending = 0 ∧
    ∃ (t v1 v2 l1 l2 : UInt8) (payload : Bytes), payload.length = 256 * l1.toNat + l2.toNat ∧
      h.rx.bytes = [t, v1, v2, l1, l2] ++ payload ++ h'.rx.bytes := by
  unfold RdHalf.readApplicationData at hr
  obtain ⟨rec, h1, hr1, hr2⟩ := M.bind_inv hr
  have hf := readRecord_any S ⟨h.rr, h.rx, h.rks.transcript⟩ hg.rr
  have e0 : (ETls.readRecord S ⟨h.rr, h.rx, h.rks.transcript⟩).1 = .ok rec := congrArg Prod.fst hr1
  have e1 : (ETls.readRecord S ⟨h.rr, h.rx, h.rks.transcript⟩).2.rx = h1.rx := congrArg (fun x => x.2.rx) hr1
  have e2 : h1.rx = h'.rx := congrArg (fun x => x.2.rx) hr2
  have e3 : (ETls.readRecord S ⟨h.rr, h.rx, h.rks.transcript⟩).2.rr = h1.rr := congrArg (fun x => x.2.rr) hr1
  have e4 : h1.rr.pending = h'.rr.pending := congrArg (fun x => x.2.rr.pending) hr2
  refine ⟨?_, ?_⟩
  · rw [← e4, ← e3]
    exact hf.between hp (by rw [e0]; exact ⟨by simp, by simp⟩)
  · obtain ⟨hb, payload, hd, start, _, h3, h4, h5, _⟩ := hf.wire hp rec e0
    obtain ⟨t, v1, v2, l1, l2, rfl, h6⟩ := decode_length h3
    exact ⟨t, v1, v2, l1, l2, payload, h4.trans h6, by rw [h5, e1, e2]⟩

/-- The loop of `read_buffered`, dropped after whole records: what a new call does is what the dropped one would have
done. -/
theorem fillLoop_dropped (hol : S.OpenLength) (fuel : Nat) : ∀ (s s' : Conn) (w w' : Net) (t : Bytes),
    (s.with w).rd.Good → s.rr.pending = 0 → (Fut.fillLoop S fuel).Ends s w none s' w' →
    w.rx.bytes = t ++ w'.rx.bytes → WholeRecords t →
    ∃ h', s'.with w' = (s.with w).setRd h' ∧ h'.opened = s.opened ∧
      ∀ N N', w.rx.bytes.length + 2 ≤ N → w'.rx.bytes.length + 2 ≤ N' →
        RdHalf.fillLoop S N' h' = RdHalf.fillLoop S N (s.with w).rd := by
  induction fuel with
  | zero => intro s s' w w' t _ _ h; cases h
  | succ fuel ih =>
    intro s s' w w' t hg hp h ht hw
    unfold Fut.fillLoop Fut.look at h
    cases h with
    | step h =>
      simp only [id] at h
      split at h
      · next hd =>
        rcases h.bind_inv with ⟨_, h⟩ | ⟨e, he, _⟩ | ⟨he, _⟩ | ⟨_, s1, w1, h1, h2⟩
        · unfold Fut.readApplicationData at h
          rcases h.bind_inv with ⟨_, h⟩ | ⟨e, he, _⟩ | ⟨he, _⟩ | ⟨_, s2, w2, _, h5⟩
          · obtain ⟨rfl, rfl⟩ := readRecord_dropped S hp h ht hw
            exact ⟨(s'.with w').rd, rfl, rfl, fun N N' hN hN' => fillLoop_bound S _ _ _ _ (Nat.le_refl _) hN' hN⟩
          · cases he
          · cases he
          · unfold Fut.act at h5
            cases h5 with
            | step h => cases h
        · cases he
        · cases he
        · have ha : onRd (RdHalf.readApplicationData S) (s.with w) = (.ok (), s1.with w1) :=
            Awaits.readApplicationData S s w _ s1 w1 (h1.run _ rfl)
          rcases hr : RdHalf.readApplicationData S (s.with w).rd with ⟨r, x⟩
          simp only [onRd, hr, Prod.mk.injEq] at ha
          obtain ⟨rfl, hc⟩ := ha
          have hx : (s1.with w1).rd = x := by rw [← hc]; rfl
          have hx1 : w1.rx = x.rx := congrArg RdHalf.rx hx
          obtain ⟨g1, _, g3, _⟩ := (readApp_outcome S hol hg hr).ok_facts
          obtain ⟨p1, t0, v1, v2, l1, l2, payload, p2, p3⟩ := readApp_whole S hg hp hr
          obtain ⟨y, hy⟩ := h2.suffix
          have hy := hy.symm
          have ht2 : t = [t0, v1, v2, l1, l2] ++ payload ++ y := by
            refine List.append_cancel_right (bs := w'.rx.bytes) ?_
            rw [← ht, List.append_assoc, ← hy, hx1]
            exact p3
          rw [ht2] at hw
          have hw2 := whole_rest p2 hw
          obtain ⟨h', k1, k2, k3⟩ := ih s1 s' w1 w' y (by rw [hx]; exact g1)
            (by have : s1.rr = x.rr := congrArg RdHalf.rr hx
                rw [this]; exact p1) h2 hy hw2
          refine ⟨h', ?_, ?_, ?_⟩
          · rw [k1, ← hc]; rfl
          · rw [k2]
            exact (congrArg RdHalf.opened hx).trans g3
          · intro N N' hN hN'
            obtain ⟨N, rfl⟩ : ∃ k, N = k + 1 := ⟨N - 1, by omega⟩
            have hlen := congrArg List.length p3
            simp only [List.length_append, List.length_cons, List.length_nil] at hlen
            have hlw : (s.with w).rd.rx = w.rx := rfl
            rw [hlw] at hlen
            rw [k3 N N' (by rw [hx1]; omega) hN']
            conv => rhs; unfold RdHalf.fillLoop
            have hd' : (s.with w).rd.dec.isEmpty = true := hd
            rw [M.get_bind, if_pos hd', M.bind_ok hr, hx]
      · cases h

end Cancel

/-- **C105, the part that holds for reading.** A reading call on a connection whose reader is between two records, dropped
when the bytes it has taken from the transport are whole records, has lost nothing: the next reading call does exactly what
it would have done had the dropped call not been made.  (In particular, dropping a call that waits for data and has not
taken a byte is harmless.)  The writing side is untouched.
What is missing is the case that the call is dropped in the middle of a record, where the claim is false
(`C105_refuted_read`). -/
theorem C105_between_records_partial (hol : S.OpenLength) {op op' : ROp} {c c' : Conn} {t : Bytes} (hg : c.rd.Good)
    (hp : c.rr.pending = 0) (h : Call.Ends (V := V) S c (.reader op) none c') (ht : c.rx.bytes = t ++ c'.rx.bytes)
    (hw : WholeRecords t) (hf : op'.Fills) : onRd (op'.run S) c' = onRd (op'.run S) c ∧ c'.wr = c.wr := by
  generalize ho : (none : Option CallOut) = o at h
  cases h with
  | @reader _ fuel o s' w' h =>
    cases o with
    | some r => cases ho
    | none =>
      have hfill : (Fut.fill S fuel).Ends c c.net none s' w' := by
        have key : ∀ {ops rv}, ((Fut.fill S fuel).bind fun _ => Fut.act (onRd (RdHalf.useBuffer ops rv))).Ends
            c c.net none s' w' → (Fut.fill S fuel).Ends c c.net none s' w' := by
          intro ops rv h
          rcases h.bind_inv with ⟨_, h⟩ | ⟨e, he, _⟩ | ⟨he, _⟩ | ⟨_, s2, w2, _, h5⟩
          · exact h
          · cases he
          · cases he
          · unfold Fut.act at h5
            cases h5 with
            | step h => cases h
        cases op with
        | read n =>
          simp only [Fut.reader] at h
          split at h
          · cases h
          · exact key h
        | fillBuf => exact key h
        | consume n =>
          simp only [Fut.reader, Fut.act] at h
          cases h with
          | step h => cases h
        | buffered ops rv => exact key h
      unfold Fut.fill Fut.look at hfill
      cases hfill with
      | step hl =>
        simp only [id] at hl
        split at hl
        · next hop =>
          obtain ⟨h', k1, k2, k3⟩ := Cancel.fillLoop_dropped S hol fuel c s' c.net w' t hg hp hl ht hw
          have hcw : c.with c.net = c := rfl
          rw [hcw] at k1 k3
          have hfl : RdHalf.fill S h' = RdHalf.fill S c.rd := by
            have o1 : h'.opened = true := k2.trans hop
            have o2 : c.rd.opened = true := hop
            have e : w'.rx = h'.rx := congrArg Conn.rx k1
            unfold RdHalf.fill
            rw [M.get_bind, M.get_bind, if_pos o1, if_pos o2]
            have b1 := h'.rx.bytes_le_size
            have b2 := c.rx.bytes_le_size
            refine k3 _ _ ?_ ?_
            · have : c.net.rx = c.rd.rx := rfl
              rw [this]
              have : c.rd.rx = c.rx := rfl
              rw [this]
              omega
            · rw [e]; omega
          refine ⟨?_, by rw [k1]; simp only [Conn.wr, Conn.setRd, k2]⟩
          have hrun : op'.run S h' = op'.run S c.rd := by
            rw [op'.run_fills S hf, op'.run_fills S hf, M.bind_def, M.bind_def, hfl]
          rw [k1]
          show (let (r, x) := op'.run S (c.setRd h').rd; (r, (c.setRd h').setRd x)) = _
          have : (c.setRd h').rd = h' := rfl
          rw [this, hrun]
          rfl
        · cases hl

/-! ## Dropping the handshake -/

/-- **C105, dropping `open`.** A connection whose `open` was dropped, wherever the handshake was, is not open: every later
reading and writing call is refused. -/
theorem C105_open (cfg : Config) (p : Provider V) (v : V) {c c' : Conn} (hc : c.opened = false)
    (h : Call.Ends S c (.open_ cfg p v) none c') :
    c'.opened = false ∧ (∀ bs, Conn.write S bs c' = (.err .missingHandshake, c')) ∧
      ∀ ops, (runAny S ops c').2.opened = false ∧ List.Forall₂ Refused ops (runAny S ops c').1 := by
  obtain ⟨c0, ⟨w0, ha, rfl⟩, hr⟩ := h.twin S 0 c' (.refl c')
  simp only [Call.run, Option.getD_none, Call.failed, Prod.mk.injEq, CallOut.opened.injEq] at hr
  have h42 := C42_failed_open S cfg p v (c.with w0) c' hc (.io 0) (Prod.ext hr.1 hr.2)
  exact ⟨h42.1, h42.2.1, h42.2.2.2.2⟩

/-! ## Dropping a writing call -/

/-- **C105, what dropping a writing call does.** Only a call that sends a record can be dropped: a `flush` with a record
begun, or a `write` that fills the record.  If it is dropped before the transport has taken the whole record, the content of
the record is gone, also what earlier calls have accepted, some of its bytes may have been sent, and the next record gets the
same number.  If it is dropped while the transport is flushed, it has done everything: the record is sent and counted.
The reading side is untouched.
What is missing for the claim is the first case, where it is false (`C105_refuted_write`, `C105_refuted_nonce`). -/
theorem C105_writing_partial (hS : S.Sized) {op : WOp} {c c' : Conn} {x : Writer} (hx : c.wr.Is S x)
    (h : Call.Ends (V := V) S c (.writer op) none c') :
    ∃ content record, record = Spec.ciphertextRecord S c.ks.client.st.key c.ks.client.st.iv x.seq 23 content ∧
      ((op = .flush ∧ x.pending = some content) ∨
        ∃ bs n, op = .write bs ∧ content = x.pending.getD [] ++ bs.take n ∧ content.length + 133 = c.wb.buffer.length) ∧
      ((∃ j, c'.tx.log = c.tx.log ++ [.partialWrite (record.take j)] ∧ c'.wr.Is S ⟨none, x.seq, x.policy⟩) ∨
        (x.policy = .strict ∧ c'.tx.log = c.tx.log ++ [.wrote record, .flushFailed] ∧
          c'.wr.Is S ⟨none, x.seq + 1, x.policy⟩)) ∧
      c'.rr = c.rr ∧ c'.dec = c.dec ∧ c'.rx.bytes = c.rx.bytes := by
  obtain ⟨c0, ⟨w0, ha, rfl⟩, hr⟩ := h.twin S 0 c' (.refl c')
  simp only [Call.run, Option.getD_none, Call.failed, Prod.mk.injEq, CallOut.wrote.injEq] at hr
  obtain ⟨hr1, rfl⟩ := hr
  have hx0 : (c.with w0).wr.Is S x := ⟨hx.pends, hx.seq, hx.policy, hx.size, hx.iv⟩
  have hd := wop_does S hS op (c.with w0).wr x hx0
  have hk : ∀ (content : Bytes) (y : Writer), y.pending = some content → y.seq = x.seq → y.policy = x.policy →
      (y.flush S c.ks.client.st.key c.ks.client.st.iv w0.tx.ctl).result = .err (.io 0) → ∀ (w' : WrHalf),
      w'.tx = ⟨(y.flush S c.ks.client.st.key c.ks.client.st.iv w0.tx.ctl).answers,
        w0.tx.log ++ (y.flush S c.ks.client.st.key c.ks.client.st.iv w0.tx.ctl).events⟩ →
      w'.Is S (y.flush S c.ks.client.st.key c.ks.client.st.iv w0.tx.ctl).writer →
      ((∃ j, w'.tx.log = c.tx.log ++ [.partialWrite
          ((Spec.ciphertextRecord S c.ks.client.st.key c.ks.client.st.iv x.seq 23 content).take j)] ∧
          w'.Is S ⟨none, x.seq, x.policy⟩) ∨
        (x.policy = .strict ∧ w'.tx.log = c.tx.log ++
          [.wrote (Spec.ciphertextRecord S c.ks.client.st.key c.ks.client.st.iv x.seq 23 content), .flushFailed] ∧
          w'.Is S ⟨none, x.seq + 1, x.policy⟩)) := by
    intro content y hy hs hp he w' ht hw
    have hlog : w0.tx.log = c.tx.log := ha.log
    obtain ⟨yp, ys, yf⟩ := y
    simp only at hy hs hp
    subst hy hs hp
    unfold Spec.Writer.flush at he ht hw
    simp only at he ht hw
    unfold Spec.send at he ht hw
    generalize Spec.answer w0.tx.ctl = a at he ht hw
    rcases a with ⟨_ | ⟨k, n⟩, r⟩
    · simp only at he ht hw
      split at he
      · rename_i hlt
        rw [if_pos hlt] at ht hw
        unfold Spec.settle at he ht hw
        split at he
        · rename_i hst
          rw [if_pos hst] at ht hw
          generalize Spec.answer r = a at he ht hw
          rcases a with ⟨_ | ⟨k, n⟩, r'⟩
          · cases he
          · simp only at ht hw
            exact .inr ⟨by simpa using hst, by rw [ht, hlog], hw⟩
        · cases he
      · cases he
    · simp only at ht hw
      exact .inl ⟨n, by rw [ht, hlog], hw⟩
  have hbytes : w0.rx.bytes = c.rx.bytes := ha.bytes
  have hrun : (op.run S (c.with w0).wr).1 = .err (.io 0) := hr1
  cases op with
  | setFlushPolicy p => cases hd.result.symm.trans hrun
  | flush =>
    have he := hd.result.symm.trans hrun
    have hd' : Does S (c.with w0).wr _ _ (x.flush S c.ks.client.st.key c.ks.client.st.iv w0.tx.ctl) := hd
    have he' : (x.flush S c.ks.client.st.key c.ks.client.st.iv w0.tx.ctl).result = .err (.io 0) := he
    cases hp : x.pending with
    | none =>
      unfold Spec.Writer.flush at he'
      rw [hp] at he'
      cases he'
    | some content =>
      exact ⟨content, _, rfl, .inl ⟨rfl, rfl⟩, hk content x hp rfl rfl he' _ hd'.tx hd'.writer, rfl, rfl, hbytes⟩
  | write bs =>
    have he := hd.result.symm.trans hrun
    have hd' : Does S (c.with w0).wr _ _
      (x.write S c.ks.client.st.key c.ks.client.st.iv (c.wb.buffer.length - 133) c.opened bs w0.tx.ctl) := hd
    have he' : (x.write S c.ks.client.st.key c.ks.client.st.iv (c.wb.buffer.length - 133) c.opened bs w0.tx.ctl).result =
      .err (.io 0) := he
    have hsz : 133 ≤ c.wb.buffer.length := hx.size
    have ht := hd'.tx
    have hw := hd'.writer
    unfold Spec.Writer.write at he' ht hw
    split at he'
    · rename_i ho
      rw [if_pos ho] at ht hw
      split at he'
      · rename_i hfull
        rw [if_pos hfull] at ht hw
        simp only at he' ht hw
        refine ⟨x.pending.getD [] ++ bs.take (x.takes (c.wb.buffer.length - 133) bs), _, rfl,
          .inr ⟨bs, _, rfl, rfl, ?_⟩, hk _ (x.add (c.wb.buffer.length - 133) bs) rfl rfl rfl ?_ _ ht hw, rfl, rfl, hbytes⟩
        · have hl : x.takes (c.wb.buffer.length - 133) bs ≤ bs.length := Nat.min_le_left _ _
          rw [List.length_append, List.length_take, Nat.min_eq_left hl, hfull]
          omega
        · generalize ((x.add (c.wb.buffer.length - 133) bs).flush S c.ks.client.st.key c.ks.client.st.iv
            w0.tx.ctl).result = r at he'
          cases r <;> cases he'
          rfl
      · cases he'
    · cases he'

/-! ## Calls dropped in the middle of a record -/

/-- A future that is dropped at its `i`-th wait for the transport (counting from 0), a pending write having handed over
`j` bytes; `none` if it does not wait that often. -/
def Fut.dropAt {σ α : Type} (j : Nat) : Nat → Fut σ α → σ → Net → Option (σ × Net)
  | _, .ret _, _, _ => none
  | _, .stuck, _, _ => none
  | i, .step u n, s, w => Fut.dropAt j i (n s) (u s) w
  | 0, .read _ _, s, w => some (s, w)
  | i + 1, .read n k, s, w =>
    match Rx.read n w.rx with
    | (.ok bs, rx) => Fut.dropAt j i (k bs) s ⟨rx, w.tx⟩
    | _ => none
  | 0, .writeAll bs _, s, w => some (s, ⟨w.rx, ⟨w.tx.ctl.tail, w.tx.log ++ [.partialWrite (bs.take j)]⟩⟩)
  | i + 1, .writeAll bs k, s, w =>
    match Tx.writeAll bs w.tx with
    | (.ok _, tx) => Fut.dropAt j i k s ⟨w.rx, tx⟩
    | _ => none
  | 0, .flush _, s, w => some (s, ⟨w.rx, ⟨w.tx.ctl.tail, w.tx.log ++ [.flushFailed]⟩⟩)
  | i + 1, .flush k, s, w =>
    match Tx.flush w.tx with
    | (.ok _, tx) => Fut.dropAt j i k s ⟨w.rx, tx⟩
    | _ => none

theorem Fut.dropAt_ends {σ α : Type} (j : Nat) : ∀ (i : Nat) {f : Fut σ α} {s s' : σ} {w w' : Net},
    Fut.dropAt j i f s w = some (s', w') → f.Ends s w none s' w'
  | _, .ret _, _, _, _, _, h => by simp [Fut.dropAt] at h
  | _, .stuck, _, _, _, _, h => by simp [Fut.dropAt] at h
  | i, .step u n, _, _, _, _, h => by
    rw [Fut.dropAt] at h
    exact .step (Fut.dropAt_ends j i h)
  | 0, .read _ _, _, _, _, _, h => by
    simp only [Fut.dropAt, Option.some.injEq, Prod.mk.injEq] at h
    obtain ⟨rfl, rfl⟩ := h
    exact .readDropped _ _ _ _
  | i + 1, .read n k, s, _, w, _, h => by
    rw [Fut.dropAt] at h
    rcases hr : Rx.read n w.rx with ⟨_ | _ | _, rx⟩ <;> rw [hr] at h
    · exact .read hr (Fut.dropAt_ends j i h)
    · cases h
    · cases h
  | 0, .writeAll bs _, _, _, _, _, h => by
    simp only [Fut.dropAt, Option.some.injEq, Prod.mk.injEq] at h
    obtain ⟨rfl, rfl⟩ := h
    exact .writeDropped _ _ _ _ _
  | i + 1, .writeAll bs k, s, _, w, _, h => by
    rw [Fut.dropAt] at h
    rcases hr : Tx.writeAll bs w.tx with ⟨_ | _ | _, tx⟩ <;> rw [hr] at h
    · exact .write hr (Fut.dropAt_ends j i h)
    · cases h
    · cases h
  | 0, .flush _, _, _, _, _, h => by
    simp only [Fut.dropAt, Option.some.injEq, Prod.mk.injEq] at h
    obtain ⟨rfl, rfl⟩ := h
    exact .flushDropped _ _ _
  | i + 1, .flush k, s, _, w, _, h => by
    rw [Fut.dropAt] at h
    rcases hr : Tx.flush w.tx with ⟨_ | _ | _, tx⟩ <;> rw [hr] at h
    · exact .flush hr (Fut.dropAt_ends j i h)
    · cases h
    · cases h

/-- A reading call dropped at a wait, as a step of a history. -/
theorem Call.dropped_reader (c : Conn) (op : ROp) (fuel i : Nat) (x : Conn × Net)
    (h : Fut.dropAt 0 i (Fut.reader S fuel op) c c.net = some x) :
    Call.Ends (V := V) S c (.reader op) none (x.1.with x.2) :=
  Call.Ends.reader (o := none) (Fut.dropAt_ends 0 i h)

/-- An `open` dropped at a wait, as a step of a history. -/
theorem Call.dropped_open (cfg : Config) (p : Provider V) (v : V) (c : Conn) (fuel j i : Nat) (x : HSt V × Net)
    (h : Fut.dropAt j i (Fut.openSt S cfg p fuel) ⟨c, ⟨none, none, none, v⟩⟩ c.net = some x) :
    Call.Ends S c (.open_ cfg p v) none (x.1.c.with x.2) :=
  Call.Ends.open_ (o := none) (Fut.dropAt_ends j i h)

/-- A writing call dropped at a wait, as a step of a history. -/
theorem Call.dropped_writer (c : Conn) (op : WOp) (j i : Nat) (x : Conn × Net)
    (h : Fut.dropAt j i (Fut.writer S op) c c.net = some x) :
    Call.Ends (V := V) S c (.writer op) none (x.1.with x.2) :=
  Call.Ends.writer (o := none) (Fut.dropAt_ends j i h)

/-- An open connection; a record with the bytes 1, 2, 3 arrives in two pieces. -/
def exPieces : Conn := exConn [.data ((sealInner 0 [1, 2, 3, 23]).take 8), .data ((sealInner 0 [1, 2, 3, 23]).drop 8)]

/-- The call that reads it, dropped when the first piece is there. -/
def exDropped : Option (Conn × Net) := Fut.dropAt 0 2 (Fut.reader toySuite 9 (.read 10)) exPieces exPieces.net

/-- **C105, refuted for reading.** A reading call dropped in the middle of a record loses the record and the place in the
stream: awaited, it would have returned the three bytes; after the drop, the next call takes the rest of the record for the
beginning of a record. -/
theorem C105_refuted_read : ∃ c', Call.Ends (V := Unit) toySuite exPieces (.reader (.read 10)) none c' ∧
    (onRd ((ROp.read 10).run toySuite) exPieces).1 = .ok ⟨[1, 2, 3], [[1, 2, 3]], [1, 2, 3]⟩ ∧
    (onRd ((ROp.read 10).run toySuite) c').1 = .err .invalidRecord := by
  have h : exDropped.isSome = true := by decide +kernel
  refine ⟨(exDropped.get h).1.with (exDropped.get h).2, Call.dropped_reader toySuite exPieces (.read 10) 9 2 _ ?_, ?_, ?_⟩
  · exact (Option.some_get h).symm
  · decide +kernel +revert
  · decide +kernel +revert

/-- The beginning of a record that nobody has authenticated, and five more bytes that arrive later. -/
def exForged : Conn := exConn [.data [23, 3, 3, 0, 20, 9, 9, 9], .data [23, 3, 3, 0, 198], .data (List.replicate 198 9)]

def exForgedDropped : Option (Conn × Net) := Fut.dropAt 0 2 (Fut.reader toySuite 9 (.read 10)) exForged exForged.net

/-- **C105, refuted for reading.** After a reading call was dropped, bytes of anyone on the network can make the next one
panic; with the calls awaited, the same bytes are an error. -/
theorem C105_refuted_panic : ∃ c', Call.Ends (V := Unit) toySuite exForged (.reader (.read 10)) none c' ∧
    (onRd ((ROp.read 10).run toySuite) exForged).1 = .err .cryptoError ∧
    (onRd ((ROp.read 10).run toySuite) c').1 = .panic := by
  have h : exForgedDropped.isSome = true := by decide +kernel +revert
  refine ⟨(exForgedDropped.get h).1.with (exForgedDropped.get h).2,
    Call.dropped_reader toySuite exForged (.read 10) 9 2 _ ?_, ?_, ?_⟩
  · exact (Option.some_get h).symm
  · decide +kernel +revert
  · decide +kernel +revert

/-- An open connection on which `write` has accepted two bytes. -/
def exWritten : Conn := (onWr (WrHalf.write toySuite [1, 2]) (exConn [])).2

/-- `flush`, dropped when the transport has not accepted anything yet. -/
def exUnflushed : Option (Conn × Net) := Fut.dropAt 0 0 (Fut.writer toySuite .flush) exWritten exWritten.net

/-- **C105, refuted for writing.** Dropping a `flush` while the transport has not accepted a byte loses what earlier calls
of `write` accepted: the next `flush` succeeds and sends nothing. -/
theorem C105_refuted_write : ∃ c', Call.Ends (V := Unit) toySuite exWritten (.writer .flush) none c' ∧
    (onWr (WrHalf.write toySuite [1, 2]) (exConn [])).1 = .ok 2 ∧
    (onWr (WOp.flush.run toySuite) c').1 = .ok 0 ∧ (onWr (WOp.flush.run toySuite) c').2.tx.log = [.partialWrite []] := by
  have h : exUnflushed.isSome = true := by decide +kernel +revert
  refine ⟨(exUnflushed.get h).1.with (exUnflushed.get h).2, Call.dropped_writer toySuite exWritten .flush 0 0 _ ?_, ?_, ?_, ?_⟩
  · exact (Option.some_get h).symm
  · decide +kernel +revert
  · decide +kernel +revert
  · decide +kernel +revert

/-- `flush`, dropped when the transport has accepted the whole record but not yet said so. -/
def exCut : Option (Conn × Net) := Fut.dropAt 1000 0 (Fut.writer toySuite .flush) exWritten exWritten.net

/-- **C105, refuted for writing (and C12 with dropped calls).** The record with content 1, 2 was sent; the flush was dropped;
the next record, with content 7, is sent under the same key and number. -/
theorem C105_refuted_nonce : ∃ c' record other, Call.Ends (V := Unit) toySuite exWritten (.writer .flush) none c' ∧
    record = Spec.ciphertextRecord toySuite exWritten.ks.client.st.key exWritten.ks.client.st.iv 0 23 [1, 2] ∧
    other = Spec.ciphertextRecord toySuite exWritten.ks.client.st.key exWritten.ks.client.st.iv 0 23 [7] ∧
    (runOps toySuite [.write [7], .flush] c'.wr).2.tx.log = [.partialWrite record, .wrote other, .flushed] ∧
    record ≠ other := by
  have h : exCut.isSome = true := by decide +kernel +revert
  refine ⟨(exCut.get h).1.with (exCut.get h).2, _, _, Call.dropped_writer toySuite exWritten .flush 1000 0 _ ?_, rfl, rfl, ?_, ?_⟩
  · exact (Option.some_get h).symm
  · decide +kernel +revert
  · decide +kernel +revert

/-! ## Examples -/

/-- An `open` that has sent its ClientHello and is dropped while it waits for the ServerHello. -/
def exWaiting : Option (HSt Unit × Net) :=
  Fut.dropAt 0 2 (Fut.openSt toySuite exCfg exProv 9) ⟨exNew 400 [], ⟨none, none, none, ()⟩⟩ (exNew 400 []).net

set_option maxRecDepth 10000 in
/-- The hypotheses of `C105_open`. -/
example : (exNew 400 []).opened = false ∧
    ∃ c', Call.Ends toySuite (exNew 400 []) (.open_ exCfg exProv ()) none c' ∧ c'.tx.log ≠ [] := by
  have h : exWaiting.isSome = true := by decide +kernel +revert
  refine ⟨by decide +kernel, (exWaiting.get h).1.c.with (exWaiting.get h).2,
    Call.dropped_open toySuite exCfg exProv () _ 9 0 2 _ (Option.some_get h).symm, ?_⟩
  decide +kernel +revert

/-- The hypothesis of `C105_writing_partial` for the connection of `C105_refuted_write`. -/
example : exWritten.wr.Is toySuite ⟨some [1, 2], 0, .strict⟩ :=
  ⟨.record [1, 2] ⟨by decide +kernel, by decide +kernel,
    0, 0, exWritten.wb.buffer.drop 7, by decide +kernel⟩ (by decide +kernel), by decide +kernel, by decide +kernel,
    by decide +kernel, by decide +kernel⟩

/-- A ticket record, then a pause, then data. -/
def exPause : Conn := exConn [.data (sealInner 0 ([4, 0, 0, 14, 0, 0, 0, 1, 0, 0, 0, 2, 0, 0, 1, 9, 0, 0] ++ [22])),
  .data (sealInner 1 [1, 2, 3, 23])]

/-- The call is dropped after the ticket. -/
def exPaused : Option (Conn × Net) := Fut.dropAt 0 2 (Fut.reader toySuite 9 (.read 10)) exPause exPause.net

/-- The hypotheses of `C105_between_records_partial` for a call that has handled a record of its own before it is dropped;
the next call returns the data. -/
example : ∃ c' t, Call.Ends (V := Unit) toySuite exPause (.reader (.read 10)) none c' ∧
    exPause.rx.bytes = t ++ c'.rx.bytes ∧ t ≠ [] ∧ WholeRecords t ∧ exPause.rd.Good ∧ exPause.rr.pending = 0 ∧
    (onRd ((ROp.read 10).run toySuite) c').1 = .ok ⟨[1, 2, 3], [[1, 2, 3]], [1, 2, 3]⟩ := by
  have h : exPaused.isSome = true := by decide +kernel +revert
  refine ⟨(exPaused.get h).1.with (exPaused.get h).2,
    sealInner 0 ([4, 0, 0, 14, 0, 0, 0, 1, 0, 0, 0, 2, 0, 0, 1, 9, 0, 0] ++ [22]),
    Call.dropped_reader toySuite exPause (.read 10) 9 2 _ (Option.some_get h).symm, ?_, ?_, ?_, ?_, rfl, ?_⟩
  · decide +kernel +revert
  · decide +kernel +revert
  · have e : sealInner 0 ([4, 0, 0, 14, 0, 0, 0, 1, 0, 0, 0, 2, 0, 0, 1, 9, 0, 0] ++ [22]) = [23, 3, 3, 0, 35] ++
        (sealInner 0 ([4, 0, 0, 14, 0, 0, 0, 1, 0, 0, 0, 2, 0, 0, 1, 9, 0, 0] ++ [22])).drop 5 ++ [] := by decide +kernel +revert
    rw [e]
    exact .cons _ _ _ _ _ _ _ (by decide +kernel +revert) .nil
  · exact ⟨by unfold RR.Inv; decide +kernel, by decide +kernel, by decide +kernel⟩
  · decide +kernel +revert

/-- The connection after the drop of `C105_refuted_read`, and a `write` on it. -/
def exAfter : Conn := (exDropped.map fun x => x.1.with x.2).getD (exConn [])

/-- A history with a dropped call and one that is awaited. -/
example : ∃ c', History (V := Unit) toySuite [.reader (.read 10), .writer (.write [5])] exPieces
    [none, some (.wrote (.ok 1))] c' := by
  have h : exDropped.isSome = true := by decide +kernel
  have h1 : ((Fut.writer toySuite (.write [5])).run exAfter exAfter.net).isSome = true := by decide +kernel
  have h2 : (((Fut.writer toySuite (.write [5])).run exAfter exAfter.net).get h1).1 = .ok 1 := by decide +kernel +revert
  obtain ⟨x, hx⟩ := Option.isSome_iff_exists.1 h
  have e : exAfter = x.1.with x.2 := by unfold exAfter; rw [hx]; rfl
  obtain ⟨⟨r, s', w'⟩, hy⟩ := Option.isSome_iff_exists.1 h1
  simp only [hy, Option.get_some] at h2
  subst h2
  refine ⟨s'.with w', .cons (Call.dropped_reader toySuite exPieces (.read 10) 9 2 x hx) (.cons ?_ (.nil _))⟩
  rw [← e]
  exact Call.Ends.writer (o := some (.ok 1)) (Fut.run_ends hy)

end ETls
