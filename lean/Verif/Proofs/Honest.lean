import Verif.Props.ReadPath

/-! # Clean transports and honest peers -/

namespace ETls

variable (S : Suite)

open Spec (Fragment RawMsg RawExt Stream)

/-! ## The transport only matters through its bytes -/

theorem splice_ge (buf bs : Bytes) (p : Nat) : buf.length ≤ (CB.splice buf p bs).length := by
  simp only [CB.splice, List.length_append, List.length_take, List.length_drop]; omega

/-- After one record the reader is again between two records, or the stream has ended; a record costs at least five
bytes. -/
theorem pureRead_between (rr : RR) (bytes tr : Bytes) (hb : rr.Between bytes) :
    (pureRead S rr bytes tr).2.1.Between (pureRead S rr bytes tr).2.2.1 ∧
    (∀ rec, (pureRead S rr bytes tr).1 = .ok rec → (pureRead S rr bytes tr).2.2.1.length + 5 ≤ bytes.length) := by
  unfold pureRead
  by_cases h5 : bytes.length < 5
  · rw [if_pos h5]
    exact ⟨⟨hb.decoded, .inr rfl⟩, by simp⟩
  · rw [if_neg h5]
    have hp : rr.pending = 0 := by
      rcases hb.pending with h | h
      · exact h
      · rw [h] at h5; simp at h5
    rcases RecordHeader.decode (bytes.take 5) with h | e | _
    · simp only
      by_cases hbig : h.contentLength > rr.buf.length
      · rw [if_pos hbig]
        exact ⟨⟨hb.decoded, .inl hp⟩, by simp⟩
      · rw [if_neg hbig]
        generalize hat : (if rr.decoded + h.contentLength > rr.buf.length then 0 else rr.decoded) = at_
        have hatn : at_ + h.contentLength ≤ rr.buf.length := by
          rw [← hat]; split <;> omega
        by_cases hshort : (bytes.drop 5).length < h.contentLength
        · rw [if_pos hshort]
          refine ⟨⟨?_, .inr rfl⟩, by simp⟩
          have := splice_ge rr.buf (bytes.drop 5) at_
          simp only; omega
        · rw [if_neg hshort]
          refine ⟨⟨?_, .inl rfl⟩, fun rec _ => ?_⟩
          · have := splice_ge rr.buf ((bytes.drop 5).take h.contentLength) at_
            simp only; omega
          · simp only [List.length_drop]; omega
    · exact ⟨⟨hb.decoded, .inl hp⟩, by simp⟩
    · exact ⟨⟨hb.decoded, .inl hp⟩, by simp⟩

/-- Two reading halves that differ only in how the transport cuts the same bytes. -/
structure SameBytes (h h' : RdHalf) : Prop where
  eq : h' = { h with rx := h'.rx }
  clean : h.rx.Clean
  clean' : h'.rx.Clean
  bytes : h'.rx.bytes = h.rx.bytes
  between : h.rr.Between h.rx.bytes

theorem SameBytes.readApp {h h' : RdHalf} (hs : SameBytes h h') :
    (RdHalf.readApplicationData S h').1 = (RdHalf.readApplicationData S h).1 ∧
    SameBytes (RdHalf.readApplicationData S h).2 (RdHalf.readApplicationData S h').2 ∧
    ((RdHalf.readApplicationData S h).1 = .ok () →
      (RdHalf.readApplicationData S h).2.rx.bytes.length + 5 ≤ h.rx.bytes.length) := by
  obtain ⟨rx', opened, rks, rr, dec⟩ := h'
  obtain ⟨rx, o2, k2, r2, d2⟩ := h
  have he := hs.eq
  simp only [RdHalf.mk.injEq, true_and] at he
  obtain ⟨rfl, rfl, rfl, rfl⟩ := he
  have hbt := hs.between
  have hc := hs.clean
  have hc' := hs.clean'
  have hbytes := hs.bytes
  simp only at hbt hc hc' hbytes
  obtain ⟨x, x1, x2, x3⟩ := readRecord_clean S rr rx rks.transcript hc hbt
  obtain ⟨y, y1, y2, y3⟩ := readRecord_clean S rr rx' rks.transcript hc' (by rw [hbytes]; exact hbt)
  rw [hbytes] at y2 y3
  obtain ⟨b1, b2⟩ := pureRead_between S rr rx.bytes rks.transcript hbt
  generalize pureRead S rr rx.bytes rks.transcript = res at *
  obtain ⟨r, rr1, by1, tr1⟩ := res
  simp only at x2 x3 y2 y3 b1 b2
  have hr1 : RdHalf.readRecord S ⟨rx, opened, rks, rr, dec⟩ = (r, ⟨x, opened, { rks with transcript := tr1 }, rr1, dec⟩) := by
    unfold RdHalf.readRecord
    simp only [x3]
  have hr2 : RdHalf.readRecord S ⟨rx', opened, rks, rr, dec⟩ = (r, ⟨y, opened, { rks with transcript := tr1 }, rr1, dec⟩) := by
    unfold RdHalf.readRecord
    simp only [y3]
  have hsame : ∀ h : RdHalf, h.rr.Between by1 → SameBytes { h with rx := x } { h with rx := y } := by
    intro h hb
    exact ⟨rfl, x1, y1, by simp only; rw [y2, x2], by simp only; rw [x2]; exact hb⟩
  unfold RdHalf.readApplicationData
  cases r with
  | err e =>
    rw [M.bind_err hr1, M.bind_err hr2]
    exact ⟨rfl, hsame ⟨x, opened, { rks with transcript := tr1 }, rr1, dec⟩ b1, by simp⟩
  | panic =>
    rw [M.bind_panic hr1, M.bind_panic hr2]
    exact ⟨rfl, hsame ⟨x, opened, { rks with transcript := tr1 }, rr1, dec⟩ b1, by simp⟩
  | ok rec =>
    rw [M.bind_ok hr1, M.bind_ok hr2]
    unfold RdHalf.decrypt
    simp only
    have hbuf : rr1.buf.length ≤ (decryptRecord S (readHandler rr1.buf.length) rec
        ⟨{ rks with transcript := tr1 }, rr1.buf, (dec, opened)⟩).2.buf.length := by
      unfold decryptRecord
      cases rec with
      | appData hdr start data =>
        simp only
        split
        · exact Nat.le_refl _
        · next pt _ =>
          have := splice_ge rr1.buf pt start
          split <;> simpa using this
      | _ => exact Nat.le_refl _
    generalize decryptRecord S (readHandler rr1.buf.length) rec
      ⟨{ rks with transcript := tr1 }, rr1.buf, (dec, opened)⟩ = dres at *
    obtain ⟨dr, ds⟩ := dres
    simp only at hbuf ⊢
    refine ⟨trivial, hsame ⟨x, ds.ext.2, ds.rks, { rr1 with buf := ds.buf }, ds.ext.1⟩ ?_, fun _ => ?_⟩
    · exact ⟨by have := b1.decoded; simp only; omega, b1.pending⟩
    · rw [x2]; exact b2 rec rfl

theorem SameBytes.fillLoop : ∀ (n : Nat) (h h' : RdHalf) (f f' : Nat), h.rx.bytes.length ≤ n → SameBytes h h' →
    h.rx.bytes.length + 2 ≤ f → h.rx.bytes.length + 2 ≤ f' →
    (RdHalf.fillLoop S f' h').1 = (RdHalf.fillLoop S f h).1 ∧
    SameBytes (RdHalf.fillLoop S f h).2 (RdHalf.fillLoop S f' h').2 := by
  intro n
  induction n with
  | zero =>
    intro h h' f f' hn hs hf hf'
    obtain ⟨f, rfl⟩ : ∃ k, f = k + 1 := ⟨f - 1, by omega⟩
    obtain ⟨f', rfl⟩ : ∃ k, f' = k + 1 := ⟨f' - 1, by omega⟩
    unfold RdHalf.fillLoop
    rw [M.get_bind, M.get_bind]
    have hd : h'.dec = h.dec := by rw [hs.eq]
    rw [hd]
    by_cases he : h.dec.isEmpty = true
    · rw [if_pos he, if_pos he]
      obtain ⟨g1, g2, g3⟩ := hs.readApp S
      rcases hr : RdHalf.readApplicationData S h with ⟨r, h1⟩
      rcases hr' : RdHalf.readApplicationData S h' with ⟨r', h1'⟩
      rw [hr, hr'] at g1 g2
      rw [hr] at g3
      simp only at g1 g2 g3
      subst g1
      cases r' with
      | err e => rw [M.bind_err hr, M.bind_err hr']; exact ⟨rfl, g2⟩
      | panic => rw [M.bind_panic hr, M.bind_panic hr']; exact ⟨rfl, g2⟩
      | ok u => have := g3 rfl; omega
    · rw [if_neg he, if_neg he]
      exact ⟨rfl, hs⟩
  | succ n ih =>
    intro h h' f f' hn hs hf hf'
    obtain ⟨f, rfl⟩ : ∃ k, f = k + 1 := ⟨f - 1, by omega⟩
    obtain ⟨f', rfl⟩ : ∃ k, f' = k + 1 := ⟨f' - 1, by omega⟩
    unfold RdHalf.fillLoop
    rw [M.get_bind, M.get_bind]
    have hd : h'.dec = h.dec := by rw [hs.eq]
    rw [hd]
    by_cases he : h.dec.isEmpty = true
    · rw [if_pos he, if_pos he]
      obtain ⟨g1, g2, g3⟩ := hs.readApp S
      rcases hr : RdHalf.readApplicationData S h with ⟨r, h1⟩
      rcases hr' : RdHalf.readApplicationData S h' with ⟨r', h1'⟩
      rw [hr, hr'] at g1 g2
      rw [hr] at g3
      simp only at g1 g2 g3
      subst g1
      cases r' with
      | err e => rw [M.bind_err hr, M.bind_err hr']; exact ⟨rfl, g2⟩
      | panic => rw [M.bind_panic hr, M.bind_panic hr']; exact ⟨rfl, g2⟩
      | ok u =>
        have := g3 rfl
        rw [M.bind_ok hr, M.bind_ok hr']
        exact ih h1 h1' f f' (by omega) g2 (by omega) (by omega)
    · rw [if_neg he, if_neg he]
      exact ⟨rfl, hs⟩

theorem SameBytes.fill {h h' : RdHalf} (hs : SameBytes h h') :
    (RdHalf.fill S h').1 = (RdHalf.fill S h).1 ∧ SameBytes (RdHalf.fill S h).2 (RdHalf.fill S h').2 := by
  unfold RdHalf.fill
  rw [M.get_bind, M.get_bind]
  have ho : h'.opened = h.opened := by rw [hs.eq]
  rw [ho]
  by_cases h1 : h.opened = true
  · rw [if_pos h1, if_pos h1]
    have e1 := h.rx.bytes_le_size
    have e2 := h'.rx.bytes_le_size
    rw [hs.bytes] at e2
    exact SameBytes.fillLoop S _ h h' _ _ (Nat.le_refl _) hs (by omega) (by omega)
  · rw [if_neg h1, if_neg h1]
    exact ⟨rfl, hs⟩

theorem SameBytes.useBuffer (ops : List RBufOp) (rv : Bool) {h h' : RdHalf} (hs : SameBytes h h') :
    (RdHalf.useBuffer ops rv h').1 = (RdHalf.useBuffer ops rv h).1 ∧
    SameBytes (RdHalf.useBuffer ops rv h).2 (RdHalf.useBuffer ops rv h').2 := by
  obtain ⟨rx', opened, rks, rr, dec⟩ := h'
  obtain ⟨rx, o2, k2, r2, d2⟩ := h
  have he := hs.eq
  simp only [RdHalf.mk.injEq, true_and] at he
  obtain ⟨rfl, rfl, rfl, rfl⟩ := he
  have key : ∀ d : DecInfo, SameBytes ⟨rx, opened, rks, rr, d⟩ ⟨rx', opened, rks, rr, d⟩ :=
    fun d => ⟨rfl, hs.clean, hs.clean', hs.bytes, hs.between⟩
  have hav : ∃ r, ∀ x : Rx, RdHalf.available ⟨x, opened, rks, rr, dec⟩ = (r, ⟨x, opened, rks, rr, dec⟩) := by
    unfold RdHalf.available
    simp only
    by_cases hb : dec.offset + dec.consumed ≤ dec.offset + dec.len ∧ dec.offset + dec.len ≤ rr.buf.length
    · exact ⟨_, fun x => by rw [if_pos hb]⟩
    · exact ⟨_, fun x => by rw [if_neg hb]⟩
  obtain ⟨r, hav⟩ := hav
  unfold RdHalf.useBuffer
  rw [hav, hav]
  cases r with
  | ok d =>
    simp only
    rcases RBuf.runOps ops (RBuf.new d) with ⟨_ | _ | _, _⟩ <;> exact ⟨rfl, key _⟩
  | err e => exact ⟨rfl, key _⟩
  | panic => exact ⟨rfl, key _⟩

theorem SameBytes.run (op : ROp) {h h' : RdHalf} (hs : SameBytes h h') :
    (op.run S h').1 = (op.run S h).1 ∧ SameBytes (op.run S h).2 (op.run S h').2 := by
  by_cases hf : op.Fills
  · rw [op.run_fills S hf, op.run_fills S hf]
    obtain ⟨g1, g2⟩ := hs.fill S
    rcases hr : RdHalf.fill S h with ⟨r, h1⟩
    rcases hr' : RdHalf.fill S h' with ⟨r', h1'⟩
    rw [hr, hr'] at g1 g2
    simp only at g1 g2
    subst g1
    cases r' with
    | err e => rw [M.bind_err hr, M.bind_err hr']; exact ⟨rfl, g2⟩
    | panic => rw [M.bind_panic hr, M.bind_panic hr']; exact ⟨rfl, g2⟩
    | ok u => rw [M.bind_ok hr, M.bind_ok hr']; exact g2.useBuffer _ _
  · cases op with
    | read n =>
      simp only [ROp.Fills, not_not] at hf
      subst hf
      exact ⟨rfl, hs⟩
    | consume n => exact hs.useBuffer _ _
    | fillBuf => exact absurd trivial hf
    | buffered ops rv => exact absurd trivial hf

/-! ## An honest peer -/

/-- A handshake record made of session tickets. -/
inductive Tickets : Bytes → Prop where
  | nil : Tickets []
  | cons (lt aa : Nat) (n t : Bytes) (raw : List RawExt) (exts : List Ext)
      (hw : (RawMsg.newSessionTicket lt aa n t raw).WellSized S.hashLen) (he : GoodExts .newSessionTicket 1 raw exts)
      (rest : Bytes) (hr : Tickets rest) : Tickets ((RawMsg.newSessionTicket lt aa n t raw).bytes ++ rest)

theorem Tickets.loop (n : Nat) {content : Bytes} (ht : Tickets S content) : ∀ (fuel : Nat) (A : Bytes) (k : ReadKS)
    (t : DecInfo × Bool), content.length < fuel →
    ∃ tr, handshakeLoop S (readHandler n) fuel ⟨A ++ content, A.length⟩ (k, t) = (.ok (), ({ k with transcript := tr }, t)) := by
  induction ht with
  | nil =>
    intro fuel A k t hf
    obtain ⟨fuel, rfl⟩ : ∃ j, fuel = j + 1 := ⟨fuel - 1, by omega⟩
    unfold handshakeLoop
    simp only [List.append_nil]
    rw [if_neg (by omega)]
    exact ⟨k.transcript, rfl⟩
  | cons lt aa nn tt raw exts hw he rest hr ih =>
    intro fuel A k t hf
    obtain ⟨fuel, rfl⟩ : ∃ j, fuel = j + 1 := ⟨fuel - 1, by omega⟩
    have hp := C55_new_session_ticket S lt aa nn tt raw exts hw he A rest
    generalize hb : (RawMsg.newSessionTicket lt aa nn tt raw).bytes = b at *
    have hbl : 0 < b.length := by rw [← hb]; simp [RawMsg.bytes]
    unfold handshakeLoop
    simp only
    rw [if_pos (by simp; omega)]
    unfold ServerHs.read
    simp only [hp, readHandler, M.pure_apply]
    obtain ⟨tr, h1⟩ := ih fuel (A ++ b) { k with transcript := k.transcript ++ (List.drop A.length (A ++ (b ++ rest))).take (A.length + b.length - A.length) } t
      (by simp at hf; omega)
    rw [List.append_assoc, List.length_append] at h1
    exact ⟨tr, h1⟩

/-- A fragment an honest peer sends on an open connection: application data or session tickets. -/
def Sendable (f : Fragment) : Prop := f.type = 23 ∨ (f.type = 22 ∧ Tickets S f.content)

/-- The records `fs` of an honest peer are all that the transport will deliver to the open reading half `h`, and each
fits the read buffer. -/
structure Honest (fs : List Fragment) (h : RdHalf) : Prop where
  good : h.Good
  pending : h.rr.pending = 0
  opened : h.opened = true
  clean : h.rx.Clean
  bytes : h.rx.bytes = Spec.protectAll S h.rks.st.key h.rks.st.iv h.rks.st.counter fs
  iv : h.rks.st.iv.length = S.ivLen
  counter : h.rks.st.counter + fs.length < 2 ^ 64
  sendable : ∀ f ∈ fs, Sendable S f
  fits : ∀ f ∈ fs, f.inner.length + 16 ≤ h.rr.buf.length ∧ f.inner.length + 16 < 65536

theorem protect_parts (hS : S.Lawful) (key iv : Bytes) (seq : Nat) (f : Fragment) (hf : f.inner.length + 16 < 65536) :
    ∃ hdr ct, Spec.protect S key iv seq f = hdr ++ ct ∧ hdr.length = 5 ∧ ct.length = f.inner.length + 16 ∧
      RecordHeader.decode hdr = .ok ⟨.applicationData, f.inner.length + 16, hdr⟩ ∧
      S.open_ key (Spec.nonce iv seq) hdr ct = some f.inner := by
  refine ⟨Spec.ciphertextHeader f.inner.length, _, rfl, rfl, ?_, ?_, hS.open_seal _ _ _ _⟩
  · rw [List.length_append, hS.sealCt_length, hS.sealTag_length]; rfl
  · have h1 : ((f.inner.length + 16) / 256) % 256 * 256 + (f.inner.length + 16) % 256 = f.inner.length + 16 := by omega
    simp only [Spec.ciphertextHeader, Spec.u16, List.cons_append, List.nil_append, RecordHeader.decode]
    have : ContentType.of (23 : UInt8).toNat = some .applicationData := by decide
    simp only [this, UInt8.toNat_ofNat']
    rw [show (2 : Nat) ^ 8 = 256 from rfl, h1]

/-- Receiving the next record of an honest peer. -/
theorem Honest.step (hS : S.Lawful) {f : Fragment} {fs : List Fragment} {h : RdHalf} (hh : Honest S (f :: fs) h)
    (hu : h.unread = []) : ∃ h', RdHalf.readApplicationData S h = (.ok (), h') ∧ Honest S fs h' ∧
      h'.unread = f.appData ∧ h'.rks.st.counter = h.rks.st.counter + 1 := by
  have hfit := hh.fits f List.mem_cons_self
  obtain ⟨hdr, ct, p1, p2, p3, p4, p5⟩ := protect_parts S hS h.rks.st.key h.rks.st.iv h.rks.st.counter f hfit.2
  have hbytes : h.rx.bytes = hdr ++ (ct ++ Spec.protectAll S h.rks.st.key h.rks.st.iv (h.rks.st.counter + 1) fs) := by
    rw [hh.bytes, Spec.protectAll, p1, List.append_assoc]
  have hinv := hh.good.rr
  unfold RR.Inv at hinv
  obtain ⟨rx', x1, x2, x3⟩ := readRecord_clean S h.rr h.rx h.rks.transcript hh.clean
    ⟨by omega, .inl hh.pending⟩
  generalize hrest : Spec.protectAll S h.rks.st.key h.rks.st.iv (h.rks.st.counter + 1) fs = rest at *
  generalize hat : (if h.rr.decoded + (f.inner.length + 16) > h.rr.buf.length then 0 else h.rr.decoded) = at_
  have hatn : at_ + (f.inner.length + 16) ≤ h.rr.buf.length := by rw [← hat]; split <;> omega
  have hpure : pureRead S h.rr h.rx.bytes h.rks.transcript = (.ok (.appData hdr at_ ct),
      (⟨CB.splice h.rr.buf at_ ct, at_ + (f.inner.length + 16), 0⟩, (rest, h.rks.transcript))) := by
    unfold pureRead
    have ht5 : h.rx.bytes.take 5 = hdr := by rw [hbytes, ← p2, List.take_left]
    have hd5 : h.rx.bytes.drop 5 = ct ++ rest := by rw [hbytes, ← p2, List.drop_left]
    rw [if_neg (by rw [hbytes]; simp; omega), ht5, p4]
    simp only
    rw [if_neg (by omega), hat, hd5, if_neg (by simp; omega), ← p3, List.take_left, List.drop_left]
    unfold ServerRecord.decode
    rw [if_neg (by simp)]
    rfl
  rw [hpure] at x2 x3
  simp only at x2 x3
  have hread : RdHalf.readRecord S h = (.ok (.appData hdr at_ ct),
      { h with rr := ⟨CB.splice h.rr.buf at_ ct, at_ + (f.inner.length + 16), 0⟩, rx := rx' }) := by
    unfold RdHalf.readRecord
    rw [x3]
  have hnonce : h.rks.st.nonce S = Spec.nonce h.rks.st.iv h.rks.st.counter := nonce_eq S hS.ivLen_eq _ hh.iv
  have hlen1 := splice_length h.rr.buf ct at_ (by omega)
  have hcnt : h.rks.st.counter + 1 < 2 ^ 64 := by have := hh.counter; simp at this; omega
  -- decryption
  have hdec : ∃ h', RdHalf.decrypt S (.appData hdr at_ ct)
      { h with rr := ⟨CB.splice h.rr.buf at_ ct, at_ + (f.inner.length + 16), 0⟩, rx := rx' } = (.ok (), h') ∧
      h'.rx = rx' ∧ h'.opened = h.opened ∧ h'.rks.st = { h.rks.st with counter := h.rks.st.counter + 1 } ∧
      h'.rr = ⟨CB.splice (CB.splice h.rr.buf at_ ct) at_ f.inner, at_ + (f.inner.length + 16), 0⟩ ∧
      h'.dec = (if f.type = 23 then ⟨at_, f.content.length, 0⟩ else h.dec) := by
    unfold RdHalf.decrypt decryptRecord
    simp only [hnonce, p5]
    obtain ⟨d1, d2, _⟩ := C27_dispatch_partial S (readHandler (CB.splice h.rr.buf at_ ct).length) hdr at_
      (h.rks, (h.dec, h.opened))
    rcases hh.sendable f List.mem_cons_self with h23 | ⟨h22, htk⟩
    · obtain ⟨ty, c, k⟩ := f
      simp only at h23
      subst h23
      rw [d1 c k]
      have hcl : c.length < (Fragment.inner ⟨23, c, k⟩).length := by simp [Fragment.inner]
      simp only [readHandler]
      rw [if_pos ⟨by omega, by omega⟩]
      simp only [ReadKS.increment, KsState.increment]
      rw [if_pos hcnt]
      exact ⟨_, rfl, rfl, rfl, rfl, rfl, by simp⟩
    · obtain ⟨ty, c, k⟩ := f
      simp only at h22 htk
      subst h22
      rw [d2 c k]
      obtain ⟨tr, hl⟩ := htk.loop S (CB.splice h.rr.buf at_ ct).length (c.length + 1) [] h.rks (h.dec, h.opened) (by omega)
      simp only [List.nil_append, List.length_nil] at hl
      rw [show PB.new c = ⟨c, 0⟩ from rfl, hl]
      simp only [ReadKS.increment, KsState.increment]
      rw [if_pos hcnt]
      exact ⟨_, rfl, rfl, rfl, rfl, rfl, by simp⟩
  obtain ⟨h', e1, e2, e3, e4, e5, e6⟩ := hdec
  have hrun : RdHalf.readApplicationData S h = (.ok (), h') := by
    unfold RdHalf.readApplicationData
    rw [M.bind_ok hread, e1]
  have hlen2 := splice_length (CB.splice h.rr.buf at_ ct) f.inner at_ (by omega)
  have hgood := (readApp_outcome S hS.openLength hh.good hrun).ok_facts.1
  refine ⟨h', hrun, ?_, ?_, by rw [e4]⟩
  · refine ⟨hgood, by rw [e5], e3.trans hh.opened, by rw [e2]; exact x1, ?_, by rw [e4]; exact hh.iv, ?_, ?_, ?_⟩
    · rw [e2, x2, e4, ← hrest]
    · have := hh.counter
      rw [e4]
      simp at this ⊢; omega
    · exact fun g hg => hh.sendable g (List.mem_cons_of_mem _ hg)
    · intro g hg
      have := hh.fits g (List.mem_cons_of_mem _ hg)
      rw [e5]
      simp only [hlen2, hlen1]
      exact this
  · by_cases h23 : f.type = 23
    · rw [if_pos h23] at e6
      unfold RdHalf.unread
      rw [e6, e5]
      simp only [Nat.add_zero, Nat.sub_zero]
      have h1 := splice_read (CB.splice h.rr.buf at_ ct) f.inner at_ (by omega)
      have hcl : f.content.length ≤ f.inner.length := by simp [Fragment.inner]
      have : ((CB.splice (CB.splice h.rr.buf at_ ct) at_ f.inner).drop at_).take f.content.length =
          (((CB.splice (CB.splice h.rr.buf at_ ct) at_ f.inner).drop at_).take f.inner.length).take f.content.length := by
        rw [List.take_take, Nat.min_eq_left hcl]
      rw [this, h1]
      simp [Fragment.inner, Fragment.appData, h23]
    · rw [if_neg h23] at e6
      rw [unread_same h h' hh.good hu e6]
      simp [Fragment.appData, h23]

/-- The end of the stream. -/
theorem Honest.done {h : RdHalf} (hh : Honest S [] h) (hu : h.unread = []) :
    ∃ h', RdHalf.readApplicationData S h = (.err .ioError, h') ∧ Honest S [] h' ∧ h'.unread = [] := by
  have hb := hh.bytes
  simp only [Spec.protectAll] at hb
  have hinv := hh.good.rr
  unfold RR.Inv at hinv
  obtain ⟨rx', x1, x2, x3⟩ := readRecord_clean S h.rr h.rx h.rks.transcript hh.clean
    ⟨by omega, .inl hh.pending⟩
  have hpure : pureRead S h.rr h.rx.bytes h.rks.transcript = (.err .ioError, (h.rr, ([], h.rks.transcript))) := by
    unfold pureRead
    rw [if_pos (by rw [hb]; simp)]
  rw [hpure] at x2 x3
  simp only at x2 x3
  have hread : RdHalf.readRecord S h = (.err .ioError, { h with rx := rx' }) := by
    unfold RdHalf.readRecord
    rw [x3]
  refine ⟨{ h with rx := rx' }, ?_, ?_, hu⟩
  · unfold RdHalf.readApplicationData
    rw [M.bind_err hread]
  · exact ⟨⟨hh.good.rr, hh.good.dec, hh.good.consumed⟩, hh.pending, hh.opened, x1, x2, hh.iv, hh.counter, by simp, by simp⟩

theorem protectAll_length (key iv : Bytes) : ∀ (fs : List Fragment) (seq : Nat),
    fs.length ≤ (Spec.protectAll S key iv seq fs).length := by
  intro fs
  induction fs with
  | nil => intro seq; simp
  | cons f fs ih =>
    intro seq
    have := ih (seq + 1)
    simp only [Spec.protectAll, Spec.protect, Spec.ciphertextHeader, Spec.u16, List.length_append, List.length_cons,
      List.length_nil]
    omega

/-- The stream an honest peer's records make up. -/
def streamOf (fs : List Fragment) (h : RdHalf) : Stream := ⟨h.unread, fs.map Fragment.appData⟩

theorem fill_cons (cur : Bytes) (rest : List Bytes) (h : cur ≠ []) : Stream.fill cur rest = ⟨cur, rest⟩ := by
  cases cur with
  | nil => exact absurd rfl h
  | cons c cs => cases rest <;> rfl

theorem Honest.fillLoop (hS : S.Lawful) : ∀ (fs : List Fragment) (fuel : Nat) (h : RdHalf), Honest S fs h →
    fs.length + 2 ≤ fuel →
    ∃ fs' h', Honest S fs' h' ∧
      RdHalf.fillLoop S fuel h = (if (streamOf fs h).unread = [] then .err .ioError else .ok (), h') ∧
      streamOf fs' h' = Stream.fill h.unread (fs.map Fragment.appData) ∧
      ((streamOf fs h).unread ≠ [] → h'.unread ≠ []) := by
  intro fs
  induction fs with
  | nil =>
    intro fuel h hh hf
    obtain ⟨fuel, rfl⟩ : ∃ j, fuel = j + 1 := ⟨fuel - 1, by omega⟩
    unfold RdHalf.fillLoop
    rw [M.get_bind]
    by_cases hu : h.unread = []
    · rw [if_pos ((h.isEmpty_iff hh.good).2 hu)]
      obtain ⟨h', d1, d2, d3⟩ := hh.done S hu
      rw [M.bind_err d1]
      refine ⟨[], h', d2, ?_, ?_, ?_⟩
      · simp [streamOf, Stream.unread, hu]
      · simp [streamOf, hu, d3, Stream.fill]
      · simp [streamOf, Stream.unread, hu]
    · rw [if_neg (fun he => hu ((h.isEmpty_iff hh.good).1 he))]
      refine ⟨[], h, hh, ?_, ?_, fun _ => hu⟩
      · rw [if_neg (by simp [streamOf, Stream.unread, hu])]; rfl
      · rw [fill_cons _ _ hu]; rfl
  | cons f fs ih =>
    intro fuel h hh hf
    obtain ⟨fuel, rfl⟩ : ∃ j, fuel = j + 1 := ⟨fuel - 1, by omega⟩
    unfold RdHalf.fillLoop
    rw [M.get_bind]
    by_cases hu : h.unread = []
    · rw [if_pos ((h.isEmpty_iff hh.good).2 hu)]
      obtain ⟨h1, d1, d2, d3, -⟩ := hh.step S hS hu
      rw [M.bind_ok d1]
      obtain ⟨fs', h', i1, i2, i3, i4⟩ := ih fuel h1 d2 (by simp at hf; omega)
      have hsame : (streamOf (f :: fs) h).unread = (streamOf fs h1).unread := by
        simp [streamOf, Stream.unread, hu, d3]
      rw [hsame]
      refine ⟨fs', h', i1, i2, ?_, i4⟩
      rw [i3, hu, d3]
      rfl
    · rw [if_neg (fun he => hu ((h.isEmpty_iff hh.good).1 he))]
      refine ⟨f :: fs, h, hh, ?_, ?_, fun _ => hu⟩
      · rw [if_neg (by simp [streamOf, Stream.unread, hu])]; rfl
      · rw [fill_cons _ _ hu]; rfl

theorem fill_empty (cur : Bytes) (rest : List Bytes) (h : cur ++ rest.flatten = []) : Stream.fill cur rest = ⟨[], []⟩ := by
  induction rest generalizing cur with
  | nil => simp at h; subst h; rfl
  | cons r rs ih =>
    simp only [List.flatten_cons, List.append_eq_nil_iff] at h
    obtain ⟨rfl, rfl, h3⟩ := h
    exact ih [] (by simp [h3])

theorem Honest.fill (hS : S.Lawful) {fs : List Fragment} {h : RdHalf} (hh : Honest S fs h) :
    ∃ fs' h', Honest S fs' h' ∧
      RdHalf.fill S h = (if (streamOf fs h).unread = [] then .err .ioError else .ok (), h') ∧
      streamOf fs' h' = Stream.fill h.unread (fs.map Fragment.appData) := by
  unfold RdHalf.fill
  rw [M.get_bind, if_pos hh.opened]
  have h1 := protectAll_length S h.rks.st.key h.rks.st.iv fs h.rks.st.counter
  rw [← hh.bytes] at h1
  have h2 := h.rx.bytes_le_size
  obtain ⟨fs', h', i1, i2, i3, _⟩ := Honest.fillLoop S hS fs (h.rx.size + 2) h hh (by omega)
  exact ⟨fs', h', i1, i2, i3⟩

/-- The call of the specification. -/
def ROp.spec : ROp → Spec.ReadCall
  | .read n => .read n
  | .fillBuf => .fillBuf
  | .consume n => .consume n
  | .buffered ops rv => .buffered (ops.map RBufOp.call) rv

/-- What can be observed of a result, in the terms of the specification: an I/O error is the end of the stream. -/
def specOut : Res TlsError ROut → Option (Option (List Bytes × Bytes))
  | .ok o => some (some (o.seen, o.taken))
  | .err .ioError => some none
  | _ => none

theorem Honest.eat {fs : List Fragment} {h : RdHalf} (hh : Honest S fs h) (k : Nat) (hk : k ≤ h.unread.length) :
    Honest S fs (h.eat k) :=
  ⟨h.eat_good k hh.good hk, hh.pending, hh.opened, hh.clean, hh.bytes, hh.iv, hh.counter, hh.sendable, hh.fits⟩

theorem borrow_le (cs : List Spec.BufCall) (rv : Bool) (d : Bytes) : (Spec.borrow cs rv d).2.length ≤ d.length := by
  have := borrow_take cs rv d
  rw [this]
  simp; omega

theorem Honest.use (ops : List RBufOp) (rv : Bool) {fs : List Fragment} {h : RdHalf} (hh : Honest S fs h) :
    ∃ h', Honest S fs h' ∧ specOut (RdHalf.useBuffer ops rv h).1 =
        some ((streamOf fs h).use (ops.map RBufOp.call) rv).1 ∧
      (RdHalf.useBuffer ops rv h).2 = h' ∧
      streamOf fs h' = ((streamOf fs h).use (ops.map RBufOp.call) rv).2 := by
  rw [RdHalf.useBuffer_run _ _ _ hh.good]
  refine ⟨_, hh.eat S _ (borrow_le _ _ _), rfl, rfl, ?_⟩
  simp only [streamOf, Stream.use, RdHalf.eat_unread]

theorem Honest.run (hS : S.Lawful) (op : ROp) {fs : List Fragment} {h : RdHalf} (hh : Honest S fs h) :
    ∃ fs', Honest S fs' (op.run S h).2 ∧ specOut (op.run S h).1 = some (op.spec.run (streamOf fs h)).1 ∧
      streamOf fs' (op.run S h).2 = (op.spec.run (streamOf fs h)).2 := by
  have hfill : ∀ ops rv, ∃ fs' h' r, (do RdHalf.fill S; RdHalf.useBuffer ops rv : M TlsError RdHalf ROut) h = (r, h') ∧
      Honest S fs' h' ∧ specOut r = some ((streamOf fs h).fillThen (ops.map RBufOp.call) rv).1 ∧
      streamOf fs' h' = ((streamOf fs h).fillThen (ops.map RBufOp.call) rv).2 := by
    intro ops rv
    obtain ⟨fs1, h1, i1, i2, i3⟩ := hh.fill S hS
    unfold Stream.fillThen
    by_cases hu : (streamOf fs h).unread = []
    · rw [if_pos hu] at i2 ⊢
      rw [M.bind_err i2]
      refine ⟨fs1, h1, _, rfl, i1, rfl, ?_⟩
      rw [i3]
      exact fill_empty _ _ hu
    · rw [if_neg hu] at i2 ⊢
      rw [M.bind_ok i2]
      obtain ⟨h2, u1, u2, u3, u4⟩ := i1.use S ops rv
      refine ⟨fs1, h2, (RdHalf.useBuffer ops rv h1).1, ?_, u1, ?_, ?_⟩
      · rw [← u3]
      · rw [u2, i3]; rfl
      · rw [u4, i3]; rfl
  cases op with
  | read n =>
    simp only [ROp.run, ROp.spec, Spec.ReadCall.run]
    by_cases hn : n = 0
    · rw [if_pos hn, if_pos hn]
      exact ⟨fs, hh, rfl, rfl⟩
    · rw [if_neg hn, if_neg hn]
      obtain ⟨fs', h', r, h1, h2, h3, h4⟩ := hfill [.popInto n] false
      rw [h1]
      exact ⟨fs', h2, h3, h4⟩
  | fillBuf =>
    obtain ⟨fs', h', r, h1, h2, h3, h4⟩ := hfill [.peekAll] false
    simp only [ROp.run, ROp.spec, Spec.ReadCall.run]
    rw [h1]
    exact ⟨fs', h2, h3, h4⟩
  | consume n =>
    obtain ⟨h', u1, u2, u3, u4⟩ := hh.use S [.pop n] false
    simp only [ROp.run, ROp.spec, Spec.ReadCall.run]
    rw [u3]
    exact ⟨fs, u1, u2, u4⟩
  | buffered ops rv =>
    obtain ⟨fs', h', r, h1, h2, h3, h4⟩ := hfill ops rv
    simp only [ROp.run, ROp.spec, Spec.ReadCall.run]
    rw [h1]
    exact ⟨fs', h2, h3, h4⟩

end ETls
