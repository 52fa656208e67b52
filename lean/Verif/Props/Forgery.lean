import Verif.Props.Truncation
import Verif.Props.Honest
import Verif.Props.Reader

/-! # C21: what must not happen for it to hold

`Unforged` speaks of the records that the reader takes during the calls at hand.  Here: it follows from a condition on the
received bytes alone, and it holds for every peer that sends its own records, whatever the cipher. -/

namespace ETls

variable (S : Suite)

open Spec (Fragment)

namespace Spec

/-- No part of these bytes that has the form of a record opens as anything but the peer's fragment with that number.
`first` is the number of the first record; the `i`-th after it cannot begin before the `i`-th byte. -/
def NoForgeryIn (S : Suite) (key iv : Bytes) (peer : List Fragment) (first : Nat) (received : Bytes) : Prop :=
  ∀ n before hdr ct after p, n < 2 ^ 64 → n ≤ first + before.length → received = before ++ hdr ++ ct ++ after →
    hdr.length = 5 → S.open_ key (nonce iv n) hdr ct = some p → ∃ f, peer[n]? = some f ∧ p = f.inner

end Spec

/-- A reader between two records of a transport without errors, after some of the bytes `all`, the first of which had the
number `first`. -/
structure Within (key iv : Bytes) (first : Nat) (all : Bytes) (h : RdHalf) : Prop where
  clean : h.rx.Clean
  between : h.rr.Between h.rx.bytes
  suffix : h.rx.bytes <:+ all
  key : h.rks.st.key = key
  iv : h.rks.st.iv = iv
  counter : h.rks.st.counter < 2 ^ 64
  number : h.rks.st.counter + h.rx.bytes.length ≤ first + all.length
  good : h.Good

theorem pureRead_suffix (rr : RR) (bytes tr : Bytes) : (pureRead S rr bytes tr).2.2.1 <:+ bytes := by
  unfold pureRead
  split
  · exact List.nil_suffix
  · split
    · exact List.drop_suffix _ _
    · exact List.drop_suffix _ _
    · simp only
      split
      · exact List.drop_suffix _ _
      · split
        · exact List.nil_suffix
        · exact (List.drop_suffix _ _).trans (List.drop_suffix _ _)

/-- A record that is taken from a transport without errors is a part of the bytes it delivers. -/
theorem Within.takes {key iv all : Bytes} {first : Nat} {h : RdHalf} (hw : Within key iv first all h) {hdr ct : Bytes} (ht : h.Takes S hdr ct) :
    hdr.length = 5 ∧ ∃ before after, h.rks.st.counter ≤ first + before.length ∧ all = before ++ hdr ++ ct ++ after := by
  obtain ⟨start, h1, hr⟩ := ht
  obtain ⟨before, hb⟩ := hw.suffix
  obtain ⟨rx', -, -, x3⟩ := readRecord_clean S h.rr h.rx h.rks.transcript hw.clean hw.between
  unfold RdHalf.readRecord at hr
  rw [x3] at hr
  have hr := congrArg Prod.fst hr
  simp only at hr
  have hany := readRecord_any S ⟨h.rr, h.rx, h.rks.transcript⟩ hw.good.rr
  rw [x3] at hany
  obtain ⟨f1, f2, f3, f4, f5, f6, f7, f8, f9⟩ := hany
  simp only at f8
  have hp : h.rr.pending = 0 := by
    rcases hw.between.pending with hp | hp
    · exact hp
    · rw [hp] at hr
      unfold pureRead at hr
      simp at hr
  obtain ⟨hb', payload, hd, st, w1, w2, w3, w4, w5, -⟩ := f8 hp _ hr
  obtain ⟨y1, y2, -⟩ := (serverRecordDecode_ok S hd st payload _ _ (congrArg Prod.fst w5)).1 _ _ _ rfl
  have := RecordHeader.decode_data hb' hd w2
  rw [y1, y2, this]
  refine ⟨w1, before, rx'.bytes, ?_, ?_⟩
  · have := hw.number
    rw [← hb, List.length_append] at this
    omega
  rw [← hb, w4]
  simp

theorem Within.app {key iv all : Bytes} {first : Nat} {h h' : RdHalf} (hol : S.OpenLength) (hw : Within key iv first all h)
    {r : Res TlsError Unit} (hr : RdHalf.readApplicationData S h = (r, h')) (hp : r ≠ .panic) : Within key iv first all h' := by
  have hout := readApp_outcome S hol hw.good hr
  have hst : h'.rks.st.key = key ∧ h'.rks.st.iv = iv ∧ h'.rks.st.counter < 2 ^ 64 ∧ h'.Good ∧
      (h'.rks.st.counter = h.rks.st.counter ∨ h'.rks.st.counter = h.rks.st.counter + 1 ∧ r = .ok ()) := by
    have k1 := hw.key
    have k2 := hw.iv
    have k3 := hw.counter
    cases hout with
    | data _ hdr ct pt content start ho hs hst hc hopen hdec hu hg hsz ht => rw [hst]; exact ⟨k1, k2, hc, hg, .inr ⟨rfl, rfl⟩⟩
    | tickets _ hdr ct pt content ho hs hst hc hopen hdec hg hsz ht => rw [hst]; exact ⟨k1, k2, hc, hg, .inr ⟨rfl, rfl⟩⟩
    | plainTicket _ hst hopen hdec hg hsz => rw [hst]; exact ⟨k1, k2, k3, hg, .inl rfl⟩
    | error _ e hst hdec hopen hg hsz => rw [hst]; exact ⟨k1, k2, k3, hg, .inl rfl⟩
    | closed _ hst hdec hopen hg hsz => rw [hst]; exact ⟨k1, k2, k3, hg, .inl rfl⟩
    | panic => exact absurd rfl hp
  obtain ⟨rx', x1, x2, x3⟩ := readRecord_clean S h.rr h.rx h.rks.transcript hw.clean hw.between
  obtain ⟨b1, b2⟩ := pureRead_between S h.rr h.rx.bytes h.rks.transcript hw.between
  have key : h'.rx = rx' ∧ h'.rr.pending = (pureRead S h.rr h.rx.bytes h.rks.transcript).2.1.pending ∧
      (r = .ok () → rx'.bytes.length + 5 ≤ h.rx.bytes.length) := by
    have hread : RdHalf.readRecord S h = ((pureRead S h.rr h.rx.bytes h.rks.transcript).1,
        { h with rr := (pureRead S h.rr h.rx.bytes h.rks.transcript).2.1, rx := rx',
                 rks := { h.rks with transcript := (pureRead S h.rr h.rx.bytes h.rks.transcript).2.2.2 } }) := by
      unfold RdHalf.readRecord
      rw [x3]
    unfold RdHalf.readApplicationData at hr
    cases hx : (pureRead S h.rr h.rx.bytes h.rks.transcript).1 with
    | ok rec =>
      rw [hx] at hread
      rw [M.bind_ok hread] at hr
      have hh : _ = h' := congrArg Prod.snd hr
      rw [← hh]
      exact ⟨rfl, rfl, fun _ => by rw [x2]; exact b2 rec hx⟩
    | err e =>
      rw [hx] at hread
      rw [M.bind_err hread] at hr
      have hh : _ = h' := congrArg Prod.snd hr
      rw [← hh]
      exact ⟨rfl, rfl, fun hk => by rw [hk] at hr; cases congrArg Prod.fst hr⟩
    | panic =>
      rw [hx] at hread
      rw [M.bind_panic hread] at hr
      exact absurd (congrArg Prod.fst hr).symm hp
  have hinv := hst.2.2.2.1.rr
  have hsuf := pureRead_suffix S h.rr h.rx.bytes h.rks.transcript
  unfold RR.Inv at hinv
  refine ⟨by rw [key.1]; exact x1, ⟨by omega, ?_⟩, ?_, hst.1, hst.2.1, hst.2.2.1, ?_, hst.2.2.2.1⟩
  · rw [key.1, key.2.1, x2]
    exact b1.pending
  · rw [key.1, x2]
    exact hsuf.trans hw.suffix
  · have hn := hw.number
    have hl := hsuf.length_le
    rw [← x2] at hl
    rw [key.1]
    rcases hst.2.2.2.2 with e | ⟨e, hk⟩
    · omega
    · have := key.2.2 hk
      omega

theorem Within.steps {key iv all : Bytes} {first : Nat} {h h' : RdHalf} (hol : S.OpenLength) (hs : RdSteps S h h') (hw : Within key iv first all h) :
    Within key iv first all h' := by
  induction hs with
  | refl h => exact hw
  | step h h1 h2 hu hr hs ih => exact ih (hw.app S hol hr (by simp))

theorem Within.run {key iv all : Bytes} {first : Nat} (hol : S.OpenLength) (ops : List ROp) : ∀ {h : RdHalf}, Within key iv first all h →
    (∀ r ∈ (runReads S ops h).1, r ≠ .panic) → Within key iv first all (runReads S ops h).2 := by
  induction ops with
  | nil => intro h hw _; exact hw
  | cons op ops ih =>
    intro h hw hnp
    have hcases := ROp.run_cases S hol op h hw.good
    unfold runReads at hnp ⊢
    rcases hr : op.run S h with ⟨x, h1⟩
    rw [hr] at hnp hcases
    have h1w : x ≠ .panic → Within key iv first all h1 := by
      intro hx
      simp only at hcases
      cases hcases with
      | nothing hop => exact hw
      | notOpen hf ho => exact hw
      | panic => exact absurd rfl hx
      | err hf h2 _ e hs hu hr' ho => exact (hw.steps S hol hs).app S hol hr' (by simp)
      | ok h2 hs hg hu hop hc hopen =>
        have w := hw.steps S hol hs
        exact ⟨w.clean, w.between, w.suffix, w.key, w.iv, w.counter, w.number, h2.eat_good _ hg (borrow_le _ _ _)⟩
    cases x with
    | panic => simp at hnp
    | ok o => exact ih (h1w (by simp)) (fun r hr' => hnp r (by simp [hr']))
    | err e => exact ih (h1w (by simp)) (fun r hr' => hnp r (by simp [hr']))

/-- Over a transport without errors, it is enough that nothing in the received bytes is a forgery. -/
theorem unforged_of_bytes (hol : S.OpenLength) {peer : List Fragment} (ops : List ROp) {h : RdHalf} (hg : h.Good)
    (hclean : h.rx.Clean) (hbt : h.rr.Between h.rx.bytes) (hc : h.rks.st.counter < 2 ^ 64)
    (hf : Spec.NoForgeryIn S h.rks.st.key h.rks.st.iv peer h.rks.st.counter h.rx.bytes) : Unforged S peer ops h := by
  intro i h1 hnp hs hdr ct p ht ho
  have hw : Within h.rks.st.key h.rks.st.iv h.rks.st.counter h.rx.bytes h :=
    ⟨hclean, hbt, List.suffix_refl _, rfl, rfl, hc, Nat.le_refl _, hg⟩
  have w := (hw.run S hol (ops.take i) hnp).steps S hol hs
  obtain ⟨h5, before, after, hn, hb⟩ := w.takes S ht
  rw [w.key, w.iv] at ho
  exact hf _ before hdr ct after p w.counter hn hb h5 ho

/-- `open` leaves a transport without errors. -/
theorem open_clean {V : Type} (cfg : Config) (p : Provider V) (v : V) {rx : Rx} {tx : Tx} {rb wb : Bytes} {c : Conn}
    (hn : Conn.new S rx tx rb wb = .ok c) (hclean : rx.Clean) : (Conn.open_ S cfg p v c).2.rx.Clean := by
  obtain ⟨-, hrx, -⟩ := Conn.new_fresh S hn
  have hcl : c.rx.Clean := by rw [hrx]; exact hclean
  have hbt : c.rr.Between c.rx.bytes := by
    have : c.rr = RR.new rb := by
      unfold Conn.new at hn
      cases hw : WB.new wb <;> rw [hw] at hn <;> simp only [Res.map, Res.ok.injEq, reduceCtorEq] at hn
      subst hn
      rfl
    rw [this]
    exact ⟨Nat.zero_le _, .inl rfl⟩
  exact (twin_open S cfg p v c c ⟨rfl, hcl, hcl, rfl, hbt⟩).2.clean

/-- **C21, from the received bytes** A whole connection over a transport without errors.  `peer` are the fragments that the
server protects with its application key.  If no part of what the client receives after the handshake is a forgery, then
what the application is given is a prefix of the server's application data. -/
theorem C21_stream {V : Type} (hS : S.Lawful) (cfg : Config) (p : Provider V) (v : V) {rx : Rx} {tx : Tx} {rb wb : Bytes}
    {c c' : Conn} (hn : Conn.new S rx tx rb wb = .ok c) (hclean : rx.Clean) (h : Conn.open_ S cfg p v c = (.ok (), c'))
    (peer : List Fragment) (htypes : ∀ f ∈ peer, f.type ≠ 0)
    (hf : Spec.NoForgeryIn S c'.ks.server.st.key c'.ks.server.st.iv peer 0 c'.rx.bytes) (ops : List ROp) :
    delivered (runReads S ops c'.rd).1 <+: dataOf peer := by
  obtain ⟨g1, g2, g3, g4, g5, g6, _⟩ := open_reader S hS cfg p v hn h
  have hc : c'.rd.rks.st.counter = 0 := g6
  refine (C21_whole S hS hS.openLength cfg p v hn h hS.ivLen_eq peer htypes ops ?_).1
  have hinv := g1.rr
  unfold RR.Inv at hinv
  have hcl := open_clean S cfg p v hn hclean
  rw [h] at hcl
  exact unforged_of_bytes S hS.openLength ops g1 hcl ⟨by omega, .inl g3⟩ (by rw [hc]; decide) (by rw [hc]; exact hf)

/-! ## Honest peers -/

/-- The next record of an honest peer opens as its next fragment. -/
theorem Honest.genuine (hS : S.Lawful) {fs : List Fragment} {h : RdHalf} (hh : Honest S fs h) {peer : List Fragment}
    (hp : peer.drop h.rks.st.counter = fs) : Genuine S peer h := by
  intro hdr ct p ht ho
  have hinv := hh.good.rr
  unfold RR.Inv at hinv
  obtain ⟨start, h1, hr⟩ := ht
  obtain ⟨rx', -, -, x3⟩ := readRecord_clean S h.rr h.rx h.rks.transcript hh.clean ⟨by omega, .inl hh.pending⟩
  unfold RdHalf.readRecord at hr
  rw [x3] at hr
  have hr := congrArg Prod.fst hr
  simp only at hr
  cases fs with
  | nil =>
    rw [hh.bytes, Spec.protectAll] at hr
    unfold pureRead at hr
    simp at hr
  | cons f fs =>
    have hfit := hh.fits f List.mem_cons_self
    obtain ⟨hdr', ct', p1, p2, p3, p4, p5⟩ := protect_parts S hS h.rks.st.key h.rks.st.iv h.rks.st.counter f hfit.2
    have hbytes : h.rx.bytes = hdr' ++ (ct' ++ Spec.protectAll S h.rks.st.key h.rks.st.iv (h.rks.st.counter + 1) fs) := by
      rw [hh.bytes, Spec.protectAll, p1, List.append_assoc]
    unfold pureRead at hr
    have ht5 : h.rx.bytes.take 5 = hdr' := by rw [hbytes, ← p2, List.take_left]
    have hd5 : h.rx.bytes.drop 5 = ct' ++ Spec.protectAll S h.rks.st.key h.rks.st.iv (h.rks.st.counter + 1) fs := by
      rw [hbytes, ← p2, List.drop_left]
    rw [if_neg (by rw [hbytes]; simp; omega), ht5, p4] at hr
    simp only at hr
    rw [if_neg (by omega), hd5, if_neg (by simp; omega), ← p3, List.take_left] at hr
    unfold ServerRecord.decode at hr
    rw [if_neg (by simp)] at hr
    injection hr with hr
    injection hr with e1 e2 e3
    rw [← e1, ← e3] at ho
    have e := p5.symm.trans ho
    injection e with e
    refine ⟨f, ?_, e.symm⟩
    have := List.getElem?_drop (xs := peer) (i := h.rks.st.counter) (j := 0)
    rw [hp] at this
    simpa using this.symm

theorem Honest.app (hS : S.Lawful) {peer : List Fragment} {h h' : RdHalf}
    (hh : Honest S (peer.drop h.rks.st.counter) h) (hu : h.unread = []) {r : Res TlsError Unit}
    (hr : RdHalf.readApplicationData S h = (r, h')) : Honest S (peer.drop h'.rks.st.counter) h' := by
  have hout := readApp_outcome S hS.openLength hh.good hr
  cases hfs : peer.drop h.rks.st.counter with
  | nil =>
    rw [hfs] at hh
    obtain ⟨h2, d1, d2, -⟩ := hh.done S hu
    rw [hr] at d1
    simp only [Prod.mk.injEq] at d1
    obtain ⟨rfl, rfl⟩ := d1
    have : h'.rks.st = h.rks.st := by
      cases hout with
      | error _ e hst hdec hopen hg hsz => exact hst
    rw [this, hfs]
    exact d2
  | cons f fs =>
    rw [hfs] at hh
    obtain ⟨h2, d1, d2, -, d4⟩ := hh.step S hS hu
    rw [hr] at d1
    simp only [Prod.mk.injEq] at d1
    obtain ⟨rfl, rfl⟩ := d1
    rw [d4, ← List.drop_drop, hfs]
    exact d2

theorem Honest.steps (hS : S.Lawful) {peer : List Fragment} {h h' : RdHalf} (hs : RdSteps S h h')
    (hh : Honest S (peer.drop h.rks.st.counter) h) : Honest S (peer.drop h'.rks.st.counter) h' := by
  induction hs with
  | refl h => exact hh
  | step h h1 h2 hu hr hs ih => exact ih (hh.app S hS hu hr)

/-- **C21, its hypothesis** If what the transport delivers is the records of the peer, over any chunking, then no record that
the reader takes is forged, for every cipher suite and all reading calls. -/
theorem C21_honest (hS : S.Lawful) (peer : List Fragment) (ops : List ROp) : ∀ {h : RdHalf},
    Honest S (peer.drop h.rks.st.counter) h → Unforged S peer ops h := by
  have run : ∀ (ops : List ROp) {h : RdHalf}, Honest S (peer.drop h.rks.st.counter) h →
      Honest S (peer.drop (runReads S ops h).2.rks.st.counter) (runReads S ops h).2 ∨ ∃ r ∈ (runReads S ops h).1, r = .panic := by
    intro ops
    induction ops with
    | nil => intro h hh; exact .inl hh
    | cons op ops ih =>
      intro h hh
      have hcases := ROp.run_cases S hS.openLength op h hh.good
      unfold runReads
      rcases hr : op.run S h with ⟨x, h1⟩
      rw [hr] at hcases
      have h1w : x ≠ .panic → Honest S (peer.drop h1.rks.st.counter) h1 := by
        intro hx
        simp only at hcases
        cases hcases with
        | nothing hop => exact hh
        | notOpen hf ho => exact hh
        | panic => exact absurd rfl hx
        | err hf h2 _ e hs hu hr' ho => exact (hh.steps S hS hs).app S hS hu hr'
        | ok h2 hs hg hu hop hc hopen => exact (hh.steps S hS hs).eat S _ (borrow_le _ _ _)
      cases x with
      | panic => exact .inr ⟨.panic, by simp, rfl⟩
      | ok o =>
        rcases ih (h1w (by simp)) with g | ⟨r, g1, g2⟩
        · exact .inl g
        · exact .inr ⟨r, by simp [g1], g2⟩
      | err e =>
        rcases ih (h1w (by simp)) with g | ⟨r, g1, g2⟩
        · exact .inl g
        · exact .inr ⟨r, by simp [g1], g2⟩
  intro h hh i h1 hnp hs
  rcases run (ops.take i) hh with g | ⟨r, g1, g2⟩
  · exact (g.steps S hS hs).genuine S hS rfl
  · exact absurd g2 (hnp r g1)

/-! ## Examples -/

/-- `NoForgeryIn`, computed. -/
def noForgery (key iv : Bytes) (peer : List Fragment) (first : Nat) (received : Bytes) : Bool :=
  (List.range (received.length + 1)).all fun b => (List.range (received.length - b - 5 + 1)).all fun l =>
    (List.range (first + b + 1)).all fun n =>
      match S.open_ key (Spec.nonce iv n) ((received.drop b).take 5) ((received.drop (b + 5)).take l) with
      | some p => (peer[n]?.map Fragment.inner) == some p
      | none => true

theorem noForgery_iff {key iv : Bytes} {peer : List Fragment} {first : Nat} {received : Bytes}
    (h : noForgery S key iv peer first received = true) : Spec.NoForgeryIn S key iv peer first received := by
  intro n before hdr ct after p _ hn hb h5 ho
  unfold noForgery at h
  rw [List.all_eq_true] at h
  have hl := congrArg List.length hb
  simp only [List.length_append] at hl
  have h1 := h before.length (List.mem_range.mpr (by omega))
  rw [List.all_eq_true] at h1
  have h2 := h1 ct.length (List.mem_range.mpr (by omega))
  rw [List.all_eq_true] at h2
  have h3 := h2 n (List.mem_range.mpr (by omega))
  have e1 : (received.drop before.length).take 5 = hdr := by
    rw [hb, List.append_assoc, List.append_assoc, List.drop_left, ← h5, List.take_left]
  have e2 : (received.drop (before.length + 5)).take ct.length = ct := by
    rw [← List.drop_drop, hb, List.append_assoc, List.append_assoc, List.drop_left, ← h5, List.drop_left, List.take_left]
  rw [e1, e2, ho] at h3
  simp only [beq_iff_eq, Option.map_eq_some_iff] at h3
  obtain ⟨f, g1, g2⟩ := h3
  exact ⟨f, g1, g2.symm⟩

set_option maxRecDepth 20000 in
-- C21_stream: the attacker puts a record of noise before the server's record, and the hypothesis holds
example :
    let rx : Rx := [.data ([23, 3, 3, 0, 1, 9] ++ exApp 0 ⟨23, [7], 0⟩)]
    (exOpened [] rx).1 = .ok () ∧
    Spec.NoForgeryIn toySuite (exOpened [] rx).2.ks.server.st.key (exOpened [] rx).2.ks.server.st.iv [⟨23, [7], 0⟩] 0
      (exOpened [] rx).2.rx.bytes ∧
    delivered (runReads toySuite [.read 1, .read 1] (exOpened [] rx).2.rd).1 = [7] := by
  intro rx
  refine ⟨by decide +kernel, ?_, by decide +kernel⟩
  have e1 : (exOpened [] rx).2.ks.server.st.key = [45, 200, 106, 0, 0, 0, 0, 0, 0, 0, 0, 0, 0, 0, 0, 0] := by
    decide +kernel
  have e2 : (exOpened [] rx).2.ks.server.st.iv = [44, 41, 33, 0, 0, 0, 0, 0, 0, 0, 0, 0] := by decide +kernel
  have e3 : (exOpened [] rx).2.rx.bytes = [23, 3, 3, 0, 1, 9, 23, 3, 3, 0, 18, 82, 66, 35, 37, 95, 0, 0, 0, 0, 0, 0, 0, 0,
      0, 0, 0, 0, 0] := by decide +kernel
  rw [e1, e2, e3]
  exact noForgery_iff _ (by decide +kernel)

-- C21_honest: data, an empty record, a ticket, data
example (ops : List ROp) : Unforged toySuite exFragments ops exHonest :=
  C21_honest toySuite toySuite_lawful exFragments ops exHonest_honest

end ETls
