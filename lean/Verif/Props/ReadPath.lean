import Verif.Proofs.ReadPath
import Verif.Props.Close

/-! # The reading half over any transport: C21, C22, C24, C25, C26, C27, C28, C29, C30 -/

namespace ETls

variable (S : Suite)

open Spec (Fragment)

/-! ## C27 -/

/-- **C27** Zero padding is removed exactly, whatever the content (zeros at its end included). -/
theorem C27_padding (content : Bytes) (t : UInt8) (ht : t ≠ 0) (k : Nat) :
    stripPadding (content ++ [t] ++ List.replicate k 0) = content ++ [t] := by
  unfold stripPadding
  have h1 : (content ++ [t] ++ List.replicate k 0).reverse.dropWhile (· == 0) = t :: content.reverse := by
    rw [List.reverse_append, List.reverse_replicate, List.dropWhile_append]
    have h2 : (List.replicate k (0 : UInt8)).dropWhile (· == 0) = [] := by
      clear ht
      induction k with
      | zero => rfl
      | succ k ih => simp [List.replicate_succ]
    rw [h2]
    simp [ht]
  rw [h1]
  simp

/-- **C27** A protected record is dispatched with exactly its content, on exactly its content type, whatever the
padding; an inner plaintext of zeros only is refused.  (Types other than handshake, application data and alert are
refused as well.)  The empty inner plaintext is missing, see `C27_refuted`. -/
theorem C27_dispatch_partial {τ : Type} (cb : ServerRecord → M TlsError (ReadKS × τ) Unit) (hdr : Bytes) (start : Nat)
    (s : ReadKS × τ) :
    (∀ (content : Bytes) (k : Nat), dispatchInner S cb hdr start (Fragment.inner ⟨23, content, k⟩) s =
      cb (.appData hdr start content) s) ∧
    (∀ (content : Bytes) (k : Nat), dispatchInner S cb hdr start (Fragment.inner ⟨22, content, k⟩) s =
      handshakeLoop S cb (content.length + 1) (PB.new content) s) ∧
    (∀ (content : Bytes) (k : Nat) (a : Alert), (Alert.parse (PB.new content)).1 = .ok a →
      dispatchInner S cb hdr start (Fragment.inner ⟨21, content, k⟩) s = cb (.alert a) s) ∧
    (∀ (content : Bytes) (k : Nat) (t : UInt8), t ≠ 0 → t ≠ 21 → t ≠ 22 → t ≠ 23 →
      ∃ e, dispatchInner S cb hdr start (Fragment.inner ⟨t, content, k⟩) s = (.err e, s)) ∧
    (∀ n, 0 < n → dispatchInner S cb hdr start (List.replicate n 0) s = (.err .unimplemented, s)) := by
  have key : ∀ (content : Bytes) (k : Nat) (t : UInt8), t ≠ 0 →
      dispatchInner S cb hdr start (Fragment.inner ⟨t, content, k⟩) =
        (match ContentType.of t.toNat with
          | none => M.fail .invalidRecord
          | some .handshake => handshakeLoop S cb (content.length + 1) (PB.new content)
          | some .applicationData => cb (.appData hdr start content)
          | some .alert => do
            let a ← M.lift (Alert.parse (PB.new content)).1
            cb (.alert a)
          | some _ => M.fail .unimplemented : M TlsError (ReadKS × τ) Unit) := by
    intro content k t ht
    unfold dispatchInner Fragment.inner
    simp only [C27_padding content t ht k]
    simp only [List.getLast?_append, List.getLast?_singleton, Option.some_or, List.dropLast_concat]
    rcases ContentType.of t.toNat with _ | ct
    · rfl
    · cases ct <;> rfl
  refine ⟨fun c k => ?_, fun c k => ?_, fun c k a ha => ?_, fun c k t h0 h1 h2 h3 => ?_, fun n hn => ?_⟩
  · rw [key c k 23 (by decide)]; rfl
  · rw [key c k 22 (by decide)]; rfl
  · rw [key c k 21 (by decide)]
    show (do let a ← M.lift (Alert.parse (PB.new c)).1; cb (.alert a) : M TlsError (ReadKS × τ) Unit) s = _
    rw [ha, M.lift_ok_bind]
  · rw [key c k t h0]
    have n0 : t.toNat ≠ 0 := fun h => h0 (UInt8.toNat.inj h)
    have n1 : t.toNat ≠ 21 := fun h => h1 (UInt8.toNat.inj h)
    have n2 : t.toNat ≠ 22 := fun h => h2 (UInt8.toNat.inj h)
    have n3 : t.toNat ≠ 23 := fun h => h3 (UInt8.toNat.inj h)
    unfold ContentType.of
    split <;> first | exact ⟨_, rfl⟩ | (exfalso; omega)
  · have h1 : stripPadding (List.replicate n 0) = List.replicate n 0 := by
      unfold stripPadding
      have : (List.replicate n (0 : UInt8)).reverse.dropWhile (· == 0) = [] := by
        rw [List.reverse_replicate]
        clear hn
        induction n with
        | zero => rfl
        | succ k ih => simp [List.replicate_succ]
      rw [this]
    unfold dispatchInner
    rw [h1]
    obtain ⟨m, rfl⟩ : ∃ m, n = m + 1 := ⟨n - 1, by omega⟩
    rw [List.replicate_succ', List.getLast?_append, List.getLast?_singleton]
    rfl

/-- The empty clause of C27 fails: an empty inner plaintext is not rejected with an error, it panics
(`connection.rs:61` `unwrap!(app_data.last())`). -/
theorem C27_refuted {τ : Type} (cb : ServerRecord → M TlsError (ReadKS × τ) Unit) (hdr : Bytes) (start : Nat)
    (s : ReadKS × τ) : dispatchInner S cb hdr start [] s = (.panic, s) := rfl

example : stripPadding [1, 0, 0, 23, 0, 0, 0] = [1, 0, 0, 23] := by decide

/-! ## C26 -/

/-- **C26** A protected record that does not authenticate: nothing of the reading half changes, and the error is a
crypto error. -/
theorem C26_decrypt (h : RdHalf) (hdr ct : Bytes) (start : Nat)
    (ho : S.open_ h.rks.st.key (h.rks.st.nonce S) hdr ct = none) :
    RdHalf.decrypt S (.appData hdr start ct) h = (.err .cryptoError, h) := by
  unfold RdHalf.decrypt decryptRecord
  simp only [ho]

theorem decode_appData_tr (hd : RecordHeader) (start : Nat) (data tr : Bytes) (rec : ServerRecord)
    (hr : (ServerRecord.decode S hd start data tr).1 = .ok rec) (hrec : ∃ a b c, rec = .appData a b c) :
    (ServerRecord.decode S hd start data tr).2 = tr := by
  obtain ⟨a, b, c, rfl⟩ := hrec
  have := ((serverRecordDecode_ok S hd start data tr _ hr).1 a b c rfl).2.2
  unfold ServerRecord.decode
  split
  · rfl
  · rw [this]; rfl

/-- **C26** On a call: the call returns a crypto error and delivers nothing; the keys, the sequence number, the
transcript, the open flag and the (empty) unread data are as before. -/
theorem C26_call (op : ROp) (hop : op.Fills) (h h1 : RdHalf) (hg : h.Good) (hopen : h.opened = true)
    (hu : h.unread = []) (hdr ct : Bytes) (start : Nat)
    (hr : RdHalf.readRecord S h = (.ok (.appData hdr start ct), h1))
    (ho : S.open_ h.rks.st.key (h.rks.st.nonce S) hdr ct = none) :
    op.run S h = (.err .cryptoError, h1) ∧ h1.rks.st = h.rks.st ∧ h1.opened = true ∧ h1.dec = h.dec ∧
      h1.unread = [] := by
  have hfr : h1.rks.st = h.rks.st ∧ h1.opened = h.opened ∧ h1.dec = h.dec := by
    unfold RdHalf.readRecord at hr
    injection hr with _ hr
    rw [← hr]
    exact ⟨rfl, rfl, rfl⟩
  obtain ⟨f1, f2, f3⟩ := hfr
  have hd : RdHalf.decrypt S (.appData hdr start ct) h1 = (.err .cryptoError, h1) :=
    C26_decrypt S h1 hdr ct start (by rw [f1]; exact ho)
  have hra : RdHalf.readApplicationData S h = (.err .cryptoError, h1) := by
    unfold RdHalf.readApplicationData
    rw [M.bind_ok hr, hd]
  have hf : RdHalf.fill S h = (.err .cryptoError, h1) := by
    unfold RdHalf.fill
    rw [M.get_bind, if_pos hopen]
    unfold RdHalf.fillLoop
    rw [M.get_bind, if_pos ((h.isEmpty_iff hg).2 hu), M.bind_err hra]
  refine ⟨?_, f1, f2.trans hopen, f3, ?_⟩
  · rw [op.run_fills S hop, M.bind_err hf]
  · have hl := h.unread_length hg
    rw [hu] at hl
    unfold RdHalf.unread
    rw [f3, ← hl]
    simp

/-! ## C22 -/

theorem fillLoop_nonempty (fuel : Nat) : ∀ h h' : RdHalf, RdHalf.fillLoop S fuel h = (.ok (), h') →
    h'.dec.isEmpty = false := by
  induction fuel with
  | zero => intro h h' hr; simp [RdHalf.fillLoop] at hr
  | succ fuel ih =>
    intro h h' hr
    unfold RdHalf.fillLoop at hr
    rw [M.get_bind] at hr
    by_cases he : h.dec.isEmpty = true
    · rw [if_pos he] at hr
      rcases hx : RdHalf.readApplicationData S h with ⟨r, h1⟩
      cases r with
      | ok u => rw [M.bind_ok hx] at hr; exact ih h1 h' hr
      | err e => rw [M.bind_err hx] at hr; cases hr
      | panic => rw [M.bind_panic hx] at hr; cases hr
    · rw [if_neg he] at hr
      injection hr with _ hr
      rw [← hr]
      simpa using he

/-- **C22** `read` into a non-empty buffer never returns `Ok(0)` and never more than fits. -/
theorem C22_read (n : Nat) (hn : 0 < n) (h h' : RdHalf) (bs : Bytes) (hr : RdHalf.read S n h = (.ok bs, h')) :
    0 < bs.length ∧ bs.length ≤ n := by
  unfold RdHalf.read at hr
  rw [if_neg (by omega)] at hr
  rcases hf : RdHalf.fill S h with ⟨r, h1⟩
  cases r with
  | err e => rw [M.bind_err hf] at hr; cases hr
  | panic => rw [M.bind_panic hf] at hr; cases hr
  | ok u =>
    rw [M.bind_ok hf] at hr
    have hne : h1.dec.isEmpty = false := by
      unfold RdHalf.fill at hf
      rw [M.get_bind] at hf
      split at hf
      · exact fillLoop_nonempty S _ _ _ hf
      · cases hf
    simp only [DecInfo.isEmpty, beq_eq_false_iff_ne] at hne
    by_cases hb : h1.dec.offset + h1.dec.consumed ≤ h1.dec.offset + h1.dec.len ∧
        h1.dec.offset + h1.dec.len ≤ h1.rr.buf.length
    · have ha : RdHalf.available h1 = (.ok ((h1.rr.buf.drop (h1.dec.offset + h1.dec.consumed)).take
          (h1.dec.offset + h1.dec.len - (h1.dec.offset + h1.dec.consumed))), h1) := by
        unfold RdHalf.available
        simp only
        rw [if_pos hb]
      rw [M.bind_ok ha] at hr
      unfold RdHalf.consumed at hr
      rw [M.modify_bind] at hr
      injection hr with hr _
      injection hr with hr
      rw [← hr]
      simp only [List.length_take, List.length_drop]
      omega
    · have ha : RdHalf.available h1 = (.panic, h1) := by
        unfold RdHalf.available
        simp only
        rw [if_neg hb]
      rw [M.bind_panic ha] at hr
      cases hr

/-- **C22** `read` into an empty buffer returns `Ok(0)` and does nothing at all. -/
theorem C22_empty (h : RdHalf) : RdHalf.read S 0 h = (.ok [], h) := rfl

/-- The model has two descriptions of `read`, `fill_buf` and `consume`; they agree. -/
theorem read_agree (n : Nat) (h : RdHalf) (hol : S.OpenLength) (hg : h.Good) :
    RdHalf.read S n h = ((ROp.run S (.read n) h).1.map ROut.taken, (ROp.run S (.read n) h).2) := by
  by_cases hn : n = 0
  · subst hn; rfl
  · unfold RdHalf.read
    simp only [ROp.run]
    rw [if_neg hn, if_neg hn]
    rcases hf : RdHalf.fill S h with ⟨r, h1⟩
    cases r with
    | err e => rw [M.bind_err hf, M.bind_err hf]; rfl
    | panic => rw [M.bind_panic hf, M.bind_panic hf]; rfl
    | ok u =>
      rw [M.bind_ok hf, M.bind_ok hf]
      have hg1 : h1.Good := by
        cases ho : h.opened with
        | false => rw [fill_closed S h ho] at hf; cases hf
        | true =>
          have hc := fill_cases S hol h hg ho
          rw [hf] at hc
          cases hc with
          | ok _ hs hu => exact (hs.facts S hol hg).1
      rw [M.bind_ok (h1.available_run hg1), h1.useBuffer_run _ _ hg1]
      unfold RdHalf.consumed
      rw [M.modify_bind]
      simp only [M.pure_apply, Res.map, List.map_cons, List.map_nil, RBufOp.call, Spec.borrow, Spec.calls,
        Bool.false_eq_true, if_false, reduceCtorEq, Nat.add_zero, RdHalf.eat, Prod.mk.injEq, Res.ok.injEq]
      have : min n h1.unread.length = min h1.unread.length n := Nat.min_comm _ _
      rw [this]
      refine ⟨rfl, ?_⟩
      simp

theorem fillBuf_agree (h : RdHalf) (hol : S.OpenLength) (hg : h.Good) :
    RdHalf.fillBuf S h = ((ROp.run S .fillBuf h).1.map ROut.shown, (ROp.run S .fillBuf h).2) := by
  unfold RdHalf.fillBuf
  simp only [ROp.run]
  rcases hf : RdHalf.fill S h with ⟨r, h1⟩
  cases r with
  | err e => rw [M.bind_err hf, M.bind_err hf]; rfl
  | panic => rw [M.bind_panic hf, M.bind_panic hf]; rfl
  | ok u =>
    rw [M.bind_ok hf, M.bind_ok hf]
    have hg1 : h1.Good := by
      cases ho : h.opened with
      | false => rw [fill_closed S h ho] at hf; cases hf
      | true =>
        have hc := fill_cases S hol h hg ho
        rw [hf] at hc
        cases hc with
        | ok _ hs hu => exact (hs.facts S hol hg).1
    rw [h1.available_run hg1, h1.useBuffer_run _ _ hg1]
    simp [Res.map, RBufOp.call, Spec.borrow, Spec.calls, RdHalf.eat]

theorem consume_agree (n : Nat) (h : RdHalf) (hg : h.Good) :
    RdHalf.consume n h = ((ROp.run S (.consume n) h).1.map fun _ => (), (ROp.run S (.consume n) h).2) := by
  unfold RdHalf.consume
  simp only [ROp.run]
  rw [M.bind_ok (h.available_run hg), h.useBuffer_run _ _ hg]
  unfold RdHalf.consumed
  simp [Res.map, RBufOp.call, Spec.borrow, Spec.calls, RdHalf.eat, Nat.min_comm]

/-! ## C21 -/

/-- The application data of a list of fragments. -/
def dataOf (fs : List Fragment) : Bytes := fs.flatMap Fragment.appData

/-- No forgery at this point: if the record that the reader takes next opens under the reading key, then as the inner plaintext
of the fragment that the peer protected with that key under the same record number. -/
def Genuine (peer : List Fragment) (h : RdHalf) : Prop :=
  ∀ hdr ct p, h.Takes S hdr ct → S.open_ h.rks.st.key (Spec.nonce h.rks.st.iv h.rks.st.counter) hdr ct = some p →
    ∃ f, peer[h.rks.st.counter]? = some f ∧ p = f.inner

/-- No forgery among the records that are taken during a history of reading calls.  Only about these records: other
ciphertexts that open exist for every AEAD, and anybody who knows the key can make them. -/
def Unforged (peer : List Fragment) (ops : List ROp) (h : RdHalf) : Prop :=
  ∀ i h1, (∀ r ∈ (runReads S (ops.take i) h).1, r ≠ .panic) → RdSteps S (runReads S (ops.take i) h).2 h1 → Genuine S peer h1

theorem Unforged.here {peer : List Fragment} {ops : List ROp} {h h1 : RdHalf} (hu : Unforged S peer ops h)
    (hs : RdSteps S h h1) : Genuine S peer h1 := by
  refine hu 0 h1 (by simp [runReads]) ?_
  simpa [runReads] using hs

theorem Unforged.next {peer : List Fragment} {op : ROp} {ops : List ROp} {h h1 : RdHalf} {r : Res TlsError ROut}
    (hu : Unforged S peer (op :: ops) h) (hr : op.run S h = (r, h1)) (hp : r ≠ .panic) : Unforged S peer ops h1 := by
  intro i h2 hnp hs
  have key : (∀ r' ∈ (runReads S (op :: ops.take i) h).1, r' ≠ .panic) ∧ RdSteps S (runReads S (op :: ops.take i) h).2 h2 := by
    unfold runReads
    rw [hr]
    cases r with
    | panic => exact absurd rfl hp
    | ok o => exact ⟨by simpa using hnp, hs⟩
    | err e => exact ⟨by simpa using hnp, hs⟩
  exact hu (i + 1) h2 key.1 key.2

/-- The invariant: what has been taken and what is still unread make up the application data of the fragments
counted so far. -/
structure Tracks (peer : List Fragment) (c0 : Nat) (key iv taken : Bytes) (h : RdHalf) : Prop where
  good : h.Good
  key : h.rks.st.key = key
  iv : h.rks.st.iv = iv
  low : c0 ≤ h.rks.st.counter
  high : h.rks.st.counter < 2 ^ 64
  data : taken ++ h.unread = dataOf ((peer.take h.rks.st.counter).drop c0)

theorem dataOf_succ (peer : List Fragment) (c0 c : Nat) (f : Fragment) (hf : peer[c]? = some f) (hc : c0 ≤ c) :
    dataOf ((peer.take (c + 1)).drop c0) = dataOf ((peer.take c).drop c0) ++ f.appData := by
  have hlt : c < peer.length := by
    rw [List.getElem?_eq_some_iff] at hf
    exact hf.1
  rw [List.take_add_one, hf]
  simp only [Option.toList]
  rw [List.drop_append_of_le_length (by simp; omega)]
  simp [dataOf]

theorem unread_same (h h' : RdHalf) (hg : h.Good) (hu : h.unread = []) (hd : h'.dec = h.dec) : h'.unread = [] := by
  have hl := h.unread_length hg
  rw [hu] at hl
  unfold RdHalf.unread
  rw [hd, ← hl]
  simp

theorem nonce_eq (h12 : S.ivLen = 12) (k : KsState) (hiv : k.iv.length = S.ivLen) :
    k.nonce S = Spec.nonce k.iv k.counter := by
  unfold KsState.nonce getNonce Spec.nonce
  rw [hiv, h12]
  rfl

theorem Tracks.step (hol : S.OpenLength) (h12 : S.ivLen = 12) {peer : List Fragment}
    (htypes : ∀ f ∈ peer, f.type ≠ 0) {c0 : Nat} {key iv taken : Bytes} (hivl : iv.length = S.ivLen)
    {h h' : RdHalf} (ha : Genuine S peer h) (ht : Tracks peer c0 key iv taken h) (hu : h.unread = [])
    (hr : RdHalf.readApplicationData S h = (.ok (), h')) : Tracks peer c0 key iv taken h' := by
  have hn : h.rks.st.nonce S = Spec.nonce iv h.rks.st.counter := by
    rw [nonce_eq S h12 _ (by rw [ht.iv]; exact hivl), ht.iv]
  have hd := ht.data
  rw [hu, List.append_nil] at hd
  cases readApp_outcome S hol ht.good hr with
  | data _ hdr ct pt content start ho hs hst hc hopen hdec hu' hg hsz htk =>
    rw [hn, ← ht.iv] at ho
    obtain ⟨f, hf, rfl⟩ := ha _ _ _ htk ho
    have hf0 := htypes f (List.mem_of_getElem? hf)
    have hs' := C27_padding f.content f.type hf0 f.padding
    rw [show f.content ++ [f.type] ++ List.replicate f.padding 0 = f.inner from rfl, hs] at hs'
    obtain ⟨e1, e2⟩ := List.append_inj' hs' rfl
    refine ⟨hg, by rw [hst]; exact ht.key, by rw [hst]; exact ht.iv, by rw [hst]; exact Nat.le_succ_of_le ht.low,
      by rw [hst]; exact hc, ?_⟩
    rw [hst, dataOf_succ peer c0 _ f hf ht.low, ← hd, hu']
    injection e2 with e2
    simp [Fragment.appData, ← e2, e1]
  | tickets _ hdr ct pt content ho hs hst hc hopen hdec hg hsz htk =>
    rw [hn, ← ht.iv] at ho
    obtain ⟨f, hf, rfl⟩ := ha _ _ _ htk ho
    have hf0 := htypes f (List.mem_of_getElem? hf)
    have hs' := C27_padding f.content f.type hf0 f.padding
    rw [show f.content ++ [f.type] ++ List.replicate f.padding 0 = f.inner from rfl, hs] at hs'
    obtain ⟨e1, e2⟩ := List.append_inj' hs' rfl
    refine ⟨hg, by rw [hst]; exact ht.key, by rw [hst]; exact ht.iv, by rw [hst]; exact Nat.le_succ_of_le ht.low,
      by rw [hst]; exact hc, ?_⟩
    rw [hst, dataOf_succ peer c0 _ f hf ht.low, ← hd, unread_same h h' ht.good hu hdec]
    injection e2 with e2
    simp [Fragment.appData, ← e2]
  | plainTicket _ hst hopen hdec hg hsz =>
    exact ⟨hg, by rw [hst]; exact ht.key, by rw [hst]; exact ht.iv, by rw [hst]; exact ht.low,
      by rw [hst]; exact ht.high, by rw [hst, unread_same h h' ht.good hu hdec, ← hd, List.append_nil]⟩

theorem Tracks.steps (hol : S.OpenLength) (h12 : S.ivLen = 12) {peer : List Fragment}
    (htypes : ∀ f ∈ peer, f.type ≠ 0) {c0 : Nat} {key iv taken : Bytes} (hivl : iv.length = S.ivLen)
    {h h' : RdHalf} (ha : ∀ h1, RdSteps S h h1 → Genuine S peer h1) (hs : RdSteps S h h') (ht : Tracks peer c0 key iv taken h) :
    Tracks peer c0 key iv taken h' := by
  induction hs with
  | refl h => exact ht
  | step h h1 h2 hu hr hs ih =>
    exact ih (fun h3 h4 => ha h3 (.step h h1 h3 hu hr h4)) (ht.step S hol h12 htypes hivl (ha h (.refl h)) hu hr)

theorem Tracks.failed (hol : S.OpenLength) {peer : List Fragment} {c0 : Nat} {key iv taken : Bytes} {h h' : RdHalf}
    {e : TlsError} (ht : Tracks peer c0 key iv taken h) (hu : h.unread = [])
    (hr : RdHalf.readApplicationData S h = (.err e, h')) : Tracks peer c0 key iv taken h' := by
  have hd := ht.data
  rw [hu, List.append_nil] at hd
  have : h'.rks.st = h.rks.st ∧ h'.dec = h.dec ∧ h'.Good := by
    cases readApp_outcome S hol ht.good hr with
    | error _ _ hst hdec hopen hg hsz => exact ⟨hst, hdec, hg⟩
    | closed _ hst hdec hopen hg hsz => exact ⟨hst, hdec, hg⟩
  obtain ⟨hst, hdec, hg⟩ := this
  exact ⟨hg, by rw [hst]; exact ht.key, by rw [hst]; exact ht.iv, by rw [hst]; exact ht.low,
    by rw [hst]; exact ht.high, by rw [hst, unread_same h h' ht.good hu hdec, ← hd, List.append_nil]⟩

/-- What a result hands over as consumed. -/
def takenOf : Res TlsError ROut → Bytes
  | .ok o => o.taken
  | _ => []

/-- What a history of results has handed over, in order. -/
def delivered (rs : List (Res TlsError ROut)) : Bytes := (rs.map takenOf).flatten

theorem Tracks.prefix {peer : List Fragment} {c0 : Nat} {key iv taken : Bytes} {h : RdHalf}
    (ht : Tracks peer c0 key iv taken h) : taken ++ h.unread <+: dataOf (peer.drop c0) := by
  rw [ht.data]
  have : (peer.take h.rks.st.counter).drop c0 <+: peer.drop c0 := by
    rw [List.drop_take]
    exact List.take_prefix _ _
  obtain ⟨z, hz⟩ := this
  rw [← hz]
  simp [dataOf]

theorem C21_run (hol : S.OpenLength) (h12 : S.ivLen = 12) (peer : List Fragment)
    (htypes : ∀ f ∈ peer, f.type ≠ 0) (c0 : Nat) (key iv : Bytes) (hivl : iv.length = S.ivLen)
    (ops : List ROp) : ∀ (taken : Bytes) (h : RdHalf), Unforged S peer ops h → Tracks peer c0 key iv taken h →
    taken ++ delivered (runReads S ops h).1 <+: dataOf (peer.drop c0) ∧
    ∀ i o, (runReads S ops h).1[i]? = some (.ok o) →
      taken ++ (delivered ((runReads S ops h).1.take i) ++ o.shown) <+: dataOf (peer.drop c0) := by
  induction ops with
  | nil =>
    intro taken h _ ht
    simp only [runReads, delivered]
    refine ⟨?_, by simp⟩
    simp only [List.map_nil, List.flatten_nil, List.append_nil]
    exact (List.prefix_append _ _).trans ht.prefix
  | cons op ops ih =>
    intro taken h ha ht
    have hcases := ROp.run_cases S hol op h ht.good
    unfold runReads
    rcases hr : op.run S h with ⟨r, h1⟩
    rw [hr] at hcases
    simp only at hcases
    -- what to show for a result with a given shown part
    have goal : ∀ (t : Bytes), takenOf r = t → r ≠ .panic → Tracks peer c0 key iv (taken ++ t) h1 →
        (∀ o, r = .ok o → taken ++ o.shown <+: dataOf (peer.drop c0)) →
        taken ++ delivered (r :: (runReads S ops h1).1) <+: dataOf (peer.drop c0) ∧
        ∀ i o, (r :: (runReads S ops h1).1)[i]? = some (.ok o) →
          taken ++ (delivered ((r :: (runReads S ops h1).1).take i) ++ o.shown) <+: dataOf (peer.drop c0) := by
      intro t htt hnp ht' hsh
      obtain ⟨i1, i2⟩ := ih (taken ++ t) h1 (ha.next S hr hnp) ht'
      refine ⟨?_, ?_⟩
      · have : taken ++ delivered (r :: (runReads S ops h1).1) = taken ++ t ++ delivered (runReads S ops h1).1 := by
          simp [delivered, htt]
        rw [this]; exact i1
      · intro i o hio
        cases i with
        | zero =>
          simp only [List.getElem?_cons_zero, Option.some.injEq] at hio
          simpa [delivered] using hsh o hio
        | succ i =>
          simp only [List.getElem?_cons_succ] at hio
          have := i2 i o hio
          simpa [delivered, htt] using this
    cases hcases with
    | nothing hop =>
      exact goal [] rfl (by simp) (by simpa using ht) (by
        intro o ho
        injection ho with ho
        rw [← ho, List.append_nil]
        exact (List.prefix_append _ _).trans ht.prefix)
    | ok h2 hs hg hu hop hc hopen =>
      have ht2 := ht.steps S hol h12 htypes hivl (fun _ => ha.here S) hs
      generalize hb : (Spec.borrow (op.calls.1.map RBufOp.call) op.calls.2 h2.unread) = br at goal ⊢
      have hbt := borrow_take (op.calls.1.map RBufOp.call) op.calls.2 h2.unread
      rw [hb] at hbt
      have hle : br.2.length ≤ h2.unread.length := by
        rw [hbt]; simp; omega
      refine goal br.2 rfl (by simp) ?_ ?_
      · refine ⟨h2.eat_good _ hg hle, ht2.key, ht2.iv, ht2.low, ht2.high, ?_⟩
        rw [RdHalf.eat_unread]
        show _ = dataOf ((peer.take h2.rks.st.counter).drop c0)
        rw [← ht2.data, List.append_assoc]
        congr 1
        have := List.take_append_drop br.2.length h2.unread
        rw [← hbt] at this
        exact this
      · intro o ho
        injection ho with ho
        rw [← ho]
        exact ht2.prefix
    | notOpen hf ho => exact goal [] rfl (by simp) (by simpa using ht) (by simp)
    | err hf h2 _ e hs hu hr' ho =>
      have ht2 := ht.steps S hol h12 htypes hivl (fun _ => ha.here S) hs
      exact goal [] rfl (by simp) (by simpa using ht2.failed S hol hu hr') (by simp)
    | panic hf h2 _ hs hu hr' ho =>
      have ht0 : taken <+: dataOf (peer.drop c0) := (List.prefix_append _ _).trans ht.prefix
      refine ⟨by simpa [delivered, takenOf] using ht0, ?_⟩
      intro i o hio
      cases i with
      | zero => simp at hio
      | succ i => simp at hio

/-- **C21** Whatever comes from the transport (any bytes, chunks, errors, ends of stream) and whatever reading calls
the application makes: the bytes handed over as consumed, in order, and at each call the bytes shown to the
application after those, are a prefix of the application data the peer sent on this key. -/
theorem C21_prefix (hol : S.OpenLength) (h12 : S.ivLen = 12) (peer : List Fragment)
    (htypes : ∀ f ∈ peer, f.type ≠ 0) (h : RdHalf) (hg : h.Good) (hu : h.unread = [])
    (hivl : h.rks.st.iv.length = S.ivLen) (hc : h.rks.st.counter < 2 ^ 64)
    (ops : List ROp) (ha : Unforged S peer ops h) :
    delivered (runReads S ops h).1 <+: dataOf (peer.drop h.rks.st.counter) ∧
    ∀ i o, (runReads S ops h).1[i]? = some (.ok o) →
      delivered ((runReads S ops h).1.take i) ++ o.shown <+: dataOf (peer.drop h.rks.st.counter) := by
  have ht : Tracks peer h.rks.st.counter h.rks.st.key h.rks.st.iv [] h := by
    refine ⟨hg, rfl, rfl, Nat.le_refl _, hc, ?_⟩
    rw [hu, List.drop_of_length_le (by simp; omega)]
    rfl
  have := C21_run S hol h12 peer htypes h.rks.st.counter h.rks.st.key h.rks.st.iv hivl ops [] h ha ht
  simpa using this

end ETls
