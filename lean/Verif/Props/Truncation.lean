import Verif.Proofs.CloseErrors
import Verif.Props.WholeLife

/-! # C106: a truncated stream is not taken for a complete one -/

namespace ETls

variable (S : Suite)

open Spec (Fragment)

theorem Unforged.take {peer : List Fragment} {ops : List ROp} {h : RdHalf} (hu : Unforged S peer ops h) (i : Nat) :
    Unforged S peer (ops.take i) h := by
  intro j h1 hnp hs
  rw [List.take_take] at hs hnp
  exact hu _ h1 hnp hs

/-- One call keeps the invariant of `C21_prefix`. -/
theorem Tracks.call (hol : S.OpenLength) (h12 : S.ivLen = 12) {peer : List Fragment}
    (htypes : ∀ f ∈ peer, f.type ≠ 0) {c0 : Nat} {key iv taken : Bytes} (hivl : iv.length = S.ivLen)
    (op : ROp) {h h1 : RdHalf} (ha : ∀ h2, RdSteps S h h2 → Genuine S peer h2) {r : Res TlsError ROut} (hr : op.run S h = (r, h1))
    (hp : r ≠ .panic) (ht : Tracks peer c0 key iv taken h) : Tracks peer c0 key iv (taken ++ takenOf r) h1 := by
  have hcases := ROp.run_cases S hol op h ht.good
  rw [hr] at hcases
  simp only at hcases
  cases hcases with
  | nothing hop => simpa [takenOf] using ht
  | notOpen hf ho => simpa [takenOf] using ht
  | panic => exact absurd rfl hp
  | err hf h2 _ e hs hu hr' ho =>
    have ht2 := ht.steps S hol h12 htypes hivl ha hs
    simpa [takenOf] using ht2.failed S hol hu hr'
  | ok h2 hs hg hu hop hc hopen =>
    have ht2 := ht.steps S hol h12 htypes hivl ha hs
    simp only [takenOf]
    generalize hb : (Spec.borrow (op.calls.1.map RBufOp.call) op.calls.2 h2.unread) = br
    have hbt := borrow_take (op.calls.1.map RBufOp.call) op.calls.2 h2.unread
    rw [hb] at hbt
    have hle : br.2.length ≤ h2.unread.length := by
      rw [hbt]; simp; omega
    refine ⟨h2.eat_good _ hg hle, ht2.key, ht2.iv, ht2.low, ht2.high, ?_⟩
    rw [RdHalf.eat_unread]
    show _ = dataOf ((peer.take h2.rks.st.counter).drop c0)
    rw [← ht2.data, List.append_assoc]
    congr 1
    have := List.take_append_drop br.2.length h2.unread
    rw [← hbt] at this
    exact this

/-- The state before the `i`-th call of a history, and what that call does. -/
theorem runReads_at (ops : List ROp) : ∀ (i : Nat) (h : RdHalf) (r : Res TlsError ROut),
    (runReads S ops h).1[i]? = some r →
    ∃ op, ops[i]? = some op ∧ (op.run S (runReads S (ops.take i) h).2).1 = r ∧
      (runReads S (ops.take i) h).1 = (runReads S ops h).1.take i ∧
      ∀ r' ∈ (runReads S (ops.take i) h).1, r' ≠ .panic := by
  induction ops with
  | nil => intro i h r hi; simp [runReads] at hi
  | cons op ops ih =>
    intro i h r hi
    cases i with
    | zero =>
      refine ⟨op, rfl, ?_, by simp [runReads], by simp [runReads]⟩
      unfold runReads at hi
      simp only [List.take_zero, runReads]
      rcases hr : op.run S h with ⟨x, h1⟩
      rw [hr] at hi
      cases x <;> simpa using hi
    | succ i =>
      unfold runReads at hi ⊢
      simp only [List.take_succ_cons]
      rcases hr : op.run S h with ⟨x, h1⟩
      rw [hr] at hi
      cases x with
      | panic => simp at hi
      | ok o =>
        simp only [List.getElem?_cons_succ] at hi
        obtain ⟨op', g1, g2, g3, g4⟩ := ih i h1 r hi
        refine ⟨op', by simpa using g1, ?_, ?_, ?_⟩
        · simpa [runReads, hr] using g2
        · simpa [runReads, hr] using g3
        · simpa [runReads, hr] using g4
      | err e =>
        simp only [List.getElem?_cons_succ] at hi
        obtain ⟨op', g1, g2, g3, g4⟩ := ih i h1 r hi
        refine ⟨op', by simpa using g1, ?_, ?_, ?_⟩
        · simpa [runReads, hr] using g2
        · simpa [runReads, hr] using g3
        · simpa [runReads, hr] using g4

theorem Tracks.run (hol : S.OpenLength) (h12 : S.ivLen = 12) {peer : List Fragment}
    (htypes : ∀ f ∈ peer, f.type ≠ 0) {c0 : Nat} {key iv : Bytes} (hivl : iv.length = S.ivLen)
    (ops : List ROp) : ∀ (taken : Bytes) (h : RdHalf), Unforged S peer ops h → Tracks peer c0 key iv taken h →
    (∀ r ∈ (runReads S ops h).1, r ≠ .panic) →
    Tracks peer c0 key iv (taken ++ delivered (runReads S ops h).1) (runReads S ops h).2 := by
  induction ops with
  | nil => intro taken h _ ht _; simpa [runReads, delivered] using ht
  | cons op ops ih =>
    intro taken h ha ht hnp
    unfold runReads at hnp ⊢
    rcases hr : op.run S h with ⟨x, h1⟩
    rw [hr] at hnp
    cases x with
    | panic => simp at hnp
    | ok o =>
      have := ih _ h1 (ha.next S hr (by simp)) (ht.call S hol h12 htypes hivl op (fun _ => ha.here S) hr (by simp)) (fun r hr' => hnp r (by simp [hr']))
      simpa [delivered] using this
    | err e =>
      have := ih _ h1 (ha.next S hr (by simp)) (ht.call S hol h12 htypes hivl op (fun _ => ha.here S) hr (by simp)) (fun r hr' => hnp r (by simp [hr']))
      simpa [delivered] using this

/-- A fragment that holds a `close_notify` alert: content type 21, alert description 0 (RFC 8446 6.1). -/
def IsClose (f : Fragment) : Prop := f.type = 21 ∧ ∃ level rest, f.content = level :: 0 :: rest

/-- An unprotected `close_notify`: some records after the state `h` the reader meets a record of outer type alert that
holds one. -/
def PlainClose (h : RdHalf) : Prop :=
  ∃ h1 h2 l, RdSteps S h h1 ∧ RdHalf.readRecord S h1 = (.ok (.alert ⟨l, .closeNotify⟩), h2)

theorem C106_half_partial (hol : S.OpenLength) (h12 : S.ivLen = 12) (peer : List Fragment)
    (htypes : ∀ f ∈ peer, f.type ≠ 0) (h : RdHalf) (hg : h.Good) (hu : h.unread = [])
    (hivl : h.rks.st.iv.length = S.ivLen) (hc : h.rks.st.counter < 2 ^ 64)
    (ops : List ROp) (ha : Unforged S peer ops h) (i : Nat)
    (hi : (runReads S ops h).1[i]? = some (.err .connectionClosed)) :
    (∃ n f, peer[n]? = some f ∧ IsClose f ∧ h.rks.st.counter ≤ n ∧
      delivered ((runReads S ops h).1.take i) = dataOf ((peer.take n).drop h.rks.st.counter)) ∨
    PlainClose S (runReads S (ops.take i) h).2 := by
  obtain ⟨op, _, hrun, hpre, hnp⟩ := runReads_at S ops i h _ hi
  have ht : Tracks peer h.rks.st.counter h.rks.st.key h.rks.st.iv [] h := by
    refine ⟨hg, rfl, rfl, Nat.le_refl _, hc, ?_⟩
    rw [hu, List.drop_of_length_le (by simp; omega)]
    rfl
  have ht1 := ht.run S hol h12 htypes hivl (ops.take i) _ _ (ha.take S i) hnp
  rw [List.nil_append, hpre] at ht1
  have hgen := fun h1 => ha i h1 hnp
  generalize (runReads S (ops.take i) h).2 = hi' at *
  have hcases := ROp.run_cases S hol op hi' ht1.good
  rw [hrun] at hcases
  generalize (op.run S hi').2 = hx at hcases
  cases hcases with
  | err hf h2 _ _ hs hu2 hr' ho =>
    have ht2 := ht1.steps S hol h12 htypes hivl hgen hs
    cases readApp_close S hr' with
    | unprotected l h3 hrec => exact .inr ⟨h2, h3, l, hs, hrec⟩
    | protected_ hdr ct pt rest l hop hsp htk =>
      have hn : h2.rks.st.nonce S = Spec.nonce h.rks.st.iv h2.rks.st.counter := by
        rw [nonce_eq S h12 _ (by rw [ht2.iv]; exact hivl), ht2.iv]
      rw [hn, ← ht2.iv] at hop
      obtain ⟨f, hf', rfl⟩ := hgen h2 hs _ _ _ htk hop
      have hf0 := htypes f (List.mem_of_getElem? hf')
      have hs' := C27_padding f.content f.type hf0 f.padding
      rw [show f.content ++ [f.type] ++ List.replicate f.padding 0 = f.inner from rfl, hsp] at hs'
      obtain ⟨e1, e2⟩ := List.append_inj' hs' rfl
      injection e2 with e2
      refine .inl ⟨_, f, hf', ⟨e2.symm, l, rest, e1.symm⟩, ht2.low, ?_⟩
      have := ht2.data
      rw [hu2, List.append_nil] at this
      exact this

/-- **C106, in part** A whole connection: `new`, a successful `open`, then any reading calls, over any transport, whatever
it delivers.  If no record that was taken is forged (`peer` are the fragments of the server), and a reading call
reports that the peer has closed the connection, then the server did send `close_notify` and the application had by then
been given everything the server sent before it — or an unprotected `close_notify` was received.  Missing: that the latter
is not taken for the end of the stream (`C106_refuted`). -/
theorem C106_partial {V : Type} (hS : S.Lawful) (cfg : Config) (p : Provider V) (v : V) {rx : Rx} {tx : Tx}
    {rb wb : Bytes} {c c' : Conn} (hn : Conn.new S rx tx rb wb = .ok c) (h : Conn.open_ S cfg p v c = (.ok (), c'))
    (h12 : S.ivLen = 12) (peer : List Fragment) (htypes : ∀ f ∈ peer, f.type ≠ 0)
    (ops : List ROp) (ha : Unforged S peer ops c'.rd) (i : Nat)
    (hi : (runReads S ops c'.rd).1[i]? = some (.err .connectionClosed)) :
    (∃ n f, peer[n]? = some f ∧ IsClose f ∧ delivered ((runReads S ops c'.rd).1.take i) = dataOf (peer.take n)) ∨
    PlainClose S (runReads S (ops.take i) c'.rd).2 := by
  obtain ⟨g1, g2, _, _, g5, g6, _⟩ := open_reader S hS cfg p v hn h
  have hc : c'.rd.rks.st.counter = 0 := g6
  rcases C106_half_partial S hS.openLength h12 peer htypes c'.rd g1 g2 g5 (by rw [hc]; decide) ops ha i hi with h1 | h1
  · obtain ⟨n, f, k1, k2, _, k4⟩ := h1
    rw [hc, List.drop_zero] at k4
    exact .inl ⟨n, f, k1, k2, k4⟩
  · exact .inr h1

/-- **C106, for a server that sends nothing after an alert** (RFC 8446 6.1: any data after a closure alert must be
ignored; a sender sends none): the application has been given all the data of the server. -/
theorem C106_all_partial {V : Type} (hS : S.Lawful) (cfg : Config) (p : Provider V) (v : V) {rx : Rx} {tx : Tx}
    {rb wb : Bytes} {c c' : Conn} (hn : Conn.new S rx tx rb wb = .ok c) (h : Conn.open_ S cfg p v c = (.ok (), c'))
    (h12 : S.ivLen = 12) (peer : List Fragment) (htypes : ∀ f ∈ peer, f.type ≠ 0)
    (hlast : ∀ n f, peer[n]? = some f → IsClose f → peer.length = n + 1)
    (ops : List ROp) (ha : Unforged S peer ops c'.rd) (i : Nat)
    (hi : (runReads S ops c'.rd).1[i]? = some (.err .connectionClosed)) :
    delivered ((runReads S ops c'.rd).1.take i) = dataOf peer ∨ PlainClose S (runReads S (ops.take i) c'.rd).2 := by
  rcases C106_partial S hS cfg p v hn h h12 peer htypes ops ha i hi with ⟨n, f, k1, k2, k3⟩ | h1
  · left
    have hlen := hlast n f k1 k2
    have h0 := dataOf_succ peer 0 n f k1 (Nat.zero_le _)
    rw [List.drop_zero, List.drop_zero, List.take_of_length_le (by omega)] at h0
    have : f.appData = [] := by unfold Fragment.appData; rw [if_neg]; rw [k2.1]; decide
    rw [k3, h0, this, List.append_nil]
  · exact .inr h1

/-! ## Examples and what is false -/

set_option maxRecDepth 20000 in
/-- A case of `C106_half_partial`: the server sends `[7, 8, 9]` and closes; the fourth call reports it. -/
example :
    let fs : List Fragment := [⟨23, [7, 8, 9], 1⟩, ⟨21, [1, 0], 0⟩]
    let h := (exConn [.data (exPeer 0 ⟨23, [7, 8, 9], 1⟩ ++ exPeer 1 ⟨21, [1, 0], 0⟩)]).rd
    Unforged toySuite fs [.read 2, .read 0, .read 2, .read 2] h ∧
    (runReads toySuite [.read 2, .read 0, .read 2, .read 2] h).1[3]? = some (.err .connectionClosed) ∧
    delivered ((runReads toySuite [.read 2, .read 0, .read 2, .read 2] h).1.take 3) = [7, 8, 9] := by
  intro fs h
  exact ⟨unforged_iff _ (by decide +kernel), by decide +kernel, by decide +kernel⟩

set_option maxRecDepth 20000 in
/-- A case of `C106_partial` and `C106_all_partial`: after an ordinary handshake. -/
example :
    let fs : List Fragment := [⟨23, [7, 8], 0⟩, ⟨21, [1, 0], 0⟩]
    let rx : Rx := [.data (exApp 0 ⟨23, [7, 8], 0⟩ ++ exApp 1 ⟨21, [1, 0], 0⟩)]
    (exOpened [] rx).1 = .ok () ∧ Unforged toySuite fs [.read 10, .read 10] (exOpened [] rx).2.rd ∧
    (∀ n f, fs[n]? = some f → IsClose f → fs.length = n + 1) ∧
    (runReads toySuite [.read 10, .read 10] (exOpened [] rx).2.rd).1 =
        [.ok ⟨[7, 8], [[7, 8]], [7, 8]⟩, .err .connectionClosed] := by
  intro fs rx
  refine ⟨by decide +kernel, unforged_iff _ (by decide +kernel), ?_, by decide +kernel⟩
  intro n f hn hc
  match n, hn with
  | 0, hn => injection hn with hn; rw [← hn] at hc; exact absurd hc.1 (by decide)
  | 1, _ => rfl

set_option maxRecDepth 20000 in
/-- **C106 is false in general** The server sends `[7, 8]`, then `[9]`, then `close_notify`; seven bytes put into the stream
by anyone on the path after the first record make the client report that the server has closed the connection, after
`[7, 8]`. -/
theorem C106_refuted :
    let fs : List Fragment := [⟨23, [7, 8], 0⟩, ⟨23, [9], 0⟩, ⟨21, [1, 0], 0⟩]
    let rx : Rx := [.data (exApp 0 ⟨23, [7, 8], 0⟩ ++ [21, 3, 3, 0, 2, 1, 0] ++ exApp 1 ⟨23, [9], 0⟩ ++ exApp 2 ⟨21, [1, 0], 0⟩)]
    (exOpened [] rx).1 = .ok () ∧
    (runReads toySuite [.read 10, .read 10] (exOpened [] rx).2.rd).1 =
      [.ok ⟨[7, 8], [[7, 8]], [7, 8]⟩, .err .connectionClosed] ∧ dataOf fs = [7, 8, 9] := by
  decide +kernel

end ETls
