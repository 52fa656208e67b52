import Verif.Props.Reader
import Verif.Props.Textbook

/-! # C131: a session that the server ends -/

namespace ETls

open Spec Crypto

variable {V : Type}

namespace Spec

/-- What the reading calls `ops` return, when the peer has sent the data `D` and then its close_notify: every call takes the next
bytes (possibly none), and one that waits for data does so only if there are some left; a read into a buffer takes some, and no
more than fit.  When none are left, the next call that waits reports that the connection is closed.  From then on, calls that wait
for data report that there is no connection, and the others take nothing. -/
inductive Ends : Bytes → List ROp → List (Res TlsError ROut) → Prop where
  | stop (D : Bytes) : Ends D [] []
  | takes (D : Bytes) (op : ROp) (ops : List ROp) (o : ROut) (outs : List (Res TlsError ROut)) (hw : op.spec.Waits → o.taken ++ D ≠ [])
      (hr : ∀ n, op = .read n → o.taken.length ≤ n ∧ (n ≠ 0 → o.taken ≠ [])) (h : Ends D ops outs) :
      Ends (o.taken ++ D) (op :: ops) (.ok o :: outs)
  | closed (op : ROp) (ops : List ROp) (outs : List (Res TlsError ROut)) (hw : op.spec.Waits)
      (h : List.Forall₂ (fun (op : ROp) r => (op.spec.Waits ∧ r = .err .missingHandshake) ∨ (¬ op.spec.Waits ∧ ∃ o, r = .ok o ∧ o.taken = [])) ops outs) :
      Ends [] (op :: ops) (.err .connectionClosed :: outs)

end Spec

variable {S : Suite}

/-- Session tickets, as the reader of C76 sees them. -/
theorem Tickets.messages {content : Bytes} (h : Tickets S content) : Messages S.hashLen content .ticket := by
  induction h with
  | nil => exact .done
  | cons lt aa n t raw exts hw he rest hr ih =>
    have hread : (RawMsg.newSessionTicket lt aa n t raw).Readable :=
      (decoded_readable _).1 ⟨.newSessionTicket, by
        have hs := extSpec_good .newSessionTicket 1 raw exts he.2 [] (by simpa using he.1)
        simp only [decoded]
        rw [show newSessionTicketGroup = groupOf .newSessionTicket from rfl, hs]
        rfl⟩
    have hlen : (RawMsg.newSessionTicket lt aa n t raw).body.length < 16777216 := by
      obtain ⟨-, -, h1, h2, -, h3⟩ := hw
      have hb : (RawMsg.newSessionTicket lt aa n t raw).body.length =
          4 + (4 + (1 + (n.length + (2 + (t.length + (2 + (raw.flatMap RawExt.bytes).length)))))) := by
        simp only [RawMsg.body, extVec, List.length_append, List.length_cons, be32, be16, List.length_nil]
        omega
      omega
    exact .ticket _ rest _ _ ⟨hw, hread, _, hlen, rfl⟩ rfl ih

/-- The next record of the peer. -/
theorem next_protect (hS : S.Lawful) {key iv : Bytes} {cap seq : Nat} {f : Fragment} {e : Effect} (rest : Bytes)
    (hf : f.inner.length + 16 < 65536) (hc : f.inner.length + 16 ≤ cap) (hi : Inner S.hashLen f.inner e) :
    (e.Done → seq + 1 < 2 ^ 64 → Next S key iv cap ⟨seq, protect S key iv seq f ++ rest⟩ e ⟨seq + 1, rest⟩) ∧
    (¬ e.Done → Next S key iv cap ⟨seq, protect S key iv seq f ++ rest⟩ e ⟨seq, rest⟩) := by
  have hlen : (S.sealCt key (nonce iv seq) (ciphertextHeader f.inner.length) f.inner ++
      S.sealTag key (nonce iv seq) (ciphertextHeader f.inner.length) f.inner).length = f.inner.length + 16 := by
    rw [List.length_append, hS.sealCt_length, hS.sealTag_length]; rfl
  have ho := hS.open_seal key (nonce iv seq) (ciphertextHeader f.inner.length) f.inner
  generalize hb : S.sealCt key (nonce iv seq) (ciphertextHeader f.inner.length) f.inner ++
      S.sealTag key (nonce iv seq) (ciphertextHeader f.inner.length) f.inner = body at hlen ho
  have hh : ciphertextHeader f.inner.length = header 23 3 3 body.length := by
    rw [hlen]; rfl
  have hp : protect S key iv seq f = header 23 3 3 body.length ++ body := by
    rw [← hh, ← hb]; rfl
  rw [hp]
  rw [hh] at ho
  exact ⟨fun hd hs => .authentic seq 3 3 body rest _ e (by omega) (by omega) ho hi hd hs,
    fun hd => .refused seq 3 3 body rest _ e (by omega) (by omega) ho hi hd⟩

/-- Waiting for data. -/
theorem fill_ending (hS : S.Lawful) {key iv : Bytes} {cap k : Nat} (rest : Bytes) (hk : 19 + k ≤ cap ∧ 19 + k < 65536) :
    ∀ (fs : List Fragment) (seq : Nat), (∀ f ∈ fs, Sendable S f) →
    (∀ f ∈ fs, f.inner.length + 16 ≤ cap ∧ f.inner.length + 16 < 65536) → seq + fs.length < 2 ^ 64 →
    (∃ d fs' seq', d ≠ [] ∧ dataOf fs = d ++ dataOf fs' ∧ (∀ f ∈ fs', f ∈ fs) ∧ seq' + fs'.length = seq + fs.length ∧
      Fill S key iv cap ⟨seq, protectAll S key iv seq (fs ++ [⟨21, [1, 0], k⟩]) ++ rest⟩ (.data d)
        ⟨seq', protectAll S key iv seq' (fs' ++ [⟨21, [1, 0], k⟩]) ++ rest⟩) ∨
    (dataOf fs = [] ∧ ∃ p, Fill S key iv cap ⟨seq, protectAll S key iv seq (fs ++ [⟨21, [1, 0], k⟩]) ++ rest⟩ .closed p)
  | [], seq, _, _, _ => by
    have hb : protectAll S key iv seq ([] ++ [⟨21, [1, 0], k⟩]) = protect S key iv seq ⟨21, [1, 0], k⟩ := by
      simp [protectAll]
    rw [hb]
    refine .inr ⟨rfl, _, .here _ _ _ ((next_protect hS rest ?_ ?_ (e := .closed) ?_).2 ?_) (by simp) (by simp)⟩
    · simp [Fragment.inner]; omega
    · simp [Fragment.inner]; omega
    · exact .alert _ _ _ (.close 1 [] ⟨.warning, by decide⟩)
    · simp [Effect.Done]
  | f :: fs, seq, hs, hf, hn => by
    have hfit := hf f List.mem_cons_self
    simp only [List.length_cons] at hn
    have ih := fill_ending hS (key := key) (iv := iv) rest hk fs (seq + 1) (fun g hg => hs g (List.mem_cons_of_mem _ hg))
      (fun g hg => hf g (List.mem_cons_of_mem _ hg)) (by omega)
    have hb : protectAll S key iv seq (f :: fs ++ [⟨21, [1, 0], k⟩]) ++ rest =
        protect S key iv seq f ++ (protectAll S key iv (seq + 1) (fs ++ [⟨21, [1, 0], k⟩]) ++ rest) := by
      simp [protectAll]
    rw [hb]
    have hskip : ∀ e1, Inner S.hashLen f.inner e1 → e1 = .data [] ∨ e1 = .ticket → f.appData = [] →
        (∃ d fs' seq', d ≠ [] ∧ dataOf (f :: fs) = d ++ dataOf fs' ∧ (∀ g ∈ fs', g ∈ f :: fs) ∧
          seq' + fs'.length = seq + (f :: fs).length ∧
          Fill S key iv cap ⟨seq, protect S key iv seq f ++ (protectAll S key iv (seq + 1) (fs ++ [⟨21, [1, 0], k⟩]) ++ rest)⟩ (.data d)
            ⟨seq', protectAll S key iv seq' (fs' ++ [⟨21, [1, 0], k⟩]) ++ rest⟩) ∨
        (dataOf (f :: fs) = [] ∧
          ∃ p, Fill S key iv cap ⟨seq, protect S key iv seq f ++ (protectAll S key iv (seq + 1) (fs ++ [⟨21, [1, 0], k⟩]) ++ rest)⟩ .closed p) := by
      intro e1 hi he ha
      have hnx := (next_protect hS (key := key) (iv := iv) (seq := seq) (protectAll S key iv (seq + 1) (fs ++ [⟨21, [1, 0], k⟩]) ++ rest)
        hfit.2 hfit.1 hi).1 (by rcases he with rfl | rfl <;> trivial) (by omega)
      have hd : dataOf (f :: fs) = dataOf fs := by simp [dataOf, ha]
      rw [hd]
      rcases ih with ⟨d, fs', seq', i1, i2, i3, i4, i5⟩ | ⟨i1, p, i2⟩
      · exact .inl ⟨d, fs', seq', i1, i2, fun g hg => List.mem_cons_of_mem _ (i3 g hg), by simp only [List.length_cons]; omega,
          .skip _ _ _ _ _ hnx he i5⟩
      · exact .inr ⟨i1, p, .skip _ _ _ _ _ hnx he i2⟩
    obtain ⟨ty, content, pad⟩ := f
    rcases hs _ List.mem_cons_self with h23 | ⟨h22, htk⟩
    · simp only at h23
      subst h23
      by_cases hc : content = []
      · subst hc
        exact hskip _ (.data [] pad) (.inl rfl) (by simp [Fragment.appData])
      · refine .inl ⟨content, fs, seq + 1, hc, by simp [dataOf, Fragment.appData], fun g hg => List.mem_cons_of_mem _ hg,
          by simp only [List.length_cons]; omega, .here _ _ _ ((next_protect hS _ hfit.2 hfit.1 (.data content pad)).1 trivial (by omega))
          (by simpa using hc) (by simp)⟩
    · simp only at h22 htk
      subst h22
      exact hskip _ (.handshake content pad _ htk.messages) (.inr rfl) (by simp [Fragment.appData])

/-- A reader that has the data `D` before it, and then the close_notify of the peer. -/
def Nearing (S : Suite) (key iv : Bytes) (cap k : Nat) (rest D : Bytes) (r : Reader) : Prop :=
  ∃ cur fs seq, r = ⟨true, cur, ⟨seq, protectAll S key iv seq (fs ++ [⟨21, [1, 0], k⟩]) ++ rest⟩⟩ ∧ D = cur ++ dataOf fs ∧
    (∀ f ∈ fs, Sendable S f) ∧ (∀ f ∈ fs, f.inner.length + 16 ≤ cap ∧ f.inner.length + 16 < 65536) ∧ seq + fs.length < 2 ^ 64

theorem uses_split (c : Spec.ReadCall) (d : Bytes) : (borrow c.uses.1 c.uses.2 d).2 ++ c.leaves d = d := by
  have h := borrow_take c.uses.1 c.uses.2 d
  unfold Spec.ReadCall.leaves
  conv => lhs; lhs; rw [h]
  exact List.take_append_drop _ _

theorem uses_read (n : Nat) (d : Bytes) : (borrow (Spec.ReadCall.read n).uses.1 (Spec.ReadCall.read n).uses.2 d).2 = d.take n := by
  simp [Spec.ReadCall.uses, borrow, Spec.calls]

/-- One call. -/
theorem call_nearing (hS : S.Lawful) {key iv : Bytes} {cap k : Nat} {rest D : Bytes} (hk : 19 + k ≤ cap ∧ 19 + k < 65536)
    {c : Spec.ReadCall} {r r' : Reader} {res : Result} (hn : Nearing S key iv cap k rest D r) (hc : Call S key iv cap c r res r') :
    (∃ slices taken D', res = .ok slices taken ∧ D = taken ++ D' ∧ (c.Waits → D ≠ []) ∧
      (∀ n, c = .read n → taken.length ≤ n ∧ (n ≠ 0 → taken ≠ [])) ∧ Nearing S key iv cap k rest D' r') ∨
    (res = .error (some .connectionClosed) ∧ D = [] ∧ c.Waits ∧ r'.opened = false ∧ r'.cur = []) := by
  obtain ⟨cur, fs, seq, rfl, rfl, hs, hf, hq⟩ := hn
  rcases call_cases S hc with ⟨rfl, rfl, rfl⟩ | ⟨n, rfl, rfl, rfl⟩ | ⟨-, ho, -, -⟩ | ⟨hw, -, hcur, rfl, rfl⟩ | ⟨hw, -, hcur, e, p, hfl, he⟩
  · refine .inl ⟨_, [], _, rfl, rfl, fun h => absurd rfl h, ?_, cur, fs, seq, rfl, rfl, hs, hf, hq⟩
    rintro n ⟨⟩
    exact ⟨Nat.le_refl _, fun h => absurd rfl h⟩
  · refine .inl ⟨_, _, _, rfl, ?_, fun h => h.elim, fun m h => (by cases h), _, fs, seq, rfl, rfl, hs, hf, hq⟩
    rw [← List.append_assoc, uses_split]
  · cases ho
  · refine .inl ⟨_, _, _, rfl, ?_, ?_, ?_, _, fs, seq, rfl, rfl, hs, hf, hq⟩
    · rw [← List.append_assoc, uses_split]
    · intro _ h
      exact hcur (List.append_eq_nil_iff.1 h).1
    · rintro n rfl
      rw [uses_read]
      refine ⟨by simp, fun hn0 h => ?_⟩
      rcases List.take_eq_nil_iff.1 h with h | h
      · exact hn0 h
      · exact hcur h
  · simp only at hcur hfl
    subst hcur
    rcases fill_ending hS (key := key) (iv := iv) rest hk fs seq hs hf hq with ⟨d, fs', seq', i1, i2, i3, i4, i5⟩ | ⟨i1, p', i2⟩
    · obtain ⟨rfl, rfl⟩ := fill_unique S hfl i5
      obtain ⟨rfl, rfl⟩ := he
      refine .inl ⟨_, _, _, rfl, ?_, ?_, ?_, _, fs', seq', rfl, rfl, fun f h => hs f (i3 f h), fun f h => hf f (i3 f h), by omega⟩
      · rw [← List.append_assoc, uses_split, List.nil_append, i2]
      · intro _ h
        rw [List.nil_append, i2] at h
        exact i1 (List.append_eq_nil_iff.1 h).1
      · rintro n rfl
        rw [uses_read]
        refine ⟨by simp, fun hn0 h => ?_⟩
        rcases List.take_eq_nil_iff.1 h with h | h
        · exact hn0 h
        · exact i1 h
    · obtain ⟨rfl, rfl⟩ := fill_unique S hfl i2
      obtain ⟨rfl, rfl⟩ := he
      exact .inr ⟨rfl, by rw [i1]; rfl, hw, rfl, rfl⟩

/-- After the end. -/
theorem reads_ended (hS : S.Lawful) : ∀ (ops : List ROp) (h : RdHalf), Sane S h → h.opened = false → h.unread = [] →
    List.Forall₂ (fun (op : ROp) r => (op.spec.Waits ∧ r = .err .missingHandshake) ∨ (¬ op.spec.Waits ∧ ∃ o, r = .ok o ∧ o.taken = []))
      ops (runReads S ops h).1
  | [], _, _, _, _ => .nil
  | op :: ops, h, hs, ho, hu => by
    obtain ⟨res, s', c1, c2, c3⟩ := call_effect S hS op hs
    have hcase : (op.spec.Waits ∧ res = .error (some .missingHandshake) ∧ s' = readerOf h) ∨
        (¬ op.spec.Waits ∧ (∃ sl, res = .ok sl []) ∧ s' = readerOf h) := by
      rcases call_cases S c1 with ⟨e, rfl, rfl⟩ | ⟨n, e, rfl, rfl⟩ | ⟨hw, -, rfl, rfl⟩ | ⟨-, ho', -⟩ | ⟨-, ho', -⟩
      · exact .inr ⟨by rw [e]; exact fun h => h rfl, ⟨_, rfl⟩, rfl⟩
      · refine .inr ⟨by rw [e]; exact id, ⟨[[]], ?_⟩, ?_⟩
        · simp only [readerOf, hu]
          rw [e]
          simp [Spec.ReadCall.gives, Spec.ReadCall.uses, borrow, Spec.calls]
        · simp only [readerOf, hu]
          rw [e]
          simp [Spec.ReadCall.leaves]
      · exact .inl ⟨hw, rfl, rfl⟩
      · simp only [readerOf, ho, Bool.false_eq_true] at ho'
      · simp only [readerOf, ho, Bool.false_eq_true] at ho'
    have hab : res ≠ .abort := by
      rcases hcase with ⟨-, rfl, -⟩ | ⟨-, ⟨sl, rfl⟩, -⟩ <;> simp
    obtain ⟨d1, -, -, -, d5⟩ := c3 hab
    have hrd : readerOf (op.run S h).2 = readerOf h := by
      rw [← d5]
      rcases hcase with ⟨-, -, e⟩ | ⟨-, -, e⟩ <;> exact e
    have ho1 : (op.run S h).2.opened = false := (congrArg Reader.opened hrd).trans ho
    have hu1 : (op.run S h).2.unread = [] := (congrArg Reader.cur hrd).trans hu
    have ih := reads_ended hS ops (op.run S h).2 d1 ho1 hu1
    rcases hrun : op.run S h with ⟨r, h1⟩
    rw [hrun] at c2 ih
    simp only at c2 ih
    rcases hcase with ⟨hw, rfl, -⟩ | ⟨hw, ⟨sl, rfl⟩, -⟩
    · cases r with
      | ok o => exact c2.elim
      | panic => exact c2.elim
      | err e =>
        simp only [Agrees] at c2
        subst c2
        simp only [runReads, hrun]
        exact .cons (.inl ⟨hw, rfl⟩) ih
    · cases r with
      | err e => exact c2.elim
      | panic => exact c2.elim
      | ok o =>
        simp only [runReads, hrun]
        exact .cons (.inr ⟨hw, o, rfl, c2.2⟩) ih

/-- Up to the end and beyond. -/
theorem reads_end (hS : S.Lawful) {key iv : Bytes} {cap k : Nat} {rest : Bytes} (hk : 19 + k ≤ cap ∧ 19 + k < 65536) :
    ∀ (ops : List ROp) (h : RdHalf) (D : Bytes), Sane S h → h.rks.st.key = key → h.rks.st.iv = iv → h.rr.buf.length = cap →
      Nearing S key iv cap k rest D (readerOf h) → Ends D ops (runReads S ops h).1
  | [], _, D, _, _, _, _, _ => .stop D
  | op :: ops, h, D, hs, e1, e2, e3, hn => by
    obtain ⟨res, s', c1, c2, c3⟩ := call_effect S hS op hs
    rw [e1, e2, e3] at c1
    have hstep := call_nearing hS hk hn c1
    have hab : res ≠ .abort := by
      rcases hstep with ⟨_, _, _, rfl, _⟩ | ⟨rfl, _⟩ <;> simp
    obtain ⟨d1, d2, d3, d4, rfl⟩ := c3 hab
    rcases hrun : op.run S h with ⟨r, h1⟩
    rw [hrun] at c2 d1 d2 d3 d4 hstep
    simp only at c2 d1 d2 d3 d4 hstep
    rcases hstep with ⟨sl, tk, D', rfl, rfl, w1, w2, w3⟩ | ⟨rfl, rfl, w1, w2, w3⟩
    · cases r with
      | err e => exact c2.elim
      | panic => exact c2.elim
      | ok o =>
        obtain ⟨-, rfl⟩ := c2
        simp only [runReads, hrun]
        refine .takes D' op ops o _ w1 (fun n he => w2 n (by rw [he]; rfl)) ?_
        exact reads_end hS hk ops h1 D' d1 (d2.trans e1) (d3.trans e2) (d4.trans e3) w3
    · cases r with
      | ok o => exact c2.elim
      | panic => exact c2.elim
      | err e =>
        simp only [Agrees] at c2
        subst c2
        simp only [runReads, hrun]
        exact .closed op ops _ w1 (reads_ended hS ops h1 d1 w2 w3)

/-- What the relation says about reads into buffers that are not empty: if there are more of them than bytes, they deliver all of the
data, and one of them reports that the connection is closed. -/
theorem Spec.Ends.complete {D : Bytes} {ops : List ROp} {outs : List (Res TlsError ROut)} (h : Ends D ops outs) :
    ∀ sizes : List Nat, ops = sizes.map .read → (∀ n ∈ sizes, n ≠ 0) → D.length < sizes.length →
    delivered outs = D ∧ .err .connectionClosed ∈ outs := by
  induction h with
  | stop D =>
    intro sizes e _ hl
    have : sizes = [] := by simpa using e.symm
    subst this
    simp at hl
  | takes D op ops o outs hw hr h ih =>
    intro sizes e hz hl
    obtain ⟨n, sizes, rfl⟩ : ∃ n s, sizes = n :: s := by
      cases sizes with
      | nil => cases e
      | cons n s => exact ⟨n, s, rfl⟩
    injection e with e e'
    have hne := (hr n e).2 (hz n List.mem_cons_self)
    have : 0 < o.taken.length := List.length_pos_iff.2 hne
    simp only [List.length_append, List.length_cons] at hl
    obtain ⟨i1, i2⟩ := ih sizes e' (fun m hm => hz m (List.mem_cons_of_mem _ hm)) (by omega)
    refine ⟨?_, List.mem_cons_of_mem _ i2⟩
    rw [← i1]
    simp [delivered, takenOf]
  | closed op ops outs hw h =>
    intro sizes e hz hl
    refine ⟨?_, List.mem_cons_self⟩
    have : ∀ (ops : List ROp) outs, List.Forall₂ (fun (op : ROp) r => (op.spec.Waits ∧ r = .err .missingHandshake) ∨
        (¬ op.spec.Waits ∧ ∃ o, r = .ok o ∧ o.taken = [])) ops outs → delivered outs = [] := by
      intro ops outs h
      induction h with
      | nil => rfl
      | cons hab _ ih =>
        simp only [delivered, List.map_cons, List.flatten_cons] at ih ⊢
        rw [ih]
        rcases hab with ⟨-, rfl⟩ | ⟨-, o, rfl, ho⟩
        · rfl
        · simp [takenOf, ho]
    have := this _ _ h
    simpa [delivered, takenOf] using this

namespace Spec

/-- A session that the server ends: as in C127, and the reading calls, in whatever sequence of reading and writing calls, return what
the server has sent, and then that it has closed the connection. -/
structure Session131 (S : Suite) (t : Textbook) (hello : Bytes) (ms : List Bytes) (fs : List Fragment) (log : List OutEv) (c' : Conn) : Prop where
  opened : c'.opened = true
  sent : ∃ second, c'.tx.log = log ++ sentRecords (plaintextRecord 22 [3, 1] hello :: second) ∧ t.Accepts S hello ms second
  reads : ∀ ops : List AnyOp, Ends (dataOf fs) (readerOps ops) (readerOuts (runAny S ops c').1)
  writes : HearsApp S (writeKey S (t.clientSecret S hello)) (writeIv S (t.clientSecret S hello)) c'

end Spec

theorem Spec.Ends.no_panic {D : Bytes} {ops : List ROp} {outs : List (Res TlsError ROut)} (h : Ends D ops outs) :
    ∀ r ∈ outs, r ≠ .panic := by
  induction h with
  | stop D => intro r hr; cases hr
  | takes D op ops o outs hw hr h ih =>
    intro r hm
    rcases List.mem_cons.1 hm with rfl | hm
    · simp
    · exact ih r hm
  | closed op ops outs hw h =>
    intro r hm
    rcases List.mem_cons.1 hm with rfl | hm
    · simp
    · clear hw
      induction h with
      | nil => cases hm
      | cons hab _ ih =>
        rcases List.mem_cons.1 hm with rfl | hm
        · rcases hab with ⟨-, rfl⟩ | ⟨-, o, rfl, -⟩ <;> simp
        · exact ih (List.mem_cons_of_mem _ hm) hm

/-- What `open` leaves, with the rest of the session still to come. -/
theorem textbook_ends (hs : Shipped S) {t : Textbook} {hello : Bytes} {ms : List Bytes} {log : List OutEv} {cap : Nat} {c' : Conn}
    (fs : List Fragment) (k : Nat) (rest : Bytes) (hfs : ∀ f ∈ fs, Sendable S f) (hcount : fs.length < 2 ^ 64)
    (hk : 19 + k ≤ cap ∧ 19 + k < 65536) (hfrag : ∀ f ∈ fs, f.inner.length + 16 ≤ cap ∧ f.inner.length + 16 < 65536)
    (h : Opens127 S t hello ms (t.send S hello (fs ++ [⟨21, [1, 0], k⟩]) ++ rest) log cap c') :
    Session131 S t hello ms fs log c' := by
  have hS := C95_lawful S hs
  refine ⟨h.opened, h.sent, fun ops => ?_, h.writes⟩
  have hsane : Sane S c'.rd := ⟨h.good, h.clean, ⟨le_trans (Nat.le_add_right _ _) h.good.rr, .inl h.pending⟩, by rw [h.keys]; exact trafficState_iv S hS _⟩
  have he := reads_end hS (key := writeKey S (t.serverSecret S hello)) (iv := writeIv S (t.serverSecret S hello)) (rest := rest) hk
    (readerOps ops) c'.rd (dataOf fs) hsane (by rw [h.keys]; rfl) (by rw [h.keys]; rfl) h.buffer
    ⟨[], fs, 0, by
      have hc : c'.rd.rks.st.counter = 0 := by rw [h.keys]; rfl
      have ho : c'.rd.opened = true := h.opened
      rw [readerOf, h.unread, placeOf, h.bytes, hc, ho]
      rfl, rfl, hfs, hfrag, by omega⟩
  rw [(C31_reader S ops c').1, runReader_eq _ _ he.no_panic]
  exact he

/-- **C131** A server of TLS 1.3 as in C127, and a client whose verifier (if any) accepts its flight.  The server sends the records
`fs` of data and session tickets, then a close_notify, and after that the transport delivers any bytes `rest`.  Then `open` succeeds;
the reading calls return the data of `fs`, in order and complete, then that the connection is closed, and never anything of `rest`;
and the server hears what the client writes. -/
theorem C131_session (hs : Shipped S) (cfg : Config) (p : Provider V) (v : V) (t : Textbook) (ht : t.Sized)
    (hpsk : t.psk = cfg.psk.map (·.1)) (hfit : HelloFits S cfg p) (ha : scalarOf p.secret ≠ 0) (hb : scalarOf t.secret ≠ 0)
    (hhost : ∀ ops name, p.verifier = some ops → cfg.serverName = some name → ∃ v', ops.setHostname name v = (.ok (), v'))
    (hver : ∀ ops, p.verifier = some ops → ∃ v', verifierRun ops ((t.flight S (helloMsg S cfg p)).tr0 (helloMsg S cfg p))
      (withBytes (t.flight S (helloMsg S cfg p)).msgs) (hostVst cfg p v) = (.ok (), v'))
    {ms : List Bytes} (hms : clientReply S p (t.transcript S (helloMsg S cfg p)) (if t.request then some [] else none) = some ms)
    (hsig : t.request = true → p.clientCert ≠ none → ∀ sign scheme, p.signer = .ok (sign, scheme) → ∀ m sig, sign m = some sig → sig.length ≤ signatureSize S)
    {rx : Rx} {tx : Tx} {rb wb : Bytes} {c : Conn} (hn : Conn.new S rx tx rb wb = .ok c) (hclean : rx.Clean) (hrel : Reliable tx)
    (fs : List Fragment) (hfs : ∀ f ∈ fs, Sendable S f) (hcount : fs.length < 2 ^ 64) (k : Nat) (rest : Bytes)
    (hrx : rx.bytes = t.answer S (helloMsg S cfg p) ++ (t.send S (helloMsg S cfg p) (fs ++ [⟨21, [1, 0], k⟩]) ++ rest))
    (hhello : 5 + helloLength S cfg p ≤ wb.length) (hwb : 133 ≤ wb.length) (hwb' : wb.length < 65652) (hrb : 192 ≤ rb.length)
    (hcert : t.certificate.bytes.length + 17 ≤ rb.length) (hreply : ∀ m ∈ ms, m.length + 22 ≤ wb.length ∧ m.length + 17 < 65536)
    (hk : 19 + k ≤ rb.length ∧ 19 + k < 65536)
    (hfrag : ∀ f ∈ fs, f.inner.length + 16 ≤ rb.length ∧ f.inner.length + 16 < 65536) :
    ∃ c', Conn.open_ S cfg p v c = (.ok (), c') ∧ Session131 S t (helloMsg S cfg p) ms fs tx.log c' := by
  obtain ⟨c', h1, h2⟩ := textbook_opens hs cfg p v t ht hpsk hfit ha hb hhost hver hms hsig hn hclean hrel hrx hhello hwb hwb' hrb hcert
    hreply
  exact ⟨c', h1, textbook_ends hs fs k rest hfs hcount hk hfrag h2⟩

/-- **C131, no verifier** as `C127_psk`. -/
theorem C131_psk (hs : Shipped S) (cfg : Config) (p : Provider V) (hv : p.verifier = none) (v : V) (t : Textbook) (ht : t.Sized)
    (hc : t.request = true → p.clientCert = none)
    (hpsk : t.psk = cfg.psk.map (·.1)) (hfit : HelloFits S cfg p) (ha : scalarOf p.secret ≠ 0) (hb : scalarOf t.secret ≠ 0)
    {rx : Rx} {tx : Tx} {rb wb : Bytes} {c : Conn} (hn : Conn.new S rx tx rb wb = .ok c) (hclean : rx.Clean) (hrel : Reliable tx)
    (fs : List Fragment) (hfs : ∀ f ∈ fs, Sendable S f) (hcount : fs.length < 2 ^ 64) (k : Nat) (rest : Bytes)
    (hrx : rx.bytes = t.answer S (helloMsg S cfg p) ++ (t.send S (helloMsg S cfg p) (fs ++ [⟨21, [1, 0], k⟩]) ++ rest))
    (hhello : 5 + helloLength S cfg p ≤ wb.length) (hwb : 133 ≤ wb.length) (hwb' : wb.length < 65652) (hrb : 192 ≤ rb.length)
    (hcert : t.certificate.bytes.length + 17 ≤ rb.length)
    (hk : 19 + k ≤ rb.length ∧ 19 + k < 65536)
    (hfrag : ∀ f ∈ fs, f.inner.length + 16 ≤ rb.length ∧ f.inner.length + 16 < 65536) :
    ∃ c', Conn.open_ S cfg p v c = (.ok (), c') ∧
      Session131 S t (helloMsg S cfg p) (if t.request then [certificateMsg [] []] else []) fs tx.log c' :=
  C131_session hs cfg p v t ht hpsk hfit ha hb (fun ops _ h => by rw [hv] at h; cases h) (fun ops h => by rw [hv] at h; cases h)
    (textbook_no_certificate p hc _).1 (fun h h' => absurd (hc h) h') hn hclean hrel fs hfs hcount k rest hrx hhello hwb hwb' hrb hcert
    (fun m hm => by rw [(textbook_no_certificate (S := S) p hc []).2 m hm]; omega) hk hfrag

/-- **C131, certificates** as `C127_certificate`, for any signature scheme of the native verifier. -/
theorem C131_native (hs : Shipped S) (L : PkiLib) (F : Features) (now : Option Nat) (N : Nat) (cfg : Config)
    (p : Provider PkiVerifier) (ca : CertEntry) (hv : p.verifier = some (pkiOps L S F now N))
    (hEd : ∀ k, L.keyOk .ed25519 k = true → k.length = 32)
    (host : Bytes) (hname : cfg.serverName = some host) (hlen : host.length ≤ 64)
    (t : Textbook) (hrand : t.random.length = 32) (hc : t.request = true → p.clientCert = none)
    (hchain : ValidChain L F now ca host t.certs)
    (hscheme : ∃ s, (s, t.scheme) ∈ signatureSchemes) (hsign : ∀ m, SignedWith L F t.certs t.scheme m (t.sign m))
    (hsl : ∀ m, (t.sign m).length + 8 ≤ max 80 t.certificate.bytes.length) (hcerts : t.certs.length ≤ 16) (hmsg : t.certificate.bytes.length ≤ 16384) (hN : t.certificate.bytes.length ≤ N)
    (hpsk : t.psk = cfg.psk.map (·.1)) (hfit : HelloFits S cfg p) (ha : scalarOf p.secret ≠ 0) (hb : scalarOf t.secret ≠ 0)
    {rx : Rx} {tx : Tx} {rb wb : Bytes} {c : Conn} (hn : Conn.new S rx tx rb wb = .ok c) (hclean : rx.Clean) (hrel : Reliable tx)
    (fs : List Fragment) (hfs : ∀ f ∈ fs, Sendable S f) (hcount : fs.length < 2 ^ 64) (k : Nat) (rest : Bytes)
    (hrx : rx.bytes = t.answer S (helloMsg S cfg p) ++ (t.send S (helloMsg S cfg p) (fs ++ [⟨21, [1, 0], k⟩]) ++ rest))
    (hhello : 5 + helloLength S cfg p ≤ wb.length) (hwb : 133 ≤ wb.length) (hwb' : wb.length < 65652) (hrb : 192 ≤ rb.length)
    (hcert : t.certificate.bytes.length + 17 ≤ rb.length)
    (hk : 19 + k ≤ rb.length ∧ 19 + k < 65536)
    (hfrag : ∀ f ∈ fs, f.inner.length + 16 ≤ rb.length ∧ f.inner.length + 16 < 65536) :
    ∃ c', Conn.open_ S cfg p (PkiVerifier.new ca) c = (.ok (), c') ∧
      Session131 S t (helloMsg S cfg p) (if t.request then [certificateMsg [] []] else []) fs tx.log c' := by
  have hS := C95_lawful S hs
  have ht : t.Sized := ⟨hrand, hmsg, hcerts, hscheme, hsl⟩
  have hx := C98_conforming hs cfg p hfit ha hb (x := t.flight S (helloMsg S cfg p))
    (by rw [← hpsk]; exact textbook_shaped (helloMsg S cfg p) hs ht) (dheFrom_agrees hs cfg p hfit t.secret ha hb)
  have hne : t.certs ≠ [] := by
    intro h
    obtain ⟨leaf, rest, _, _, _, _, e, _⟩ := hsign []
    rw [h] at e
    cases e
  have hauth : AuthFlight (ValidChain L F now ca host) (SignedWith L F) S N (helloMsg S cfg p)
      (t.flight S (helloMsg S cfg p)) :=
    textbook_auth _ hne hN hchain hsign
  refine C131_session hs cfg p _ t ht hpsk hfit ha hb ?_
    (run_authenticated S N cfg p _ _ _ hv hx (textbook_accepted _ hs ht) host hname (pkiSetHostname_fits hlen _) hauth
      (native_accepts S hS now N ca hEd host))
    (textbook_no_certificate p hc _).1 (fun h h' => absurd (hc h) h')
    hn hclean hrel fs hfs hcount k rest hrx hhello hwb hwb' hrb hcert
    (fun m hm => by rw [(textbook_no_certificate (S := S) p hc []).2 m hm]; omega) hk hfrag
  intro ops name ho hnn
  rw [hv] at ho
  injection ho with ho
  subst ho
  rw [hname] at hnn
  injection hnn with hnn
  subst hnn
  exact ⟨_, pkiSetHostname_fits hlen _⟩

/-- **C131, webpki** as `C127_webpki`. -/
theorem C131_webpki (hs : Shipped S) (W : WebLib) (alloc : Bool) (now : Option Nat) (N : Nat) (cfg : Config)
    (p : Provider PkiVerifier) (ca : CertEntry) (hv : p.verifier = some (webOps W S alloc now N))
    (hparse : ∀ anchor leaf, W.chainOk anchor leaf (now.getD 0) = true → W.anchorOk anchor = true ∧ W.leafOk leaf = true)
    (h32 : S.hashLen ≤ 32) (host : Bytes) (hname : cfg.serverName = some host) (hlen : host.length ≤ 64)
    (t : Textbook) (hrand : t.random.length = 32) (hc : t.request = true → p.clientCert = none)
    (hchain : WebAccepts W now ca (some host) t.certs) {leaf : Bytes} (hleaf : t.certs.head? = some leaf)
    (hscheme : t.scheme = 0x0403) (hsign : ∀ m, W.verify .ecdsaP256Sha256 leaf m (t.sign m) = true ∧ (t.sign m).length ≤ 72)
    (hcerts : t.certs.length ≤ 16) (hmsg : t.certificate.bytes.length ≤ 16384) (hN : t.certificate.bytes.length ≤ N)
    (hpsk : t.psk = cfg.psk.map (·.1)) (hfit : HelloFits S cfg p) (ha : scalarOf p.secret ≠ 0) (hb : scalarOf t.secret ≠ 0)
    {rx : Rx} {tx : Tx} {rb wb : Bytes} {c : Conn} (hn : Conn.new S rx tx rb wb = .ok c) (hclean : rx.Clean) (hrel : Reliable tx)
    (fs : List Fragment) (hfs : ∀ f ∈ fs, Sendable S f) (hcount : fs.length < 2 ^ 64) (k : Nat) (rest : Bytes)
    (hrx : rx.bytes = t.answer S (helloMsg S cfg p) ++ (t.send S (helloMsg S cfg p) (fs ++ [⟨21, [1, 0], k⟩]) ++ rest))
    (hhello : 5 + helloLength S cfg p ≤ wb.length) (hwb : 133 ≤ wb.length) (hwb' : wb.length < 65652) (hrb : 192 ≤ rb.length)
    (hcert : t.certificate.bytes.length + 17 ≤ rb.length)
    (hk : 19 + k ≤ rb.length ∧ 19 + k < 65536)
    (hfrag : ∀ f ∈ fs, f.inner.length + 16 ≤ rb.length ∧ f.inner.length + 16 < 65536) :
    ∃ c', Conn.open_ S cfg p (PkiVerifier.new ca) c = (.ok (), c') ∧
      Session131 S t (helloMsg S cfg p) (if t.request then [certificateMsg [] []] else []) fs tx.log c' := by
  have hS := C95_lawful S hs
  have ht : t.Sized := ⟨hrand, hmsg, hcerts, ⟨.ecdsaSecp256r1Sha256, by rw [hscheme]; decide⟩, fun m => by
    have := (hsign m).2; omega⟩
  have hx := C98_conforming hs cfg p hfit ha hb (x := t.flight S (helloMsg S cfg p))
    (by rw [← hpsk]; exact textbook_shaped (helloMsg S cfg p) hs ht) (dheFrom_agrees hs cfg p hfit t.secret ha hb)
  obtain ⟨more, hrest⟩ := List.head?_eq_some_iff.1 hleaf
  have hauth : AuthFlight (WebAccepts W now ca (some host)) (WebSignedWith W alloc) S N (helloMsg S cfg p)
      (t.flight S (helloMsg S cfg p)) :=
    textbook_auth _ (by rw [hrest]; simp) hN hchain fun m =>
      ⟨leaf, more, .ecdsaSecp256r1Sha256, .ecdsaP256Sha256, hrest, by rw [hscheme]; decide, by decide, .inr (by decide), (hsign m).1⟩
  refine C131_session hs cfg p _ t ht hpsk hfit ha hb ?_
    (run_authenticated S N cfg p _ _ _ hv hx (textbook_accepted _ hs ht) host hname (pkiSetHostname_fits hlen _) hauth
      (web_accepts S hS W alloc now N ca hparse h32 host))
    (textbook_no_certificate p hc _).1 (fun h h' => absurd (hc h) h')
    hn hclean hrel fs hfs hcount k rest hrx hhello hwb hwb' hrb hcert
    (fun m hm => by rw [(textbook_no_certificate (S := S) p hc []).2 m hm]; omega) hk hfrag
  intro ops name ho hnn
  rw [hv] at ho
  injection ho with ho
  subst ho
  rw [hname] at hnn
  injection hnn with hnn
  subst hnn
  exact ⟨_, pkiSetHostname_fits hlen _⟩

/-! ## Examples -/

set_option maxRecDepth 100000 in
-- C131_psk: a session ticket and two bytes, close_notify with padding, then something else; three reads get the bytes and the end
example : ∃ rx c c', Conn.new (aes128GcmSha256 false) rx ⟨[], []⟩ (List.replicate 2048 0) (List.replicate 2048 0) = .ok c ∧
    Conn.open_ (aes128GcmSha256 false) recPskCfg recPskProvider () c = (.ok (), c') ∧
    Session131 (aes128GcmSha256 false) pskServer (helloMsg (aes128GcmSha256 false) recPskCfg recPskProvider) [] someData [] c' ∧
    ∀ n, (dataOf someData).length < n → ∀ outs, outs = readerOuts (runAny (aes128GcmSha256 false) (List.replicate n (.reader (.read 1))) c').1 →
      delivered outs = dataOf someData ∧ .err .connectionClosed ∈ outs := by
  obtain ⟨c, hc⟩ := new_exists (aes128GcmSha256 false)
    [.data (pskServer.answer (aes128GcmSha256 false) (helloMsg (aes128GcmSha256 false) recPskCfg recPskProvider) ++
      (pskServer.send (aes128GcmSha256 false) (helloMsg (aes128GcmSha256 false) recPskCfg recPskProvider)
        (someData ++ [⟨21, [1, 0], 5⟩]) ++ [23, 3, 3, 9, 9]))] 2048 (by decide)
  obtain ⟨d1, d2, d3, -⟩ := someData_ok (aes128GcmSha256 false)
  have hl : 5 + helloLength (aes128GcmSha256 false) recPskCfg recPskProvider ≤ 2048 := by decide +kernel
  obtain ⟨c', k1, k2⟩ := C131_psk ⟨false, .inl rfl⟩ recPskCfg recPskProvider rfl () pskServer
    ⟨by decide, by decide, by decide, ⟨.ecdsaSecp256r1Sha256, by decide⟩, fun _ => le_trans (show 0 + 8 ≤ 80 by decide) (le_max_left _ _)⟩ (fun h => by cases h) (by decide +kernel) recPsk_fits rec_scalar
    (by decide +kernel) hc
    (by intro e he; exact ⟨_, by simp [Textbook.answer, ServerFlight.bytes, plaintextRecord], List.mem_singleton.1 he⟩)
    (by intro a ha; cases ha) someData d1 d2 5 [23, 3, 3, 9, 9] (by simp [Rx.bytes]) (by simpa using hl) (by simp) (by simp) (by simp)
    (by rw [List.length_replicate]; decide) (by simp) (by simpa using d3)
  refine ⟨_, c, c', hc, k1, k2, ?_⟩
  rintro n hn _ rfl
  refine (k2.reads (List.replicate n (.reader (.read 1)))).complete (List.replicate n 1) ?_ ?_ (by simpa using hn)
  · have : ∀ n, readerOps (List.replicate n (.reader (.read 1))) = (List.replicate n 1).map ROp.read := by
      intro n
      induction n with
      | zero => rfl
      | succ n ih => simp only [List.replicate_succ, readerOps, List.map_cons, ih]
    exact this n
  · intro m hm
    rw [List.eq_of_mem_replicate hm]
    decide

set_option maxRecDepth 100000 in
-- C131_webpki
example : ∃ rx c c', Conn.new (aes128GcmSha256 false) rx ⟨[], []⟩ (List.replicate 2048 0) (List.replicate 2048 0) = .ok c ∧
    Conn.open_ (aes128GcmSha256 false) (recCfg []) webClient (PkiVerifier.new (.x509 selfCert)) c = (.ok (), c') ∧
    Session131 (aes128GcmSha256 false) selfServer (helloMsg (aes128GcmSha256 false) (recCfg []) webClient)
      [certificateMsg [] []] someData [] c' := by
  obtain ⟨c, hc⟩ := new_exists (aes128GcmSha256 false)
    [.data (selfServer.answer (aes128GcmSha256 false) (helloMsg (aes128GcmSha256 false) (recCfg []) webClient) ++
      (selfServer.send (aes128GcmSha256 false) (helloMsg (aes128GcmSha256 false) (recCfg []) webClient)
        (someData ++ [⟨21, [1, 0], 0⟩]) ++ []))] 2048 (by decide)
  obtain ⟨d1, d2, d3, -⟩ := someData_ok (aes128GcmSha256 false)
  have hm := selfServer_certificate
  have hfit : HelloFits (aes128GcmSha256 false) (recCfg []) webClient :=
    ⟨trusting_fits.1.random, trusting_fits.1.alpn, trusting_fits.1.length⟩
  have hl : 5 + helloLength (aes128GcmSha256 false) (recCfg []) webClient ≤ 1024 := trusting_fits.2
  obtain ⟨c', k1, k2⟩ := C131_webpki ⟨false, .inl rfl⟩ selfWeb false none 1024 (recCfg []) webClient
    (.x509 selfCert) rfl (fun _ _ _ => ⟨rfl, rfl⟩) (by decide) (ascii "example.com") rec_name.2 (by decide) selfServer
    (List.length_replicate ..) (fun _ => rfl)
    ⟨selfCert, selfCert, [], rfl, rfl, by simp [selfWeb], by rintro name ⟨⟩; exact ⟨rfl, by simp [selfWeb]⟩⟩ (leaf := selfCert) rfl
    rfl selfWeb_verifies (by show [selfCert].length ≤ 16; decide)
    (by omega) hm (by rw [rec_name.1]; rfl) hfit rec_scalar (by show scalarOf [7] ≠ 0; decide +kernel) hc
    (by intro e he; exact ⟨_, by simp [Textbook.answer, ServerFlight.bytes, plaintextRecord], List.mem_singleton.1 he⟩)
    (by intro a ha; cases ha) someData d1 d2 0 [] (by simp [Rx.bytes]) (by simp; omega) (by simp) (by simp) (by simp)
    (by simp; omega) (by simp) (by simpa using d3)
  exact ⟨_, c, c', hc, k1, k2⟩

set_option maxRecDepth 100000 in
-- C131_native
example : ∃ rx c c', Conn.new (aes128GcmSha256 false) rx ⟨[], []⟩ (List.replicate 2048 0) (List.replicate 2048 0) = .ok c ∧
    Conn.open_ (aes128GcmSha256 false) (recCfg []) trustingClient (PkiVerifier.new (.x509 selfCert)) c = (.ok (), c') ∧
    Session131 (aes128GcmSha256 false) selfServer (helloMsg (aes128GcmSha256 false) (recCfg []) trustingClient)
      [certificateMsg [] []] someData [] c' := by
  obtain ⟨dc, h1, h2, -⟩ := selfCert_reads
  obtain ⟨c, hc⟩ := new_exists (aes128GcmSha256 false)
    [.data (selfServer.answer (aes128GcmSha256 false) (helloMsg (aes128GcmSha256 false) (recCfg []) trustingClient) ++
      (selfServer.send (aes128GcmSha256 false) (helloMsg (aes128GcmSha256 false) (recCfg []) trustingClient)
        (someData ++ [⟨21, [1, 0], 0⟩]) ++ [0]))] 2048 (by decide)
  obtain ⟨d1, d2, d3, -⟩ := someData_ok (aes128GcmSha256 false)
  have hm := selfServer_certificate
  have hsg := fun m => ecdsa_valid noPki derTags (by constructor <;> decide +kernel) (selfServer_signs m)
  obtain ⟨c', k1, k2⟩ := C131_native ⟨false, .inl rfl⟩ (noPki.concrete derTags) ⟨false, false, false⟩ none 1024 (recCfg []) trustingClient
    (.x509 selfCert) rfl (by intro k hk; cases hk) (ascii "example.com") rec_name.2 (by decide) selfServer (List.length_replicate ..)
    (fun _ => rfl) selfCert_chain ⟨.ecdsaSecp256r1Sha256, by show (_, 0x0403) ∈ _; decide⟩
    (fun m => ⟨selfCert, [], dc, _, .ecdsaSecp256r1Sha256, .ecdsaP256Sha256, rfl, h1, h2, by show (_, 0x0403) ∈ _; decide, by decide, trivial, (hsg m).1⟩)
    (fun m => by have := (hsg m).2; omega)
    (by show [selfCert].length ≤ 16; decide)
    (by omega) hm (by rw [rec_name.1]; rfl) trusting_fits.1 rec_scalar (by show scalarOf [7] ≠ 0; decide +kernel) hc
    (by intro e he; exact ⟨_, by simp [Textbook.answer, ServerFlight.bytes, plaintextRecord], List.mem_singleton.1 he⟩)
    (by intro a ha; cases ha) someData d1 d2 0 [0] (by simp [Rx.bytes]) (by have := trusting_fits.2; simp; omega) (by simp) (by simp) (by simp)
    (by simp; omega) (by simp) (by simpa using d3)
  exact ⟨_, c, c', hc, k1, k2⟩

end ETls
