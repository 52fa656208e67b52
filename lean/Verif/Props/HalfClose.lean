import Verif.Props.Ending
import Verif.Props.EmbeddedIo

/-! # C132: closing a connection that the server has closed -/

namespace ETls

open Spec Crypto

variable {V : Type}

section
variable (S : Suite)

/-- `close` when the connection is not open: the buffered data, then a plaintext record of content type 20, then a flush
(`asynch.rs:244-263`, `record.rs:106-111`). -/
theorem close_run_closed (hS : S.Lawful) (c : Conn) (content : Bytes) (hw : c.wr.Ready S content) (ho : c.opened = false)
    (ht : Reliable c.tx) (hc : c.ks.client.st.counter + 2 < 2 ^ 64) :
    ∃ (evs : List OutEv) (sent : List Bytes), (Conn.close S c).1 = .ok () ∧
      (Conn.close S c).2.tx.log = c.tx.log ++ evs ∧ sent.flatten = content ∧
      evs.getLast? = some .flushed ∧
      wrote evs = ciphertextRecords S c.ks.client.st.key c.ks.client.st.iv c.ks.client.st.counter
        (sent.map (fun x => (23, x))) ++ [[20, 3, 1, 0, 2, 1, 0]] ∧
      ∀ x ∈ sent, x.length ≤ c.wb.buffer.length - 133 := by
  obtain ⟨evs, sent, f1, f2, f3, f4, f5, f6, f7, f8, f9, f10, f11, f12, f13, f14⟩ :=
    flush_step S hS c.wr content hw (by show c.ks.client.st.counter + 1 < _; omega)
  obtain ⟨g1, g2, g3⟩ := f14 ht
  generalize hfl : WrHalf.flush S c.wr = fl at *
  obtain ⟨r, w1⟩ := fl
  simp only at f2 f3 f4 f5 f6 f7 f8 f9 f10 g1 g2
  subst g2
  have hflush : Conn.flush S c = (.ok (), c.setWr w1) := by simp only [Conn.flush, onWr, hfl]
  have hcnt : w1.wks.st.counter + 1 < 2 ^ 64 := by
    rw [f10]; show c.ks.client.st.counter + sent.length + 1 < _; omega
  have hsz : 133 ≤ w1.wb.buffer.length := f2.size
  obtain ⟨wb2, k1, k2, k3⟩ := writeRecord_ok S hS (ClientRecord.closeNotify false) w1.wks w1.wb
    (alertMsg 1 0) (c.setWr w1).ks.server.transcript (alertMsg 1 0) _ f3 (by omega) (alert_appends ⟨.warning, .closeNotify⟩)
    (finishes_alert S _ _ _ _ _)
    (by
      have : recordRoom (ClientRecord.closeNotify false).header (alertMsg 1 0) = 7 := by
        simp [recordRoom, ClientRecord.closeNotify, ClientRecord.header, ClientRecordHeader.isEncrypted, alertMsg]
      omega)
  have hspec : recordBytes S w1.wks (ClientRecord.closeNotify false).header (alertMsg 1 0) = [20, 3, 1, 0, 2, 1, 0] := by
    rfl
  rw [hspec] at k1
  have hwr := Conn.writeRecord_of S (c := c.setWr w1) k1
  have hopen : (c.setWr w1).opened = false := by show w1.opened = false; rw [f5]; exact ho
  have hclose : Conn.close S c = respond [20, 3, 1, 0, 2, 1, 0] ((c.setWr w1).wrote wb2 (c.setWr w1).ks.server.transcript) := by
    unfold Conn.close
    rw [M.bind_ok hflush, M.get_bind]
    simp only [hopen]
    rw [M.bind_ok hwr]
    rfl
  rw [hclose]
  have hcase := respond_cases [20, 3, 1, 0, 2, 1, 0] ((c.setWr w1).wrote wb2 (c.setWr w1).ks.server.transcript) hcnt
  have hrel : Reliable ((c.setWr w1).wrote wb2 (c.setWr w1).ks.server.transcript).tx := g1
  generalize hres : respond [20, 3, 1, 0, 2, 1, 0] ((c.setWr w1).wrote wb2 (c.setWr w1).ks.server.transcript) = res at hcase
  cases hcase with
  | failed _ _ _ _ hn => exact absurd hrel hn
  | flushFailed _ _ hn => exact absurd hrel hn
  | done ctl' hr =>
    refine ⟨evs ++ [.wrote [20, 3, 1, 0, 2, 1, 0], .flushed], sent, rfl, ?_, g3, by simp, ?_, f13⟩
    · show w1.tx.log ++ _ = _
      rw [f9, List.append_assoc]; rfl
    · rw [wrote_append, f12]
      rfl

theorem receive_append {key iv : Bytes} : ∀ (rs : List Bytes) (n : Nat) (r : Bytes),
    receiveRecord S key iv (n + rs.length) r = none → receiveRecords S key iv n (rs ++ [r]) = none
  | [], n, r, h => by
    simp only [List.nil_append, receiveRecords]
    rw [show n = n + ([] : List Bytes).length from rfl, h]
  | x :: rs, n, r, h => by
    have := receive_append rs (n + 1) r (by rw [← h]; congr 1; simp only [List.length_cons]; omega)
    simp only [List.cons_append, receiveRecords, this]
    cases receiveRecord S key iv n x <;> rfl

end

namespace Spec

/-- What becomes of `close` after the calls `ops`, if the connection is then not open: it succeeds, and the server has heard all that
the client has written; but what follows is not a record of this connection, and the server gets no close_notify, whatever of the
client's records arrive. -/
def NotClosed (S : Suite) (key iv : Bytes) (c' : Conn) (ops : List AnyOp) : Prop :=
  (Conn.close S (runAny S ops c').2).1 = .ok () ∧
  ∃ evs records got, (Conn.close S (runAny S ops c').2).2.tx.log = c'.tx.log ++ evs ∧
    wrote evs = records ++ [[20, 3, 1, 0, 2, 1, 0]] ∧
    receiveRecords S key iv 0 records = some got ∧ contents got = accepted (writerOps ops) (writerOuts (runAny S ops c').1) ∧
    receiveRecords S key iv 0 (wrote evs) = none ∧
    ∀ arrived got', NoneForged S key iv (wrote evs) arrived → receiveRecords S key iv 0 arrived = some got' → ∀ m, (21, m) ∉ got'

end Spec

section
variable {S : Suite}

theorem plain_not_received (key iv : Bytes) (n : Nat) : receiveRecord S key iv n [20, 3, 1, 0, 2, 1, 0] = none := by
  unfold receiveRecord
  rw [if_neg]
  rintro ⟨h, -⟩
  injection h with h
  cases h

theorem noneForged_front {key iv : Bytes} {records arrived : List Bytes}
    (h : NoneForged S key iv (records ++ [[20, 3, 1, 0, 2, 1, 0]]) arrived) : NoneForged S key iv records arrived := by
  intro i r f h1 h2
  have h3 := h i r f h1 h2
  by_cases hi : i < records.length
  · rwa [List.getElem?_append_left hi] at h3
  · rw [List.getElem?_append_right (by omega)] at h3
    cases hj : i - records.length with
    | zero =>
      rw [hj] at h3
      simp only [List.getElem?_cons_zero, Option.some.injEq] at h3
      subst h3
      rw [plain_not_received] at h2
      cases h2
    | succ j =>
      rw [hj] at h3
      simp at h3

/-- **C132, in part** A whole connection, any calls of both sides, over a transport that works for sending; at the end the connection
is not open any more (because the server's close_notify was read).  Then `close` succeeds, and the server has heard all that `write`
accepted, also what was still in the buffer.  Missing: the close_notify; what `close` sends instead is no record of the connection, so
that the server never gets one. -/
theorem C132_close_partial (hS : S.Lawful) (cfg : Config) (p : Provider V) (hr : p.random.length = 32) (v : V) {rx : Rx}
    {tx : Tx} {rb wb : Bytes} {c c' : Conn} (hn : Conn.new S rx tx rb wb = .ok c)
    (h : Conn.open_ S cfg p v c = (.ok (), c')) (ht : Reliable c'.tx) (hwb : wb.length < 65652) (ops : List AnyOp)
    (hops : ops.length + 2 < 2 ^ 64) (ho : (runAny S ops c').2.opened = false) :
    NotClosed S c'.ks.client.st.key c'.ks.client.st.iv c' ops := by
  obtain ⟨hf, _, _, _, hwb', _⟩ := Conn.new_parts S hn
  obtain ⟨h1, h2, h3, _, h5⟩ := open_leaves S hS cfg p hr v hf h
  have hsz : c'.wb.buffer.length = wb.length := by
    obtain ⟨w, hd⟩ := open_describes S hS cfg p v hf h
    rw [hd.writer.2, hwb']
  obtain ⟨content, e1, s1, i⟩ := any_writes S hS ops c' []
    ⟨.idle h1, by show 133 ≤ c'.wb.buffer.length; omega, h3⟩ (by omega)
  obtain ⟨g1, g2⟩ := i.accepts ht
  have hcnt := i.counter
  have hle := i.sentLe
  obtain ⟨e2, s2, k1, k2, k3, k4, k5, k6⟩ := close_run_closed S hS (runAny S ops c').2 content i.ready ho g1 (by omega)
  have hw : wrote (e1 ++ e2) = ciphertextRecords S c'.ks.client.st.key c'.ks.client.st.iv 0 ((s1 ++ s2).map (fun x => (23, x))) ++
      [[20, 3, 1, 0, 2, 1, 0]] := by
    rw [wrote_append, i.wrote, k5, i.key, i.iv, hcnt, h5, List.map_append, ← List.append_assoc,
      ciphertextRecords_append S _ _ _ (s1.map _), List.length_map]
  have hrec : receiveRecords S c'.ks.client.st.key c'.ks.client.st.iv 0 (ciphertextRecords S c'.ks.client.st.key
      c'.ks.client.st.iv 0 ((s1 ++ s2).map (fun x => (23, x)))) = some ((s1 ++ s2).map (fun x => (23, x))) := by
    apply receive_ciphertexts S hS
    intro f hf
    obtain ⟨x, hx, rfl⟩ := List.mem_map.1 hf
    have hx' : x.length ≤ c'.wb.buffer.length - 133 := by
      rcases List.mem_append.1 hx with hx | hx
      · exact i.limit x hx
      · have := k6 x hx
        rw [i.size] at this
        exact this
    simp only
    omega
  refine ⟨k1, e1 ++ e2, _, _, by rw [k2, i.log, List.append_assoc], hw, hrec, ?_, ?_, ?_⟩
  · rw [contents_data, List.flatten_append, k3, ← g2, List.nil_append]
  · rw [hw]
    exact receive_append S _ _ _ (plain_not_received _ _ _)
  · intro arrived got' ha hg m hm
    rw [hw] at ha
    have hp := noneForged_prefix hrec (noneForged_front ha) hg
    have := hp.subset hm
    simp at this

theorem runAny_later (ops later : List AnyOp) : ∀ c : Conn,
    (runAny S (ops ++ later) c).2 = (runAny S later (runAny S ops c).2).2 := by
  induction ops with
  | nil => intro c; rfl
  | cons op ops ih => intro c; exact ih _

/-- **C132 is false** once the server's close_notify was read (the call `op` has reported it), in every connection, whatever the
application does then (`later`): every `write` is refused, and after `close` the server has no close_notify from the client. -/
theorem C132_never (hS : S.Lawful) (cfg : Config) (p : Provider V) (hr : p.random.length = 32) (v : V) {rx : Rx}
    {tx : Tx} {rb wb : Bytes} {c c' : Conn} (hn : Conn.new S rx tx rb wb = .ok c)
    (h : Conn.open_ S cfg p v c = (.ok (), c')) (ht : Reliable c'.tx) (hwb : wb.length < 65652) (ops : List AnyOp)
    (hp : ∀ o ∈ (runAny S ops c').1, o ≠ .read .panic) (op : ROp)
    (hc : ((AnyOp.reader op).run S (runAny S ops c').2).1 = .read (.err .connectionClosed)) (later : List AnyOp)
    (hops : ops.length + 1 + later.length + 2 < 2 ^ 64) :
    List.Forall₂ Refused later (runAny S later ((AnyOp.reader op).run S (runAny S ops c').2).2).1 ∧
    NotClosed S c'.ks.client.st.key c'.ks.client.st.iv c' (ops ++ .reader op :: later) := by
  obtain ⟨h1, -, h2⟩ := C122_final_partial S hS cfg p v hn h ops hp op hc later
  refine ⟨h2, C132_close_partial hS cfg p hr v hn h ht hwb _ (by simp; omega) ?_⟩
  rw [runAny_later]
  exact (C28_final S later _ h1).1

end

/-! ## Examples -/

/-- The server sends two bytes and closes. -/
def closingRx : Rx := [.data (exApp 0 ⟨23, [7, 8], 0⟩ ++ exApp 1 ⟨21, [1, 0], 0⟩)]

set_option maxRecDepth 20000 in
theorem closing_opened : (exOpened [] closingRx).1 = .ok () := by decide +kernel

theorem exOpened_eq {ctl : List OutCtl} {rx : Rx} (h : (exOpened ctl rx).1 = .ok ()) :
    Conn.open_ toySuite exCfg exProv () (exLife ctl rx) = (.ok (), (exOpened ctl rx).2) := by
  unfold exOpened at h ⊢
  rw [← h]

set_option maxRecDepth 20000 in
theorem closing_outs : (runAny toySuite [.writer (.write [5]), .reader (.read 10)] (exOpened [] closingRx).2).1 =
      [.wrote (.ok 1), .read (.ok ⟨[7, 8], [[7, 8]], [7, 8]⟩)] ∧
    ((AnyOp.reader (.read 10)).run toySuite (runAny toySuite [.writer (.write [5]), .reader (.read 10)] (exOpened [] closingRx).2).2).1 =
      .read (.err .connectionClosed) ∧
    (∀ c ∈ (exOpened [] closingRx).2.tx.ctl, c = .ok) ∧ exProv.random.length = 32 := by decide +kernel

-- C132_never, C132_close_partial: one byte written but not flushed, then the server closes; `close` still sends the byte
example : List.Forall₂ Refused [.writer (.write [6])] (runAny toySuite [.writer (.write [6])] ((AnyOp.reader (.read 10)).run toySuite
      (runAny toySuite [.writer (.write [5]), .reader (.read 10)] (exOpened [] closingRx).2).2).2).1 ∧
    NotClosed toySuite (exOpened [] closingRx).2.ks.client.st.key (exOpened [] closingRx).2.ks.client.st.iv (exOpened [] closingRx).2
      ([.writer (.write [5]), .reader (.read 10)] ++ .reader (.read 10) :: [.writer (.write [6])]) := by
  obtain ⟨h1, h2, h3, h4⟩ := closing_outs
  have ho : Conn.open_ toySuite exCfg exProv () (exLife [] closingRx) = (.ok (), (exOpened [] closingRx).2) :=
    exOpened_eq closing_opened
  refine C132_never toySuite_lawful exCfg exProv h4 () (exLife_new [] closingRx) ho h3
    (by rw [List.length_replicate]; decide) _ ?_ _ h2 _ (by simp)
  rw [h1]
  simp

end ETls
