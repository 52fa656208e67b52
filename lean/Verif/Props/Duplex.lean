import Verif.Props.Writer
import Verif.Props.OpenUnique

/-! # C79: a whole connection refines a description without buffers -/

namespace ETls

variable (S : Suite) {V : Type}

open Spec (Writer Wrote WriteCall Use UseResult Duplex Setting Uses Reader Result Opens OpenEnd)

/-- The connection `c` is in the state `d`. -/
structure Conn.Are (c : Conn) (d : Duplex) : Prop where
  sane : Sane S c.rd
  reader : d.reader = readerOf c.rd
  writer : c.wr.Is S d.writer
  answers : d.answers = c.tx.ctl

/-- Its keys and sizes. -/
def Conn.setting (c : Conn) : Setting where
  readKey := c.ks.server.st.key
  readIv := c.ks.server.st.iv
  writeKey := c.ks.client.st.key
  writeIv := c.ks.client.st.iv
  cap := c.rr.buf.length
  limit := c.wb.buffer.length - 133

/-- A call of either half. -/
def AnyOp.use : AnyOp → Use
  | .reader op => .read op.spec
  | .writer op => .write op.spec

/-- The result of a call, as the description has it. -/
def UseAgrees : UseResult → AnyOut → Prop
  | .read r, .read x => Agrees r x
  | .wrote r, .wrote x => x = r
  | _, _ => False

/-- **C79.** Any interleaving of reading and writing calls on a connection between two records of an error-free receiving
side, whatever the sending side answers, is a history of the two-sided description: the same results up to the first
panic (if there is one), the same effects on the transport, and the same state afterwards. -/
theorem C79_duplex (hS : S.Lawful) (ops : List AnyOp) : ∀ (c : Conn) (d : Duplex), c.Are S d →
    ∃ rs evs d', Uses S c.setting (ops.map AnyOp.use) d rs evs d' ∧
      List.Forall₂ UseAgrees rs (runAny S (ops.take rs.length) c).1 ∧
      (runAny S (ops.take rs.length) c).2.tx.log = c.tx.log ++ evs ∧
      ∀ e, d' = some e → rs.length = ops.length ∧ (runAny S ops c).2.Are S e ∧ (runAny S ops c).2.setting = c.setting := by
  induction ops with
  | nil =>
    intro c d hd
    exact ⟨[], [], some d, .nil d, .nil, by simp [runAny], fun e he => ⟨rfl, Option.some.inj he ▸ hd, rfl⟩⟩
  | cons op ops ih =>
    intro c d hd
    cases op with
    | reader op =>
      obtain ⟨res, s1, c1, c2, c3⟩ := call_effect S hS op hd.sane
      rw [← hd.reader] at c1
      have hrun : ∀ n, runAny S ((AnyOp.reader op :: ops).take (n + 1)) c =
          (.read (op.run S c.rd).1 :: (runAny S (ops.take n) (c.setRd (op.run S c.rd).2)).1,
            (runAny S (ops.take n) (c.setRd (op.run S c.rd).2)).2) := fun n => rfl
      have hrun' : runAny S (AnyOp.reader op :: ops) c =
          (.read (op.run S c.rd).1 :: (runAny S ops (c.setRd (op.run S c.rd).2)).1,
            (runAny S ops (c.setRd (op.run S c.rd).2)).2) := rfl
      by_cases hab : res = .abort
      · subst hab
        refine ⟨[.read .abort], [], none, .readAbort _ _ _ _ c1, ?_, ?_, fun e he => by cases he⟩
        · exact .cons c2 .nil
        · rw [List.append_nil]; rfl
      · obtain ⟨d1, d2, d3, d4, rfl⟩ := c3 hab
        obtain ⟨rs, evs, d', i1, i2, i3, i4⟩ := ih (c.setRd (op.run S c.rd).2) { d with reader := readerOf (op.run S c.rd).2 }
          ⟨d1, rfl, ⟨hd.writer.pends, hd.writer.seq, hd.writer.policy, hd.writer.size, hd.writer.iv⟩, hd.answers⟩
        have hset : (c.setRd (op.run S c.rd).2).setting = c.setting := by
          have e1 : (op.run S c.rd).2.rks.st.key = c.ks.server.st.key := d2
          have e2 : (op.run S c.rd).2.rks.st.iv = c.ks.server.st.iv := d3
          have e3 : (op.run S c.rd).2.rr.buf.length = c.rr.buf.length := d4
          simp only [Conn.setting, Conn.setRd, e1, e2, e3]
        rw [hset] at i1
        refine ⟨.read res :: rs, evs, d', .read _ _ _ _ _ _ _ _ c1 hab i1, ?_, ?_, ?_⟩
        · rw [List.length_cons, hrun]; exact .cons c2 i2
        · rw [List.length_cons, hrun]; exact i3
        · intro e he
          obtain ⟨j1, j2, j3⟩ := i4 e he
          rw [hrun']
          exact ⟨by simp [j1], j2, j3.trans hset⟩
    | writer op =>
      have hdo := wop_does S hS op c.wr d.writer hd.writer
      have hrun : ∀ n, runAny S ((AnyOp.writer op :: ops).take (n + 1)) c =
          (.wrote (op.run S c.wr).1 :: (runAny S (ops.take n) (c.setWr (op.run S c.wr).2)).1,
            (runAny S (ops.take n) (c.setWr (op.run S c.wr).2)).2) := fun n => rfl
      have hrun' : runAny S (AnyOp.writer op :: ops) c =
          (.wrote (op.run S c.wr).1 :: (runAny S ops (c.setWr (op.run S c.wr).2)).1,
            (runAny S ops (c.setWr (op.run S c.wr).2)).2) := rfl
      have hop : d.reader.opened = c.opened := by rw [hd.reader]; rfl
      have hw : op.spec.run S c.wr.wks.st.key c.wr.wks.st.iv (c.wr.wb.buffer.length - 133) c.wr.opened d.writer c.wr.tx.ctl =
          op.spec.run S c.setting.writeKey c.setting.writeIv c.setting.limit d.reader.opened d.writer d.answers := by
        rw [hop, hd.answers]; rfl
      rw [hw] at hdo
      generalize hy : op.spec.run S c.setting.writeKey c.setting.writeIv c.setting.limit d.reader.opened d.writer d.answers = y at hdo
      have hlog : (op.run S c.wr).2.tx.log = c.tx.log ++ y.events := congrArg Tx.log hdo.tx
      have hctl : (op.run S c.wr).2.tx.ctl = y.answers := congrArg Tx.ctl hdo.tx
      by_cases hab : y.result = .panic
      · refine ⟨[.wrote .panic], y.events, none, .writeAbort _ _ _ y hy.symm hab, ?_, ?_, fun e he => by cases he⟩
        · exact .cons (hdo.result.trans hab) .nil
        · simp only [List.length_singleton]
          rw [hrun 0]
          exact hlog
      · have hset : (c.setWr (op.run S c.wr).2).setting = c.setting := by
          have e1 : (op.run S c.wr).2.wks.st.key = c.ks.client.st.key := hdo.key
          have e2 : (op.run S c.wr).2.wks.st.iv = c.ks.client.st.iv := hdo.iv
          have e3 : (op.run S c.wr).2.wb.buffer.length = c.wb.buffer.length := hdo.size
          simp only [Conn.setting, Conn.setWr, e1, e2, e3]
        have hopn : (op.run S c.wr).2.opened = c.opened := hdo.opened
        have hrd : (c.setWr (op.run S c.wr).2).rd = c.rd := by
          simp only [Conn.rd, Conn.setWr, hopn]
        obtain ⟨rs, evs, d', i1, i2, i3, i4⟩ := ih (c.setWr (op.run S c.wr).2) { d with writer := y.writer, answers := y.answers }
          ⟨by rw [hrd]; exact hd.sane, by rw [hrd]; exact hd.reader, hdo.writer, hctl.symm⟩
        rw [hset] at i1
        refine ⟨.wrote y.result :: rs, y.events ++ evs, d', .write _ _ _ y _ _ _ hy.symm hab i1, ?_, ?_, ?_⟩
        · rw [List.length_cons, hrun]; exact .cons hdo.result i2
        · rw [List.length_cons, hrun]
          refine i3.trans ?_
          show (op.run S c.wr).2.tx.log ++ _ = _
          rw [hlog, List.append_assoc]
        · intro e he
          obtain ⟨j1, j2, j3⟩ := i4 e he
          rw [hrun']
          exact ⟨by simp [j1], j2, j3.trans hset⟩

/-- **C79.** The description has exactly one history for each list of calls. -/
theorem C79_deterministic {k : Setting} {us : List Use} {d : Duplex} {rs rs' : List UseResult} {evs evs' : List OutEv}
    {d1 d2 : Option Duplex} (h1 : Uses S k us d rs evs d1) (h2 : Uses S k us d rs' evs' d2) :
    rs = rs' ∧ evs = evs' ∧ d1 = d2 := by
  induction h1 generalizing rs' evs' with
  | nil d => cases h2; exact ⟨rfl, rfl, rfl⟩
  | read c us d s r rs evs d' hc hr hu ih => cases h2 with
    | read _ _ _ s2 r2 rs2 evs2 _ hc2 hr2 hu2 =>
      obtain ⟨rfl, rfl⟩ := call_unique S hc hc2
      obtain ⟨rfl, rfl, rfl⟩ := ih hu2
      exact ⟨rfl, rfl, rfl⟩
    | readAbort _ _ _ s2 hc2 => exact absurd (call_unique S hc hc2).1 hr
  | readAbort c us d s hc => cases h2 with
    | read _ _ _ s2 r2 rs2 evs2 _ hc2 hr2 hu2 => exact absurd (call_unique S hc hc2).1.symm hr2
    | readAbort _ _ _ s2 hc2 => exact ⟨rfl, rfl, rfl⟩
  | write c us d w rs evs d' hc hr hu ih => cases h2 with
    | write _ _ _ w2 rs2 evs2 _ hc2 hr2 hu2 =>
      obtain rfl := hc.trans hc2.symm
      obtain ⟨rfl, rfl, rfl⟩ := ih hu2
      exact ⟨rfl, rfl, rfl⟩
    | writeAbort _ _ _ w2 hc2 hr2 =>
      obtain rfl := hc.trans hc2.symm
      exact absurd hr2 hr
  | writeAbort c us d w hc hr => cases h2 with
    | write _ _ _ w2 rs2 evs2 _ hc2 hr2 hu2 =>
      obtain rfl := hc.trans hc2.symm
      exact absurd hr hr2
    | writeAbort _ _ _ w2 hc2 hr2 =>
      obtain rfl := hc.trans hc2.symm
      exact ⟨rfl, rfl, rfl⟩

/-! ## Whole connections -/

/-- The state in which a successful `open` leaves the connection. -/
theorem open_are (hS : S.Lawful) (cfg : Config) (p : Provider V) (v : V) {rx : Rx} {tx : Tx} {rb wb : Bytes} {c c' : Conn}
    (hn : Conn.new S rx tx rb wb = .ok c) (hclean : rx.Clean) (hsize : 133 ≤ wb.length)
    (h : Conn.open_ S cfg p v c = (.ok (), c')) :
    c'.Are S (Spec.justOpened c'.rx.bytes c'.tx.ctl) ∧ c'.rr.buf.length = rb.length ∧ c'.wb.buffer.length = wb.length := by
  obtain ⟨hf, hrx, -, hrr, hwb, -, hfp⟩ := Conn.new_parts S hn
  obtain ⟨g1, g2, g3, g4, g5, g6, g7⟩ := open_reader S hS cfg p v hn h
  have hcl : c.rx.Clean := by rw [hrx]; exact hclean
  have hbt : c.rr.Between c.rx.bytes := by
    rw [hrr]
    exact ⟨Nat.zero_le _, .inl rfl⟩
  obtain ⟨-, hrc⟩ := twin_open S cfg p v c c ⟨rfl, hcl, hcl, rfl, hbt⟩
  rw [h] at hrc
  obtain ⟨w, hd⟩ := open_describes S hS cfg p v hf h
  have hlen : c'.wb.buffer.length = wb.length := by rw [hd.writer.2, hwb]
  refine ⟨⟨⟨g1, hrc.clean, hrc.between, g5⟩, ?_, ⟨.idle hd.writer.1, ?_, ?_, ?_, ?_⟩, rfl⟩, g4, hlen⟩
  · rw [readerOf, g2, placeOf]
    simp only [Conn.rd] at *
    rw [g7, g6]
    rfl
  · show 0 = c'.ks.client.st.counter
    rw [hd.clientKeys]; rfl
  · show FlushPolicy.strict = c'.fp
    rw [hd.rest.2, hfp]
  · show 133 ≤ c'.wb.buffer.length
    omega
  · show c'.ks.client.st.iv.length = S.ivLen
    rw [hd.clientKeys]; exact trafficState_iv S hS _

/-- What an interleaving of calls and then `close` do, after the effects `log` on the transport. -/
def Used (k : Setting) (ops : List AnyOp) (d : Duplex) (c : Conn) : Prop :=
  ∃ rs evs d', Uses S k (ops.map AnyOp.use) d rs evs d' ∧
    List.Forall₂ UseAgrees rs (runAny S (ops.take rs.length) c).1 ∧
    (runAny S (ops.take rs.length) c).2.tx.log = c.tx.log ++ evs ∧
    ∀ e, d' = some e → rs.length = ops.length ∧
      (Conn.close S (runAny S ops c).2).1.map (fun _ => 0) =
        (e.writer.close S k.writeKey k.writeIv e.reader.opened e.answers).result ∧
      (Conn.close S (runAny S ops c).2).2.tx.log =
        c.tx.log ++ evs ++ (e.writer.close S k.writeKey k.writeIv e.reader.opened e.answers).events

theorem used_of (hS : S.Lawful) (ops : List AnyOp) (c : Conn) (d : Duplex) (hd : c.Are S d) : Used S c.setting ops d c := by
  obtain ⟨rs, evs, d', h1, h2, h3, h4⟩ := C79_duplex S hS ops c d hd
  refine ⟨rs, evs, d', h1, h2, h3, fun e he => ?_⟩
  obtain ⟨j1, j2, j3⟩ := h4 e he
  have hc := C78_close S hS _ _ j2.writer
  have hk1 : (runAny S ops c).2.ks.client.st.key = c.setting.writeKey := congrArg Setting.writeKey j3
  have hk2 : (runAny S ops c).2.ks.client.st.iv = c.setting.writeIv := congrArg Setting.writeIv j3
  have ho : (runAny S ops c).2.opened = e.reader.opened := by rw [j2.reader]; rfl
  rw [hk1, hk2, ho, ← j2.answers] at hc
  have hlog : (runAny S ops c).2.tx.log = c.tx.log ++ evs := by
    rw [← h3, j1, List.take_length]
  refine ⟨j1, hc.result, ?_⟩
  have := congrArg Tx.log hc.tx
  rw [← hlog]
  exact this

/-- **C79 for whole connections** A connection made with `new` over a receiving side without errors, whatever the chunks
and whatever the sending side answers, that `open`s successfully: its session is described by `x`, and everything
afterwards — any interleaving of calls of both sides, then `close` — is what the description says about the bytes that
remain, the answers of the transport and the session's keys. -/
theorem C79_whole (hS : S.Lawful) (cfg : Config) (p : Provider V) (v : V) {rx : Rx} {tx : Tx} {rb wb : Bytes} {c c' : Conn}
    (hn : Conn.new S rx tx rb wb = .ok c) (hclean : rx.Clean) (hsize : 133 ≤ wb.length)
    (h : Conn.open_ S cfg p v c = (.ok (), c')) :
    ∃ (x : Spec.Session) (rest : Bytes), Established S cfg p v c x c' ∧ rx.bytes = x.received ++ rest ∧
      ∀ ops, Used S (Spec.sessionSetting S (cfg.psk.map (·.1)) x.dhe x.traffic rb.length wb.length) ops
        (Spec.justOpened rest c'.tx.ctl) c' := by
  obtain ⟨hf, hrx, -⟩ := Conn.new_parts S hn
  obtain ⟨x, hx⟩ := open_session S hS cfg p v hf h
  obtain ⟨h1, h2, h3⟩ := open_are S hS cfg p v hn hclean hsize h
  refine ⟨x, c'.rx.bytes, hx, by rw [← hrx]; exact hx.bytes, fun ops => ?_⟩
  have hu := used_of S hS ops c' _ h1
  have hset : c'.setting = Spec.sessionSetting S (cfg.psk.map (·.1)) x.dhe x.traffic rb.length wb.length := by
    have e1 : c'.ks.server.st = trafficState S (Spec.serverApplicationTraffic S (cfg.psk.map (·.1)) x.dhe x.traffic) :=
      hx.serverKeys
    have e2 : c'.ks.client.st = trafficState S (Spec.clientApplicationTraffic S (cfg.psk.map (·.1)) x.dhe x.traffic) :=
      hx.clientKeys
    simp only [Conn.setting, e1, e2, h2, h3]
    rfl
  rw [hset] at hu
  exact hu

/-- **C79, from the first byte** With a working sending side and room for the client's own messages, all of it follows
from the received bytes: `open` does what `Opens` says, and if that is success, all calls of both sides and `close` do
what the description of the open connection says. -/
theorem C79_life (hS : S.Lawful) (cfg : Config) (p : Provider V) (v : V) {rx : Rx} {tx : Tx} {rb wb : Bytes} {c : Conn}
    (hn : Conn.new S rx tx rb wb = .ok c) (hclean : rx.Clean) (hrel : Reliable tx) (hroom : Roomy S cfg p wb.length) :
    ∃ e, Opens S p v cfg.serverName (cfg.psk.map (·.1)) (helloMsg S cfg p) rb.length rx.bytes e ∧
      OpenAgrees S (cfg.psk.map (·.1)) c (Conn.open_ S cfg p v c).1 (Conn.open_ S cfg p v c).2 e ∧
      ∀ sent dhe t rest, e = .opened sent dhe t rest → ∀ ops,
        Used S (Spec.sessionSetting S (cfg.psk.map (·.1)) dhe t rb.length wb.length) ops
          (Spec.justOpened rest (Conn.open_ S cfg p v c).2.tx.ctl) (Conn.open_ S cfg p v c).2 := by
  obtain ⟨hf, hrx, htx, hrr, hwb, -⟩ := Conn.new_parts S hn
  obtain ⟨e, h1, h2⟩ := C77_open S hS cfg p v hf (by rw [hrx]; exact hclean) (by rw [htx]; exact hrel)
    (by rw [hwb]; exact hroom)
  have hcap : c.rr.buf.length = rb.length := by rw [hrr]; rfl
  rw [hrx, hcap] at h1
  refine ⟨e, h1, h2, ?_⟩
  rintro sent dhe t rest rfl ops
  obtain ⟨k1, k2, k3, k4, k5, k6⟩ := h2
  obtain ⟨a1, a2, a3⟩ := open_are S hS cfg p v hn hclean (by have := hroom.certificate; omega) (Prod.ext k1 rfl)
  rw [k4] at a1
  have hu := used_of S hS ops _ _ a1
  have hset : (Conn.open_ S cfg p v c).2.setting = Spec.sessionSetting S (cfg.psk.map (·.1)) dhe t rb.length wb.length := by
    simp only [Conn.setting, k5, k6, a2, a3]
    rfl
  rw [hset] at hu
  exact hu

/-! ## Examples -/

-- C79_life: the handshake of the examples, then whatever calls
set_option maxRecDepth 10000 in
example (ops : List AnyOp) : ∃ dhe t, Used toySuite (Spec.sessionSetting toySuite none dhe t 400 400) ops
    (Spec.justOpened [] []) (Conn.open_ toySuite exCfg exProv () (exNew 400 [.data (exServer exCfg exSH exMin)])).2 := by
  obtain ⟨e, h1, h2, h3⟩ := C79_life toySuite toySuite_lawful exCfg exProv ()
    (exNew_new 400 (by decide) [.data (exServer exCfg exSH exMin)]) (exClean (by decide +kernel)) (by intro a ha; cases ha)
    (by rw [List.length_replicate]; exact exRoomy)
  have hok := exMin_ok
  cases e with
  | opened sent dhe t rest =>
    have h4 := h3 sent dhe t rest rfl ops
    obtain ⟨-, -, -, k4, -⟩ := h2
    have hrest : rest = [] := by rw [← k4]; decide +kernel
    have hctl : (Conn.open_ toySuite exCfg exProv () (exNew 400 [.data (exServer exCfg exSH exMin)])).2.tx.ctl = [] := by
      decide +kernel
    subst hrest
    rw [hctl, List.length_replicate] at h4
    exact ⟨dhe, t, h4⟩
  | error => obtain ⟨y, k1, -⟩ := h2; rw [hok] at k1; cases k1
  | refusal => obtain ⟨y, told, k1, -⟩ := h2; rw [hok] at k1; cases k1
  | abort => obtain ⟨k1, -⟩ := h2; rw [hok] at k1; cases k1

theorem exOpened_used (ctl left : List OutCtl) (bs : Bytes) (hb : bs ≠ []) (hok : (exOpened ctl [.data bs]).1 = .ok ())
    (hctl : (exOpened ctl [.data bs]).2.tx.ctl = left) (ops : List AnyOp) :
    ∃ dhe t rest, Used toySuite (Spec.sessionSetting toySuite none dhe t 400 400) ops (Spec.justOpened rest left)
      (exOpened ctl [.data bs]).2 := by
  rcases hx : exOpened ctl [.data bs] with ⟨r, c'⟩
  rw [hx] at hok hctl
  simp only at hok hctl
  subst hok
  obtain ⟨x, rest, -, -, h⟩ := C79_whole toySuite toySuite_lawful exCfg exProv () (exLife_new ctl [.data bs])
    (by
      intro e he
      rcases List.mem_cons.1 he with rfl | he
      · exact ⟨_, by decide +kernel, rfl⟩
      · rw [List.mem_singleton] at he
        exact ⟨_, hb, he⟩)
    (by rw [List.length_replicate]; decide) hx
  have := h ops
  rw [List.length_replicate, hctl] at this
  exact ⟨x.dhe, x.traffic, rest, this⟩

-- C79_whole: the transport fails on the first record sent after the handshake
set_option maxRecDepth 10000 in
example (ops : List AnyOp) := exOpened_used [.ok, .ok, .ok, .ok, .fail 0 1000] [.fail 0 1000] (exApp 0 ⟨23, [7, 8], 2⟩)
  (by decide +kernel) (by decide +kernel) (by decide +kernel) ops

end ETls
