import Verif.Props.Reader
import Verif.Props.HalfClose

/-! # Reading takes no more than it needs (C140)

A call that delivers data, or the news that the peer has closed, has taken whole records from the transport, the last of
which is the one with the data or the news.  It would have done the same if nothing had come after that record, so it
never waits for more. -/

namespace ETls

open Spec

variable (S : Suite)

/-- `t` is one record: a header and as many bytes as it says. -/
def IsRecord (t : Bytes) : Prop :=
  ∃ (ty v w : UInt8) (body : Bytes), body.length < 65536 ∧ t = Spec.header ty v w body.length ++ body

/-- Neither an error nor a panic. -/
def Spec.Effect.Fine : Effect → Prop
  | .error _ => False
  | .abort => False
  | _ => True

/-- What follows a record does not matter. -/
theorem next_local {key iv : Bytes} {cap : Nat} {p p' : Place} {e : Effect} (h : Next S key iv cap p e p') (he : e.Fine) :
    ∃ t, IsRecord t ∧ p.input = t ++ p'.input ∧ ∀ rest, Next S key iv cap ⟨p.seq, t ++ rest⟩ e ⟨p'.seq, rest⟩ := by
  cases h with
  | end_ => exact he.elim
  | unknown => exact he.elim
  | tooLarge => exact he.elim
  | truncated => exact he.elim
  | invalid => exact he.elim
  | changeCipherSpec => exact he.elim
  | forged => exact he.elim
  | exhausted => exact he.elim
  | alert seq v w body rest _ hn hc ha =>
    exact ⟨_, ⟨21, v, w, body, hn, rfl⟩, rfl, fun rest => .alert seq v w body rest _ hn hc ha⟩
  | handshake seq v w body rest _ hn hc hm =>
    exact ⟨_, ⟨22, v, w, body, hn, rfl⟩, rfl, fun rest => .handshake seq v w body rest _ hn hc hm⟩
  | authentic seq v w body rest pt _ hn hc ho hi hd hs =>
    exact ⟨_, ⟨23, v, w, body, hn, rfl⟩, rfl, fun rest => .authentic seq v w body rest pt _ hn hc ho hi hd hs⟩
  | refused seq v w body rest pt _ hn hc ho hi hd =>
    exact ⟨_, ⟨23, v, w, body, hn, rfl⟩, rfl, fun rest => .refused seq v w body rest pt _ hn hc ho hi hd⟩

/-- What follows the record that ends the waiting does not matter. -/
theorem fill_local {key iv : Bytes} {cap : Nat} {p p' : Place} {e : Effect} (h : Fill S key iv cap p e p') (he : e.Fine) :
    ∃ ts : List Bytes, ts ≠ [] ∧ (∀ t ∈ ts, IsRecord t) ∧ p.input = ts.flatten ++ p'.input ∧
      ∀ rest, Fill S key iv cap ⟨p.seq, ts.flatten ++ rest⟩ e ⟨p'.seq, rest⟩ := by
  induction h with
  | here p p' e hn h1 h2 =>
    obtain ⟨t, a, b, c⟩ := next_local S hn he
    exact ⟨[t], by simp, by simpa using a, by simpa using b, fun rest => by simpa using Fill.here _ _ _ (c rest) h1 h2⟩
  | skip p p1 p' e1 e hn h1 hf ih =>
    obtain ⟨t, a, b, c⟩ := next_local S hn (by rcases h1 with rfl | rfl <;> trivial)
    obtain ⟨ts, _, d, f, g⟩ := ih he
    refine ⟨t :: ts, by simp, ?_, by rw [b, f]; simp, fun rest => ?_⟩
    · intro x hx
      rcases List.mem_cons.1 hx with rfl | hx
      · exact a
      · exact d x hx
    · simpa using Fill.skip _ _ _ _ _ (c (ts.flatten ++ rest)) h1 (g rest)

/-- The same of a call that delivers data or the end of the connection. -/
theorem call_local {key iv : Bytes} {cap : Nat} {c : Spec.ReadCall} {s s' : Reader} {r : Result}
    (h : Call S key iv cap c s r s') (hr : (∃ a b, r = .ok a b) ∨ s'.opened ≠ s.opened) :
    r ≠ .error none ∧ ∃ ts : List Bytes, (∀ t ∈ ts, IsRecord t) ∧ (s.cur ≠ [] → ts = []) ∧
      s.place.input = ts.flatten ++ s'.place.input ∧
      ∀ rest, Call S key iv cap c ⟨s.opened, s.cur, ⟨s.place.seq, ts.flatten ++ rest⟩⟩ r
        ⟨s'.opened, s'.cur, ⟨s'.place.seq, rest⟩⟩ := by
  cases h with
  | nothing => exact ⟨(by simp), [], by simp, by simp, by simp, fun rest => by simpa using Call.nothing _⟩
  | consume n =>
    exact ⟨by simp [ReadCall.gives], [], by simp, by simp, by simp,
      fun rest => by simpa using Call.consume n ⟨s.opened, s.cur, ⟨s.place.seq, rest⟩⟩⟩
  | notOpen => rcases hr with ⟨a, b, h⟩ | h
               · cases h
               · exact absurd rfl h
  | available _ _ hw ho hc =>
    exact ⟨by simp [ReadCall.gives], [], by simp, by simp, by simp,
      fun rest => by simpa using Call.available c ⟨s.opened, s.cur, ⟨s.place.seq, rest⟩⟩ hw ho hc⟩
  | data _ p p' d hw hf =>
    obtain ⟨ts, _, a, b, g⟩ := fill_local S hf trivial
    exact ⟨by simp [ReadCall.gives], ts, a, fun h => absurd rfl h, b, fun rest => .data c _ _ d hw (g rest)⟩
  | closed _ p p' hw hf =>
    obtain ⟨ts, _, a, b, g⟩ := fill_local S hf trivial
    exact ⟨by simp, ts, a, fun h => absurd rfl h, b, fun rest => .closed c _ _ hw (g rest)⟩
  | error => rcases hr with ⟨a, b, h⟩ | h
             · cases h
             · exact absurd rfl h
  | abort => rcases hr with ⟨a, b, h⟩ | h
             · cases h
             · exact absurd rfl h

/-- The state of two reading halves is the same, apart from what is still to come. -/
structure SameBut (h h2 : RdHalf) : Prop where
  key : h2.rks.st.key = h.rks.st.key
  iv : h2.rks.st.iv = h.rks.st.iv
  cap : h2.rr.buf.length = h.rr.buf.length
  opened : h2.opened = h.opened
  unread : h2.unread = h.unread
  seq : h2.rks.st.counter = h.rks.st.counter

/-- C140: a reading call that succeeds, or that finds that the peer has closed, has taken whole records `ts` from the
transport, none at all if there was data left.  With any other continuation `rest` of the stream after these records, in
particular with none, it does the same and leaves the continuation alone. -/
theorem C140_prompt (hS : S.Lawful) (op : ROp) {h : RdHalf} (hs : Sane S h)
    (hr : (∃ o, (op.run S h).1 = .ok o) ∨ (op.run S h).1 ≠ .panic ∧ (op.run S h).2.opened ≠ h.opened) :
    ∃ ts : List Bytes, (∀ t ∈ ts, IsRecord t) ∧ (h.unread ≠ [] → ts = []) ∧
      h.rx.bytes = ts.flatten ++ (op.run S h).2.rx.bytes ∧
      ∀ (h2 : RdHalf) (rest : Bytes), Sane S h2 → SameBut h h2 → h2.rx.bytes = ts.flatten ++ rest →
        (op.run S h2).2.rx.bytes = rest ∧ SameBut (op.run S h).2 (op.run S h2).2 ∧
        (∀ o, (op.run S h).1 = .ok o → ∃ o2, (op.run S h2).1 = .ok o2 ∧ o2.seen = o.seen ∧ o2.taken = o.taken) ∧
        (∀ e, (op.run S h).1 = .err e → (op.run S h2).1 = .err e) := by
  obtain ⟨res, s', c1, c2, c3⟩ := call_effect S hS op hs
  have hne : res ≠ .abort := by
    rintro rfl
    rcases hr with ⟨o, ho⟩ | ⟨hp, _⟩
    · rw [ho] at c2; exact c2
    · revert c2 hp
      cases (op.run S h).1 <;> simp [Agrees]
  obtain ⟨hs1, k1, i1, b1, rfl⟩ := c3 hne
  have hr' : (∃ a b, res = .ok a b) ∨ (readerOf (op.run S h).2).opened ≠ (readerOf h).opened := by
    rcases hr with ⟨o, ho⟩ | ⟨_, h'⟩
    · rw [ho] at c2
      cases res with
      | ok a b => exact .inl ⟨a, b, rfl⟩
      | error z => cases z <;> exact c2.elim
      | abort => exact absurd rfl hne
    · exact .inr h'
  obtain ⟨hnn, ts, t1, t2, t3, t4⟩ := call_local S c1 hr'
  refine ⟨ts, t1, t2, t3, fun h2 rest hs2 hsb hrx => ?_⟩
  obtain ⟨res2, s2, d1, d2, d3⟩ := call_effect S hS op hs2
  rw [hsb.key, hsb.iv, hsb.cap] at d1
  have hro : readerOf h2 = ⟨(readerOf h).opened, (readerOf h).cur, ⟨(readerOf h).place.seq, ts.flatten ++ rest⟩⟩ := by
    simp only [readerOf, placeOf, hsb.opened, hsb.unread, hsb.seq, hrx]
  rw [hro] at d1
  obtain ⟨e1, e2⟩ := call_unique S (t4 rest) d1
  subst e1
  obtain ⟨-, k2, i2, b2, e3⟩ := d3 hne
  rw [← e2] at e3
  simp only [readerOf, placeOf, Reader.mk.injEq, Place.mk.injEq] at e3
  obtain ⟨f1, f2, f3, f4⟩ := e3
  refine ⟨f4.symm, ⟨by rw [k2, k1, hsb.key], by rw [i2, i1, hsb.iv], by rw [b2, b1, hsb.cap], f1.symm, f2.symm, f3.symm⟩,
    fun o ho => ?_, fun e he => ?_⟩
  · rw [ho] at c2
    cases res with
    | ok a b =>
      cases hq : (op.run S h2).1 with
      | ok o2 =>
        rw [hq] at d2
        exact ⟨o2, rfl, d2.1.trans c2.1.symm, d2.2.trans c2.2.symm⟩
      | err x => rw [hq] at d2; exact d2.elim
      | panic => rw [hq] at d2; exact d2.elim
    | error z => cases z <;> exact c2.elim
    | abort => exact absurd rfl hne
  · rw [he] at c2
    cases res with
    | ok a b => exact c2.elim
    | error z =>
      cases z with
      | none => exact absurd rfl hnn
      | some z =>
        cases hq : (op.run S h2).1 with
        | ok o2 => rw [hq] at d2; exact d2.elim
        | err x =>
          rw [hq] at d2
          have c2 : e = z := c2
          have d2 : x = z := d2
          rw [c2, d2]
        | panic => rw [hq] at d2; exact d2.elim
    | abort => exact absurd rfl hne

/-- Calls that do not panic keep the reading half sane. -/
theorem sane_reads (hS : S.Lawful) (ops : List ROp) : ∀ h : RdHalf, Sane S h → (∀ r ∈ (runReads S ops h).1, r ≠ .panic) →
    Sane S (runReads S ops h).2 := by
  induction ops with
  | nil => exact fun h hs _ => hs
  | cons op ops ih =>
    intro h hs hp
    obtain ⟨res, s', -, c2, c3⟩ := call_effect S hS op hs
    simp only [runReads] at hp ⊢
    rcases hq : op.run S h with ⟨r, h1⟩
    rw [hq] at hp c2 c3
    cases r with
    | panic => exact absurd rfl (hp .panic (by simp))
    | ok o =>
      refine ih h1 (c3 ?_).1 (fun r hr => hp r (by simp [hr]))
      rintro rfl
      exact c2
    | err e =>
      refine ih h1 (c3 ?_).1 (fun r hr => hp r (by simp [hr]))
      rintro rfl
      exact c2

variable {V : Type}

/-- The reading half after a successful `open` over a transport without errors. -/
theorem sane_open (hS : S.Lawful) (cfg : Config) (p : Provider V) (v : V) {rx : Rx} {tx : Tx} {rb wb : Bytes} {c c' : Conn}
    (hn : Conn.new S rx tx rb wb = .ok c) (hclean : rx.Clean) (h : Conn.open_ S cfg p v c = (.ok (), c')) :
    Sane S c'.rd := by
  obtain ⟨-, hrx, -⟩ := Conn.new_parts S hn
  obtain ⟨g1, -, -, -, g5, -, -⟩ := open_reader S hS cfg p v hn h
  have hcl : c.rx.Clean := by rw [hrx]; exact hclean
  have hbt : c.rr.Between c.rx.bytes := by
    have : c.rr = RR.new rb := by
      unfold Conn.new at hn
      cases hw : WB.new wb <;> rw [hw] at hn <;> simp only [Res.map, Res.ok.injEq, reduceCtorEq] at hn
      subst hn
      rfl
    rw [this]
    exact ⟨Nat.zero_le _, .inl rfl⟩
  obtain ⟨-, hrc⟩ := twin_open S cfg p v c c ⟨rfl, hcl, hcl, rfl, hbt⟩
  rw [h] at hrc
  exact ⟨g1, hrc.clean, hrc.between, g5⟩

/-- C140 for whole connections: after `new`, a successful `open` and any reading calls without a panic, over any transport
without errors, the next reading call takes whole records only, and whatever follows them does not matter to it. -/
theorem C140_whole (hS : S.Lawful) (cfg : Config) (p : Provider V) (v : V) {rx : Rx} {tx : Tx} {rb wb : Bytes} {c c' : Conn}
    (hn : Conn.new S rx tx rb wb = .ok c) (hclean : rx.Clean) (h : Conn.open_ S cfg p v c = (.ok (), c'))
    (ops : List ROp) (hops : ∀ r ∈ (runReads S ops c'.rd).1, r ≠ .panic) (op : ROp) (o : ROut) (h' : RdHalf)
    (hr : op.run S (runReads S ops c'.rd).2 = (.ok o, h')) :
    ∃ ts : List Bytes, (∀ t ∈ ts, IsRecord t) ∧ (runReads S ops c'.rd).2.rx.bytes = ts.flatten ++ h'.rx.bytes ∧
      ((runReads S ops c'.rd).2.rr.pending = 0 → ∀ rx2 rest, Rx.Clean rx2 → Rx.bytes rx2 = ts.flatten ++ rest →
        ∃ o2 h2, op.run S { (runReads S ops c'.rd).2 with rx := rx2 } = (.ok o2, h2) ∧ o2.seen = o.seen ∧
          o2.taken = o.taken ∧ h2.rx.bytes = rest ∧ h2.unread = h'.unread) := by
  have hs := sane_reads S hS ops _ (sane_open S hS cfg p v hn hclean h) hops
  generalize (runReads S ops c'.rd).2 = g at hs hr ⊢
  obtain ⟨ts, t1, -, t3, t4⟩ := C140_prompt S hS op hs (.inl ⟨o, by rw [hr]⟩)
  rw [hr] at t3 t4
  refine ⟨ts, t1, t3, fun hp rx2 rest hc2 hb2 => ?_⟩
  obtain ⟨u1, u2, u3, -⟩ := t4 { g with rx := rx2 } rest ⟨⟨hs.good.rr, hs.good.dec, hs.good.consumed⟩, hc2,
    ⟨hs.between.decoded, .inl hp⟩, hs.iv⟩ ⟨rfl, rfl, rfl, rfl, rfl, rfl⟩ hb2
  obtain ⟨o2, v1, v2, v3⟩ := u3 o rfl
  exact ⟨o2, _, Prod.ext v1 rfl, v2, v3, u1, u2.unread⟩

/-! ## Examples -/

-- C140_prompt: a session ticket, an empty record, two bytes of data and half a record: the first read takes three records,
-- the second none, although the half record could be read
set_option maxRecDepth 20000 in
example :
    let rx : Rx := [.data (sealInner 0 ([4, 0, 0, 14, 0, 0, 0, 1, 0, 0, 0, 2, 0, 0, 1, 9, 0, 0] ++ [22]) ++ exRecord 1 [] ++
      exRecord 2 [7, 8] ++ [23, 3])]
    let h := (exConn rx).rd
    let h1 := ((ROp.read 1).run toySuite h).2
    let h2 := ((ROp.read 1).run toySuite h1).2
    h1.rx.bytes = [23, 3] ∧ h1.unread = [8] ∧ h2.rx.bytes = [23, 3] ∧ h2.unread = [] := by
  decide +kernel

example : ∃ ts : List Bytes, (∀ t ∈ ts, IsRecord t) ∧
    (exConn exStream).rd.rx.bytes = ts.flatten ++ ((ROp.read 1).run toySuite (exConn exStream).rd).2.rx.bytes := by
  have hok : ((ROp.read 1).run toySuite (exConn exStream).rd).1 = .ok ⟨[7, 8], [[7]], [7]⟩ := by decide +kernel
  obtain ⟨ts, h1, _, h2, _⟩ := C140_prompt toySuite toySuite_lawful (.read 1) exStream_sane (.inl ⟨_, hok⟩)
  exact ⟨ts, h1, h2⟩

-- C140_whole: after the handshake the server sends two bytes and closes; the read of the two bytes leaves the alert
theorem closing_clean : Rx.Clean (.data (exServer exCfg exSH exMin) :: closingRx) := by
  intro e he
  rcases List.mem_cons.1 he with rfl | he
  · exact ⟨_, by decide +kernel, rfl⟩
  · exact ⟨_, by decide +kernel, List.mem_singleton.1 he⟩

set_option maxRecDepth 20000 in
theorem closing_read : ((ROp.read 10).run toySuite (exOpened [] closingRx).2.rd).1 = .ok ⟨[7, 8], [[7, 8]], [7, 8]⟩ ∧
    ((ROp.read 10).run toySuite (exOpened [] closingRx).2.rd).2.rx.bytes = exApp 1 ⟨21, [1, 0], 0⟩ := by
  decide +kernel

example : ∃ ts : List Bytes, (∀ t ∈ ts, IsRecord t) ∧
    (exOpened [] closingRx).2.rd.rx.bytes = ts.flatten ++ exApp 1 ⟨21, [1, 0], 0⟩ := by
  have key := C140_whole toySuite toySuite_lawful exCfg exProv () (exLife_new [] closingRx) closing_clean
    (exOpened_eq closing_opened) [] (by simp [runReads]) (.read 10)
  have hr := closing_read
  simp only [runReads] at key
  generalize (exOpened [] closingRx).2.rd = g at key hr ⊢
  rcases hq : (ROp.read 10).run toySuite g with ⟨r, h'⟩
  rw [hq] at key hr
  obtain ⟨ts, h1, h2, -⟩ := key _ h' (Prod.ext hr.1 rfl)
  exact ⟨ts, h1, by rw [h2, ← hr.2]⟩

end ETls
