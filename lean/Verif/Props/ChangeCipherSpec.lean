import Verif.Props.OpenUnique

/-! # C109: change_cipher_spec records (RFC 8446 section 5 and appendix D.4)

"An implementation may receive an unencrypted record of type change_cipher_spec consisting of the single byte value 0x01
at any time after the first ClientHello message has been sent or received and before the peer's Finished message has been
received and MUST simply drop it without further processing. [...] An implementation which receives any other
change_cipher_spec value or which receives a protected change_cipher_spec record MUST abort the handshake with an
'unexpected_message' alert." -/

namespace ETls.Spec

variable (S : Suite) {V : Type}

/-- `b` is `a`, a stream of records, with change_cipher_spec records of at most `cap` bytes put between the records (of at
most `cap` bytes), before the first or after the last of them. -/
inductive Interspersed (cap : Nat) : Bytes → Bytes → Prop where
  | same (a : Bytes) : Interspersed cap a a
  | ccs (v w : UInt8) (content a b : Bytes) (hn : content.length < 65536) (hc : content.length ≤ cap)
      (h : Interspersed cap a b) : Interspersed cap a (plaintextRecord 20 [v, w] content ++ b)
  | record (t v w : UInt8) (content a b : Bytes) (ht : Known contentTypes t.toNat) (hn : content.length < 65536)
      (hc : content.length ≤ cap) (h : Interspersed cap a b) :
      Interspersed cap (plaintextRecord t [v, w] content ++ a) (plaintextRecord t [v, w] content ++ b)

theorem framed_plain {cap : Nat} (t v w : UInt8) (content rest : Bytes) (ht : Known contentTypes t.toNat)
    (hn : content.length < 65536) (hc : content.length ≤ cap) :
    Framed cap (plaintextRecord t [v, w] content ++ rest) (.record t (header t v w content.length) content rest) := by
  have := Framed.record (cap := cap) t v w content rest ht hn hc
  simpa [plaintextRecord, header] using this

/-- The server's flight with change_cipher_spec records put in is received like the one without. -/
theorem flights_interspersed {p : Provider V} {secret : Bytes} {cap : Nat} {a b : Bytes} (hab : Interspersed cap a b) :
    ∀ {seq : Nat} {f : Flight V} {g : Got V} {left : Bytes}, f.after = .waiting →
      Flights S p secret cap seq a f g left →
      ∃ left', Flights S p secret cap seq b f g left' ∧ Interspersed cap left left' := by
  induction hab with
  | same a => exact fun _ h => ⟨_, h, .same _⟩
  | ccs v w content a b hn hc _ ih =>
    intro seq f g left hw h
    obtain ⟨left', h1, h2⟩ := ih hw h
    exact ⟨left', .more _ _ _ _ _ _ _ _ _ _ _ (framed_plain 20 v w content b ⟨.changeCipherSpec, by decide⟩ hn hc)
      (.changeCipherSpec _ _) hw h1, h2⟩
  | record t v w content a b ht hn hc hab ih =>
    intro seq f g left hw h
    have hf := framed_plain (cap := cap) t v w content a ht hn hc
    have hf' := framed_plain (cap := cap) t v w content b ht hn hc
    cases h with
    | fault _ _ _ e h => cases framed_same hf h
    | stop _ seq' _ _ t' hdr body rest g h hr hg =>
      cases framed_same hf h
      exact ⟨[], .stop _ _ _ _ _ _ _ _ _ hf' hr hg, .same _⟩
    | last _ seq' _ _ f1 t' hdr body rest h hr hw' =>
      cases framed_same hf h
      exact ⟨b, .last _ _ _ _ _ _ _ _ _ hf' hr hw', hab⟩
    | more _ seq' _ _ f1 t' hdr body rest left g h hr hw' hm =>
      cases framed_same hf h
      obtain ⟨left', h1, h2⟩ := ih hw' hm
      exact ⟨left', .more _ _ _ _ _ _ _ _ _ _ _ hf' hr hw' h1, h2⟩

/-- The same end, except for change_cipher_spec records among the bytes not read. -/
inductive SameEnd (cap : Nat) : OpenEnd → OpenEnd → Prop where
  | opened (sent : List Bytes) (dhe t rest rest' : Bytes) (h : Interspersed cap rest rest') :
      SameEnd cap (.opened sent dhe t rest) (.opened sent dhe t rest')
  | other (e : OpenEnd) : SameEnd cap e e

theorem opens_interspersed {p : Provider V} {v : V} {name psk : Option Bytes} {hello : Bytes} {cap : Nat} {a b : Bytes}
    (t u w : UInt8) (content : Bytes) (ht : Known contentTypes t.toNat) (hn : content.length < 65536)
    (hc : content.length ≤ cap) (hab : Interspersed cap a b) {e : OpenEnd}
    (h : Opens S p v name psk hello cap (plaintextRecord t [u, w] content ++ a) e) :
    ∃ e', Opens S p v name psk hello cap (plaintextRecord t [u, w] content ++ b) e' ∧ SameEnd cap e e' := by
  have hf := framed_plain (cap := cap) t u w content a ht hn hc
  have hf' := framed_plain (cap := cap) t u w content b ht hn hc
  rcases opens_cases S h with ⟨x, hn, rfl⟩ | ⟨hn, rfl⟩ | ⟨v0, hn, h⟩
  · exact ⟨_, .badName x hn, .other _⟩
  · exact ⟨_, .nameAbort hn, .other _⟩
  · rcases h with ⟨x, h, -⟩ | ⟨t', hdr, body, rest, g, h, hh, hg⟩
    · cases framed_same hf h
    · cases framed_same hf h
      cases g with
      | error x =>
        obtain rfl : e = _ := hg
        exact ⟨_, .noHello _ _ _ _ _ _ hn hf' hh, .other _⟩
      | ok sh dhe =>
        obtain ⟨g, left, h1, h2⟩ := hg
        obtain ⟨left', h3, h4⟩ := flights_interspersed S hab rfl h1
        cases h2 with
        | error x => exact ⟨_, .flightError _ _ _ _ _ _ _ _ _ hn hf' hh h3, .other _⟩
        | refused x => exact ⟨_, .flightRefused _ _ _ _ _ _ _ _ _ hn hf' hh h3, .other _⟩
        | abort => exact ⟨_, .flightAbort _ _ _ _ _ _ _ _ hn hf' hh h3, .other _⟩
        | replyError f ms x hr => exact ⟨_, .replyError _ _ _ _ _ _ _ _ _ _ _ _ hn hf' hh h3 hr rfl, .other _⟩
        | replyAbort f ms hr => exact ⟨_, .replyAbort _ _ _ _ _ _ _ _ _ _ _ hn hf' hh h3 hr rfl, .other _⟩
        | opened f ms tr hr => exact ⟨_, .opened _ _ _ _ _ _ _ _ _ _ _ _ hn hf' hh h3 hr rfl, .opened _ _ _ _ _ h4⟩

/-- The number of protected records among the given ones. -/
def protectedCount (records : List Bytes) : Nat := (records.filter fun r => r.head? = some 23).length

end ETls.Spec

namespace ETls

variable (S : Suite) {V : Type}
open Spec

/-- **C109, dropped (partial)** Change_cipher_spec records anywhere after the record with the ServerHello make no
difference to `open`, however the bytes arrive: it succeeds or panics on the stream with them exactly if it does on the
stream without them; and if it succeeds, it has sent the same bytes and both connections have the same keys and go on at
the same place (the bytes not read differ only by change_cipher_spec records).

What is missing: before the ServerHello such a record makes `open` fail (`C109_refuted_first`), although a server or a
middlebox may send one there; and records with other content, which have to be refused, are dropped as well
(`C109_refuted_value`). -/
theorem C109_dropped_partial (hS : S.Lawful) (cfg : Config) (p : Provider V) (v : V) {c d : Conn} (hc : c.Fresh S)
    (hd : d.Fresh S) (hcc : c.rx.Clean) (hdc : d.rx.Clean) (hcr : Reliable c.tx) (hdr : Reliable d.tx)
    (hcw : Roomy S cfg p c.wb.buffer.length) (hdw : Roomy S cfg p d.wb.buffer.length)
    (hsize : d.rr.buf.length = c.rr.buf.length) (t u w : UInt8) (content a b : Bytes)
    (ht : Known contentTypes t.toNat) (hn : content.length < 65536) (hfit : content.length ≤ c.rr.buf.length)
    (hab : Interspersed c.rr.buf.length a b) (ha : c.rx.bytes = plaintextRecord t [u, w] content ++ a)
    (hb : d.rx.bytes = plaintextRecord t [u, w] content ++ b) :
    ((Conn.open_ S cfg p v c).1 = .ok () ↔ (Conn.open_ S cfg p v d).1 = .ok ()) ∧
    ((Conn.open_ S cfg p v c).1 = .panic ↔ (Conn.open_ S cfg p v d).1 = .panic) ∧
    ((Conn.open_ S cfg p v c).1 = .ok () →
      (∃ sent, (Conn.open_ S cfg p v c).2.tx.log = c.tx.log ++ sent ∧ (Conn.open_ S cfg p v d).2.tx.log = d.tx.log ++ sent) ∧
      (Conn.open_ S cfg p v d).2.ks.client.st = (Conn.open_ S cfg p v c).2.ks.client.st ∧
      (Conn.open_ S cfg p v d).2.ks.server.st = (Conn.open_ S cfg p v c).2.ks.server.st ∧
      Interspersed c.rr.buf.length (Conn.open_ S cfg p v c).2.rx.bytes (Conn.open_ S cfg p v d).2.rx.bytes) := by
  obtain ⟨e, h1, h2⟩ := C77_open S hS cfg p v hc hcc hcr hcw
  rw [ha] at h1
  obtain ⟨e', h3, h4⟩ := opens_interspersed S t u w content ht hn hfit hab h1
  have h5 := C77_exact S hS cfg p v hd hdc hdr hdw (e := e') (by rw [hb, hsize]; exact h3)
  generalize Conn.open_ S cfg p v c = x at h2 ⊢
  generalize Conn.open_ S cfg p v d = y at h5 ⊢
  cases h4 with
  | opened sent dhe tr rest rest' h =>
    obtain ⟨e1, e2, e3, e4, e5, e6⟩ := h2
    obtain ⟨f1, f2, f3, f4, f5, f6⟩ := h5
    rw [e1, f1]
    exact ⟨Iff.rfl, Iff.rfl, fun _ => ⟨⟨_, e3, f3⟩, by rw [e5, f5], by rw [e6, f6], by rw [e4, f4]; exact h⟩⟩
  | other =>
    cases e with
    | opened sent dhe tr rest =>
      obtain ⟨e1, e2, e3, e4, e5, e6⟩ := h2
      obtain ⟨f1, f2, f3, f4, f5, f6⟩ := h5
      rw [e1, f1]
      exact ⟨Iff.rfl, Iff.rfl, fun _ => ⟨⟨_, e3, f3⟩, by rw [e5, f5], by rw [e6, f6], by rw [e4, f4]; exact .same _⟩⟩
    | error sent z =>
      obtain ⟨i, e1, _⟩ := h2
      obtain ⟨j, f1, _⟩ := h5
      rw [e1, f1]
      exact ⟨by simp, by simp, by simp⟩
    | refusal sent z =>
      obtain ⟨i, _, e1, _⟩ := h2
      obtain ⟨j, _, f1, _⟩ := h5
      rw [e1, f1]
      exact ⟨by simp, by simp, by simp⟩
    | abort sent =>
      rw [h2.1, h5.1]
      exact ⟨by simp, by simp, by simp⟩

theorem carries_content {key iv : Bytes} {seq : Nat} {records ms : List Bytes} (h : CarriesAll S key iv seq records ms)
    (pre post : List Bytes) (r : Bytes) (hr : records = pre ++ r :: post) :
    ∃ ms n, Carries S key iv (seq + protectedCount pre) r ms n := by
  induction h generalizing pre with
  | nil => simp at hr
  | cons seq n record records ms ms' h _ ih =>
    cases pre with
    | nil =>
      simp only [List.nil_append, List.cons.injEq] at hr
      obtain ⟨rfl, rfl⟩ := hr
      exact ⟨_, _, h⟩
    | cons q pre =>
      simp only [List.cons_append, List.cons.injEq] at hr
      obtain ⟨rfl, hr⟩ := hr
      obtain ⟨ms1, n1, h1⟩ := ih pre hr
      have hn : n + protectedCount pre = protectedCount (record :: pre) := by
        cases h <;> (simp [protectedCount, plaintextRecord]; try omega)
      rw [← hn, ← Nat.add_assoc]
      exact ⟨_, _, h1⟩

/-- **C109, protected** A successful `open` has not passed over a protected change_cipher_spec record: no record of the
server's flight that is opened with the handshake key and its record number has the content type 20 (or any other type
but handshake). -/
theorem C109_protected (hS : S.Lawful) (cfg : Config) (p : Provider V) (v : V) {c c' : Conn} (hf : c.Fresh S)
    (h : Conn.open_ S cfg p v c = (.ok (), c')) :
    ∃ x : Session, c.rx.bytes = x.shRecord ++ x.records.flatten ++ c'.rx.bytes ∧
      ∀ pre post v1 v2 ct, x.records = pre ++ ([23, v1, v2] ++ u16 ct.length ++ ct) :: post → ct.length < 65536 →
        ∃ content padding,
          S.open_ (writeKey S (x.serverSecret S (cfg.psk.map (·.1)))) (nonce (writeIv S (x.serverSecret S (cfg.psk.map (·.1))))
            (protectedCount pre)) ([23, v1, v2] ++ u16 ct.length) ct = some (Fragment.mk 22 content padding).inner := by
  obtain ⟨x, hx⟩ := open_session S hS cfg p v hf h
  refine ⟨x, hx.bytes, ?_⟩
  intro pre post v1 v2 ct hr hl
  obtain ⟨ms, n, hc⟩ := carries_content S hx.received.records _ _ _ hr
  rw [Nat.zero_add] at hc
  generalize hrec : [23, v1, v2] ++ u16 ct.length ++ ct = record at hc
  cases hc with
  | plain a b m junk _ => simp [plaintextRecord] at hrec
  | changeCipherSpec a b payload _ => simp [plaintextRecord] at hrec
  | encrypted a b ct' ms padding hl' ho =>
    simp only [List.cons_append, List.nil_append, List.cons.injEq, true_and] at hrec
    obtain ⟨rfl, rfl, hrec⟩ := hrec
    obtain ⟨_, rfl⟩ := List.append_inj hrec (by simp [u16])
    exact ⟨_, _, ho⟩

/-- **C109, refuted** A change_cipher_spec record before the ServerHello is not dropped: whatever follows, `open` fails. -/
theorem C109_refuted_first (hS : S.Lawful) (cfg : Config) (p : Provider V) (v : V) {c : Conn} (hf : c.Fresh S)
    (hclean : c.rx.Clean) (hrel : Reliable c.tx) (hroom : Roomy S cfg p c.wb.buffer.length)
    (hn : ∃ v0, Named p v cfg.serverName (.ok v0)) (hfit : 1 ≤ c.rr.buf.length) (u w : UInt8) (rest : Bytes)
    (hb : c.rx.bytes = plaintextRecord 20 [u, w] [1] ++ rest) :
    (Conn.open_ S cfg p v c).1 = .err .invalidRecord ∧ (Conn.open_ S cfg p v c).2.opened = false := by
  obtain ⟨v0, hn⟩ := hn
  obtain ⟨y, h1, h2, _, h3⟩ := C77_exact S hS cfg p v hf hclean hrel hroom (e := .error _ (some .invalidRecord))
    (.noHello v0 20 _ [1] rest _ hn
      (by rw [hb]; exact framed_plain 20 u w [1] rest ⟨.changeCipherSpec, by decide⟩ (by decide) hfit)
      (.changeCipherSpec _))
  rw [h1, show y = _ from h2]
  exact ⟨rfl, h3⟩

set_option maxRecDepth 10000 in
/-- **C109, refuted** A change_cipher_spec record of other content is dropped as well: with `02`, `01 01` or nothing in it
after the ServerHello, `open` succeeds. -/
theorem C109_refuted_value : ∀ content ∈ [[2], [1, 1], ([] : Bytes)], ∃ c : Conn, c.Fresh toySuite ∧
    c.rx.bytes = plaintextRecord 22 [3, 3] exSH.bytes ++ plaintextRecord 20 [3, 3] content ++
      srvRecords (exSecret exCfg exSH) 0 (exHelloMsg exCfg ++ exSH.bytes) exMin ∧
    (Conn.open_ toySuite exCfg exProv () c).1 = .ok () := by
  intro content _
  have hcc : Interspersed 400 (srvRecords (exSecret exCfg exSH) 0 (exHelloMsg exCfg ++ exSH.bytes) exMin)
      (plaintextRecord 20 [3, 3] content ++ srvRecords (exSecret exCfg exSH) 0 (exHelloMsg exCfg ++ exSH.bytes) exMin) := by
    refine .ccs 3 3 content _ _ ?_ ?_ (.same _) <;> simp_all <;> rename_i h <;> rcases h with rfl | rfl | rfl <;> decide
  refine ⟨exNew 400 [.data (plaintextRecord 22 [3, 3] exSH.bytes ++ (plaintextRecord 20 [3, 3] content ++
      srvRecords (exSecret exCfg exSH) 0 (exHelloMsg exCfg ++ exSH.bytes) exMin))], exNew_fresh _ _ (by decide),
    by rw [exNew_bytes, List.append_assoc], ?_⟩
  exact (C109_dropped_partial toySuite toySuite_lawful exCfg exProv ()
    (c := exNew 400 [.data (exServer exCfg exSH exMin)]) (exNew_fresh _ _ (by decide)) (exNew_fresh _ _ (by decide))
    (exClean (by simp [exServer, plaintextRecord])) (exClean (by simp [plaintextRecord])) (by intro a ha; cases ha)
    (by intro a ha; cases ha) (by rw [exNew_room]; exact exRoomy) (by rw [exNew_room]; exact exRoomy)
    (by rw [exNew_size, exNew_size]) 22 3 3 exSH.bytes _ _ ⟨.handshake, by decide⟩ (by decide)
    (by rw [exNew_size]; decide) (by rw [exNew_size]; exact hcc) (by rw [exNew_bytes]; rfl)
    (by rw [exNew_bytes])).1.1 exMin_ok

/-! ## Examples -/

-- C109_dropped_partial: the theorem above uses it; here two records are put in, one of them after the Finished
example : Interspersed 400 (plaintextRecord 23 [3, 3] [7] ++ []) (plaintextRecord 20 [3, 3] [1] ++
    (plaintextRecord 23 [3, 3] [7] ++ (plaintextRecord 20 [3, 1] [1] ++ []))) :=
  .ccs 3 3 [1] _ _ (by decide) (by decide) (.record 23 3 3 [7] _ _ ⟨.applicationData, by decide⟩ (by decide) (by decide)
    (.ccs 3 1 [1] _ _ (by decide) (by decide) (.same _)))

-- C109_protected: the smallest successful handshake
example : ∃ c', Conn.open_ toySuite exCfg exProv () (exNew 400 [.data (exServer exCfg exSH exMin)]) = (.ok (), c') := by
  have := exMin_ok
  generalize Conn.open_ toySuite exCfg exProv () (exNew 400 [.data (exServer exCfg exSH exMin)]) = x at this
  exact ⟨x.2, by rw [← this]⟩

/-- The flight of `exServer` with a protected change_cipher_spec record before it. -/
def exProtectedCcs : Bytes :=
  plaintextRecord 22 [3, 3] exSH.bytes ++
    protectAll toySuite (writeKey toySuite exSecret0) (writeIv toySuite exSecret0) 0
      [⟨20, [1], 0⟩, ⟨22, (RawMsg.encryptedExtensions []).bytes ++ (exFin (.encryptedExtensions [])).bytes, 0⟩]

set_option maxRecDepth 10000 in
-- C109_protected: such a record makes `open` fail (with another error than the RFC asks for and without an alert)
example : (Conn.open_ toySuite exCfg exProv () (exNew 400 [.data exProtectedCcs])).1 = .err .unimplemented := by
  decide +kernel

set_option maxRecDepth 10000 in
-- C109_refuted_first: a change_cipher_spec record, then the smallest flight
example : (Conn.open_ toySuite exCfg exProv () (exNew 400 [.data (plaintextRecord 20 [3, 3] [1] ++
    exServer exCfg exSH exMin)])).1 = .err .invalidRecord :=
  (C109_refuted_first toySuite toySuite_lawful exCfg exProv () (exNew_fresh _ _ (by decide))
    (exClean (by simp only [plaintextRecord, List.cons_append]; exact List.cons_ne_nil _ _)) (by intro a ha; cases ha) (by rw [exNew_room]; exact exRoomy)
    ⟨(), .noVerifier (p := exProv) _ rfl⟩ (by rw [exNew_size]; decide) 3 3 _ (by rw [exNew_bytes])).1

end ETls
