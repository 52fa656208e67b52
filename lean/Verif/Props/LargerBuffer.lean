import Verif.Props.PromptOpen

/-! # A larger read buffer (C142)

The size of the read buffer decides only which records are refused as too large.  As long as none is, a connection with a
larger buffer does the same. -/

namespace ETls

open Spec

variable (S : Suite) {V : Type}

/-! ## The reader -/

theorem next_larger {key iv : Bytes} {cap cap2 : Nat} (hle : cap ≤ cap2) {p p' : Place} {e : Effect}
    (h : Next S key iv cap p e p') : e = .error (some .insufficientSpace) ∨ Next S key iv cap2 p e p' := by
  cases h with
  | tooLarge => exact .inl rfl
  | end_ seq input h => exact .inr (.end_ seq input h)
  | unknown seq t v w n rest ht hn => exact .inr (.unknown seq t v w n rest ht hn)
  | truncated seq t v w n rest ht hn hc hr => exact .inr (.truncated seq t v w n rest ht hn (hc.trans hle) hr)
  | invalid seq v w body rest hn hc => exact .inr (.invalid seq v w body rest hn (hc.trans hle))
  | changeCipherSpec seq v w body rest hn hc => exact .inr (.changeCipherSpec seq v w body rest hn (hc.trans hle))
  | alert seq v w body rest _ hn hc ha => exact .inr (.alert seq v w body rest _ hn (hc.trans hle) ha)
  | handshake seq v w body rest _ hn hc hm => exact .inr (.handshake seq v w body rest _ hn (hc.trans hle) hm)
  | forged seq v w body rest hn hc ho => exact .inr (.forged seq v w body rest hn (hc.trans hle) ho)
  | authentic seq v w body rest pt _ hn hc ho hi hd hs =>
    exact .inr (.authentic seq v w body rest pt _ hn (hc.trans hle) ho hi hd hs)
  | exhausted seq v w body rest pt e hn hc ho hi hd hs =>
    exact .inr (.exhausted seq v w body rest pt e hn (hc.trans hle) ho hi hd hs)
  | refused seq v w body rest pt _ hn hc ho hi hd => exact .inr (.refused seq v w body rest pt _ hn (hc.trans hle) ho hi hd)

theorem fill_larger {key iv : Bytes} {cap cap2 : Nat} (hle : cap ≤ cap2) {p p' : Place} {e : Effect}
    (h : Fill S key iv cap p e p') : e = .error (some .insufficientSpace) ∨ Fill S key iv cap2 p e p' := by
  induction h with
  | here p p' e hn h1 h2 =>
    rcases next_larger S hle hn with h | h
    · exact .inl h
    · exact .inr (.here _ _ _ h h1 h2)
  | skip p p1 p' e1 e hn h1 hf ih =>
    rcases next_larger S hle hn with h | h
    · rcases h1 with rfl | rfl <;> cases h
    · rcases ih with h' | h'
      · exact .inl h'
      · exact .inr (.skip _ _ _ _ _ h h1 h')

theorem call_larger {key iv : Bytes} {cap cap2 : Nat} (hle : cap ≤ cap2) {c : Spec.ReadCall} {s s' : Reader} {r : Result}
    (h : Call S key iv cap c s r s') : r = .error (some .insufficientSpace) ∨ Call S key iv cap2 c s r s' := by
  cases h with
  | nothing => exact .inr (.nothing _)
  | consume n => exact .inr (.consume n _)
  | notOpen _ _ hw ho => exact .inr (.notOpen _ _ hw ho)
  | available _ _ hw ho hc => exact .inr (.available _ _ hw ho hc)
  | data _ p p' d hw hf =>
    rcases fill_larger S hle hf with h | h
    · cases h
    · exact .inr (.data _ _ _ d hw h)
  | closed _ p p' hw hf =>
    rcases fill_larger S hle hf with h | h
    · cases h
    · exact .inr (.closed _ _ _ hw h)
  | error _ p p' e hw hf =>
    rcases fill_larger S hle hf with h | h
    · cases h; exact .inl rfl
    · exact .inr (.error _ _ _ e hw h)
  | abort _ p p' hw hf =>
    rcases fill_larger S hle hf with h | h
    · cases h
    · exact .inr (.abort _ _ _ hw h)

theorem calls_larger {key iv : Bytes} {cap cap2 : Nat} (hle : cap ≤ cap2) {cs : List Spec.ReadCall} {s : Reader}
    {rs : List Result} {s' : Option Reader} (h : Calls S key iv cap cs s rs s') :
    .error (some .insufficientSpace) ∈ rs ∨ Calls S key iv cap2 cs s rs s' := by
  induction h with
  | nil s => exact .inr (.nil s)
  | cons c cs s s1 r rs s' hc hr hs ih =>
    rcases call_larger S hle hc with h | h
    · exact .inl (by rw [h]; exact List.mem_cons_self)
    · rcases ih with h' | h'
      · exact .inl (List.mem_cons_of_mem _ h')
      · exact .inr (.cons _ _ _ _ _ _ _ h hr h')
  | abort c cs s s1 hc =>
    rcases call_larger S hle hc with h | h
    · cases h
    · exact .inr (.abort _ _ _ _ h)

/-- Two results are the same to the application: the same bytes seen and taken; the same error, or both errors of message
decoders; or both panic. -/
def SameResult : Res TlsError ROut → Res TlsError ROut → Prop
  | .ok o, .ok o2 => o2.seen = o.seen ∧ o2.taken = o.taken
  | .err e, .err e2 => e2 = e ∨ Spec.DecoderError e ∧ Spec.DecoderError e2
  | .panic, .panic => True
  | _, _ => False

theorem agrees_same {r : Result} {x y : Res TlsError ROut} (hx : Agrees r x) (hy : Agrees r y) : SameResult x y := by
  rcases r with ⟨a, b⟩ | (_ | e) | _
  · cases x <;> cases y <;> simp only [Agrees, SameResult] at *
    exact ⟨hy.1.trans hx.1.symm, hy.2.trans hx.2.symm⟩
  · cases x <;> cases y <;> simp only [Agrees, SameResult] at *
    exact .inr ⟨hx, hy⟩
  · cases x <;> cases y <;> simp only [Agrees, SameResult] at *
    exact .inl (hy.trans hx.symm)
  · cases x <;> cases y <;> simp only [Agrees, SameResult] at *

theorem forall₂_same {rs : List Result} {xs ys : List (Res TlsError ROut)} (hx : List.Forall₂ Agrees rs xs)
    (hy : List.Forall₂ Agrees rs ys) : List.Forall₂ SameResult xs ys := by
  induction hx generalizing ys with
  | nil => cases hy; exact .nil
  | cons h _ ih => cases hy with
    | cons h' t' => exact .cons (agrees_same h h') (ih t')

theorem mem_agrees {rs : List Result} {xs : List (Res TlsError ROut)} (h : List.Forall₂ Agrees rs xs) {e : TlsError}
    (hm : .error (some e) ∈ rs) : .err e ∈ xs := by
  induction h with
  | nil => cases hm
  | cons a _ ih =>
    rcases List.mem_cons.1 hm with rfl | hm
    · rename_i x _ _ _
      cases x with
      | ok o => exact a.elim
      | err y => cases (show y = e from a); exact List.mem_cons_self
      | panic => exact a.elim
    · exact List.mem_cons_of_mem _ (ih hm)

/-- If what the description says of the calls on `h` it says also for the size of the buffer of `h2`, the results are the
same. -/
theorem same_reads (hS : S.Lawful) (ops : List ROp) {h h2 : RdHalf} (hs : Sane S h) (hs2 : Sane S h2)
    (hk : h2.rks.st.key = h.rks.st.key) (hi : h2.rks.st.iv = h.rks.st.iv) (hq : h2.rks.st.counter = h.rks.st.counter)
    (ho : h2.opened = h.opened) (hu : h2.unread = h.unread) (hb : h2.rx.bytes = h.rx.bytes)
    (hcalls : ∀ {cs : List Spec.ReadCall} {rs : List Result} {s' : Option Reader},
      List.Forall₂ Agrees rs (runReads S ops h).1 →
      Calls S h.rks.st.key h.rks.st.iv h.rr.buf.length cs (readerOf h) rs s' →
      Calls S h.rks.st.key h.rks.st.iv h2.rr.buf.length cs (readerOf h) rs s') :
    List.Forall₂ SameResult (runReads S ops h).1 (runReads S ops h2).1 ∧
      (.panic ∉ (runReads S ops h).1 → readerOf (runReads S ops h2).2 = readerOf (runReads S ops h).2) := by
  obtain ⟨rs, s', a1, a2, a3⟩ := C76_reader S hS ops h hs
  have a1' := hcalls a2 a1
  have hro : readerOf h2 = readerOf h := by simp only [readerOf, placeOf, ho, hu, hq, hb]
  rw [← hk, ← hi, ← hro] at a1'
  obtain ⟨b2, b3⟩ := C76_exact S hS ops h2 hs2 rs s' a1'
  refine ⟨forall₂_same a2 b2, fun hp => ?_⟩
  cases s' with
  | some s => rw [← a3 s rfl, ← b3 s rfl]
  | none =>
    exfalso
    apply hp
    clear a1' b2 b3 a3 hcalls hro
    generalize (runReads S ops h).1 = xs at a2
    have key : ∀ {k i : Bytes} {n : Nat} {cs : List Spec.ReadCall} {s : Reader} {rs : List Result} {s' : Option Reader},
        Calls S k i n cs s rs s' → s' = none → .abort ∈ rs := by
      intro k i n cs s rs s' hc
      induction hc with
      | nil => intro h; cases h
      | cons _ _ _ _ _ _ _ _ _ _ ih => exact fun h => List.mem_cons_of_mem _ (ih h)
      | abort => exact fun _ => List.mem_cons_self
    have hm := key a1 rfl
    clear key a1
    induction a2 with
    | nil => cases hm
    | cons a _ ih =>
      rcases List.mem_cons.1 hm with rfl | hm
      · rename_i x _ _ _
        cases x with
        | ok o => exact a.elim
        | err y => exact a.elim
        | panic => exact List.mem_cons_self
      · exact List.mem_cons_of_mem _ (ih hm)

/-- C142: two reading halves in the same state before the same bytes (in any chunks), the second with a buffer at least as
large.  If no call on the first fails with `InsufficientSpace`, the calls on the second have the same results; and if none
panics both end in the same state. -/
theorem C142_reads (hS : S.Lawful) (ops : List ROp) {h h2 : RdHalf} (hs : Sane S h) (hs2 : Sane S h2)
    (hk : h2.rks.st.key = h.rks.st.key) (hi : h2.rks.st.iv = h.rks.st.iv) (hq : h2.rks.st.counter = h.rks.st.counter)
    (ho : h2.opened = h.opened) (hu : h2.unread = h.unread) (hb : h2.rx.bytes = h.rx.bytes)
    (hle : h.rr.buf.length ≤ h2.rr.buf.length) (hno : .err .insufficientSpace ∉ (runReads S ops h).1) :
    List.Forall₂ SameResult (runReads S ops h).1 (runReads S ops h2).1 ∧
      (.panic ∉ (runReads S ops h).1 → readerOf (runReads S ops h2).2 = readerOf (runReads S ops h).2) := by
  refine same_reads S hS ops hs hs2 hk hi hq ho hu hb fun a2 a1 => ?_
  rcases calls_larger S hle a1 with hm | a1'
  · exact absurd (mem_agrees a2 hm) hno
  · exact a1'

/-! The length of a record is below 65536, so no record is too large for a buffer of 65535 bytes. -/

theorem next_full {key iv : Bytes} {cap cap2 : Nat} (h1 : 65535 ≤ cap) (h2 : 65535 ≤ cap2) {p p' : Place} {e : Effect}
    (h : Next S key iv cap p e p') : Next S key iv cap2 p e p' := by
  cases h with
  | tooLarge _ _ _ _ _ _ _ hn hc => omega
  | end_ seq input h => exact .end_ seq input h
  | unknown seq t v w n rest ht hn => exact .unknown seq t v w n rest ht hn
  | truncated seq t v w n rest ht hn hc hr => exact .truncated seq t v w n rest ht hn (by omega) hr
  | invalid seq v w body rest hn hc => exact .invalid seq v w body rest hn (by omega)
  | changeCipherSpec seq v w body rest hn hc => exact .changeCipherSpec seq v w body rest hn (by omega)
  | alert seq v w body rest _ hn hc ha => exact .alert seq v w body rest _ hn (by omega) ha
  | handshake seq v w body rest _ hn hc hm => exact .handshake seq v w body rest _ hn (by omega) hm
  | forged seq v w body rest hn hc ho => exact .forged seq v w body rest hn (by omega) ho
  | authentic seq v w body rest pt _ hn hc ho hi hd hs => exact .authentic seq v w body rest pt _ hn (by omega) ho hi hd hs
  | exhausted seq v w body rest pt e hn hc ho hi hd hs => exact .exhausted seq v w body rest pt e hn (by omega) ho hi hd hs
  | refused seq v w body rest pt _ hn hc ho hi hd => exact .refused seq v w body rest pt _ hn (by omega) ho hi hd

theorem fill_full {key iv : Bytes} {cap cap2 : Nat} (h1 : 65535 ≤ cap) (h2 : 65535 ≤ cap2) {p p' : Place} {e : Effect}
    (h : Fill S key iv cap p e p') : Fill S key iv cap2 p e p' := by
  induction h with
  | here p p' e hn h3 h4 => exact .here _ _ _ (next_full S h1 h2 hn) h3 h4
  | skip p p1 p' e1 e hn h3 _ ih => exact .skip _ _ _ _ _ (next_full S h1 h2 hn) h3 ih

theorem calls_full {key iv : Bytes} {cap cap2 : Nat} (h1 : 65535 ≤ cap) (h2 : 65535 ≤ cap2) {cs : List Spec.ReadCall}
    {s : Reader} {rs : List Result} {s' : Option Reader} (h : Calls S key iv cap cs s rs s') :
    Calls S key iv cap2 cs s rs s' := by
  have key : ∀ {c : Spec.ReadCall} {s s' : Reader} {r : Result}, Call S key iv cap c s r s' → Call S key iv cap2 c s r s' := by
    intro c s s' r h
    cases h with
    | nothing => exact .nothing _
    | consume n => exact .consume n _
    | notOpen _ _ hw ho => exact .notOpen _ _ hw ho
    | available _ _ hw ho hc => exact .available _ _ hw ho hc
    | data _ p p' d hw hf => exact .data _ _ _ d hw (fill_full S h1 h2 hf)
    | closed _ p p' hw hf => exact .closed _ _ _ hw (fill_full S h1 h2 hf)
    | error _ p p' e hw hf => exact .error _ _ _ e hw (fill_full S h1 h2 hf)
    | abort _ p p' hw hf => exact .abort _ _ _ hw (fill_full S h1 h2 hf)
  induction h with
  | nil s => exact .nil s
  | cons c cs s s1 r rs s' hc hr hs ih => exact .cons _ _ _ _ _ _ _ (key hc) hr ih
  | abort c cs s s1 hc => exact .abort _ _ _ _ (key hc)

/-- C142 for buffers of at least 65535 bytes: no hypothesis about the results is needed, the size has no effect at all. -/
theorem C142_full (hS : S.Lawful) (ops : List ROp) {h h2 : RdHalf} (hs : Sane S h) (hs2 : Sane S h2)
    (hk : h2.rks.st.key = h.rks.st.key) (hi : h2.rks.st.iv = h.rks.st.iv) (hq : h2.rks.st.counter = h.rks.st.counter)
    (ho : h2.opened = h.opened) (hu : h2.unread = h.unread) (hb : h2.rx.bytes = h.rx.bytes)
    (h1 : 65535 ≤ h.rr.buf.length) (h2' : 65535 ≤ h2.rr.buf.length) :
    List.Forall₂ SameResult (runReads S ops h).1 (runReads S ops h2).1 ∧
      (.panic ∉ (runReads S ops h).1 → readerOf (runReads S ops h2).2 = readerOf (runReads S ops h).2) :=
  same_reads S hS ops hs hs2 hk hi hq ho hu hb fun _ a1 => calls_full S h1 h2' a1

/-! ## `open` -/

theorem framed_larger {cap cap2 : Nat} (hle : cap ≤ cap2) {input : Bytes} {f : Frame} (h : Framed cap input f) :
    f = .error .insufficientSpace ∨ Framed cap2 input f := by
  cases h with
  | end_ _ h => exact .inr (.end_ _ h)
  | unknown t v w n rest ht hn => exact .inr (.unknown t v w n rest ht hn)
  | tooLarge => exact .inl rfl
  | truncated t v w n rest ht hn hc hr => exact .inr (.truncated t v w n rest ht hn (hc.trans hle) hr)
  | record t v w body rest ht hn hc => exact .inr (.record t v w body rest ht hn (hc.trans hle))

theorem framed_record_larger {cap cap2 : Nat} (hle : cap ≤ cap2) {input hdr body rest : Bytes} {t : UInt8}
    (h : Framed cap input (.record t hdr body rest)) : Framed cap2 input (.record t hdr body rest) := by
  rcases framed_larger hle h with h | h
  · cases h
  · exact h

theorem flights_larger {p : Provider V} {secret : Bytes} {cap cap2 : Nat} (hle : cap ≤ cap2) {seq : Nat} {input left : Bytes}
    {f : Flight V} {g : Got V} (h : Flights S p secret cap seq input f g left) :
    g = .error (some .insufficientSpace) ∨ Flights S p secret cap2 seq input f g left := by
  induction h with
  | fault seq input f e hf =>
    rcases framed_larger hle hf with h | h
    · cases h; exact .inl rfl
    · exact .inr (.fault _ _ _ _ h)
  | stop seq seq' input f t hdr body rest g hf hr hg =>
    exact .inr (.stop _ _ _ _ _ _ _ _ _ (framed_record_larger hle hf) hr hg)
  | last seq seq' input f f2 t hdr body rest hf hr hw =>
    exact .inr (.last _ _ _ _ _ _ _ _ _ (framed_record_larger hle hf) hr hw)
  | more seq seq' input f f2 t hdr body rest left g hf hr hw hm ih =>
    rcases ih with h | h
    · exact .inl h
    · exact .inr (.more _ _ _ _ _ _ _ _ _ _ _ (framed_record_larger hle hf) hr hw h)

theorem opens_larger {p : Provider V} {v : V} {name psk : Option Bytes} {hello input : Bytes} {cap cap2 : Nat}
    (hle : cap ≤ cap2) {e : OpenEnd} (h : Opens S p v name psk hello cap input e) :
    (∃ sent, e = .error sent (some .insufficientSpace)) ∨ Opens S p v name psk hello cap2 input e := by
  cases h with
  | badName e hn => exact .inr (.badName e hn)
  | nameAbort hn => exact .inr (.nameAbort hn)
  | noRecord v0 e hn hf =>
    rcases framed_larger hle hf with h | h
    · cases h; exact .inl ⟨_, rfl⟩
    · exact .inr (.noRecord v0 e hn h)
  | noHello v0 t hdr body rest e hn hf hh => exact .inr (.noHello v0 t hdr body rest e hn (framed_record_larger hle hf) hh)
  | flightError v0 t hdr body rest sh dhe left e hn hf hh hs =>
    rcases flights_larger S hle hs with h | h
    · cases h; exact .inl ⟨_, rfl⟩
    · exact .inr (.flightError v0 t hdr body rest sh dhe left e hn (framed_record_larger hle hf) hh h)
  | flightRefused v0 t hdr body rest sh dhe left e hn hf hh hs =>
    rcases flights_larger S hle hs with h | h
    · cases h
    · exact .inr (.flightRefused v0 t hdr body rest sh dhe left e hn (framed_record_larger hle hf) hh h)
  | flightAbort v0 t hdr body rest sh dhe left hn hf hh hs =>
    rcases flights_larger S hle hs with h | h
    · cases h
    · exact .inr (.flightAbort v0 t hdr body rest sh dhe left hn (framed_record_larger hle hf) hh h)
  | replyError v0 t hdr body rest sh dhe left secret f ms e hn hf hh hs hr hc =>
    rcases flights_larger S hle hs with h | h
    · cases h
    · exact .inr (.replyError v0 t hdr body rest sh dhe left secret f ms e hn (framed_record_larger hle hf) hh h hr hc)
  | replyAbort v0 t hdr body rest sh dhe left secret f ms hn hf hh hs hr hc =>
    rcases flights_larger S hle hs with h | h
    · cases h
    · exact .inr (.replyAbort v0 t hdr body rest sh dhe left secret f ms hn (framed_record_larger hle hf) hh h hr hc)
  | opened v0 t hdr body rest sh dhe left secret tr f ms hn hf hh hs hr hc =>
    rcases flights_larger S hle hs with h | h
    · cases h
    · exact .inr (.opened v0 t hdr body rest sh dhe left secret tr f ms hn (framed_record_larger hle hf) hh h hr hc)

/-- C142 for `open`: of two new connections that receive the same bytes (in any chunks), the second with a read buffer at
least as large, if `open` on the first does not fail with `InsufficientSpace`, then on the second it ends in the same way:
success, with the same keys, records sent and bytes left; or a panic after the same records; or an error. -/
theorem C142_open (hS : S.Lawful) (cfg : Config) (p : Provider V) (v : V) {c c2 : Conn} (hf : c.Fresh S) (hf2 : c2.Fresh S)
    (hcl : c.rx.Clean) (hcl2 : c2.rx.Clean) (hrel : Reliable c.tx) (hrel2 : Reliable c2.tx)
    (hroom : Roomy S cfg p c.wb.buffer.length) (hroom2 : Roomy S cfg p c2.wb.buffer.length)
    (hb : c2.rx.bytes = c.rx.bytes) (hle : c.rr.buf.length ≤ c2.rr.buf.length)
    (hno : (Conn.open_ S cfg p v c).1 ≠ .err .insufficientSpace) :
    ∃ e : OpenEnd, OpenAgrees S (cfg.psk.map (·.1)) c (Conn.open_ S cfg p v c).1 (Conn.open_ S cfg p v c).2 e ∧
      OpenAgrees S (cfg.psk.map (·.1)) c2 (Conn.open_ S cfg p v c2).1 (Conn.open_ S cfg p v c2).2 e := by
  obtain ⟨e, h1, h2⟩ := C77_open S hS cfg p v hf hcl hrel hroom
  refine ⟨e, h2, ?_⟩
  rcases opens_larger S hle h1 with ⟨sent, rfl⟩ | h
  · obtain ⟨y, a1, a2, -⟩ := h2
    cases (show y = _ from a2)
    exact absurd a1 hno
  · rw [← hb] at h
    exact C77_exact S hS cfg p v hf2 hcl2 hrel2 hroom2 h

/-- In particular a larger read buffer never makes a handshake fail. -/
theorem C142_opens (hS : S.Lawful) (cfg : Config) (p : Provider V) (v : V) {c c2 : Conn} (hf : c.Fresh S) (hf2 : c2.Fresh S)
    (hcl : c.rx.Clean) (hcl2 : c2.rx.Clean) (hrel : Reliable c.tx) (hrel2 : Reliable c2.tx)
    (hroom : Roomy S cfg p c.wb.buffer.length) (hroom2 : Roomy S cfg p c2.wb.buffer.length)
    (hb : c2.rx.bytes = c.rx.bytes) (hle : c.rr.buf.length ≤ c2.rr.buf.length)
    (hok : (Conn.open_ S cfg p v c).1 = .ok ()) :
    (Conn.open_ S cfg p v c2).1 = .ok () ∧ (Conn.open_ S cfg p v c2).2.rx.bytes = (Conn.open_ S cfg p v c).2.rx.bytes ∧
      (Conn.open_ S cfg p v c2).2.ks.client.st = (Conn.open_ S cfg p v c).2.ks.client.st ∧
      (Conn.open_ S cfg p v c2).2.ks.server.st = (Conn.open_ S cfg p v c).2.ks.server.st := by
  obtain ⟨e, h1, h2⟩ := C142_open S hS cfg p v hf hf2 hcl hcl2 hrel hrel2 hroom hroom2 hb hle (by rw [hok]; simp)
  cases e with
  | opened sent dhe t rest =>
    obtain ⟨a1, a2, a3, a4, a5, a6⟩ := h1
    obtain ⟨b1, b2, b3, b4, b5, b6⟩ := h2
    exact ⟨b1, b4.trans a4.symm, b5.trans a5.symm, b6.trans a6.symm⟩
  | error sent z => obtain ⟨y, a1, -⟩ := h1; rw [hok] at a1; cases a1
  | refusal sent z => obtain ⟨y, told, a1, -⟩ := h1; rw [hok] at a1; cases a1
  | abort sent => have a1 := h1.1; rw [hok] at a1; cases a1

/-! ## Instances -/

-- a buffer of 300 bytes and other chunks: data, a forged record and an alert give the same results
def exWide (n : Nat) (rx : Rx) : RdHalf := { (exConn rx).rd with rr := RR.new (List.replicate n 0) }

theorem exWide_sane : Sane toySuite (exWide 300 [.data exStream.bytes]) := by
  refine ⟨⟨by unfold RR.Inv; decide +kernel, by decide +kernel, by decide +kernel⟩, ?_, ⟨by decide +kernel, .inl rfl⟩,
    by decide +kernel⟩
  exact exClean (by decide +kernel)

theorem exStream_noSpace : .err .insufficientSpace ∉
    (runReads toySuite [.read 1, .consume 5, .read 5, .fillBuf, .read 5] (exConn exStream).rd).1 := by
  decide +kernel

example : List.Forall₂ SameResult
    (runReads toySuite [.read 1, .consume 5, .read 5, .fillBuf, .read 5] (exConn exStream).rd).1
    (runReads toySuite [.read 1, .consume 5, .read 5, .fillBuf, .read 5] (exWide 300 [.data exStream.bytes])).1 :=
  (C142_reads toySuite toySuite_lawful _ exStream_sane exWide_sane rfl rfl rfl rfl rfl (by decide +kernel)
    (by decide +kernel) exStream_noSpace).1

-- the hypothesis is needed: a record that does not fit a buffer of 18 bytes is refused there and read with 300
example : (runReads toySuite [.read 5] (exWide 18 exStream)).1 = [.err .insufficientSpace] ∧
    (runReads toySuite [.read 5] (exWide 300 exStream)).1 = [.ok ⟨[7, 8], [[7, 8]], [7, 8]⟩] := by
  decide +kernel

-- C142_full: any two buffers of at least 65535 bytes
theorem exWide_sane' (n : Nat) {bs : Bytes} (hb : bs ≠ []) : Sane toySuite (exWide n [.data bs]) := by
  refine ⟨⟨by unfold RR.Inv exWide RR.new; simp, Nat.zero_le _, ?_⟩, exClean hb, ⟨Nat.zero_le _, .inl rfl⟩, ?_⟩
  · exact (exWide_sane.good).3
  · exact exWide_sane.iv

example (ops : List ROp) (n m : Nat) (hn : 65535 ≤ n) (hm : 65535 ≤ m) :
    List.Forall₂ SameResult (runReads toySuite ops (exWide n [.data exStream.bytes])).1
      (runReads toySuite ops (exWide m [.data exStream.bytes])).1 :=
  (C142_full toySuite toySuite_lawful ops (exWide_sane' n (by decide +kernel)) (exWide_sane' m (by decide +kernel))
    rfl rfl rfl rfl rfl rfl (by simpa [exWide, RR.new] using hn) (by simpa [exWide, RR.new] using hm)).1

-- a handshake that succeeds with a read buffer of 400 bytes succeeds with any larger one
def exNewWide (n : Nat) (rx : Rx) : Conn := { exNew 400 rx with rr := RR.new (List.replicate n 0) }

theorem exNewWide_fresh (n : Nat) (rx : Rx) : (exNewWide n rx).Fresh toySuite :=
  ⟨rfl, rfl, by unfold RR.Inv exNewWide RR.new; simp, rfl, ⟨rfl, rfl⟩, (exNew_fresh 400 rx (by decide)).room⟩

theorem exNewWide_room (n : Nat) (rx : Rx) : (exNewWide n rx).wb.buffer.length = 400 := exNew_room 400 rx

theorem exNewWide_size (n : Nat) (rx : Rx) : (exNewWide n rx).rr.buf.length = n := by simp [exNewWide, RR.new]

example (n : Nat) (hn : 400 ≤ n) :
    (Conn.open_ toySuite exCfg exProv () (exNewWide n [.data (exServer exCfg exSH exMin)])).1 = .ok () :=
  (C142_opens toySuite toySuite_lawful exCfg exProv () (c := exNew 400 [.data (exServer exCfg exSH exMin)])
    (c2 := exNewWide n [.data (exServer exCfg exSH exMin)])
    (exNew_fresh _ _ (by decide)) (exNewWide_fresh _ _)
    (exClean (by decide +kernel)) (exClean (by decide +kernel)) (by intro a ha; cases ha) (by intro a ha; cases ha)
    (by rw [exNew_room]; exact exRoomy) (by rw [exNewWide_room]; exact exRoomy)
    rfl (by rw [exNew_size, exNewWide_size]; exact hn) exMin_ok).1

-- but not with every smaller one
set_option maxRecDepth 20000 in
example : (Conn.open_ toySuite exCfg exProv () (exNewWide 100 [.data (exServer exCfg exSH exMin)])).1 =
    .err .insufficientSpace := by
  decide +kernel

end ETls
