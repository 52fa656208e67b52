import Verif.Props.LaterAlert
import Verif.Model.Webpki

/-! # C43: when `open` reports that the server aborted the handshake -/

namespace ETls

open Spec

variable (S : Suite) {V : Type}

namespace Spec

/-- The error says that the server has aborted the handshake. -/
def SaysAborted (e : TlsError) : Prop := ∃ l d, e = .handshakeAborted l d

/-- The verifier and the signer do not themselves return that error. -/
structure NeverAborts (p : Provider V) : Prop where
  setHostname : ∀ ops, p.verifier = some ops → ∀ n v e v', ops.setHostname n v = (.err e, v') → ¬ SaysAborted e
  verifyCertificate : ∀ ops, p.verifier = some ops → ∀ t c v e v', ops.verifyCertificate t c v = (.err e, v') → ¬ SaysAborted e
  verifySignature : ∀ ops, p.verifier = some ops → ∀ s v e v', ops.verifySignature s v = (.err e, v') → ¬ SaysAborted e
  signer : ∀ e, p.signer = .err e → ¬ SaysAborted e

end Spec

/-- The error of an outcome, if any, is another one. -/
def Spec.Got.Other : Got V → Prop
  | .error e => ∀ y, Stands e y → ¬ SaysAborted y
  | .refused e => ∀ y, Stands e y → ¬ SaysAborted y
  | _ => True

theorem decoder_other {y : TlsError} (h : DecoderError y) : ¬ SaysAborted y := by
  rintro ⟨l, d, rfl⟩
  cases h

theorem alertRead_other {bs : Bytes} {e : TlsError} (h : AlertRead bs (.err e)) : ¬ SaysAborted e := by
  rintro ⟨l, d, rfl⟩
  cases h

theorem framed_other {cap : Nat} {bs : Bytes} {e : TlsError} (h : Framed cap bs (.error e)) : ¬ SaysAborted e := by
  rintro ⟨l, d, rfl⟩
  cases h

theorem judged_other {f : Flight V} {x : Res TlsError Unit × V} (h : ∀ e v', x = (.err e, v') → ¬ SaysAborted e) :
    Got.Other (.of (f.judged x)) := by
  obtain ⟨r, v'⟩ := x
  cases r with
  | ok a => trivial
  | panic => trivial
  | err e => rintro y rfl; exact h _ _ rfl

theorem hears_other {p : Provider V} (hp : NeverAborts p) {secret m : Bytes} {f : Flight V} {r : RawMsg}
    {x : Res TlsError (Flight V)} (h : Hears S p secret f m r x) : Got.Other (.of x) := by
  cases h with
  | certificate ctx es ops hv => exact judged_other fun e v' => hp.verifyCertificate ops hv _ _ _ _ _
  | signature s sig sc ops hv hx => exact judged_other fun e v' => hp.verifySignature ops hv _ _ _ _
  | forged => rintro y rfl ⟨l, d, h⟩; cases h
  | unexpected => rintro y rfl ⟨l, d, h⟩; cases h
  | _ => trivial

theorem msgs_other {p : Provider V} (hp : NeverAborts p) {secret bytes : Bytes} {f : Flight V} {g : Got V}
    (h : FlightMsgs S p secret bytes f g) : g.Other := by
  induction h with
  | done f => trivial
  | next r m rest f f1 g hb hh hr ih => exact ih
  | stop r m rest f x hb hh hx => exact hears_other S hp hh
  | unreadable bytes f hne hb => exact fun y hy => decoder_other hy

theorem inner_other {p : Provider V} (hp : NeverAborts p) {secret pt : Bytes} {f : Flight V} {g : Got V}
    (h : FlightInner S p secret f pt g) : g.Other := by
  cases h with
  | empty => trivial
  | handshake content padding g hm => exact msgs_other S hp hm
  | badAlert content padding e ha => rintro y rfl; exact alertRead_other ha
  | _ => rintro y rfl ⟨l, d, h⟩; cases h

theorem step_other {p : Provider V} (hp : NeverAborts p) {secret hdr body : Bytes} {seq n : Nat} {f : Flight V} {t : UInt8}
    {g : Got V} (h : FlightStep S p secret seq f t hdr body g n) : g.Other := by
  cases h with
  | badAlert e ha => rintro y rfl; exact alertRead_other ‹_›
  | plain m rest r x hb hh => exact hears_other S hp ‹_›
  | unreadable hb => exact fun y hy => decoder_other hy
  | refused pt ho hi hg => exact inner_other S hp ‹_›
  | changeCipherSpec => trivial
  | authentic => trivial
  | exhausted => trivial
  | _ => rintro y rfl ⟨l, d, h⟩; cases h

theorem flights_other {p : Provider V} (hp : NeverAborts p) {secret : Bytes} {cap seq : Nat} {input left : Bytes}
    {f : Flight V} {g : Got V} (h : Flights S p secret cap seq input f g left) : g.Other := by
  induction h with
  | fault seq input f e hf => rintro y rfl; exact framed_other hf
  | stop seq seq' input f t hdr body rest g hf hr hg => exact step_other S hp hr
  | last => trivial
  | more seq seq' input f f1 t hdr body rest left g hf hr hw hm ih => exact ih

/-- `open` reports that the server aborted the handshake only if the first record the server sent is an alert with that
level and description; what comes later is never reported so (and no message that cannot be decoded is mistaken for it). -/
theorem aborted_framed (hS : S.Lawful) (cfg : Config) (p : Provider V) (hp : NeverAborts p) (v : V) {c c' : Conn} (hf : c.Fresh S)
    (hclean : c.rx.Clean) (hrel : Reliable c.tx) (hroom : Roomy S cfg p c.wb.buffer.length) {l : AlertLevel}
    {d : AlertDescription} (h : Conn.open_ S cfg p v c = (.err (.handshakeAborted l d), c')) :
    ∃ hdr body rest, Framed c.rr.buf.length c.rx.bytes (.record 21 hdr body rest) ∧ AlertRead body (.ok (l, d)) := by
  obtain ⟨e, h1, h2⟩ := C77_open S hS cfg p v hf hclean hrel hroom
  rw [h] at h2
  have hsay : SaysAborted (.handshakeAborted l d) := ⟨l, d, rfl⟩
  cases h1 with
  | badName e hn =>
    obtain ⟨y, a1, a2, -⟩ := h2
    cases a1
    cases a2
    generalize cfg.serverName = name at hn
    cases hn with
    | rejected ops name v' _ hv hh => exact absurd hsay (hp.setHostname ops hv _ _ _ _ hh)
  | nameAbort => cases h2.1
  | noRecord v0 e hn hfr =>
    obtain ⟨y, a1, a2, -⟩ := h2
    cases a1
    cases a2
    exact absurd hsay (framed_other hfr)
  | noHello v0 t hdr body rest e hn hfr hh =>
    obtain ⟨y, a1, a2, -⟩ := h2
    cases a1
    cases hh with
    | alert _ l' d' ha =>
      cases a2
      exact ⟨hdr, body, rest, hfr, ha⟩
    | badAlert _ e ha => cases a2; exact absurd hsay (alertRead_other ha)
    | unreadable => exact absurd hsay (decoder_other a2)
    | _ => cases a2
  | flightError v0 t hdr body rest sh dhe left e hn hfr hh hs =>
    obtain ⟨y, a1, a2, -⟩ := h2
    cases a1
    exact absurd hsay (flights_other S hp hs _ a2)
  | flightRefused v0 t hdr body rest sh dhe left e hn hfr hh hs =>
    obtain ⟨y, told, a1, a2, -⟩ := h2
    cases a1
    exact absurd hsay (flights_other S hp hs _ a2)
  | flightAbort => cases h2.1
  | replyError v0 t hdr body rest sh dhe left secret f ms e hn hfr hh hs hr hc =>
    obtain ⟨y, a1, a2, -⟩ := h2
    cases a1
    cases a2
    cases hr with
    | noSigner ctx cert e ha hc' hp' hsg => exact absurd hsay (hp.signer _ hsg)
  | replyAbort => cases h2.1
  | opened => cases h2.1

/-! ## The crate's verifiers -/

theorem decoded_only {α : Type} {r : Res TlsError α} (h : r.Only DecoderError) : r.Only (¬ SaysAborted ·) :=
  ⟨fun e he => decoder_other (h.out e he)⟩

theorem not_of_errsIn {σ α : Type} {m : M TlsError σ α} (h : ErrsIn (¬ SaysAborted ·) m) :
    ∀ s e s', m s = (.err e, s') → ¬ SaysAborted e := by
  intro s e s' hm
  have := h.out s
  rw [hm] at this
  exact this.out e rfl

theorem errsIn_setHostname (n : Bytes) : ErrsIn (¬ SaysAborted ·) (pkiSetHostname n) := by unfold pkiSetHostname; errsIn

theorem only_certOwned (N : Nat) (c : CertMsg) : (certOwned N c).Only (¬ SaysAborted ·) := by unfold certOwned; errsIn

theorem only_serverSigned (cap : Nat) (t : Bytes) : (serverSigned S cap t).Only (¬ SaysAborted ·) := by
  unfold serverSigned; errsIn

theorem only_parseVector (p : PB) : (CertEntry.parseVector 16 p).Only (¬ SaysAborted ·) := by
  have hentry : ErrsIn DecoderError CertEntry.parse := by
    unfold CertEntry.parse
    have := undecs_extVector certificateGroup 2
    errsIn
  exact decoded_only ((undecs_readListLoop 16 (full := .decodeError) .decode hentry _ _).out p)

theorem native_neverAborts (L : PkiLib) (F : Features) (now : Option Nat) (N : Nat) (random secret : Bytes)
    (signer : Res TlsError ((Bytes → Option Bytes) × SignatureScheme)) (cert : Option CertEntry)
    (hs : ∀ e, signer = .err e → ¬ SaysAborted e) :
    NeverAborts ⟨random, secret, some (pkiOps L S F now N), signer, cert⟩ where
  setHostname := by rintro ops h n; cases h; exact not_of_errsIn (errsIn_setHostname n)
  verifyCertificate := by
    rintro ops h t c; cases h
    refine not_of_errsIn ?_
    show ErrsIn (¬ SaysAborted ·) (pkiVerifyCertificate L F now N t c)
    have hc : ∀ a b, (verifyCertEntry L F a b now).Only (¬ SaysAborted ·) := by
      intro a b
      have hk : ∀ al k d s, (checkCertSignature L al k d s).Only (¬ SaysAborted ·) := by
        intro al k d s; unfold checkCertSignature; errsIn
      unfold verifyCertEntry
      repeat' first
        | (refine Res.Only.err ?_; qed_err)
        | exact .panic
        | exact .ok _
        | split
      rename_i heq
      exact (heq ▸ hk _ _ _ _ : (Res.err _ : Res TlsError Bool).Only (¬ SaysAborted ·)).cast
    have hch : ∀ es prev ns, (verifyChain L F now prev es ns).Only (¬ SaysAborted ·) := by
      intro es
      induction es with
      | nil => intro _ _; exact .ok _
      | cons e es ih =>
        intro prev ns
        have := hc prev e
        unfold verifyChain
        split
        · exact ih _ _
        · rename_i heq; rw [heq] at this; exact this.cast
        · exact .panic
    unfold pkiVerifyCertificate
    refine ErrsIn.get.bind fun v => (ErrsIn.lift (hch _ _ _)).bind fun ns => ?_
    split
    · exact (ErrsIn.lift (only_certOwned N c)).bind fun _ => ErrsIn.modify _
    · exact ErrsIn.fail (by qed_err)
  verifySignature := by
    rintro ops h cv; cases h
    refine not_of_errsIn ?_
    show ErrsIn (¬ SaysAborted ·) (pkiVerifySignature L S F cv)
    unfold pkiVerifySignature
    refine ErrsIn.get.bind fun v => ?_
    split
    · exact ErrsIn.crash
    · refine (ErrsIn.modify _).bind fun _ => (ErrsIn.lift (only_serverSigned S _ _)).bind fun _ => ?_
      split
      · exact ErrsIn.crash
      · refine (ErrsIn.lift (only_parseVector _)).bind fun _ => ErrsIn.lift ?_
        unfold verifyPkiSignature
        repeat' first
          | (refine Res.Only.err ?_; qed_err)
          | exact .panic
          | exact .ok _
          | split
  signer := hs

theorem webpki_neverAborts (W : WebLib) (alloc : Bool) (now : Option Nat) (N : Nat) (random secret : Bytes)
    (signer : Res TlsError ((Bytes → Option Bytes) × SignatureScheme)) (cert : Option CertEntry)
    (hs : ∀ e, signer = .err e → ¬ SaysAborted e) :
    NeverAborts ⟨random, secret, some (webOps W S alloc now N), signer, cert⟩ where
  setHostname := by rintro ops h n; cases h; exact not_of_errsIn (errsIn_setHostname n)
  verifyCertificate := by
    rintro ops h t c; cases h
    refine not_of_errsIn ?_
    show ErrsIn (¬ SaysAborted ·) (webVerifyCertificate W now N t c)
    unfold webVerifyCertificate
    refine ErrsIn.get.bind fun v => (ErrsIn.lift ?_).bind fun ns => (ErrsIn.lift (only_certOwned N c)).bind fun _ => ErrsIn.modify _
    unfold webVerifyChain
    repeat' first
      | (refine Res.Only.err ?_; qed_err)
      | exact .panic
      | exact .ok _
      | dsimp only
      | split
  verifySignature := by
    rintro ops h cv; cases h
    refine not_of_errsIn ?_
    show ErrsIn (¬ SaysAborted ·) (webVerifySignature W S alloc cv)
    unfold webVerifySignature
    refine ErrsIn.get.bind fun v => ?_
    split
    · exact ErrsIn.crash
    · refine (ErrsIn.modify _).bind fun _ => (ErrsIn.lift (only_serverSigned S _ _)).bind fun _ => ?_
      split
      · exact ErrsIn.crash
      · refine (ErrsIn.lift (only_parseVector _)).bind fun _ => ErrsIn.lift ?_
        unfold webCheckSignature
        repeat' first
          | (refine Res.Only.err ?_; qed_err)
          | exact .panic
          | exact .ok _
          | split
  signer := hs

/-- **C43, the first record** `open` reports that the server aborted the handshake with this level and description exactly
if the first record that the server sent is an alert with this level and description. -/
theorem C43_iff (hS : S.Lawful) (cfg : Config) (p : Provider V) (hp : NeverAborts p) (v v0 : V) {c : Conn} (hf : c.Fresh S)
    (hclean : c.rx.Clean) (hrel : Reliable c.tx) (hroom : Roomy S cfg p c.wb.buffer.length)
    (hn : Named p v cfg.serverName (.ok v0)) (l : AlertLevel) (d : AlertDescription) :
    (Conn.open_ S cfg p v c).1 = .err (.handshakeAborted l d) ↔
    ∃ (u w x y : UInt8) (more rest : Bytes), (l, x.toNat) ∈ alertLevels ∧ (d, y.toNat) ∈ alertDescriptions ∧
      more.length + 2 ≤ c.rr.buf.length ∧ more.length + 2 < 65536 ∧
      c.rx.bytes = plaintextRecord 21 [u, w] (x :: y :: more) ++ rest := by
  constructor
  · intro h
    rcases ho : Conn.open_ S cfg p v c with ⟨r, c'⟩
    rw [ho] at h
    cases h
    obtain ⟨hdr, body, rest, h1, h2⟩ := aborted_framed S hS cfg p hp v hf hclean hrel hroom ho
    generalize hi : c.rx.bytes = input at h1
    cases h1 with
    | record _ u w _ _ ht hn hc =>
      cases h2 with
      | ok _ _ x y more hl hd =>
        simp only [List.length_cons] at hn hc
        exact ⟨u, w, x, y, more, rest, hl, hd, hc, hn, by simp [plaintextRecord, header]⟩
  · rintro ⟨u, w, x, y, more, rest, hl, hd, h1, h2, hb⟩
    have hfr := framed_plain (cap := c.rr.buf.length) 21 u w (x :: y :: more) rest ⟨.alert, by decide⟩
      (by simpa using h2) (by simpa using h1)
    rw [← hb] at hfr
    obtain ⟨z, h3, h4, -⟩ := C77_exact S hS cfg p v hf hclean hrel hroom
      (.noHello v0 21 _ _ rest _ hn hfr (.alert _ l d (.ok l d x y more hl hd)))
    rw [h3, show z = _ from h4]

-- the alert handshake_failure, and what the theorem says about it
example : (Conn.open_ toySuite exCfg exProv () (exNew 400 [.data [21, 3, 3, 0, 2, 2, 40, 9]])).1 =
    .err (.handshakeAborted .fatal .handshakeFailure) := by
  refine (C43_iff toySuite toySuite_lawful exCfg exProv ?_ () () (exNew_fresh 400 _ (by decide)) (exClean (by decide))
    (by intro a ha; cases ha) (by rw [exNew_room]; exact exRoomy) (.noVerifier _ rfl) _ _).2
    ⟨3, 3, 2, 40, [], [9], by decide, by decide, by rw [exNew_size]; decide, by decide, by rw [exNew_bytes]; decide⟩
  exact ⟨fun ops h => (by cases h), fun ops h => (by cases h), fun ops h => (by cases h),
    fun e h => (by cases h; rintro ⟨l, d, h⟩; cases h)⟩

end ETls
