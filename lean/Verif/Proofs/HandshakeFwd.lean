import Verif.Proofs.Session
import Verif.Proofs.Honest

/-! # Handshakes that succeed

The converse of `HandshakeRun`, `HandshakeOpen` and `Session`: if the transport delivers a flight that the client can
accept, each step succeeds. -/

namespace ETls

variable (S : Suite) {V : Type}
open Spec

/-! ## Receiving -/

/-- A message that is decoded somewhere is decoded the same way everywhere. -/
theorem ParsedAs.anywhere {m : Bytes} {h : ServerHs} (hp : ParsedAs S m h) (A B : Bytes) :
    ServerHs.parse S ⟨A ++ (m ++ B), A.length⟩ = (.ok h, ⟨A ++ (m ++ B), A.length + m.length⟩) := by
  obtain ⟨r, h1, ⟨n, hn, rfl⟩, h3⟩ := hp.encodes S
  have := serverHsParse_reads_len S r h1 n hn
  rw [h3] at this
  exact Reads.ok_iff.1 this A B

theorem ParsedAs.of_decoded {m : Bytes} {r : RawMsg} {h : ServerHs} (hw : r.WellSized S.hashLen) (he : Encodes m r)
    (hd : decoded r = .ok h) : ParsedAs S m h ∧ 4 ≤ m.length := by
  obtain ⟨n, hn, rfl⟩ := he
  refine ⟨⟨[], [], ?_⟩, by simp [be24]⟩
  have := serverHsParse_reads_len S r hw n hn
  rw [hd] at this
  exact Reads.ok_iff.1 this [] []

/-- The converse of `read_ok`. -/
theorem read_fwd {m : Bytes} {h : ServerHs} (hp : ParsedAs S m h) (A B tr : Bytes) :
    ServerHs.read S (⟨A ++ (m ++ B), A.length⟩, tr) =
      (.ok (stamp S tr h), (⟨A ++ (m ++ B), A.length + m.length⟩, tr ++ m)) := by
  unfold ServerHs.read
  simp only [hp.anywhere S A B]
  have h1 : (A ++ (m ++ B)).drop A.length = m ++ B := List.drop_left
  simp only [h1, Nat.add_sub_cancel_left, List.take_left]
  cases h <;> rfl

/-- The converse of `handshakeLoop_ok`. -/
theorem handshakeLoop_fwd (hS : S.Lawful) (p : Provider V) (secret : Bytes) (st : KsState)
    (hk : st.trafficSecret = some secret) {tr : Bytes} {t t1 : HsData V × State} {ms : List (Bytes × ServerHs)}
    (ht : TookAll S p secret tr t ms t1) : ∀ (fuel : Nat) (A : Bytes), (∀ m ∈ ms, ParsedAs S m.1 m.2 ∧ 4 ≤ m.1.length) →
    (msgBytes ms).length < fuel →
    handshakeLoop S (serverVerifyHandler S p) fuel ⟨A ++ msgBytes ms, A.length⟩ (⟨st, tr⟩, t) =
      (.ok (), (⟨st, tr ++ msgBytes ms⟩, t1)) := by
  induction ht with
  | nil tr t =>
    intro fuel A _ hf
    cases fuel with
    | zero => omega
    | succ fuel => simp [handshakeLoop, msgBytes]
  | cons tr t t1 t2 m h ms h1 h2 ih =>
    intro fuel A hms hf
    cases fuel with
    | zero => omega
    | succ fuel =>
      obtain ⟨hp, h4⟩ := hms (m, h) List.mem_cons_self
      simp only at hp h4
      rw [msgBytes_cons] at hf ⊢
      simp only [List.length_append] at hf
      unfold handshakeLoop
      simp only
      rw [if_pos (by simp; omega), read_fwd S hp A (msgBytes ms) tr]
      simp only
      have hcb := (handler_took S hS p secret tr m st hk h t (⟨st, tr ++ m⟩, t1)).2 ⟨t1, rfl, h1⟩
      rw [hcb]
      simp only
      have := ih fuel (A ++ m) (fun x hx => hms x (List.mem_cons_of_mem _ hx)) (by omega)
      simp only [List.append_assoc, List.length_append] at this ⊢
      exact this

theorem stripPadding_fwd (content : Bytes) (b : UInt8) (hb : b ≠ 0) (n : Nat) :
    stripPadding (Fragment.mk b content n).inner = content ++ [b] := by
  unfold stripPadding Fragment.inner
  have h1 : (content ++ [b] ++ List.replicate n 0).reverse.dropWhile (· == 0) = (content ++ [b]).reverse := by
    rw [List.reverse_append, List.reverse_replicate]
    rw [List.dropWhile_append_of_pos (by intro a ha; rw [List.eq_of_mem_replicate ha]; rfl)]
    simp [hb]
  rw [h1]
  split
  · next h => simp at h
  · next h => simp

/-- Reading one record that lies at the front of the input. -/
theorem hsRead_fwd (s : HSt V) (hi : s.c.rr.Inv) (hp : s.c.rr.pending = 0) (hc : s.c.rx.Clean)
    (hdr payload rest : Bytes) (rh : RecordHeader) (hd : RecordHeader.decode hdr = .ok rh)
    (hl : rh.contentLength = payload.length) (hb : s.c.rx.bytes = hdr ++ payload ++ rest)
    (hfit : payload.length ≤ s.c.rr.buf.length) :
    ∃ rr' rx' start, rr'.Inv ∧ rr'.pending = 0 ∧ rr'.buf.length = s.c.rr.buf.length ∧ rx'.Clean ∧ rx'.bytes = rest ∧
      start + payload.length ≤ rr'.buf.length ∧
      onConn (onRd (RdHalf.readRecord S)) s =
        ((ServerRecord.decode S rh start payload s.c.ks.server.transcript).1,
          { s with c := s.c.readTo rr' rx' { s.c.ks.server with
              transcript := (ServerRecord.decode S rh start payload s.c.ks.server.transcript).2 } }) := by
  unfold RR.Inv at hi
  have h5 : hdr.length = 5 := by
    unfold RecordHeader.decode at hd
    split at hd
    · rfl
    · simp at hd
  obtain ⟨rx', x1, x2, x3⟩ := readRecord_clean S s.c.rr s.c.rx s.c.ks.server.transcript hc ⟨by omega, .inl hp⟩
  generalize hat : (if s.c.rr.decoded + payload.length > s.c.rr.buf.length then 0 else s.c.rr.decoded) = at_
  have hatn : at_ + payload.length ≤ s.c.rr.buf.length := by rw [← hat]; split <;> omega
  have hpure : pureRead S s.c.rr s.c.rx.bytes s.c.ks.server.transcript =
      ((ServerRecord.decode S rh at_ payload s.c.ks.server.transcript).1,
        (⟨CB.splice s.c.rr.buf at_ payload, at_ + payload.length, 0⟩,
          (rest, (ServerRecord.decode S rh at_ payload s.c.ks.server.transcript).2))) := by
    unfold pureRead
    have ht5 : s.c.rx.bytes.take 5 = hdr := by rw [hb, ← h5, List.append_assoc, List.take_left]
    have hd5 : s.c.rx.bytes.drop 5 = payload ++ rest := by rw [hb, ← h5, List.append_assoc, List.drop_left]
    rw [if_neg (by rw [hb]; simp; omega), ht5, hd]
    simp only
    rw [hl, if_neg (by omega), hat, hd5, if_neg (by simp), List.take_left, List.drop_left]
  rw [hpure] at x2 x3
  simp only at x2 x3
  have hlen1 := splice_length s.c.rr.buf payload at_ (by omega)
  refine ⟨⟨CB.splice s.c.rr.buf at_ payload, at_ + payload.length, 0⟩, rx', at_, ?_, rfl, hlen1, x1, x2, ?_, ?_⟩
  · unfold RR.Inv; simp only; omega
  · simp only; omega
  · have e1 : (⟨s.c.rd.rr, s.c.rd.rx, s.c.rd.rks.transcript⟩ : RdSt) = ⟨s.c.rr, s.c.rx, s.c.ks.server.transcript⟩ := rfl
    simp only [onConn, onRd, RdHalf.readRecord]
    rw [e1, x3]
    rfl

/-- The outcome of `handle_processing_error` on success. -/
theorem withErrorHandling_fwd {m : M TlsError (HSt V) State} {s s' : HSt V} {st : State} (h : m s = (.ok st, s')) :
    withErrorHandling S m s = (.ok st, s') := by
  unfold withErrorHandling
  rw [h]
  rfl

/-- The converse of `step_verify`. -/
theorem step_verify_fwd (hS : S.Lawful) (cfg : Config) (p : Provider V) {s : HSt V} {st' : State} {secret : Bytes}
    (hi : s.c.rr.Inv) (hp : s.c.rr.pending = 0) (hc : s.c.rx.Clean)
    (hk : s.c.ks.server.st.trafficSecret = some secret) (hcnt : s.c.ks.server.st.counter + 1 < 2 ^ 64)
    {record rest : Bytes} {ms : List (Bytes × ServerHs)} {n : Nat} {hd' : HsData V}
    (hin : Incoming S s.c.ks.server.st record ms n)
    (ht : TookAll S p secret s.c.ks.server.transcript (s.h, .serverVerify) ms (hd', st'))
    (hb : s.c.rx.bytes = record ++ rest) (hfit : record.length ≤ s.c.rr.buf.length + 5) :
    ∃ rr' rx', rr'.Inv ∧ rr'.pending = 0 ∧ rr'.buf.length = s.c.rr.buf.length ∧ rx'.Clean ∧ rx'.bytes = rest ∧
      process S cfg p .serverVerify s = (.ok st',
        ⟨s.c.readTo rr' rx' ⟨{ s.c.ks.server.st with counter := s.c.ks.server.st.counter + n },
              s.c.ks.server.transcript ++ msgBytes ms⟩, hd'⟩) := by
  have hdrlen : ∀ {hdr : Bytes} {rh : RecordHeader}, RecordHeader.decode hdr = .ok rh → hdr.length = 5 := by
    intro hdr rh hd
    unfold RecordHeader.decode at hd
    split at hd
    · rfl
    · simp at hd
  simp only [process]
  cases hin with
  | plain hdr m junk h rh hd hty hl hpa h4 =>
    have h5 := hdrlen hd
    obtain ⟨rr', rx', start, a1, a2, a3, a4, a5, a6, a7⟩ := hsRead_fwd S s hi hp hc hdr (m ++ junk) rest rh hd hl hb
      (by simp only [List.length_append] at hfit ⊢; omega)
    have hdec : ServerRecord.decode S rh start (m ++ junk) s.c.ks.server.transcript =
        (.ok (.handshake (stamp S s.c.ks.server.transcript h)), s.c.ks.server.transcript ++ m) := by
      unfold ServerRecord.decode
      rw [if_neg (by simp [hl])]
      simp only [hty]
      have := read_fwd S hpa [] junk s.c.ks.server.transcript
      simp only [List.nil_append, List.length_nil] at this
      simp only [PB.new, this, Res.map]
    rw [hdec] at a7
    refine ⟨rr', rx', a1, a2, a3, a4, a5, ?_⟩
    rw [M.bind_ok a7]
    apply withErrorHandling_fwd
    unfold processServerVerify
    simp only [decryptRecord]
    cases ht with
    | cons _ _ t1 _ _ _ _ h1 h2 =>
      cases h2
      rw [(handler_took S hS p secret _ m s.c.ks.server.st hk h _ _).2 ⟨_, rfl, h1⟩]
      simp only [Res.map, msgBytes, List.flatMap_cons, List.flatMap_nil, List.append_nil, Nat.add_zero]
  | protected_ hdr ct rh hd hty hl k ms hms ho =>
    have h5 := hdrlen hd
    obtain ⟨rr', rx', start, a1, a2, a3, a4, a5, a6, a7⟩ := hsRead_fwd S s hi hp hc hdr ct rest rh hd hl hb
      (by simp only [List.length_append] at hfit ⊢; omega)
    have hdata := RecordHeader.decode_data hdr rh hd
    have hdec : ServerRecord.decode S rh start ct s.c.ks.server.transcript =
        (.ok (.appData hdr start ct), s.c.ks.server.transcript) := by
      unfold ServerRecord.decode
      rw [if_neg (by simp [hl])]
      simp only [hty, hdata]
      rfl
    rw [hdec] at a7
    have hol := hS.openLength _ _ _ _ _ ho
    refine ⟨{ rr' with buf := CB.splice rr'.buf start (Fragment.mk 22 (msgBytes ms) k).inner }, rx', ?_, a2, ?_, a4, a5, ?_⟩
    · have hspl := splice_length rr'.buf (Fragment.mk 22 (msgBytes ms) k).inner start (by omega)
      unfold RR.Inv at a1 ⊢
      simp only; omega
    · have hspl := splice_length rr'.buf (Fragment.mk 22 (msgBytes ms) k).inner start (by omega)
      simp only; omega
    · rw [M.bind_ok a7]
      apply withErrorHandling_fwd
      unfold processServerVerify
      simp only [decryptRecord]
      rw [ho]
      simp only
      have hdis : dispatchInner S (serverVerifyHandler S p) hdr start (Fragment.mk 22 (msgBytes ms) k).inner
          (s.c.ks.server, (s.h, State.serverVerify)) =
          (.ok (), (⟨s.c.ks.server.st, s.c.ks.server.transcript ++ msgBytes ms⟩, (hd', st'))) := by
        unfold dispatchInner
        rw [stripPadding_fwd _ _ (by decide)]
        simp only [List.getLast?_append, List.getLast?_singleton, Option.some_or, List.dropLast_concat]
        have : ContentType.of (22 : UInt8).toNat = some .handshake := by decide
        simp only [this]
        have := handshakeLoop_fwd S hS p secret s.c.ks.server.st hk ht ((msgBytes ms).length + 1) [] hms (by omega)
        simp only [List.nil_append, List.length_nil] at this
        exact this
      rw [hdis]
      simp only [ReadKS.increment, KsState.increment]
      rw [if_pos hcnt]
      rfl
  | changeCipherSpec hdr data rh hd hty hl =>
    have h5 := hdrlen hd
    obtain ⟨rr', rx', start, a1, a2, a3, a4, a5, a6, a7⟩ := hsRead_fwd S s hi hp hc hdr data rest rh hd hl hb
      (by simp only [List.length_append] at hfit ⊢; omega)
    have hdec : ServerRecord.decode S rh start data s.c.ks.server.transcript =
        (.ok .changeCipherSpec, s.c.ks.server.transcript) := by
      unfold ServerRecord.decode
      rw [if_neg (by simp [hl])]
      simp only [hty]
      rfl
    rw [hdec] at a7
    refine ⟨rr', rx', a1, a2, a3, a4, a5, ?_⟩
    rw [M.bind_ok a7]
    apply withErrorHandling_fwd
    cases ht
    simp only [processServerVerify, decryptRecord, serverVerifyHandler, M.pure_apply, Res.map]
    simp [msgBytes]

theorem openLoop_step (cfg : Config) (p : Provider V) {fuel : Nat} {st st1 : State} {s s1 : HSt V}
    (hst : st ≠ .applicationData) (h : process S cfg p st s = (.ok st1, s1)) :
    openLoop S cfg p (fuel + 1) st s = openLoop S cfg p fuel st1 s1 := by
  conv => lhs; unfold openLoop
  rw [if_neg hst, M.bind_ok h]

theorem TookAll.split {p : Provider V} {secret : Bytes} {a b : List (Bytes × ServerHs)} :
    ∀ {tr : Bytes} {t t2 : HsData V × State}, TookAll S p secret tr t (a ++ b) t2 →
    ∃ t1, TookAll S p secret tr t a t1 ∧ TookAll S p secret (tr ++ msgBytes a) t1 b t2 := by
  induction a with
  | nil => intro tr t t2 h; exact ⟨t, .nil _ _, by simpa [msgBytes] using h⟩
  | cons x a ih =>
    intro tr t t2 h
    cases h with
    | cons _ _ t1 _ m h ms h1 h2 =>
      obtain ⟨t3, k1, k2⟩ := ih h2
      refine ⟨t3, .cons _ _ _ _ _ _ _ h1 k1, ?_⟩
      rw [msgBytes_cons, ← List.append_assoc]
      exact k2

/-- Without Finished the state does not change. -/
theorem TookAll.same {p : Provider V} {secret tr : Bytes} {ms : List (Bytes × ServerHs)} {t t' : HsData V × State}
    (ht : TookAll S p secret tr t ms t') (hn : ∀ m ∈ ms, ∀ f, m.2 ≠ .finished f) : t'.2 = t.2 := by
  induction ht with
  | nil tr t => rfl
  | cons tr t t1 t2 m h ms h1 _ ih =>
    rw [ih fun x hx => hn x (List.mem_cons_of_mem _ hx)]
    have := hn (m, h) List.mem_cons_self
    cases h1 <;> simp_all

/-- The converse of `flight_ok`. -/
theorem flight_fwd (hS : S.Lawful) (cfg : Config) (p : Provider V) {secret rest : Bytes}
    (fl : List (Bytes × List (Bytes × ServerHs))) : ∀ (s : HSt V) (k' : KsState) (hd' : HsData V) (st' : State) (fuel : Nat),
    s.c.rr.Inv → s.c.rr.pending = 0 → s.c.rx.Clean → s.c.ks.server.st.trafficSecret = some secret →
    s.c.ks.server.st.counter + fl.length < 2 ^ 64 → Received S s.c.ks.server.st fl k' →
    TookAll S p secret s.c.ks.server.transcript (s.h, .serverVerify) (flightMsgs fl) (hd', st') → fl ≠ [] →
    (∀ g ∈ fl.dropLast, ∀ m ∈ g.2, ∀ f, m.2 ≠ .finished f) →
    s.c.rx.bytes = flightBytes fl ++ rest → (∀ g ∈ fl, g.1.length ≤ s.c.rr.buf.length + 5) →
    ∃ rr' rx', rr'.Inv ∧ rr'.pending = 0 ∧ rr'.buf.length = s.c.rr.buf.length ∧ rx'.Clean ∧ rx'.bytes = rest ∧
      openLoop S cfg p (fuel + fl.length) .serverVerify s = openLoop S cfg p fuel st'
        ⟨s.c.readTo rr' rx' ⟨k', s.c.ks.server.transcript ++ msgBytes (flightMsgs fl)⟩, hd'⟩ := by
  induction fl with
  | nil => intro s k' hd' st' fuel _ _ _ _ _ _ _ h; exact absurd rfl h
  | cons g fl ih =>
    intro s k' hd' st' fuel hi hp hc hk hcnt hr ht _ hnf hb hfit
    obtain ⟨record, ms⟩ := g
    cases hr with
    | cons _ _ _ _ n _ hin hr =>
      simp only [flightMsgs, List.flatMap_cons] at ht
      obtain ⟨⟨hd1, st1⟩, k1, k2⟩ := ht.split S
      have hb' : s.c.rx.bytes = record ++ (flightBytes fl ++ rest) := by
        rw [hb]; simp [flightBytes]
      obtain ⟨rr1, rx1, a1, a2, a3, a4, a5, a6⟩ := step_verify_fwd S hS cfg p hi hp hc hk
        (by simp only [List.length_cons] at hcnt; omega) hin k1 hb' (hfit _ List.mem_cons_self)
      rw [List.length_cons, ← Nat.add_assoc, openLoop_step S cfg p (by simp) a6]
      cases fl with
      | nil =>
        cases hr
        cases k2
        refine ⟨rr1, rx1, a1, a2, a3, a4, ?_, ?_⟩
        · rw [a5]; simp [flightBytes]
        · simp [flightMsgs]
      | cons g2 fl2 =>
        have hst1 : st1 = .serverVerify := k1.same S (hnf (record, ms) (by simp))
        subst hst1
        obtain ⟨rr2, rx2, b1, b2, b3, b4, b5, b6⟩ := ih
          ⟨s.c.readTo rr1 rx1 ⟨{ s.c.ks.server.st with counter := s.c.ks.server.st.counter + n },
              s.c.ks.server.transcript ++ msgBytes ms⟩, hd1⟩ k' hd' st' fuel a1 a2 a4 hk
          (by
            have : n ≤ 1 := by cases hin <;> omega
            simp only [List.length_cons] at hcnt ⊢; omega) hr k2 (by simp)
          (fun g hg => hnf g (by rw [List.dropLast_cons_of_ne_nil (by simp)]; exact List.mem_cons_of_mem _ hg)) a5
          (fun g hg => by simp only [a3]; exact hfit g (List.mem_cons_of_mem _ hg))
        refine ⟨rr2, rx2, b1, b2, by rw [b3]; exact a3, b4, b5, ?_⟩
        rw [b6]
        simp [flightMsgs, msgBytes]

/-- The converse of `step_serverHello`. -/
theorem step_serverHello_fwd (hS : S.Lawful) (cfg : Config) (p : Provider V) (s : HSt V) (psk : Option Bytes)
    (hi : s.c.rr.Inv) (hp : s.c.rr.pending = 0) (hc : s.c.rx.Clean)
    (hk : s.c.ks.shared.secret = Spec.deriveSecret S (earlySecret S psk) "derived" [])
    {hdr m junk rest : Bytes} {rh : RecordHeader} {exts : List Ext} {secret dhe : Bytes}
    (hd : RecordHeader.decode hdr = .ok rh) (hty : rh.contentType = .handshake)
    (hl : rh.contentLength = (m ++ junk).length) (hpa : ParsedAs S m (.serverHello exts)) (hsec : s.h.secret = some secret)
    (hdh : serverHelloSharedSecret S exts secret = some dhe) (hb : s.c.rx.bytes = hdr ++ (m ++ junk) ++ rest)
    (hfit : (m ++ junk).length ≤ s.c.rr.buf.length) :
    ∃ rr' rx', rr'.Inv ∧ rr'.pending = 0 ∧ rr'.buf.length = s.c.rr.buf.length ∧ rx'.Clean ∧ rx'.bytes = rest ∧
      process S cfg p .serverHello s = (.ok .serverVerify, ⟨{ s.c with
              rx := rx', rr := rr'
              ks := ⟨⟨Spec.deriveSecret S (handshakeSecret S psk dhe) "derived" [], some (handshakeSecret S psk dhe)⟩,
                { s.c.ks.client with
                  st := trafficState S (clientHandshakeTraffic S psk dhe (s.c.ks.server.transcript ++ m)) },
                ⟨trafficState S (serverHandshakeTraffic S psk dhe (s.c.ks.server.transcript ++ m)),
                  s.c.ks.server.transcript ++ m⟩⟩ },
            { s.h with secret := none }⟩) := by
  obtain ⟨rr', rx', start, a1, a2, a3, a4, a5, a6, a7⟩ := hsRead_fwd S s hi hp hc hdr (m ++ junk) rest rh hd hl hb hfit
  have hdec : ServerRecord.decode S rh start (m ++ junk) s.c.ks.server.transcript =
      (.ok (.handshake (.serverHello exts)), s.c.ks.server.transcript ++ m) := by
    unfold ServerRecord.decode
    rw [if_neg (by simp [hl])]
    simp only [hty]
    have := read_fwd S hpa [] junk s.c.ks.server.transcript
    simp only [List.nil_append, List.length_nil] at this
    simp only [PB.new, this, Res.map, stamp]
  rw [hdec] at a7
  refine ⟨rr', rx', a1, a2, a3, a4, a5, ?_⟩
  simp only [process]
  rw [M.bind_ok a7]
  apply withErrorHandling_fwd
  simp only [processServerHello]
  rw [M.get_bind]
  simp only [hsec]
  unfold modHs
  rw [M.modify_bind]
  simp only [hdh]
  have hks := C35_handshake S hS { s.c.ks with
    server := { s.c.ks.server with transcript := s.c.ks.server.transcript ++ m } } psk dhe hk
  rw [M.bind_ok (onKs_ok hks)]
  rfl

/-! ## Sending -/

theorem respond_fwd {bytes : Bytes} {c : Conn} (hc : c.ks.client.st.counter + 1 < 2 ^ 64) (hr : Reliable c.tx) :
    ∃ ctl, (∀ x ∈ ctl, x = .ok) ∧ respond bytes c = (.ok (),
      { c with tx := ⟨ctl, c.tx.log ++ [.wrote bytes, .flushed]⟩, ks := { c.ks with client := c.ks.client.next } }) := by
  have h := respond_cases bytes c hc
  generalize respond bytes c = x at h
  cases h with
  | failed k p ctl' hp hn => exact absurd hr hn
  | flushFailed k ctl' hn => exact absurd hr hn
  | done ctl' h => exact ⟨ctl', h hr, rfl⟩

/-- The converse of `send_ok`. -/
theorem send_fwd (hS : S.Lawful) (m : ClientHs) {c : Conn} {bs : Bytes} (hi : c.wb.Idle)
    (hL : 5 ≤ c.wb.buffer.length) (hiv : c.ks.client.st.iv.length = S.ivLen) (ha : Appends (m.encode S) bs ())
    (hr : Reliable c.tx) (hcnt : c.ks.client.st.counter + 1 < 2 ^ 64) (hfit : bs.length + 22 ≤ c.wb.buffer.length) :
    ∃ out c1 wb ctl, Conn.writeRecord S (.handshake m true) c = (.ok out, c1) ∧
      wb.Idle ∧ wb.buffer.length = c.wb.buffer.length ∧ (∀ x ∈ ctl, x = OutCtl.ok) ∧
      respond out c1 = (.ok (), c.sent wb ctl (c.ks.server.transcript ++ bs)
        (ciphertextRecord S c.ks.client.st.key c.ks.client.st.iv c.ks.client.st.counter 22 bs)) := by
  obtain ⟨wb, h1, h2, h3⟩ := writeRecord_ok S hS (.handshake m true) c.ks.client c.wb bs c.ks.server.transcript _ _ hi hL ha
    (finishes_encrypted S m _ bs _) (by simp [recordRoom, ClientRecord.header, ClientRecordHeader.isEncrypted]; omega)
  obtain ⟨ctl, h4, h5⟩ := respond_fwd (c := c.wrote wb (c.ks.server.transcript ++ bs))
    (bytes := recordBytes S c.ks.client (ClientRecord.handshake m true).header bs) hcnt hr
  refine ⟨_, _, wb, ctl, Conn.writeRecord_of S h1, h2, h3, h4, ?_⟩
  rw [h5, recordBytes_spec S hS _ hiv _ rfl]
  rfl

/-- The converse of `step_hello`. -/
theorem step_hello_fwd (hS : S.Lawful) (cfg : Config) (p : Provider V) (s : HSt V)
    (hi : s.c.wb.Idle) (hks : s.c.ks = KeySchedule.new S) (hr : Reliable s.c.tx)
    (hfit : 5 + helloLength S cfg p ≤ s.c.wb.buffer.length) :
    ∃ binders msg wb ctl, msg = (expectedHello cfg S.codePoint p.random (S.pubKey p.secret) binders).bytes ∧
      binders.length = cfg.identities ∧
      (∀ b ∈ binders, b.length = S.hashLen ∧ b = verifyData S (binderKey S (cfg.psk.map (·.1)))
          (expectedHello cfg S.codePoint p.random (S.pubKey p.secret) binders).truncated) ∧
      wb.Idle ∧ wb.buffer.length = s.c.wb.buffer.length ∧ (∀ x ∈ ctl, x = OutCtl.ok) ∧
      process S cfg p .clientHello s = (.ok .serverHello, ⟨{ s.c with
              tx := ⟨ctl, s.c.tx.log ++ [.wrote (plaintextRecord 22 [3, 1] msg), .flushed]⟩
              wb := wb
              ks := ⟨⟨deriveSecret S (earlySecret S (cfg.psk.map (·.1))) "derived" [],
                      some (earlySecret S (cfg.psk.map (·.1)))⟩,
                     WriteKS.next { (KeySchedule.new S).client with binderKey := some (binderKey S (cfg.psk.map (·.1))) },
                     ⟨(KeySchedule.new S).server.st, msg⟩⟩ },
            { s.h with secret := some p.secret }⟩) := by
  obtain ⟨binders, msg, wb, h1, h2, h3, h4, h5, h6, h7⟩ := clientHello_run S hS cfg p s hi (by rw [hks]; rfl) hfit
  rw [show s.c.ks.server.transcript = [] by rw [hks]; rfl] at h6 h7
  simp only [List.nil_append] at h6 h7
  rw [process_clientHello S cfg p h7]
  generalize hc1 : ({ s.c with
            wb := wb
            ks := { shared := ⟨deriveSecret S (earlySecret S (cfg.psk.map (·.1))) "derived" [],
                      some (earlySecret S (cfg.psk.map (·.1)))⟩
                    client := { s.c.ks.client with binderKey := some (binderKey S (cfg.psk.map (·.1))) }
                    server := { s.c.ks.server with transcript := msg } } } : Conn) = c1
  obtain ⟨ctl, k1, k2⟩ := respond_fwd (c := c1) (bytes := plaintextRecord 22 [3, 1] msg)
    (by rw [← hc1]; simp only [hks]; exact (by decide : 0 + 1 < 2 ^ 64)) (by rw [← hc1]; exact hr)
  refine ⟨binders, msg, wb, ctl, h3, h5, h6, h1, h2, k1, ?_⟩
  rw [M.bind_ok (onConn_ok k2), ← hc1]
  simp only [hks]
  rfl

/-- The converse of `step_clientCert`. -/
theorem step_clientCert_fwd (hS : S.Lawful) (cfg : Config) (p : Provider V) (s : HSt V) {ctx : Bytes} {certs : List Bytes}
    (hi : s.c.wb.Idle) (hL : 5 ≤ s.c.wb.buffer.length) (hiv : s.c.ks.client.st.iv.length = S.ivLen)
    (hr : Reliable s.c.tx) (hcnt : s.c.ks.client.st.counter + 1 < 2 ^ 64)
    (hctx : s.h.certReq = some ctx) (hcert : p.clientCert.toList = certs.map .x509)
    (hfit : (certificateMsg ctx certs).length + 22 ≤ s.c.wb.buffer.length) :
    ∃ wb ctl, wb.Idle ∧ wb.buffer.length = s.c.wb.buffer.length ∧ (∀ x ∈ ctl, x = OutCtl.ok) ∧
      process S cfg p .clientCert s = (.ok (nextAfterCert p.clientCert),
        ⟨s.c.sent wb ctl (s.c.ks.server.transcript ++ certificateMsg ctx certs)
              (ciphertextRecord S s.c.ks.client.st.key s.c.ks.client.st.iv s.c.ks.client.st.counter 22
                (certificateMsg ctx certs)),
            { s.h with trafficHash := some s.c.ks.server.transcript }⟩) := by
  obtain ⟨out, c1, wb, ctl, h1, h2, h3, h4, h5⟩ := send_fwd S hS _ hi hL hiv (clientCert_appends S [] ctx certs) hr hcnt hfit
  refine ⟨wb, ctl, h2, h3, h4, ?_⟩
  simp only [process]
  have hcc : clientCert S p s = (.ok (nextAfterCert p.clientCert, out),
      ⟨c1, { s.h with trafficHash := some s.c.ks.server.transcript }⟩) := by
    unfold clientCert
    rw [M.get_bind]
    unfold modHs
    rw [M.modify_bind]
    simp only [hctx, hcert]
    refine (M.bind_ok (onConn_ok (s := ⟨s.c, ⟨some s.c.ks.server.transcript, s.h.secret, some ctx, s.h.vst⟩⟩) h1)).trans ?_
    rw [M.pure_apply]
  rw [M.bind_ok hcc]
  simp only
  rw [M.bind_ok (onConn_ok h5)]
  rfl

/-- The converse of `step_clientCertVerify`. -/
theorem step_clientCertVerify_fwd (hS : S.Lawful) (cfg : Config) (p : Provider V) (s : HSt V)
    {sign : Bytes → Option Bytes} {scheme : SignatureScheme} {sig : Bytes}
    (hi : s.c.wb.Idle) (hL : 5 ≤ s.c.wb.buffer.length) (hiv : s.c.ks.client.st.iv.length = S.ivLen)
    (hr : Reliable s.c.tx) (hcnt : s.c.ks.client.st.counter + 1 < 2 ^ 64) (hsig : p.signer = .ok (sign, scheme))
    (hh : S.hashLen ≤ 48) (hsg : sign (clientSignedContent S s.c.ks.server.transcript) = some sig)
    (hsl : sig.length ≤ signatureSize S)
    (hfit : (certificateVerifyMsg scheme.code sig).length + 22 ≤ s.c.wb.buffer.length) :
    ∃ wb ctl, wb.Idle ∧ wb.buffer.length = s.c.wb.buffer.length ∧ (∀ x ∈ ctl, x = OutCtl.ok) ∧
      process S cfg p .clientCertVerify s = (.ok .clientFinished,
        ⟨s.c.sent wb ctl (s.c.ks.server.transcript ++ certificateVerifyMsg scheme.code sig)
              (ciphertextRecord S s.c.ks.client.st.key s.c.ks.client.st.iv s.c.ks.client.st.counter 22
                (certificateVerifyMsg scheme.code sig)),
            s.h⟩) := by
  obtain ⟨out, c1, wb, ctl, h1, h2, h3, h4, h5⟩ := send_fwd S hS _ hi hL hiv (certVerify_appends S scheme _) hr hcnt hfit
  refine ⟨wb, ctl, h2, h3, h4, ?_⟩
  simp only [process]
  have hlen : (clientSignedContent S s.c.ks.server.transcript).length ≤ 146 := by
    have h0 : (ascii "TLS 1.3, client CertificateVerify").length = 33 := by decide
    simp only [clientSignedContent, List.length_append, List.length_replicate, h0, List.length_cons, List.length_nil,
      hS.hash_length]
    omega
  have hcc : clientCertVerify S p s = (.ok (.ok .clientFinished, out), ⟨c1, s.h⟩) := by
    unfold clientCertVerify
    rw [M.get_bind]
    simp only [hsig]
    rw [if_neg (by omega), hsg]
    simp only
    rw [if_neg (by omega), M.bind_ok (onConn_ok h1)]
    rfl
  rw [M.bind_ok hcc]
  simp only
  rw [M.bind_ok (onConn_ok h5)]
  rfl

/-- The converse of `step_clientFinished`. -/
theorem step_clientFinished_fwd (hS : S.Lawful) (cfg : Config) (p : Provider V) (s : HSt V)
    (psk : Option Bytes) (dhe secret t : Bytes)
    (hi : s.c.wb.Idle) (hL : 5 ≤ s.c.wb.buffer.length) (hiv : s.c.ks.client.st.iv.length = S.ivLen)
    (hr : Reliable s.c.tx) (hcnt : s.c.ks.client.st.counter + 1 < 2 ^ 64)
    (hk : s.c.ks.client.st.trafficSecret = some secret)
    (hsh : s.c.ks.shared.secret = Spec.deriveSecret S (handshakeSecret S psk dhe) "derived" [])
    (ht : s.h.trafficHash = some t) (hfit : S.hashLen + 26 ≤ s.c.wb.buffer.length) :
    ∃ wb ctl, wb.Idle ∧ wb.buffer.length = s.c.wb.buffer.length ∧ (∀ x ∈ ctl, x = OutCtl.ok) ∧
      process S cfg p .clientFinished s = (.ok .applicationData, ⟨{ s.c with
              wb := wb
              tx := ⟨ctl, s.c.tx.log ++ [.wrote (ciphertextRecord S s.c.ks.client.st.key s.c.ks.client.st.iv
                s.c.ks.client.st.counter 22 (finishedMsg (verifyData S secret s.c.ks.server.transcript))), .flushed]⟩
              ks := ⟨⟨Spec.deriveSecret S (masterSecret S psk dhe) "derived" [], some (masterSecret S psk dhe)⟩,
                { s.c.ks.client with st := trafficState S (clientApplicationTraffic S psk dhe t) },
                ⟨trafficState S (serverApplicationTraffic S psk dhe t), t⟩⟩ },
            { s.h with trafficHash := none }⟩) := by
  have hvd : (verifyData S secret s.c.ks.server.transcript).length = S.hashLen := hS.hmac_length _ _
  obtain ⟨out, c1, wb, ctl, h1, h2, h3, h4, h5⟩ := send_fwd S hS (.finished
      ⟨verifyData S secret s.c.ks.server.transcript, none⟩) hi hL hiv
      (finished_appends S _ _) hr hcnt
    (by simp [finishedMsg, handshake, vec24, u24, hvd]; omega)
  refine ⟨wb, ctl, h2, h3, h4, ?_⟩
  simp only [process]
  have hcf : clientFinished S s = (.ok out, ⟨c1, s.h⟩) := by
    unfold clientFinished
    rw [M.get_bind, C35_client_finished S hS _ secret hk]
    simp only [Res.mapErr]
    rw [M.lift_ok_bind]
    exact onConn_ok h1
  rw [M.bind_ok hcf, M.bind_ok (onConn_ok (s := ⟨c1, s.h⟩) h5)]
  unfold clientFinishedFinalize
  rw [M.get_bind]
  simp only [ht]
  unfold modHs
  rw [M.modify_bind]
  simp only
  generalize htr : s.c.ks.server.transcript ++ finishedMsg (verifyData S secret s.c.ks.server.transcript) = tr
  have happ := C35_application S hS (KeySchedule.replaceTranscript t
    ⟨s.c.ks.shared, s.c.ks.client.next, ⟨s.c.ks.server.st, tr⟩⟩) psk dhe hsh
  have hm : ∀ z : HSt V, onKs (M.modify (KeySchedule.replaceTranscript t)) z =
    (.ok (), { z with c := { z.c with ks := KeySchedule.replaceTranscript t z.c.ks } }) := fun _ => rfl
  refine (M.bind_ok (hm _)).trans ?_
  refine (M.bind_ok (onKs_ok happ)).trans ?_
  rfl

end ETls
