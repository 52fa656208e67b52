import Verif.Proofs.ReadPath

/-! # Which operations can report that the peer has closed the connection: only a close_notify alert can -/

namespace ETls

variable (S : Suite)

/-- Not the error that says the peer has closed the connection (`lib.rs:96`). -/
def TlsError.Stays : TlsError → Prop
  | .connectionClosed => False
  | _ => True

/-- The errors of an outcome are other errors. -/
structure Res.Stays {α : Type} (r : Res TlsError α) : Prop where
  out : ∀ e, r = .err e → e.Stays

/-- The errors of an operation are other errors. -/
structure Stays {σ α : Type} (m : M TlsError σ α) : Prop where
  out : ∀ s, (m s).1.Stays

theorem Res.Stays.ok {α : Type} (a : α) : (Res.ok a : Res TlsError α).Stays := ⟨fun e h => by cases h⟩
theorem Res.Stays.panic {α : Type} : (Res.panic : Res TlsError α).Stays := ⟨fun e h => by cases h⟩
theorem Res.Stays.err {α : Type} {e : TlsError} (h : e.Stays) : (Res.err e : Res TlsError α).Stays := by
  exact ⟨fun e' h' => by cases h'; exact h⟩

theorem Res.Stays.map {α β : Type} {r : Res TlsError α} (h : r.Stays) (f : α → β) : (r.map f).Stays := by
  cases r with
  | ok a => exact .ok _
  | err e => exact .err (h.out e rfl)
  | panic => exact .panic

theorem Res.Stays.cast {α β : Type} {e : TlsError} (h : (Res.err e : Res TlsError α).Stays) :
    (Res.err e : Res TlsError β).Stays := .err (h.out e rfl)

namespace Stays
variable {σ τ α β : Type}

theorem bind {m : M TlsError σ α} {g : α → M TlsError σ β} (h : Stays m) (hg : ∀ a, Stays (g a)) : Stays (m >>= g) := by
  refine ⟨fun s => ?_⟩
  have h1 := h.out s
  rcases hm : m s with ⟨r, s1⟩
  rw [hm] at h1
  cases r with
  | ok a => rw [M.bind_ok hm]; exact (hg a).out s1
  | err e => rw [M.bind_err hm]; exact h1.cast
  | panic => rw [M.bind_panic hm]; exact .panic

theorem pure (a : α) : Stays (Pure.pure a : M TlsError σ α) := ⟨fun _ => .ok _⟩
theorem fail {e : TlsError} (h : e.Stays) : Stays (M.fail e : M TlsError σ α) := ⟨fun _ => .err h⟩
theorem crash : Stays (M.crash : M TlsError σ α) := ⟨fun _ => .panic⟩
theorem get : Stays (M.get : M TlsError σ σ) := ⟨fun _ => .ok _⟩
theorem modify (f : σ → σ) : Stays (M.modify f : M TlsError σ Unit) := ⟨fun _ => .ok _⟩
theorem lift {r : Res TlsError α} (h : r.Stays) : Stays (M.lift r : M TlsError σ α) := ⟨fun _ => h⟩

theorem mapErr {ε : Type} {f : ε → TlsError} (h : ∀ e, (f e).Stays) (m : M ε σ α) : Stays (M.mapErr f m) := by
  refine ⟨fun s => ⟨fun e he => ?_⟩⟩
  simp only [M.mapErr] at he
  rcases hm : m s with ⟨r, s1⟩
  rw [hm] at he
  cases r with
  | ok a => cases he
  | err x => simp only [Res.mapErr, Res.err.injEq] at he; subst he; exact h x
  | panic => cases he

theorem orErr {e : TlsError} (h : e.Stays) (p : P α) : Stays (p.orErr e) := mapErr (f := fun _ => e) (fun _ => h) p
theorem toT (p : P α) : Stays p.toT := mapErr (f := TlsError.ofParse) (fun _ => trivial) p
theorem orEncodeError (p : Enc α) : Stays p.orEncodeError := mapErr (f := fun _ => .encodeError) (fun _ => trivial) p

theorem onFst {m : M TlsError σ α} (h : Stays m) : Stays (ETls.onFst (τ := τ) m) := ⟨fun s => h.out s.1⟩

end Stays

/-- Take an operation apart. -/
macro "stays" : tactic => `(tactic| repeat' first
  | assumption
  | exact Stays.pure _
  | exact Stays.get
  | exact Stays.modify _
  | exact Stays.crash
  | exact Stays.fail trivial
  | exact Stays.orErr trivial _
  | exact Stays.toT _
  | exact Stays.orEncodeError _
  | exact Stays.mapErr (fun _ => by trivial) _
  | apply Stays.onFst
  | apply Stays.bind
  | apply Stays.lift
  | apply Res.Stays.map
  | exact Res.Stays.ok _
  | exact Res.Stays.panic
  | exact Res.Stays.err trivial
  | intro _
  | split
  | dsimp only)

/-! ## Incoming messages -/

theorem stays_extParse (g : ExtGroup) : Stays (extParse g) := by
  refine ⟨fun p0 => ?_⟩
  unfold extParse
  rcases ExtensionType.parse p0 with ⟨ty, p1⟩
  simp only
  refine (Stays.bind (Stays.orErr (by trivial) _) (fun n => Stays.bind (Stays.orErr (by trivial) _) fun d => ?_)).out p1
  stays

theorem stays_extLoop (g : ExtGroup) (cap : Nat) : ∀ n acc, Stays (extLoop g cap n acc)
  | 0, _ => Stays.crash
  | n + 1, acc => by
    refine ⟨fun p => ?_⟩
    unfold extLoop
    split
    · exact .ok _
    · have h1 := (stays_extParse g).out p
      split
      · split
        · exact (stays_extLoop g cap n _).out _
        · exact .err (by trivial)
      · exact (stays_extLoop g cap n _).out _
      · rename_i e p' _ heq
        rw [heq] at h1
        exact h1.cast
      · exact .panic

theorem stays_extVector (g : ExtGroup) (cap : Nat) : Stays (extParseVector g cap) := by
  unfold extParseVector
  exact (Stays.orErr (by trivial) _).bind fun _ => (Stays.toT _).bind fun b => Stays.lift ((stays_extLoop g cap _ _).out b)

theorem stays_readListLoop {α : Type} (cap : Nat) {full : TlsError} (hf : full.Stays) {read : M TlsError PB α}
    (h : Stays read) : ∀ n acc, Stays (PB.readListLoop cap full read n acc)
  | 0, _ => Stays.crash
  | n + 1, acc => by
    refine ⟨fun p => ?_⟩
    unfold PB.readListLoop
    split
    · exact .ok _
    · refine (Stays.bind h (fun x => ?_)).out p
      split
      · exact stays_readListLoop cap hf h n _
      · exact Stays.fail hf

theorem stays_certMsg : Stays CertMsg.parse := by
  unfold CertMsg.parse
  have hentry : Stays CertEntry.parse := by
    unfold CertEntry.parse
    have := stays_extVector certificateGroup 2
    stays
  have : ∀ raw : PB, (CertEntry.parseVector 16 raw).Stays := fun raw =>
    (stays_readListLoop 16 (full := .decodeError) trivial hentry _ _).out raw
  refine (Stays.orErr (by trivial) _).bind fun _ => (Stays.orErr (by trivial) _).bind fun _ => (Stays.orErr (by trivial) _).bind fun _ =>
    (Stays.orErr (by trivial) _).bind fun raw => (Stays.lift (this raw)).bind fun _ => Stays.pure _

theorem stays_serverHs : Stays (ServerHs.parse S) := by
  unfold ServerHs.parse
  refine (Stays.orErr (by trivial) _).bind fun t => (Stays.orErr (by trivial) _).bind fun _ => ?_
  have h1 : Stays serverHelloParse := by
    unfold serverHelloParse; have := stays_extVector serverHelloGroup 4; stays
  have h2 : Stays newSessionTicketParse := by
    unfold newSessionTicketParse; have := stays_extVector newSessionTicketGroup 1; stays
  have h3 : Stays encryptedExtensionsParse := by
    unfold encryptedExtensionsParse; have := stays_extVector encryptedExtensionsGroup 16; stays
  have h4 := stays_certMsg
  have h5 : Stays certRequestParse := by
    unfold certRequestParse; have := stays_extVector certificateRequestGroup 6; stays
  have h6 : Stays CertVerify.parse := by unfold CertVerify.parse; stays
  have h7 : Stays (finishedParse S) := by unfold finishedParse; stays
  stays

theorem stays_hsRead : Stays (ServerHs.read S) := by
  refine ⟨fun ⟨p, tr⟩ => ?_⟩
  unfold ServerHs.read
  have h1 := (stays_serverHs S).out p
  simp only
  split
  · exact .ok _
  · rename_i heq; rw [heq] at h1; exact h1.cast
  · exact .panic

theorem stays_alert : Stays Alert.parse := by unfold Alert.parse; stays

theorem stays_recordDecode (h : RecordHeader) (start : Nat) (data : Bytes) : Stays (ServerRecord.decode S h start data) := by
  unfold ServerRecord.decode
  split
  · exact Stays.crash
  · split
    · exact Stays.fail (by trivial)
    · exact (Stays.lift (by unfold changeCipherSpecRead; exact .ok _)).bind fun _ => Stays.pure _
    · exact ⟨fun tr => (stays_alert.out _).map _⟩
    · exact ⟨fun tr => ((stays_hsRead S).out (PB.new data, tr)).map _⟩
    · exact Stays.pure _

theorem stays_consume (h : RecordHeader) : Stays (consumeRecord S h) := by
  refine ⟨fun s => ?_⟩
  unfold consumeRecord
  simp only
  split
  · exact .panic
  · split
    · exact .panic
    · exact (stays_recordDecode S h _ _).out _

theorem stays_handshakeLoop {τ : Type} {cb : ServerRecord → M TlsError (ReadKS × τ) Unit} (hcb : ∀ m, Stays (cb (.handshake m))) :
    ∀ n p, Stays (handshakeLoop S cb n p)
  | 0, _ => Stays.crash
  | n + 1, p => by
    refine ⟨fun ⟨k, t⟩ => ?_⟩
    unfold handshakeLoop
    simp only
    split
    · have h1 := (stays_hsRead S).out (p, k.transcript)
      split
      · rename_i h p' tr heq
        have h2 := (hcb h).out ({ k with transcript := tr }, t)
        split
        · exact (stays_handshakeLoop hcb n _).out _
        · rename_i heq2; rw [heq2] at h2; exact h2
        · exact .panic
      · rename_i heq; rw [heq] at h1; exact h1.cast
      · exact .panic
    · exact .ok _

theorem stays_rxRead (n : Nat) : Stays (Rx.read n) := by
  refine ⟨fun rx => ?_⟩
  unfold Rx.read
  split
  · exact .ok _
  · exact .err (by trivial)
  · split <;> exact .ok _

theorem stays_headerLoop : ∀ n acc, Stays (headerLoop n acc)
  | 0, _ => Stays.crash
  | n + 1, acc => by
    unfold headerLoop
    split
    · exact Stays.pure _
    · refine (stays_rxRead _).bind fun bs => ?_
      split
      · exact Stays.fail (by trivial)
      · exact stays_headerLoop n _

theorem stays_headerDecode (h : Bytes) : (RecordHeader.decode h).Stays := by
  unfold RecordHeader.decode
  stays

theorem stays_header : Stays RdSt.header := by
  refine ⟨fun s => ?_⟩
  exact ((stays_headerLoop 6 []).bind fun h => Stays.lift (stays_headerDecode h)).out s.rx

theorem stays_advanceLoop (amount : Nat) : ∀ n remain, Stays (advanceLoop amount n remain)
  | 0, _ => Stays.crash
  | n + 1, remain => by
    refine ⟨fun ⟨r, rx⟩ => ?_⟩
    unfold advanceLoop
    simp only
    have h1 := (stays_rxRead remain).out rx
    split
    · split
      · exact .panic
      · split
        · split
          · exact .err (by trivial)
          · exact (stays_advanceLoop amount n _).out _
        · rename_i heq; rw [heq] at h1; exact h1.cast
        · exact .panic
    · exact .ok _

theorem stays_advance (amount : Nat) : Stays (RdSt.advance amount) := by
  refine ⟨fun s => ?_⟩
  have h1 : Stays (ensureContiguous amount) := by refine ⟨fun r => ?_⟩; unfold ensureContiguous; stays
  exact (h1.onFst.bind fun _ => stays_advanceLoop amount _ _).out (s.rr, s.rx)

theorem stays_readRecord : Stays (readRecord S) :=
  stays_header.bind fun h => (stays_advance _).bind fun _ => stays_consume S h

/-- Why receiving a record reports that the peer has closed the connection: the record opens under the reader's key and its
content is a `close_notify` alert, or it is an unprotected record holding one. -/
inductive CloseCause (h : RdHalf) : Prop where
  | protected_ (hdr ct pt rest : Bytes) (l : UInt8) (ho : S.open_ h.rks.st.key (h.rks.st.nonce S) hdr ct = some pt)
      (hs : stripPadding pt = l :: 0 :: rest ++ [21]) (ht : h.Takes S hdr ct)
  | unprotected (l : AlertLevel) (h1 : RdHalf) (hr : RdHalf.readRecord S h = (.ok (.alert ⟨l, .closeNotify⟩), h1))

theorem alert_close (content : Bytes) (a : Alert) (h : (Alert.parse (PB.new content)).1 = .ok a)
    (hd : a.description = .closeNotify) : ∃ l rest, content = l :: 0 :: rest := by
  unfold Alert.parse at h
  match content with
  | [] =>
    rw [M.bind_err (show PB.readU8.toT (PB.new []) = (.err (.ofParse .insufficientBytes), PB.new []) from rfl)] at h
    simp at h
  | [x] =>
    rw [M.bind_ok (show PB.readU8.toT (PB.new [x]) = (.ok x.toNat, ⟨[x], 1⟩) from rfl),
      M.bind_err (show PB.readU8.toT ⟨[x], 1⟩ = (.err (.ofParse .insufficientBytes), ⟨[x], 1⟩) from rfl)] at h
    simp at h
  | x :: y :: rest =>
    rw [M.bind_ok (show PB.readU8.toT (PB.new (x :: y :: rest)) = (.ok x.toNat, ⟨x :: y :: rest, 1⟩) from rfl),
      M.bind_ok (show PB.readU8.toT ⟨x :: y :: rest, 1⟩ = (.ok y.toNat, ⟨x :: y :: rest, 2⟩) from rfl)] at h
    cases hl : AlertLevel.of x.toNat with
    | none => rw [hl] at h; simp [M.fail] at h
    | some l =>
      cases hy : AlertDescription.of y.toNat with
      | none => rw [hl, hy] at h; simp [M.fail] at h
      | some d =>
        rw [hl, hy] at h
        simp only [M.pure_apply, Res.ok.injEq] at h
        rw [← h] at hd
        simp only at hd
        subst hd
        have : y.toNat = 0 := by
          unfold AlertDescription.of at hy
          split at hy <;> first | assumption | (simp at hy)
        have : y = 0 := UInt8.toNat.inj this
        exact ⟨x, rest, by rw [this]⟩

theorem readApp_close {h h' : RdHalf} (hr : RdHalf.readApplicationData S h = (.err .connectionClosed, h')) :
    CloseCause S h := by
  unfold RdHalf.readApplicationData at hr
  rcases hrec : RdHalf.readRecord S h with ⟨r, h1⟩
  have hst := (stays_readRecord S).out ⟨h.rr, h.rx, h.rks.transcript⟩
  have hks : h1.rks.st = h.rks.st := by
    unfold RdHalf.readRecord at hrec
    simp only [Prod.mk.injEq] at hrec
    rw [← hrec.2]
  cases r with
  | err e =>
    rw [M.bind_err hrec] at hr
    unfold RdHalf.readRecord at hrec
    simp only [Prod.mk.injEq, Res.err.injEq] at hrec hr
    have := hst.out .connectionClosed (hrec.1.trans (by rw [hr.1]))
    exact absurd this (by simp [TlsError.Stays])
  | panic => rw [M.bind_panic hrec] at hr; simp at hr
  | ok rec =>
    rw [M.bind_ok hrec] at hr
    unfold RdHalf.decrypt at hr
    simp only [Prod.mk.injEq] at hr
    have hr := hr.1
    have hh : ∀ n m, Stays (readHandler n (.handshake m)) := by
      intro n m
      cases m with
      | newSessionTicket => exact Stays.pure _
      | _ => exact Stays.crash
    cases rec with
    | alert a =>
      simp only [decryptRecord, readHandler] at hr
      split at hr
      · rename_i ha
        obtain ⟨l, d⟩ := a
        simp only at ha
        subst ha
        exact .unprotected l h1 hrec
      · simp at hr
    | changeCipherSpec => simp [decryptRecord, readHandler, M.fail] at hr
    | handshake m =>
      simp only [decryptRecord] at hr
      have := ((hh _ m).out _).out _ hr
      exact absurd this (by simp [TlsError.Stays])
    | appData hdr start data =>
      simp only [decryptRecord] at hr
      split at hr
      · simp at hr
      · rename_i pt hopen
        rw [hks] at hopen
        generalize hdis : dispatchInner S (readHandler h1.rr.buf.length) hdr start pt (h1.rks, (h1.dec, h1.opened)) = res at hr
        obtain ⟨r, k, t⟩ := res
        cases r with
        | ok u =>
          simp only [ReadKS.increment, KsState.increment] at hr
          split at hr <;> simp at hr
        | panic => simp at hr
        | err e =>
          simp only [Res.err.injEq] at hr
          subst hr
          unfold dispatchInner at hdis
          rcases hb : (stripPadding pt).getLast? with _ | b
          · rw [hb] at hdis; simp [M.crash] at hdis
          · have hsp : stripPadding pt = (stripPadding pt).dropLast ++ [b] := by
              rw [List.getLast?_eq_some_iff] at hb
              obtain ⟨ys, hys⟩ := hb
              rw [hys]; simp
            rw [hb] at hdis
            simp only at hdis
            rcases hct : ContentType.of b.toNat with _ | ct
            · rw [hct] at hdis; simp [M.fail] at hdis
            · rw [hct] at hdis
              cases ct with
              | handshake =>
                simp only at hdis
                have := ((stays_handshakeLoop S (hh _) _ _).out (h1.rks, (h1.dec, h1.opened))).out .connectionClosed
                  (congrArg Prod.fst hdis)
                exact absurd this (by simp [TlsError.Stays])
              | applicationData =>
                simp only [readHandler] at hdis
                split at hdis <;> simp at hdis
              | alert =>
                simp only at hdis
                rcases ha : (Alert.parse (PB.new (stripPadding pt).dropLast)).1 with a | e | _
                · rw [ha, M.lift_ok_bind] at hdis
                  simp only [readHandler] at hdis
                  split at hdis
                  · rename_i hd
                    obtain ⟨l, rest, hc⟩ := alert_close _ a ha hd
                    refine .protected_ hdr data pt rest l hopen ?_ ⟨_, _, hrec⟩
                    rw [hsp, of_eq_alert b hct, hc]
                  · simp at hdis
                · rw [ha, M.lift_err_bind] at hdis
                  have := (stays_alert.out (PB.new (stripPadding pt).dropLast)).out _ ha
                  simp only [Prod.mk.injEq, Res.err.injEq] at hdis
                  rw [hdis.1] at this
                  exact absurd this (by simp [TlsError.Stays])
                · rw [ha, M.lift_panic_bind] at hdis
                  simp at hdis
              | invalid => simp [M.fail] at hdis
              | changeCipherSpec => simp [M.fail] at hdis

/-- ... and the connection is closed then. -/
theorem readApp_closed {h h' : RdHalf} (hr : RdHalf.readApplicationData S h = (.err .connectionClosed, h')) :
    h'.opened = false := by
  have hc := readApp_close S hr
  unfold RdHalf.readApplicationData at hr
  cases hc with
  | unprotected l h1 hrec =>
    rw [M.bind_ok hrec] at hr
    injection hr with _ hr
    rw [← hr]
  | protected_ hdr ct pt rest l ho hs ht =>
    obtain ⟨start, h1, hrec⟩ := ht
    have hks : h1.rks.st = h.rks.st := by
      unfold RdHalf.readRecord at hrec
      simp only [Prod.mk.injEq] at hrec
      rw [← hrec.2]
    rw [M.bind_ok hrec] at hr
    unfold RdHalf.decrypt decryptRecord at hr
    rw [← hks] at ho
    simp only [ho] at hr
    have hd : dispatchInner S (readHandler h1.rr.buf.length) hdr start pt = (do
        let a ← M.lift (Alert.parse (PB.new (l :: 0 :: rest))).1
        readHandler h1.rr.buf.length (.alert a)) := by
      unfold dispatchInner
      rw [hs, List.getLast?_concat, List.dropLast_concat]
      rfl
    rw [hd] at hr
    rcases ha : (Alert.parse (PB.new (l :: 0 :: rest))).1 with a | e | _
    · rw [ha, M.lift_ok_bind] at hr
      simp only [readHandler] at hr
      by_cases hcn : a.description = .closeNotify
      · rw [if_pos hcn] at hr
        injection hr with _ hr
        rw [← hr]
      · rw [if_neg hcn] at hr
        injection hr with hr _
        cases hr
    · rw [ha, M.lift_err_bind] at hr
      injection hr with hr _
      have := (stays_alert.out (PB.new (l :: 0 :: rest))).out _ ha
      injection hr with hr
      rw [hr] at this
      exact absurd this (by simp [TlsError.Stays])
    · rw [ha, M.lift_panic_bind] at hr
      injection hr with hr _
      cases hr

end ETls
