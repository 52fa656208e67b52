import Verif.Proofs.ProcessRel

/-! # The handshake terminates: C32 -/

namespace ETls

variable (S : Suite) {V : Type}

/-! ## Reading a record consumes input -/

/-- The payload loop only consumes input, from every state of the reader. -/
theorem advanceLoop_suffix (amount fuel : Nat) : ∀ (remain : Nat) (r : RR) (rx : Rx),
    (advanceLoop amount fuel remain (r, rx)).2.2.bytes <:+ rx.bytes := by
  induction fuel with
  | zero => intro remain r rx; exact List.suffix_refl _
  | succ fuel ih =>
    intro remain r rx
    unfold advanceLoop
    simp only
    split
    · split
      · exact List.suffix_refl _
      · have hstep := Rx.read_step remain rx
        rcases hr : Rx.read remain rx with ⟨x, rx1⟩
        rw [hr] at hstep
        cases hstep with
        | err k _ hb _ => rw [hb]; exact List.suffix_refl _
        | ok bs _ _ hb _ =>
          simp only
          split
          · rw [hb]; exact List.suffix_append _ _
          · rw [hb]; exact (ih _ _ _).trans (List.suffix_append _ _)
    · exact List.suffix_refl _

/-- From every state of the reader, reading a record consumes a prefix of the input, of at least the five bytes of a
record header if it succeeds. -/
theorem readRecord_suffix (s : RdSt) : (readRecord S s).2.rx.bytes <:+ s.rx.bytes ∧
    ∀ rec, (readRecord S s).1 = .ok rec → (readRecord S s).2.rx.bytes.length + 5 ≤ s.rx.bytes.length := by
  obtain ⟨rr, rx, tr⟩ := s
  obtain ⟨_, _, a3, a4⟩ := headerLoop_any 6 [] rx (by simp) (by simp)
  unfold readRecord
  rcases hl : headerLoop 6 [] rx with ⟨r, rx1⟩
  rw [hl] at a3 a4
  simp only at a3 a4
  have hcons : ∀ h s1, (consumeRecord S h s1).2.rx = s1.rx := by
    intro h s1
    unfold consumeRecord
    simp only
    split
    · rfl
    · split <;> rfl
  have hadv : ∀ n, (RdSt.advance n ⟨rr, rx1, tr⟩).2.rx.bytes <:+ rx1.bytes := by
    intro n
    simp only [RdSt.advance, ETls.advance]
    rcases he : ensureContiguous n rr with ⟨r, rr1⟩
    cases r with
    | ok u => rw [M.bind_ok (onFst_ok he rx1)]; exact advanceLoop_suffix _ _ _ _ _
    | err e => rw [M.bind_err (onFst_err he rx1)]; exact List.suffix_refl _
    | panic =>
      have : onFst (ensureContiguous n) (rr, rx1) = (.panic, (rr1, rx1)) := by simp only [onFst, he]
      rw [M.bind_panic this]; exact List.suffix_refl _
  have hrest : ∀ n h, ((do RdSt.advance n; consumeRecord S h : M TlsError RdSt ServerRecord) ⟨rr, rx1, tr⟩).2.rx.bytes
      <:+ rx1.bytes := by
    intro n h
    have := hadv n
    rcases ha : RdSt.advance n ⟨rr, rx1, tr⟩ with ⟨r, s1⟩
    rw [ha] at this
    cases r with
    | ok u => rw [M.bind_ok ha, hcons]; exact this
    | err e => rw [M.bind_err ha]; exact this
    | panic => rw [M.bind_panic ha]; exact this
  cases r with
  | panic =>
    have hh : RdSt.header ⟨rr, rx, tr⟩ = (.panic, ⟨rr, rx1, tr⟩) := by
      simp only [RdSt.header, nextRecordHeader]; rw [M.bind_panic hl]
    rw [M.bind_panic hh]
    exact ⟨a3, by simp⟩
  | err e =>
    have hh : RdSt.header ⟨rr, rx, tr⟩ = (.err e, ⟨rr, rx1, tr⟩) := by
      simp only [RdSt.header, nextRecordHeader]; rw [M.bind_err hl]
    rw [M.bind_err hh]
    exact ⟨a3, by simp⟩
  | ok hb =>
    obtain ⟨b1, _, b3⟩ := a4 hb rfl
    have hh : RdSt.header ⟨rr, rx, tr⟩ = (RecordHeader.decode hb, ⟨rr, rx1, tr⟩) := by
      simp only [RdSt.header, nextRecordHeader]; rw [M.bind_ok hl]; rfl
    have hlen : rx1.bytes.length + 5 = rx.bytes.length := by
      simp only [List.nil_append] at b3
      rw [b3, List.length_append, b1, Nat.add_comm]
    rcases hd : RecordHeader.decode hb with h | e | _
    · rw [hd] at hh
      rw [M.bind_ok hh]
      have := hrest h.contentLength h
      refine ⟨this.trans a3, fun _ _ => ?_⟩
      have h1 := this.length_le
      have h2 : rx.bytes.length = rx1.bytes.length + 5 := hlen.symm
      rw [h2]
      exact Nat.add_le_add_right h1 5
    · rw [hd] at hh
      rw [M.bind_err hh]
      exact ⟨a3, by simp⟩
    · rw [hd] at hh
      rw [M.bind_panic hh]
      exact ⟨a3, by simp⟩

/-- The handshake only ever consumes input. -/
theorem C32_consumes (cfg : Config) (p : Provider V) (st : State) (s : HSt V) :
    (process S cfg p st s).2.c.rx.bytes <:+ s.c.rx.bytes := by
  have h : StepRel S p (fun s s' : HSt V => s'.c.rx.bytes <:+ s.c.rx.bytes) :=
    { refl := fun s => List.suffix_refl _
      trans := fun h1 h2 => h2.trans h1
      onKs := fun m s => List.suffix_refl _
      modHs := fun f s => List.suffix_refl _
      write := fun rec s => List.suffix_refl _
      respond := fun bs s => by
        have hw : ∀ {α : Type} (m : M TlsError WrHalf α), Keeps Conn.rx (onWr m) := fun m c => rfl
        have : Keeps Conn.rx (respond bs) := (hw _).bind fun _ => (hw _).bind fun _ => hw _
        have : (onConn (respond bs) s).2.c.rx = s.c.rx := this s.c
        show (onConn (respond bs) s).2.c.rx.bytes <:+ s.c.rx.bytes
        rw [this]; exact List.suffix_refl _
      verify := fun rec s => List.suffix_refl _ }
  exact h.process S (fun s => (readRecord_suffix S ⟨s.c.rr, s.c.rx, s.c.ks.server.transcript⟩).1) cfg st s

/-- How far the handshake is. -/
def State.rank : State → Nat
  | .clientHello => 0
  | .serverHello => 1
  | .serverVerify => 2
  | .clientCert => 3
  | .clientCertVerify => 4
  | .clientFinished => 5
  | .applicationData => 6

theorem State.rank_le (st : State) : st.rank ≤ 6 := by cases st <;> decide

/-- **C32** A step of the handshake that succeeds moves strictly forward, or stays where it waits for the server's
messages and has consumed a record (five bytes of header at least). -/
theorem C32_step (cfg : Config) (p : Provider V) (st st' : State) (s s' : HSt V) (hst : st ≠ .applicationData)
    (h : process S cfg p st s = (.ok st', s')) :
    (st.rank < st'.rank ∧ s'.c.rx.bytes <:+ s.c.rx.bytes) ∨
    (st = .serverVerify ∧ st' = .serverVerify ∧ s'.c.rx.bytes <:+ s.c.rx.bytes ∧
      s'.c.rx.bytes.length + 5 ≤ s.c.rx.bytes.length) := by
  have hsuf := C32_consumes S cfg p st s
  rw [h] at hsuf
  cases C45_step S cfg p st st' s s' h with
  | waiting =>
    refine .inr ⟨rfl, rfl, hsuf, ?_⟩
    unfold process at h
    obtain ⟨rec, s1, h1, h2⟩ := M.bind_inv h
    have h3 := withErrorHandling_ok S h2
    have hr := (readRecord_suffix S ⟨s.c.rr, s.c.rx, s.c.ks.server.transcript⟩).2 rec (congrArg Prod.fst h1)
    have e1 : (readRecord S ⟨s.c.rr, s.c.rx, s.c.ks.server.transcript⟩).2.rx = s1.c.rx :=
      congrArg (fun x => x.2.c.rx) h1
    have e2 : s1.c.rx = s'.c.rx := congrArg (fun x => x.2.c.rx) h3
    rw [e1, e2] at hr
    exact hr
  | connected => exact absurd rfl hst
  | _ => exact .inl ⟨by decide, hsuf⟩

/-- `n` consecutive successful steps of the handshake, none of them taken after it was complete. -/
inductive HsSteps (cfg : Config) (p : Provider V) : Nat → State → HSt V → State → HSt V → Prop where
  | none (st : State) (s : HSt V) : HsSteps cfg p 0 st s st s
  | more {n : Nat} {st st1 st2 : State} {s s1 s2 : HSt V} (hst : st ≠ .applicationData)
      (h : process S cfg p st s = (.ok st1, s1)) (rest : HsSteps cfg p n st1 s1 st2 s2) : HsSteps cfg p (n + 1) st s st2 s2

/-- **C32** From any state of the connection and of the handshake, the number of steps before the handshake is complete
or a step fails is bounded by the input: one step per five bytes, and six. -/
theorem C32_bounded (cfg : Config) (p : Provider V) {n : Nat} {st st' : State} {s s' : HSt V}
    (h : HsSteps S cfg p n st s st' s') : n + st.rank ≤ 6 + s.c.rx.bytes.length / 5 := by
  induction h with
  | none st s => have := st.rank_le; omega
  | more hst hp _ ih =>
    rcases C32_step S cfg p _ _ _ _ hst hp with ⟨h1, h2⟩ | ⟨rfl, rfl, h2, h3⟩
    · have := h2.length_le
      have := Nat.div_le_div_right (c := 5) this
      omega
    · omega

/-- How a handshake ends, without any bound on the number of steps: complete, or at a step that fails or panics. -/
inductive HsEnds (cfg : Config) (p : Provider V) (st : State) (s : HSt V) : Res TlsError Unit → HSt V → Prop where
  | complete {n : Nat} {s' : HSt V} (h : HsSteps S cfg p n st s .applicationData s') : HsEnds cfg p st s (.ok ()) s'
  | failed {n : Nat} {st1 : State} {s1 s' : HSt V} {e : TlsError} (h : HsSteps S cfg p n st s st1 s1)
      (hst : st1 ≠ .applicationData) (hp : process S cfg p st1 s1 = (.err e, s')) : HsEnds cfg p st s (.err e) s'
  | panicked {n : Nat} {st1 : State} {s1 s' : HSt V} (h : HsSteps S cfg p n st s st1 s1)
      (hst : st1 ≠ .applicationData) (hp : process S cfg p st1 s1 = (.panic, s')) : HsEnds cfg p st s .panic s'

theorem HsEnds.cons {cfg : Config} {p : Provider V} {st st1 : State} {s s1 s' : HSt V} {r : Res TlsError Unit}
    (hst : st ≠ .applicationData) (h : process S cfg p st s = (.ok st1, s1)) (he : HsEnds S cfg p st1 s1 r s') :
    HsEnds S cfg p st s r s' := by
  cases he with
  | complete h1 => exact .complete (.more hst h h1)
  | failed h1 h2 h3 => exact .failed (.more hst h h1) h2 h3
  | panicked h1 h2 h3 => exact .panicked (.more hst h h1) h2 h3

/-- The loop of `open` computes the end of the handshake, for every bound on its iterations that is large enough. -/
theorem openLoop_ends (cfg : Config) (p : Provider V) (fuel : Nat) : ∀ (st : State) (s : HSt V),
    7 + s.c.rx.bytes.length / 5 ≤ fuel + st.rank →
    HsEnds S cfg p st s (openLoop S cfg p fuel st s).1 (openLoop S cfg p fuel st s).2 := by
  induction fuel with
  | zero => intro st s h; have := st.rank_le; omega
  | succ fuel ih =>
    intro st s hf
    unfold openLoop
    by_cases hst : st = .applicationData
    · rw [if_pos hst, hst]
      exact .complete (.none _ _)
    · rw [if_neg hst]
      rcases hp : process S cfg p st s with ⟨r, s1⟩
      cases r with
      | ok st1 =>
        rw [M.bind_ok hp]
        refine (ih st1 s1 ?_).cons S hst hp
        rcases C32_step S cfg p _ _ _ _ hst hp with ⟨h1, h2⟩ | ⟨rfl, rfl, h2, h3⟩
        · have := h2.length_le
          have := Nat.div_le_div_right (c := 5) this
          omega
        · omega
      | err e => rw [M.bind_err hp]; exact .failed (.none _ _) hst hp
      | panic => rw [M.bind_panic hp]; exact .panicked (.none _ _) hst hp

/-- The end of a handshake is unique. -/
theorem HsEnds.unique {cfg : Config} {p : Provider V} {st : State} {s s1 s2 : HSt V} {r1 r2 : Res TlsError Unit}
    (h1 : HsEnds S cfg p st s r1 s1) (h2 : HsEnds S cfg p st s r2 s2) : r1 = r2 ∧ s1 = s2 := by
  have key : ∀ {n : Nat} {st st1 : State} {s s1 : HSt V}, HsSteps S cfg p n st s st1 s1 → ∀ {fuel r s'},
      HsEnds S cfg p st1 s1 r s' → openLoop S cfg p (n + 1 + fuel) st s = openLoop S cfg p (1 + fuel) st1 s1 := by
    intro n st st1 s s1 h
    induction h with
    | none st s => intro fuel r s' _; rw [Nat.zero_add]
    | more hst hp rest ih =>
      intro fuel r s' he
      rw [show ∀ n, n + 1 + 1 + fuel = (n + 1 + fuel) + 1 from fun n => by omega]
      conv => lhs; unfold openLoop
      rw [if_neg hst, M.bind_ok hp]
      exact ih he
  have run : ∀ {r : Res TlsError Unit} {s' : HSt V}, HsEnds S cfg p st s r s' → ∃ n, ∀ fuel,
      openLoop S cfg p (n + 1 + fuel) st s = (r, s') := by
    intro r s' h
    cases h with
    | complete h =>
      exact ⟨_, fun fuel => (key h (fuel := fuel) (.complete (.none _ _))).trans (by
        rw [Nat.add_comm]; unfold openLoop; rw [if_pos rfl]; rfl)⟩
    | failed h hst hp =>
      exact ⟨_, fun fuel => (key h (fuel := fuel) (.failed (.none _ _) hst hp)).trans (by
        rw [Nat.add_comm]; unfold openLoop; rw [if_neg hst, M.bind_err hp])⟩
    | panicked h hst hp =>
      exact ⟨_, fun fuel => (key h (fuel := fuel) (.panicked (.none _ _) hst hp)).trans (by
        rw [Nat.add_comm]; unfold openLoop; rw [if_neg hst, M.bind_panic hp])⟩
  obtain ⟨n1, e1⟩ := run h1
  obtain ⟨n2, e2⟩ := run h2
  have := (e1 n2).symm.trans ((congrArg (fun k => openLoop S cfg p k st s) (by omega)).trans (e2 n1))
  exact ⟨congrArg Prod.fst this, congrArg Prod.snd this⟩

/-- **C32** `open` always comes to an end: for every connection (fresh or not), configuration, provider and finite input
there is exactly one end of the unbounded loop of handshake steps, reached after at most one step per five bytes of input
and six, and `open` reports it. -/
theorem C32_open_terminates (cfg : Config) (p : Provider V) (s : HSt V) :
    ∃ r s', HsEnds S cfg p .clientHello s r s' ∧ (∀ r2 s2, HsEnds S cfg p .clientHello s r2 s2 → r2 = r ∧ s2 = s') ∧
      (∀ fuel, 7 + s.c.rx.bytes.length / 5 ≤ fuel → openLoop S cfg p fuel .clientHello s = (r, s')) ∧
      openLoop S cfg p (s.c.rx.size + 8) .clientHello s = (r, s') := by
  have hb := s.c.rx.bytes_le_size
  have he := openLoop_ends S cfg p (s.c.rx.size + 8) .clientHello s (by simp only [State.rank]; omega)
  have hall : ∀ fuel, 7 + s.c.rx.bytes.length / 5 ≤ fuel → openLoop S cfg p fuel .clientHello s =
      openLoop S cfg p (s.c.rx.size + 8) .clientHello s := by
    intro fuel hf
    have := (openLoop_ends S cfg p fuel .clientHello s (by simpa only [State.rank, Nat.add_zero] using hf)).unique S he
    exact Prod.ext this.1 this.2
  exact ⟨_, _, he, fun r2 s2 h2 => h2.unique S he, hall, rfl⟩

/-! ## The loops inside a step -/

/-- The header loop of the record reader ends by itself: a larger bound on its iterations changes nothing. -/
theorem C32_header_loop (fuel : Nat) : ∀ (acc : Bytes) (rx : Rx), acc.length ≤ 5 → 5 - acc.length < fuel →
    ∀ more, headerLoop (fuel + more) acc rx = headerLoop fuel acc rx := by
  induction fuel with
  | zero => intro acc rx _ h; omega
  | succ fuel ih =>
    intro acc rx hl hf more
    rw [show fuel + 1 + more = (fuel + more) + 1 by omega]
    conv => lhs; unfold headerLoop
    conv => rhs; unfold headerLoop
    by_cases h5 : acc.length = 5
    · rw [if_pos h5, if_pos h5]
    · rw [if_neg h5, if_neg h5]
      have hstep := Rx.read_step (5 - acc.length) rx
      rcases hr : Rx.read (5 - acc.length) rx with ⟨r, rx1⟩
      rw [hr] at hstep
      cases hstep with
      | err k _ hb hs => rw [M.bind_err hr, M.bind_err hr]
      | ok bs _ hn hb hs =>
        rw [M.bind_ok hr, M.bind_ok hr]
        by_cases h0 : bs.length = 0
        · rw [if_pos h0, if_pos h0]
        · rw [if_neg h0, if_neg h0]
          exact ih (acc ++ bs) rx1 (by simp; omega) (by simp; omega) more

/-- The payload loop of the record reader ends by itself, from every state of the reader. -/
theorem C32_payload_loop (amount fuel : Nat) : ∀ (remain : Nat) (r : RR) (rx : Rx), remain < fuel →
    amount ≤ r.pending + remain →
    ∀ more, advanceLoop amount (fuel + more) remain (r, rx) = advanceLoop amount fuel remain (r, rx) := by
  induction fuel with
  | zero => intro remain r rx h; omega
  | succ fuel ih =>
    intro remain r rx hf ha more
    rw [show fuel + 1 + more = (fuel + more) + 1 by omega]
    conv => lhs; unfold advanceLoop
    conv => rhs; unfold advanceLoop
    simp only
    split
    · next hlt =>
      split
      · rfl
      · have hstep := Rx.read_step remain rx
        rcases hr : Rx.read remain rx with ⟨x, rx1⟩
        rw [hr] at hstep
        cases hstep with
        | err k _ hb hs => rfl
        | ok bs _ hn hb hs =>
          simp only
          split
          · rfl
          · exact ih _ _ _ (by omega) (by simp only; omega) more
    · rfl

/-- The loop over the messages of a decrypted handshake record ends by itself, whatever is done with the messages. -/
theorem C32_message_loop {τ : Type} (cb : ServerRecord → M TlsError (ReadKS × τ) Unit) (fuel : Nat) :
    ∀ (p : PB) (k : ReadKS) (t : τ), p.pos ≤ p.buffer.length → p.buffer.length - p.pos < fuel →
    ∀ more, handshakeLoop S cb (fuel + more) p (k, t) = handshakeLoop S cb fuel p (k, t) := by
  induction fuel with
  | zero => intro p k t _ h; omega
  | succ f ih =>
    intro p k t hp hf more
    rw [show f + 1 + more = (f + more) + 1 by omega]
    conv => lhs; unfold handshakeLoop
    conv => rhs; unfold handshakeLoop
    simp only
    split
    · obtain ⟨h1, h2, h3, h4, h5⟩ := C01_handshake S p k.transcript hp
      rcases hm : ServerHs.read S (p, k.transcript) with ⟨r, p', tr⟩
      rw [hm] at h1 h2 h3 h4 h5
      cases r with
      | panic => rfl
      | err e => rfl
      | ok h =>
        simp only at h2 h3 h4 ⊢
        have h6 := h5 h rfl
        simp only at h6
        rcases hcm : cb (.handshake h) ({ k with transcript := tr }, t) with ⟨r, k', t'⟩
        cases r with
        | panic => rfl
        | err e => rfl
        | ok u => exact ih p' k' t' (by rw [h2]; exact h4) (by rw [h2]; omega) more
    · rfl

/-- Non-trivial cases: a handshake of several steps, and the bound at work. -/
example : (process toySuite exCfg exProv .clientHello ⟨exNew 400 [], ⟨none, none, none, ()⟩⟩).1 = .ok .serverHello := by
  decide +kernel

set_option maxRecDepth 10000 in
example : ∃ s', HsSteps toySuite exCfg exProv 1 .clientHello ⟨exNew 400 [], ⟨none, none, none, ()⟩⟩ .serverHello s' := by
  rcases h : process toySuite exCfg exProv .clientHello ⟨exNew 400 [], ⟨none, none, none, ()⟩⟩ with ⟨r, s'⟩
  have : r = .ok .serverHello := by
    have h2 : (process toySuite exCfg exProv .clientHello ⟨exNew 400 [], ⟨none, none, none, ()⟩⟩).1 = .ok .serverHello := by
      decide +kernel
    rw [h] at h2
    exact h2
  subst this
  exact ⟨s', .more (by decide) h (.none _ _)⟩

end ETls
