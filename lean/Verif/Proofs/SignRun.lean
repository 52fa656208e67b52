import Verif.Proofs.HandshakeInv
import Verif.Props.HandshakeFail

/-! # The handshake up to the client's signature (for C119) -/

namespace ETls

variable (S : Suite) {V : Type}
open Spec

/-- The provider with another signer. -/
abbrev Provider.signing (p : Provider V) (sg : Res TlsError ((Bytes → Option Bytes) × SignatureScheme)) : Provider V :=
  { p with signer := sg }

/-- Only the step that signs looks at the signer. -/
theorem process_signing (cfg : Config) (p : Provider V) (a b : Res TlsError ((Bytes → Option Bytes) × SignatureScheme))
    {st : State} (hst : st ≠ .clientCertVerify) : process S cfg (p.signing a) st = process S cfg (p.signing b) st := by
  cases st with
  | clientCertVerify => exact absurd rfl hst
  | _ => rfl

/-- Signers that agree on what is to be signed make the same step. -/
theorem process_agreeing (cfg : Config) (p : Provider V) (sign sign' : Bytes → Option Bytes) (scheme : SignatureScheme)
    (s : HSt V) (h : sign (clientSigned S s.c.ks.server.transcript) = sign' (clientSigned S s.c.ks.server.transcript)) :
    process S cfg (p.signing (.ok (sign, scheme))) .clientCertVerify s =
      process S cfg (p.signing (.ok (sign', scheme))) .clientCertVerify s := by
  have hsg : clientSignedContent S s.c.ks.server.transcript = clientSigned S s.c.ks.server.transcript := by
    simp [clientSignedContent, clientSigned]
  have key : clientCertVerify S (p.signing (.ok (sign, scheme))) s = clientCertVerify S (p.signing (.ok (sign', scheme))) s := by
    unfold clientCertVerify
    rw [M.get_bind, M.get_bind]
    simp only [hsg, h]
  simp only [process]
  rcases hr : clientCertVerify S (p.signing (.ok (sign, scheme))) s with ⟨r, s1⟩
  have hr' := key.symm.trans hr
  cases r with
  | ok x => rw [M.bind_ok hr, M.bind_ok hr']
  | err e => rw [M.bind_err hr, M.bind_err hr']
  | panic => rw [M.bind_panic hr, M.bind_panic hr']

theorem HsSteps.rank {cfg : Config} {p : Provider V} {n : Nat} {st st' : State} {s s' : HSt V}
    (h : HsSteps S cfg p n st s st' s') : st.rank ≤ st'.rank := by
  induction h with
  | none st s => exact Nat.le_refl _
  | more hst hp _ ih =>
    rcases C32_step S cfg p _ _ _ _ hst hp with ⟨h1, _⟩ | ⟨rfl, rfl, _⟩
    · omega
    · exact ih

/-- The handshake comes to the signature at most once. -/
theorem HsSteps.signature_unique {cfg : Config} {p : Provider V} {n m : Nat} {st : State} {s s1 s2 : HSt V}
    (h1 : HsSteps S cfg p n st s .clientCertVerify s1) (h2 : HsSteps S cfg p m st s .clientCertVerify s2) : s1 = s2 := by
  generalize hst : State.clientCertVerify = st' at h1
  induction h1 generalizing m with
  | none st s =>
    subst hst
    cases h2 with
    | none => rfl
    | more hne hp rest =>
      rcases C32_step S cfg p _ _ _ _ hne hp with ⟨h3, _⟩ | ⟨h3, _⟩
      · exact absurd (rest.rank S) (by omega)
      · cases h3
  | more hne hp rest ih =>
    cases h2 with
    | none =>
      subst hst
      rcases C32_step S cfg p _ _ _ _ hne hp with ⟨h3, _⟩ | ⟨h3, _⟩
      · exact absurd (rest.rank S) (by omega)
      · cases h3
    | more hne' hp' rest' =>
      rw [hp] at hp'
      cases hp'
      exact ih rest' hst

/-- The steps before the signature are the same for all signers. -/
theorem HsSteps.signing {cfg : Config} {p : Provider V} (a b : Res TlsError ((Bytes → Option Bytes) × SignatureScheme))
    {n : Nat} {st st' : State} {s s' : HSt V} (h : HsSteps S cfg (p.signing a) n st s st' s') (hst : st'.rank ≤ 4) :
    HsSteps S cfg (p.signing b) n st s st' s' := by
  induction h with
  | none st s => exact .none _ _
  | more hne hp rest ih =>
    have hr := rest.rank S
    refine .more hne ?_ (ih hst)
    rw [process_signing S cfg p b a (by
      rintro rfl
      rcases C32_step S cfg (p.signing a) _ _ _ _ hne hp with ⟨h3, _⟩ | ⟨h3, _⟩
      · have : State.clientCertVerify.rank = 4 := rfl
        omega
      · cases h3)]
    exact hp

/-- Two signers that agree on what is to be signed when the handshake comes to the signature. -/
theorem openLoop_signing (cfg : Config) (p : Provider V) (sign sign' : Bytes → Option Bytes) (scheme : SignatureScheme)
    (fuel : Nat) : ∀ (st : State) (s : HSt V),
    (∀ n s1, HsSteps S cfg (p.signing (.ok (sign, scheme))) n st s .clientCertVerify s1 →
      sign (clientSigned S s1.c.ks.server.transcript) = sign' (clientSigned S s1.c.ks.server.transcript)) →
    openLoop S cfg (p.signing (.ok (sign, scheme))) fuel st s = openLoop S cfg (p.signing (.ok (sign', scheme))) fuel st s := by
  induction fuel with
  | zero => intro st s _; rfl
  | succ fuel ih =>
    intro st s h
    unfold openLoop
    by_cases hst : st = .applicationData
    · rw [if_pos hst, if_pos hst]
    · rw [if_neg hst, if_neg hst]
      have hp : process S cfg (p.signing (.ok (sign, scheme))) st s = process S cfg (p.signing (.ok (sign', scheme))) st s := by
        by_cases hc : st = .clientCertVerify
        · subst hc
          exact process_agreeing S cfg p sign sign' scheme s (h 0 s (.none _ _))
        · rw [process_signing S cfg p _ _ hc]
      rcases hr : process S cfg (p.signing (.ok (sign, scheme))) st s with ⟨r, s1⟩
      have hr' := hp.symm.trans hr
      cases r with
      | ok st1 =>
        rw [M.bind_ok hr, M.bind_ok hr']
        exact ih st1 s1 fun n s2 h2 => h (n + 1) s2 (.more hst hr h2)
      | err e => rw [M.bind_err hr, M.bind_err hr']
      | panic => rw [M.bind_panic hr, M.bind_panic hr']

/-- If the handshake never comes to the signature the signer does not matter. -/
theorem openLoop_unsigned (cfg : Config) (p : Provider V) (a b : Res TlsError ((Bytes → Option Bytes) × SignatureScheme))
    (fuel : Nat) : ∀ (st : State) (s : HSt V),
    (∀ n s1, ¬ HsSteps S cfg (p.signing a) n st s .clientCertVerify s1) →
    openLoop S cfg (p.signing a) fuel st s = openLoop S cfg (p.signing b) fuel st s := by
  induction fuel with
  | zero => intro st s _; rfl
  | succ fuel ih =>
    intro st s h
    unfold openLoop
    by_cases hst : st = .applicationData
    · rw [if_pos hst, if_pos hst]
    · rw [if_neg hst, if_neg hst]
      have hp : process S cfg (p.signing a) st s = process S cfg (p.signing b) st s := by
        rw [process_signing S cfg p a b (fun hc => h 0 s (hc ▸ .none _ _))]
      rcases hr : process S cfg (p.signing a) st s with ⟨r, s1⟩
      have hr' := hp.symm.trans hr
      cases r with
      | ok st1 =>
        rw [M.bind_ok hr, M.bind_ok hr']
        exact ih st1 s1 fun n s2 h2 => h (n + 1) s2 (.more hst hr h2)
      | err e => rw [M.bind_err hr, M.bind_err hr']
      | panic => rw [M.bind_panic hr, M.bind_panic hr']

/-! ## What has happened before the signature -/

/-- Where a handshake on the new connection `c` is, with the server's messages as they were taken; `v0` is the state of the
verifier at the beginning. -/
inductive SignAt (cfg : Config) (p : Provider V) (c : Conn) (v0 : V) : State → HSt V → Prop where
  | early (st : State) (s : HSt V) (hst : st = .clientHello ∨ st = .serverHello) (h : HsAt S cfg p c st s)
      (hr : s.h.certReq = none) (hv : s.h.vst = v0) : SignAt cfg p c v0 st s
  | server (st : State) (s : HSt V) (hello shRecord sh : Bytes) (exts : List Ext) (dhe : Bytes)
      (fl : List (Bytes × List (Bytes × ServerHs))) (h0 : HsData V) (hst : st = .serverVerify ∨ st = .clientCert)
      (h : Later S cfg p c hello shRecord sh exts dhe fl [] s) (hr : h0.certReq = none) (hv : h0.vst = v0)
      (took : TookAll S p (serverHandshakeTraffic S (cfg.psk.map (·.1)) dhe (hello ++ sh)) (hello ++ sh) (h0, .serverVerify)
        (flightMsgs fl) (s.h, st)) : SignAt cfg p c v0 st s
  | sign (s : HSt V) (hello shRecord sh : Bytes) (exts : List Ext) (dhe : Bytes)
      (fl : List (Bytes × List (Bytes × ServerHs))) (h0 h1 : HsData V) (ctx cert : Bytes)
      (h : Later S cfg p c hello shRecord sh exts dhe fl [certificateMsg ctx [cert]] s) (hr : h0.certReq = none)
      (hv : h0.vst = v0)
      (took : TookAll S p (serverHandshakeTraffic S (cfg.psk.map (·.1)) dhe (hello ++ sh)) (hello ++ sh) (h0, .serverVerify)
        (flightMsgs fl) (h1, .clientCert)) (hc : h1.certReq = some ctx) (hp : p.clientCert = some (.x509 cert)) :
      SignAt cfg p c v0 .clientCertVerify s
  | after (st : State) (s : HSt V) (hst : st = .clientFinished ∨ st = .applicationData) : SignAt cfg p c v0 st s

theorem SignAt.step (hS : S.Lawful) (cfg : Config) (p : Provider V) {c : Conn} {v0 : V} (hf : c.Fresh S) {st st' : State}
    {s s' : HSt V} (ha : SignAt S cfg p c v0 st s) (hst : st ≠ .applicationData)
    (h : process S cfg p st s = (.ok st', s')) : SignAt S cfg p c v0 st' s' := by
  cases ha with
  | early st s he hat hr hv =>
    cases hat with
    | start s hs =>
      have hnew := (HsAt.start (S := S) (cfg := cfg) (p := p) s hs).step S hS cfg p hf hst h
      obtain ⟨sc, sh⟩ := s
      simp only at hs
      subst hs
      obtain ⟨binders, msg, wb, ctl, a1, a2, a3, a4, a5, rfl, rfl⟩ := step_hello S hS cfg p hf.idle hf.room hf.keys h
      exact .early _ _ (.inr rfl) hnew hr hv
    | hello s msg hh htr hsh hin hsent hsec hrd hwr hop =>
      obtain ⟨hdr, rh, m, junk, exts, secret, dhe, rr', rx', b1, b2, b3, b4, b5, b6, b7, b8, b9, b10, b11, b12, rfl, rfl⟩ :=
        step_serverHello S hS cfg p (cfg.psk.map (·.1)) (by rw [hrd]; exact hf.reader) (by rw [hrd]; exact hf.nothingRead)
          hsh h
      rw [hsec] at b5
      cases b5
      rw [hin] at b7
      rw [hrd] at b11
      refine .server _ _ msg (hdr ++ (m ++ junk)) m exts dhe [] { s.h with secret := none } (.inl rfl)
        ⟨hh, ⟨hdr, rh, junk, b1, b2, b3, rfl⟩, b4, b6, ?_, ?_, ?_, ?_, ?_, rfl, ⟨b9, b10, b11⟩, hwr, hop⟩ hr hv (.nil _ _)
      · simp only [htr]; exact .nil _
      · simp [htr, flightMsgs, msgBytes]
      · simp only [b7, flightBytes, List.flatMap_nil, List.append_nil]
      · simp only [hsent, sentMsgs, List.append_nil]
      · simp only [htr]; rfl
    | waiting => simp at he
    | replying st s hello shRecord sh exts dhe fl cm hs hl => rcases he with rfl | rfl <;> simp at hs
    | done => simp at he
  | server st s hello shRecord sh exts dhe fl h0 he hl hr hv took =>
    rcases he with rfl | rfl
    · have hk := hl.received.keys S
      obtain ⟨record, ms, n, rr', rx', hd', i1, i2, i3, i4, i5, i6, i7, i8, rfl⟩ := step_verify S hS cfg p
        (secret := serverHandshakeTraffic S (cfg.psk.map (·.1)) dhe (hello ++ sh)) hl.reader.1 hl.reader.2.1
        (by rw [hk]; rfl) h
      have hl' : Later S cfg p c hello shRecord sh exts dhe (fl ++ [(record, ms)]) []
          ⟨s.c.readTo rr' rx' ⟨{ s.c.ks.server.st with counter := s.c.ks.server.st.counter + n },
                s.c.ks.server.transcript ++ msgBytes ms⟩, hd'⟩ := by
        refine ⟨hl.isHello, hl.serverHello, hl.parsed, hl.shared, hl.received.snoc S i1, ?_, ?_, hl.sent, hl.clientKeys,
          hl.sharedSecret, ⟨i5, i6, i7.trans hl.reader.2.2⟩, hl.writer, hl.opened⟩
        · simp only [hl.transcript, flightMsgs, msgBytes]; simp
        · rw [hl.bytes, i3]; simp [flightBytes]
      have htook : TookAll S p (serverHandshakeTraffic S (cfg.psk.map (·.1)) dhe (hello ++ sh)) (hello ++ sh)
          (h0, .serverVerify) (flightMsgs (fl ++ [(record, ms)])) (hd', st') := by
        have e : flightMsgs (fl ++ [(record, ms)]) = flightMsgs fl ++ ms := by simp [flightMsgs]
        rw [e]
        refine took.append S ?_
        rw [hl.transcript] at i2
        simpa using i2
      rcases i2.state S (.inl rfl) with hst' | hst' | hst'
      · exact .server _ _ _ _ _ _ _ _ h0 (.inl hst') hl' hr hv htook
      · exact .server _ _ _ _ _ _ _ _ h0 (.inr hst') hl' hr hv htook
      · exact .after _ _ (.inl hst')
    · have hiv : s.c.ks.client.st.iv.length = S.ivLen := by rw [hl.clientKeys]; exact trafficState_iv S hS _
      have hroom : 5 ≤ s.c.wb.buffer.length := by rw [hl.writer.2]; exact hf.room
      obtain ⟨ctx, certs, wb, ctl, c1, c2, c3, c4, c5, c6, rfl⟩ := step_clientCert S hS cfg p hl.writer.1 hroom hiv h
      match certs, c2, c3 with
      | [], _, _ => exact .after _ _ (.inl c6)
      | [cert], hcert, _ =>
        simp only [if_neg (List.cons_ne_nil _ _)] at c6
        subst c6
        refine .sign _ hello shRecord sh exts dhe fl h0 s.h ctx cert ⟨hl.isHello, hl.serverHello, hl.parsed, hl.shared, hl.received,
          ?_, hl.bytes, ?_, ?_, hl.sharedSecret, hl.reader, ⟨c4, c5.trans hl.writer.2⟩, hl.opened⟩ hr hv took c1 hcert
        · simp only [hl.transcript, List.flatten_cons, List.flatten_nil, List.append_nil]
        · simp only [hl.sent, hl.clientKeys, sentMsgs, List.append_nil, List.length_nil, List.append_assoc]
          rfl
        · simp only [WriteKS.next, hl.clientKeys, List.length_cons, List.length_nil]
      | a :: b :: l, _, h3 => simp at h3
  | sign s hello shRecord sh exts dhe fl h0 h1 ctx cert hl hr hv took hc hp =>
    have hiv : s.c.ks.client.st.iv.length = S.ivLen := by rw [hl.clientKeys]; exact trafficState_iv S hS _
    have hroom : 5 ≤ s.c.wb.buffer.length := by rw [hl.writer.2]; exact hf.room
    obtain ⟨sign, scheme, sig, wb, ctl, e1, e2, e3, e4, e5, rfl, rfl⟩ := step_clientCertVerify S hS cfg p hl.writer.1 hroom hiv h
    exact .after _ _ (.inl rfl)
  | after st s he =>
    rcases he with rfl | rfl
    · have hst' := C45_step S cfg p _ _ _ _ h
      cases hst'
      exact .after _ _ (.inr rfl)
    · exact absurd rfl hst

theorem SignAt.steps (hS : S.Lawful) (cfg : Config) (p : Provider V) {c : Conn} {v0 : V} (hf : c.Fresh S) {n : Nat}
    {st st' : State} {s s' : HSt V} (h : HsSteps S cfg p n st s st' s') (ha : SignAt S cfg p c v0 st s) :
    SignAt S cfg p c v0 st' s' := by
  induction h with
  | none st s => exact ha
  | more hst hp _ ih => exact ih (ha.step S hS cfg p hf hst hp)

end ETls
