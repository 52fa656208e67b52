import Verif.Proofs.ReadPath
import Verif.Props.ClientMessages
import Verif.Props.ReadPath

/-! # What a successful handshake step does

One lemma per state of `State::process`, each giving the record sent or received, the handshake messages in it and the
whole new state. -/

namespace ETls

variable (S : Suite) {V : Type}
open Spec

/-! ## Sending -/

theorem respond_ok {bytes : Bytes} {c c' : Conn} (h : respond bytes c = (.ok (), c')) :
    c.ks.client.st.counter + 1 < 2 ^ 64 ∧ ∃ ctl', c' =
      { c with tx := ⟨ctl', c.tx.log ++ [.wrote bytes, .flushed]⟩, ks := { c.ks with client := c.ks.client.next } } := by
  by_cases hc : c.ks.client.st.counter + 1 < 2 ^ 64
  · refine ⟨hc, ?_⟩
    have hcase := respond_cases bytes c hc
    rw [h] at hcase
    cases hcase with
    | done ctl' hr => exact ⟨ctl', rfl⟩
  · exfalso
    unfold respond at h
    rcases hw : WrHalf.onTx (Tx.writeAll bytes) c.wr with ⟨r, w⟩
    have hwks : w.wks = c.ks.client := by
      have : (WrHalf.onTx (Tx.writeAll bytes) c.wr).2.wks = c.wr.wks := rfl
      rw [hw] at this
      exact this
    have h1 : onWr (WrHalf.onTx (Tx.writeAll bytes)) c = (r, c.setWr w) := by simp only [onWr, hw]
    cases r with
    | err e => rw [M.bind_err h1] at h; cases h
    | panic => rw [M.bind_panic h1] at h; cases h
    | ok u =>
      rw [M.bind_ok h1] at h
      have h2 : (onWr WrHalf.increment (c.setWr w)).1 = .panic := by
        unfold onWr WrHalf.increment WriteKS.increment KsState.increment
        have hc' : ¬ (c.setWr w).wr.wks.st.counter + 1 < 2 ^ 64 := by
          rw [Conn.setWr_wr, hwks]; exact hc
        simp only [if_neg hc']
      rcases h3 : onWr WrHalf.increment (c.setWr w) with ⟨r, c2⟩
      rw [h3] at h2
      simp only at h2
      subst h2
      rw [M.bind_panic h3] at h
      cases h

/-- The client's next record counter. -/
theorem WriteKS.next_counter (w : WriteKS) : w.next.st.counter = w.st.counter + 1 := rfl

/-! ## Receiving handshake messages -/

/-- The message `m` (header included) is decoded as `h`, wherever it stands. -/
def ParsedAs (m : Bytes) (h : ServerHs) : Prop :=
  ∃ A B, ServerHs.parse S ⟨A ++ (m ++ B), A.length⟩ = (.ok h, ⟨A ++ (m ++ B), A.length + m.length⟩)

/-- `handshake/mod.rs:190-195`: a Finished message is stamped with the hash of the transcript before it. -/
def stamp (tr : Bytes) : ServerHs → ServerHs
  | .finished f => .finished { f with hash := some (S.hash tr) }
  | h => h

theorem read_ok {p p' : PB} {tr tr' : Bytes} {h : ServerHs} (hp : p.pos ≤ p.buffer.length)
    (hr : ServerHs.read S (p, tr) = (.ok h, (p', tr'))) :
    ∃ m h0, h = stamp S tr h0 ∧ ParsedAs S m h0 ∧ p.buffer.drop p.pos = m ++ p'.buffer.drop p'.pos ∧
      p'.buffer = p.buffer ∧ p'.pos = p.pos + m.length ∧ tr' = tr ++ m ∧ 4 ≤ m.length := by
  obtain ⟨_, h2, h3, h4, h5⟩ := C01_handshake S p tr hp
  rw [hr] at h2 h3 h4 h5
  simp only at h2 h3 h4 h5
  have h5 := h5 h rfl
  unfold ServerHs.read at hr
  rcases hpz : ServerHs.parse S p with ⟨r, q⟩
  simp only [hpz] at hr
  cases r with
  | err e => simp at hr
  | panic => simp at hr
  | ok h0 =>
    simp only [Prod.mk.injEq, Res.ok.injEq] at hr
    obtain ⟨r1, rfl, r3⟩ := hr
    obtain ⟨pb, pp⟩ := p
    obtain ⟨qb, qp⟩ := q
    simp only at h2 h3 h4 h5 hp r3 r1 hpz
    subst h2
    refine ⟨(qb.drop pp).take (qp - pp), h0, ?_, ?_, ?_, rfl, ?_, r3.symm, ?_⟩
    · rw [← r1]; cases h0 <;> rfl
    · have hl : ((qb.drop pp).take (qp - pp)).length = qp - pp := by simp; omega
      have hA : (qb.take pp).length = pp := by simp; omega
      have hB : qb = qb.take pp ++ ((qb.drop pp).take (qp - pp) ++ qb.drop qp) := by
        have : qb.drop qp = (qb.drop pp).drop (qp - pp) := by rw [List.drop_drop]; congr 1; omega
        rw [this, List.take_append_drop, List.take_append_drop]
      refine ⟨qb.take pp, qb.drop qp, ?_⟩
      rw [← hB, hl, hA, hpz]
      congr 2
      omega
    · simp only
      have : qb.drop qp = (qb.drop pp).drop (qp - pp) := by rw [List.drop_drop]; congr 1; omega
      rw [this, List.take_append_drop]
    · simp; omega
    · simp; omega

/-- What accepting one handshake message after ServerHello does to the handshake data and the state; `tr` is the
transcript before the message `m`, `secret` the server's handshake traffic secret. -/
inductive Took (p : Provider V) (secret tr m : Bytes) : ServerHs → HsData V × State → HsData V × State → Prop where
  | encryptedExtensions (t : HsData V × State) : Took p secret tr m .encryptedExtensions t t
  | certificate (c : CertMsg) (ops : VerifierOps V) (h : HsData V) (st : State) (v : V)
      (hv : p.verifier = some ops) (ha : ops.verifyCertificate (tr ++ m) c h.vst = (.ok (), v)) :
      Took p secret tr m (.certificate c) (h, st) ({ h with vst := v }, st)
  | certificateUnchecked (c : CertMsg) (t : HsData V × State) (hv : p.verifier = none) :
      Took p secret tr m (.certificate c) t t
  | certificateVerify (c : CertVerify) (ops : VerifierOps V) (h : HsData V) (st : State) (v : V)
      (hv : p.verifier = some ops) (ha : ops.verifySignature c h.vst = (.ok (), v)) :
      Took p secret tr m (.certificateVerify c) (h, st) ({ h with vst := v }, st)
  | certificateVerifyUnchecked (c : CertVerify) (t : HsData V × State) (hv : p.verifier = none) :
      Took p secret tr m (.certificateVerify c) t t
  | certificateRequest (ctx : Bytes) (h : HsData V) (st : State) (hl : ctx.length ≤ 256) :
      Took p secret tr m (.certificateRequest ctx) (h, st) ({ h with certReq := some ctx }, st)
  | finished (f : Finished) (h : HsData V) (st : State) (hf : f.verify = verifyData S secret tr)
      (hc : h.certReq.isSome = true) : Took p secret tr m (.finished f) (h, st) (h, .clientCert)
  | finishedNoCert (f : Finished) (h : HsData V) (st : State) (hf : f.verify = verifyData S secret tr)
      (hc : h.certReq = none) :
      Took p secret tr m (.finished f) (h, st) ({ h with trafficHash := some (tr ++ m) }, .clientFinished)

theorem onVerifier_run {α : Type} (m : M TlsError V α) (k : ReadKS) (h : HsData V) (st : State) :
    onVerifier m (k, (h, st)) = ((m h.vst).1, (k, ({ h with vst := (m h.vst).2 }, st))) := rfl

theorem serverVerifyHandler_cert (p : Provider V) (c : CertMsg) (k : ReadKS) (h : HsData V) (st : State) :
    serverVerifyHandler S p (.handshake (.certificate c)) (k, (h, st)) =
      match p.verifier with
      | some ops => onVerifier (ops.verifyCertificate k.transcript c) (k, (h, st))
      | none => (.ok (), (k, (h, st))) := by
  simp only [serverVerifyHandler]
  rw [M.get_bind]
  simp only
  cases p.verifier <;> rfl

theorem serverVerifyHandler_finished (hS : S.Lawful) (p : Provider V) (v msgs secret : Bytes) (k : ReadKS) (h : HsData V)
    (st : State) (hk : k.st.trafficSecret = some secret) :
    serverVerifyHandler S p (.handshake (.finished ⟨v, some (S.hash msgs)⟩)) (k, (h, st)) =
      if v = verifyData S secret msgs then
        if h.certReq.isSome then (.ok (), (k, (h, .clientCert)))
        else (.ok (), (k, ({ h with trafficHash := some k.transcript }, .clientFinished)))
      else (.err .invalidSignature, (k, (h, st))) := by
  obtain ⟨b, h1, h2⟩ := C35_server_finished S hS k secret hk v msgs
  simp only [serverVerifyHandler]
  rw [M.get_bind]
  simp only
  rw [h1, M.lift_ok_bind]
  cases b with
  | false =>
    have : ¬ v = verifyData S secret msgs := fun hv => by simpa using h2.2 hv
    rw [if_neg this]
    rfl
  | true =>
    rw [if_pos (h2.1 rfl)]
    simp only [if_true]
    split
    · rfl
    · rfl

/-- The callback of `process_server_verify` accepts a message exactly if `Took` describes it. -/
theorem handler_took (hS : S.Lawful) (p : Provider V) (secret tr m : Bytes) (st : KsState)
    (hk : st.trafficSecret = some secret) (h : ServerHs) (t : HsData V × State) (x : ReadKS × (HsData V × State)) :
    serverVerifyHandler S p (.handshake (stamp S tr h)) (⟨st, tr ++ m⟩, t) = (.ok (), x) ↔
      ∃ t1, x = (⟨st, tr ++ m⟩, t1) ∧ Took S p secret tr m h t t1 := by
  obtain ⟨hd, stt⟩ := t
  cases h with
  | serverHello e =>
    refine ⟨fun h => ?_, ?_⟩
    · simp only [stamp, serverVerifyHandler, M.fail_apply, Prod.mk.injEq] at h
      exact absurd h.1 (by simp)
    · rintro ⟨t1, _, ht⟩; cases ht
  | newSessionTicket =>
    refine ⟨fun h => ?_, ?_⟩
    · simp only [stamp, serverVerifyHandler, M.fail_apply, Prod.mk.injEq] at h
      exact absurd h.1 (by simp)
    · rintro ⟨t1, _, ht⟩; cases ht
  | encryptedExtensions =>
    simp only [stamp, serverVerifyHandler, M.pure_apply, Prod.mk.injEq, true_and]
    refine ⟨fun h => ⟨_, h.symm, .encryptedExtensions _⟩, ?_⟩
    rintro ⟨t1, rfl, ht⟩
    cases ht
    rfl
  | certificate c =>
    simp only [stamp]
    rw [serverVerifyHandler_cert]
    rcases hv : p.verifier with _ | ops
    · simp only [Prod.mk.injEq, true_and]
      refine ⟨fun h => ⟨_, h.symm, .certificateUnchecked c _ hv⟩, ?_⟩
      rintro ⟨t1, rfl, ht⟩
      cases ht with
      | certificate _ ops _ _ v hv' ha => rw [hv] at hv'; cases hv'
      | certificateUnchecked _ _ _ => rfl
    · simp only [onVerifier_run, Prod.mk.injEq]
      refine ⟨fun ⟨h1, h2⟩ => ⟨_, h2.symm, .certificate c ops hd stt _ hv ?_⟩, ?_⟩
      · rw [← h1]
      · rintro ⟨t1, rfl, ht⟩
        cases ht with
        | certificate _ ops' _ _ v hv' ha =>
          rw [hv] at hv'
          injection hv' with hv'
          subst hv'
          rw [ha]
          exact ⟨rfl, rfl⟩
        | certificateUnchecked _ _ hv' => rw [hv] at hv'; cases hv'
  | certificateVerify c =>
    simp only [stamp, serverVerifyHandler]
    rcases hv : p.verifier with _ | ops
    · simp only [M.pure_apply, Prod.mk.injEq, true_and]
      refine ⟨fun h => ⟨_, h.symm, .certificateVerifyUnchecked c _ hv⟩, ?_⟩
      rintro ⟨t1, rfl, ht⟩
      cases ht with
      | certificateVerify _ ops _ _ v hv' ha => rw [hv] at hv'; cases hv'
      | certificateVerifyUnchecked _ _ _ => rfl
    · simp only [onVerifier_run, Prod.mk.injEq]
      refine ⟨fun ⟨h1, h2⟩ => ⟨_, h2.symm, .certificateVerify c ops hd stt _ hv ?_⟩, ?_⟩
      · rw [← h1]
      · rintro ⟨t1, rfl, ht⟩
        cases ht with
        | certificateVerify _ ops' _ _ v hv' ha =>
          rw [hv] at hv'
          injection hv' with hv'
          subst hv'
          rw [ha]
          exact ⟨rfl, rfl⟩
        | certificateVerifyUnchecked _ _ hv' => rw [hv] at hv'; cases hv'
  | certificateRequest ctx =>
    simp only [stamp, serverVerifyHandler]
    unfold certRequestOwned
    by_cases hl : ctx.length ≤ 256
    · rw [if_pos hl, M.lift_ok_bind]
      simp only [M.modify_apply, Prod.mk.injEq, true_and]
      refine ⟨fun h => ⟨_, h.symm, .certificateRequest ctx hd stt hl⟩, ?_⟩
      rintro ⟨t1, rfl, ht⟩
      cases ht
      rfl
    · rw [if_neg hl, M.lift_err_bind]
      refine ⟨fun h => ?_, ?_⟩
      · simp only [Prod.mk.injEq] at h; exact absurd h.1 (by simp)
      · rintro ⟨t1, _, ht⟩
        cases ht with
        | certificateRequest _ _ _ hl' => exact absurd hl' hl
  | finished f =>
    obtain ⟨v, o⟩ := f
    simp only [stamp]
    rw [serverVerifyHandler_finished S hS p v tr secret _ hd stt hk]
    by_cases hv : v = verifyData S secret tr
    · rw [if_pos hv]
      by_cases hc : hd.certReq.isSome = true
      · rw [if_pos hc]
        simp only [Prod.mk.injEq, true_and]
        refine ⟨fun h => ⟨_, h.symm, .finished _ hd stt hv hc⟩, ?_⟩
        rintro ⟨t1, rfl, ht⟩
        cases ht with
        | finished _ _ _ _ _ => rfl
        | finishedNoCert _ _ _ _ hc' => rw [hc'] at hc; simp at hc
      · rw [if_neg hc]
        simp only [Prod.mk.injEq, true_and]
        refine ⟨fun h => ⟨_, h.symm, .finishedNoCert _ hd stt hv (by simpa using hc)⟩, ?_⟩
        rintro ⟨t1, rfl, ht⟩
        cases ht with
        | finished _ _ _ _ hc' => exact absurd hc' hc
        | finishedNoCert _ _ _ _ hc' => rfl
    · rw [if_neg hv]
      refine ⟨fun h => ?_, ?_⟩
      · simp only [Prod.mk.injEq] at h; exact absurd h.1 (by simp)
      · rintro ⟨t1, _, ht⟩
        cases ht with
        | finished _ _ _ hf _ => exact absurd hf hv
        | finishedNoCert _ _ _ hf _ => exact absurd hf hv

/-- The bytes of a list of decoded messages. -/
def msgBytes (ms : List (Bytes × ServerHs)) : Bytes := ms.flatMap Prod.fst

theorem msgBytes_cons (m : Bytes × ServerHs) (ms : List (Bytes × ServerHs)) : msgBytes (m :: ms) = m.1 ++ msgBytes ms := rfl
theorem msgBytes_append (a b : List (Bytes × ServerHs)) : msgBytes (a ++ b) = msgBytes a ++ msgBytes b := by
  simp [msgBytes]

/-- Accepting several messages in order, starting with transcript `tr`. -/
inductive TookAll (p : Provider V) (secret : Bytes) :
    Bytes → HsData V × State → List (Bytes × ServerHs) → HsData V × State → Prop where
  | nil (tr : Bytes) (t : HsData V × State) : TookAll p secret tr t [] t
  | cons (tr : Bytes) (t t1 t2 : HsData V × State) (m : Bytes) (h : ServerHs) (ms : List (Bytes × ServerHs))
      (h1 : Took S p secret tr m h t t1) (h2 : TookAll p secret (tr ++ m) t1 ms t2) :
      TookAll p secret tr t ((m, h) :: ms) t2

theorem TookAll.append {p : Provider V} {secret tr : Bytes} {t t1 t2 : HsData V × State}
    {a b : List (Bytes × ServerHs)} (h1 : TookAll S p secret tr t a t1)
    (h2 : TookAll S p secret (tr ++ msgBytes a) t1 b t2) : TookAll S p secret tr t (a ++ b) t2 := by
  induction h1 with
  | nil tr t => simpa [msgBytes] using h2
  | cons tr t t1 t2' m h ms k1 k2 ih =>
    refine .cons _ _ _ _ _ _ _ k1 (ih ?_)
    rw [msgBytes_cons, ← List.append_assoc] at h2
    exact h2

/-- The loop over coalesced messages succeeds only by accepting messages that make up the whole content. -/
theorem handshakeLoop_ok (hS : S.Lawful) (p : Provider V) (secret : Bytes) (st : KsState)
    (hk : st.trafficSecret = some secret) (fuel : Nat) : ∀ (q : PB) (tr : Bytes) (t : HsData V × State)
    (x : ReadKS × (HsData V × State)), q.pos ≤ q.buffer.length →
    handshakeLoop S (serverVerifyHandler S p) fuel q (⟨st, tr⟩, t) = (.ok (), x) →
    ∃ ms t1, q.buffer.drop q.pos = msgBytes ms ∧ (∀ m ∈ ms, ParsedAs S m.1 m.2 ∧ 4 ≤ m.1.length) ∧
      x = (⟨st, tr ++ msgBytes ms⟩, t1) ∧ TookAll S p secret tr t ms t1 := by
  induction fuel with
  | zero => intro q tr t x _ h; simp [handshakeLoop] at h
  | succ fuel ih =>
    intro q tr t x hq h
    unfold handshakeLoop at h
    simp only at h
    by_cases hp : q.buffer.length - q.pos > 0
    · rw [if_pos hp] at h
      rcases hr : ServerHs.read S (q, tr) with ⟨r, q', tr'⟩
      rw [hr] at h
      cases r with
      | err e => simp at h
      | panic => simp at h
      | ok m =>
        obtain ⟨mb, h0, r1, r2, r3, r4, r5, r6, r7⟩ := read_ok S hq hr
        subst r1 r6
        simp only at h
        rcases hcb : serverVerifyHandler S p (.handshake (stamp S tr h0)) (⟨st, tr ++ mb⟩, t) with ⟨r, kt⟩
        rw [hcb] at h
        cases r with
        | err e => simp at h
        | panic => simp at h
        | ok u =>
          obtain ⟨t1, rfl, ht⟩ := (handler_took S hS p secret tr mb st hk h0 t kt).1 hcb
          simp only at h
          have hlen := congrArg List.length r3
          simp only [List.length_drop, List.length_append, r4] at hlen
          obtain ⟨ms, t2, k1, k2, k3, k4⟩ := ih q' (tr ++ mb) t1 x (by rw [r4]; omega) h
          refine ⟨(mb, h0) :: ms, t2, ?_, ?_, ?_, .cons _ _ _ _ _ _ _ ht k4⟩
          · rw [r3, k1]; rfl
          · intro m hm
            rcases List.mem_cons.1 hm with rfl | hm
            · exact ⟨r2, r7⟩
            · exact k2 m hm
          · rw [k3, msgBytes_cons, List.append_assoc]
    · rw [if_neg hp] at h
      simp only [Prod.mk.injEq, true_and] at h
      refine ⟨[], t, ?_, by simp, ?_, .nil _ _⟩
      · simp only [msgBytes, List.flatMap_nil]
        exact List.drop_of_length_le (by omega)
      · rw [← h]; simp [msgBytes]

/-- Padding is a run of zeros after a non-zero type. -/
theorem stripPadding_inv {pt content : Bytes} {b : UInt8} (hb : b ≠ 0) (h : stripPadding pt = content ++ [b]) :
    ∃ n, pt = (Fragment.mk b content n).inner := by
  unfold stripPadding at h
  have hsplit := List.takeWhile_append_dropWhile (p := fun x : UInt8 => x == 0) (l := pt.reverse)
  have hz : ∀ x ∈ pt.reverse.takeWhile (· == 0), x = 0 := by
    intro x hx
    have h1 := List.all_takeWhile (p := fun x : UInt8 => x == 0) (l := pt.reverse)
    have := List.all_eq_true.1 h1 x hx
    simpa using this
  have hrep : pt.reverse.takeWhile (· == 0) = List.replicate (pt.reverse.takeWhile (· == 0)).length 0 :=
    List.eq_replicate_iff.2 ⟨rfl, hz⟩
  split at h
  · next hd =>
    rw [hd, List.append_nil] at hsplit
    exfalso
    have : b ∈ pt.reverse := by rw [List.mem_reverse, h]; simp
    rw [← hsplit] at this
    exact hb (hz b this)
  · refine ⟨(pt.reverse.takeWhile (· == 0)).length, ?_⟩
    have h2 := congrArg List.reverse hsplit
    rw [List.reverse_append, List.reverse_reverse, h] at h2
    rw [hrep, List.reverse_replicate] at h2
    exact h2.symm

/-- A record that the client accepts while it waits for the server's messages after ServerHello: the messages taken
from it and the number of protected records it counts as. -/
inductive Incoming (k : KsState) : Bytes → List (Bytes × ServerHs) → Nat → Prop where
  /-- an unprotected record: only its first message is looked at; `junk` is ignored -/
  | plain (hdr m junk : Bytes) (h : ServerHs) (rh : RecordHeader) (hd : RecordHeader.decode hdr = .ok rh)
      (ht : rh.contentType = .handshake) (hl : rh.contentLength = (m ++ junk).length) (hp : ParsedAs S m h)
      (h4 : 4 ≤ m.length) :
      Incoming k (hdr ++ (m ++ junk)) [(m, h)] 0
  /-- a protected record made of whole messages -/
  | protected_ (hdr ct : Bytes) (rh : RecordHeader) (hd : RecordHeader.decode hdr = .ok rh)
      (ht : rh.contentType = .applicationData) (hl : rh.contentLength = ct.length) (n : Nat)
      (ms : List (Bytes × ServerHs)) (hms : ∀ m ∈ ms, ParsedAs S m.1 m.2 ∧ 4 ≤ m.1.length)
      (ho : S.open_ k.key (k.nonce S) hdr ct = some (Fragment.mk 22 (msgBytes ms) n).inner) :
      Incoming k (hdr ++ ct) ms 1
  /-- change_cipher_spec is ignored -/
  | changeCipherSpec (hdr data : Bytes) (rh : RecordHeader) (hd : RecordHeader.decode hdr = .ok rh)
      (ht : rh.contentType = .changeCipherSpec) (hl : rh.contentLength = data.length) :
      Incoming k (hdr ++ data) [] 0

theorem serverRecordDecode_types (h : RecordHeader) (start : Nat) (data tr tr' : Bytes) (rec : ServerRecord)
    (hr : ServerRecord.decode S h start data tr = (.ok rec, tr')) :
    (∀ hdr st d, rec = .appData hdr st d →
      hdr = h.data ∧ d = data ∧ st = start ∧ h.contentType = .applicationData ∧ tr' = tr) ∧
    (∀ m, rec = .handshake m → h.contentType = .handshake ∧ ∃ q, ServerHs.read S (PB.new data, tr) = (.ok m, (q, tr'))) ∧
    (rec = .changeCipherSpec → h.contentType = .changeCipherSpec ∧ tr' = tr) ∧
    (∀ a, rec = .alert a → h.contentType = .alert ∧ (Alert.parse (PB.new data)).1 = .ok a ∧ tr' = tr) := by
  unfold ServerRecord.decode at hr
  split at hr
  · simp at hr
  · cases hct : h.contentType <;> simp only [hct] at hr
    · simp at hr
    · have : ((Res.ok ServerRecord.changeCipherSpec : Res TlsError ServerRecord), tr) = (.ok rec, tr') := hr
      simp only [Prod.mk.injEq, Res.ok.injEq] at this
      obtain ⟨rfl, rfl⟩ := this
      simp
    · generalize (Alert.parse (PB.new data)).1 = x at hr
      cases x with
      | ok a =>
        simp only [Res.map, Prod.mk.injEq, Res.ok.injEq] at hr
        obtain ⟨rfl, rfl⟩ := hr
        simp
      | err e => simp [Res.map] at hr
      | panic => simp [Res.map] at hr
    · rcases hx : ServerHs.read S (PB.new data, tr) with ⟨x, q, t⟩
      rw [hx] at hr
      cases x with
      | ok a =>
        simp only [Res.map, Prod.mk.injEq, Res.ok.injEq] at hr
        obtain ⟨rfl, rfl⟩ := hr
        refine ⟨by simp, fun m hm => ⟨rfl, q, ?_⟩, by simp, by simp⟩
        injection hm with hm
        rw [hm]
      | err e => simp [Res.map] at hr
      | panic => simp [Res.map] at hr
    · simp only [M.pure_apply, Prod.mk.injEq, Res.ok.injEq] at hr
      obtain ⟨rfl, rfl⟩ := hr
      refine ⟨fun hdr st d hrec => ?_, by simp, by simp, by simp⟩
      injection hrec with h1 h2 h3
      exact ⟨h1.symm, h3.symm, h2.symm, rfl, rfl⟩

/-- The connection after reading: record reader, incoming transport and read key schedule replaced. -/
abbrev Conn.readTo (c : Conn) (rr : RR) (rx : Rx) (k : ReadKS) : Conn :=
  { c with rx := rx, rr := rr, ks := { c.ks with server := k } }

/-- What a successful call of the record reader inside the handshake gives. -/
theorem hsRead_ok {s s1 : HSt V} {rec : ServerRecord} (hi : s.c.rr.Inv) (hp : s.c.rr.pending = 0)
    (h : onConn (onRd (RdHalf.readRecord S)) s = (.ok rec, s1)) :
    ∃ rr' rx' tr' hb payload hd start, 
        s1 = { s with c := s.c.readTo rr' rx' { s.c.ks.server with transcript := tr' } } ∧
      rr'.Inv ∧ rr'.pending = 0 ∧ rr'.buf.length = s.c.rr.buf.length ∧ rx'.size + 5 ≤ s.c.rx.size ∧
      hb.length = 5 ∧ RecordHeader.decode hb = .ok hd ∧ payload.length = hd.contentLength ∧
      s.c.rx.bytes = hb ++ payload ++ rx'.bytes ∧
      ServerRecord.decode S hd start payload s.c.ks.server.transcript = (.ok rec, tr') ∧
      (∀ hdr start data, rec = .appData hdr start data → start + data.length ≤ rr'.buf.length) ∧
      payload.length ≤ s.c.rr.buf.length := by
  have hf := readRecord_any S ⟨s.c.rr, s.c.rx, s.c.ks.server.transcript⟩ hi
  rcases hr : ETls.readRecord S ⟨s.c.rr, s.c.rx, s.c.ks.server.transcript⟩ with ⟨r, rr', rx', tr'⟩
  rw [hr] at hf
  obtain ⟨f1, f2, f3, f4, f5, f6, f7, f8, f9⟩ := hf
  simp only at f1 f2 f3 f4 f5 f6 f7 f8 f9
  have hread : RdHalf.readRecord S s.c.rd =
      (r, { s.c.rd with rr := rr', rx := rx', rks := { s.c.rd.rks with transcript := tr' } }) := by
    have e1 : (⟨s.c.rd.rr, s.c.rd.rx, s.c.rd.rks.transcript⟩ : RdSt) = ⟨s.c.rr, s.c.rx, s.c.ks.server.transcript⟩ := rfl
    unfold RdHalf.readRecord
    rw [e1, hr]
  have honr : onConn (onRd (RdHalf.readRecord S)) s = 
      (r, { s with c := s.c.readTo rr' rx' { s.c.ks.server with transcript := tr' } }) := by
    simp only [onConn, onRd, hread]
    rfl
  rw [honr] at h
  simp only [Prod.mk.injEq] at h
  obtain ⟨rfl, rfl⟩ := h
  obtain ⟨hb, payload, hd, start, w1, w2, w3, w4, w5, w6⟩ := f8 hp rec rfl
  exact ⟨rr', rx', tr', hb, payload, hd, start, rfl, f1, f9 hp ⟨by simp, by simp⟩, f2, f4 rec rfl, w1, w2, w3, w4, w5,
    fun hdr st d hrec => (f6 hdr st d (by rw [hrec])).1, w6⟩

theorem withErrorHandling_ok {m : M TlsError (HSt V) State} {s s' : HSt V} {st : State}
    (h : withErrorHandling S m s = (.ok st, s')) : m s = (.ok st, s') := by
  unfold withErrorHandling at h
  rcases hm : m s with ⟨r, s1⟩
  rw [hm] at h
  simp only at h
  cases r with
  | ok a =>
    simp only [handleProcessingError, onConn, M.lift_apply] at h
    exact h
  | panic => simp [handleProcessingError, onConn] at h
  | err e =>
    exfalso
    have : (handleProcessingError S (.err e) s1.c).1 ≠ .ok st := by
      cases e with
      | abortHandshake l d =>
        simp only [handleProcessingError]
        rcases hw : Conn.writeRecord S (.alert ⟨l, d⟩ false) s1.c with ⟨r, c⟩
        cases r with
        | err e => rw [M.bind_err hw]; simp
        | panic => rw [M.bind_panic hw]; simp
        | ok tx =>
          rw [M.bind_ok hw]
          rcases hr : respond tx c with ⟨r, c⟩
          cases r with
          | err e => rw [M.bind_err hr]; simp
          | panic => rw [M.bind_panic hr]; simp
          | ok u => rw [M.bind_ok hr]; simp
      | _ => simp [handleProcessingError]
    apply this
    have := congrArg Prod.fst h
    simpa [onConn] using this

/-- A successful step in state `ServerVerify`. -/
theorem step_verify (hS : S.Lawful) (cfg : Config) (p : Provider V) {s s' : HSt V} {st' : State} {secret : Bytes}
    (hi : s.c.rr.Inv) (hp : s.c.rr.pending = 0) (hk : s.c.ks.server.st.trafficSecret = some secret)
    (h : process S cfg p .serverVerify s = (.ok st', s')) :
    ∃ record ms n rr' rx' hd', Incoming S s.c.ks.server.st record ms n ∧
      TookAll S p secret s.c.ks.server.transcript (s.h, .serverVerify) ms (hd', st') ∧
      s.c.rx.bytes = record ++ rx'.bytes ∧ rx'.size + 5 ≤ s.c.rx.size ∧ rr'.Inv ∧ rr'.pending = 0 ∧
      rr'.buf.length = s.c.rr.buf.length ∧ record.length ≤ s.c.rr.buf.length + 5 ∧
      s' = ⟨s.c.readTo rr' rx' ⟨{ s.c.ks.server.st with counter := s.c.ks.server.st.counter + n },
              s.c.ks.server.transcript ++ msgBytes ms⟩, hd'⟩ := by
  simp only [process] at h
  rcases hr : onConn (onRd (RdHalf.readRecord S)) s with ⟨r, s1⟩
  cases r with
  | err e => rw [M.bind_err hr] at h; cases h
  | panic => rw [M.bind_panic hr] at h; cases h
  | ok rec =>
    rw [M.bind_ok hr] at h
    have h := withErrorHandling_ok S h
    obtain ⟨rr', rx', tr', hb, payload, hd, start, e1, e2, e3, e4, e5, e6, e7, e8, e9, e10, e11, e12⟩ := hsRead_ok S hi hp hr
    obtain ⟨t1, t2, t3, t4⟩ := serverRecordDecode_types S hd start payload _ _ _ e10
    subst e1
    have hrl : (hb ++ payload).length ≤ s.c.rr.buf.length + 5 := by simp only [List.length_append]; omega
    unfold processServerVerify at h
    simp only at h
    cases rec with
    | alert a =>
      simp [decryptRecord, serverVerifyHandler, Res.map] at h
    | changeCipherSpec =>
      obtain ⟨u1, u2⟩ := t3 rfl
      subst u2
      simp only [decryptRecord, serverVerifyHandler, M.pure_apply, Res.map, Prod.mk.injEq, Res.ok.injEq] at h
      obtain ⟨rfl, rfl⟩ := h
      refine ⟨hb ++ payload, [], 0, rr', rx', s.h, .changeCipherSpec hb payload hd e7 u1 e8.symm, .nil _ _, e9, e5, e2, e3, e4, hrl, ?_⟩
      simp [msgBytes]
    | handshake m =>
      obtain ⟨u1, q, u2⟩ := t2 m rfl
      obtain ⟨mb, h0, r1, r2, r3, r4, r5, r6, r7⟩ := read_ok S (by simp [PB.new]) u2
      subst r6 r1
      simp only [PB.new, List.drop_zero] at r3
      simp only [decryptRecord] at h
      rcases hcb : serverVerifyHandler S p (.handshake (stamp S s.c.ks.server.transcript h0))
        (⟨s.c.ks.server.st, s.c.ks.server.transcript ++ mb⟩, (s.h, State.serverVerify)) with ⟨r, kt⟩
      rw [hcb] at h
      cases r with
      | err e => simp [Res.map] at h
      | panic => simp [Res.map] at h
      | ok u =>
        obtain ⟨⟨hd', stt⟩, rfl, ht⟩ := (handler_took S hS p secret _ mb _ hk h0 _ kt).1 hcb
        simp only [Res.map, Prod.mk.injEq, Res.ok.injEq] at h
        obtain ⟨rfl, rfl⟩ := h
        refine ⟨hb ++ payload, [(mb, h0)], 0, rr', rx', hd', ?_, .cons _ _ _ _ _ _ _ ht (.nil _ _), e9, e5, e2, e3, e4, hrl, ?_⟩
        · rw [r3]
          exact .plain hb mb _ h0 hd e7 u1 (by rw [← r3, e8]) r2 r7
        · simp [msgBytes]
    | appData hdr stt data =>
      obtain ⟨rfl, rfl, rfl, u4, rfl⟩ := t1 hdr stt data rfl
      have hdata := RecordHeader.decode_data hb hd e7
      simp only [decryptRecord] at h
      rcases ho : S.open_ s.c.ks.server.st.key (s.c.ks.server.st.nonce S) hd.data data with _ | pt
      · rw [ho] at h; simp [Res.map] at h
      · rw [ho] at h
        simp only at h
        rcases hdis : dispatchInner S (serverVerifyHandler S p) hd.data stt pt
          (s.c.ks.server, (s.h, State.serverVerify)) with ⟨r, k', t'⟩
        rw [hdis] at h
        cases r with
        | err e => simp [Res.map] at h
        | panic => simp [Res.map] at h
        | ok u =>
          simp only at h
          have hdis' : ∃ content, stripPadding pt = content ++ [22] ∧
              handshakeLoop S (serverVerifyHandler S p) (content.length + 1) (PB.new content)
                (s.c.ks.server, (s.h, State.serverVerify)) = (.ok (), (k', t')) := by
            unfold dispatchInner at hdis
            rcases hl : (stripPadding pt).getLast? with _ | b
            · rw [hl] at hdis; simp at hdis
            · rw [hl] at hdis
              have hne : stripPadding pt ≠ [] := by intro h; rw [h] at hl; simp at hl
              have hsp : stripPadding pt = (stripPadding pt).dropLast ++ [b] := by
                rw [List.getLast?_eq_some_getLast hne] at hl
                injection hl with hl
                rw [← hl, List.dropLast_append_getLast]
              simp only at hdis
              rcases hct : ContentType.of b.toNat with _ | ct
              · rw [hct] at hdis; simp at hdis
              · rw [hct] at hdis
                simp only at hdis
                cases ct with
                | invalid => simp at hdis
                | changeCipherSpec => simp at hdis
                | applicationData => simp [serverVerifyHandler] at hdis
                | alert =>
                  simp only at hdis
                  rcases ha : (Alert.parse (PB.new (stripPadding pt).dropLast)).1 with a | e | _
                  · rw [ha, M.lift_ok_bind] at hdis; simp [serverVerifyHandler] at hdis
                  · rw [ha, M.lift_err_bind] at hdis; simp at hdis
                  · rw [ha, M.lift_panic_bind] at hdis; simp at hdis
                | handshake =>
                  have := of_eq_handshake b hct
                  subst this
                  exact ⟨_, hsp, hdis⟩
          obtain ⟨content, c1, c2⟩ := hdis'
          obtain ⟨n, hn⟩ := stripPadding_inv (by decide) c1
          obtain ⟨ms, ⟨hd', stt'⟩, k1, k2, k3, k4⟩ := handshakeLoop_ok S hS p secret s.c.ks.server.st hk _ _ _ _ _ (by simp [PB.new]) c2
          simp only [PB.new, List.drop_zero] at k1
          simp only [Prod.mk.injEq] at k3
          obtain ⟨rfl, rfl⟩ := k3
          simp only [ReadKS.increment, KsState.increment] at h
          split at h
          · next hcnt =>
            simp only [Res.map, Prod.mk.injEq, Res.ok.injEq] at h
            obtain ⟨rfl, rfl⟩ := h
            have hol := hS.openLength _ _ _ _ _ ho
            have hle := e11 _ _ _ rfl
            have hspl := splice_length rr'.buf pt stt (by omega)
            refine ⟨hd.data ++ data, ms, 1, { rr' with buf := CB.splice rr'.buf stt pt }, rx', hd', ?_, k4, ?_, e5, ?_, e3, ?_, ?_, rfl⟩
            · rw [hn, k1] at ho
              refine .protected_ hd.data data hd ?_ u4 e8.symm n ms k2 ho
              rw [hdata]; exact e7
            · rw [hdata]; exact e9
            · unfold RR.Inv at e2 ⊢; simp only; omega
            · simp only; omega
            · rw [hdata]; exact hrl
          · simp [Res.map] at h

end ETls
