import Verif.Proofs.HandshakeFail

/-! # Which steps can report an abort -/

namespace ETls

variable (S : Suite) {V : Type}

/-- No error of `m` is an abort with an alert. -/
def NoAbort {σ α : Type} (m : M TlsError σ α) : Prop := ∀ s l d, (m s).1 ≠ .err (.abortHandshake l d)

namespace NoAbort
variable {σ τ α β : Type}

theorem bind {m : M TlsError σ α} {g : α → M TlsError σ β} (h : NoAbort m) (hg : ∀ a, NoAbort (g a)) :
    NoAbort (m >>= g) := by
  intro s l d
  have h1 := h s
  rcases hm : m s with ⟨r, s1⟩
  rw [hm] at h1
  cases r with
  | ok a => rw [M.bind_ok hm]; exact hg a s1 l d
  | err e => rw [M.bind_err hm]; exact fun hh => h1 l d (by simpa using hh)
  | panic => rw [M.bind_panic hm]; simp

theorem pure (a : α) : NoAbort (Pure.pure a : M TlsError σ α) := by intro s l d; simp
theorem get : NoAbort (M.get : M TlsError σ σ) := by intro s l d; simp
theorem modify (f : σ → σ) : NoAbort (M.modify f : M TlsError σ Unit) := by intro s l d; simp
theorem crash : NoAbort (M.crash : M TlsError σ α) := by intro s l d; simp
theorem fail {e : TlsError} (h : ∀ l d, e ≠ .abortHandshake l d) : NoAbort (M.fail e : M TlsError σ α) := by
  intro s l d; simp [h]
theorem lift {r : Res TlsError α} (h : ∀ l d, r ≠ .err (.abortHandshake l d)) : NoAbort (M.lift r : M TlsError σ α) := by
  intro s l d; simp [h]
theorem mapErr {e : TlsError} (h : ∀ l d, e ≠ .abortHandshake l d) (m : M TlsError σ α) :
    NoAbort (M.mapErr (fun _ => e) m) := by
  intro s l d
  unfold M.mapErr
  rcases m s with ⟨r, s'⟩
  cases r <;> simp [Res.mapErr, h]
theorem ite {c : Prop} [Decidable c] {m n : M TlsError σ α} (hm : NoAbort m) (hn : NoAbort n) :
    NoAbort (if c then m else n) := by
  split <;> assumption

theorem onFst {m : M TlsError σ α} (h : NoAbort m) : NoAbort (ETls.onFst m : M TlsError (σ × τ) α) := by
  intro s l d
  exact h s.1 l d
theorem onConn {m : M TlsError Conn α} (h : NoAbort m) : NoAbort (ETls.onConn m : M TlsError (HSt V) α) := by
  intro s l d
  exact h s.c l d
theorem onKs {m : M TlsError KeySchedule α} (h : NoAbort m) : NoAbort (ETls.onKs m : M TlsError (HSt V) α) := by
  intro s l d
  exact h s.c.ks l d
theorem onWr {m : M TlsError WrHalf α} (h : NoAbort m) : NoAbort (ETls.onWr m) := by
  intro s l d
  exact h s.wr l d
theorem modHs (f : HsData V → HsData V) : NoAbort (ETls.modHs f) := modify _

theorem orEncodeError (e : Enc α) : NoAbort e.orEncodeError := mapErr (by simp) e

theorem space : NoAbort CB.space := by intro s l d; unfold CB.space; split <;> simp
theorem push (b : UInt8) : NoAbort (CB.push b) := space.bind fun _ => ite (modify _) (fail (by simp))
theorem extend (bs : Bytes) : NoAbort (CB.extend bs) := space.bind fun _ => ite (fail (by simp)) (modify _)
theorem set (i : Nat) (v : UInt8) : NoAbort (CB.set i v) := by intro s l d; unfold CB.set; split <;> [split <;> simp; simp]
theorem setU16 (i n : Nat) : NoAbort (CB.setU16 i n) := (set _ _).bind fun _ => set _ _
theorem setU24 (i n : Nat) : NoAbort (CB.setU24 i n) := (set _ _).bind fun _ => (set _ _).bind fun _ => set _ _
theorem setOffset (n : Nat) : NoAbort (CB.setOffset n) := by intro s l d; unfold CB.setOffset; split <;> simp
theorem forward : NoAbort CB.forward := by intro s l d; exact setOffset s.len s l d
theorem rewind : NoAbort CB.rewind := setOffset 0
theorem withU8Length {op : Enc α} (h : NoAbort op) : NoAbort (CB.withU8Length op) :=
  get.bind fun _ => (push _).bind fun _ => get.bind fun _ => h.bind fun _ => get.bind fun _ => (set _ _).bind fun _ => pure _
theorem withU16Length {op : Enc α} (h : NoAbort op) : NoAbort (CB.withU16Length op) :=
  get.bind fun _ => (extend _).bind fun _ => get.bind fun _ => h.bind fun _ => get.bind fun _ => (setU16 _ _).bind fun _ => pure _
theorem withU24Length {op : Enc α} (h : NoAbort op) : NoAbort (CB.withU24Length op) :=
  get.bind fun _ => (extend _).bind fun _ => get.bind fun _ => h.bind fun _ => get.bind fun _ => (setU24 _ _).bind fun _ => pure _
theorem encAll {f : α → Enc Unit} (h : ∀ a, NoAbort (f a)) : ∀ l, NoAbort (ETls.encAll f l)
  | [] => pure ()
  | a :: l => (h a).bind fun _ => encAll h l
theorem encOpt {f : α → Enc Unit} (h : ∀ a, NoAbort (f a)) : ∀ l, NoAbort (ETls.encOpt f l)
  | none => pure ()
  | some a => h a

theorem extData (x : ExtData) : NoAbort x.encode := by
  cases x <;> unfold ExtData.encode
  case serverNameList => exact withU16Length (encAll (fun _ => (orEncodeError _).bind fun _ => orEncodeError _) _)
  case serverNameResponse => exact pure _
  case supportedVersionsCH => exact withU8Length (encAll (fun _ => orEncodeError _) _)
  case supportedVersionsSH => exact orEncodeError _
  case signatureAlgorithms => exact withU16Length (encAll (fun _ => orEncodeError _) _)
  case supportedGroups => exact withU16Length (encAll (fun _ => orEncodeError _) _)
  case keyShareCH => exact withU16Length (encAll (fun _ => (orEncodeError _).bind fun _ => orEncodeError _) _)
  case keyShareSH => exact (orEncodeError _).bind fun _ => orEncodeError _
  case preSharedKeyCH =>
    exact (orEncodeError _).bind fun _ => (orEncodeError _).bind fun _ => encAll (fun _ => orEncodeError _) _
  case preSharedKeySH => exact orEncodeError _
  case pskModes => exact withU8Length (encAll (fun _ => orEncodeError _) _)
  case maxFragmentLength => exact orEncodeError _
  case alpn => exact withU16Length (encAll (fun _ => (orEncodeError _).bind fun _ => extend _) _)
  case unimplemented => exact extend _

theorem ext (x : Ext) : NoAbort x.encode := (orEncodeError _).bind fun _ => withU16Length (extData _)

theorem hello (h : ClientHello) : NoAbort (h.encode S) := by
  refine (orEncodeError _).bind fun _ => (orEncodeError _).bind fun _ => (orEncodeError _).bind fun _ =>
    (orEncodeError _).bind fun _ => (orEncodeError _).bind fun _ => (orEncodeError _).bind fun _ =>
    (orEncodeError _).bind fun _ => withU16Length ?_
  exact (ext _).bind fun _ => (ext _).bind fun _ => (encOpt (fun _ => ext _) _).bind fun _ => (ext _).bind fun _ =>
    (ext _).bind fun _ => (ext _).bind fun _ => (encOpt (fun _ => ext _) _).bind fun _ =>
    (encOpt (fun _ => ext _) _).bind fun _ => encOpt (fun _ => ext _) _

theorem certEntry (e : CertEntry) : NoAbort e.encode := by
  cases e with
  | x509 c => exact (withU24Length (extend _)).bind fun _ => extend _
  | rawPublicKey c => exact crash

theorem handshake (m : ClientHs) : NoAbort (m.encode S) := by
  refine (orEncodeError _).bind fun _ => withU24Length ?_
  cases m with
  | clientHello h => exact hello S h
  | finished f => exact orEncodeError _
  | clientCert c => exact (withU8Length (extend _)).bind fun _ => withU24Length (encAll certEntry _)
  | clientCertVerify v => exact (extend _).bind fun _ => withU16Length (extend _)

theorem makeLabel (secret : Option Bytes) (label : Bytes) (ctx : Option Bytes) (n : Nat) :
    ∀ l d, ETls.makeLabel S secret label ctx n ≠ .err (.abortHandshake l d) := by
  intro l d
  unfold ETls.makeLabel
  simp only
  split
  · simp
  · generalize (be16 n ++ _ ++ _ ++ _ ++ _) = lab
    split
    · simp
    · cases secret with
      | none => simp
      | some k => simp only; split <;> simp

theorem withBuffer {op : M TlsError (CB × τ) Unit} (h : NoAbort op) : NoAbort (WB.withBuffer op) := by
  intro s l d
  obtain ⟨w, t⟩ := s
  unfold WB.withBuffer
  have := h (CB.wrapWithPos w.buffer w.pos, t) l d
  rcases ho : op (CB.wrapWithPos w.buffer w.pos, t) with ⟨r, c, t'⟩
  rw [ho] at this
  simp only at this
  cases r with
  | ok u => simp [ho]
  | err e => simpa [ho] using this
  | panic => simp [ho]

theorem withBuffer' {op : Enc Unit} (h : NoAbort op) : NoAbort (WB.withBuffer' op) := by
  intro s l d
  exact withBuffer (τ := Unit) h.onFst (s, ()) l d

theorem encrypt (w : WriteKS) : NoAbort (ETls.encrypt S w) :=
  get.bind fun _ => ite (fail (by simp)) ((modify _).bind fun _ => mapErr (by simp) _)

theorem startRecord (h : ClientRecordHeader) : NoAbort (WB.startRecord h) :=
  get.bind fun _ => ite crash ((modify _).bind fun _ => withBuffer'
    (((orEncodeError _).bind fun _ => orEncodeError _).bind fun _ => (extend _).bind fun _ => rewind))

theorem closeRecord (w : WriteKS) : NoAbort (WB.closeRecord S w) := by
  refine get.bind fun wb => ?_
  cases wb.header with
  | none => exact crash
  | some h =>
    refine (modify _).bind fun _ => (withBuffer' (ite ((orEncodeError _).bind fun _ => (setOffset _).bind fun _ =>
      (encrypt S w).bind fun _ => rewind) (pure _))).bind fun _ => get.bind fun _ => ite crash ?_
    exact (modify _).bind fun _ => get.bind fun _ => (modify _).bind fun _ => pure _

theorem binders (w : WriteKS) (tr : Bytes) : ∀ ids, NoAbort (bindersEncode S w tr ids)
  | [] => pure ()
  | _ :: ids => (lift (fun l d => by
      unfold WriteKS.createPskBinder
      have := makeLabel S w.binderKey (ascii "finished") none S.hashLen l d
      cases h : ETls.makeLabel S w.binderKey (ascii "finished") none S.hashLen <;> simp_all [Res.map])).bind fun _ =>
    ((orEncodeError _).bind fun _ => orEncodeError _).bind fun _ => binders w tr ids

theorem finalize (w : WriteKS) (h : ClientHello) : NoAbort (h.finalize S w) := by
  intro s l d
  obtain ⟨enc, tr⟩ := s
  unfold ClientHello.finalize
  simp only
  cases h.config.psk with
  | none => simp
  | some x =>
    obtain ⟨_, ids⟩ := x
    simp only
    split
    · simp
    · generalize (tr ++ _) = tr1
      generalize (CB.wrap _) = cb
      have := binders S w tr1 ids cb l d
      rcases hb : bindersEncode S w tr1 ids cb with ⟨r, c'⟩
      rw [hb] at this
      simp only at this ⊢
      cases r with
      | ok u => simp
      | err e => simpa using this
      | panic => simp

theorem finishRecord (w : WriteKS) (rec : ClientRecord) : NoAbort (rec.finishRecord S w) := by
  cases rec with
  | alert a e => exact pure _
  | handshake h e =>
    cases h with
    | clientHello h =>
      cases e with
      | false => intro s l d; exact finalize S w h (s.1.asSlice, s.2) l d
      | true => intro s l d h; cases h
    | _ => intro s l d h; cases h

theorem writeRecord (rec : ClientRecord) : NoAbort (Conn.writeRecord S rec) := by
  intro c l d
  have : NoAbort (WB.writeRecord S rec c.ks.client) := by
    refine get.bind fun _ => ?_
    refine ite (fail (by simp)) ((startRecord _).onFst.bind fun _ => (withBuffer (forward.onFst.bind fun _ =>
      (NoAbort.onFst ?_).bind fun _ => (finishRecord S _ _).bind fun _ => rewind.onFst)).bind fun _ => (closeRecord S _).onFst)
    cases rec with
    | handshake h e => exact handshake S h
    | alert a e => exact (orEncodeError _).bind fun _ => orEncodeError _
  exact this (c.wb, c.ks.server.transcript) l d

theorem respond (bs : Bytes) : NoAbort (ETls.respond bs) := by
  have h1 : NoAbort (Tx.writeAll bs) := by
    intro s l d
    unfold Tx.writeAll
    split <;> simp
  have h2 : NoAbort Tx.flush := by
    intro s l d
    unfold Tx.flush
    split <;> simp
  have htx : ∀ {m : M TlsError Tx Unit}, NoAbort m → NoAbort (WrHalf.onTx m) := fun h w l d => h w.tx l d
  refine (htx h1).onWr.bind fun _ => NoAbort.bind (NoAbort.onWr ?_) fun _ => (htx h2).onWr
  intro w l d
  unfold WrHalf.increment WriteKS.increment KsState.increment
  simp only
  split <;> simp

end NoAbort

theorem noAbort_calculate (label : Bytes) (sh : SharedState) (tr : Bytes) : NoAbort (KsState.calculate S label sh tr) :=
  (NoAbort.lift (NoAbort.makeLabel S _ _ _ _)).bind fun _ => .ite (.fail (by simp)) ((NoAbort.modify _).bind fun _ =>
    (NoAbort.lift (NoAbort.makeLabel S _ _ _ _)).bind fun _ => (NoAbort.modify _).bind fun _ =>
    (NoAbort.lift (NoAbort.makeLabel S _ _ _ _)).bind fun _ => (NoAbort.modify _).bind fun _ => .modify _)

theorem noAbort_derived : NoAbort (KeySchedule.onShared (SharedState.derived S)) := by
  have : NoAbort (SharedState.derived S) := by
    intro s l d
    unfold SharedState.derived SharedState.deriveSecret
    have := NoAbort.makeLabel S s.hkdf (ascii "derived") (some (S.hash [])) S.hashLen l d
    cases h : makeLabel S s.hkdf (ascii "derived") (some (S.hash [])) S.hashLen with
    | ok x => simp
    | err e => rw [h] at this; simpa using this
    | panic => simp
  intro k l d
  exact this k.shared l d

/-- The steps in which the client sends its own messages never report an abort, unless the provider's signer does. -/
theorem sending_noAbort (cfg : Config) (p : Provider V) (st : State)
    (hst : st = .clientHello ∨ st = .clientCert ∨ st = .clientCertVerify ∨ st = .clientFinished)
    (hp : st = .clientCertVerify → ∀ l d, p.signer ≠ .err (.abortHandshake l d)) : NoAbort (process S cfg p st) := by
  rcases hst with rfl | rfl | rfl | rfl
  · refine NoAbort.bind ?_ fun x => (NoAbort.onConn (NoAbort.respond _)).bind fun _ => .pure _
    refine (NoAbort.onKs ?_).bind fun _ => (NoAbort.onConn (NoAbort.writeRecord S _)).bind fun _ =>
      (NoAbort.modHs _).bind fun _ => .pure _
    exact (NoAbort.modify _).bind fun _ => NoAbort.get.bind fun _ => (NoAbort.lift (NoAbort.makeLabel S _ _ _ _)).bind
      fun _ => .ite (.fail (by simp)) ((NoAbort.modify _).bind fun _ => noAbort_derived S)
  · refine NoAbort.bind ?_ fun x => (NoAbort.onConn (NoAbort.respond _)).bind fun _ => .pure _
    refine NoAbort.bind .get fun s => (NoAbort.modHs _).bind fun _ => ?_
    cases s.h.certReq with
    | none => exact .fail (by simp)
    | some ctx => exact (NoAbort.onConn (NoAbort.writeRecord S _)).bind fun _ => .pure _
  · have hp := hp rfl
    have h1 : NoAbort (clientCertVerify S p) := by
      refine NoAbort.get.bind fun s => ?_
      split
      · exact .crash
      · exact by
          refine NoAbort.ite (.fail (by simp)) ?_
          split
          · exact .crash
          · exact .ite .crash ((NoAbort.onConn (NoAbort.writeRecord S _)).bind fun _ => .pure _)
      · exact (NoAbort.onConn (NoAbort.writeRecord S _)).bind fun _ => .pure _
    have h2 : Returns (clientCertVerify S p) fun x => ∀ l d, x.1 ≠ .err (.abortHandshake l d) := by
      refine Returns.bind (P := fun _ => True) (fun _ _ _ _ => trivial) fun s _ => ?_
      split
      · intro s a s' h; simp at h
      · simp only
        split
        · intro s a s' h; simp at h
        · split
          · intro s a s' h; simp at h
          · split
            · intro s a s' h; simp at h
            · refine Returns.bind (P := fun _ => True) (fun _ _ _ _ => trivial) fun _ _ => ?_
              intro s a s' h
              simp only [M.pure_apply, Prod.mk.injEq, Res.ok.injEq] at h
              rw [← h.1]; simp
      · next e he =>
        refine Returns.bind (P := fun _ => True) (fun _ _ _ _ => trivial) fun _ _ => ?_
        intro s a s' h
        simp only [M.pure_apply, Prod.mk.injEq, Res.ok.injEq] at h
        rw [← h.1]
        intro l d h
        rw [he] at hp
        exact hp l d (by simpa using h)
    intro s l d
    simp only [process]
    have h1 := h1 s l d
    rcases hm : clientCertVerify S p s with ⟨r, s1⟩
    rw [hm] at h1
    cases r with
    | err e => rw [M.bind_err hm]; simpa using h1
    | panic => rw [M.bind_panic hm]; simp
    | ok x =>
      rw [M.bind_ok hm]
      exact ((NoAbort.onConn (NoAbort.respond _)).bind fun _ => .lift (h2 s x s1 hm)) s1 l d
  · refine NoAbort.bind (NoAbort.get.bind fun s => NoAbort.bind (.lift ?_) fun _ =>
      NoAbort.onConn (NoAbort.writeRecord S _)) fun x => (NoAbort.onConn (NoAbort.respond _)).bind fun _ =>
      NoAbort.get.bind fun s => ?_
    · intro l d
      cases s.c.ks.createClientFinished S <;> simp [Res.mapErr]
    · cases s.h.trafficHash with
      | none => exact .fail (by simp)
      | some t =>
        refine (NoAbort.modHs _).bind fun _ => (NoAbort.onKs (.modify _)).bind fun _ =>
          (NoAbort.onKs ((NoAbort.modify _).bind fun _ => NoAbort.bind (NoAbort.bind ?_ fun _ => ?_) fun _ =>
            noAbort_derived S)).bind fun _ => .pure _
        · intro k l d; exact noAbort_calculate S _ _ _ k.client.st l d
        · intro k l d; exact noAbort_calculate S _ _ _ k.server.st l d

end ETls
