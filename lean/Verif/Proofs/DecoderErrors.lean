import Verif.Model.ReadBuffer
import Verif.Spec.Reader

/-! # Which errors the decoders of messages return -/

namespace ETls

variable (S : Suite) {Q : TlsError → Prop}

/-- The errors of an outcome are in `Q`. -/
structure Res.Only (Q : TlsError → Prop) {α : Type} (r : Res TlsError α) : Prop where
  out : ∀ e, r = .err e → Q e

/-- The errors of an operation are in `Q`. -/
structure ErrsIn (Q : TlsError → Prop) {σ α : Type} (m : M TlsError σ α) : Prop where
  out : ∀ s, (m s).1.Only Q

theorem Res.Only.ok {α : Type} (a : α) : (Res.ok a : Res TlsError α).Only Q := ⟨fun e h => by cases h⟩
theorem Res.Only.panic {α : Type} : (Res.panic : Res TlsError α).Only Q := ⟨fun e h => by cases h⟩
theorem Res.Only.err {α : Type} {e : TlsError} (h : Q e) : (Res.err e : Res TlsError α).Only Q := by
  exact ⟨fun e' h' => by cases h'; exact h⟩

theorem Res.Only.map {α β : Type} {r : Res TlsError α} (h : r.Only Q) (f : α → β) : (r.map f).Only Q := by
  cases r with
  | ok a => exact .ok _
  | err e => exact .err (h.out e rfl)
  | panic => exact .panic

theorem Res.Only.cast {α β : Type} {e : TlsError} (h : (Res.err e : Res TlsError α).Only Q) :
    (Res.err e : Res TlsError β).Only Q := .err (h.out e rfl)

namespace ErrsIn
variable {σ τ α β : Type}

theorem bind {m : M TlsError σ α} {g : α → M TlsError σ β} (h : ErrsIn Q m) (hg : ∀ a, ErrsIn Q (g a)) : ErrsIn Q (m >>= g) := by
  refine ⟨fun s => ?_⟩
  have h1 := h.out s
  rcases hm : m s with ⟨r, s1⟩
  rw [hm] at h1
  cases r with
  | ok a => rw [M.bind_ok hm]; exact (hg a).out s1
  | err e => rw [M.bind_err hm]; exact h1.cast
  | panic => rw [M.bind_panic hm]; exact .panic

theorem pure (a : α) : ErrsIn Q (Pure.pure a : M TlsError σ α) := ⟨fun _ => .ok _⟩
theorem fail {e : TlsError} (h : Q e) : ErrsIn Q (M.fail e : M TlsError σ α) := ⟨fun _ => .err h⟩
theorem crash : ErrsIn Q (M.crash : M TlsError σ α) := ⟨fun _ => .panic⟩
theorem get : ErrsIn Q (M.get : M TlsError σ σ) := ⟨fun _ => .ok _⟩
theorem modify (f : σ → σ) : ErrsIn Q (M.modify f : M TlsError σ Unit) := ⟨fun _ => .ok _⟩
theorem lift {r : Res TlsError α} (h : r.Only Q) : ErrsIn Q (M.lift r : M TlsError σ α) := ⟨fun _ => h⟩

theorem mapErr {ε : Type} {f : ε → TlsError} (h : ∀ e, Q (f e)) (m : M ε σ α) : ErrsIn Q (M.mapErr f m) := by
  refine ⟨fun s => ⟨fun e he => ?_⟩⟩
  simp only [M.mapErr] at he
  rcases hm : m s with ⟨r, s1⟩
  rw [hm] at he
  cases r with
  | ok a => cases he
  | err x => simp only [Res.mapErr, Res.err.injEq] at he; subst he; exact h x
  | panic => cases he

theorem orErr {e : TlsError} (h : Q e) (p : P α) : ErrsIn Q (p.orErr e) := mapErr (f := fun _ => e) (fun _ => h) p
theorem toT (h : ∀ e, Q (.parseError e)) (p : P α) : ErrsIn Q p.toT := mapErr (f := TlsError.ofParse) h p

theorem onFst {m : M TlsError σ α} (h : ErrsIn Q m) : ErrsIn Q (ETls.onFst (τ := τ) m) := ⟨fun s => h.out s.1⟩

end ErrsIn

/-- The error is one of the decoders, or another one than those in question. -/
macro "qed_err" : tactic => `(tactic| first | constructor | (rintro ⟨_, _, h⟩; cases h; done))

/-- Take an operation apart. -/
macro "errsIn" : tactic => `(tactic| repeat' first
  | assumption
  | exact ErrsIn.pure _
  | exact ErrsIn.get
  | exact ErrsIn.modify _
  | exact ErrsIn.crash
  | exact ErrsIn.fail (by qed_err)
  | exact ErrsIn.orErr (by qed_err) _
  | exact ErrsIn.toT (fun _ => by qed_err) _
  | exact ErrsIn.mapErr (fun _ => by qed_err) _
  | apply ErrsIn.onFst
  | apply ErrsIn.bind
  | apply ErrsIn.lift
  | apply Res.Only.map
  | exact Res.Only.ok _
  | exact Res.Only.panic
  | exact Res.Only.err (by qed_err)
  | intro _
  | split
  | dsimp only)

/-! ## Incoming messages -/

theorem undecs_extParse (g : ExtGroup) : ErrsIn Spec.DecoderError (extParse g) := by
  refine ⟨fun p0 => ?_⟩
  unfold extParse
  rcases ExtensionType.parse p0 with ⟨ty, p1⟩
  simp only
  refine (ErrsIn.bind (ErrsIn.orErr (by constructor) _) (fun n => ErrsIn.bind (ErrsIn.orErr (by constructor) _) fun d => ?_)).out p1
  errsIn

theorem undecs_extLoop (g : ExtGroup) (cap : Nat) : ∀ n acc, ErrsIn Spec.DecoderError (extLoop g cap n acc)
  | 0, _ => ErrsIn.crash
  | n + 1, acc => by
    refine ⟨fun p => ?_⟩
    unfold extLoop
    split
    · exact .ok _
    · have h1 := (undecs_extParse g).out p
      split
      · split
        · exact (undecs_extLoop g cap n _).out _
        · exact .err (by constructor)
      · exact (undecs_extLoop g cap n _).out _
      · rename_i e p' _ heq
        rw [heq] at h1
        exact h1.cast
      · exact .panic

theorem undecs_extVector (g : ExtGroup) (cap : Nat) : ErrsIn Spec.DecoderError (extParseVector g cap) := by
  unfold extParseVector
  exact (ErrsIn.orErr (by constructor) _).bind fun _ => (ErrsIn.toT .parse _).bind fun b => ErrsIn.lift ((undecs_extLoop g cap _ _).out b)

theorem undecs_readListLoop {α : Type} (cap : Nat) {full : TlsError} (hf : Spec.DecoderError full) {read : M TlsError PB α}
    (h : ErrsIn Spec.DecoderError read) : ∀ n acc, ErrsIn Spec.DecoderError (PB.readListLoop cap full read n acc)
  | 0, _ => ErrsIn.crash
  | n + 1, acc => by
    refine ⟨fun p => ?_⟩
    unfold PB.readListLoop
    split
    · exact .ok _
    · refine (ErrsIn.bind h (fun x => ?_)).out p
      split
      · exact undecs_readListLoop cap hf h n _
      · exact ErrsIn.fail hf

theorem undecs_certMsg : ErrsIn Spec.DecoderError CertMsg.parse := by
  unfold CertMsg.parse
  have hentry : ErrsIn Spec.DecoderError CertEntry.parse := by
    unfold CertEntry.parse
    have := undecs_extVector certificateGroup 2
    errsIn
  have : ∀ raw : PB, (CertEntry.parseVector 16 raw).Only Spec.DecoderError := fun raw =>
    (undecs_readListLoop 16 (full := .decodeError) (by constructor) hentry _ _).out raw
  refine (ErrsIn.orErr (by constructor) _).bind fun _ => (ErrsIn.orErr (by constructor) _).bind fun _ => (ErrsIn.orErr (by constructor) _).bind fun _ =>
    (ErrsIn.orErr (by constructor) _).bind fun raw => (ErrsIn.lift (this raw)).bind fun _ => ErrsIn.pure _

theorem undecs_serverHs : ErrsIn Spec.DecoderError (ServerHs.parse S) := by
  unfold ServerHs.parse
  refine (ErrsIn.orErr (by constructor) _).bind fun t => (ErrsIn.orErr (by constructor) _).bind fun _ => ?_
  have h1 : ErrsIn Spec.DecoderError serverHelloParse := by
    unfold serverHelloParse; have := undecs_extVector serverHelloGroup 4; errsIn
  have h2 : ErrsIn Spec.DecoderError newSessionTicketParse := by
    unfold newSessionTicketParse; have := undecs_extVector newSessionTicketGroup 1; errsIn
  have h3 : ErrsIn Spec.DecoderError encryptedExtensionsParse := by
    unfold encryptedExtensionsParse; have := undecs_extVector encryptedExtensionsGroup 16; errsIn
  have h4 := undecs_certMsg
  have h5 : ErrsIn Spec.DecoderError certRequestParse := by
    unfold certRequestParse; have := undecs_extVector certificateRequestGroup 6; errsIn
  have h6 : ErrsIn Spec.DecoderError CertVerify.parse := by unfold CertVerify.parse; errsIn
  have h7 : ErrsIn Spec.DecoderError (finishedParse S) := by unfold finishedParse; errsIn
  errsIn

theorem undecs_hsRead : ErrsIn Spec.DecoderError (ServerHs.read S) := by
  refine ⟨fun ⟨p, tr⟩ => ?_⟩
  unfold ServerHs.read
  have h1 := (undecs_serverHs S).out p
  simp only
  split
  · exact .ok _
  · rename_i heq; rw [heq] at h1; exact h1.cast
  · exact .panic

theorem hsRead_err {s s' : PB × Bytes} {e : TlsError} (h : ServerHs.read S s = (.err e, s')) : Spec.DecoderError e := by
  have := (undecs_hsRead S).out s
  rw [h] at this
  exact this.out e rfl

end ETls
