import Verif.Props.Handshake

/-! # A relation between the states before and after a handshake step, whatever its outcome -/

namespace ETls

variable (S : Suite) {V : Type}

/-- The state after the operation is related to the state before it. -/
def Moves {ε σ α : Type} (R : σ → σ → Prop) (m : M ε σ α) : Prop := ∀ s, R s (m s).2

/-- Reflexive and transitive relations on states. -/
structure Order {σ : Type} (R : σ → σ → Prop) : Prop where
  refl : ∀ s, R s s
  trans : ∀ {a b c}, R a b → R b c → R a c

namespace Moves
variable {ε σ α β : Type} {R : σ → σ → Prop}

theorem bind (hR : Order R) {m : M ε σ α} {g : α → M ε σ β} (h : Moves R m) (hg : ∀ a, Moves R (g a)) :
    Moves R (m >>= g) := by
  intro s
  have h1 := h s
  rcases hm : m s with ⟨r, s1⟩
  rw [hm] at h1
  cases r with
  | ok a => rw [M.bind_ok hm]; exact hR.trans h1 (hg a s1)
  | err e => rw [M.bind_err hm]; exact h1
  | panic => rw [M.bind_panic hm]; exact h1

theorem pure (hR : Order R) (a : α) : Moves (ε := ε) R (Pure.pure a) := fun s => hR.refl s
theorem fail (hR : Order R) (e : ε) : Moves R (M.fail e : M ε σ α) := fun s => hR.refl s
theorem crash (hR : Order R) : Moves R (M.crash : M ε σ α) := fun s => hR.refl s
theorem lift (hR : Order R) (r : Res ε α) : Moves R (M.lift r) := fun s => hR.refl s
theorem get (hR : Order R) : Moves R (M.get : M ε σ σ) := fun s => hR.refl s

end Moves

/-- What a relation has to satisfy to hold across every operation of the handshake but reading a record. -/
structure StepRel (p : Provider V) (R : HSt V → HSt V → Prop) : Prop extends Order R where
  onKs : ∀ {α : Type} (m : M TlsError KeySchedule α), Moves R (onKs (V := V) m)
  modHs : ∀ f, Moves R (modHs f)
  write : ∀ rec, Moves R (onConn (Conn.writeRecord S rec))
  respond : ∀ bs, Moves R (onConn (respond bs))
  verify : ∀ rec, Moves R (processServerVerify S p rec)

variable {p : Provider V} {R : HSt V → HSt V → Prop}

theorem onConn_bind {α β : Type} (m : M TlsError Conn α) (g : α → M TlsError Conn β) :
    (onConn (m >>= g) : M TlsError (HSt V) β) = onConn m >>= fun a => onConn (g a) := by
  funext s
  rcases hm : m s.c with ⟨r, c1⟩
  have ho : (onConn m : M TlsError (HSt V) α) s = (r, { s with c := c1 }) := by simp only [onConn, hm]
  cases r with
  | ok a => rw [M.bind_ok ho]; simp only [onConn]; rw [M.bind_ok hm]
  | err e => rw [M.bind_err ho]; simp only [onConn]; rw [M.bind_err hm]
  | panic => rw [M.bind_panic ho]; simp only [onConn]; rw [M.bind_panic hm]

theorem StepRel.handling (h : StepRel S p R) {m : M TlsError (HSt V) State} (hm : Moves R m) :
    Moves R (withErrorHandling S m) := by
  intro s
  unfold withErrorHandling
  have h1 := hm s
  rcases hms : m s with ⟨r, s1⟩
  rw [hms] at h1
  simp only
  refine h.trans h1 ?_
  suffices Moves R (onConn (handleProcessingError S r)) from this s1
  have hO := h.toOrder
  unfold handleProcessingError
  split
  · rw [onConn_bind]
    refine (h.write _).bind hO fun _ => ?_
    rw [onConn_bind]
    exact (h.respond _).bind hO fun _ => fun s => h.refl s
  · exact fun s => h.refl s

theorem StepRel.serverHello (h : StepRel S p R) (rec : ServerRecord) : Moves R (processServerHello S rec) := by
  have hO := h.toOrder
  unfold processServerHello
  split
  · refine (Moves.get hO).bind hO fun s => ?_
    split
    · exact Moves.fail hO _
    · refine (h.modHs _).bind hO fun _ => ?_
      split
      · exact Moves.fail hO _
      · exact (h.onKs _).bind hO fun _ => Moves.pure hO _
  · exact Moves.fail hO _
  · exact Moves.fail hO _
  · exact Moves.fail hO _

/-- A relation that holds across reading a record and the other operations holds across every step. -/
theorem StepRel.process (h : StepRel S p R) (hread : Moves R (onConn (onRd (RdHalf.readRecord S)))) (cfg : Config)
    (st : State) : Moves R (process S cfg p st) := by
  have hO := h.toOrder
  cases st with
  | clientHello =>
    unfold ETls.process clientHello
    exact ((h.onKs _).bind hO fun _ => (h.write _).bind hO fun _ => (h.modHs _).bind hO
      fun _ => Moves.pure hO _).bind hO fun _ => (h.respond _).bind hO fun _ => Moves.pure hO _
  | serverHello =>
    unfold ETls.process
    exact hread.bind hO fun rec => h.handling S (h.serverHello S rec)
  | serverVerify =>
    unfold ETls.process
    exact hread.bind hO fun rec => h.handling S (h.verify rec)
  | clientCert =>
    unfold ETls.process clientCert
    refine Moves.bind hO ?_ fun _ => (h.respond _).bind hO fun _ => Moves.pure hO _
    refine (Moves.get hO).bind hO fun s => (h.modHs _).bind hO fun _ => ?_
    split
    · exact Moves.fail hO _
    · exact (h.write _).bind hO fun _ => Moves.pure hO _
  | clientCertVerify =>
    unfold ETls.process clientCertVerify
    refine Moves.bind hO ?_ fun _ => (h.respond _).bind hO fun _ => Moves.lift hO _
    refine (Moves.get hO).bind hO fun s => ?_
    split
    · exact Moves.crash hO
    · simp only
      split
      · exact Moves.fail hO _
      · split
        · exact Moves.crash hO
        · split
          · exact Moves.crash hO
          · exact (h.write _).bind hO fun _ => Moves.pure hO _
    · exact (h.write _).bind hO fun _ => Moves.pure hO _
  | clientFinished =>
    unfold ETls.process clientFinished clientFinishedFinalize
    refine ((Moves.get hO).bind hO fun s => (Moves.lift hO _).bind hO fun _ => h.write _).bind hO fun _ =>
      (h.respond _).bind hO fun _ => ?_
    refine (Moves.get hO).bind hO fun s => ?_
    split
    · exact Moves.fail hO _
    · exact (h.modHs _).bind hO fun _ => (h.onKs _).bind hO fun _ => (h.onKs _).bind hO fun _ => Moves.pure hO _
  | applicationData => exact Moves.pure hO _

end ETls
