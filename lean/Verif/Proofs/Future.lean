import Verif.Model.Future
import Verif.Props.Termination
import Verif.Proofs.ConnWrite
import Verif.Proofs.ProcessRel

/-! # Lemmas about futures -/

namespace ETls

variable (S : Suite)

/-- A state with a place for the socket. -/
class Host (σ : Type) where
  put : σ → Net → σ

instance : Host Conn := ⟨Conn.with⟩
instance {V : Type} : Host (HSt V) := ⟨fun s w => { s with c := s.c.with w }⟩

section

variable {σ α β : Type}

namespace Fut

theorem bind_assoc {γ : Type} : ∀ (p : Fut σ α) (f : α → Fut σ β) (g : β → Fut σ γ),
    (p.bind f).bind g = p.bind fun a => (f a).bind g
  | .ret (.ok _), _, _ => rfl
  | .ret (.err _), _, _ => rfl
  | .ret .panic, _, _ => rfl
  | .stuck, _, _ => rfl
  | .step u n, f, g => by
    simp only [Fut.bind]
    congr 1
    funext s
    exact bind_assoc (n s) f g
  | .read n k, f, g => by
    simp only [Fut.bind]
    congr 1
    funext b
    exact bind_assoc (k b) f g
  | .writeAll b k, f, g => by
    simp only [Fut.bind]
    rw [bind_assoc k f g]
  | .flush k, f, g => by
    simp only [Fut.bind]
    rw [bind_assoc k f g]

/-- Running a future and then what follows. -/
theorem run_bind : ∀ (p : Fut σ α) (f : α → Fut σ β) (s : σ) (w : Net),
    (p.bind f).run s w = match p.run s w with
      | some (.ok a, s', w') => (f a).run s' w'
      | some (.err e, s', w') => some (.err e, s', w')
      | some (.panic, s', w') => some (.panic, s', w')
      | none => none
  | .ret (.ok _), _, _, _ => rfl
  | .ret (.err _), _, _, _ => rfl
  | .ret .panic, _, _, _ => rfl
  | .stuck, _, _, _ => rfl
  | .step u n, f, s, w => run_bind (n s) f (u s) w
  | .read n k, f, s, w => by
    simp only [Fut.bind, Fut.run]
    rcases Rx.read n w.rx with ⟨_ | _ | _, rx⟩
    · exact run_bind (k _) f s _
    · rfl
    · rfl
  | .writeAll bs k, f, s, w => by
    simp only [Fut.bind, Fut.run]
    rcases Tx.writeAll bs w.tx with ⟨_ | _ | _, tx⟩
    · exact run_bind k f s _
    · rfl
    · rfl
  | .flush k, f, s, w => by
    simp only [Fut.bind, Fut.run]
    rcases Tx.flush w.tx with ⟨_ | _ | _, tx⟩
    · exact run_bind k f s _
    · rfl
    · rfl

/-- How a future followed by another ends. -/
theorem Ends.bind_inv {f : α → Fut σ β} : ∀ {p : Fut σ α} {s s' : σ} {w w' : Net} {o : Option (Res TlsError β)},
    (p.bind f).Ends s w o s' w' →
    (o = none ∧ p.Ends s w none s' w') ∨ (∃ e, o = some (.err e) ∧ p.Ends s w (some (.err e)) s' w') ∨
    (o = some .panic ∧ p.Ends s w (some .panic) s' w') ∨
    ∃ a s1 w1, p.Ends s w (some (.ok a)) s1 w1 ∧ (f a).Ends s1 w1 o s' w'
  | .ret (.ok a), s, _, w, _, _, h => .inr (.inr (.inr ⟨a, s, w, .ret _ _ _, h⟩))
  | .ret (.err e), _, _, _, _, _, h => by
    cases h
    exact .inr (.inl ⟨e, rfl, .ret _ _ _⟩)
  | .ret .panic, _, _, _, _, _, h => by
    cases h
    exact .inr (.inr (.inl ⟨rfl, .ret _ _ _⟩))
  | .stuck, _, _, _, _, _, h => by cases h
  | .step u n, _, _, _, _, _, h => by
    cases h with
    | step h =>
      rcases Ends.bind_inv h with ⟨h1, h2⟩ | ⟨e, h1, h2⟩ | ⟨h1, h2⟩ | ⟨a, s1, w1, h1, h2⟩
      · exact .inl ⟨h1, .step h2⟩
      · exact .inr (.inl ⟨e, h1, .step h2⟩)
      · exact .inr (.inr (.inl ⟨h1, .step h2⟩))
      · exact .inr (.inr (.inr ⟨a, s1, w1, .step h1, h2⟩))
  | .read n k, _, _, _, _, _, h => by
    cases h with
    | read hr h =>
      rcases Ends.bind_inv h with ⟨h1, h2⟩ | ⟨e, h1, h2⟩ | ⟨h1, h2⟩ | ⟨a, s1, w1, h1, h2⟩
      · exact .inl ⟨h1, .read hr h2⟩
      · exact .inr (.inl ⟨e, h1, .read hr h2⟩)
      · exact .inr (.inr (.inl ⟨h1, .read hr h2⟩))
      · exact .inr (.inr (.inr ⟨a, s1, w1, .read hr h1, h2⟩))
    | readFails hr => exact .inr (.inl ⟨_, rfl, .readFails hr⟩)
    | readDropped => exact .inl ⟨rfl, .readDropped _ _ _ _⟩
  | .writeAll bs k, _, _, _, _, _, h => by
    cases h with
    | write hr h =>
      rcases Ends.bind_inv h with ⟨h1, h2⟩ | ⟨e, h1, h2⟩ | ⟨h1, h2⟩ | ⟨a, s1, w1, h1, h2⟩
      · exact .inl ⟨h1, .write hr h2⟩
      · exact .inr (.inl ⟨e, h1, .write hr h2⟩)
      · exact .inr (.inr (.inl ⟨h1, .write hr h2⟩))
      · exact .inr (.inr (.inr ⟨a, s1, w1, .write hr h1, h2⟩))
    | writeFails hr => exact .inr (.inl ⟨_, rfl, .writeFails hr⟩)
    | writeDropped => exact .inl ⟨rfl, .writeDropped _ _ _ _ _⟩
  | .flush k, _, _, _, _, _, h => by
    cases h with
    | flush hr h =>
      rcases Ends.bind_inv h with ⟨h1, h2⟩ | ⟨e, h1, h2⟩ | ⟨h1, h2⟩ | ⟨a, s1, w1, h1, h2⟩
      · exact .inl ⟨h1, .flush hr h2⟩
      · exact .inr (.inl ⟨e, h1, .flush hr h2⟩)
      · exact .inr (.inr (.inl ⟨h1, .flush hr h2⟩))
      · exact .inr (.inr (.inr ⟨a, s1, w1, .flush hr h1, h2⟩))
    | flushFails hr => exact .inr (.inl ⟨_, rfl, .flushFails hr⟩)
    | flushDropped => exact .inl ⟨rfl, .flushDropped _ _ _⟩

/-- A future that comes to its end, and what follows. -/
theorem Ends.bind_ok {f : α → Fut σ β} : ∀ {p : Fut σ α} {s s1 s' : σ} {w w1 w' : Net} {a : α}
    {o : Option (Res TlsError β)}, p.Ends s w (some (.ok a)) s1 w1 → (f a).Ends s1 w1 o s' w' →
    (p.bind f).Ends s w o s' w'
  | .ret _, _, _, _, _, _, _, _, _, h, h' => by cases h; exact h'
  | .stuck, _, _, _, _, _, _, _, _, h, _ => by cases h
  | .step u n, _, _, _, _, _, _, _, _, h, h' => by cases h with | step h => exact .step (h.bind_ok h')
  | .read n k, _, _, _, _, _, _, _, _, h, h' => by cases h with | read hr h => exact .read hr (h.bind_ok h')
  | .writeAll bs k, _, _, _, _, _, _, _, _, h, h' => by cases h with | write hr h => exact .write hr (h.bind_ok h')
  | .flush k, _, _, _, _, _, _, _, _, h, h' => by cases h with | flush hr h => exact .flush hr (h.bind_ok h')

/-- A future that fails, is dropped or panics before what follows. -/
theorem Ends.bind_err {f : α → Fut σ β} {e : TlsError} : ∀ {p : Fut σ α} {s s' : σ} {w w' : Net},
    p.Ends s w (some (.err e)) s' w' → (p.bind f).Ends s w (some (.err e)) s' w'
  | .ret _, _, _, _, _, h => by cases h; exact .ret _ _ _
  | .stuck, _, _, _, _, h => by cases h
  | .step u n, _, _, _, _, h => by cases h with | step h => exact .step h.bind_err
  | .read n k, _, _, _, _, h => by
    cases h with
    | read hr h => exact .read hr h.bind_err
    | readFails hr => exact .readFails hr
  | .writeAll bs k, _, _, _, _, h => by
    cases h with
    | write hr h => exact .write hr h.bind_err
    | writeFails hr => exact .writeFails hr
  | .flush k, _, _, _, _, h => by
    cases h with
    | flush hr h => exact .flush hr h.bind_err
    | flushFails hr => exact .flushFails hr

theorem Ends.bind_panic {f : α → Fut σ β} : ∀ {p : Fut σ α} {s s' : σ} {w w' : Net},
    p.Ends s w (some .panic) s' w' → (p.bind f).Ends s w (some .panic) s' w'
  | .ret _, _, _, _, _, h => by cases h; exact .ret _ _ _
  | .stuck, _, _, _, _, h => by cases h
  | .step u n, _, _, _, _, h => by cases h with | step h => exact .step h.bind_panic
  | .read n k, _, _, _, _, h => by cases h with | read hr h => exact .read hr h.bind_panic
  | .writeAll bs k, _, _, _, _, h => by cases h with | write hr h => exact .write hr h.bind_panic
  | .flush k, _, _, _, _, h => by cases h with | flush hr h => exact .flush hr h.bind_panic

theorem Ends.bind_dropped {f : α → Fut σ β} : ∀ {p : Fut σ α} {s s' : σ} {w w' : Net},
    p.Ends s w none s' w' → (p.bind f).Ends s w none s' w'
  | .ret _, _, _, _, _, h => by cases h
  | .stuck, _, _, _, _, h => by cases h
  | .step u n, _, _, _, _, h => by cases h with | step h => exact .step h.bind_dropped
  | .read n k, _, _, _, _, h => by
    cases h with
    | read hr h => exact .read hr h.bind_dropped
    | readDropped => exact .readDropped _ _ _ _
  | .writeAll bs k, _, _, _, _, h => by
    cases h with
    | write hr h => exact .write hr h.bind_dropped
    | writeDropped => exact .writeDropped _ _ _ _ _
  | .flush k, _, _, _, _, h => by
    cases h with
    | flush hr h => exact .flush hr h.bind_dropped
    | flushDropped => exact .flushDropped _ _ _

theorem Rx.read_no_panic (n : Nat) (rx rx' : Rx) : Rx.read n rx ≠ (.panic, rx') := by
  have := ETls.Rx.read_step n rx
  intro h
  rw [h] at this
  cases this

theorem Tx.writeAll_no_panic (bs : Bytes) (t t' : Tx) : Tx.writeAll bs t ≠ (.panic, t') := by
  unfold Tx.writeAll
  split <;> simp

theorem Tx.flush_no_panic (t t' : Tx) : Tx.flush t ≠ (.panic, t') := by
  unfold Tx.flush
  split <;> simp

/-- Awaiting a future is one way for it to end. -/
theorem run_ends : ∀ {f : Fut σ α} {s s' : σ} {w w' : Net} {r : Res TlsError α}, f.run s w = some (r, s', w') →
    f.Ends s w (some r) s' w'
  | .ret r, s, _, w, _, _, h => by
    simp only [Fut.run, Option.some.injEq, Prod.mk.injEq] at h
    obtain ⟨rfl, rfl, rfl⟩ := h
    exact .ret _ _ _
  | .stuck, _, _, _, _, _, h => by cases h
  | .step u n, _, _, _, _, _, h => .step (run_ends h)
  | .read n k, s, _, w, _, _, h => by
    simp only [Fut.run] at h
    rcases hr : Rx.read n w.rx with ⟨bs | e | _, rx⟩
    · rw [hr] at h; exact .read hr (run_ends h)
    · rw [hr] at h
      simp only [Option.some.injEq, Prod.mk.injEq] at h
      obtain ⟨rfl, rfl, rfl⟩ := h
      exact .readFails hr
    · exact absurd hr (Rx.read_no_panic _ _ _)
  | .writeAll bs k, s, _, w, _, _, h => by
    simp only [Fut.run] at h
    rcases hr : Tx.writeAll bs w.tx with ⟨u | e | _, tx⟩
    · rw [hr] at h; exact .write hr (run_ends h)
    · rw [hr] at h
      simp only [Option.some.injEq, Prod.mk.injEq] at h
      obtain ⟨rfl, rfl, rfl⟩ := h
      exact .writeFails hr
    · exact absurd hr (Tx.writeAll_no_panic _ _ _)
  | .flush k, s, _, w, _, _, h => by
    simp only [Fut.run] at h
    rcases hr : Tx.flush w.tx with ⟨u | e | _, tx⟩
    · rw [hr] at h; exact .flush hr (run_ends h)
    · rw [hr] at h
      simp only [Option.some.injEq, Prod.mk.injEq] at h
      obtain ⟨rfl, rfl, rfl⟩ := h
      exact .flushFails hr
    · exact absurd hr (Tx.flush_no_panic _ _)

/-- The only result of a future is that of awaiting it. -/
theorem Ends.run {f : Fut σ α} {s s' : σ} {w w' : Net} {o : Option (Res TlsError α)} (h : f.Ends s w o s' w') :
    ∀ r, o = some r → f.run s w = some (r, s', w') := by
  induction h with
  | ret r s w => intro r' h; cases h; rfl
  | step h ih => intro r hr; exact ih r hr
  | read hr h ih => intro r ho; simp only [Fut.run, hr]; exact ih r ho
  | readFails hr => intro r ho; cases ho; simp only [Fut.run, hr]
  | readDropped => intro r ho; cases ho
  | write hr h ih => intro r ho; simp only [Fut.run, hr]; exact ih r ho
  | writeFails hr => intro r ho; cases ho; simp only [Fut.run, hr]
  | writeDropped => intro r ho; cases ho
  | flush hr h ih => intro r ho; simp only [Fut.run, hr]; exact ih r ho
  | flushFails hr => intro r ho; cases ho; simp only [Fut.run, hr]
  | flushDropped => intro r ho; cases ho

end Fut

/-! ## A dropped future and a failing transport -/

/-- Two sockets on which the same has been sent and from which the same bytes arrive. -/
structure Net.Alike (w w0 : Net) : Prop where
  log : w0.tx.log = w.tx.log
  bytes : w0.rx.bytes = w.rx.bytes

theorem Net.Alike.refl (w : Net) : w.Alike w := ⟨rfl, rfl⟩

/-- However a future ends, it ends with the same state (and with an error of the transport, if it was dropped) when it is
awaited with a transport that fails at the right moment; the socket can be any socket that looks the same afterwards. -/
theorem Fut.Ends.twin (k : IoKind) {f : Fut σ α} {s s' : σ} {w w' : Net} {o : Option (Res TlsError α)}
    (h : f.Ends s w o s' w') : ∀ w0', w'.Alike w0' →
    ∃ w0, w.Alike w0 ∧ f.run s w0 = some (o.getD (.err (.io k)), s', w0') := by
  induction h with
  | ret r s w => intro w0' ha; exact ⟨w0', ha, rfl⟩
  | step h ih => intro w0' ha; exact ih w0' ha
  | @read n f s s' w w' o bs rx hr h ih =>
    intro w0' ha
    obtain ⟨w0, ⟨h1, h2⟩, h3⟩ := ih w0' ha
    have hst := Rx.read_step n w.rx
    rw [hr] at hst
    cases hst with
    | ok _ _ hn hb hs =>
      refine ⟨⟨.data bs :: w0.rx, w0.tx⟩, ⟨h1, ?_⟩, ?_⟩
      · simp only [Rx.bytes, h2, hb]
      · simp only [Fut.run, Rx.read, if_pos hn, h3]
  | @readFails n f s w e rx hr =>
    intro w0' ha
    have hst := Rx.read_step n w.rx
    rw [hr] at hst
    cases hst with
    | err k' _ hb hs =>
      refine ⟨⟨.err k' :: w0'.rx, w0'.tx⟩, ⟨ha.log, ?_⟩, ?_⟩
      · simp only [Rx.bytes, ha.bytes, hb]
      · simp only [Fut.run, Rx.read, Option.getD_some]
  | readDropped n f s w =>
    intro w0' ha
    refine ⟨⟨.err k :: w0'.rx, w0'.tx⟩, ⟨ha.log, ha.bytes⟩, ?_⟩
    simp only [Fut.run, Rx.read, Option.getD_none]
  | @write bs f s s' w w' o tx hr h ih =>
    intro w0' ha
    obtain ⟨w0, ⟨h1, h2⟩, h3⟩ := ih w0' ha
    have htx : tx.log = w.tx.log ++ [.wrote bs] := by
      unfold Tx.writeAll at hr
      split at hr <;> simp_all <;> rw [← hr]
    refine ⟨⟨w0.rx, ⟨.ok :: w0.tx.ctl, w.tx.log⟩⟩, ⟨rfl, h2⟩, ?_⟩
    have : (⟨w0.tx.ctl, w.tx.log ++ [.wrote bs]⟩ : Tx) = w0.tx := by rw [← htx, ← h1]
    simp only [Fut.run, Tx.writeAll, this, h3]
  | @writeFails bs f s w e tx hr =>
    intro w0' ha
    have htx : ∃ k' j, e = .io k' ∧ tx.log = w.tx.log ++ [.partialWrite (bs.take j)] := by
      unfold Tx.writeAll at hr
      split at hr <;> simp_all
      · next k' j r hc => exact ⟨⟨k', hr.1.symm⟩, j, by rw [← hr.2]⟩
    obtain ⟨k', j, rfl, htx⟩ := htx
    refine ⟨⟨w0'.rx, ⟨.fail k' j :: w0'.tx.ctl, w.tx.log⟩⟩, ⟨rfl, ha.bytes⟩, ?_⟩
    have : (⟨w0'.tx.ctl, w.tx.log ++ [.partialWrite (bs.take j)]⟩ : Tx) = w0'.tx := by rw [← htx, ← ha.log]
    simp only [Fut.run, Tx.writeAll, this, Option.getD_some]
  | writeDropped bs f s w j =>
    intro w0' ha
    refine ⟨⟨w0'.rx, ⟨.fail k j :: w0'.tx.ctl, w.tx.log⟩⟩, ⟨rfl, ha.bytes⟩, ?_⟩
    have : (⟨w0'.tx.ctl, w.tx.log ++ [.partialWrite (bs.take j)]⟩ : Tx) = w0'.tx := by
      have := ha.log
      simp only at this
      rw [← this]
    simp only [Fut.run, Tx.writeAll, this, Option.getD_none]
  | @flush f s s' w w' o tx hr h ih =>
    intro w0' ha
    obtain ⟨w0, ⟨h1, h2⟩, h3⟩ := ih w0' ha
    have htx : tx.log = w.tx.log ++ [.flushed] := by
      unfold Tx.flush at hr
      split at hr <;> simp_all <;> rw [← hr]
    refine ⟨⟨w0.rx, ⟨.ok :: w0.tx.ctl, w.tx.log⟩⟩, ⟨rfl, h2⟩, ?_⟩
    have : (⟨w0.tx.ctl, w.tx.log ++ [.flushed]⟩ : Tx) = w0.tx := by rw [← htx, ← h1]
    simp only [Fut.run, Tx.flush, this, h3]
  | @flushFails f s w e tx hr =>
    intro w0' ha
    have htx : ∃ k', e = .io k' ∧ tx.log = w.tx.log ++ [.flushFailed] := by
      unfold Tx.flush at hr
      split at hr <;> simp_all
      · exact ⟨⟨_, hr.1.symm⟩, by rw [← hr.2]⟩
    obtain ⟨k', rfl, htx⟩ := htx
    refine ⟨⟨w0'.rx, ⟨.fail k' 0 :: w0'.tx.ctl, w.tx.log⟩⟩, ⟨rfl, ha.bytes⟩, ?_⟩
    have : (⟨w0'.tx.ctl, w.tx.log ++ [.flushFailed]⟩ : Tx) = w0'.tx := by rw [← htx, ← ha.log]
    simp only [Fut.run, Tx.flush, this, Option.getD_some]
  | flushDropped f s w =>
    intro w0' ha
    refine ⟨⟨w0'.rx, ⟨.fail k 0 :: w0'.tx.ctl, w.tx.log⟩⟩, ⟨rfl, ha.bytes⟩, ?_⟩
    have : (⟨w0'.tx.ctl, w.tx.log ++ [.flushFailed]⟩ : Tx) = w0'.tx := by
      have := ha.log
      simp only at this
      rw [← this]
    simp only [Fut.run, Tx.flush, this, Option.getD_none]

/-! ## Awaiting a future is the function of the other files -/

variable [Host σ]

/-- Code that does not touch the socket. -/
def Local (m : M TlsError σ α) : Prop := ∀ s w, m (Host.put s w) = ((m s).1, Host.put (m s).2 w)

/-- Awaiting the future is the function `m`. -/
def Awaits (f : Fut σ α) (m : M TlsError σ α) : Prop :=
  ∀ s w r s' w', f.run s w = some (r, s', w') → m (Host.put s w) = (r, Host.put s' w')

theorem Local.bind {m : M TlsError σ α} {g : α → M TlsError σ β} (hm : Local m) (hg : ∀ a, Local (g a)) :
    Local (m >>= g) := by
  intro s w
  have h := hm s w
  rcases hr : m s with ⟨r, s1⟩
  rw [hr] at h
  cases r with
  | ok a => rw [M.bind_ok h, M.bind_ok hr]; exact hg a s1 w
  | err e => rw [M.bind_err h, M.bind_err hr]
  | panic => rw [M.bind_panic h, M.bind_panic hr]

theorem Local.pure (a : α) : Local (Pure.pure a : M TlsError σ α) := fun _ _ => rfl
theorem Local.fail (e : TlsError) : Local (M.fail e : M TlsError σ α) := fun _ _ => rfl
theorem Local.crash : Local (M.crash : M TlsError σ α) := fun _ _ => rfl
theorem Local.lift (r : Res TlsError α) : Local (M.lift r : M TlsError σ α) := fun _ _ => rfl

/-- A look at the state that does not look at the socket. -/
theorem Local.get {g : σ → M TlsError σ β} (hg : ∀ s, Local (g s)) (hl : ∀ s w, g (Host.put s w) = g s) :
    Local (M.get >>= g) := by
  intro s w
  rw [M.get_bind, M.get_bind, hl s w]
  exact hg s s w

theorem Awaits.ret (r : Res TlsError α) : Awaits (.ret r : Fut σ α) (M.lift r) := by
  intro s w r' s' w' h
  simp only [Fut.run, Option.some.injEq, Prod.mk.injEq] at h
  obtain ⟨rfl, rfl, rfl⟩ := h
  rfl

theorem Awaits.stuck (m : M TlsError σ α) : Awaits .stuck m := by intro s w r s' w' h; cases h

theorem Awaits.act {m : M TlsError σ α} (h : Local m) : Awaits (Fut.act m) m := by
  intro s w r s' w' hr
  simp only [Fut.act, Fut.run, Option.some.injEq, Prod.mk.injEq] at hr
  obtain ⟨rfl, rfl, rfl⟩ := hr
  exact h s w

theorem Awaits.bind {f : Fut σ α} {m : M TlsError σ α} {g : α → Fut σ β} {n : α → M TlsError σ β} (hf : Awaits f m)
    (hg : ∀ a, Awaits (g a) (n a)) : Awaits (f.bind g) (m >>= n) := by
  intro s w r s' w' h
  rw [Fut.run_bind] at h
  rcases hr : f.run s w with _ | ⟨x, s1, w1⟩
  · rw [hr] at h; cases h
  · rw [hr] at h
    have hm := hf s w x s1 w1 hr
    cases x with
    | ok a => rw [M.bind_ok hm]; exact hg a s1 w1 r s' w' h
    | err e =>
      simp only [Option.some.injEq, Prod.mk.injEq] at h
      obtain ⟨rfl, rfl, rfl⟩ := h
      rw [M.bind_err hm]
    | panic =>
      simp only [Option.some.injEq, Prod.mk.injEq] at h
      obtain ⟨rfl, rfl, rfl⟩ := h
      rw [M.bind_panic hm]

theorem Awaits.look {k : σ → Fut σ α} {g : σ → M TlsError σ α} (h : ∀ s w, Awaits (k s) (g (Host.put s w))) :
    Awaits (.look k) (M.get >>= g) := by
  intro s w r s' w' hr
  rw [M.get_bind]
  exact h s w s w r s' w' hr

theorem Awaits.congr {f : Fut σ α} {m n : M TlsError σ α} (h : Awaits f m) (e : ∀ s, n s = m s) : Awaits f n := by
  intro s w r s' w' hr
  rw [e]
  exact h s w r s' w' hr

end

/-! ## The reading calls -/

/-- An operation of the transport's receiving side, on a connection. -/
def onRx {α : Type} (m : M TlsError Rx α) : M TlsError Conn α := fun c =>
  let (r, rx) := m c.rx
  (r, { c with rx := rx })

/-- An operation of the record reader, on a connection. -/
def onRdSt {α : Type} (m : M TlsError RdSt α) : M TlsError Conn α := fun c =>
  let (r, s) := m ⟨c.rr, c.rx, c.ks.server.transcript⟩
  (r, { c with rr := s.rr, rx := s.rx, ks := { c.ks with server := { c.ks.server with transcript := s.transcript } } })

theorem onRx_bind {α β : Type} (m : M TlsError Rx α) (g : α → M TlsError Rx β) :
    onRx (m >>= g) = onRx m >>= fun a => onRx (g a) := by
  funext c
  rcases hm : m c.rx with ⟨r, rx⟩
  have ho : onRx m c = (r, { c with rx := rx }) := by simp only [onRx, hm]
  cases r with
  | ok a => rw [M.bind_ok ho]; simp only [onRx]; rw [M.bind_ok hm]
  | err e => rw [M.bind_err ho]; simp only [onRx]; rw [M.bind_err hm]
  | panic => rw [M.bind_panic ho]; simp only [onRx]; rw [M.bind_panic hm]

theorem onRdSt_bind {α β : Type} (m : M TlsError RdSt α) (g : α → M TlsError RdSt β) :
    onRdSt (m >>= g) = onRdSt m >>= fun a => onRdSt (g a) := by
  funext c
  rcases hm : m ⟨c.rr, c.rx, c.ks.server.transcript⟩ with ⟨r, s⟩
  have ho : onRdSt m c = (r, { c with
      rr := s.rr, rx := s.rx, ks := { c.ks with server := { c.ks.server with transcript := s.transcript } } }) := by
    simp only [onRdSt, hm]
  cases r with
  | ok a => rw [M.bind_ok ho]; simp only [onRdSt]; rw [M.bind_ok hm]
  | err e => rw [M.bind_err ho]; simp only [onRdSt]; rw [M.bind_err hm]
  | panic => rw [M.bind_panic ho]; simp only [onRdSt]; rw [M.bind_panic hm]

theorem onRd_bind {α β : Type} (m : M TlsError RdHalf α) (g : α → M TlsError RdHalf β) :
    onRd (m >>= g) = onRd m >>= fun a => onRd (g a) := by
  funext c
  rcases hm : m c.rd with ⟨r, h⟩
  have ho : onRd m c = (r, c.setRd h) := by simp only [onRd, hm]
  cases r with
  | ok a => rw [M.bind_ok ho]; simp only [onRd]; rw [M.bind_ok hm]; rfl
  | err e => rw [M.bind_err ho]; simp only [onRd]; rw [M.bind_err hm]
  | panic => rw [M.bind_panic ho]; simp only [onRd]; rw [M.bind_panic hm]

theorem Awaits.read {α : Type} {n : Nat} {k : Bytes → Fut Conn α} {g : Bytes → M TlsError Conn α}
    (h : ∀ bs, Awaits (k bs) (g bs)) : Awaits (.read n k) (onRx (Rx.read n) >>= g) := by
  intro s w r s' w' hr
  simp only [Fut.run] at hr
  rcases hx : Rx.read n w.rx with ⟨x, rx⟩
  rw [hx] at hr
  have ho : onRx (Rx.read n) (Host.put s w) = (x, Host.put s ⟨rx, w.tx⟩) := by
    show (let (r, rx) := Rx.read n w.rx; (r, (⟨rx, w.tx, s.opened, s.ks, s.rr, s.wb, s.dec, s.fp⟩ : Conn))) = _
    rw [hx]
    rfl
  cases x with
  | ok bs => rw [M.bind_ok ho]; exact h bs s ⟨rx, w.tx⟩ r s' w' hr
  | err e =>
    simp only [Option.some.injEq, Prod.mk.injEq] at hr
    obtain ⟨rfl, rfl, rfl⟩ := hr
    rw [M.bind_err ho]
  | panic =>
    simp only [Option.some.injEq, Prod.mk.injEq] at hr
    obtain ⟨rfl, rfl, rfl⟩ := hr
    rw [M.bind_panic ho]

theorem Awaits.writeAll {α : Type} {bs : Bytes} {k : Fut Conn α} {g : Unit → M TlsError Conn α}
    (h : Awaits k (g ())) : Awaits (.writeAll bs k) (onWr (WrHalf.onTx (Tx.writeAll bs)) >>= g) := by
  intro s w r s' w' hr
  simp only [Fut.run] at hr
  rcases hx : Tx.writeAll bs w.tx with ⟨x, tx⟩
  rw [hx] at hr
  have ho : onWr (WrHalf.onTx (Tx.writeAll bs)) (Host.put s w) = (x, Host.put s ⟨w.rx, tx⟩) := by
    show (let (r, tx) := Tx.writeAll bs w.tx; (r, (⟨w.rx, tx, s.opened, s.ks, s.rr, s.wb, s.dec, s.fp⟩ : Conn))) = _
    rw [hx]
    rfl
  cases x with
  | ok u => rw [M.bind_ok ho]; exact h s ⟨w.rx, tx⟩ r s' w' hr
  | err e =>
    simp only [Option.some.injEq, Prod.mk.injEq] at hr
    obtain ⟨rfl, rfl, rfl⟩ := hr
    rw [M.bind_err ho]
  | panic =>
    simp only [Option.some.injEq, Prod.mk.injEq] at hr
    obtain ⟨rfl, rfl, rfl⟩ := hr
    rw [M.bind_panic ho]

theorem Awaits.flushed : Awaits (.flush (.ret (.ok ()))) (onWr (WrHalf.onTx Tx.flush)) := by
  intro s w r s' w' hr
  simp only [Fut.run] at hr
  rcases hx : Tx.flush w.tx with ⟨x, tx⟩
  rw [hx] at hr
  have ho : onWr (WrHalf.onTx Tx.flush) (Host.put s w) = (x, Host.put s ⟨w.rx, tx⟩) := by
    show (let (r, tx) := Tx.flush w.tx; (r, (⟨w.rx, tx, s.opened, s.ks, s.rr, s.wb, s.dec, s.fp⟩ : Conn))) = _
    rw [hx]
    rfl
  rw [ho]
  cases x <;> simp only [Option.some.injEq, Prod.mk.injEq] at hr <;> obtain ⟨rfl, rfl, rfl⟩ := hr <;> rfl

theorem Awaits.headerLoop (fuel : Nat) : ∀ acc, Awaits (Fut.headerLoop fuel acc) (onRx (ETls.headerLoop fuel acc)) := by
  induction fuel with
  | zero => intro acc; exact Awaits.ret .panic
  | succ fuel ih =>
    intro acc
    unfold Fut.headerLoop ETls.headerLoop
    split
    · exact Awaits.ret (.ok acc)
    · rw [onRx_bind]
      refine Awaits.read fun bs => ?_
      split
      · exact Awaits.ret (.err .ioError)
      · exact ih _

theorem Awaits.nextRecordHeader : Awaits Fut.nextRecordHeader (onRx ETls.nextRecordHeader) := by
  unfold Fut.nextRecordHeader ETls.nextRecordHeader
  rw [onRx_bind]
  exact (Awaits.headerLoop 6 []).bind fun h => Awaits.ret _

/-- The loop over the payload, on a connection. -/
def onRRx {α : Type} (m : M TlsError (RR × Rx) α) : M TlsError Conn α := fun c =>
  let (r, (rr, rx)) := m (c.rr, c.rx)
  (r, { c with rr := rr, rx := rx })

theorem onRRx_bind {α β : Type} (m : M TlsError (RR × Rx) α) (g : α → M TlsError (RR × Rx) β) :
    onRRx (m >>= g) = onRRx m >>= fun a => onRRx (g a) := by
  funext c
  rcases hm : m (c.rr, c.rx) with ⟨r, rr, rx⟩
  have ho : onRRx m c = (r, { c with rr := rr, rx := rx }) := by simp only [onRRx, hm]
  cases r with
  | ok a => rw [M.bind_ok ho]; simp only [onRRx]; rw [M.bind_ok hm]
  | err e => rw [M.bind_err ho]; simp only [onRRx]; rw [M.bind_err hm]
  | panic => rw [M.bind_panic ho]; simp only [onRRx]; rw [M.bind_panic hm]

theorem Awaits.advanceLoop (amount fuel : Nat) : ∀ remain,
    Awaits (Fut.advanceLoop amount fuel remain) (onRRx (ETls.advanceLoop amount fuel remain)) := by
  induction fuel with
  | zero => intro remain; exact Awaits.ret .panic
  | succ fuel ih =>
    intro remain s w r s' w' hr
    unfold Fut.advanceLoop at hr
    simp only [Fut.look, Fut.run, id] at hr
    have hput : onRRx (ETls.advanceLoop amount (fuel + 1) remain) (Host.put s w) =
        (let (r, (rr, rx)) := ETls.advanceLoop amount (fuel + 1) remain (s.rr, w.rx)
         (r, Host.put { s with rr := rr } ⟨rx, w.tx⟩)) := rfl
    rw [hput]
    unfold ETls.advanceLoop
    simp only
    by_cases hp : s.rr.pending < amount
    · rw [if_pos hp] at hr ⊢
      by_cases ho : s.rr.decoded + s.rr.pending > s.rr.buf.length ∨ s.rr.decoded + s.rr.pending + remain > s.rr.buf.length
      · rw [if_pos ho] at hr ⊢
        simp only [Fut.run, Option.some.injEq, Prod.mk.injEq] at hr
        obtain ⟨rfl, rfl, rfl⟩ := hr
        rfl
      · rw [if_neg ho] at hr ⊢
        simp only [Fut.run] at hr
        rcases hx : Rx.read remain w.rx with ⟨x, rx⟩
        rw [hx] at hr
        cases x with
        | ok bs =>
          simp only at hr ⊢
          by_cases hb : bs.length = 0
          · rw [if_pos hb] at hr ⊢
            simp only [Fut.run, Option.some.injEq, Prod.mk.injEq] at hr
            obtain ⟨rfl, rfl, rfl⟩ := hr
            rfl
          · rw [if_neg hb] at hr ⊢
            exact ih _ (Conn.received bs s) ⟨rx, w.tx⟩ r s' w' hr
        | err e =>
          simp only [Option.some.injEq, Prod.mk.injEq] at hr
          obtain ⟨rfl, rfl, rfl⟩ := hr
          rfl
        | panic =>
          simp only [Option.some.injEq, Prod.mk.injEq] at hr
          obtain ⟨rfl, rfl, rfl⟩ := hr
          rfl
    · rw [if_neg hp] at hr ⊢
      simp only [Fut.run, Option.some.injEq, Prod.mk.injEq] at hr
      obtain ⟨rfl, rfl, rfl⟩ := hr
      rfl

theorem Awaits.advance (amount : Nat) : Awaits (Fut.advance amount) (onRRx (ETls.advance amount)) := by
  unfold Fut.advance ETls.advance
  rw [onRRx_bind]
  have hl : Local (Conn.ensureContiguous amount) := fun _ _ => rfl
  exact ((Awaits.act hl).congr fun _ => rfl).bind fun _ => Awaits.advanceLoop amount _ _

theorem consumeRecord_rx (h : RecordHeader) (s : RdSt) (rx : Rx) :
    consumeRecord S h { s with rx := rx } = ((consumeRecord S h s).1, { (consumeRecord S h s).2 with rx := rx }) := by
  unfold consumeRecord
  simp only
  split
  · rfl
  · split <;> rfl

theorem Awaits.readRecord : Awaits (Fut.readRecord S) (onRd (RdHalf.readRecord S)) := by
  have e : onRd (RdHalf.readRecord S) = onRdSt (ETls.readRecord S) := rfl
  rw [e]
  unfold Fut.readRecord ETls.readRecord
  rw [onRdSt_bind]
  refine Awaits.bind (Awaits.nextRecordHeader.congr fun _ => rfl) fun h => ?_
  rw [onRdSt_bind]
  refine Awaits.bind ((Awaits.advance _).congr fun _ => rfl) fun _ => ?_
  have hl : Local (Conn.consumeRecord S h) := fun _ _ => rfl
  refine (Awaits.act hl).congr fun c => ?_
  have := consumeRecord_rx S h ⟨c.rr, [], c.ks.server.transcript⟩ c.rx
  simp only at this
  simp only [onRdSt, Conn.consumeRecord, this]

theorem decrypt_local (rec : ServerRecord) : Local (onRd (RdHalf.decrypt S rec)) := fun _ _ => rfl

theorem Awaits.readApplicationData : Awaits (Fut.readApplicationData S) (onRd (RdHalf.readApplicationData S)) := by
  unfold Fut.readApplicationData RdHalf.readApplicationData
  rw [onRd_bind]
  exact (Awaits.readRecord S).bind fun rec => Awaits.act (decrypt_local S rec)

theorem Awaits.fillLoop (fuel : Nat) : Awaits (Fut.fillLoop S fuel) (onRd (RdHalf.fillLoop S fuel)) := by
  induction fuel with
  | zero => exact Awaits.stuck _
  | succ fuel ih =>
    unfold Fut.fillLoop RdHalf.fillLoop
    rw [onRd_bind]
    refine Awaits.congr (m := M.get >>= fun c : Conn => onRd (if c.rd.dec.isEmpty = true then do
        RdHalf.readApplicationData S
        RdHalf.fillLoop S fuel
      else return ())) ?_ (fun _ => rfl)
    refine Awaits.look fun s w => ?_
    have hd : (Host.put s w : Conn).rd.dec = s.dec := rfl
    rw [hd]
    split
    · rw [onRd_bind]
      exact (Awaits.readApplicationData S).bind fun _ => ih
    · exact Awaits.ret (.ok ())

/-- A bound that was not used up can be any larger bound. -/
theorem Fut.fillLoop_more {fuel fuel' : Nat} (hf : fuel ≤ fuel') : ∀ {s : Conn} {w : Net} {x : Res TlsError Unit × Conn × Net},
    (Fut.fillLoop S fuel).run s w = some x → (Fut.fillLoop S fuel').run s w = some x := by
  induction fuel generalizing fuel' with
  | zero => intro s w x h; cases h
  | succ fuel ih =>
    obtain ⟨fuel', rfl⟩ : ∃ k, fuel' = k + 1 := ⟨fuel' - 1, by omega⟩
    intro s w x h
    unfold Fut.fillLoop Fut.look at h ⊢
    simp only [Fut.run, id] at h ⊢
    split
    · next hd =>
      rw [if_pos hd, Fut.run_bind] at h
      rw [Fut.run_bind]
      rcases hr : (Fut.readApplicationData S).run s w with _ | ⟨_ | _ | _, s1, w1⟩
      · rw [hr] at h; cases h
      · rw [hr] at h; exact ih (by omega) h
      · rw [hr] at h; exact h
      · rw [hr] at h; exact h
    · next hd =>
      rw [if_neg hd] at h
      exact h

theorem readApp_takes (h h' : RdHalf) (hr : RdHalf.readApplicationData S h = (.ok (), h')) :
    h'.rx.bytes.length + 5 ≤ h.rx.bytes.length := by
  unfold RdHalf.readApplicationData at hr
  obtain ⟨rec, h1, hr1, hr2⟩ := M.bind_inv hr
  have := (readRecord_suffix S ⟨h.rr, h.rx, h.rks.transcript⟩).2 rec (congrArg Prod.fst hr1)
  have e1 : (ETls.readRecord S ⟨h.rr, h.rx, h.rks.transcript⟩).2.rx = h1.rx := congrArg (fun x => x.2.rx) hr1
  have e2 : h1.rx = h'.rx := congrArg (fun x => x.2.rx) hr2
  rw [e1, e2] at this
  exact this

/-- The bound of the loop does not matter if it is large enough for the input. -/
theorem fillLoop_bound : ∀ (n : Nat) (h : RdHalf) (f f' : Nat), h.rx.bytes.length ≤ n →
    h.rx.bytes.length + 2 ≤ f → h.rx.bytes.length + 2 ≤ f' → RdHalf.fillLoop S f h = RdHalf.fillLoop S f' h := by
  intro n
  induction n with
  | zero =>
    intro h f f' hn hf hf'
    obtain ⟨f, rfl⟩ : ∃ k, f = k + 1 := ⟨f - 1, by omega⟩
    obtain ⟨f', rfl⟩ : ∃ k, f' = k + 1 := ⟨f' - 1, by omega⟩
    unfold RdHalf.fillLoop
    rw [M.get_bind, M.get_bind]
    split
    · rcases hr : RdHalf.readApplicationData S h with ⟨_ | _ | _, h1⟩
      · have := readApp_takes S h h1 hr; omega
      · rw [M.bind_err hr, M.bind_err hr]
      · rw [M.bind_panic hr, M.bind_panic hr]
    · rfl
  | succ n ih =>
    intro h f f' hn hf hf'
    obtain ⟨f, rfl⟩ : ∃ k, f = k + 1 := ⟨f - 1, by omega⟩
    obtain ⟨f', rfl⟩ : ∃ k, f' = k + 1 := ⟨f' - 1, by omega⟩
    unfold RdHalf.fillLoop
    rw [M.get_bind, M.get_bind]
    split
    · rcases hr : RdHalf.readApplicationData S h with ⟨_ | _ | _, h1⟩
      · have := readApp_takes S h h1 hr
        rw [M.bind_ok hr, M.bind_ok hr]
        exact ih h1 f f' (by omega) (by omega) (by omega)
      · rw [M.bind_err hr, M.bind_err hr]
      · rw [M.bind_panic hr, M.bind_panic hr]
    · rfl

theorem Awaits.fill (fuel : Nat) : Awaits (Fut.fill S fuel) (onRd (RdHalf.fill S)) := by
  unfold Fut.fill RdHalf.fill
  rw [onRd_bind]
  refine Awaits.congr (m := M.get >>= fun c : Conn => onRd (if c.rd.opened = true then
      RdHalf.fillLoop S (c.rd.rx.size + 2) else M.fail .missingHandshake)) ?_ (fun _ => rfl)
  intro s w r s' w' h
  rw [M.get_bind]
  have ho : (Host.put s w : Conn).rd.opened = s.opened := rfl
  have hx : (Host.put s w : Conn).rd.rx = w.rx := rfl
  rw [ho, hx]
  simp only [Fut.look, Fut.run, id] at h
  split
  · next h1 =>
    rw [if_pos h1] at h
    have h2 := Fut.fillLoop_more S (Nat.le_max_left fuel (w.rx.size + 2)) h
    have h3 := Awaits.fillLoop S _ s w r s' w' h2
    have hb := w.rx.bytes_le_size
    have e := fillLoop_bound S _ (Host.put s w : Conn).rd (w.rx.size + 2) (max fuel (w.rx.size + 2)) (Nat.le_refl _)
      (by rw [hx]; omega) (by rw [hx]; omega)
    simp only [onRd] at h3 ⊢
    rw [e]
    exact h3
  · next h1 =>
    rw [if_neg h1] at h
    exact Awaits.ret (σ := Conn) (.err .missingHandshake) s w r s' w' h

theorem useBuffer_local (ops : List RBufOp) (rv : Bool) : Local (onRd (RdHalf.useBuffer ops rv)) := by
  intro s w
  have ha : ∃ r, RdHalf.available s.rd = (r, s.rd) ∧
      RdHalf.available (Host.put s w : Conn).rd = (r, (Host.put s w : Conn).rd) := by
    by_cases h : s.dec.offset + s.dec.consumed ≤ s.dec.offset + s.dec.len ∧ s.dec.offset + s.dec.len ≤ s.rr.buf.length
    · exact ⟨_, if_pos h, if_pos h⟩
    · exact ⟨_, if_neg h, if_neg h⟩
  obtain ⟨r, h1, h2⟩ := ha
  unfold onRd RdHalf.useBuffer
  rw [h1, h2]
  cases r with
  | ok d =>
    simp only
    rcases RBuf.runOps ops (RBuf.new d) with ⟨_ | _ | _, _⟩ <;> rfl
  | err e => rfl
  | panic => rfl

theorem Awaits.reader (fuel : Nat) (op : ROp) : Awaits (Fut.reader S fuel op) (onRd (op.run S)) := by
  cases op with
  | read n =>
    simp only [Fut.reader, ROp.run]
    split
    · exact Awaits.ret (.ok _)
    · rw [onRd_bind]
      exact (Awaits.fill S fuel).bind fun _ => Awaits.act (useBuffer_local _ _)
  | fillBuf =>
    simp only [Fut.reader, ROp.run]
    rw [onRd_bind]
    exact (Awaits.fill S fuel).bind fun _ => Awaits.act (useBuffer_local _ _)
  | consume n => exact Awaits.act (useBuffer_local _ _)
  | buffered ops rv =>
    simp only [Fut.reader, ROp.run]
    rw [onRd_bind]
    exact (Awaits.fill S fuel).bind fun _ => Awaits.act (useBuffer_local _ _)

/-! ## The writing calls -/

theorem onWr_bind' {α β : Type} (m : M TlsError WrHalf α) (g : α → M TlsError WrHalf β) :
    onWr (m >>= g) = onWr m >>= fun a => onWr (g a) := funext (onWr_bind m g)

theorem onWb_local {α : Type} (m : M TlsError WB α) : Local (onWr (WrHalf.onWb m)) := fun _ _ => rfl
theorem increment_local : Local (onWr WrHalf.increment) := fun _ _ => rfl
theorem writeRecord_local (rec : ClientRecord) : Local (Conn.writeRecord S rec) := fun _ _ => rfl

theorem Awaits.flushRecord : Awaits (Fut.flushRecord S) (onWr (WrHalf.flush S)) := by
  unfold Fut.flushRecord WrHalf.flush
  rw [onWr_bind']
  refine Awaits.congr (m := M.get >>= fun c : Conn => onWr (if c.wr.wb.isEmpty = true then return () else do
      let slice ← WrHalf.onWb (WB.closeRecord S c.wr.wks)
      WrHalf.onTx (Tx.writeAll slice)
      WrHalf.increment
      if c.wr.fp.flushTransport = true then WrHalf.onTx Tx.flush else return ())) ?_ (fun _ => rfl)
  refine Awaits.look fun s w => ?_
  have hb : (Host.put s w : Conn).wr.wb = s.wb := rfl
  have hk : (Host.put s w : Conn).wr.wks = s.ks.client := rfl
  have hf : (Host.put s w : Conn).wr.fp = s.fp := rfl
  rw [hb, hk, hf]
  split
  · exact Awaits.ret (.ok ())
  · rw [onWr_bind']
    refine (Awaits.act (onWb_local _)).bind fun slice => ?_
    rw [onWr_bind']
    refine Awaits.writeAll ?_
    rw [onWr_bind']
    refine (Awaits.act increment_local).bind fun _ => ?_
    unfold Fut.flushTransport
    split
    · exact Awaits.flushed
    · exact Awaits.ret (.ok ())

theorem Awaits.ensureRecord : Awaits (Fut.ensureRecord S) (onWr (WrHalf.ensureRecord S)) := by
  unfold Fut.ensureRecord WrHalf.ensureRecord
  rw [onWr_bind']
  refine Awaits.congr (m := M.get >>= fun c : Conn => onWr (if c.wr.wb.contains .applicationData = true then pure () else do
      WrHalf.flush S
      WrHalf.onWb (WB.startRecord .applicationData))) ?_ (fun _ => rfl)
  refine Awaits.look fun s w => ?_
  have hb : (Host.put s w : Conn).wr.wb = s.wb := rfl
  rw [hb]
  split
  · exact Awaits.ret (.ok ())
  · rw [onWr_bind']
    exact (Awaits.flushRecord S).bind fun _ => Awaits.act (onWb_local _)

theorem Awaits.write (bs : Bytes) : Awaits (Fut.write S bs) (onWr (WrHalf.write S bs)) := by
  unfold Fut.write WrHalf.write
  rw [onWr_bind']
  refine Awaits.congr (m := M.get >>= fun c : Conn => onWr (if c.wr.opened = true then do
      WrHalf.ensureRecord S
      let n ← WrHalf.onWb (WB.append bs)
      let full ← WrHalf.onWb WB.isFull
      WrHalf.flushIf S full
      return n
    else M.fail .missingHandshake)) ?_ (fun _ => rfl)
  refine Awaits.look fun s w => ?_
  have hb : (Host.put s w : Conn).wr.opened = s.opened := rfl
  rw [hb]
  split
  · rw [onWr_bind']
    refine (Awaits.ensureRecord S).bind fun _ => ?_
    rw [onWr_bind']
    refine (Awaits.act (onWb_local _)).bind fun n => ?_
    rw [onWr_bind']
    refine (Awaits.act (onWb_local _)).bind fun full => ?_
    rw [onWr_bind']
    refine Awaits.bind ?_ fun _ => Awaits.ret (.ok n)
    cases full with
    | true => exact Awaits.flushRecord S
    | false => exact Awaits.ret (.ok ())
  · exact Awaits.ret (.err .missingHandshake)

theorem Awaits.writer (op : WOp) : Awaits (Fut.writer S op) (onWr (op.run S)) := by
  cases op with
  | write bs => exact Awaits.write S bs
  | flush =>
    simp only [Fut.writer, WOp.run]
    rw [onWr_bind']
    exact (Awaits.flushRecord S).bind fun _ => Awaits.ret (.ok 0)
  | setFlushPolicy fp =>
    simp only [Fut.writer, WOp.run]
    rw [onWr_bind']
    have hl : Local (onWr (WrHalf.setFlushPolicy fp)) := fun _ _ => rfl
    exact (Awaits.act hl).bind fun _ => Awaits.ret (.ok 0)

theorem Awaits.respond (tx : Bytes) : Awaits (Fut.respond tx) (ETls.respond tx) := by
  unfold Fut.respond ETls.respond
  exact Awaits.writeAll ((Awaits.act increment_local).bind fun _ => Awaits.flushed)

theorem Awaits.close : Awaits (Fut.close S) (Conn.close S) := by
  unfold Fut.close Conn.close
  refine (Awaits.flushRecord S).bind fun _ => ?_
  refine Awaits.look fun s w => ?_
  exact (Awaits.act (writeRecord_local S _)).bind fun slice => Awaits.respond slice

/-! ## The handshake -/

variable {V : Type}

theorem Fut.onConn_run {α : Type} : ∀ (f : Fut Conn α) (s : HSt V) (w : Net),
    (Fut.onConn f : Fut (HSt V) α).run s w = (f.run s.c w).map fun x => (x.1, { s with c := x.2.1 }, x.2.2)
  | .ret _, _, _ => rfl
  | .stuck, _, _ => rfl
  | .step u n, s, w => Fut.onConn_run (n s.c) { s with c := u s.c } w
  | .read n k, s, w => by
    simp only [Fut.onConn, Fut.zoom, Fut.run]
    rcases Rx.read n w.rx with ⟨_ | _ | _, rx⟩
    · exact Fut.onConn_run (k _) s _
    · rfl
    · rfl
  | .writeAll bs k, s, w => by
    simp only [Fut.onConn, Fut.zoom, Fut.run]
    rcases Tx.writeAll bs w.tx with ⟨_ | _ | _, rx⟩
    · exact Fut.onConn_run k s _
    · rfl
    · rfl
  | .flush k, s, w => by
    simp only [Fut.onConn, Fut.zoom, Fut.run]
    rcases Tx.flush w.tx with ⟨_ | _ | _, rx⟩
    · exact Fut.onConn_run k s _
    · rfl
    · rfl

theorem Awaits.onConn {α : Type} {f : Fut Conn α} {m : M TlsError Conn α} (h : Awaits f m) :
    Awaits (Fut.onConn f : Fut (HSt V) α) (ETls.onConn m) := by
  intro s w r s' w' hr
  rw [Fut.onConn_run] at hr
  rcases hc : f.run s.c w with _ | ⟨x, c1, w1⟩
  · rw [hc] at hr; cases hr
  · rw [hc] at hr
    simp only [Option.map_some, Option.some.injEq, Prod.mk.injEq] at hr
    obtain ⟨rfl, rfl, rfl⟩ := hr
    have hm := h s.c w x c1 w1 hc
    show (let (r, c) := m (Host.put s.c w); (r, ({ s with c := c } : HSt V))) = _
    rw [hm]
    rfl

theorem Local.onConn {α : Type} {m : M TlsError Conn α} (h : Local m) : Local (ETls.onConn m : M TlsError (HSt V) α) := by
  intro s w
  show (let (r, c) := m (Host.put s.c w); (r, ({ s with c := c } : HSt V))) = _
  rw [h s.c w]
  rfl

theorem Local.onKs {α : Type} (m : M TlsError KeySchedule α) : Local (ETls.onKs m : M TlsError (HSt V) α) := fun _ _ => rfl
theorem Local.modHs (f : HsData V → HsData V) : Local (ETls.modHs f) := fun _ _ => rfl

theorem Awaits.handleProcessingError (r : Res TlsError State) :
    Awaits (Fut.handleProcessingError S r) (ETls.handleProcessingError S r) := by
  unfold Fut.handleProcessingError ETls.handleProcessingError
  split
  · exact (Awaits.act (writeRecord_local S _)).bind fun tx => (Awaits.respond tx).bind fun _ => Awaits.ret _
  · next hne =>
    split
    · exact absurd rfl (hne _ _)
    · exact Awaits.ret _

theorem Awaits.withErrorHandling {m : M TlsError (HSt V) State} (h : Local m) :
    Awaits (Fut.attempt m fun r => Fut.onConn (Fut.handleProcessingError S r)) (ETls.withErrorHandling S m) := by
  intro s w r s' w' hr
  simp only [Fut.attempt, Fut.run] at hr
  have := (Awaits.handleProcessingError S (m s).1).onConn (V := V) (m s).2 w r s' w' hr
  unfold ETls.withErrorHandling
  rw [h s w]
  exact this

theorem clientHello_local (cfg : Config) (p : Provider V) : Local (clientHello S cfg p) :=
  (Local.onKs _).bind fun _ => (writeRecord_local S _).onConn.bind fun _ => (Local.modHs _).bind fun _ => Local.pure _

theorem processServerHello_local (rec : ServerRecord) : Local (processServerHello S rec : M TlsError (HSt V) State) := by
  unfold processServerHello
  split
  · refine Local.get (fun s => ?_) (fun s w => rfl)
    split
    · exact Local.fail _
    · refine (Local.modHs _).bind fun _ => ?_
      split
      · exact Local.fail _
      · exact (Local.onKs _).bind fun _ => Local.pure _
  · exact Local.fail _
  · exact Local.fail _
  · exact Local.fail _

theorem processServerVerify_local (p : Provider V) (rec : ServerRecord) : Local (processServerVerify S p rec) :=
  fun _ _ => rfl

theorem clientCert_local (p : Provider V) : Local (clientCert S p) := by
  unfold clientCert
  refine Local.get (fun s => ?_) (fun s w => rfl)
  refine (Local.modHs _).bind fun _ => ?_
  split
  · exact Local.fail _
  · exact (writeRecord_local S _).onConn.bind fun _ => Local.pure _

theorem clientCertVerify_local (p : Provider V) : Local (clientCertVerify S p) := by
  unfold clientCertVerify
  refine Local.get (fun s => ?_) (fun s w => rfl)
  split
  · exact Local.crash
  · simp only
    split
    · exact Local.fail _
    · split
      · exact Local.crash
      · split
        · exact Local.crash
        · exact (writeRecord_local S _).onConn.bind fun _ => Local.pure _
  · exact (writeRecord_local S _).onConn.bind fun _ => Local.pure _

theorem clientFinished_local : Local (clientFinished S : M TlsError (HSt V) Bytes) := by
  unfold clientFinished
  refine Local.get (fun s => ?_) (fun s w => rfl)
  exact (Local.lift _).bind fun _ => (writeRecord_local S _).onConn

theorem clientFinishedFinalize_local : Local (clientFinishedFinalize S : M TlsError (HSt V) State) := by
  unfold clientFinishedFinalize
  refine Local.get (fun s => ?_) (fun s w => rfl)
  split
  · exact Local.fail _
  · exact (Local.modHs _).bind fun _ => (Local.onKs _).bind fun _ => (Local.onKs _).bind fun _ => Local.pure _

theorem Awaits.process (cfg : Config) (p : Provider V) (st : State) :
    Awaits (Fut.process S cfg p st) (ETls.process S cfg p st) := by
  cases st with
  | clientHello =>
    simp only [Fut.process, ETls.process]
    exact (Awaits.act (clientHello_local S cfg p)).bind fun x => (Awaits.respond x.2).onConn.bind fun _ => Awaits.ret _
  | serverHello =>
    simp only [Fut.process, ETls.process]
    exact (Awaits.readRecord S).onConn.bind fun rec => Awaits.withErrorHandling S (processServerHello_local S rec)
  | serverVerify =>
    simp only [Fut.process, ETls.process]
    exact (Awaits.readRecord S).onConn.bind fun rec => Awaits.withErrorHandling S (processServerVerify_local S p rec)
  | clientCert =>
    simp only [Fut.process, ETls.process]
    exact (Awaits.act (clientCert_local S p)).bind fun x => (Awaits.respond x.2).onConn.bind fun _ => Awaits.ret _
  | clientCertVerify =>
    simp only [Fut.process, ETls.process]
    exact (Awaits.act (clientCertVerify_local S p)).bind fun x => (Awaits.respond x.2).onConn.bind fun _ => Awaits.ret _
  | clientFinished =>
    simp only [Fut.process, ETls.process]
    exact (Awaits.act (clientFinished_local S)).bind fun tx => (Awaits.respond tx).onConn.bind fun _ =>
      Awaits.act (clientFinishedFinalize_local S)
  | applicationData => exact Awaits.ret _

theorem Awaits.openLoop (cfg : Config) (p : Provider V) (fuel : Nat) : ∀ st,
    Awaits (Fut.openLoop S cfg p fuel st) (ETls.openLoop S cfg p fuel st) := by
  induction fuel with
  | zero => intro st; exact Awaits.stuck _
  | succ fuel ih =>
    intro st
    unfold Fut.openLoop ETls.openLoop
    split
    · exact Awaits.ret (.ok ())
    · exact (Awaits.process S cfg p st).bind fun st' => ih st'

theorem Fut.openLoop_more (cfg : Config) (p : Provider V) {fuel fuel' : Nat} (hf : fuel ≤ fuel') : ∀ {st : State} {s : HSt V}
    {w : Net} {x : Res TlsError Unit × HSt V × Net}, (Fut.openLoop S cfg p fuel st).run s w = some x →
    (Fut.openLoop S cfg p fuel' st).run s w = some x := by
  induction fuel generalizing fuel' with
  | zero => intro st s w x h; cases h
  | succ fuel ih =>
    obtain ⟨fuel', rfl⟩ : ∃ k, fuel' = k + 1 := ⟨fuel' - 1, by omega⟩
    intro st s w x h
    unfold Fut.openLoop at h ⊢
    split
    · next hd =>
      rw [if_pos hd] at h
      exact h
    · next hd =>
      rw [if_neg hd, Fut.run_bind] at h
      rw [Fut.run_bind]
      rcases hr : (Fut.process S cfg p st).run s w with _ | ⟨_ | _ | _, s1, w1⟩
      · rw [hr] at h; cases h
      · rw [hr] at h; exact ih (by omega) h
      · rw [hr] at h; exact h
      · rw [hr] at h; exact h

theorem setHostname_local (cfg : Config) (p : Provider V) : Local (setHostname cfg p) := by
  unfold setHostname
  cases p.verifier with
  | none => exact fun _ _ => rfl
  | some ops => cases cfg.serverName <;> exact fun _ _ => rfl

theorem Awaits.openSt (cfg : Config) (p : Provider V) (fuel : Nat) :
    Awaits (Fut.openSt S cfg p fuel) (ETls.openSt S cfg p) := by
  unfold Fut.openSt ETls.openSt
  refine (Awaits.act (setHostname_local cfg p)).bind fun _ => ?_
  have hl : Local (M.modify fun s : HSt V => { s with c := { s.c with opened := true } }) := fun _ _ => rfl
  intro s w r s' w' h
  rw [M.get_bind]
  have hx : (Host.put s w : HSt V).c.rx = w.rx := rfl
  obtain ⟨r0, s0, _, _, h3, h4⟩ := C32_open_terminates S cfg p (Host.put s w : HSt V)
  rw [hx] at h3 h4
  rw [hx]
  have hb := w.rx.bytes_le_size
  have key : Awaits (Fut.openLoop S cfg p fuel .clientHello) (ETls.openLoop S cfg p (max fuel (w.rx.size + 8)) .clientHello) :=
    fun s w r s' w' h => Awaits.openLoop S cfg p _ _ s w r s' w' (Fut.openLoop_more S cfg p (Nat.le_max_left _ _) h)
  have h5 := key.bind (fun _ => Awaits.act hl) s w r s' w' h
  have e : ETls.openLoop S cfg p (w.rx.size + 8) .clientHello (Host.put s w) =
      ETls.openLoop S cfg p (max fuel (w.rx.size + 8)) .clientHello (Host.put s w) := by
    rw [h4, h3 _ (by omega)]
  rw [M.bind_def] at h5 ⊢
  rw [e]
  exact h5

/-- Two connections that differ in the socket only, and there only in what is still to happen. -/
def Conn.Alike (c c0 : Conn) : Prop := ∃ w0, c.net.Alike w0 ∧ c0 = c.with w0

theorem Conn.Alike.refl (c : Conn) : c.Alike c := ⟨c.net, .refl _, rfl⟩

/-- However a call ends, awaiting it with a transport that fails at the right moment ends the same way. -/
theorem Call.Ends.twin (k : IoKind) {call : Call V} {c c' : Conn} {o : Option CallOut} (h : call.Ends S c o c') :
    ∀ c0', c'.Alike c0' → ∃ c0, c.Alike c0 ∧ call.run S c0 = (o.getD (call.failed k), c0') := by
  intro c0' ha
  obtain ⟨w0', ha, rfl⟩ := ha
  cases h with
  | @open_ cfg p v fuel o s' w' h =>
    obtain ⟨w0, h1, h2⟩ := h.twin k w0' ha
    have h3 := Awaits.openSt S cfg p fuel _ _ _ _ _ h2
    refine ⟨c.with w0, ⟨w0, h1, rfl⟩, ?_⟩
    have h4 : ETls.openSt S cfg p ⟨c.with w0, ⟨none, none, none, v⟩⟩ = _ := h3
    simp only [Call.run, Conn.open_, h4]
    cases o <;> rfl
  | @reader op fuel o s' w' h =>
    obtain ⟨w0, h1, h2⟩ := h.twin k w0' ha
    have h3 : onRd (op.run S) (c.with w0) = _ := Awaits.reader S fuel op _ _ _ _ _ h2
    refine ⟨c.with w0, ⟨w0, h1, rfl⟩, ?_⟩
    simp only [Call.run, h3]
    cases o <;> rfl
  | @writer op o s' w' h =>
    obtain ⟨w0, h1, h2⟩ := h.twin k w0' ha
    have h3 : onWr (op.run S) (c.with w0) = _ := Awaits.writer S op _ _ _ _ _ h2
    refine ⟨c.with w0, ⟨w0, h1, rfl⟩, ?_⟩
    simp only [Call.run, h3]
    cases o <;> rfl
  | @close o s' w' h =>
    obtain ⟨w0, h1, h2⟩ := h.twin k w0' ha
    have h3 : Conn.close S (c.with w0) = _ := Awaits.close S _ _ _ _ _ h2
    refine ⟨c.with w0, ⟨w0, h1, rfl⟩, ?_⟩
    simp only [Call.run, h3]
    cases o <;> rfl

/-- A call whose future is awaited is the function of the other files. -/
theorem Call.Ends.run {call : Call V} {c c' : Conn} {o : CallOut} (h : call.Ends S c (some o) c') :
    call.run S c = (o, c') := by
  generalize ho : some o = x at h
  cases h with
  | @open_ cfg p v fuel o s' w' h =>
    cases o with
    | none => cases ho
    | some r =>
      cases ho
      have h3 : ETls.openSt S cfg p ⟨c, ⟨none, none, none, v⟩⟩ = _ := Awaits.openSt S cfg p fuel _ _ _ _ _ (h.run r rfl)
      simp only [Call.run, Conn.open_, h3]
      rfl
  | @reader op fuel o s' w' h =>
    cases o with
    | none => cases ho
    | some r =>
      cases ho
      have h3 : onRd (op.run S) c = _ := Awaits.reader S fuel op _ _ _ _ _ (h.run r rfl)
      simp only [Call.run, h3]
      rfl
  | @writer op o s' w' h =>
    cases o with
    | none => cases ho
    | some r =>
      cases ho
      have h3 : onWr (op.run S) c = _ := Awaits.writer S op _ _ _ _ _ (h.run r rfl)
      simp only [Call.run, h3]
      rfl
  | @close o s' w' h =>
    cases o with
    | none => cases ho
    | some r =>
      cases ho
      have h3 : Conn.close S c = _ := Awaits.close S _ _ _ _ _ (h.run r rfl)
      simp only [Call.run, h3]
      rfl

/-! ## Every call can be awaited -/

/-- A future without loops whose bound could be used up. -/
def Fut.Finite {σ α : Type} (f : Fut σ α) : Prop := ∀ s w, ∃ x, f.run s w = some x

theorem Fut.Finite.bind {σ α β : Type} {f : Fut σ α} {g : α → Fut σ β} (hf : f.Finite) (hg : ∀ a, (g a).Finite) :
    (f.bind g).Finite := by
  intro s w
  rw [Fut.run_bind]
  obtain ⟨⟨_ | _ | _, s1, w1⟩, h⟩ := hf s w
  · rw [h]; exact hg _ s1 w1
  · rw [h]; exact ⟨_, rfl⟩
  · rw [h]; exact ⟨_, rfl⟩

theorem Fut.Finite.ret {σ α : Type} (r : Res TlsError α) : (Fut.ret r : Fut σ α).Finite := fun _ _ => ⟨_, rfl⟩
theorem Fut.Finite.act {σ α : Type} (m : M TlsError σ α) : (Fut.act m).Finite := fun _ _ => ⟨_, rfl⟩

theorem Fut.Finite.look {σ α : Type} {k : σ → Fut σ α} (h : ∀ s, (k s).Finite) : (Fut.look k).Finite := fun s w => h s s w

theorem Fut.Finite.attempt {σ α β : Type} {m : M TlsError σ α} {k : Res TlsError α → Fut σ β} (h : ∀ r, (k r).Finite) :
    (Fut.attempt m k).Finite := fun _ w => h _ _ w

theorem Fut.Finite.read {σ α : Type} {n : Nat} {k : Bytes → Fut σ α} (h : ∀ bs, (k bs).Finite) : (Fut.read n k).Finite := by
  intro s w
  simp only [Fut.run]
  rcases Rx.read n w.rx with ⟨_ | _ | _, rx⟩
  · exact h _ _ _
  · exact ⟨_, rfl⟩
  · exact ⟨_, rfl⟩

theorem Fut.Finite.writeAll {σ α : Type} {bs : Bytes} {k : Fut σ α} (h : k.Finite) : (Fut.writeAll bs k).Finite := by
  intro s w
  simp only [Fut.run]
  rcases Tx.writeAll bs w.tx with ⟨_ | _ | _, tx⟩
  · exact h _ _
  · exact ⟨_, rfl⟩
  · exact ⟨_, rfl⟩

theorem Fut.Finite.flush {σ α : Type} {k : Fut σ α} (h : k.Finite) : (Fut.flush k).Finite := by
  intro s w
  simp only [Fut.run]
  rcases Tx.flush w.tx with ⟨_ | _ | _, tx⟩
  · exact h _ _
  · exact ⟨_, rfl⟩
  · exact ⟨_, rfl⟩

theorem Fut.Finite.onConn {α : Type} {f : Fut Conn α} (h : f.Finite) : (Fut.onConn f : Fut (HSt V) α).Finite := by
  intro s w
  rw [Fut.onConn_run]
  obtain ⟨x, hx⟩ := h s.c w
  rw [hx]
  exact ⟨_, rfl⟩

theorem Fut.headerLoop_finite (fuel : Nat) : ∀ acc, (Fut.headerLoop fuel acc).Finite := by
  induction fuel with
  | zero => intro acc; exact .ret _
  | succ fuel ih =>
    intro acc
    unfold Fut.headerLoop
    split
    · exact .ret _
    · refine .read fun bs => ?_
      split
      · exact .ret _
      · exact ih _

theorem Fut.advanceLoop_finite (amount fuel : Nat) : ∀ remain, (Fut.advanceLoop amount fuel remain).Finite := by
  induction fuel with
  | zero => intro acc; exact .ret _
  | succ fuel ih =>
    intro remain
    unfold Fut.advanceLoop
    refine .look fun c => ?_
    split
    · split
      · exact .ret _
      · refine .read fun bs => ?_
        split
        · exact .ret _
        · exact fun s w => ih _ _ w
    · exact .ret _

theorem Fut.readRecord_finite : (Fut.readRecord S).Finite :=
  .bind (.bind (Fut.headerLoop_finite _ _) fun _ => .ret _) fun _ =>
    .bind (.bind (.act _) fun _ => Fut.advanceLoop_finite _ _ _) fun _ => .act _

theorem Fut.readApplicationData_finite : (Fut.readApplicationData S).Finite :=
  .bind (Fut.readRecord_finite S) fun _ => .act _

theorem Fut.fillLoop_finishes (fuel : Nat) : ∀ (s : Conn) (w : Net), w.rx.bytes.length + 2 ≤ fuel →
    ∃ x, (Fut.fillLoop S fuel).run s w = some x := by
  induction fuel with
  | zero => intro s w h; omega
  | succ fuel ih =>
    intro s w h
    unfold Fut.fillLoop
    simp only [Fut.look, Fut.run, id]
    split
    · rw [Fut.run_bind]
      obtain ⟨⟨r, s1, w1⟩, hr⟩ := Fut.readApplicationData_finite S s w
      rw [hr]
      cases r with
      | ok u =>
        have ha := Awaits.readApplicationData S s w _ s1 w1 hr
        have ht : RdHalf.readApplicationData S (Host.put s w : Conn).rd = (.ok (), (Host.put s1 w1 : Conn).rd) := by
          rcases hx : RdHalf.readApplicationData S (Host.put s w : Conn).rd with ⟨r, x⟩
          simp only [onRd, hx, Prod.mk.injEq] at ha
          obtain ⟨rfl, ha⟩ := ha
          rw [← ha]
          rfl
        have := readApp_takes S _ _ ht
        have e1 : (Host.put s w : Conn).rd.rx = w.rx := rfl
        have e2 : (Host.put s1 w1 : Conn).rd.rx = w1.rx := rfl
        rw [e1, e2] at this
        exact ih s1 w1 (by omega)
      | err e => exact ⟨_, rfl⟩
      | panic => exact ⟨_, rfl⟩
    · exact ⟨_, rfl⟩

theorem Fut.fill_finishes {α : Type} (f : Unit → Fut Conn α) (hf : ∀ a, (f a).Finite) (s : Conn) (w : Net) :
    ∃ x, ((Fut.fill S (w.rx.bytes.length + 2)).bind f).run s w = some x := by
  rw [Fut.run_bind]
  have : ∃ x, (Fut.fill S (w.rx.bytes.length + 2)).run s w = some x := by
    unfold Fut.fill Fut.look
    simp only [Fut.run, id]
    split
    · exact Fut.fillLoop_finishes S _ s w (Nat.le_refl _)
    · exact ⟨_, rfl⟩
  obtain ⟨⟨_ | _ | _, s1, w1⟩, h⟩ := this
  · rw [h]; exact hf _ _ _
  · rw [h]; exact ⟨_, rfl⟩
  · rw [h]; exact ⟨_, rfl⟩

theorem Fut.reader_finishes (op : ROp) (s : Conn) (w : Net) :
    ∃ x, (Fut.reader S (w.rx.bytes.length + 2) op).run s w = some x := by
  cases op with
  | read n =>
    simp only [Fut.reader]
    split
    · exact ⟨_, rfl⟩
    · exact Fut.fill_finishes S _ (fun _ => .act _) s w
  | fillBuf => exact Fut.fill_finishes S _ (fun _ => .act _) s w
  | consume n => exact Fut.Finite.act _ s w
  | buffered ops rv => exact Fut.fill_finishes S _ (fun _ => .act _) s w

theorem Fut.flushRecord_finite : (Fut.flushRecord S).Finite := by
  refine .look fun c => ?_
  split
  · exact .ret _
  · refine .bind (.act _) fun _ => .writeAll (.bind (.act _) fun _ => ?_)
    unfold Fut.flushTransport
    split
    · exact .flush (.ret _)
    · exact .ret _

theorem Fut.writer_finite (op : WOp) : (Fut.writer S op).Finite := by
  cases op with
  | write bs =>
    refine .look fun c => ?_
    split
    · refine .bind (.look fun c => ?_) fun _ => .bind (.act _) fun _ => .bind (.act _) fun full => .bind ?_ fun _ => .ret _
      · split
        · exact .ret _
        · exact .bind (Fut.flushRecord_finite S) fun _ => .act _
      · split
        · exact Fut.flushRecord_finite S
        · exact .ret _
    · exact .ret _
  | flush => exact .bind (Fut.flushRecord_finite S) fun _ => .ret _
  | setFlushPolicy fp => exact .bind (.act _) fun _ => .ret _

theorem Fut.respond_finite (tx : Bytes) : (Fut.respond tx).Finite := .writeAll (.bind (.act _) fun _ => .flush (.ret _))

theorem Fut.close_finite : (Fut.close S).Finite :=
  .bind (Fut.flushRecord_finite S) fun _ => .look fun _ => .bind (.act _) fun _ => Fut.respond_finite _

theorem Fut.handleProcessingError_finite (r : Res TlsError State) : (Fut.handleProcessingError S r).Finite := by
  unfold Fut.handleProcessingError
  split
  · exact .bind (.act _) fun _ => .bind (Fut.respond_finite _) fun _ => .ret _
  · exact .ret _

theorem Fut.process_finite (cfg : Config) (p : Provider V) (st : State) : (Fut.process S cfg p st).Finite := by
  cases st with
  | clientHello => exact .bind (.act _) fun _ => .bind (Fut.respond_finite _).onConn fun _ => .ret _
  | serverHello => exact .bind (Fut.readRecord_finite S).onConn fun _ => .attempt fun _ => (Fut.handleProcessingError_finite S _).onConn
  | serverVerify => exact .bind (Fut.readRecord_finite S).onConn fun _ => .attempt fun _ => (Fut.handleProcessingError_finite S _).onConn
  | clientCert => exact .bind (.act _) fun _ => .bind (Fut.respond_finite _).onConn fun _ => .ret _
  | clientCertVerify => exact .bind (.act _) fun _ => .bind (Fut.respond_finite _).onConn fun _ => .ret _
  | clientFinished => exact .bind (.act _) fun _ => .bind (Fut.respond_finite _).onConn fun _ => .act _
  | applicationData => exact .ret _

theorem Fut.openLoop_finishes (cfg : Config) (p : Provider V) (fuel : Nat) : ∀ (st : State) (s : HSt V) (w : Net),
    7 + w.rx.bytes.length / 5 ≤ fuel + st.rank → ∃ x, (Fut.openLoop S cfg p fuel st).run s w = some x := by
  induction fuel with
  | zero => intro st s w h; have := st.rank_le; omega
  | succ fuel ih =>
    intro st s w h
    unfold Fut.openLoop
    by_cases hst : st = .applicationData
    · rw [if_pos hst]; exact ⟨_, rfl⟩
    · rw [if_neg hst, Fut.run_bind]
      obtain ⟨⟨r, s1, w1⟩, hr⟩ := Fut.process_finite S cfg p st s w
      rw [hr]
      cases r with
      | ok st1 =>
        have ha := Awaits.process S cfg p st s w _ s1 w1 hr
        refine ih st1 s1 w1 ?_
        have e1 : (Host.put s w : HSt V).c.rx = w.rx := rfl
        have e2 : (Host.put s1 w1 : HSt V).c.rx = w1.rx := rfl
        rcases C32_step S cfg p _ _ _ _ hst ha with ⟨h1, h2⟩ | ⟨rfl, rfl, h2, h3⟩
        · rw [e1, e2] at h2
          have := h2.length_le
          have := Nat.div_le_div_right (c := 5) this
          omega
        · rw [e1, e2] at h3
          omega
      | err e => exact ⟨_, rfl⟩
      | panic => exact ⟨_, rfl⟩

/-- Awaiting a call is one of the ways it can end. -/
theorem Call.can_await (call : Call V) (c : Conn) : call.Ends S c (some (call.run S c).1) (call.run S c).2 := by
  have key : ∀ {o c'}, call.Ends S c (some o) c' → call.Ends S c (some (call.run S c).1) (call.run S c).2 := by
    intro o c' h
    rw [h.run S]
    exact h
  cases call with
  | open_ cfg p v =>
    have : ∃ x, (Fut.openSt S cfg p (7 + c.net.rx.bytes.length / 5)).run ⟨c, ⟨none, none, none, v⟩⟩ c.net = some x := by
      unfold Fut.openSt
      rw [Fut.run_bind]
      rcases hr : (setHostname cfg p ⟨c, ⟨none, none, none, v⟩⟩) with ⟨_ | _ | _, s1⟩
      · simp only [Fut.act, Fut.run, hr]
        rw [Fut.run_bind]
        obtain ⟨⟨_ | _ | _, s2, w2⟩, h2⟩ := Fut.openLoop_finishes S cfg p (7 + c.net.rx.bytes.length / 5) .clientHello s1 c.net
          (by simp only [State.rank]; omega)
        · rw [h2]; exact ⟨_, rfl⟩
        · rw [h2]; exact ⟨_, rfl⟩
        · rw [h2]; exact ⟨_, rfl⟩
      · simp only [Fut.act, Fut.run, hr]; exact ⟨_, rfl⟩
      · simp only [Fut.act, Fut.run, hr]; exact ⟨_, rfl⟩
    obtain ⟨⟨r, s', w'⟩, hx⟩ := this
    exact key (Call.Ends.open_ (o := some r) (Fut.run_ends hx))
  | reader op =>
    obtain ⟨⟨r, s', w'⟩, hx⟩ := Fut.reader_finishes S op c c.net
    exact key (Call.Ends.reader (o := some r) (Fut.run_ends hx))
  | writer op =>
    obtain ⟨⟨r, s', w'⟩, hx⟩ := Fut.writer_finite S op c c.net
    exact key (Call.Ends.writer (o := some r) (Fut.run_ends hx))
  | close =>
    obtain ⟨⟨r, s', w'⟩, hx⟩ := Fut.close_finite S c c.net
    exact key (Call.Ends.close (o := some r) (Fut.run_ends hx))

end ETls
