import Verif.Model.Concurrent
import Verif.Props.Split

/-! # Lemmas about calls as sequences of steps -/

namespace ETls

variable (S : Suite)

namespace Prog

variable {σ α β : Type}

/-- Only local steps are left. -/
def NoFlag : Prog σ α → Prop
  | .ret _ => True
  | .step _ n => ∀ s, (n s).NoFlag
  | .load _ => False
  | .store _ _ => False

/-- If the flag is `b` and nobody else changes it, it is changed at most once, and not accessed after that. -/
def Good (b : Bool) : Prog σ α → Prop
  | .ret _ => True
  | .step _ n => ∀ s, (n s).Good b
  | .load k => (k b).Good b
  | .store b' k => (b' = b ∧ k.Good b) ∨ (b' ≠ b ∧ k.NoFlag)

/-- The flag is loaded at most once and never stored. -/
def Once : Prog σ α → Prop
  | .ret _ => True
  | .step _ n => ∀ s, (n s).Once
  | .load k => ∀ b, (k b).NoFlag
  | .store _ _ => False

theorem NoFlag.good (b : Bool) : ∀ {p : Prog σ α}, p.NoFlag → p.Good b
  | .ret _, _ => trivial
  | .step _ _, h => fun s => NoFlag.good b (h s)
  | .load _, h => h.elim
  | .store _ _, h => h.elim

theorem NoFlag.once : ∀ {p : Prog σ α}, p.NoFlag → p.Once
  | .ret _, _ => trivial
  | .step _ _, h => fun s => NoFlag.once (h s)
  | .load _, h => h.elim
  | .store _ _, h => h.elim

theorem NoFlag.bind : ∀ {p : Prog σ α} {f : α → Prog σ β}, p.NoFlag → (∀ a, (f a).NoFlag) → (p.bind f).NoFlag
  | .ret (.ok a), _, _, hf => hf a
  | .ret (.err _), _, _, _ => trivial
  | .ret .panic, _, _, _ => trivial
  | .step _ _, _, h, hf => fun s => NoFlag.bind (h s) hf
  | .load _, _, h, _ => h.elim
  | .store _ _, _, h, _ => h.elim

theorem bind_assoc {γ : Type} : ∀ (p : Prog σ α) (f : α → Prog σ β) (g : β → Prog σ γ),
    (p.bind f).bind g = p.bind fun a => (f a).bind g
  | .ret (.ok _), _, _ => rfl
  | .ret (.err _), _, _ => rfl
  | .ret .panic, _, _ => rfl
  | .step u n, f, g => by
    simp only [Prog.bind]
    congr 1
    funext s
    exact bind_assoc (n s) f g
  | .load k, f, g => by
    simp only [Prog.bind]
    congr 1
    funext b
    exact bind_assoc (k b) f g
  | .store b k, f, g => by
    simp only [Prog.bind]
    rw [bind_assoc k f g]

theorem act_noFlag (m : M TlsError σ α) : (act m).NoFlag := fun _ => trivial

/-- Without accesses to the flag, its value does not matter. -/
theorem NoFlag.run : ∀ {p : Prog σ α}, p.NoFlag → ∀ (s : σ) (b b' : Bool),
    p.run s b = ((p.run s b').1, (p.run s b').2.1, b)
  | .ret _, _, _, _, _ => rfl
  | .step u _, h, s, b, b' => NoFlag.run (h s) (u s) b b'
  | .load _, h, _, _, _ => h.elim
  | .store _ _, h, _, _, _ => h.elim

theorem run_bind : ∀ (p : Prog σ α) (f : α → Prog σ β) (s : σ) (b : Bool),
    (p.bind f).run s b = match p.run s b with
      | (.ok a, s', b') => (f a).run s' b'
      | (.err e, s', b') => (.err e, s', b')
      | (.panic, s', b') => (.panic, s', b')
  | .ret (.ok _), _, _, _ => rfl
  | .ret (.err _), _, _, _ => rfl
  | .ret .panic, _, _, _ => rfl
  | .step u n, f, s, b => run_bind (n s) f (u s) b
  | .load k, f, s, b => run_bind (k b) f s b
  | .store b' k, f, s, _ => run_bind k f s b'

theorem Good.noFlag_bind {b : Bool} {f : α → Prog σ β} (hf : ∀ a, (f a).Good b) :
    ∀ {p : Prog σ α}, p.NoFlag → (p.bind f).Good b
  | .ret (.ok a), _ => hf a
  | .ret (.err _), _ => trivial
  | .ret .panic, _ => trivial
  | .step _ _, h => fun s => Good.noFlag_bind hf (h s)
  | .load _, h => h.elim
  | .store _ _, h => h.elim

end Prog

/-- A call, run alone, as a function on the half with the flag in it. -/
def RMatches {α : Type} (p : Prog RdLoc α) (m : M TlsError RdHalf α) : Prop :=
  ∀ l b, p.run l b = ((m (l.half b)).1, (m (l.half b)).2.loc, (m (l.half b)).2.opened)

theorem RdHalf.loc_half (h : RdHalf) : h.loc.half h.opened = h := rfl
theorem WrHalf.loc_half (w : WrHalf) : w.loc.half w.opened = w := rfl

theorem RMatches.bind {α β : Type} {p : Prog RdLoc α} {m : M TlsError RdHalf α} {f : α → Prog RdLoc β}
    {g : α → M TlsError RdHalf β} (hp : RMatches p m) (hf : ∀ a, RMatches (f a) (g a)) :
    RMatches (p.bind f) (m >>= g) := by
  intro l b
  rw [Prog.run_bind, hp l b]
  rcases hr : m (l.half b) with ⟨r, h⟩
  cases r with
  | ok a =>
    rw [M.bind_ok hr]
    simp only
    rw [hf a, RdHalf.loc_half]
  | err e => rw [M.bind_err hr]
  | panic => rw [M.bind_panic hr]

/-- Code that neither reads nor writes the flag. -/
def Ignores {α : Type} (m : M TlsError RdHalf α) : Prop :=
  ∀ l b, m (RdLoc.half l b) = ((m (l.half false)).1, (m (l.half false)).2.loc.half b)

theorem Ignores.rmatches {α : Type} {m : M TlsError RdHalf α} (h : Ignores m) : RMatches (Prog.act (rdOwn m)) m := by
  intro l b
  rw [h l b]
  rfl

theorem readRecord_ignores : Ignores (RdHalf.readRecord S) := fun _ _ => rfl

theorem useBuffer_ignores (ops : List RBufOp) (rv : Bool) : Ignores (RdHalf.useBuffer ops rv) := by
  intro l b
  have ha : ∃ r, ∀ b, RdHalf.available (l.half b) = (r, l.half b) := by
    by_cases h : l.dec.offset + l.dec.consumed ≤ l.dec.offset + l.dec.len ∧ l.dec.offset + l.dec.len ≤ l.rr.buf.length
    · refine ⟨.ok ((l.rr.buf.drop (l.dec.offset + l.dec.consumed)).take
        (l.dec.offset + l.dec.len - (l.dec.offset + l.dec.consumed))), fun b => ?_⟩
      unfold RdHalf.available RdLoc.half
      simp only
      rw [if_pos h]
    · refine ⟨.panic, fun b => ?_⟩
      unfold RdHalf.available RdLoc.half
      simp only
      rw [if_neg h]
  obtain ⟨r, ha⟩ := ha
  unfold RdHalf.useBuffer
  rw [ha, ha]
  cases r with
  | ok d =>
    simp only
    rcases RBuf.runOps ops (RBuf.new d) with ⟨_ | _ | _, _⟩ <;> rfl
  | err e => rfl
  | panic => rfl

theorem readApp_matches : RMatches (RdLoc.readApplicationData S) (RdHalf.readApplicationData S) := by
  unfold RdLoc.readApplicationData RdHalf.readApplicationData
  refine RMatches.bind (readRecord_ignores S).rmatches fun rec => ?_
  intro l b
  rcases hd : RdHalf.decrypt S rec (l.half b) with ⟨r, h⟩
  simp only [Prog.run, Prog.act, Prog.attempt, Prog.bind, onRdLoc, hd, RdLoc.finish]
  cases ho : h.opened with
  | true =>
    have hb : b = true := by
      have := decrypt_never S rec (l.half b)
      rw [hd] at this
      exact this ho
    simp [Prog.run, hb]
  | false => simp [Prog.run]

theorem fillLoop_matches (fuel : Nat) : RMatches (RdLoc.fillLoop S fuel) (RdHalf.fillLoop S fuel) := by
  induction fuel with
  | zero => exact fun _ _ => rfl
  | succ fuel ih =>
    intro l b
    have h := RMatches.bind (readApp_matches S) (fun _ : Unit => ih) l b
    unfold RdLoc.fillLoop RdHalf.fillLoop
    rw [M.get_bind]
    simp only [Prog.run, id]
    by_cases hd : l.dec.isEmpty
    · have hd' : (l.half b).dec.isEmpty = true := hd
      rw [if_pos hd, if_pos hd']
      exact h
    · have hd' : ¬ (l.half b).dec.isEmpty = true := hd
      rw [if_neg hd, if_neg hd']
      rfl

theorem fill_matches : RMatches (RdLoc.fill S) (RdHalf.fill S) := by
  intro l b
  unfold RdLoc.fill RdHalf.fill
  rw [M.get_bind]
  cases b with
  | true => exact fillLoop_matches S (l.rx.size + 2) l true
  | false => rfl

/-- A reading call alone is the sequential model of it. -/
theorem ROp.prog_matches (op : ROp) : RMatches (op.prog S) (op.run S) := by
  cases op with
  | read n =>
    simp only [ROp.prog, ROp.run]
    split
    · exact fun _ _ => rfl
    · exact (fill_matches S).bind fun _ => (useBuffer_ignores _ _).rmatches
  | fillBuf => exact (fill_matches S).bind fun _ => (useBuffer_ignores _ _).rmatches
  | consume n => exact (useBuffer_ignores _ _).rmatches
  | buffered ops rv => exact (fill_matches S).bind fun _ => (useBuffer_ignores _ _).rmatches

/-- The same for the writing half. -/
def WMatches {α : Type} (p : Prog WrLoc α) (m : M TlsError WrHalf α) : Prop :=
  ∀ l b, p.run l b = ((m (l.half b)).1, (m (l.half b)).2.loc, b)

/-- Code of the writing half that neither reads nor writes the flag. -/
def WIgnores {α : Type} (m : M TlsError WrHalf α) : Prop :=
  ∀ l b, m (WrLoc.half l b) = ((m (l.half false)).1, (m (l.half false)).2.loc.half b)

theorem WIgnores.bind {α β : Type} {m : M TlsError WrHalf α} {g : α → M TlsError WrHalf β} (hm : WIgnores m)
    (hg : ∀ a, WIgnores (g a)) : WIgnores (m >>= g) := by
  intro l b
  rcases hr : m (l.half false) with ⟨r, h⟩
  have hb := hm l b
  have hb0 := hm l false
  rw [hr] at hb hb0
  have hh : h = h.loc.half false := congrArg Prod.snd hb0
  cases r with
  | ok a =>
    rw [M.bind_ok hb, M.bind_ok hr]
    have := hg a h.loc b
    rw [← hh] at this
    exact this
  | err e => rw [M.bind_err hb, M.bind_err hr]
  | panic => rw [M.bind_panic hb, M.bind_panic hr]

theorem WIgnores.onWb {α : Type} (m : M TlsError WB α) : WIgnores (WrHalf.onWb m) := fun _ _ => rfl
theorem WIgnores.onTx {α : Type} (m : M TlsError Tx α) : WIgnores (WrHalf.onTx m) := fun _ _ => rfl

theorem WIgnores.pure {α : Type} (a : α) : WIgnores (Pure.pure a : M TlsError WrHalf α) := fun _ _ => rfl

theorem wflush_ignores : WIgnores (WrHalf.flush S) := by
  intro l b
  unfold WrHalf.flush
  rw [M.get_bind, M.get_bind]
  by_cases he : l.wb.isEmpty
  · have e1 : (l.half b).wb.isEmpty = true := he
    have e2 : (l.half false).wb.isEmpty = true := he
    rw [if_pos e1, if_pos e2]
    rfl
  · have e1 : ¬ (l.half b).wb.isEmpty = true := he
    have e2 : ¬ (l.half false).wb.isEmpty = true := he
    rw [if_neg e1, if_neg e2]
    have h : ∀ (k : WriteKS) (f : Bool), WIgnores (do
        let slice ← WrHalf.onWb (WB.closeRecord S k)
        WrHalf.onTx (Tx.writeAll slice)
        WrHalf.increment
        if f then WrHalf.onTx Tx.flush else return ()) := fun k f =>
      WIgnores.bind (.onWb _) fun _ => WIgnores.bind (.onTx _) fun _ => WIgnores.bind (fun _ _ => rfl) fun _ => by
        cases f
        · exact WIgnores.pure _
        · exact WIgnores.onTx Tx.flush
    exact h l.wks l.fp.flushTransport l b

theorem ensure_ignores : WIgnores (WrHalf.ensureRecord S) := by
  intro l b
  unfold WrHalf.ensureRecord
  rw [M.get_bind, M.get_bind]
  by_cases he : l.wb.contains .applicationData
  · have e1 : (l.half b).wb.contains .applicationData = true := he
    have e2 : (l.half false).wb.contains .applicationData = true := he
    rw [if_pos e1, if_pos e2]
    rfl
  · have e1 : ¬ (l.half b).wb.contains .applicationData = true := he
    have e2 : ¬ (l.half false).wb.contains .applicationData = true := he
    rw [if_neg e1, if_neg e2]
    exact WIgnores.bind (wflush_ignores S) (fun _ => .onWb _) l b

theorem flushIf_ignores (full : Bool) : WIgnores (WrHalf.flushIf S full) := by
  cases full
  · exact .pure _
  · exact wflush_ignores S

theorem WIgnores.act {α β : Type} {m : M TlsError WrHalf α} (h : WIgnores m) {f : α → Prog WrLoc β}
    {g : α → M TlsError WrHalf β} (hf : ∀ a, WMatches (f a) (g a)) :
    WMatches ((Prog.act (wrOwn m)).bind f) (m >>= g) := by
  intro l b
  rw [Prog.run_bind]
  have hb := h l b
  rcases hr : m (l.half false) with ⟨r, w⟩
  rw [hr] at hb
  simp only [Prog.run, Prog.act, Prog.attempt, wrOwn, hr]
  cases r with
  | ok a =>
    rw [M.bind_ok hb]
    exact hf a w.loc b
  | err e => rw [M.bind_err hb]; rfl
  | panic => rw [M.bind_panic hb]; rfl

/-- A writing call alone is the sequential model of it. -/
theorem WOp.prog_matches (op : WOp) : WMatches (op.prog S) (op.run S) := by
  cases op with
  | write bs =>
    intro l b
    simp only [WOp.prog, WOp.run, WrHalf.write]
    rw [M.get_bind]
    cases b with
    | true =>
      exact (ensure_ignores S).act (fun _ => (WIgnores.onWb _).act fun _ => (WIgnores.onWb _).act fun _ =>
        (flushIf_ignores S _).act fun _ => fun _ _ => rfl) l true
    | false => rfl
  | flush => exact (wflush_ignores S).act fun _ => fun _ _ => rfl
  | setFlushPolicy p => exact WIgnores.act (fun _ _ => rfl) fun _ => fun _ _ => rfl

/-- The open flag is cleared only together with an error. -/
def ClosesErr {σ α : Type} (o : σ → Bool) (m : M TlsError σ α) : Prop :=
  ∀ s a s', o s = true → m s = (.ok a, s') → o s' = true

theorem readHandler_closes (n : Nat) (rec : ServerRecord) : ClosesErr flagOf (readHandler n rec) := by
  intro ⟨k, d, o⟩ a s' ho h
  cases rec with
  | appData hdr start data =>
    simp only [readHandler] at h
    split at h
    · cases h; exact ho
    · cases h
  | alert a =>
    simp only [readHandler] at h
    split at h <;> cases h
  | changeCipherSpec => cases h
  | handshake m => cases m <;> first | (cases h; exact ho) | cases h

theorem dispatch_closes (n : Nat) (hdr : Bytes) (start : Nat) (pt : Bytes) :
    ClosesErr flagOf (dispatchInner S (readHandler n) hdr start pt) := by
  intro ⟨k, d, o⟩ a s' ho h
  have hc := dispatch_cases S n start hdr pt k d o
  rw [h] at hc
  cases hc with
  | data => exact ho
  | tickets => exact ho

theorem decrypt_closes (rec : ServerRecord) : ClosesErr RdHalf.opened (RdHalf.decrypt S rec) := by
  intro h a h' ho he
  unfold RdHalf.decrypt decryptRecord at he
  cases rec with
  | appData hdr start data =>
    simp only at he
    split at he
    · cases he
    · next pt _ =>
      have h1 := dispatch_closes S h.rr.buf.length hdr start pt (h.rks, (h.dec, h.opened))
      rcases hr : dispatchInner S (readHandler h.rr.buf.length) hdr start pt (h.rks, (h.dec, h.opened)) with ⟨r, k, d, o⟩
      rw [hr] at he h1
      cases r with
      | ok u =>
        have : o = h'.opened := congrArg (fun x => x.2.opened) he
        rw [← this]
        exact h1 u _ ho rfl
      | err e => cases he
      | panic => cases he
  | alert al =>
    have h1 := readHandler_closes h.rr.buf.length (.alert al) (h.rks, (h.dec, h.opened))
    simp only at he
    rcases hr : readHandler h.rr.buf.length (.alert al) (h.rks, (h.dec, h.opened)) with ⟨r, k, d, o⟩
    rw [hr] at he h1
    cases he; exact h1 _ _ ho rfl
  | changeCipherSpec => cases he
  | handshake m =>
    have h1 := readHandler_closes h.rr.buf.length (.handshake m) (h.rks, (h.dec, h.opened))
    simp only at he
    rcases hr : readHandler h.rr.buf.length (.handshake m) (h.rks, (h.dec, h.opened)) with ⟨r, k, d, o⟩
    rw [hr] at he h1
    cases he; exact h1 _ _ ho rfl

theorem readApp_good {β : Type} (b : Bool) (f : Unit → Prog RdLoc β) (hf : ∀ a, (f a).Good b) :
    ((RdLoc.readApplicationData S).bind f).Good b := by
  intro l
  show (Prog.bind (Prog.bind (.ret _) _) f).Good b
  cases (rdOwn (RdHalf.readRecord S) l).1 with
  | err e => trivial
  | panic => trivial
  | ok rec =>
    intro l'
    show (Prog.bind (RdLoc.finish _) f).Good b
    have hc := decrypt_closes S rec (l'.half b)
    rcases hd : RdHalf.decrypt S rec (l'.half b) with ⟨r, h'⟩
    rw [hd] at hc
    have hn := decrypt_never S rec (l'.half b)
    rw [hd] at hn
    unfold RdLoc.finish
    simp only
    cases ho : h'.opened with
    | true =>
      rw [if_pos rfl]
      cases r with
      | ok a => exact hf a
      | err e => trivial
      | panic => trivial
    | false =>
      rw [if_neg (by simp)]
      cases b with
      | false =>
        refine .inl ⟨rfl, ?_⟩
        cases r with
        | ok a => exact hf a
        | err e => trivial
        | panic => trivial
      | true =>
        refine .inr ⟨by simp, ?_⟩
        cases r with
        | ok a => have := hc a h' rfl rfl; rw [ho] at this; cases this
        | err e => trivial
        | panic => trivial

theorem fillLoop_good {β : Type} (b : Bool) (f : Unit → Prog RdLoc β) (hf : ∀ a, (f a).Good b) (fuel : Nat) :
    ((RdLoc.fillLoop S fuel).bind f).Good b := by
  induction fuel with
  | zero => trivial
  | succ fuel ih =>
    intro l
    simp only
    split
    · have hassoc : ((RdLoc.readApplicationData S).bind fun _ => RdLoc.fillLoop S fuel).bind f =
          (RdLoc.readApplicationData S).bind fun _ => (RdLoc.fillLoop S fuel).bind f := Prog.bind_assoc _ _ _
      rw [hassoc]
      exact readApp_good S b _ fun _ => ih
    · exact hf ()

theorem fill_good {β : Type} (b : Bool) (f : Unit → Prog RdLoc β) (hf : ∀ a, (f a).Good b) :
    ((RdLoc.fill S).bind f).Good b := by
  cases b with
  | true => exact fun l => fillLoop_good S true f hf _
  | false => trivial

theorem ROp.prog_good (b : Bool) (op : ROp) : (op.prog S).Good b := by
  cases op with
  | read n =>
    simp only [ROp.prog]
    split
    · trivial
    · exact fill_good S b _ fun _ => (Prog.act_noFlag _).good b
  | fillBuf => exact fill_good S b _ fun _ => (Prog.act_noFlag _).good b
  | consume n => exact (Prog.act_noFlag _).good b
  | buffered ops rv => exact fill_good S b _ fun _ => (Prog.act_noFlag _).good b

theorem WOp.prog_once (op : WOp) : (op.prog S).Once := by
  cases op with
  | write bs =>
    intro b
    simp only
    cases b with
    | true =>
      exact (Prog.act_noFlag _).bind fun _ => (Prog.act_noFlag _).bind fun _ => (Prog.act_noFlag _).bind fun _ =>
        (Prog.act_noFlag _).bind fun _ => trivial
    | false => trivial
  | flush => exact fun _ => Prog.NoFlag.once (Prog.NoFlag.bind (p := .ret _) trivial fun _ => trivial)
  | setFlushPolicy p => exact fun _ => Prog.NoFlag.once (Prog.NoFlag.bind (p := .ret _) trivial fun _ => trivial)

end ETls
