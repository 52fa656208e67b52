import Verif.Proofs.Concurrent

/-! # C96: the two halves running at the same time

However the steps of a reader and of a writer interleave, the calls behave as if each of them had happened in one
piece at some moment between its beginning and its return. -/

namespace ETls

variable (S : Suite)

/-! ## The order of the calls

A writing call takes effect where it loads the flag (where it returns, if it does not), a reading call where it clears
the flag (where it returns, if it does not). -/

/-- The calls that have taken effect, in order, and those begun that have not. -/
structure CallOrder where
  log : List AnyOp
  rop : Option ROp
  wop : Option WOp

/-- The current reading call takes effect. -/
def CallOrder.emitR (g : CallOrder) : CallOrder :=
  match g.rop with
  | some op => { g with log := g.log ++ [.reader op], rop := none }
  | none => g

/-- The current writing call takes effect. -/
def CallOrder.emitW (g : CallOrder) : CallOrder :=
  match g.wop with
  | some op => { g with log := g.log ++ [.writer op], wop := none }
  | none => g

/-- What a step does to the order. -/
def CallOrder.step (x : Sys) (g : CallOrder) : Who → CallOrder
  | .reader =>
    match x.rd.cur with
    | none =>
      match x.rd.todo with
      | [] => g
      | op :: _ => { g with rop := some op }
    | some (.ret _) => g.emitR
    | some (.step _ _) => g
    | some (.load _) => g
    | some (.store b _) => if b = x.flag then g else g.emitR
  | .writer =>
    match x.wr.cur with
    | none =>
      match x.wr.todo with
      | [] => g
      | op :: _ => { g with wop := some op }
    | some (.ret _) => g.emitW
    | some (.step _ _) => g
    | some (.load _) => g.emitW
    | some (.store _ _) => g

/-- What a schedule does to the order. -/
def CallOrder.run : Sys → CallOrder → List Who → CallOrder
  | _, g, [] => g
  | x, g, w :: sched => CallOrder.run (x.step S w) (g.step x w) sched

/-- The order in which the calls take effect. -/
def linearize (c : Conn) (rs : List ROp) (ws : List WOp) (sched : List Who) : List AnyOp :=
  (CallOrder.run S (Sys.split c rs ws) ⟨[], none, none⟩ sched).log

/-! ## The invariant -/

/-- Where a reading task is, when the calls that have taken effect have returned `outs` and left `cs`. -/
inductive RdAt (cs : Conn) (outs : List (Res TlsError ROut)) (t : Task ROp RdLoc ROut) : Option ROp → Prop where
  | idle (h1 : t.cur = none) (h2 : t.outs = outs) (h3 : t.loc = cs.rd.loc) : RdAt cs outs t none
  | before (op : ROp) (p : Prog RdLoc ROut) (h1 : t.cur = some p) (h2 : t.outs = outs) (h3 : p.Good cs.opened)
      (h4 : p.run t.loc cs.opened = (op.prog S).run cs.rd.loc cs.opened) : RdAt cs outs t (some op)
  | after (p : Prog RdLoc ROut) (r : Res TlsError ROut) (h1 : t.cur = some p) (h2 : t.outs ++ [r] = outs)
      (h3 : p.NoFlag) (h4 : ∀ b, p.run t.loc b = (r, cs.rd.loc, b)) : RdAt cs outs t none

/-- The same for a writing task. -/
inductive WrAt (cs : Conn) (outs : List (Res TlsError Nat)) (t : Task WOp WrLoc Nat) : Option WOp → Prop where
  | idle (h1 : t.cur = none) (h2 : t.outs = outs) (h3 : t.loc = cs.wr.loc) : WrAt cs outs t none
  | before (op : WOp) (p : Prog WrLoc Nat) (h1 : t.cur = some p) (h2 : t.outs = outs) (h3 : p.Once)
      (h4 : ∀ b, p.run t.loc b = (op.prog S).run cs.wr.loc b) : WrAt cs outs t (some op)
  | after (p : Prog WrLoc Nat) (r : Res TlsError Nat) (h1 : t.cur = some p) (h2 : t.outs ++ [r] = outs)
      (h3 : p.NoFlag) (h4 : ∀ b, p.run t.loc b = (r, cs.wr.loc, b)) : WrAt cs outs t none

structure Linear (c : Conn) (rs : List ROp) (ws : List WOp) (x : Sys) (g : CallOrder) : Prop where
  flag : x.flag = (runAny S g.log c).2.opened
  rd : RdAt S (runAny S g.log c).2 (readerOuts (runAny S g.log c).1) x.rd g.rop
  wr : WrAt S (runAny S g.log c).2 (writerOuts (runAny S g.log c).1) x.wr g.wop
  rops : readerOps g.log ++ g.rop.toList ++ x.rd.todo = rs
  wops : writerOps g.log ++ g.wop.toList ++ x.wr.todo = ws

theorem runAny_snoc (op : AnyOp) (ops : List AnyOp) : ∀ c : Conn,
    runAny S (ops ++ [op]) c =
      ((runAny S ops c).1 ++ [(op.run S (runAny S ops c).2).1], (op.run S (runAny S ops c).2).2) := by
  induction ops with
  | nil => intro c; rfl
  | cons o ops ih => intro c; simp only [List.cons_append, runAny]; rw [ih]

theorem readerOps_append (a b : List AnyOp) : readerOps (a ++ b) = readerOps a ++ readerOps b := by
  induction a with
  | nil => rfl
  | cons o a ih => cases o <;> simp [readerOps, ih]

theorem writerOps_append (a b : List AnyOp) : writerOps (a ++ b) = writerOps a ++ writerOps b := by
  induction a with
  | nil => rfl
  | cons o a ih => cases o <;> simp [writerOps, ih]

theorem readerOuts_append (a b : List AnyOut) : readerOuts (a ++ b) = readerOuts a ++ readerOuts b := by
  induction a with
  | nil => rfl
  | cons o a ih => cases o <;> simp [readerOuts, ih]

theorem writerOuts_append (a b : List AnyOut) : writerOuts (a ++ b) = writerOuts a ++ writerOuts b := by
  induction a with
  | nil => rfl
  | cons o a ih => cases o <;> simp [writerOuts, ih]

variable {S}

/-- The other task does not notice a reading call. -/
theorem WrAt.other {cs cs' : Conn} {outs : List (Res TlsError Nat)} {t : Task WOp WrLoc Nat} {o : Option WOp}
    (h : WrAt S cs outs t o) (hl : cs'.wr.loc = cs.wr.loc) : WrAt S cs' outs t o := by
  cases h with
  | idle h1 h2 h3 => exact .idle h1 h2 (h3.trans hl.symm)
  | before op p h1 h2 h3 h4 => exact .before op p h1 h2 h3 (by rw [hl]; exact h4)
  | after p r h1 h2 h3 h4 => exact .after p r h1 h2 h3 (by rw [hl]; exact h4)

/-- The other task does not notice a writing call. -/
theorem RdAt.other {cs cs' : Conn} {outs : List (Res TlsError ROut)} {t : Task ROp RdLoc ROut} {o : Option ROp}
    (h : RdAt S cs outs t o) (hl : cs'.rd = cs.rd) : RdAt S cs' outs t o := by
  have ho : cs'.opened = cs.opened := congrArg RdHalf.opened hl
  cases h with
  | idle h1 h2 h3 => exact .idle h1 h2 (by rw [hl]; exact h3)
  | before op p h1 h2 h3 h4 => exact .before op p h1 h2 (by rw [ho]; exact h3) (by rw [hl, ho]; exact h4)
  | after p r h1 h2 h3 h4 => exact .after p r h1 h2 h3 (by rw [hl]; exact h4)

/-- A reading call takes effect. -/
theorem Linear.emitR {c : Conn} {rs : List ROp} {ws : List WOp} {x : Sys} {log : List AnyOp} {wop : Option WOp}
    {op : ROp} (h : Linear S c rs ws x ⟨log, some op, wop⟩) {r : Res TlsError ROut} {l : RdLoc} {b : Bool}
    (he : (op.prog S).run (runAny S log c).2.rd.loc x.flag = (r, l, b)) {t : Task ROp RdLoc ROut}
    (ht : ∀ cs : Conn, cs.rd.loc = l → cs.opened = b →
      RdAt S cs (readerOuts (runAny S log c).1 ++ [r]) t none) (htodo : t.todo = x.rd.todo) :
    Linear S c rs ws ⟨b, t, x.wr⟩ ⟨log ++ [.reader op], none, wop⟩ := by
  have hm := ROp.prog_matches S op (runAny S log c).2.rd.loc x.flag
  rw [he, h.flag] at hm
  have hh : (runAny S log c).2.rd.loc.half (runAny S log c).2.opened = (runAny S log c).2.rd := rfl
  rw [hh] at hm
  injection hm with m1 m2
  injection m2 with m2 m3
  have hrun : (AnyOp.run S (.reader op) (runAny S log c).2).1 = .read r := by rw [m1]; rfl
  have hl : (AnyOp.run S (.reader op) (runAny S log c).2).2.rd.loc = l := by rw [m2]; rfl
  have hb : (AnyOp.run S (.reader op) (runAny S log c).2).2.opened = b := by rw [m3]; rfl
  refine ⟨?_, ?_, ?_, ?_, ?_⟩
  · simp only [runAny_snoc]; exact hb.symm
  · simp only [runAny_snoc, readerOuts_append]
    rw [hrun]
    exact ht _ hl hb
  · simp only [runAny_snoc, writerOuts_append]
    rw [hrun]
    simp only [writerOuts, List.append_nil]
    exact h.wr.other rfl
  · have := h.rops
    simp only [readerOps_append, readerOps, htodo]
    simpa using this
  · have := h.wops
    simp only [writerOps_append, writerOps]
    simpa using this

/-- A writing call takes effect. -/
theorem Linear.emitW {c : Conn} {rs : List ROp} {ws : List WOp} {x : Sys} {log : List AnyOp} {rop : Option ROp}
    {op : WOp} (h : Linear S c rs ws x ⟨log, rop, some op⟩) {r : Res TlsError Nat} {l : WrLoc} {b : Bool}
    (he : (op.prog S).run (runAny S log c).2.wr.loc x.flag = (r, l, b)) {t : Task WOp WrLoc Nat}
    (ht : ∀ cs : Conn, cs.wr.loc = l → WrAt S cs (writerOuts (runAny S log c).1 ++ [r]) t none)
    (htodo : t.todo = x.wr.todo) :
    Linear S c rs ws ⟨x.flag, x.rd, t⟩ ⟨log ++ [.writer op], rop, none⟩ := by
  have hm := WOp.prog_matches S op (runAny S log c).2.wr.loc x.flag
  rw [he, h.flag] at hm
  have hh : (runAny S log c).2.wr.loc.half (runAny S log c).2.opened = (runAny S log c).2.wr := rfl
  rw [hh] at hm
  injection hm with m1 m2
  injection m2 with m2 m3
  have hrun : (AnyOp.run S (.writer op) (runAny S log c).2).1 = .wrote r := by rw [m1]; rfl
  have hl : (AnyOp.run S (.writer op) (runAny S log c).2).2.wr.loc = l := by rw [m2]; rfl
  have hb : (AnyOp.run S (.writer op) (runAny S log c).2).2.opened = (runAny S log c).2.opened :=
    WOp.run_opened S op (runAny S log c).2.wr
  have hrd : (AnyOp.run S (.writer op) (runAny S log c).2).2.rd = (runAny S log c).2.rd := by
    show RdHalf.mk _ (AnyOp.run S (.writer op) (runAny S log c).2).2.opened _ _ _ = _
    rw [hb]
    rfl
  refine ⟨?_, ?_, ?_, ?_, ?_⟩
  · simp only [runAny_snoc]; exact h.flag.trans hb.symm
  · simp only [runAny_snoc, readerOuts_append]
    rw [hrun]
    simp only [readerOuts, List.append_nil]
    exact h.rd.other hrd
  · simp only [runAny_snoc, writerOuts_append]
    rw [hrun]
    exact ht _ hl
  · have := h.rops
    simp only [readerOps_append, readerOps]
    simpa using this
  · have := h.wops
    simp only [writerOps_append, writerOps, htodo]
    simpa using this

/-- Every step of the reader keeps the invariant. -/
theorem Linear.stepR {c : Conn} {rs : List ROp} {ws : List WOp} {x : Sys} {g : CallOrder} (h : Linear S c rs ws x g) :
    Linear S c rs ws (x.step S .reader) (g.step x .reader) := by
  obtain ⟨flag, ⟨loc, todo, cur, outs⟩, wr⟩ := x
  obtain ⟨log, rop, wop⟩ := g
  have hrd := h.rd
  have hfl : flag = (runAny S log c).2.opened := h.flag
  generalize hrop : (CallOrder.mk log rop wop).rop = o at hrd
  cases hrd with
  | idle h1 h2 h3 =>
    simp only at h1 h2 h3 hrop
    subst h1 hrop
    cases todo with
    | nil => exact h
    | cons op ops =>
      refine ⟨h.flag, .before op _ rfl h2 (ROp.prog_good S _ op) ?_, h.wr, ?_, h.wops⟩
      · show (ROp.prog S op).run loc _ = _
        rw [h3]
        rfl
      · have := h.rops
        simpa [CallOrder.step, Sys.step, Task.step] using this
  | before op p h1 h2 h3 h4 =>
    simp only at h1 h2 h3 h4 hrop
    subst h1 hrop
    cases p with
    | ret r =>
      rw [← hfl] at h3 h4
      refine h.emitR h4.symm (t := ⟨loc, todo, none, outs ++ [r]⟩) (fun cs hl hb => ?_) rfl
      exact .idle rfl (by simp only; rw [h2]) hl.symm
    | step u n =>
      exact ⟨h.flag, .before op (n loc) rfl h2 (h3 loc) h4, h.wr, h.rops, h.wops⟩
    | load k =>
      have hk : (k flag).Good (runAny S log c).2.opened := by rw [hfl]; exact h3
      have hr : (k flag).run loc (runAny S log c).2.opened =
          (ROp.prog S op).run (runAny S log c).2.rd.loc (runAny S log c).2.opened := by
        rw [hfl]; exact h4
      exact ⟨h.flag, .before op (k flag) rfl h2 hk hr, h.wr, h.rops, h.wops⟩
    | store b k =>
      rw [← hfl] at h3 h4
      by_cases hb : b = flag
      · subst hb
        have hst : CallOrder.step ⟨b, ⟨loc, todo, some (.store b k), outs⟩, wr⟩ ⟨log, some op, wop⟩ .reader =
            ⟨log, some op, wop⟩ := by simp only [CallOrder.step, if_true]
        rw [hst]
        have hk : k.Good b := by
          rcases h3 with ⟨_, h⟩ | ⟨h, _⟩
          · exact h
          · exact absurd rfl h
        rw [hfl] at hk h4
        exact ⟨h.flag, .before op k rfl h2 hk h4, h.wr, h.rops, h.wops⟩
      · have hst : CallOrder.step ⟨flag, ⟨loc, todo, some (.store b k), outs⟩, wr⟩ ⟨log, some op, wop⟩ .reader =
            ⟨log ++ [.reader op], none, wop⟩ := by simp only [CallOrder.step, if_neg hb, CallOrder.emitR]
        rw [hst]
        have hk : k.NoFlag := by
          rcases h3 with ⟨h, _⟩ | ⟨_, h⟩
          · exact absurd h hb
          · exact h
        have hrun : ∀ b', k.run loc b' = ((k.run loc b).1, (k.run loc b).2.1, b') := fun b' => hk.run loc b' b
        have h4' : k.run loc b = (op.prog S).run (runAny S log c).2.rd.loc flag := h4
        rw [hrun b] at h4'
        refine h.emitR h4'.symm (t := ⟨loc, todo, some k, outs⟩) (fun cs hl _ => ?_) rfl
        refine .after k (k.run loc b).1 rfl (by simp only; rw [h2]) hk fun b' => ?_
        rw [hl]
        exact hrun b'
  | after p r h1 h2 h3 h4 =>
    simp only at h1 h2 h3 h4 hrop
    subst h1 hrop
    cases p with
    | ret r' =>
      have := h4 flag
      simp only [Prog.run, Prod.mk.injEq] at this
      obtain ⟨e1, e2, -⟩ := this
      subst e1
      exact ⟨h.flag, .idle rfl h2 e2, h.wr, h.rops, h.wops⟩
    | step u n =>
      exact ⟨h.flag, .after (n loc) r rfl h2 (h3 loc) h4, h.wr, h.rops, h.wops⟩
    | load k => exact h3.elim
    | store b k => exact h3.elim

/-- Every step of the writer keeps the invariant. -/
theorem Linear.stepW {c : Conn} {rs : List ROp} {ws : List WOp} {x : Sys} {g : CallOrder} (h : Linear S c rs ws x g) :
    Linear S c rs ws (x.step S .writer) (g.step x .writer) := by
  obtain ⟨flag, rd, ⟨loc, todo, cur, outs⟩⟩ := x
  obtain ⟨log, rop, wop⟩ := g
  have hwr := h.wr
  generalize hwop : (CallOrder.mk log rop wop).wop = o at hwr
  cases hwr with
  | idle h1 h2 h3 =>
    simp only at h1 h2 h3 hwop
    subst h1 hwop
    cases todo with
    | nil => exact h
    | cons op ops =>
      refine ⟨h.flag, h.rd, .before op _ rfl h2 (WOp.prog_once S op) ?_, h.rops, ?_⟩
      · intro b
        show (WOp.prog S op).run loc b = _
        rw [h3]
        rfl
      · have := h.wops
        simpa [CallOrder.step, Sys.step, Task.step] using this
  | before op p h1 h2 h3 h4 =>
    simp only at h1 h2 h3 h4 hwop
    subst h1 hwop
    cases p with
    | ret r =>
      refine h.emitW (h4 flag).symm (t := ⟨loc, todo, none, outs ++ [r]⟩) (fun cs hl => ?_) rfl
      exact .idle rfl (by simp only; rw [h2]) hl.symm
    | step u n =>
      exact ⟨h.flag, h.rd, .before op (n loc) rfl h2 (h3 loc) h4, h.rops, h.wops⟩
    | load k =>
      have hk := h3 flag
      have hrun : ∀ b', (k flag).run loc b' = (((k flag).run loc flag).1, ((k flag).run loc flag).2.1, b') :=
        fun b' => hk.run loc b' flag
      have h4' : (k flag).run loc flag = (op.prog S).run (runAny S log c).2.wr.loc flag := h4 flag
      rw [hrun flag] at h4'
      refine h.emitW h4'.symm (t := ⟨loc, todo, some (k flag), outs⟩) (fun cs hl => ?_) rfl
      refine .after (k flag) ((k flag).run loc flag).1 rfl (by simp only; rw [h2]) hk fun b' => ?_
      rw [hl]
      exact hrun b'
    | store b k => exact h3.elim
  | after p r h1 h2 h3 h4 =>
    simp only at h1 h2 h3 h4 hwop
    subst h1 hwop
    cases p with
    | ret r' =>
      have := h4 flag
      simp only [Prog.run, Prod.mk.injEq] at this
      obtain ⟨e1, e2, -⟩ := this
      subst e1
      exact ⟨h.flag, h.rd, .idle rfl h2 e2, h.rops, h.wops⟩
    | step u n =>
      exact ⟨h.flag, h.rd, .after (n loc) r rfl h2 (h3 loc) h4, h.rops, h.wops⟩
    | load k => exact h3.elim
    | store b k => exact h3.elim

theorem Linear.run {c : Conn} {rs : List ROp} {ws : List WOp} (sched : List Who) : ∀ {x : Sys} {g : CallOrder},
    Linear S c rs ws x g → Linear S c rs ws (x.run S sched) (CallOrder.run S x g sched) := by
  induction sched with
  | nil => intro x g h; exact h
  | cons w sched ih =>
    intro x g h
    cases w with
    | reader => exact ih h.stepR
    | writer => exact ih h.stepW

variable (S)

theorem CallOrder.step_log (x : Sys) (g : CallOrder) (w : Who) : g.log <+: (g.step x w).log := by
  have hR : g.log <+: g.emitR.log := by
    unfold CallOrder.emitR
    split
    · exact List.prefix_append _ _
    · exact List.prefix_refl _
  have hW : g.log <+: g.emitW.log := by
    unfold CallOrder.emitW
    split
    · exact List.prefix_append _ _
    · exact List.prefix_refl _
  cases w with
  | reader =>
    simp only [CallOrder.step]
    split
    · split <;> exact List.prefix_refl _
    · exact hR
    · exact List.prefix_refl _
    · exact List.prefix_refl _
    · split
      · exact List.prefix_refl _
      · exact hR
  | writer =>
    simp only [CallOrder.step]
    split
    · split <;> exact List.prefix_refl _
    · exact hW
    · exact List.prefix_refl _
    · exact hW
    · exact List.prefix_refl _

theorem CallOrder.run_log (t : List Who) : ∀ (s : List Who) (x : Sys) (g : CallOrder),
    (CallOrder.run S x g s).log <+: (CallOrder.run S x g (s ++ t)).log := by
  have hg : ∀ (t : List Who) (x : Sys) (g : CallOrder), g.log <+: (CallOrder.run S x g t).log := by
    intro t
    induction t with
    | nil => intro x g; exact List.prefix_refl _
    | cons w t ih => intro x g; exact (CallOrder.step_log x g w).trans (ih _ _)
  intro s
  induction s with
  | nil => intro x g; exact hg t x g
  | cons w s ih => intro x g; exact ih _ _

theorem runAny_counts (ops : List AnyOp) : ∀ c : Conn,
    (readerOuts (runAny S ops c).1).length = (readerOps ops).length ∧
    (writerOuts (runAny S ops c).1).length = (writerOps ops).length := by
  induction ops with
  | nil => intro c; exact ⟨rfl, rfl⟩
  | cons op ops ih =>
    intro c
    cases op with
    | reader op =>
      obtain ⟨i1, i2⟩ := ih (onRd (op.run S) c).2
      exact ⟨congrArg (· + 1) i1, i2⟩
    | writer op =>
      obtain ⟨i1, i2⟩ := ih (onWr (op.run S) c).2
      exact ⟨i1, congrArg (· + 1) i2⟩

/-- **C96** Two tasks make the calls `rs` on the reader and `ws` on the writer of a split connection `c`.  There is an
order in which the calls take effect, fixed once and for all (a longer schedule only adds to it), such that after any
schedule of the steps of the two tasks:

* the calls that have taken effect are calls begun, in the order of their task;
* what each task has been given so far is what the calls of that order return when they are made one after the other
  on the unsplit connection, so in particular every call that has returned has taken effect;
* a task that is not inside a call has seen all results of its calls, and its half is as that sequence of calls leaves
  it; the flag is always as that sequence of calls leaves it.

A call that returned before another began is therefore also before it in that order. -/
theorem C96_linearizable (c : Conn) (rs : List ROp) (ws : List WOp) :
    ∃ lin : List Who → List AnyOp, (∀ s t, lin s <+: lin (s ++ t)) ∧ ∀ s,
      let x := (Sys.split c rs ws).run S s
      let q := runAny S (lin s) c
      (∃ begun, rs = begun ++ x.rd.todo ∧ readerOps (lin s) <+: begun ∧ begun.length ≤ x.rd.outs.length + 1) ∧
      (∃ begun, ws = begun ++ x.wr.todo ∧ writerOps (lin s) <+: begun ∧ begun.length ≤ x.wr.outs.length + 1) ∧
      x.rd.outs <+: readerOuts q.1 ∧ x.wr.outs <+: writerOuts q.1 ∧ x.flag = q.2.opened ∧
      (x.rd.cur = none → x.rd.outs = readerOuts q.1 ∧ x.rd.loc.half x.flag = q.2.rd ∧
        rs = readerOps (lin s) ++ x.rd.todo) ∧
      (x.wr.cur = none → x.wr.outs = writerOuts q.1 ∧ x.wr.loc.half x.flag = q.2.wr ∧
        ws = writerOps (lin s) ++ x.wr.todo) := by
  refine ⟨linearize S c rs ws, fun s t => CallOrder.run_log S t s _ _, fun s => ?_⟩
  have h : Linear S c rs ws ((Sys.split c rs ws).run S s)
      (CallOrder.run S (Sys.split c rs ws) ⟨[], none, none⟩ s) :=
    Linear.run s ⟨rfl, .idle rfl rfl rfl, .idle rfl rfl rfl, rfl, rfl⟩
  show let x := (Sys.split c rs ws).run S s
    let q := runAny S (CallOrder.run S (Sys.split c rs ws) ⟨[], none, none⟩ s).log c
    _
  unfold linearize
  generalize (Sys.split c rs ws).run S s = x at h
  generalize CallOrder.run S (Sys.split c rs ws) ⟨[], none, none⟩ s = g at h
  obtain ⟨n1, n2⟩ := runAny_counts S g.log c
  obtain ⟨hf, hr, hw, ho1, ho2⟩ := h
  refine ⟨⟨_, ho1.symm, List.prefix_append _ _, ?_⟩, ⟨_, ho2.symm, List.prefix_append _ _, ?_⟩, ?_, ?_, hf, ?_, ?_⟩
  · rw [List.length_append, ← n1]
    generalize g.rop = o at hr
    cases hr with
    | idle h1 h2 h3 => simp [h2]
    | before op p h1 h2 h3 h4 => simp [h2]
    | after p r h1 h2 h3 h4 => simp [← h2]
  · rw [List.length_append, ← n2]
    generalize g.wop = o at hw
    cases hw with
    | idle h1 h2 h3 => simp [h2]
    | before op p h1 h2 h3 h4 => simp [h2]
    | after p r h1 h2 h3 h4 => simp [← h2]
  · generalize g.rop = o at hr
    cases hr with
    | idle h1 h2 h3 => exact h2 ▸ List.prefix_refl _
    | before op p h1 h2 h3 h4 => exact h2 ▸ List.prefix_refl _
    | after p r h1 h2 h3 h4 => rw [← h2]; exact List.prefix_append _ _
  · generalize g.wop = o at hw
    cases hw with
    | idle h1 h2 h3 => exact h2 ▸ List.prefix_refl _
    | before op p h1 h2 h3 h4 => exact h2 ▸ List.prefix_refl _
    | after p r h1 h2 h3 h4 => rw [← h2]; exact List.prefix_append _ _
  · intro hc
    generalize hg : g.rop = o at hr ho1
    cases hr with
    | idle h1 h2 h3 => exact ⟨h2, by rw [h3, hf]; rfl, by simpa using ho1.symm⟩
    | before op p h1 h2 h3 h4 => rw [hc] at h1; cases h1
    | after p r h1 h2 h3 h4 => rw [hc] at h1; cases h1
  · intro hc
    generalize hg : g.wop = o at hw ho2
    cases hw with
    | idle h1 h2 h3 => exact ⟨h2, by rw [h3, hf]; rfl, by simpa using ho2.symm⟩
    | before op p h1 h2 h3 h4 => rw [hc] at h1; cases h1
    | after p r h1 h2 h3 h4 => rw [hc] at h1; cases h1

/-! ## No half waits for the other -/

/-- A task, with arbitrary values of the flag seen by each of its steps. -/
def Task.feed {Op σ α : Type} (prog : Op → Prog σ α) : List Bool → Task Op σ α → Task Op σ α
  | [], t => t
  | b :: bs, t => Task.feed prog bs (t.step prog b).2

/-- All calls have returned; there are `n` results. -/
def Task.Done {Op σ α : Type} (n : Nat) (t : Task Op σ α) : Prop := t.cur = none ∧ t.todo = [] ∧ t.outs.length = n

theorem Task.finish {Op σ α : Type} (prog : Op → Prog σ α) (todo : List Op)
    (ih : ∀ (loc : σ) (outs : List (Res TlsError α)), ∃ N, ∀ bs : List Bool, N ≤ bs.length →
      (Task.feed prog bs ⟨loc, todo, none, outs⟩).Done (outs.length + todo.length)) :
    ∀ (p : Prog σ α) (loc : σ) (outs : List (Res TlsError α)), ∃ N, ∀ bs : List Bool, N ≤ bs.length →
      (Task.feed prog bs ⟨loc, todo, some p, outs⟩).Done (outs.length + todo.length + 1)
  | .ret r, loc, outs => by
    obtain ⟨N, hN⟩ := ih loc (outs ++ [r])
    refine ⟨N + 1, fun bs h => ?_⟩
    cases bs with
    | nil => simp at h
    | cons b bs =>
      have := hN bs (by simpa using h)
      rw [List.length_append, List.length_singleton] at this
      have e : outs.length + todo.length + 1 = outs.length + 1 + todo.length := by omega
      rw [e]
      exact this
  | .step u n, loc, outs => by
    obtain ⟨N, hN⟩ := Task.finish prog todo ih (n loc) (u loc) outs
    refine ⟨N + 1, fun bs h => ?_⟩
    cases bs with
    | nil => simp at h
    | cons b bs => exact hN bs (by simpa using h)
  | .load k, loc, outs => by
    obtain ⟨N, hN⟩ := Task.finish prog todo ih (k true) loc outs
    obtain ⟨N', hN'⟩ := Task.finish prog todo ih (k false) loc outs
    refine ⟨max N N' + 1, fun bs h => ?_⟩
    cases bs with
    | nil => simp at h
    | cons b bs =>
      simp only [List.length_cons] at h
      cases b with
      | true => exact hN bs (by omega)
      | false => exact hN' bs (by omega)
  | .store b' k, loc, outs => by
    obtain ⟨N, hN⟩ := Task.finish prog todo ih k loc outs
    refine ⟨N + 1, fun bs h => ?_⟩
    cases bs with
    | nil => simp at h
    | cons b bs => exact hN bs (by simpa using h)

theorem Task.finish_all {Op σ α : Type} (prog : Op → Prog σ α) (todo : List Op) :
    ∀ (loc : σ) (outs : List (Res TlsError α)), ∃ N, ∀ bs : List Bool, N ≤ bs.length →
      (Task.feed prog bs ⟨loc, todo, none, outs⟩).Done (outs.length + todo.length) := by
  induction todo with
  | nil =>
    intro loc outs
    refine ⟨0, fun bs _ => ?_⟩
    induction bs with
    | nil => exact ⟨rfl, rfl, rfl⟩
    | cons b bs ih => exact ih (Nat.zero_le _)
  | cons op ops ih =>
    intro loc outs
    obtain ⟨N, hN⟩ := Task.finish prog ops ih (prog op) loc outs
    refine ⟨N + 1, fun bs h => ?_⟩
    cases bs with
    | nil => simp at h
    | cons b bs => exact hN bs (by simpa using h)

theorem Sys.run_feeds (sched : List Who) : ∀ x : Sys,
    (∃ bs : List Bool, bs.length = sched.count .reader ∧ (x.run S sched).rd = Task.feed (ROp.prog S) bs x.rd) ∧
    (∃ bs : List Bool, bs.length = sched.count .writer ∧ (x.run S sched).wr = Task.feed (WOp.prog S) bs x.wr) := by
  induction sched with
  | nil => intro x; exact ⟨⟨[], rfl, rfl⟩, ⟨[], rfl, rfl⟩⟩
  | cons w sched ih =>
    intro x
    obtain ⟨⟨bs, h1, h2⟩, ⟨bs', h1', h2'⟩⟩ := ih (x.step S w)
    cases w with
    | reader => exact ⟨⟨x.flag :: bs, by simp [h1], h2⟩, ⟨bs', by simp [h1'], h2'⟩⟩
    | writer => exact ⟨⟨bs, by simp [h1], h2⟩, ⟨x.flag :: bs', by simp [h1'], h2'⟩⟩

/-- **C96** Neither half waits for the other: there is a number of steps after which the reader has returned from all
its calls, however many steps of the writer are made in between (even none, with the writer stopped in the middle of a
call), and the other way round. -/
theorem C96_wait_free (c : Conn) (rs : List ROp) (ws : List WOp) :
    (∃ N, ∀ sched : List Who, N ≤ sched.count .reader →
      ((Sys.split c rs ws).run S sched).rd.Done rs.length) ∧
    (∃ N, ∀ sched : List Who, N ≤ sched.count .writer →
      ((Sys.split c rs ws).run S sched).wr.Done ws.length) := by
  constructor
  · obtain ⟨N, hN⟩ := Task.finish_all (ROp.prog S) rs c.rd.loc []
    refine ⟨N, fun sched h => ?_⟩
    obtain ⟨⟨bs, h1, h2⟩, -⟩ := Sys.run_feeds S sched (Sys.split c rs ws)
    rw [h2]
    have := hN bs (by omega)
    simpa [Sys.split] using this
  · obtain ⟨N, hN⟩ := Task.finish_all (WOp.prog S) ws c.wr.loc []
    refine ⟨N, fun sched h => ?_⟩
    obtain ⟨-, ⟨bs, h1, h2⟩⟩ := Sys.run_feeds S sched (Sys.split c rs ws)
    rw [h2]
    have := hN bs (by omega)
    simpa [Sys.split] using this

/-- **C96** When both tasks are done, they have seen a history of calls made one after the other, with all the calls
in it and each task's in order, and the connection is as that history leaves it. -/
theorem C96_history (c : Conn) (rs : List ROp) (ws : List WOp) (sched : List Who)
    (hr : ((Sys.split c rs ws).run S sched).rd.Done rs.length)
    (hw : ((Sys.split c rs ws).run S sched).wr.Done ws.length) :
    ∃ ops, readerOps ops = rs ∧ writerOps ops = ws ∧
      readerOuts (runAny S ops c).1 = ((Sys.split c rs ws).run S sched).rd.outs ∧
      writerOuts (runAny S ops c).1 = ((Sys.split c rs ws).run S sched).wr.outs ∧
      (runAny S ops c).2.rd = ((Sys.split c rs ws).run S sched).rd.loc.half ((Sys.split c rs ws).run S sched).flag ∧
      (runAny S ops c).2.wr = ((Sys.split c rs ws).run S sched).wr.loc.half ((Sys.split c rs ws).run S sched).flag := by
  obtain ⟨lin, -, h⟩ := C96_linearizable S c rs ws
  obtain ⟨-, -, -, -, -, h1, h2⟩ := h sched
  obtain ⟨a1, a2, a3⟩ := h1 hr.1
  obtain ⟨b1, b2, b3⟩ := h2 hw.1
  rw [hr.2.1, List.append_nil] at a3
  rw [hw.2.1, List.append_nil] at b3
  exact ⟨lin sched, a3.symm, b3.symm, a1.symm, b1.symm, a2.symm, b2.symm⟩

/-- What is observed of a run. -/
def Sys.seen (x : Sys) : List (Res TlsError ROut) × List (Res TlsError Nat) × Bool := (x.rd.outs, x.wr.outs, x.flag)

/-- A connection on which a closure alert is waiting. -/
def exClosing : Conn :=
  exConn [.data (Spec.protect toySuite (List.replicate 16 3) (List.replicate 12 4) 0 ⟨21, [1, 0], 0⟩)]

/-- The reader processes the closure alert between two steps of a `write` that has already loaded the flag: that write
succeeds (it takes effect before the closure), the next one is refused. -/
example : ((Sys.split exClosing [.read 10] [.write [1], .write [2]]).run toySuite
    ([.writer, .writer, .writer] ++ List.replicate 12 .reader ++ List.replicate 12 .writer)).seen =
    ([.err .connectionClosed], [.ok 1, .err .missingHandshake], false) := by decide +kernel

/-- The reader has handled the alert but not stored the flag yet (it is stopped there): both writes succeed. -/
example : ((Sys.split exClosing [.read 10] [.write [1], .write [2]]).run toySuite
    (List.replicate 7 .reader ++ List.replicate 14 .writer)).seen = ([], [.ok 1, .ok 1], true) ∧
    linearize toySuite exClosing [.read 10] [.write [1], .write [2]]
      (List.replicate 7 .reader ++ List.replicate 14 .writer ++ List.replicate 6 .reader) =
    [.writer (.write [1]), .writer (.write [2]), .reader (.read 10)] := by decide +kernel

end ETls
