import Verif.Props.Tasks
import Verif.Model.FineGrain

/-! # C135: the halves running at the same time, with steps as small as one likes

In C96 and C134 a stretch of code between two accesses of the open flag is one step.  In fact it may be left in the middle (a task
waits for the transport, a thread is preempted) and the other half may run.  Here the stretches may be cut into any number of
steps. -/

namespace ETls

variable (S : Suite)

/-- `Cut s p s0 c`: the program `p` in the local state `s` does what the program `c` does in the state `s0`, with local code cut
differently.  Both make the same accesses of the flag in the same order, in the same local state and with the same result in the
end; between the accesses each may make local steps of its own. -/
inductive Cut {σ α : Type} : σ → Prog σ α → σ → Prog σ α → Prop
  | ret (s : σ) (r : Res TlsError α) : Cut s (.ret r) s (.ret r)
  | load (s : σ) (k k' : Bool → Prog σ α) (h : ∀ b, Cut s (k b) s (k' b)) : Cut s (.load k) s (.load k')
  | store (s : σ) (b : Bool) (k k' : Prog σ α) (h : Cut s k s k') : Cut s (.store b k) s (.store b k')
  | left (s : σ) (u : σ → σ) (n : σ → Prog σ α) (s0 : σ) (c : Prog σ α) (h : Cut (u s) (n s) s0 c) : Cut s (.step u n) s0 c
  | right (s : σ) (p : Prog σ α) (s0 : σ) (u : σ → σ) (n : σ → Prog σ α) (h : Cut s p (u s0) (n s0)) : Cut s p s0 (.step u n)

/-- One step of one of the halves, with the programs `fr` and `fw` for their calls. -/
def Sys.stepWith (fr : ROp → Prog RdLoc ROut) (fw : WOp → Prog WrLoc Nat) (x : Sys) : Who → Sys
  | .reader => { x with flag := (x.rd.step fr x.flag).1, rd := (x.rd.step fr x.flag).2 }
  | .writer => { x with flag := (x.wr.step fw x.flag).1, wr := (x.wr.step fw x.flag).2 }

/-- The steps of a schedule. -/
def Sys.runWith (fr : ROp → Prog RdLoc ROut) (fw : WOp → Prog WrLoc Nat) (x : Sys) (sched : List Who) : Sys :=
  sched.foldl (Sys.stepWith fr fw) x

namespace Cut

/-- The same task, inside the same call with local code cut differently, or between calls. -/
inductive Same {Op σ α : Type} : Task Op σ α → Task Op σ α → Prop
  | idle (s : σ) (todo : List Op) (outs : List (Res TlsError α)) : Same ⟨s, todo, none, outs⟩ ⟨s, todo, none, outs⟩
  | inside (s s0 : σ) (todo : List Op) (p c : Prog σ α) (outs : List (Res TlsError α)) (h : Cut s p s0 c) :
      Same ⟨s, todo, some p, outs⟩ ⟨s0, todo, some c, outs⟩

/-- Steps of one task. -/
def steps {Op σ α : Type} (g : Op → Prog σ α) : Nat → Bool × Task Op σ α → Bool × Task Op σ α
  | 0, x => x
  | n + 1, x => steps g n (x.2.step g x.1)

theorem sim_inside {Op σ α : Type} (f g : Op → Prog σ α) {s s0 : σ} {p c : Prog σ α} (h : Cut s p s0 c) (flag : Bool)
    (todo : List Op) (outs : List (Res TlsError α)) :
    ∃ m, (steps g m (flag, ⟨s0, todo, some c, outs⟩)).1 = (Task.step f flag ⟨s, todo, some p, outs⟩).1 ∧
      Same (Task.step f flag ⟨s, todo, some p, outs⟩).2 (steps g m (flag, ⟨s0, todo, some c, outs⟩)).2 := by
  induction h with
  | ret s r => exact ⟨1, rfl, .idle _ _ _⟩
  | load s k k' h _ => exact ⟨1, rfl, .inside _ _ _ _ _ _ (h flag)⟩
  | store s b k k' h _ => exact ⟨1, rfl, .inside _ _ _ _ _ _ h⟩
  | left s u n s0 c h _ => exact ⟨0, rfl, .inside _ _ _ _ _ _ h⟩
  | right s p s0 u n h ih =>
    obtain ⟨m, h1, h2⟩ := ih
    exact ⟨m + 1, h1, h2⟩

theorem sim {Op σ α : Type} {f g : Op → Prog σ α} (hfg : ∀ op s, Cut s (f op) s (g op)) {t t' : Task Op σ α} (h : Same t t')
    (flag : Bool) : ∃ m, (steps g m (flag, t')).1 = (t.step f flag).1 ∧ Same (t.step f flag).2 (steps g m (flag, t')).2 := by
  cases h with
  | idle s todo outs =>
    cases todo with
    | nil => exact ⟨0, rfl, .idle _ _ _⟩
    | cons op ops => exact ⟨1, rfl, .inside _ _ _ _ _ _ (hfg op s)⟩
  | inside s s0 todo p c outs h => exact sim_inside f g h flag todo outs

/-- The same state of the whole. -/
structure SameSys (x y : Sys) : Prop where
  flag : x.flag = y.flag
  rd : Same x.rd y.rd
  wr : Same x.wr y.wr

theorem run_reader (m : Nat) : ∀ y : Sys, y.run S (List.replicate m .reader) =
    ⟨(steps (ROp.prog S) m (y.flag, y.rd)).1, (steps (ROp.prog S) m (y.flag, y.rd)).2, y.wr⟩ := by
  induction m with
  | zero => intro y; rfl
  | succ m ih =>
    intro y
    show Sys.run S (Sys.step S y .reader) (List.replicate m .reader) = _
    rw [ih]
    rfl

theorem run_writer (m : Nat) : ∀ y : Sys, y.run S (List.replicate m .writer) =
    ⟨(steps (WOp.prog S) m (y.flag, y.wr)).1, y.rd, (steps (WOp.prog S) m (y.flag, y.wr)).2⟩ := by
  induction m with
  | zero => intro y; rfl
  | succ m ih =>
    intro y
    show Sys.run S (Sys.step S y .writer) (List.replicate m .writer) = _
    rw [ih]
    rfl

variable {fr : ROp → Prog RdLoc ROut} {fw : WOp → Prog WrLoc Nat}

theorem sim_sys (hr : ∀ op s, Cut s (fr op) s (ROp.prog S op)) (hw : ∀ op s, Cut s (fw op) s (WOp.prog S op)) {x y : Sys}
    (h : SameSys x y) (w : Who) : ∃ m, SameSys (x.stepWith fr fw w) (y.run S (List.replicate m w)) := by
  cases w with
  | reader =>
    obtain ⟨m, h1, h2⟩ := sim hr h.rd x.flag
    refine ⟨m, ?_⟩
    rw [run_reader, ← h.flag]
    exact ⟨h1.symm, h2, h.wr⟩
  | writer =>
    obtain ⟨m, h1, h2⟩ := sim hw h.wr x.flag
    refine ⟨m, ?_⟩
    rw [run_writer, ← h.flag]
    exact ⟨h1.symm, h.rd, h2⟩

open Classical in
/-- The schedule of the coarse steps that goes with a schedule of small ones. -/
noncomputable def coarse (fr : ROp → Prog RdLoc ROut) (fw : WOp → Prog WrLoc Nat) (y0 : Sys) : List Who → Sys → List Who → List Who
  | [], _, acc => acc
  | w :: ws, x, acc =>
    coarse fr fw y0 ws (x.stepWith fr fw w)
      (if h : ∃ m, SameSys (x.stepWith fr fw w) (y0.run S (acc ++ List.replicate m w)) then acc ++ List.replicate h.choose w else acc)

theorem coarse_append (y0 : Sys) (a : List Who) : ∀ (b : List Who) (x : Sys) (acc : List Who),
    coarse S fr fw y0 (a ++ b) x acc = coarse S fr fw y0 b (x.runWith fr fw a) (coarse S fr fw y0 a x acc) := by
  induction a with
  | nil => intro b x acc; rfl
  | cons w ws ih =>
    intro b x acc
    rw [List.cons_append, coarse, ih, coarse]
    rfl

theorem coarse_grows (y0 : Sys) (a : List Who) : ∀ (x : Sys) (acc : List Who), acc <+: coarse S fr fw y0 a x acc := by
  induction a with
  | nil => intro x acc; exact List.prefix_refl _
  | cons w ws ih =>
    intro x acc
    rw [coarse]
    refine List.IsPrefix.trans ?_ (ih _ _)
    split
    · exact List.prefix_append _ _
    · exact List.prefix_refl _

theorem coarse_same (hr : ∀ op s, Cut s (fr op) s (ROp.prog S op)) (hw : ∀ op s, Cut s (fw op) s (WOp.prog S op)) (y0 : Sys)
    (a : List Who) : ∀ (x : Sys) (acc : List Who), SameSys x (y0.run S acc) →
      SameSys (x.runWith fr fw a) (y0.run S (coarse S fr fw y0 a x acc)) := by
  induction a with
  | nil => intro x acc h; exact h
  | cons w ws ih =>
    intro x acc h
    rw [coarse]
    refine ih _ _ ?_
    have hex : ∃ m, SameSys (x.stepWith fr fw w) (y0.run S (acc ++ List.replicate m w)) := by
      obtain ⟨m, hm⟩ := sim_sys S hr hw h w
      refine ⟨m, ?_⟩
      unfold Sys.run at *
      rw [List.foldl_append]
      exact hm
    rw [dif_pos hex]
    exact hex.choose_spec

end Cut

/-- **C135** Programs `fr` and `fw` for the calls that cut the local code of C96's in any way, and any interleaving of their steps.
As in C96: at every moment `s` there is an order `lin s` of the calls that have taken effect; it only grows, contains the calls
of each half in their order, has everything that returned and nothing that has not begun.  The results so far, the flag, and the
half of a task that is between two calls are those of these calls made one after the other. -/
theorem C135_linearizable {fr : ROp → Prog RdLoc ROut} {fw : WOp → Prog WrLoc Nat}
    (hr : ∀ op s, Cut s (fr op) s (ROp.prog S op)) (hw : ∀ op s, Cut s (fw op) s (WOp.prog S op)) (c : Conn) (rs : List ROp)
    (ws : List WOp) :
    ∃ lin : List Who → List AnyOp, (∀ s t, lin s <+: lin (s ++ t)) ∧ ∀ s,
      let x := (Sys.split c rs ws).runWith fr fw s
      let q := runAny S (lin s) c
      (∃ begun, rs = begun ++ x.rd.todo ∧ readerOps (lin s) <+: begun ∧ begun.length ≤ x.rd.outs.length + 1) ∧
      (∃ begun, ws = begun ++ x.wr.todo ∧ writerOps (lin s) <+: begun ∧ begun.length ≤ x.wr.outs.length + 1) ∧
      x.rd.outs <+: readerOuts q.1 ∧ x.wr.outs <+: writerOuts q.1 ∧ x.flag = q.2.opened ∧
      (x.rd.cur = none → x.rd.outs = readerOuts q.1 ∧ x.rd.loc.half x.flag = q.2.rd ∧
        rs = readerOps (lin s) ++ x.rd.todo) ∧
      (x.wr.cur = none → x.wr.outs = writerOuts q.1 ∧ x.wr.loc.half x.flag = q.2.wr ∧
        ws = writerOps (lin s) ++ x.wr.todo) := by
  obtain ⟨lin, h1, h2⟩ := C96_linearizable S c rs ws
  refine ⟨fun s => lin (Cut.coarse S fr fw (Sys.split c rs ws) s (Sys.split c rs ws) []), fun s t => ?_, fun s => ?_⟩
  · obtain ⟨d, hd⟩ := Cut.coarse_grows S (fr := fr) (fw := fw) (Sys.split c rs ws) t ((Sys.split c rs ws).runWith fr fw s)
      (Cut.coarse S fr fw (Sys.split c rs ws) s (Sys.split c rs ws) [])
    show lin _ <+: lin _
    rw [Cut.coarse_append, ← hd]
    exact h1 _ _
  · have hs := Cut.coarse_same S hr hw (Sys.split c rs ws) s (Sys.split c rs ws) [] ⟨rfl, .idle _ _ _, .idle _ _ _⟩
    have h := h2 (Cut.coarse S fr fw (Sys.split c rs ws) s (Sys.split c rs ws) [])
    revert h
    beta_reduce
    generalize (Sys.split c rs ws).runWith fr fw s = x at hs ⊢
    generalize Cut.coarse S fr fw (Sys.split c rs ws) s (Sys.split c rs ws) [] = sc at hs ⊢
    generalize (Sys.split c rs ws).run S sc = y at hs ⊢
    obtain ⟨xf, xr, xw⟩ := x
    obtain ⟨yf, yr, yw⟩ := y
    obtain ⟨e, a, b⟩ := hs
    dsimp only at e a b
    subst e
    rintro ⟨g1, g2, g3, g4, g5, g6, g7⟩
    cases a with
    | idle s1 todo1 outs1 =>
      cases b with
      | idle s2 todo2 outs2 => exact ⟨g1, g2, g3, g4, g5, g6, g7⟩
      | inside s2 s20 todo2 p2 c2 outs2 hc2 => exact ⟨g1, g2, g3, g4, g5, g6, fun h => (by cases h)⟩
    | inside s1 s10 todo1 p1 c1 outs1 hc1 =>
      cases b with
      | idle s2 todo2 outs2 => exact ⟨g1, g2, g3, g4, g5, fun h => (by cases h), g7⟩
      | inside s2 s20 todo2 p2 c2 outs2 hc2 => exact ⟨g1, g2, g3, g4, g5, fun h => (by cases h), fun h => (by cases h)⟩

/-- **C135** Neither half waits for the other, however its local code is cut. -/
theorem C135_wait_free (fr : ROp → Prog RdLoc ROut) (fw : WOp → Prog WrLoc Nat) (c : Conn) (rs : List ROp) (ws : List WOp) :
    (∃ N, ∀ sched : List Who, N ≤ sched.count .reader → ((Sys.split c rs ws).runWith fr fw sched).rd.Done rs.length) ∧
    (∃ N, ∀ sched : List Who, N ≤ sched.count .writer → ((Sys.split c rs ws).runWith fr fw sched).wr.Done ws.length) := by
  have feeds : ∀ (sched : List Who) (x : Sys),
      (∃ bs : List Bool, bs.length = sched.count .reader ∧ (x.runWith fr fw sched).rd = Task.feed fr bs x.rd) ∧
      (∃ bs : List Bool, bs.length = sched.count .writer ∧ (x.runWith fr fw sched).wr = Task.feed fw bs x.wr) := by
    intro sched
    induction sched with
    | nil => intro x; exact ⟨⟨[], rfl, rfl⟩, ⟨[], rfl, rfl⟩⟩
    | cons w sched ih =>
      intro x
      obtain ⟨⟨bs, h1, h2⟩, ⟨bs', h1', h2'⟩⟩ := ih (x.stepWith fr fw w)
      cases w with
      | reader => exact ⟨⟨x.flag :: bs, by simp [h1], h2⟩, ⟨bs', by simp [h1'], h2'⟩⟩
      | writer => exact ⟨⟨bs, by simp [h1], h2⟩, ⟨x.flag :: bs', by simp [h1'], h2'⟩⟩
  constructor
  · obtain ⟨N, hN⟩ := Task.finish_all fr rs c.rd.loc []
    refine ⟨N, fun sched h => ?_⟩
    obtain ⟨⟨bs, h1, h2⟩, -⟩ := feeds sched (Sys.split c rs ws)
    rw [h2]
    have := hN bs (by omega)
    simpa [Sys.split] using this
  · obtain ⟨N, hN⟩ := Task.finish_all fw ws c.wr.loc []
    refine ⟨N, fun sched h => ?_⟩
    obtain ⟨-, ⟨bs, h1, h2⟩⟩ := feeds sched (Sys.split c rs ws)
    rw [h2]
    have := hN bs (by omega)
    simpa [Sys.split] using this

/-! ## The steps between two operations of the transport -/

namespace Fine

/-! ### They cut the programs of C96 -/

/-- The local code `p`, from `s`, ends with `r` in `s'`. -/
inductive Local {σ α : Type} : Prog σ α → σ → Res TlsError α → σ → Prop
  | ret (s : σ) (r : Res TlsError α) : Local (.ret r) s r s
  | step (s : σ) (u : σ → σ) (n : σ → Prog σ α) (r : Res TlsError α) (s' : σ) (h : Local (n s) (u s) r s') : Local (.step u n) s r s'

/-- The local code `p` does what `m` does. -/
def Like {σ α : Type} (p : Prog σ α) (m : M TlsError σ α) : Prop := ∀ s, Local p s (m s).1 (m s).2

section
variable {σ α β : Type}

theorem Like.cut {p : Prog σ α} {m : M TlsError σ α} (h : Like p m) (s : σ) : Cut s p s (Prog.act m) := by
  refine .right _ _ _ _ _ ?_
  have h' := h s
  clear h
  generalize (m s).1 = r at h' ⊢
  generalize (m s).2 = s' at h' ⊢
  induction h' with
  | ret s r => exact .ret _ _
  | step s u n r s' h ih => exact .left _ _ _ _ _ ih

theorem Like.act (m : M TlsError σ α) : Like (Prog.act m) m := fun _ => .step _ _ _ _ _ (.ret _ _)

theorem Local.bind {p : Prog σ α} {f : α → Prog σ β} {s s1 s' : σ} {a : α} {r : Res TlsError β} (h : Local p s (.ok a) s1)
    (hf : Local (f a) s1 r s') : Local (p.bind f) s r s' := by
  generalize hx : (Res.ok a : Res TlsError α) = x at h
  induction h with
  | ret s r => subst hx; exact hf
  | step s u n r s'' h ih => exact .step _ _ _ _ _ (ih hf hx)

theorem Local.bind_err {p : Prog σ α} {f : α → Prog σ β} {s s' : σ} {e : TlsError} (h : Local p s (.err e) s') :
    Local (p.bind f) s (.err e) s' := by
  generalize hx : (Res.err e : Res TlsError α) = x at h
  induction h with
  | ret s r => subst hx; exact .ret _ _
  | step s u n r s'' h ih => exact .step _ _ _ _ _ (ih hx)

theorem Local.bind_panic {p : Prog σ α} {f : α → Prog σ β} {s s' : σ} (h : Local p s .panic s') :
    Local (p.bind f) s .panic s' := by
  generalize hx : (Res.panic : Res TlsError α) = x at h
  induction h with
  | ret s r => subst hx; exact .ret _ _
  | step s u n r s'' h ih => exact .step _ _ _ _ _ (ih hx)

theorem Like.bind {p : Prog σ α} {m : M TlsError σ α} {q : α → Prog σ β} {f : α → M TlsError σ β} (h : Like p m)
    (hf : ∀ a, Like (q a) (f a)) : Like (p.bind q) (m >>= f) := by
  intro s
  have h1 := h s
  rcases hm : m s with ⟨r, s1⟩
  rw [hm] at h1
  cases r with
  | ok a => rw [M.bind_ok hm]; exact h1.bind (hf a s1)
  | err e => rw [M.bind_err hm]; exact h1.bind_err
  | panic => rw [M.bind_panic hm]; exact h1.bind_panic

theorem cut_refl (p : Prog σ α) : ∀ s, Cut s p s p := by
  induction p with
  | ret r => intro s; exact .ret _ _
  | step u n ih => intro s; exact .right _ _ _ _ _ (.left _ _ _ _ _ (ih s (u s)))
  | load k ih => intro s; exact .load _ _ _ fun b => ih b s
  | store b k ih => intro s; exact .store _ _ _ _ (ih s)

theorem cut_bind {s s0 : σ} {p c : Prog σ α} {f g : α → Prog σ β} (h : Cut s p s0 c) (hf : ∀ a s, Cut s (f a) s (g a)) :
    Cut s (p.bind f) s0 (c.bind g) := by
  induction h with
  | ret s r => cases r with
    | ok a => exact hf a s
    | err e => exact .ret _ _
    | panic => exact .ret _ _
  | load s k k' h ih => exact .load _ _ _ ih
  | store s b k k' h ih => exact .store _ _ _ _ ih
  | left s u n s0 c h ih => exact .left _ _ _ _ _ ih
  | right s p s0 u n h ih => exact .right _ _ _ _ _ ih

end

theorem header_like : ∀ (fuel : Nat) (acc : Bytes), Like (headerProg fuel acc) (onRx (headerLoop fuel acc))
  | 0, acc => fun s => .ret _ _
  | fuel + 1, acc => by
    intro l
    unfold headerProg headerLoop
    split
    · exact .ret _ _
    · rcases hm : Rx.read (5 - acc.length) l.rx with ⟨r, rx1⟩
      have hl : Local (Prog.act (onRx (Rx.read (5 - acc.length)))) l r { l with rx := rx1 } := by
        have := Like.act (onRx (Rx.read (5 - acc.length))) l
        simpa only [onRx, hm] using this
      cases r with
      | err e => simp only [onRx, M.bind_err hm]; exact hl.bind_err
      | panic => simp only [onRx, M.bind_panic hm]; exact hl.bind_panic
      | ok bs =>
        simp only [onRx, M.bind_ok hm]
        refine hl.bind ?_
        split
        · exact .ret _ _
        · exact header_like fuel (acc ++ bs) { l with rx := rx1 }

theorem advance_like (amount : Nat) : ∀ (fuel remain : Nat) (l : RdLoc),
    Local (advanceProg amount fuel remain) l (advanceLoop amount fuel remain (l.rr, l.rx)).1
      { l with rr := (advanceLoop amount fuel remain (l.rr, l.rx)).2.1, rx := (advanceLoop amount fuel remain (l.rr, l.rx)).2.2 }
  | 0, remain, l => .ret _ _
  | fuel + 1, remain, l => by
    unfold advanceProg advanceLoop
    refine .step _ _ _ _ _ ?_
    dsimp only [id]
    split
    · split
      · exact .ret _ _
      · rcases hm : Rx.read remain l.rx with ⟨r, rx1⟩
        have hl : Local (Prog.act (onRx (Rx.read remain))) l r { l with rx := rx1 } := by
          have := Like.act (onRx (Rx.read remain)) l
          simpa only [onRx, hm] using this
        cases r with
        | err e => exact hl.bind_err
        | panic => exact hl.bind_panic
        | ok bs =>
          refine hl.bind ?_
          dsimp only
          split
          · exact .ret _ _
          · exact .step _ _ _ _ _ (advance_like amount fuel (remain - bs.length) _)
    · exact .ret _ _

theorem onSt_bind {α β : Type} (m : M TlsError RdSt α) (f : α → M TlsError RdSt β) :
    onSt (m >>= f) = onSt m >>= fun a => onSt (f a) := by
  funext l
  rcases hm : m ⟨l.rr, l.rx, l.rks.transcript⟩ with ⟨r, s1⟩
  have hm' : onSt m l = (r, { l with rr := s1.rr, rx := s1.rx, rks := { l.rks with transcript := s1.transcript } }) := by
    simp only [onSt, hm]
  cases r with
  | ok a => rw [M.bind_ok hm']; simp only [onSt, M.bind_ok hm]
  | err e => rw [M.bind_err hm']; simp only [onSt, M.bind_err hm]
  | panic => rw [M.bind_panic hm']; simp only [onSt, M.bind_panic hm]

theorem onRx_bind {α β : Type} (m : M TlsError Rx α) (f : α → M TlsError Rx β) :
    onRx (m >>= f) = onRx m >>= fun a => onRx (f a) := by
  funext l
  rcases hm : m l.rx with ⟨r, s1⟩
  have hm' : onRx m l = (r, { l with rx := s1 }) := by simp only [onRx, hm]
  cases r with
  | ok a => rw [M.bind_ok hm']; simp only [onRx, M.bind_ok hm]
  | err e => rw [M.bind_err hm']; simp only [onRx, M.bind_err hm]
  | panic => rw [M.bind_panic hm']; simp only [onRx, M.bind_panic hm]

/-- The loop of `advance` on what the reading half owns. -/
def loopOf (n : Nat) : M TlsError RdLoc Unit := fun l =>
  ((advanceLoop n (n + 1) n (l.rr, l.rx)).1,
    { l with rr := (advanceLoop n (n + 1) n (l.rr, l.rx)).2.1, rx := (advanceLoop n (n + 1) n (l.rr, l.rx)).2.2 })

theorem advance_parts (n : Nat) : onSt (RdSt.advance n) = contiguous n >>= fun _ => loopOf n := by
  funext l
  rcases hm : ensureContiguous n l.rr with ⟨r, rr1⟩
  have h1 : contiguous n l = (r, { l with rr := rr1 }) := by simp only [contiguous, hm]
  have h2 : onFst (ensureContiguous n) (l.rr, l.rx) = (r, (rr1, l.rx)) := by simp only [onFst, hm]
  cases r with
  | ok a => rw [M.bind_ok h1]; simp only [onSt, RdSt.advance, ETls.advance, M.bind_ok h2, loopOf]
  | err e => rw [M.bind_err h1]; simp only [onSt, RdSt.advance, ETls.advance, M.bind_err h2]
  | panic => rw [M.bind_panic h1]; simp only [onSt, RdSt.advance, ETls.advance, M.bind_panic h2]

theorem record_like : Like (recordProg S) (rdOwn (RdHalf.readRecord S)) := by
  have e0 : onSt RdSt.header = onRx nextRecordHeader := rfl
  have e1 : rdOwn (RdHalf.readRecord S) = onSt (readRecord S) := rfl
  have e : rdOwn (RdHalf.readRecord S) = onRx (headerLoop 6 []) >>= fun bytes => M.lift (RecordHeader.decode bytes) >>= fun h =>
      contiguous h.contentLength >>= fun _ => loopOf h.contentLength >>= fun _ => onSt (consumeRecord S h) := by
    rw [e1]
    unfold readRecord
    rw [onSt_bind, e0]
    unfold nextRecordHeader
    rw [onRx_bind, bind_assoc]
    refine congrArg (onRx (headerLoop 6 []) >>= ·) ?_
    funext bytes
    refine congrArg ((M.lift (RecordHeader.decode bytes) : M TlsError RdLoc RecordHeader) >>= ·) ?_
    funext h
    rw [onSt_bind, advance_parts, bind_assoc]
  rw [e]
  exact (header_like 6 []).bind fun bytes => (Like.act _).bind fun h => (Like.act _).bind fun _ =>
    Like.bind (fun l => advance_like _ _ _ l) fun _ => Like.act _

/-- `wrOwn` of code that leaves the flag alone, one part after the other. -/
theorem wrOwn_bind {α β : Type} (m : M TlsError WrHalf α) (f : α → M TlsError WrHalf β) (hm : ∀ w, (m w).2.opened = w.opened) :
    wrOwn (m >>= f) = wrOwn m >>= fun a => wrOwn (f a) := by
  funext l
  rcases h : m (l.half false) with ⟨r, w1⟩
  have ho : w1.opened = false := by have := hm (l.half false); rw [h] at this; exact this
  have h' : wrOwn m l = (r, w1.loc) := by simp only [wrOwn, h]
  have hw : w1.loc.half false = w1 := by
    obtain ⟨a, b, c, d, e⟩ := w1
    dsimp only at ho
    subst ho
    rfl
  cases r with
  | ok a => rw [M.bind_ok h']; simp only [wrOwn, M.bind_ok h, hw]
  | err e => rw [M.bind_err h']; simp only [wrOwn, M.bind_err h]
  | panic => rw [M.bind_panic h']; simp only [wrOwn, M.bind_panic h]

/-- `M.get` first. -/
theorem like_get {α : Type} (f : WrHalf → M TlsError WrHalf α) (q : WrLoc → Prog WrLoc α)
    (h : ∀ l, Local (q l) l (wrOwn (f (l.half false)) l).1 (wrOwn (f (l.half false)) l).2) :
    Like (.step id q) (wrOwn (M.get >>= f)) := by
  intro l
  refine .step _ _ _ _ _ ?_
  have e : wrOwn (M.get >>= f) l = wrOwn (f (l.half false)) l := by
    unfold wrOwn
    rw [M.get_bind]
  rw [e]
  exact h l

theorem flush_like : Like (flushProg S) (wrOwn (WrHalf.flush S)) := by
  unfold flushProg WrHalf.flush
  refine like_get _ _ fun l => ?_
  have hwb : (l.half false).wb = l.wb := rfl
  rw [hwb]
  split
  · exact .ret _ _
  · rw [wrOwn_bind _ _ fun w => rfl]
    refine (Like.act _).bind (fun slice => ?_) l
    rw [wrOwn_bind _ _ fun w => rfl]
    refine (Like.act _).bind (fun _ => ?_)
    rw [wrOwn_bind _ _ fun w => rfl]
    refine (Like.act _).bind (fun _ => ?_)
    have hfp : (l.half false).fp = l.fp := rfl
    rw [hfp]
    split
    · exact Like.act _
    · exact fun s => .ret _ _

theorem flush_keeps (w : WrHalf) : (WrHalf.flush S w).2.opened = w.opened :=
  congrArg (fun x => x.2.opened) (wflush_ignores S w.loc w.opened)

theorem ensure_like : Like (ensureProg S) (wrOwn (WrHalf.ensureRecord S)) := by
  unfold ensureProg WrHalf.ensureRecord
  refine like_get _ _ fun l => ?_
  have hwb : (l.half false).wb = l.wb := rfl
  rw [hwb]
  split
  · exact .ret _ _
  · rw [wrOwn_bind _ _ (flush_keeps S)]
    exact (flush_like S).bind (fun _ => Like.act _) l

/-- The reader's programs cut those of C96. -/
theorem reader_cut (op : ROp) (s : RdLoc) : Cut s (reader S op) s (ROp.prog S op) := by
  have hd : ∀ s, Cut s (dataProg S) s (RdLoc.readApplicationData S) := fun s =>
    cut_bind ((record_like S).cut s) fun rec s => cut_refl _ s
  have hl : ∀ fuel s, Cut s (fillLoop S fuel) s (RdLoc.fillLoop S fuel) := by
    intro fuel
    induction fuel with
    | zero => intro s; exact .ret _ _
    | succ n ih =>
      intro s
      unfold fillLoop RdLoc.fillLoop
      refine .right _ _ _ _ _ (.left _ _ _ _ _ ?_)
      dsimp only [id]
      split
      · exact cut_bind (hd s) fun _ s => ih s
      · exact .ret _ _
  have hf : ∀ s, Cut s (fill S) s (RdLoc.fill S) := by
    intro s
    unfold fill RdLoc.fill
    refine .load _ _ _ fun b => ?_
    cases b with
    | true => exact .right _ _ _ _ _ (.left _ _ _ _ _ (hl _ s))
    | false => exact .ret _ _
  cases op with
  | read n =>
    show Cut s (if n = 0 then _ else _) s (if n = 0 then _ else _)
    by_cases hn : n = 0
    · rw [if_pos hn, if_pos hn]
      exact .ret _ _
    · rw [if_neg hn, if_neg hn]
      exact cut_bind (hf s) fun _ s => cut_refl _ s
  | fillBuf => exact cut_bind (hf s) fun _ s => cut_refl _ s
  | consume n => exact cut_refl _ s
  | buffered ops revert => exact cut_bind (hf s) fun _ s => cut_refl _ s

/-- The writer's programs cut those of C96. -/
theorem writer_cut (op : WOp) (s : WrLoc) : Cut s (writer S op) s (WOp.prog S op) := by
  cases op with
  | write bs =>
    refine .load _ _ _ fun b => ?_
    cases b with
    | false => exact .ret _ _
    | true =>
      refine cut_bind ((ensure_like S).cut s) fun _ s => cut_bind (cut_refl _ s) fun n s => cut_bind (cut_refl _ s) fun full s =>
        cut_bind ?_ fun _ s => cut_refl _ s
      cases full with
      | true => exact (flush_like S).cut s
      | false => exact Like.cut (m := wrOwn (WrHalf.flushIf S false)) (fun s => .ret _ _) s
  | flush => exact cut_bind ((flush_like S).cut s) fun _ s => cut_refl _ s
  | setFlushPolicy p => exact cut_refl _ s

end Fine

/-- **C135, the code** With one step for each operation of the transport (and for the code between two of them), any interleaving
of a reading and a writing task is linearizable, in the sense of `C135_linearizable`. -/
theorem C135_transport (c : Conn) (rs : List ROp) (ws : List WOp) :
    ∃ lin : List Who → List AnyOp, (∀ s t, lin s <+: lin (s ++ t)) ∧ ∀ s,
      let x := (Sys.split c rs ws).runWith (Fine.reader S) (Fine.writer S) s
      let q := runAny S (lin s) c
      (∃ begun, rs = begun ++ x.rd.todo ∧ readerOps (lin s) <+: begun ∧ begun.length ≤ x.rd.outs.length + 1) ∧
      (∃ begun, ws = begun ++ x.wr.todo ∧ writerOps (lin s) <+: begun ∧ begun.length ≤ x.wr.outs.length + 1) ∧
      x.rd.outs <+: readerOuts q.1 ∧ x.wr.outs <+: writerOuts q.1 ∧ x.flag = q.2.opened ∧
      (x.rd.cur = none → x.rd.outs = readerOuts q.1 ∧ x.rd.loc.half x.flag = q.2.rd ∧
        rs = readerOps (lin s) ++ x.rd.todo) ∧
      (x.wr.cur = none → x.wr.outs = writerOuts q.1 ∧ x.wr.loc.half x.flag = q.2.wr ∧
        ws = writerOps (lin s) ++ x.wr.todo) :=
  C135_linearizable S (Fine.reader_cut S) (Fine.writer_cut S) c rs ws

/-- **C135** When both halves are done, they have seen a history of calls made one after the other, however their local code is
cut. -/
theorem C135_history {fr : ROp → Prog RdLoc ROut} {fw : WOp → Prog WrLoc Nat}
    (hr : ∀ op s, Cut s (fr op) s (ROp.prog S op)) (hw : ∀ op s, Cut s (fw op) s (WOp.prog S op)) (c : Conn) (rs : List ROp)
    (ws : List WOp) (sched : List Who) (dr : ((Sys.split c rs ws).runWith fr fw sched).rd.Done rs.length)
    (dw : ((Sys.split c rs ws).runWith fr fw sched).wr.Done ws.length) :
    let x := (Sys.split c rs ws).runWith fr fw sched
    ∃ ops, readerOps ops = rs ∧ writerOps ops = ws ∧
      readerOuts (runAny S ops c).1 = x.rd.outs ∧ writerOuts (runAny S ops c).1 = x.wr.outs ∧
      (runAny S ops c).2.rd = x.rd.loc.half x.flag ∧ (runAny S ops c).2.wr = x.wr.loc.half x.flag := by
  obtain ⟨lin, -, h⟩ := C135_linearizable S hr hw c rs ws
  obtain ⟨-, -, -, -, -, h1, h2⟩ := h sched
  obtain ⟨a1, a2, a3⟩ := h1 dr.1
  obtain ⟨b1, b2, b3⟩ := h2 dw.1
  rw [dr.2.1, List.append_nil] at a3
  rw [dw.2.1, List.append_nil] at b3
  exact ⟨lin sched, a3.symm, b3.symm, a1.symm, b1.symm, a2.symm, b2.symm⟩

/-- **C135, the blocking halves** Two threads that may be preempted anywhere between two accesses of the flag: the same. -/
theorem C135_threads {fr : ROp → Prog RdLoc ROut} {fw : WOp → Prog WrLoc Nat}
    (hr : ∀ op s, Cut s (fr op) s (Blk.Reader.prog S op)) (hw : ∀ op s, Cut s (fw op) s (Blk.Writer.prog S op)) (c : Conn)
    (rs : List ROp) (ws : List WOp) (sched : List Who) (dr : ((Sys.split c rs ws).runWith fr fw sched).rd.Done rs.length)
    (dw : ((Sys.split c rs ws).runWith fr fw sched).wr.Done ws.length) :
    let x := (Sys.split c rs ws).runWith fr fw sched
    ∃ ops, readerOps ops = rs ∧ writerOps ops = ws ∧
      readerOuts (runAny S ops c).1 = x.rd.outs ∧ writerOuts (runAny S ops c).1 = x.wr.outs ∧
      (runAny S ops c).2.rd = x.rd.loc.half x.flag ∧ (runAny S ops c).2.wr = x.wr.loc.half x.flag :=
  C135_history S (fun op s => Blk.Reader.prog_eq S ▸ hr op s) (fun op s => Blk.Writer.prog_eq S ▸ hw op s) c rs ws sched dr dw

/-- **C133 and C135** A session whose halves are driven by two tasks that may be interrupted at every operation of the transport:
when both have returned from all their calls, there is an order of the calls about which the description says exactly what the
tasks have seen, and what has been done to the transport. -/
theorem C135_session {S : Suite} {k : Spec.Setting} {d : Spec.Duplex} {c : Conn} (hu : ∀ ops, Used S k ops d c) (rs : List ROp)
    (ws : List WOp) (sched : List Who)
    (hr : ((Sys.split c rs ws).runWith (Fine.reader S) (Fine.writer S) sched).rd.Done rs.length)
    (hw : ((Sys.split c rs ws).runWith (Fine.reader S) (Fine.writer S) sched).wr.Done ws.length) :
    TasksUsed S k d c rs ws ((Sys.split c rs ws).runWith (Fine.reader S) (Fine.writer S) sched) := by
  obtain ⟨ops, h1, h2, h3, h4, -, h6⟩ := C135_history S (Fine.reader_cut S) (Fine.writer_cut S) c rs ws sched hr hw
  obtain ⟨us, evs, d', a1, a2, a3, a4⟩ := hu ops
  refine ⟨ops, h1, h2, (runAny S ops c).1, h3, h4, us, evs, d', a1, ?_, fun hd => ?_⟩
  · rw [← runAny_take]; exact a2
  · obtain ⟨e, rfl⟩ := Option.ne_none_iff_exists'.1 hd
    obtain ⟨b1, -, -⟩ := a4 e rfl
    refine ⟨by rw [runAny_length, b1], ?_⟩
    have h7 : ((Sys.split c rs ws).runWith (Fine.reader S) (Fine.writer S) sched).wr.loc.tx = (runAny S ops c).2.wr.tx := by
      rw [h6]; rfl
    rw [h7]
    show (runAny S ops c).2.tx.log = _
    rw [← a3, b1, List.take_length]

/-! ## Examples -/

/-- The programs with one step for each operation of the transport are such for the blocking halves too. -/
example (op : ROp) (s : RdLoc) : Cut s (Fine.reader S op) s (Blk.Reader.prog S op) := Blk.Reader.prog_eq S ▸ Fine.reader_cut S op s

/-- The writer is interrupted in `flush` (the record is written, the counter not yet increased); meanwhile the reader gets the
closure alert.  The flush succeeds, the next `write` is refused. -/
example :
    let x := (Sys.split exClosing [.read 10] [.write [1], .flush, .write [2]]).runWith (Fine.reader toySuite) (Fine.writer toySuite)
    (x (List.replicate 12 .writer)).wr.loc.tx.log.length = 1 ∧ (x (List.replicate 12 .writer)).wr.loc.wks.st.counter = 0 ∧
    (x (List.replicate 12 .writer ++ List.replicate 20 .reader)).seen = ([.err .connectionClosed], [.ok 1], false) ∧
    (x (List.replicate 12 .writer ++ List.replicate 20 .reader ++ List.replicate 12 .writer)).seen =
      ([.err .connectionClosed], [.ok 1, .ok 0, .err .missingHandshake], false) := by decide +kernel

/-- The reader is interrupted after the first bytes of the header of that alert: the writer goes on as on an open connection. -/
example :
    let x := (Sys.split exClosing [.read 10] [.write [1], .flush, .write [2]]).runWith (Fine.reader toySuite) (Fine.writer toySuite)
    (x (List.replicate 9 .reader)).rd.loc.rx ≠ exClosing.rx ∧
    (x (List.replicate 9 .reader ++ List.replicate 40 .writer)).seen = ([], [.ok 1, .ok 0, .ok 1], true) := by decide +kernel

/-- When both are done: the hypotheses of `C135_history`. -/
example :
    let x := (Sys.split exClosing [.read 10] [.write [1], .flush, .write [2]]).runWith (Fine.reader toySuite) (Fine.writer toySuite)
      (List.replicate 12 .writer ++ List.replicate 20 .reader ++ List.replicate 12 .writer)
    x.rd.Done 1 ∧ x.wr.Done 3 :=
  ⟨⟨Option.isNone_iff_eq_none.1 (by decide +kernel), List.isEmpty_iff.1 (by decide +kernel), by decide +kernel⟩,
   ⟨Option.isNone_iff_eq_none.1 (by decide +kernel), List.isEmpty_iff.1 (by decide +kernel), by decide +kernel⟩⟩

end ETls
