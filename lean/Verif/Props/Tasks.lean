import Verif.Props.AnyServer2
import Verif.Props.Threads

/-! # C133 and C134 together: two tasks or two threads in a session -/

namespace ETls

open Spec Crypto

variable {V : Type} {S : Suite}

/-- Two tasks that have made all their calls `rs` and `ws` on the halves of `c` have seen, and done to the transport, what the
description says about one order of these calls. -/
def TasksUsed (S : Suite) (k : Setting) (d : Duplex) (c : Conn) (rs : List ROp) (ws : List WOp) (x : Sys) : Prop :=
  ∃ ops, readerOps ops = rs ∧ writerOps ops = ws ∧ ∃ outs : List AnyOut, readerOuts outs = x.rd.outs ∧ writerOuts outs = x.wr.outs ∧
    ∃ us evs d', Uses S k (ops.map AnyOp.use) d us evs d' ∧ List.Forall₂ UseAgrees us (outs.take us.length) ∧
      (d' ≠ none → us.length = outs.length ∧ x.wr.loc.tx.log = c.tx.log ++ evs)

theorem runAny_take (ops : List AnyOp) : ∀ (n : Nat) (c : Conn), (runAny S (ops.take n) c).1 = (runAny S ops c).1.take n := by
  induction ops with
  | nil => intro n c; simp [runAny]
  | cons op ops ih =>
    intro n c
    cases n with
    | zero => simp [runAny]
    | succ n => simp only [List.take_succ_cons, runAny, ih]

theorem runAny_length (ops : List AnyOp) : ∀ c : Conn, (runAny S ops c).1.length = ops.length := by
  induction ops with
  | nil => intro c; rfl
  | cons op ops ih => intro c; simp only [runAny, List.length_cons, ih]

/-- **C133 and C96** In a session (any connection that fits the description), two tasks drive the two halves and their steps
interleave in any way.  When both have returned from all their calls, there is an order of the calls about which the description
says exactly what the tasks have seen, and what has been done to the transport. -/
theorem C133_tasks {k : Setting} {d : Duplex} {c : Conn} (hu : ∀ ops, Used S k ops d c) (rs : List ROp) (ws : List WOp)
    (sched : List Who) (hr : ((Sys.split c rs ws).run S sched).rd.Done rs.length)
    (hw : ((Sys.split c rs ws).run S sched).wr.Done ws.length) :
    TasksUsed S k d c rs ws ((Sys.split c rs ws).run S sched) := by
  obtain ⟨ops, h1, h2, h3, h4, -, h6⟩ := C96_history S c rs ws sched hr hw
  obtain ⟨us, evs, d', a1, a2, a3, a4⟩ := hu ops
  refine ⟨ops, h1, h2, (runAny S ops c).1, h3, h4, us, evs, d', a1, ?_, fun hd => ?_⟩
  · rw [← runAny_take]; exact a2
  · obtain ⟨e, rfl⟩ := Option.ne_none_iff_exists'.1 hd
    obtain ⟨b1, -, -⟩ := a4 e rfl
    refine ⟨by rw [runAny_length, b1], ?_⟩
    have h7 : ((Sys.split c rs ws).run S sched).wr.loc.tx = (runAny S ops c).2.wr.tx := by rw [h6]; rfl
    rw [h7]
    show (runAny S ops c).2.tx.log = _
    rw [← a3, b1, List.take_length]

/-- **C133 and C134** The same with two threads and the halves of a blocking connection. -/
theorem C133_threads {k : Setting} {d : Duplex} {c : Conn} (hu : ∀ ops, Used S k ops d c) (rs : List ROp) (ws : List WOp)
    (sched : List Who) (hr : (Blk.threads S c rs ws sched).rd.Done rs.length) (hw : (Blk.threads S c rs ws sched).wr.Done ws.length) :
    TasksUsed S k d c rs ws (Blk.threads S c rs ws sched) := by
  rw [Blk.threads_eq] at *
  exact C133_tasks hu rs ws sched hr hw

/-! ## Examples -/

set_option maxRecDepth 100000 in
-- a session with AES-128 in which the two halves are driven by two tasks (or threads), whatever the server sends afterwards
example (rest : Bytes) : ∃ rx c c', Conn.new (aes128GcmSha256 false) rx ⟨[], []⟩ (List.replicate 2048 0) (List.replicate 2048 0) = .ok c ∧
    Conn.open_ (aes128GcmSha256 false) recPskCfg recPskProvider () c = (.ok (), c') ∧
    ∀ rs ws, ∃ N, ∀ sched : List Who, N ≤ sched.count .reader → N ≤ sched.count .writer →
      TasksUsed (aes128GcmSha256 false)
        (pskServer.setting (aes128GcmSha256 false) (helloMsg (aes128GcmSha256 false) recPskCfg recPskProvider) 2048 2048)
        (justOpened rest c'.tx.ctl) c' rs ws ((Sys.split c' rs ws).run (aes128GcmSha256 false) sched) ∧
      TasksUsed (aes128GcmSha256 false)
        (pskServer.setting (aes128GcmSha256 false) (helloMsg (aes128GcmSha256 false) recPskCfg recPskProvider) 2048 2048)
        (justOpened rest c'.tx.ctl) c' rs ws (Blk.threads (aes128GcmSha256 false) c' rs ws sched) := by
  obtain ⟨c, hc⟩ := new_exists (aes128GcmSha256 false)
    [.data (pskServer.answer (aes128GcmSha256 false) (helloMsg (aes128GcmSha256 false) recPskCfg recPskProvider) ++ rest)] 2048 (by decide)
  have hl : 5 + helloLength (aes128GcmSha256 false) recPskCfg recPskProvider ≤ 2048 := by decide +kernel
  obtain ⟨c', k1, -, -, k2⟩ := C133_psk ⟨false, .inl rfl⟩ recPskCfg recPskProvider rfl () pskServer
    ⟨by decide, by decide, by decide, ⟨.ecdsaSecp256r1Sha256, by decide⟩, fun _ => le_trans (show 0 + 8 ≤ 80 by decide) (le_max_left _ _)⟩ (fun h => by cases h) (by decide +kernel) recPsk_fits rec_scalar
    (by decide +kernel) hc
    (by intro e he; exact ⟨_, by simp [Textbook.answer, ServerFlight.bytes, plaintextRecord], List.mem_singleton.1 he⟩)
    (by intro a ha; cases ha) (rest := rest) (by simp [Rx.bytes]) (by simpa using hl) (by simp) (by simp) (by simp)
    (by rw [List.length_replicate]; decide)
  rw [List.length_replicate] at k2
  refine ⟨_, c, c', hc, k1, fun rs ws => ?_⟩
  obtain ⟨⟨n, h1⟩, m, h2⟩ := C96_wait_free (aes128GcmSha256 false) c' rs ws
  refine ⟨max n m, fun sched a b => ?_⟩
  have hr := h1 sched (le_trans (le_max_left _ _) a)
  have hw := h2 sched (le_trans (le_max_right _ _) b)
  refine ⟨C133_tasks k2 rs ws sched hr hw, ?_⟩
  rw [← Blk.threads_eq] at hr hw
  exact C133_threads k2 rs ws sched hr hw

end ETls
