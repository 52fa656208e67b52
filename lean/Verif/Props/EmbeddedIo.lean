import Verif.Model.EmbeddedIo
import Verif.Props.Writer
import Verif.Props.Truncation
import Verif.Props.AfterOpen
import Verif.Proofs.Honest
import Verif.Props.Forgery

/-! # C121: `write_all` and `read_exact` -/

namespace ETls

variable (S : Suite) {V : Type}

open Spec (Writer Wrote WriteCall ciphertextRecord)

/-! ## `write_all` -/

/-- One `write` of a non-empty slice on an open writing half with room: whatever the transport answers, it takes
`x.takes` bytes, at least one, or fails. -/
theorem write_takes (hS : S.Sized) (w : WrHalf) (x : Writer) (hx : w.Is S x) (ho : w.opened = true)
    (hroom : (x.pending.getD []).length < w.wb.buffer.length - 133) (hseq : x.seq + 1 < 2 ^ 64) (bs : Bytes)
    (hne : bs ≠ []) :
    (∃ x', (WrHalf.write S bs w).1 = .ok (x.takes (w.wb.buffer.length - 133) bs) ∧ (WrHalf.write S bs w).2.Is S x' ∧
      (x'.pending.getD []).length < w.wb.buffer.length - 133 ∧ x'.seq ≤ x.seq + 1 ∧
      (WrHalf.write S bs w).2.opened = true ∧ (WrHalf.write S bs w).2.wb.buffer.length = w.wb.buffer.length) ∨
    ∃ e, (WrHalf.write S bs w).1 = .err e := by
  have hd := wop_does S hS (.write bs) w x hx
  simp only [WOp.run, WOp.spec, WriteCall.run] at hd
  have hpos : 0 < bs.length := List.length_pos_iff.2 hne
  unfold Writer.write at hd
  rw [if_pos ho] at hd
  have ht : x.takes (w.wb.buffer.length - 133) bs = min bs.length (w.wb.buffer.length - 133 - (x.pending.getD []).length) := rfl
  split at hd
  · simp only [Writer.flush, Writer.add] at hd
    unfold Spec.send at hd
    rcases ha : Spec.answer w.tx.ctl with ⟨_ | ⟨k, n⟩, r⟩
    · rw [ha] at hd
      simp only [if_pos hseq] at hd
      unfold Spec.settle at hd
      split at hd
      · rcases hb : Spec.answer r with ⟨_ | ⟨k, n⟩, r2⟩
        · rw [hb] at hd
          exact .inl ⟨_, hd.result, hd.writer, by simp; omega, by simp, hd.opened.trans ho, hd.size⟩
        · rw [hb] at hd
          exact .inr ⟨_, hd.result⟩
      · exact .inl ⟨_, hd.result, hd.writer, by simp; omega, by simp, hd.opened.trans ho, hd.size⟩
    · rw [ha] at hd
      exact .inr ⟨_, hd.result⟩
  · next hnf =>
    refine .inl ⟨_, hd.result, hd.writer, ?_, by simp [Writer.add], hd.opened.trans ho, hd.size⟩
    simp only [Writer.add, Option.getD_some, List.length_append, List.length_take]
    omega

/-- What `write_all` did to the writing half: the slices it handed to `write`, and the results. -/
structure WritesAll (bs : Bytes) (w : WrHalf) (r : Res TlsError Unit) (w' : WrHalf) (slices : List Bytes)
    (outs : List (Res TlsError Nat)) : Prop where
  run : runOps S (slices.map WOp.write) w = (outs, w')
  /-- each slice is what the writes before it have left -/
  suffix : ∀ (i : Nat) (d : Bytes), slices[i]? = some d → d ≠ [] ∧
    bs = accepted ((slices.take i).map WOp.write) (outs.take i) ++ d
  /-- success: every write succeeded, and together they took everything -/
  ok : ∀ u, r = .ok u → accepted (slices.map WOp.write) outs = bs ∧ ∀ o ∈ outs, ∃ n, o = .ok n
  /-- failure: the last write failed, the others did not -/
  err : ∀ e, r = .err e → ∃ before, outs = before ++ [.err e] ∧ ∀ o ∈ before, ∃ n, o = .ok n

theorem writeAllLoop_calls (hS : S.Sized) : ∀ (fuel : Nat) (bs : Bytes) (w : WrHalf) (x : Writer), bs.length < fuel →
    w.Is S x → w.opened = true → (x.pending.getD []).length < w.wb.buffer.length - 133 → x.seq + bs.length < 2 ^ 64 →
    (writeAllLoop (WrHalf.write S) fuel bs w).1 ≠ .panic ∧ ∃ slices outs,
      WritesAll S bs w (writeAllLoop (WrHalf.write S) fuel bs w).1 (writeAllLoop (WrHalf.write S) fuel bs w).2 slices outs := by
  intro fuel
  induction fuel with
  | zero => intro bs w x h; omega
  | succ fuel ih =>
    intro bs w x hfuel hx ho hroom hseq
    unfold writeAllLoop
    by_cases hne : bs = []
    · rw [if_pos hne]
      exact ⟨by simp [M.pure_apply], [], [], ⟨rfl, by simp, by simp [hne, accepted], by simp [M.pure_apply]⟩⟩
    · rw [if_neg hne]
      have hpos : 0 < bs.length := List.length_pos_iff.2 hne
      have ht : x.takes (w.wb.buffer.length - 133) bs =
        min bs.length (w.wb.buffer.length - 133 - (x.pending.getD []).length) := rfl
      rcases write_takes S hS w x hx ho hroom (by omega) bs hne with ⟨x', h1, h2, h3, h4, h5, h6⟩ | ⟨e, h1⟩
      · rcases hw : WrHalf.write S bs w with ⟨r, w1⟩
        rw [hw] at h1 h2 h5 h6
        simp only at h1 h2 h5 h6
        generalize x.takes (w.wb.buffer.length - 133) bs = n at h1 ht
        subst h1
        rw [M.bind_ok hw, if_neg (by omega)]
        obtain ⟨k1, slices, outs, k2⟩ := ih (bs.drop n) w1 x' (by rw [List.length_drop]; omega) h2 h5 (by rw [h6]; exact h3)
          (by rw [List.length_drop]; omega)
        generalize writeAllLoop (WrHalf.write S) fuel (bs.drop n) w1 = res at k1 k2
        refine ⟨k1, bs :: slices, .ok n :: outs, ⟨?_, ?_, ?_, ?_⟩⟩
        · simp only [List.map_cons, runOps, WOp.run, hw, k2.run]
        · intro i d hd
          cases i with
          | zero =>
            simp only [List.getElem?_cons_zero, Option.some.injEq] at hd
            subst hd
            exact ⟨hne, rfl⟩
          | succ i =>
            obtain ⟨j1, j2⟩ := k2.suffix i d (by simpa using hd)
            refine ⟨j1, ?_⟩
            simp only [List.take_succ_cons, List.map_cons, accepted, List.zipWith_cons_cons, List.flatten_cons, acceptedBy,
              List.append_assoc]
            rw [accepted] at j2
            rw [← j2, List.take_append_drop]
        · intro u hu
          obtain ⟨j1, j2⟩ := k2.ok u hu
          refine ⟨?_, ?_⟩
          · simp only [List.map_cons, accepted, List.zipWith_cons_cons, List.flatten_cons, acceptedBy]
            rw [accepted] at j1
            rw [j1, List.take_append_drop]
          · intro o ho'
            rcases List.mem_cons.1 ho' with rfl | ho'
            · exact ⟨n, rfl⟩
            · exact j2 o ho'
        · intro e he
          obtain ⟨before, j1, j2⟩ := k2.err e he
          refine ⟨.ok n :: before, by rw [j1]; rfl, ?_⟩
          intro o ho'
          rcases List.mem_cons.1 ho' with rfl | ho'
          · exact ⟨n, rfl⟩
          · exact j2 o ho'
      · rcases hw : WrHalf.write S bs w with ⟨r, w1⟩
        rw [hw] at h1
        simp only at h1
        subst h1
        rw [M.bind_err hw]
        refine ⟨by simp, [bs], [.err e], ⟨?_, ?_, by simp, ?_⟩⟩
        · simp only [List.map_cons, List.map_nil, runOps, WOp.run, hw]
        · intro i d hd
          cases i with
          | zero =>
            simp only [List.getElem?_cons_zero, Option.some.injEq] at hd
            subst hd
            exact ⟨hne, rfl⟩
          | succ i => simp at hd
        · intro e' he
          simp only [Res.err.injEq] at he
          exact ⟨[], by simp [he], by simp⟩

/-- `write_all` of a connection is that of its writing half. -/
theorem writeAllLoop_onWr : ∀ (fuel : Nat) (bs : Bytes),
    writeAllLoop (Conn.write S) fuel bs = onWr (writeAllLoop (WrHalf.write S) fuel bs) := by
  intro fuel
  induction fuel with
  | zero => intro bs; rfl
  | succ fuel ih =>
    intro bs
    funext c
    unfold writeAllLoop
    by_cases hne : bs = []
    · rw [if_pos hne, if_pos hne]; rfl
    · rw [if_neg hne, if_neg hne, onWr_bind]
      unfold Conn.write
      rcases hw : onWr (WrHalf.write S bs) c with ⟨n | e | _, c1⟩
      · rw [M.bind_ok hw, M.bind_ok hw]
        split
        · rfl
        · rw [← ih]; rfl
      · rw [M.bind_err hw, M.bind_err hw]
      · rw [M.bind_panic hw, M.bind_panic hw]

theorem Conn.writeAll_onWr (bs : Bytes) : Conn.writeAll S bs = onWr (ETls.writeAll (WrHalf.write S) bs) :=
  writeAllLoop_onWr S _ _

/-- The writing side after a successful `open` and any calls of both sides. -/
theorem any_is (hS : S.Lawful) (cfg : Config) (p : Provider V) (hr : p.random.length = 32) (v : V) {c c' : Conn}
    (hf : c.Fresh S) (h : Conn.open_ S cfg p v c = (.ok (), c')) (ops : List AnyOp) (hops : ops.length < 2 ^ 64) :
    ∃ x : Writer, (runAny S ops c').2.wr.Is S x ∧
      (x.pending.getD []).length < (runAny S ops c').2.wb.buffer.length - 133 ∧ x.seq ≤ ops.length ∧
      (runAny S ops c').2.wr.buffered = x.pending.getD [] := by
  obtain ⟨h1, h2, h3, _, h5⟩ := open_leaves S hS cfg p hr v hf h
  obtain ⟨content, i1, i2, i3, i4, i5⟩ := any_ready S hS ops c' []
    ⟨.idle h1, by show 133 ≤ c'.wb.buffer.length; omega, h3⟩ (by omega)
  have hnf := i5 (.inl rfl)
  generalize (runAny S ops c').2 = c2 at *
  have hb := ready_buffered c2.wr content i1.wb
  obtain ⟨hw, hsz, hiv⟩ := i1
  cases hw with
  | idle hi =>
    exact ⟨⟨none, c2.ks.client.st.counter, c2.fp⟩, ⟨.idle hi, rfl, rfl, hsz, hiv⟩, by simp; omega, by simp only; omega, hb⟩
  | open_ _ hh hl =>
    refine ⟨⟨some content, c2.ks.client.st.counter, c2.fp⟩, ⟨.record content hh hl, rfl, rfl, hsz, hiv⟩, ?_, by simp only; omega, hb⟩
    simp only [Option.getD_some]
    omega

/-- **C121, `write_all`, any transport.** After a successful `open` of a new connection and any calls of both sides that
leave it open, `write_all` of any slice does not panic and ends, whatever the transport does.  It is a history of `write`
calls, each given what the others have left.  If it succeeds they all succeeded and took all of the slice; if it fails,
the last of them failed with that error. -/
theorem C121_write_all (hS : S.Lawful) (cfg : Config) (p : Provider V) (hr : p.random.length = 32) (v : V)
    {c c' : Conn} (hf : c.Fresh S) (h : Conn.open_ S cfg p v c = (.ok (), c')) (ops : List AnyOp) (bs : Bytes)
    (hops : ops.length + bs.length < 2 ^ 64) (ho : (runAny S ops c').2.opened = true) :
    (Conn.writeAll S bs (runAny S ops c').2).1 ≠ .panic ∧ ∃ slices outs,
      WritesAll S bs (runAny S ops c').2.wr (Conn.writeAll S bs (runAny S ops c').2).1
        (Conn.writeAll S bs (runAny S ops c').2).2.wr slices outs := by
  obtain ⟨x, h1, h2, h3, -⟩ := any_is S hS cfg p hr v hf h ops (by omega)
  rw [Conn.writeAll_onWr]
  generalize (runAny S ops c').2 = c2 at *
  exact writeAllLoop_calls S hS.sized (bs.length + 1) bs c2.wr x (by omega) h1 ho h2 (by omega)

/-! ## `write_all` over a working transport -/

/-- The effects of sending the full records of `all`: `k` records of `limit` bytes each, numbered from `seq`, each followed
by a flush if the policy is `Strict`. -/
def Spec.fullRecords (key iv : Bytes) (limit seq : Nat) (policy : FlushPolicy) (all : Bytes) (k : Nat) : List OutEv :=
  (List.range k).flatMap fun i =>
    .wrote (ciphertextRecord S key iv (seq + i) 23 ((all.drop (i * limit)).take limit)) ::
      (if policy = .strict then [.flushed] else [])

theorem Spec.fullRecords_succ (key iv : Bytes) (limit seq : Nat) (policy : FlushPolicy) (all : Bytes) (k : Nat) :
    Spec.fullRecords S key iv limit seq policy all (k + 1) =
      .wrote (ciphertextRecord S key iv seq 23 (all.take limit)) :: (if policy = .strict then [.flushed] else []) ++
        Spec.fullRecords S key iv limit (seq + 1) policy (all.drop limit) k := by
  unfold Spec.fullRecords
  rw [List.range_succ_eq_map, List.flatMap_cons, List.flatMap_map]
  simp only [Nat.add_zero, Nat.zero_mul, List.drop_zero, List.cons_append]
  congr 2
  refine List.flatMap_congr fun i _ => ?_
  rw [List.drop_drop, Nat.succ_eq_add_one, Nat.add_mul, Nat.one_mul, Nat.add_comm i 1, Nat.add_assoc, Nat.add_comm limit]

theorem answer_reliable {ctl : List OutCtl} (h : ∀ c ∈ ctl, c = .ok) :
    ∃ r, Spec.answer ctl = (none, r) ∧ ∀ c ∈ r, c = .ok := by
  cases ctl with
  | nil => exact ⟨[], rfl, h⟩
  | cons a r =>
    obtain rfl := h a (by simp)
    exact ⟨r, rfl, fun c hc => h c (by simp [hc])⟩

/-- The writing side after `write_all`: the rest of the data that does not fill a record waits. -/
def Spec.Writer.rest (limit : Nat) (x : Writer) (bs : Bytes) : Option Bytes :=
  let all := x.pending.getD [] ++ bs
  if all.length % limit = 0 then none else some (all.drop (all.length / limit * limit))

theorem writeAllLoop_does (hS : S.Sized) : ∀ (fuel : Nat) (bs : Bytes) (w : WrHalf) (x : Writer), bs.length < fuel →
    w.Is S x → w.opened = true → (x.pending.getD []).length < w.wb.buffer.length - 133 → x.seq + bs.length < 2 ^ 64 →
    (bs ≠ [] ∨ x.pending = none) → Reliable w.tx →
    ∃ w', writeAllLoop (WrHalf.write S) fuel bs w = (.ok (), w') ∧
      w'.tx.log = w.tx.log ++ Spec.fullRecords S w.wks.st.key w.wks.st.iv (w.wb.buffer.length - 133) x.seq x.policy
        (x.pending.getD [] ++ bs) ((x.pending.getD [] ++ bs).length / (w.wb.buffer.length - 133)) ∧
      w'.Is S ⟨x.rest (w.wb.buffer.length - 133) bs,
        x.seq + (x.pending.getD [] ++ bs).length / (w.wb.buffer.length - 133), x.policy⟩ ∧
      Reliable w'.tx ∧ w'.opened = true ∧ w'.wks.st.key = w.wks.st.key ∧ w'.wks.st.iv = w.wks.st.iv ∧
      w'.wb.buffer.length = w.wb.buffer.length := by
  intro fuel
  induction fuel with
  | zero => intro bs w x h; omega
  | succ fuel ih =>
    intro bs w x hfuel hx ho hroom hseq hor hrel
    unfold writeAllLoop
    by_cases hne : bs = []
    · have hp : x.pending = none := hor.resolve_left (fun h => h hne)
      rw [if_pos hne]
      subst hne
      obtain ⟨pending, seq, policy⟩ := x
      simp only at hp
      subst hp
      refine ⟨w, rfl, by simp [Spec.fullRecords], ?_, hrel, ho, rfl, rfl, rfl⟩
      simpa [Spec.Writer.rest] using hx
    · rw [if_neg hne]
      have hpos : 0 < bs.length := List.length_pos_iff.2 hne
      have hd := wop_does S hS (.write bs) w x hx
      simp only [WOp.run, WOp.spec, WriteCall.run] at hd
      unfold Writer.write at hd
      rw [if_pos ho] at hd
      generalize hlim : w.wb.buffer.length - 133 = limit at *
      have ht : x.takes limit bs = min bs.length (limit - (x.pending.getD []).length) := rfl
      split at hd
      · next hfull =>
        have hn : x.takes limit bs = limit - (x.pending.getD []).length := by omega
        simp only [Writer.flush, Writer.add] at hd
        unfold Spec.send at hd
        obtain ⟨r, ha, hr⟩ := answer_reliable hrel
        rw [ha] at hd
        have hs1 : x.seq + 1 < 2 ^ 64 := by omega
        simp only [if_pos hs1] at hd
        have hpol : (x.policy == .strict) = true ∨ (x.policy == .strict) = false := by cases (x.policy == .strict) <;> simp
        rcases hw : WrHalf.write S bs w with ⟨res, w1⟩
        rw [hw] at hd
        simp only at hd
        -- one full record
        have key : res = .ok (x.takes limit bs) ∧ Reliable w1.tx ∧
            w1.tx.log = w.tx.log ++ (.wrote (ciphertextRecord S w.wks.st.key w.wks.st.iv x.seq 23
              (x.pending.getD [] ++ bs.take (x.takes limit bs))) :: (if x.policy = .strict then [.flushed] else [])) ∧
            w1.Is S ⟨none, x.seq + 1, x.policy⟩ := by
          unfold Spec.settle at hd
          by_cases hst : x.policy = .strict
          · rw [if_pos (by rw [hst]; rfl)] at hd
            obtain ⟨r2, hb, hr2⟩ := answer_reliable hr
            rw [hb] at hd
            refine ⟨hd.result, ?_, ?_, hd.writer⟩
            · intro c hc; rw [hd.tx] at hc; exact hr2 c hc
            · rw [hd.tx, if_pos hst]
          · have hst' : (x.policy == FlushPolicy.strict) = false := by simpa using hst
            rw [if_neg (by rw [hst']; decide)] at hd
            refine ⟨hd.result, ?_, ?_, hd.writer⟩
            · intro c hc; rw [hd.tx] at hc; exact hr c hc
            · rw [hd.tx, if_neg hst]
        obtain ⟨rfl, k2, k3, k4⟩ := key
        have hkey := hd.key
        have hiv := hd.iv
        have hsize := hd.size
        have hop := hd.opened
        clear hd
        rw [M.bind_ok hw, if_neg (by omega)]
        obtain ⟨w', i1, i2, i3, i4, i5, i6, i7, i8⟩ := ih (bs.drop (x.takes limit bs)) w1 ⟨none, x.seq + 1, x.policy⟩
          (by rw [List.length_drop]; omega) k4 (hop.trans ho) (by simp; omega) (by simp only [List.length_drop]; omega)
          (.inr rfl) k2
        have hl1 : w1.wb.buffer.length - 133 = limit := by omega
        rw [hl1, hkey, hiv] at i2
        rw [hl1] at i3
        simp only [Option.getD_none, List.nil_append] at i2 i3
        have hall : x.pending.getD [] ++ bs = (x.pending.getD [] ++ bs.take (x.takes limit bs)) ++ bs.drop (x.takes limit bs) := by
          rw [List.append_assoc, List.take_append_drop]
        have hlen : (x.pending.getD [] ++ bs.take (x.takes limit bs)).length = limit := by
          rw [List.length_append, List.length_take]; omega
        have hk : (x.pending.getD [] ++ bs).length / limit = (bs.drop (x.takes limit bs)).length / limit + 1 := by
          rw [hall, List.length_append, hlen, Nat.add_comm, Nat.add_div_right _ (by omega)]
        refine ⟨w', i1, ?_, ?_, i4, i5, i6.trans hkey, i7.trans hiv, i8.trans hsize⟩
        · rw [i2, k3, hk, Spec.fullRecords_succ, List.append_assoc]
          rw [hall, List.take_left' hlen, List.drop_left' hlen]
        · have hrest : Writer.rest limit ⟨none, x.seq + 1, x.policy⟩ (bs.drop (x.takes limit bs)) = x.rest limit bs := by
            unfold Spec.Writer.rest
            simp only [Option.getD_none, List.nil_append]
            rw [hk]
            have hm : (x.pending.getD [] ++ bs).length % limit = (bs.drop (x.takes limit bs)).length % limit := by
              rw [hall, List.length_append, hlen, Nat.add_mod_left]
            rw [hm]
            have hdr : (x.pending.getD [] ++ bs).drop (((bs.drop (x.takes limit bs)).length / limit + 1) * limit) =
                (bs.drop (x.takes limit bs)).drop ((bs.drop (x.takes limit bs)).length / limit * limit) := by
              rw [Nat.add_mul, Nat.one_mul, Nat.add_comm, ← List.drop_drop]
              conv => lhs; rw [hall]
              rw [List.drop_left' hlen]
            rw [hdr]
          rw [hrest] at i3
          rw [hk, show x.seq + ((bs.drop (x.takes limit bs)).length / limit + 1) =
            x.seq + 1 + (bs.drop (x.takes limit bs)).length / limit by omega]
          exact i3
      · next hnf =>
        have hn : x.takes limit bs = bs.length := by omega
        rcases hw : WrHalf.write S bs w with ⟨res, w1⟩
        rw [hw] at hd
        simp only at hd
        have hres : res = .ok bs.length := by rw [hd.result, hn]
        subst hres
        rw [M.bind_ok hw, if_neg (by omega), List.drop_length]
        have hfin : writeAllLoop (WrHalf.write S) fuel [] w1 = (.ok (), w1) := by
          cases fuel with
          | zero => omega
          | succ fuel => rfl
        have hk : (x.pending.getD [] ++ bs).length / limit = 0 := by
          rw [List.length_append]; exact Nat.div_eq_of_lt (by omega)
        have hm : (x.pending.getD [] ++ bs).length % limit = (x.pending.getD [] ++ bs).length := by
          rw [List.length_append]; exact Nat.mod_eq_of_lt (by omega)
        refine ⟨w1, hfin, ?_, ?_, ?_, hd.opened.trans ho, hd.key, hd.iv, hd.size⟩
        · rw [hd.tx, hk]; simp [Spec.fullRecords]
        · have hwr := hd.writer
          unfold Writer.add at hwr
          rw [hn, List.take_length] at hwr
          unfold Spec.Writer.rest
          simp only
          rw [hk, hm, if_neg (by rw [List.length_append]; omega)]
          simpa using hwr
        · intro c hc
          rw [hd.tx] at hc
          exact hrel c hc

/-- **C121, `write_all`, working transport.** After a successful `open` of a new connection and any calls of both sides
that leave it open, `write_all` of a non-empty slice over a transport that works from now on succeeds.  With what was
waiting before it, the data is cut into records of `limit` bytes (the size of the write buffer less 133): all that are full
are sent, in order and numbered from the next record number, the rest waits. -/
theorem C121_sends (hS : S.Lawful) (cfg : Config) (p : Provider V) (hr : p.random.length = 32) (v : V)
    {c c' : Conn} (hf : c.Fresh S) (h : Conn.open_ S cfg p v c = (.ok (), c')) (ops : List AnyOp) (bs : Bytes) (hbs : bs ≠ [])
    (hops : ops.length + bs.length < 2 ^ 64) (ho : (runAny S ops c').2.opened = true) (ht : Reliable (runAny S ops c').2.tx) :
    let c2 := (runAny S ops c').2
    let limit := c2.wb.buffer.length - 133
    let all := c2.wr.buffered ++ bs
    ∃ c3, Conn.writeAll S bs c2 = (.ok (), c3) ∧
      c3.tx.log = c2.tx.log ++ Spec.fullRecords S c2.ks.client.st.key c2.ks.client.st.iv limit c2.ks.client.st.counter c2.fp all
        (all.length / limit) ∧
      c3.wr.buffered = all.drop (all.length / limit * limit) := by
  obtain ⟨x, h1, h2, h3, h4⟩ := any_is S hS cfg p hr v hf h ops (by omega)
  intro c2 limit all
  change c2.wr.Is S x at h1
  change c2.wr.buffered = _ at h4
  obtain ⟨w', i1, i2, i3, -⟩ := writeAllLoop_does S hS.sized (bs.length + 1) bs c2.wr x (by omega) h1 ho h2
    (by omega) (.inl hbs) ht
  rw [← h4] at i2 i3
  rw [h1.seq, h1.policy] at i2
  refine ⟨c2.setWr w', ?_, i2, ?_⟩
  · rw [Conn.writeAll_onWr]
    unfold writeAll onWr
    rw [i1]
  · have hb := ready_buffered w' _ (i3.ready S).wb
    show w'.buffered = _
    rw [hb]
    unfold Spec.Writer.rest
    simp only
    rw [← h4]
    change Option.getD (if all.length % limit = 0 then none else some (all.drop (all.length / limit * limit))) [] = _
    split
    · next hz =>
      have : all.length / limit * limit = all.length := by
        have := Nat.div_add_mod all.length limit
        rw [hz, Nat.add_zero, Nat.mul_comm] at this
        exact this
      rw [this, List.drop_length, Option.getD_none]
    · rw [Option.getD_some]


/-! ## `read_exact` -/

theorem RdHalf.Good.read (hol : S.OpenLength) {h h' : RdHalf} (hg : h.Good) {n : Nat} {o : ROut}
    (hr : ROp.run S (.read n) h = (.ok o, h')) : h'.Good := by
  have hc := ROp.run_cases S hol (.read n) h hg
  rw [hr] at hc
  generalize he : Res.ok o = r at hc
  cases hc with
  | nothing _ => exact hg
  | ok h1 _ hg1 _ _ _ _ =>
    refine RdHalf.eat_good _ h1 hg1 ?_
    exact borrow_le _ _ _
  | notOpen _ _ => exact hg
  | err _ _ _ _ _ _ _ _ => cases he
  | panic _ _ _ _ _ _ _ => cases he

/-- What `read_exact` did to the reading half: the calls of `read`, each for the room that was left, and the results. -/
structure ReadsExactly (n : Nat) (h : RdHalf) (r : Res ReadExactError Bytes) (h' : RdHalf) (rooms : List Nat)
    (outs : List (Res TlsError ROut)) : Prop where
  run : runReads S (rooms.map ROp.read) h = (outs, h')
  room : ∀ (i : Nat) (k : Nat), rooms[i]? = some k → 0 < k ∧ n = (delivered (outs.take i)).length + k
  /-- success: every read succeeded, and what they returned is the result, of exactly the size asked for -/
  ok : ∀ bs, r = .ok bs → bs = delivered outs ∧ bs.length = n ∧ ∀ o ∈ outs, ∃ x, o = .ok x
  /-- failure: the last read failed with that error, the others did not -/
  err : ∀ e, r = .err e → ∃ e' before, e = .other e' ∧ outs = before ++ [.err e'] ∧ ∀ o ∈ before, ∃ x, o = .ok x
  /-- panic: the last read panicked -/
  panic : r = .panic → ∃ before, outs = before ++ [.panic] ∧ ∀ o ∈ before, ∃ x, o = .ok x

theorem readExactLoop_calls (hol : S.OpenLength) : ∀ (fuel n : Nat) (acc : Bytes) (h : RdHalf), n < fuel → h.Good →
    ∃ rooms outs, ReadsExactly S n h ((readExactLoop (RdHalf.read S) fuel n acc h).1.map fun b => b.drop acc.length)
      (readExactLoop (RdHalf.read S) fuel n acc h).2 rooms outs ∧
      ∀ bs, (readExactLoop (RdHalf.read S) fuel n acc h).1 = .ok bs → acc <+: bs := by
  intro fuel
  induction fuel with
  | zero => intro n acc h hf; omega
  | succ fuel ih =>
    intro n acc h hfuel hg
    unfold readExactLoop
    by_cases hn : n = 0
    · rw [if_pos hn]
      refine ⟨[], [], ⟨rfl, by simp, ?_, by simp [M.pure_apply, Res.map], by simp [M.pure_apply, Res.map]⟩, by simp [M.pure_apply]⟩
      intro bs hb
      simp only [M.pure_apply, Res.map, Res.ok.injEq, List.drop_length] at hb
      subst hb
      exact ⟨rfl, by simp [hn], by simp⟩
    · rw [if_neg hn]
      have hag := read_agree S n h hol hg
      rcases hrun : ROp.run S (.read n) h with ⟨r, h1⟩
      rw [hrun] at hag
      simp only at hag
      cases r with
      | panic =>
        have hm : M.mapErr ReadExactError.other (RdHalf.read S n) h = (.panic, h1) := by
          unfold M.mapErr; rw [hag]; rfl
        rw [M.bind_panic hm]
        refine ⟨[n], [.panic], ⟨by simp [runReads, hrun], ?_, by simp [Res.map], by simp [Res.map], fun _ => ⟨[], rfl, by simp⟩⟩, by simp⟩
        intro i k hk
        cases i with
        | zero => simp at hk; subst hk; exact ⟨by omega, by simp [delivered]⟩
        | succ i => simp at hk
      | err e =>
        have hm : M.mapErr ReadExactError.other (RdHalf.read S n) h = (.err (.other e), h1) := by
          unfold M.mapErr; rw [hag]; rfl
        rw [M.bind_err hm]
        refine ⟨[n], [.err e], ⟨by simp [runReads, hrun], ?_, by simp [Res.map], ?_, by simp [Res.map]⟩, by simp⟩
        · intro i k hk
          cases i with
          | zero => simp at hk; subst hk; exact ⟨by omega, by simp [delivered]⟩
          | succ i => simp at hk
        · intro e' he
          simp only [Res.map, Res.err.injEq] at he
          exact ⟨e, [], he.symm, rfl, by simp⟩
      | ok o =>
        have hm : M.mapErr ReadExactError.other (RdHalf.read S n) h = (.ok o.taken, h1) := by
          unfold M.mapErr; rw [hag]; rfl
        obtain ⟨hpos, hle⟩ := C22_read S n (by omega) h h1 o.taken hag
        rw [M.bind_ok hm, if_neg (by intro h0; rw [h0] at hpos; simp at hpos), if_neg (by omega)]
        obtain ⟨rooms, outs, k, kacc⟩ := ih (n - o.taken.length) (acc ++ o.taken) h1 (by omega) (hg.read S hol hrun)
        generalize readExactLoop (RdHalf.read S) fuel (n - o.taken.length) (acc ++ o.taken) h1 = res at k kacc
        obtain ⟨res, h2⟩ := res
        simp only at k kacc ⊢
        refine ⟨n :: rooms, .ok o :: outs, ⟨?_, ?_, ?_, ?_, ?_⟩, ?_⟩
        · simp only [List.map_cons, runReads, hrun, k.run]
        · intro i m hm'
          cases i with
          | zero => simp at hm'; subst hm'; exact ⟨by omega, by simp [delivered]⟩
          | succ i =>
            obtain ⟨j1, j2⟩ := k.room i m (by simpa using hm')
            refine ⟨j1, ?_⟩
            simp only [delivered, List.take_succ_cons, List.map_cons, List.flatten_cons, takenOf, List.length_append] at j2 ⊢
            omega
        · intro bs hb
          cases res with
          | ok z =>
            simp only [Res.map, Res.ok.injEq] at hb
            obtain ⟨j1, j2, j3⟩ := k.ok (z.drop (acc ++ o.taken).length) rfl
            obtain ⟨t, rfl⟩ := kacc z rfl
            rw [List.append_assoc, List.drop_left] at hb
            rw [List.drop_left] at j1 j2
            subst hb
            refine ⟨?_, ?_, ?_⟩
            · simp only [delivered, List.map_cons, List.flatten_cons, takenOf]
              rw [delivered] at j1
              rw [← j1]
            · rw [List.length_append, j2]; omega
            · intro x hx
              rcases List.mem_cons.1 hx with rfl | hx
              · exact ⟨o, rfl⟩
              · exact j3 x hx
          | err e => simp [Res.map] at hb
          | panic => simp [Res.map] at hb
        · intro e he
          cases res with
          | ok z => simp [Res.map] at he
          | panic => simp [Res.map] at he
          | err e2 =>
            simp only [Res.map, Res.err.injEq] at he
            obtain ⟨e', before, j1, j2, j3⟩ := k.err e (by simp [Res.map, he])
            refine ⟨e', .ok o :: before, j1, by rw [j2]; rfl, ?_⟩
            intro x hx
            rcases List.mem_cons.1 hx with rfl | hx
            · exact ⟨o, rfl⟩
            · exact j3 x hx
        · intro hp
          cases res with
          | ok z => simp [Res.map] at hp
          | err e => simp [Res.map] at hp
          | panic =>
            obtain ⟨before, j2, j3⟩ := k.panic rfl
            refine ⟨.ok o :: before, by rw [j2]; rfl, ?_⟩
            intro x hx
            rcases List.mem_cons.1 hx with rfl | hx
            · exact ⟨o, rfl⟩
            · exact j3 x hx
        · intro bs hb
          exact List.IsPrefix.trans (List.prefix_append _ _) (kacc bs hb)

/-- A reading call that does not panic leaves the reading half in order. -/
theorem ROp.run_good (hol : S.OpenLength) (op : ROp) (h : RdHalf) (hg : h.Good) (hp : (op.run S h).1 ≠ .panic) :
    (op.run S h).2.Good := by
  have hc := ROp.run_cases S hol op h hg
  generalize op.run S h = res at hc hp ⊢
  obtain ⟨r, h'⟩ := res
  simp only at hc hp ⊢
  cases hc with
  | nothing _ => exact hg
  | ok h1 _ hg1 _ _ _ _ => exact RdHalf.eat_good _ h1 hg1 (borrow_le _ _ _)
  | notOpen _ _ => exact hg
  | err _ h1 _ e hs _ hr _ =>
    cases readApp_outcome S hol (hs.facts S hol hg).1 hr with
    | error _ _ _ _ _ hg' _ => exact hg'
    | closed _ _ _ _ hg' _ => exact hg'
  | panic _ _ _ _ _ _ _ => exact absurd rfl hp

/-- ... and so does any history of calls of both sides. -/
theorem any_good (hol : S.OpenLength) (ops : List AnyOp) : ∀ c : Conn, c.rd.Good →
    (∀ o ∈ (runAny S ops c).1, o ≠ .read .panic) → (runAny S ops c).2.rd.Good := by
  induction ops with
  | nil => intro c hg _; exact hg
  | cons op ops ih =>
    intro c hg hp
    simp only [runAny, List.mem_cons, forall_eq_or_imp] at hp ⊢
    refine ih _ ?_ hp.2
    cases op with
    | reader op =>
      exact ROp.run_good S hol op c.rd hg fun he => hp.1 (by simp only [AnyOp.run, onRd, he])
    | writer op => exact ⟨hg.rr, hg.dec, hg.consumed⟩

/-- `read_exact` of a connection is that of its reading half. -/
theorem readExactLoop_onRd : ∀ (fuel n : Nat) (acc : Bytes) (c : Conn), readExactLoop (Conn.read S) fuel n acc c =
    ((readExactLoop (RdHalf.read S) fuel n acc c.rd).1, c.setRd (readExactLoop (RdHalf.read S) fuel n acc c.rd).2) := by
  intro fuel
  induction fuel with
  | zero => intro n acc c; rfl
  | succ fuel ih =>
    intro n acc c
    unfold readExactLoop
    by_cases hn : n = 0
    · rw [if_pos hn, if_pos hn]; rfl
    · rw [if_neg hn, if_neg hn]
      rcases hr : RdHalf.read S n c.rd with ⟨d | e | _, h1⟩
      · have h2 : M.mapErr ReadExactError.other (RdHalf.read S n) c.rd = (.ok d, h1) := by unfold M.mapErr; rw [hr]; rfl
        have h3 : M.mapErr ReadExactError.other (Conn.read S n) c = (.ok d, c.setRd h1) := by
          unfold M.mapErr Conn.read onRd; rw [hr]; rfl
        rw [M.bind_ok h2, M.bind_ok h3]
        split
        · rfl
        · split
          · rfl
          · rw [ih]; rfl
      · have h2 : M.mapErr ReadExactError.other (RdHalf.read S n) c.rd = (.err (.other e), h1) := by unfold M.mapErr; rw [hr]; rfl
        have h3 : M.mapErr ReadExactError.other (Conn.read S n) c = (.err (.other e), c.setRd h1) := by
          unfold M.mapErr Conn.read onRd; rw [hr]; rfl
        rw [M.bind_err h2, M.bind_err h3]
      · have h2 : M.mapErr ReadExactError.other (RdHalf.read S n) c.rd = (.panic, h1) := by unfold M.mapErr; rw [hr]; rfl
        have h3 : M.mapErr ReadExactError.other (Conn.read S n) c = (.panic, c.setRd h1) := by
          unfold M.mapErr Conn.read onRd; rw [hr]; rfl
        rw [M.bind_panic h2, M.bind_panic h3]

/-- `read_exact` on a connection whose reading half is in order. -/
theorem readExact_calls (hol : S.OpenLength) (n : Nat) (c : Conn) (hg : c.rd.Good) :
    ∃ rooms outs, ReadsExactly S n c.rd (Conn.readExact S n c).1 (Conn.readExact S n c).2.rd rooms outs := by
  obtain ⟨rooms, outs, k, -⟩ := readExactLoop_calls S hol (n + 1) n [] c.rd (by omega) hg
  unfold Conn.readExact readExact
  rw [readExactLoop_onRd]
  refine ⟨rooms, outs, ?_⟩
  have hm : ∀ r : Res ReadExactError Bytes, (r.map fun b => b.drop ([] : Bytes).length) = r := by
    intro r; cases r <;> rfl
  rw [hm] at k
  exact k

/-- **C121, `read_exact`, any transport.** After a successful `open` of a new connection and any calls of both sides of
which no read panicked, `read_exact` into a buffer of any size ends.  It is a history of `read` calls, each for the room the
others have left.  If it succeeds they all succeeded, and what they returned, in order, is the result: exactly as many bytes
as asked for.  If it fails, the last of them failed with that error: it never reports an unexpected end of file. -/
theorem C121_read_exact (hS : S.Lawful) (cfg : Config) (p : Provider V) (v : V) {rx : Rx} {tx : Tx} {rb wb : Bytes}
    {c c' : Conn} (hn : Conn.new S rx tx rb wb = .ok c) (h : Conn.open_ S cfg p v c = (.ok (), c')) (ops : List AnyOp)
    (hops : ∀ o ∈ (runAny S ops c').1, o ≠ .read .panic) (n : Nat) :
    ∃ rooms outs, ReadsExactly S n (runAny S ops c').2.rd (Conn.readExact S n (runAny S ops c').2).1
      (Conn.readExact S n (runAny S ops c').2).2.rd rooms outs :=
  readExact_calls S hS.openLength n _ (any_good S hS.openLength ops c' (open_reader S hS cfg p v hn h).1 hops)

/-- Successive calls of `read_exact`, for the given sizes, until one fails. -/
def readExacts : List Nat → M ReadExactError Conn (List Bytes)
  | [] => pure []
  | n :: ns => do
    let b ← Conn.readExact S n
    let bs ← readExacts ns
    pure (b :: bs)

theorem runReads_good (hol : S.OpenLength) (ops : List ROp) : ∀ h : RdHalf, h.Good →
    (∀ o ∈ (runReads S ops h).1, o ≠ .panic) → (runReads S ops h).2.Good := by
  induction ops with
  | nil => intro h hg _; exact hg
  | cons op ops ih =>
    intro h hg hp
    have hg1 := ROp.run_good S hol op h hg
    rcases hr : op.run S h with ⟨r | e | _, h1⟩
    · simp only [runReads, hr, List.mem_cons, forall_eq_or_imp] at hp hg1 ⊢
      exact ih _ (hg1 hp.1) hp.2
    · simp only [runReads, hr, List.mem_cons, forall_eq_or_imp] at hp hg1 ⊢
      exact ih _ (hg1 hp.1) hp.2
    · simp only [runReads, hr] at hp
      exact absurd rfl (hp .panic (by simp))

theorem runReads_two (a b : List ROp) : ∀ h : RdHalf, (∀ o ∈ (runReads S a h).1, o ≠ .panic) → runReads S (a ++ b) h =
    ((runReads S a h).1 ++ (runReads S b (runReads S a h).2).1, (runReads S b (runReads S a h).2).2) := by
  induction a with
  | nil => intro h _; rfl
  | cons op a ih =>
    intro h hp
    rcases hr : op.run S h with ⟨r | e | _, h1⟩
    · simp only [runReads, hr, List.mem_cons, forall_eq_or_imp] at hp
      simp only [List.cons_append, runReads, hr, ih h1 hp.2]
    · simp only [runReads, hr, List.mem_cons, forall_eq_or_imp] at hp
      simp only [List.cons_append, runReads, hr, ih h1 hp.2]
    · simp only [runReads, hr] at hp
      exact absurd rfl (hp .panic (by simp))

theorem readExacts_calls (hol : S.OpenLength) : ∀ (ns : List Nat) (c c' : Conn) (bs : List Bytes), c.rd.Good →
    readExacts S ns c = (.ok bs, c') → bs.map List.length = ns ∧
      ∃ ops, delivered (runReads S ops c.rd).1 = bs.flatten ∧ (runReads S ops c.rd).2 = c'.rd := by
  intro ns
  induction ns with
  | nil =>
    intro c c' bs _ h
    cases h
    exact ⟨rfl, [], rfl, rfl⟩
  | cons n ns ih =>
    intro c c' bs hg h
    unfold readExacts at h
    obtain ⟨rooms, outs, k⟩ := readExact_calls S hol n c hg
    rcases hr : Conn.readExact S n c with ⟨b | e | _, c1⟩
    · rw [M.bind_ok hr] at h
      rw [hr] at k
      obtain ⟨k1, k2, k3⟩ := k.ok b rfl
      have hnp : ∀ o ∈ (runReads S (rooms.map ROp.read) c.rd).1, o ≠ .panic := by
        rw [k.run]; intro o ho he; obtain ⟨x, hx⟩ := k3 o ho; rw [hx] at he; cases he
      have hg1 : c1.rd.Good := by
        have := runReads_good S hol (rooms.map ROp.read) c.rd hg hnp
        rw [k.run] at this
        exact this
      rcases hr2 : readExacts S ns c1 with ⟨bs1 | e | _, c2⟩
      · rw [M.bind_ok hr2] at h
        cases h
        obtain ⟨i1, ops, i2, i3⟩ := ih c1 _ bs1 hg1 hr2
        refine ⟨by simp [k2, i1], rooms.map ROp.read ++ ops, ?_, ?_⟩
        · rw [runReads_two S _ _ _ hnp, k.run]
          simp only [delivered, List.map_append, List.flatten_append, List.flatten_cons] at i2 k1 ⊢
          rw [i2, k1]
        · rw [runReads_two S _ _ _ hnp, k.run]; exact i3
      · rw [M.bind_err hr2] at h; cases h
      · rw [M.bind_panic hr2] at h; cases h
    · rw [M.bind_err hr] at h; cases h
    · rw [M.bind_panic hr] at h; cases h

/-- **C121, `read_exact`, what it returns.** Under the authentication of the cipher (no received record opens unless the
server sealed it, `Spec.NoForgeryIn`), the results of successive successful calls of `read_exact` on a newly opened
connection have the sizes asked for and put together are the beginning of the data the server sent. -/
theorem C121_stream (hS : S.Lawful) (cfg : Config) (p : Provider V) (v : V) {rx : Rx} {tx : Tx} {rb wb : Bytes}
    {c c' c2 : Conn} (hn : Conn.new S rx tx rb wb = .ok c) (hclean : rx.Clean)
    (h : Conn.open_ S cfg p v c = (.ok (), c')) (peer : List Spec.Fragment) (htypes : ∀ f ∈ peer, f.type ≠ 0)
    (hf : Spec.NoForgeryIn S c'.ks.server.st.key c'.ks.server.st.iv peer 0 c'.rx.bytes) (ns : List Nat) (bs : List Bytes)
    (hr : readExacts S ns c' = (.ok bs, c2)) : bs.map List.length = ns ∧ bs.flatten <+: dataOf peer := by
  obtain ⟨h1, ops, h2, -⟩ := readExacts_calls S hS.openLength ns c' c2 bs (open_reader S hS cfg p v hn h).1 hr
  refine ⟨h1, ?_⟩
  rw [← h2]
  exact C21_stream S hS cfg p v hn hclean h peer htypes hf ops

theorem runReads_length (ops : List ROp) : ∀ h : RdHalf, (runReads S ops h).1.length ≤ ops.length := by
  induction ops with
  | nil => intro h; exact Nat.le_refl _
  | cons op ops ih =>
    intro h
    rcases hr : op.run S h with ⟨r | e | _, h1⟩
    · simp only [runReads, hr, List.length_cons]; have := ih h1; omega
    · simp only [runReads, hr, List.length_cons]; have := ih h1; omega
    · simp only [runReads, hr, List.length_cons, List.length_nil]; omega

/-- `read_exact` when the reading calls deliver `data` and then report the end of the transport. -/
theorem readExact_data (hol : S.OpenLength) (data : Bytes) (c : Conn) (hg : c.rd.Good)
    (hall : ∀ ops : List ROp, (∀ r ∈ (runReads S ops c.rd).1, (∃ o, r = .ok o) ∨ r = .err .ioError) ∧
      (∃ rest, delivered (runReads S ops c.rd).1 ++ rest = data) ∧
      ∀ i : Nat, (runReads S ops c.rd).1[i]? = some (Res.err .ioError) →
        delivered ((runReads S ops c.rd).1.take i) = data) (n : Nat) :
    (Conn.readExact S n c).1 = if n ≤ data.length then .ok (data.take n) else .err (.other .ioError) := by
  obtain ⟨rooms, outs, k⟩ := readExact_calls S hol n c hg
  obtain ⟨h1, ⟨rest, h2⟩, h3⟩ := hall (rooms.map ROp.read)
  have hlen := runReads_length S (rooms.map ROp.read) c.rd
  rw [k.run] at h1 h2 h3 hlen
  simp only [List.length_map] at h1 h2 h3 hlen
  rcases hr : (Conn.readExact S n c).1 with bs | e | _
  · obtain ⟨k1, k2, -⟩ := k.ok bs hr
    rw [← k1] at h2
    rw [← h2, if_pos (by rw [List.length_append]; omega), ← k2, List.take_left]
  · obtain ⟨e', before, k1, k2, k3⟩ := k.err e hr
    have he : e' = .ioError := by
      rcases h1 (.err e') (by rw [k2]; simp) with ⟨o, ho⟩ | h
      · cases ho
      · cases h; rfl
    subst he
    have hd := h3 before.length (by rw [k2]; simp)
    have hroom : before.length < rooms.length := by
      rw [k2, List.length_append, List.length_singleton] at hlen; exact hlen
    obtain ⟨j1, j2⟩ := k.room before.length rooms[before.length] (List.getElem?_eq_getElem hroom)
    rw [hd] at j2
    rw [if_neg (by omega), k1]
  · obtain ⟨before, k1, -⟩ := k.panic hr
    rcases h1 .panic (by rw [k1]; simp) with ⟨o, ho⟩ | h
    · cases ho
    · cases h

open Spec in
/-- **C121, `read_exact` from a conforming server.** With the hypotheses of `C20_whole` (a working transport brings, in any
pieces, the flight of a conforming server and then the records `fs` under its application key): `open` succeeds, and
`read_exact` into a buffer of any size returns the first bytes of the data the server sent, if it sent that much; otherwise
it reports the end of the transport as an I/O error. -/
theorem C121_whole (hS : S.Lawful) (cfg : Config) (p : Provider V) (v : V) {rx : Rx} {tx : Tx}
    {rb wb : Bytes} {c : Conn} (hn : Conn.new S rx tx rb wb = .ok c)
    (hclean : rx.Clean) (hrel : Reliable tx) (x : ServerFlight)
    (hx : x.Conforming S (cfg.psk.map (·.1)) (helloMsg S cfg p) p.secret)
    (hacc : ∀ r ∈ x.sh :: x.msgs, Accepted S r)
    (hhost : ∀ ops name, p.verifier = some ops → cfg.serverName = some name → ∃ v', ops.setHostname name v = (.ok (), v'))
    (hver : ∀ ops, p.verifier = some ops → ∃ v',
      verifierRun ops (x.tr0 (helloMsg S cfg p)) (withBytes x.msgs) (hostVst cfg p v) = (.ok (), v'))
    {ms : List Bytes} (hms : clientReply S p (x.transcript S (cfg.psk.map (·.1)) (helloMsg S cfg p))
      (lastRequest (withBytes x.msgs)) = some ms)
    (hsig : ∀ sign scheme, p.signer = .ok (sign, scheme) → ∀ m sig, sign m = some sig → sig.length ≤ signatureSize S)
    (hfh : 5 + helloLength S cfg p ≤ wb.length) (hff : S.hashLen + 26 ≤ wb.length)
    (hfm : ∀ m ∈ ms, m.length + 22 ≤ wb.length)
    (hfs : x.sh.bytes.length ≤ rb.length) (hfr : ∀ r ∈ x.records, r.size ≤ rb.length)
    (hcnt : x.records.length < 2 ^ 64) (fs : List Spec.Fragment) (hfcnt : fs.length < 2 ^ 64)
    (hsend : ∀ f ∈ fs, Sendable S f) (hfit : ∀ f ∈ fs, f.inner.length + 16 ≤ rb.length ∧ f.inner.length + 16 < 65536)
    (secret : Bytes) (hsecret : secret = serverApplicationTraffic S (cfg.psk.map (·.1)) x.dhe
      (x.transcript S (cfg.psk.map (·.1)) (helloMsg S cfg p)))
    (hb : rx.bytes = x.bytes S (cfg.psk.map (·.1)) (helloMsg S cfg p) ++
      protectAll S (writeKey S secret) (writeIv S secret) 0 fs) :
    ∃ c', Conn.open_ S cfg p v c = (.ok (), c') ∧ ∀ n : Nat, (Conn.readExact S n c').1 =
      if n ≤ (dataOf fs).length then .ok ((dataOf fs).take n) else .err (.other .ioError) := by
  obtain ⟨c', h1, h2⟩ := C20_whole S hS cfg p v hn hclean hrel x hx hacc hhost hver hms hsig hfh hff hfm hfs hfr hcnt fs
    hfcnt hsend hfit secret hsecret hb
  refine ⟨c', h1, readExact_data S hS.openLength (dataOf fs) c' (open_reader S hS cfg p v hn h1).1 fun ops => ?_⟩
  obtain ⟨i1, ⟨fs', i2⟩, i3, -⟩ := h2 ops
  exact ⟨i1, ⟨_, i2⟩, i3⟩

/-! ## Concrete cases -/

set_option maxRecDepth 20000 in
/-- After the handshake: `write_all` of 600 bytes with a write buffer of 400 bytes sends two full records (267 bytes each)
and keeps 66 bytes. -/
example : (Conn.writeAll toySuite (List.replicate 600 5) (exOpened [] []).2).1 = .ok () ∧
    (Conn.writeAll toySuite (List.replicate 600 5) (exOpened [] []).2).2.wr.buffered = List.replicate 66 5 ∧
    ((Conn.writeAll toySuite (List.replicate 600 5) (exOpened [] []).2).2.tx.log.drop (exOpened [] []).2.tx.log.length).length
      = 4 := by
  decide +kernel

set_option maxRecDepth 20000 in
/-- ... and fails with the transport's error if the second record fails. -/
example : (Conn.writeAll toySuite (List.replicate 600 5) (exOpened [.ok, .ok, .ok, .ok, .ok, .ok, .fail 7 3] []).2).1 =
    .err (.io 7) := by
  decide +kernel

set_option maxRecDepth 20000 in
/-- `read_exact` gathers bytes of two records; the rest is left for the next call, which finds the end of the transport. -/
example : (Conn.readExact toySuite 3 (exOpened [] [.data (exApp 0 ⟨23, [7, 8], 2⟩ ++ exApp 1 ⟨23, [9, 10], 0⟩)]).2).1 =
      .ok [7, 8, 9] ∧
    (readExacts toySuite [3, 1, 0] (exOpened [] [.data (exApp 0 ⟨23, [7, 8], 2⟩ ++ exApp 1 ⟨23, [9, 10], 0⟩)]).2).1 =
      .ok [[7, 8, 9], [10], []] ∧
    (readExacts toySuite [3, 2] (exOpened [] [.data (exApp 0 ⟨23, [7, 8], 2⟩ ++ exApp 1 ⟨23, [9, 10], 0⟩)]).2).1 =
      .err (.other .ioError) := by
  decide +kernel

/-! ## C122: the end of the stream -/

theorem fillBuf_data (h h' : RdHalf) (bs : Bytes) (hr : RdHalf.fillBuf S h = (.ok bs, h')) : bs ≠ [] := by
  unfold RdHalf.fillBuf at hr
  rcases hf : RdHalf.fill S h with ⟨u | e | _, h1⟩
  · rw [M.bind_ok hf] at hr
    have hne : h1.dec.isEmpty = false := by
      unfold RdHalf.fill at hf
      rw [M.get_bind] at hf
      split at hf
      · exact fillLoop_nonempty S _ _ _ hf
      · cases hf
    simp only [DecInfo.isEmpty, beq_eq_false_iff_ne] at hne
    unfold RdHalf.available at hr
    simp only at hr
    split at hr
    · injection hr with hr _
      injection hr with hr
      rw [← hr, ne_eq, ← List.length_eq_zero_iff]
      simp only [List.length_take, List.length_drop]
      omega
    · cases hr
  · rw [M.bind_err hf] at hr; cases hr
  · rw [M.bind_panic hf] at hr; cases hr

/-- **C122, refuted in general.** `embedded_io::Read` and `BufRead` announce the end of the stream by `Ok(0)` and by an empty
slice.  No reading call ever does this, in any state and over any transport: code that reads until then (the usual loop of
`read` to the end) cannot end with success. -/
theorem C122_never (n : Nat) (hn : 0 < n) (c c' : Conn) :
    Conn.read S n c ≠ (.ok [], c') ∧ Conn.fillBuf S c ≠ (.ok [], c') := by
  constructor
  · intro h
    unfold Conn.read onRd at h
    rcases hr : RdHalf.read S n c.rd with ⟨r, h1⟩
    rw [hr] at h
    injection h with h _
    subst h
    exact absurd (C22_read S n hn c.rd h1 [] hr).1 (by simp)
  · intro h
    unfold Conn.fillBuf onRd at h
    rcases hr : RdHalf.fillBuf S c.rd with ⟨r, h1⟩
    rw [hr] at h
    injection h with h _
    subst h
    exact fillBuf_data S c.rd h1 [] hr rfl

/-- **C122, in part.** A whole connection, any calls of both sides of which no read panicked, any transport.  If a reading
call then reports that the peer has closed the connection, everything received before was taken, the connection is closed,
and from then on every call that needs data reports a missing handshake: no data follows the end of the stream.  Missing: the
end is an error, of a kind used for nothing else once, and then of the kind used before `open`, not `Ok(0)`
(`C122_never`). -/
theorem C122_final_partial (hS : S.Lawful) (cfg : Config) (p : Provider V) (v : V) {rx : Rx} {tx : Tx} {rb wb : Bytes}
    {c c' : Conn} (hn : Conn.new S rx tx rb wb = .ok c) (h : Conn.open_ S cfg p v c = (.ok (), c')) (ops : List AnyOp)
    (hops : ∀ o ∈ (runAny S ops c').1, o ≠ .read .panic) (op : ROp)
    (hc : ((AnyOp.reader op).run S (runAny S ops c').2).1 = .read (.err .connectionClosed)) (later : List AnyOp) :
    let c2 := ((AnyOp.reader op).run S (runAny S ops c').2).2
    c2.opened = false ∧ c2.rd.unread = [] ∧ List.Forall₂ Refused later (runAny S later c2).1 := by
  have hg := any_good S hS.openLength ops c' (open_reader S hS cfg p v hn h).1 hops
  generalize (runAny S ops c').2 = c1 at hg hc
  intro c2
  have hr : (op.run S c1.rd).1 = .err .connectionClosed := by
    simp only [AnyOp.run, onRd] at hc
    injection hc
  have hcases := ROp.run_cases S hS.openLength op c1.rd hg
  have hc2 : c2.rd = (op.run S c1.rd).2 := rfl
  have ho : (op.run S c1.rd).2.opened = false ∧ (op.run S c1.rd).2.unread = [] := by
    generalize op.run S c1.rd = res at hr hcases
    obtain ⟨r, h'⟩ := res
    simp only at hr hcases ⊢
    subst hr
    generalize he : (Res.err TlsError.connectionClosed : Res TlsError ROut) = r at hcases
    cases hcases with
    | nothing _ => cases he
    | ok _ _ _ _ _ _ _ => cases he
    | notOpen _ _ => cases he
    | panic _ _ _ _ _ _ _ => cases he
    | err _ h1 _ e hs hu hr' _ =>
      cases he
      refine ⟨readApp_closed S hr', ?_⟩
      have hg1 := (hs.facts S hS.openLength hg).1
      cases readApp_outcome S hS.openLength hg1 hr' with
      | error _ _ _ hdec _ _ _ => exact unread_same h1 _ hg1 hu hdec
      | closed _ _ hdec _ _ _ => exact unread_same h1 _ hg1 hu hdec
  rw [← hc2] at ho
  exact ⟨ho.1, ho.2, (C28_final S later c2 ho.1).2⟩

set_option maxRecDepth 20000 in
/-- **C122 is false** in an ordinary run: the server sends `[7, 8]` and `close_notify`; the reads report data, then
`ConnectionClosed`, then `MissingHandshake` for ever; `read_exact` reports no unexpected end of file. -/
theorem C122_refuted : ∃ rx : Rx, (exOpened [] rx).1 = .ok () ∧
    (runReads toySuite [.read 10, .read 10, .fillBuf, .read 10] (exOpened [] rx).2.rd).1 =
      [.ok ⟨[7, 8], [[7, 8]], [7, 8]⟩, .err .connectionClosed, .err .missingHandshake, .err .missingHandshake] ∧
    (Conn.readExact toySuite 3 (exOpened [] rx).2).1 = .err (.other .connectionClosed) :=
  ⟨[.data (exApp 0 ⟨23, [7, 8], 0⟩ ++ exApp 1 ⟨21, [1, 0], 0⟩)], by decide +kernel, by decide +kernel, by decide +kernel⟩

end ETls
