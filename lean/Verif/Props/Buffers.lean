import Verif.Proofs.Encode

/-! # C02 (length prefixes) and C03 (outgoing buffers) -/

namespace ETls

/-- What "appends exactly these bytes or fails leaving what is there" means for a buffer operation, spelled out on
the buffer: `c` is the buffer before, `r`/`c'` outcome and buffer after. -/
structure AppendOutcome {α : Type} (c : CB) (bs : Bytes) (r : Res TlsError α) (c' : CB) : Prop where
  /-- never a panic -/
  noPanic : r ≠ .panic
  /-- the backing array keeps its size and the window its start -/
  capacity : c'.buf.length = c.buf.length
  offset : c'.offset = c.offset
  /-- the window stays inside the backing array -/
  inside : c'.offset + c'.len ≤ c'.buf.length
  /-- success exactly when there is room -/
  succeeds : (∃ a, r = .ok a) ↔ c.offset + c.len + bs.length ≤ c.buf.length
  /-- on success: exactly `bs` was appended, and nothing else of the array changed -/
  appended : ∀ a, r = .ok a →
    c'.asSlice = c.asSlice ++ bs ∧ c'.len = c.len + bs.length ∧
    c'.buf.take c.offset = c.buf.take c.offset ∧
    c'.buf.drop (c.offset + c.len + bs.length) = c.buf.drop (c.offset + c.len + bs.length)
  /-- on failure: everything up to the end of the present content is unchanged -/
  kept : ∀ e, r = .err e → c'.buf.take (c.offset + c.len) = c.buf.take (c.offset + c.len) ∧ c.len ≤ c'.len

theorem Appends.outcome {α : Type} {m : Enc α} {bs : Bytes} {a : α} (h : Appends m bs a) (c : CB)
    (hc : c.offset + c.len ≤ c.buf.length) : AppendOutcome c bs (m c).1 (m c).2 := by
  obtain ⟨buf, o, l⟩ := c
  simp only at hc
  have hsplit : buf = buf.take (o + l) ++ buf.drop (o + l) := (List.take_append_drop _ _).symm
  have hA : (buf.take (o + l)).length = o + l := by simp; omega
  have hBl : (buf.drop (o + l)).length = buf.length - (o + l) := by simp
  obtain ⟨h1, h2⟩ := h o l (buf.take (o + l)) (buf.drop (o + l)) hA
  rw [← hsplit] at h1 h2
  generalize hAe : buf.take (o + l) = A at *
  generalize hBe : buf.drop (o + l) = B at *
  by_cases hb : bs.length ≤ B.length
  · have hr := h1 hb
    clear h1 h2
    rw [hr]
    refine ⟨by simp, ?_, rfl, ?_, ?_, ?_, by simp⟩
    · simp; omega
    · simp; omega
    · simp; omega
    · intro _ _
      refine ⟨?_, rfl, ?_, ?_⟩
      · simp only [CB.asSlice]
        rw [hsplit, List.drop_append_of_le_length (by omega), List.drop_append_of_le_length (by omega)]
        have hl : (A.drop o).length = l := by simp; omega
        rw [← hl, List.take_length_add_append, List.take_left, List.take_left]
      · simp only
        rw [hsplit, List.take_append_of_le_length (by omega), List.take_append_of_le_length (by omega)]
      · simp only
        rw [hsplit, ← hA, List.drop_length_add_append, List.drop_length_add_append]
        simp
  · obtain ⟨e, B', l', he, hl, h3, h4, h5⟩ := h2 (by omega)
    clear h1 h2
    rw [h5]
    refine ⟨by simp, ?_, rfl, ?_, ?_, by simp, ?_⟩
    · simp; omega
    · simp; omega
    · simp; omega
    · intro _ _
      refine ⟨?_, h3⟩
      simp only
      rw [hsplit, ← hA, List.take_left, List.take_left]

/-- The append operations of an outgoing buffer and their sequential and length-prefixed combinations. -/
inductive BufOp where
  | push (b : UInt8)
  | extend (bs : Bytes)
  | u16 (n : Nat)
  | u24 (n : Nat)
  | u32 (n : Nat)
  | skip
  | seq (a b : BufOp)
  | len8 (a : BufOp)
  | len16 (a : BufOp)
  | len24 (a : BufOp)

/-- Running the operation on the buffer. -/
def BufOp.run : BufOp → Enc Unit
  | .push b => CB.push b
  | .extend bs => CB.extend bs
  | .u16 n => CB.pushU16 n
  | .u24 n => CB.pushU24 n
  | .u32 n => CB.pushU32 n
  | .skip => pure ()
  | .seq a b => do a.run; b.run
  | .len8 a => CB.withU8Length a.run
  | .len16 a => CB.withU16Length a.run
  | .len24 a => CB.withU24Length a.run

/-- The bytes requested: numbers big-endian, a length prefix is the big-endian length of what follows. -/
def BufOp.bytes : BufOp → Bytes
  | .push b => [b]
  | .extend bs => bs
  | .u16 n => [UInt8.ofNat (n / 256), UInt8.ofNat n]
  | .u24 n => [UInt8.ofNat (n / 65536), UInt8.ofNat (n / 256), UInt8.ofNat n]
  | .u32 n => [UInt8.ofNat (n / 16777216), UInt8.ofNat (n / 65536), UInt8.ofNat (n / 256), UInt8.ofNat n]
  | .skip => []
  | .seq a b => a.bytes ++ b.bytes
  | .len8 a => UInt8.ofNat a.bytes.length :: a.bytes
  | .len16 a => [UInt8.ofNat (a.bytes.length / 256), UInt8.ofNat a.bytes.length] ++ a.bytes
  | .len24 a =>
    [UInt8.ofNat (a.bytes.length / 65536), UInt8.ofNat (a.bytes.length / 256), UInt8.ofNat a.bytes.length] ++ a.bytes

theorem BufOp.appends (op : BufOp) : Appends op.run op.bytes () := by
  induction op with
  | push b => exact .push b
  | extend bs => exact .extend bs
  | u16 n => exact .pushU16 n
  | u24 n => exact .pushU24 n
  | u32 n => exact .pushU32 n
  | skip => exact .pure ()
  | seq a b iha ihb => exact iha.seq ihb
  | len8 a ih => exact ih.withU8Length
  | len16 a ih => exact ih.withU16Length
  | len24 a ih => exact ih.withU24Length

/-- **C03** Every append operation, and every combination of append operations with and without length prefixes, on
every buffer whose window lies inside the array, appends exactly the requested bytes if there is room and fails
without touching what was there if there is not; it never panics and never leaves the window or the array. -/
theorem C03_append_exact_or_unchanged (op : BufOp) (c : CB) (hc : c.offset + c.len ≤ c.buf.length) :
    AppendOutcome c op.bytes (op.run c).1 (op.run c).2 :=
  op.appends.outcome c hc

example : (BufOp.seq (.push 1) (.len16 (.extend [7, 8]))).run ⟨List.replicate 8 0, 1, 0⟩ =
    (.ok (), ⟨[0, 1, 0, 2, 7, 8, 0, 0], 1, 5⟩) := by decide
example : ((BufOp.seq (.push 1) (.len16 (.extend [7, 8]))).run ⟨[5, 5, 5, 5, 5], 1, 0⟩).1 = .err .insufficientSpace ∧
    ((BufOp.seq (.push 1) (.len16 (.extend [7, 8]))).run ⟨[5, 5, 5, 5, 5], 1, 0⟩).2.buf.take 1 = [5] := by decide

/-- **C03** the overwriting operations change only the addressed bytes of the content, or fail without change. -/
theorem C03_set (c : CB) (hc : c.offset + c.len ≤ c.buf.length) (i : Nat) (v : UInt8) :
    (i < c.len → CB.set i v c = (.ok (), { c with buf := c.buf.set (c.offset + i) v })) ∧
    (c.len ≤ i → CB.set i v c = (.err .insufficientSpace, c)) := by
  unfold CB.set
  constructor
  · intro h; rw [if_pos h, if_pos (by omega)]
  · intro h; rw [if_neg (by omega)]

/-! ## C02 -/

/-- Reading back a length-prefixed vector with the library's reader. -/
def readVec (readLen : P Nat) : P PB := do
  let n ← readLen
  PB.slice n

theorem readVec_mid {readLen : P Nat} {pre : Bytes} (A d B : Bytes)
    (h : readLen ⟨A ++ (pre ++ (d ++ B)), A.length⟩ =
      (.ok d.length, ⟨A ++ (pre ++ (d ++ B)), A.length + pre.length⟩)) :
    readVec readLen ⟨A ++ (pre ++ (d ++ B)), A.length⟩ =
      (.ok (PB.new d), ⟨A ++ (pre ++ (d ++ B)), A.length + pre.length + d.length⟩) := by
  unfold readVec
  rw [M.bind_ok h]
  have := slice_mid (A ++ pre) d B
  simp only [List.append_assoc, List.length_append] at this
  exact this

/-- Common part of the three widths: `prefixed` appends `pre ++ d`, the reader reads `pre` as `d.length`. -/
theorem C02_common {prefixed : Enc Unit} {readLen : P Nat} {pre d : Bytes} (hp : Appends prefixed (pre ++ d) ())
    (hr : ∀ A B, readLen ⟨A ++ (pre ++ B), A.length⟩ = (.ok d.length, ⟨A ++ (pre ++ B), A.length + pre.length⟩))
    (c : CB) (hroom : c.offset + c.len + (pre.length + d.length) ≤ c.buf.length) :
    ∃ c', prefixed c = (.ok (), c') ∧ c'.asSlice.take c.len = c.asSlice ∧
      readVec readLen ⟨c'.asSlice, c.len⟩ = (.ok (PB.new d), ⟨c'.asSlice, c'.asSlice.length⟩) := by
  have o := hp.outcome c (by omega)
  have hok : ∃ a, (prefixed c).1 = .ok a := o.succeeds.mpr (by simpa using hroom)
  obtain ⟨a, ha⟩ := hok
  refine ⟨(prefixed c).2, ?_, ?_⟩
  · rcases h : prefixed c with ⟨r, s⟩
    rw [h] at ha; simp only at ha; rw [ha]
  · obtain ⟨h1, h2, _⟩ := o.appended a ha
    have hlen : c.asSlice.length = c.len := by simp [CB.asSlice]; omega
    rw [h1]
    constructor
    · rw [← hlen, List.take_left]
    · have := readVec_mid (readLen := readLen) (pre := pre) c.asSlice d [] (by
        have := hr c.asSlice (d ++ []); exact this)
      rw [hlen] at this
      simp only [List.append_nil] at this
      rw [this]
      simp [hlen]; omega

/-- **C02** 8-bit length prefix. -/
theorem C02_u8 (op : BufOp) (c : CB) (hfit : op.bytes.length < 256)
    (hroom : c.offset + c.len + (1 + op.bytes.length) ≤ c.buf.length) :
    ∃ c', CB.withU8Length op.run c = (.ok (), c') ∧ c'.asSlice.take c.len = c.asSlice ∧
      readVec PB.readU8 ⟨c'.asSlice, c.len⟩ = (.ok (PB.new op.bytes), ⟨c'.asSlice, c'.asSlice.length⟩) := by
  have hp := op.appends.withU8Length
  refine C02_common (pre := [UInt8.ofNat op.bytes.length]) hp (fun A B => ?_) c hroom
  have := readU8_mid A B (UInt8.ofNat op.bytes.length)
  rw [toNat_ofNat, Nat.mod_eq_of_lt hfit] at this
  exact this

/-- **C02** 16-bit length prefix. -/
theorem C02_u16 (op : BufOp) (c : CB) (hfit : op.bytes.length < 65536)
    (hroom : c.offset + c.len + (2 + op.bytes.length) ≤ c.buf.length) :
    ∃ c', CB.withU16Length op.run c = (.ok (), c') ∧ c'.asSlice.take c.len = c.asSlice ∧
      readVec PB.readU16 ⟨c'.asSlice, c.len⟩ = (.ok (PB.new op.bytes), ⟨c'.asSlice, c'.asSlice.length⟩) :=
  C02_common op.appends.withU16Length (fun A B => readU16_mid A B _ hfit) c hroom

/-- **C02** 24-bit length prefix. -/
theorem C02_u24 (op : BufOp) (c : CB) (hfit : op.bytes.length < 16777216)
    (hroom : c.offset + c.len + (3 + op.bytes.length) ≤ c.buf.length) :
    ∃ c', CB.withU24Length op.run c = (.ok (), c') ∧ c'.asSlice.take c.len = c.asSlice ∧
      readVec PB.readU24 ⟨c'.asSlice, c.len⟩ = (.ok (PB.new op.bytes), ⟨c'.asSlice, c'.asSlice.length⟩) :=
  C02_common op.appends.withU24Length (fun A B => readU24_mid A B _ hfit) c hroom

example : (CB.withU16Length (BufOp.extend [7, 8, 9]).run ⟨[1, 0, 0, 0, 0, 0, 0], 0, 1⟩).2.asSlice = [1, 0, 3, 7, 8, 9] ∧
    readVec PB.readU16 ⟨[1, 0, 3, 7, 8, 9], 1⟩ = (.ok (PB.new [7, 8, 9]), ⟨[1, 0, 3, 7, 8, 9], 6⟩) := by decide

/-- **C02** fixed-width integers. -/
theorem C02_int (A B : Bytes) :
    (∀ n, n < 65536 → PB.readU16 ⟨A ++ ((BufOp.u16 n).bytes ++ B), A.length⟩ =
      (.ok n, ⟨A ++ ((BufOp.u16 n).bytes ++ B), A.length + 2⟩)) ∧
    (∀ n, n < 16777216 → PB.readU24 ⟨A ++ ((BufOp.u24 n).bytes ++ B), A.length⟩ =
      (.ok n, ⟨A ++ ((BufOp.u24 n).bytes ++ B), A.length + 3⟩)) ∧
    (∀ n, n < 4294967296 → PB.readU32 ⟨A ++ ((BufOp.u32 n).bytes ++ B), A.length⟩ =
      (.ok n, ⟨A ++ ((BufOp.u32 n).bytes ++ B), A.length + 4⟩)) :=
  ⟨fun n h => readU16_mid A B n h, fun n h => readU24_mid A B n h, fun n h => readU32_mid A B n h⟩

/-! ### Lists of items -/

/-- Reading a concatenation of encoded items until the buffer is empty gives the items. -/
theorem readListLoop_enc {ε α : Type} (cap : Nat) (full : ε) {read : M ε PB α} (enc : α → Bytes)
    (xs : List α) (hread : ∀ x ∈ xs, ∀ A B, read ⟨A ++ (enc x ++ B), A.length⟩ =
      (.ok x, ⟨A ++ (enc x ++ B), A.length + (enc x).length⟩))
    (hpos : ∀ x ∈ xs, 0 < (enc x).length) :
    ∀ (acc : List α) (fuel : Nat) (A : Bytes), acc.length + xs.length ≤ cap → xs.length < fuel →
      PB.readListLoop cap full read fuel acc ⟨A ++ xs.flatMap enc, A.length⟩ =
        (.ok (acc ++ xs), ⟨A ++ xs.flatMap enc, (A ++ xs.flatMap enc).length⟩) := by
  induction xs with
  | nil =>
    intro acc fuel A _ hf
    obtain ⟨f, rfl⟩ : ∃ f, fuel = f + 1 := ⟨fuel - 1, by omega⟩
    simp [PB.readListLoop, PB.isEmpty]
  | cons x xs ih =>
    intro acc fuel A hcap hf
    obtain ⟨f, rfl⟩ : ∃ f, fuel = f + 1 := ⟨fuel - 1, by omega⟩
    have hx := hpos x List.mem_cons_self
    simp only [List.flatMap_cons, PB.readListLoop]
    rw [if_neg (by simp only [PB.isEmpty, beq_iff_eq, List.length_append]; omega)]
    rw [M.bind_ok (hread x List.mem_cons_self A _), if_pos (by simp at hcap; omega)]
    have := ih (fun y hy => hread y (List.mem_cons_of_mem _ hy)) (fun y hy => hpos y (List.mem_cons_of_mem _ hy))
      (acc ++ [x]) f (A ++ enc x) (by simp at hcap ⊢; omega) (by simp at hf; omega)
    simp only [List.append_assoc, List.length_append, List.cons_append, List.nil_append] at this ⊢
    exact this

theorem flatMap_length_ge {α : Type} (enc : α → Bytes) (xs : List α) (hpos : ∀ x ∈ xs, 0 < (enc x).length) :
    xs.length ≤ (xs.flatMap enc).length := by
  induction xs with
  | nil => simp
  | cons x xs ih =>
    have := hpos x List.mem_cons_self
    have := ih fun y hy => hpos y (List.mem_cons_of_mem _ hy)
    simp only [List.flatMap_cons, List.length_append, List.length_cons]; omega

/-- `read_list` on encoded items. -/
theorem readList_enc {α : Type} (cap : Nat) {read : P α} (enc : α → Bytes) (xs : List α)
    (hread : ∀ x ∈ xs, ∀ A B, read ⟨A ++ (enc x ++ B), A.length⟩ =
      (.ok x, ⟨A ++ (enc x ++ B), A.length + (enc x).length⟩))
    (hpos : ∀ x ∈ xs, 0 < (enc x).length) (hcap : xs.length ≤ cap) (A B : Bytes) :
    PB.readList cap (xs.flatMap enc).length read ⟨A ++ (xs.flatMap enc ++ B), A.length⟩ =
      (.ok xs, ⟨A ++ (xs.flatMap enc ++ B), A.length + (xs.flatMap enc).length⟩) := by
  unfold PB.readList
  rw [M.bind_ok (slice_mid A _ B)]
  have := readListLoop_enc cap .insufficientSpace enc xs hread hpos [] ((xs.flatMap enc).length + 1) []
    (by simpa using hcap) (by have := flatMap_length_ge enc xs hpos; omega)
  simp only [List.nil_append, List.length_nil] at this
  rw [M.lift_apply, this]

/-- **C02** a list of 16-bit length-prefixed items inside a 16-bit length-prefixed vector is read back item by
item by the library's `read_list`. -/
theorem C02_list (items : List Bytes) (c : CB) (cap : Nat) (hcap : items.length ≤ cap)
    (hitem : ∀ d ∈ items, d.length < 65536)
    (hfit : (items.flatMap fun d => be16 d.length ++ d).length < 65536)
    (hroom : c.offset + c.len + (2 + (items.flatMap fun d => be16 d.length ++ d).length) ≤ c.buf.length) :
    ∃ c', CB.withU16Length (encAll (fun d => CB.withU16Length (CB.extend d)) items) c = (.ok (), c') ∧
      c'.asSlice.take c.len = c.asSlice ∧
      (do let n ← PB.readU16
          PB.readList cap n (do let b ← readVec PB.readU16; pure b.buffer) : P (List Bytes)) ⟨c'.asSlice, c.len⟩ =
        (.ok items, ⟨c'.asSlice, c'.asSlice.length⟩) := by
  have hp0 : Appends (encAll (fun d => CB.withU16Length (CB.extend d)) items)
      (items.flatMap fun d => be16 d.length ++ d) () :=
    Appends.encAll items fun x _ => (Appends.extend x).withU16Length
  have hp := hp0.withU16Length
  have o := hp.outcome c (by omega)
  have hok : ∃ a, (CB.withU16Length (encAll (fun d => CB.withU16Length (CB.extend d)) items) c).1 = .ok a :=
    o.succeeds.mpr (by rw [List.length_append]; simpa [be16] using hroom)
  obtain ⟨a, ha⟩ := hok
  refine ⟨(CB.withU16Length (encAll (fun d => CB.withU16Length (CB.extend d)) items) c).2, ?_, ?_⟩
  · rcases h : CB.withU16Length (encAll (fun d => CB.withU16Length (CB.extend d)) items) c with ⟨r, s⟩
    rw [h] at ha; simp only at ha; rw [ha]
  · obtain ⟨h1, h2, _⟩ := o.appended a ha
    have hlen : c.asSlice.length = c.len := by simp [CB.asSlice]; omega
    rw [h1]
    constructor
    · rw [← hlen, List.take_left]
    · have r1 := readU16_mid c.asSlice (items.flatMap fun d => be16 d.length ++ d) _ hfit
      rw [hlen] at r1
      rw [M.bind_ok r1]
      have r2 := readList_enc cap (read := (do let b ← readVec PB.readU16; pure b.buffer : P Bytes))
        (fun d => be16 d.length ++ d) items (fun x hx A B => by
          have r3 := readVec_mid (readLen := PB.readU16) A x B (readU16_mid A (x ++ B) _ (hitem x hx))
          simp only [List.append_assoc] at r3 ⊢
          rw [M.bind_ok r3]
          simp only [M.pure_apply, PB.new, List.length_append]
          rw [Nat.add_assoc]) (fun x _ => by simp [be16]) hcap
        (c.asSlice ++ be16 (items.flatMap fun d => be16 d.length ++ d).length) []
      simp only [List.append_nil, List.append_assoc, List.length_append, hlen] at r2
      rw [show (be16 (items.flatMap fun d => be16 d.length ++ d).length).length = 2 from rfl] at r2
      rw [r2]
      rw [List.length_append, List.length_append, hlen, Nat.add_assoc]
      rfl

example : (CB.withU16Length (encAll (fun d => CB.withU16Length (CB.extend d)) [[1], [2, 3]]) (CB.wrap (List.replicate 12 0))).2.asSlice
    = [0, 7, 0, 1, 1, 0, 2, 2, 3] := by decide

end ETls
