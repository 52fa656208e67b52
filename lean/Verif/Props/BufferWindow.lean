import Verif.Model.Unpad
import Verif.Props.ReadPath

/-! # C03, C27: the window of a buffer -/

namespace ETls

/-- **C03** `truncate` to at most the present length keeps the first bytes of the content, the array and the window's start. -/
theorem C03_truncate (c : CB) (hc : c.offset + c.len ≤ c.buf.length) (n : Nat) (hn : n ≤ c.len) :
    (c.truncate n).asSlice = c.asSlice.take n ∧ (c.truncate n).buf = c.buf ∧ (c.truncate n).offset = c.offset ∧
      (c.truncate n).len = n := by
  have : n ≤ c.capacity - c.offset := by unfold CB.capacity; omega
  unfold CB.truncate CB.asSlice
  rw [if_pos this]
  refine ⟨?_, rfl, rfl, rfl⟩
  simp only [List.take_take]
  rw [Nat.min_eq_left hn]

/-- **C03** `truncate` to any length leaves the window inside the array and changes no byte of the array. -/
theorem C03_truncate_window (c : CB) (hc : c.offset + c.len ≤ c.buf.length) (n : Nat) :
    (c.truncate n).offset + (c.truncate n).len ≤ (c.truncate n).buf.length ∧ (c.truncate n).buf = c.buf := by
  unfold CB.truncate CB.capacity
  split
  · exact ⟨by simp only; omega, rfl⟩
  · exact ⟨hc, rfl⟩

/-- **C03** `offset`, `forward` and `rewind` change no byte and keep the end of the window: moving the start forward drops
bytes of the content, moving it back adds the bytes of the array before it; a start beyond the end is the only panic. -/
theorem C03_offset (c : CB) (hc : c.offset + c.len ≤ c.buf.length) (o : Nat) :
    (o ≤ c.offset + c.len → ∃ c', CB.setOffset o c = (.ok (), c') ∧ c'.buf = c.buf ∧ c'.offset = o ∧
      c'.offset + c'.len = c.offset + c.len ∧
      (c.offset ≤ o → c'.asSlice = c.asSlice.drop (o - c.offset)) ∧
      (o ≤ c.offset → c'.asSlice = (c.buf.take c.offset).drop o ++ c.asSlice)) ∧
    (c.offset + c.len < o → CB.setOffset o c = (.panic, c)) := by
  constructor
  · intro h
    have h' : o ≤ c.len + c.offset := by omega
    refine ⟨⟨c.buf, o, c.len + c.offset - o⟩, by unfold CB.setOffset; rw [if_pos h'], rfl, rfl, by simp only; omega, ?_, ?_⟩
    · intro ho
      unfold CB.asSlice
      simp only [List.drop_take, List.drop_drop]
      congr 1
      · omega
      · congr 1; omega
    · intro ho
      unfold CB.asSlice
      simp only
      apply List.ext_getElem?
      intro i
      rw [List.getElem?_append]
      simp only [List.length_drop, List.length_take, List.getElem?_take, List.getElem?_drop]
      rw [Nat.min_eq_left (by omega)]
      split_ifs <;> first | rfl | omega | (congr 1; omega)
  · intro h
    unfold CB.setOffset
    rw [if_neg (by omega)]

/-- The index found is that of a byte that is not zero with only zero bytes behind it, and there is none only if all are. -/
theorem lastNonzero_cases (bs : Bytes) :
    (∃ content t k, t ≠ 0 ∧ bs = content ++ [t] ++ List.replicate k 0 ∧ lastNonzero bs = some content.length) ∨
    (bs = List.replicate bs.length 0 ∧ lastNonzero bs = none) := by
  induction bs with
  | nil => right; exact ⟨rfl, rfl⟩
  | cons b bs ih =>
    rcases ih with ⟨content, t, k, h1, h2, h3⟩ | ⟨h2, h3⟩
    · left
      refine ⟨b :: content, t, k, h1, by rw [h2]; simp, ?_⟩
      simp only [lastNonzero, h3, List.length_cons]
    · by_cases hb : b = 0
      · right
        subst hb
        refine ⟨?_, ?_⟩
        · rw [List.length_cons, List.replicate_succ, ← h2]
        · simp only [lastNonzero, h3]; rfl
      · left
        refine ⟨[], b, bs.length, hb, by rw [← h2]; rfl, ?_⟩
        simp only [lastNonzero, h3]
        simp [hb]

theorem stripPadding_zeros (k : Nat) : stripPadding (List.replicate k 0) = List.replicate k 0 := by
  unfold stripPadding
  have h2 : (List.replicate k (0 : UInt8)).dropWhile (· == 0) = [] := by
    induction k with
    | zero => rfl
    | succ k ih => simp [List.replicate_succ]
  rw [List.reverse_replicate, h2]

/-- **C27, in place** Removing the padding in the window of the read buffer leaves what `stripPadding` leaves of its content,
and removing the type then leaves the content of the record; no byte of the buffer changes and the start stays. -/
theorem C27_in_place (c : CB) (hc : c.offset + c.len ≤ c.buf.length) :
    c.unpad.asSlice = stripPadding c.asSlice ∧ c.unpad.dropType.asSlice = (stripPadding c.asSlice).dropLast ∧
    c.unpad.dropType.buf = c.buf ∧ c.unpad.dropType.offset = c.offset := by
  have hlen : c.asSlice.length = c.len := by
    unfold CB.asSlice
    rw [List.length_take, List.length_drop]
    omega
  have h1 : c.unpad.asSlice = stripPadding c.asSlice ∧ c.unpad.buf = c.buf ∧ c.unpad.offset = c.offset ∧ c.unpad.len ≤ c.len := by
    unfold CB.unpad
    rcases lastNonzero_cases c.asSlice with ⟨content, t, k, e1, e2, e3⟩ | ⟨e2, e3⟩
    · rw [e3]
      have hle : content.length + 1 ≤ c.len := by
        rw [← hlen, e2]; simp
      obtain ⟨a1, a2, a3, a4⟩ := C03_truncate c hc _ hle
      refine ⟨?_, a2, a3, by rw [a4]; exact hle⟩
      rw [a1]
      rw [e2, C27_padding content t e1 k]
      rw [List.take_append_of_le_length (by simp), List.take_of_length_le (by simp)]
    · rw [e3]
      refine ⟨?_, rfl, rfl, Nat.le_refl _⟩
      rw [e2, stripPadding_zeros]
  obtain ⟨a1, a2, a3, a4⟩ := h1
  have hc' : c.unpad.offset + c.unpad.len ≤ c.unpad.buf.length := by rw [a2, a3]; omega
  obtain ⟨b1, b2, b3, -⟩ := C03_truncate c.unpad hc' (c.unpad.len - 1) (Nat.sub_le _ _)
  refine ⟨a1, ?_, b2.trans a2, b3.trans a3⟩
  have hlen' : c.unpad.asSlice.length = c.unpad.len := by
    unfold CB.asSlice
    rw [List.length_take, List.length_drop]
    omega
  show (c.unpad.truncate (c.unpad.len - 1)).asSlice = _
  rw [b1, ← a1, List.dropLast_eq_take, hlen']

-- a record in the middle of a buffer
example : (CB.unpad ⟨[9, 9, 1, 0, 23, 0, 0, 9], 2, 5⟩).dropType = ⟨[9, 9, 1, 0, 23, 0, 0, 9], 2, 2⟩ := by decide

-- C03_truncate, C03_offset: on such a buffer
example := C03_truncate ⟨[9, 9, 1, 0, 23, 0, 0, 9], 2, 5⟩ (by decide) 3 (by decide)
example := (C03_offset ⟨[9, 9, 1, 0, 23, 0, 0, 9], 2, 5⟩ (by decide) 4).1 (by decide)

end ETls
