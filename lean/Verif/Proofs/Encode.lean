import Verif.Model.Record

/-! # What the encoders do: append a fixed byte string, or fail keeping what was there -/

namespace ETls

/-- `m` appends exactly `bs` and returns `a` if there is room, and otherwise fails with a space error, having changed
only the part of the buffer after the current position. -/
def Appends {α : Type} (m : Enc α) (bs : Bytes) (a : α) : Prop :=
  ∀ (o l : Nat) (A B : Bytes), A.length = o + l →
    (bs.length ≤ B.length →
      m ⟨A ++ B, o, l⟩ = (.ok a, ⟨A ++ (bs ++ B.drop bs.length), o, l + bs.length⟩)) ∧
    (B.length < bs.length →
      ∃ e B' l', (e = .insufficientSpace ∨ e = .encodeError) ∧ B'.length = B.length ∧ l ≤ l' ∧
        o + l' ≤ A.length + B.length ∧ m ⟨A ++ B, o, l⟩ = (.err e, ⟨A ++ B', o, l'⟩))

theorem set_at_length {α : Type} (A B : List α) (x : α) (n : Nat) (h : n = A.length) (hB : 0 < B.length) :
    (A ++ B).set n x = A ++ (x :: B.drop 1) := by
  subst h
  cases B with
  | nil => simp at hB
  | cons b B => simp

theorem splice_at_length (A B bs : Bytes) (n : Nat) (h : n = A.length) :
    CB.splice (A ++ B) n bs = A ++ (bs ++ B.drop bs.length) := by
  subst h
  simp [CB.splice, List.append_assoc]

namespace Appends
variable {α β : Type}

theorem pure (a : α) : Appends (Pure.pure a) [] a := by
  intro o l A B _
  refine ⟨fun _ => by simp, fun h => ?_⟩
  simp at h

theorem push (b : UInt8) : Appends (CB.push b) [b] () := by
  intro o l A B hA
  have hinv : o + l ≤ (A ++ B).length := by simp; omega
  have hsp : CB.space ⟨A ++ B, o, l⟩ = (.ok B.length, ⟨A ++ B, o, l⟩) := by
    unfold CB.space
    simp only
    rw [if_pos hinv]
    congr 2
    simp; omega
  unfold CB.push
  rw [M.bind_ok hsp]
  constructor
  · intro h
    simp only [List.length_singleton] at h
    rw [if_pos (by omega)]
    simp only [M.modify, List.length_singleton, Prod.mk.injEq, true_and, CB.mk.injEq, and_true]
    rw [set_at_length A B b _ hA.symm (by omega)]
    simp
  · intro h
    simp only [List.length_singleton] at h
    rw [if_neg (by omega)]
    exact ⟨_, B, l, Or.inl rfl, rfl, Nat.le_refl _, by omega, rfl⟩

theorem extend (bs : Bytes) : Appends (CB.extend bs) bs () := by
  intro o l A B hA
  have hinv : o + l ≤ (A ++ B).length := by simp; omega
  have hsp : CB.space ⟨A ++ B, o, l⟩ = (.ok B.length, ⟨A ++ B, o, l⟩) := by
    unfold CB.space
    simp only
    rw [if_pos hinv]
    congr 2
    simp; omega
  unfold CB.extend
  rw [M.bind_ok hsp]
  constructor
  · intro h
    rw [if_neg (by omega)]
    simp only [M.modify, Prod.mk.injEq, true_and, CB.mk.injEq, and_true]
    exact splice_at_length A B bs _ hA.symm
  · intro h
    rw [if_pos h]
    exact ⟨_, B, l, Or.inl rfl, rfl, Nat.le_refl _, by omega, rfl⟩

theorem bind {m : Enc α} {f : α → Enc β} {bs cs : Bytes} {a : α} {b : β} (hm : Appends m bs a)
    (hf : Appends (f a) cs b) : Appends (m >>= f) (bs ++ cs) b := by
  intro o l A B hA
  obtain ⟨h1, h2⟩ := hm o l A B hA
  by_cases hb : bs.length ≤ B.length
  · have hok := h1 hb
    have hA' : (A ++ bs).length = o + (l + bs.length) := by simp; omega
    obtain ⟨g1, g2⟩ := hf o (l + bs.length) (A ++ bs) (B.drop bs.length) hA'
    rw [M.bind_ok hok]
    constructor
    · intro h
      have : cs.length ≤ (B.drop bs.length).length := by simp at h ⊢; omega
      have := g1 this
      rw [List.append_assoc] at this
      rw [this]
      simp only [List.append_assoc, List.drop_drop, List.length_append, Nat.add_assoc]
    · intro h
      have : (B.drop bs.length).length < cs.length := by simp at h ⊢; omega
      obtain ⟨e, B', l', he, hl, h1, h2, h3⟩ := g2 this
      rw [List.append_assoc] at h3
      refine ⟨e, bs ++ B', l', he, ?_, by omega, ?_, ?_⟩
      · simp at hl ⊢; omega
      · simp at h2 ⊢; omega
      · rw [h3, List.append_assoc]
  · constructor
    · intro h; simp at h; omega
    · intro _
      obtain ⟨e, B', l', he, hl, h3, h4, h5⟩ := h2 (by omega)
      rw [M.bind_err h5]
      exact ⟨e, B', l', he, hl, h3, h4, rfl⟩

theorem seq {m : Enc Unit} {k : Enc β} {bs cs : Bytes} {b : β} (hm : Appends m bs ()) (hk : Appends k cs b) :
    Appends (m >>= fun _ => k) (bs ++ cs) b := hm.bind hk

theorem orEncodeError {m : Enc α} {bs : Bytes} {a : α} (h : Appends m bs a) :
    Appends m.orEncodeError bs a := by
  intro o l A B hA
  obtain ⟨h1, h2⟩ := h o l A B hA
  refine ⟨fun hb => ?_, fun hb => ?_⟩
  · simp only [Enc.orEncodeError, M.mapErr, h1 hb, Res.mapErr]
  · obtain ⟨e, B', l', he, hl, h3, h4, h5⟩ := h2 hb
    refine ⟨.encodeError, B', l', Or.inr rfl, hl, h3, h4, ?_⟩
    simp only [Enc.orEncodeError, M.mapErr, h5, Res.mapErr]

theorem pushU16 (n : Nat) : Appends (CB.pushU16 n) (be16 n) () := extend _
theorem pushU24 (n : Nat) : Appends (CB.pushU24 n) (be24 n) () := extend _
theorem pushU32 (n : Nat) : Appends (CB.pushU32 n) (be32 n) () := extend _

theorem cast {m : Enc α} {bs cs : Bytes} {a : α} (h : Appends m bs a) (e : bs = cs) : Appends m cs a := e ▸ h

theorem encAll {f : β → Enc Unit} {g : β → Bytes} (xs : List β) (h : ∀ x ∈ xs, Appends (f x) (g x) ()) :
    Appends (ETls.encAll f xs) (xs.flatMap g) () := by
  induction xs with
  | nil => exact pure ()
  | cons x xs ih =>
    exact (h x List.mem_cons_self).seq (ih fun y hy => h y (List.mem_cons_of_mem _ hy))

theorem encOpt {f : β → Enc Unit} {g : β → Bytes} (x : Option β) (h : ∀ y, Appends (f y) (g y) ()) :
    Appends (ETls.encOpt f x) (x.elim [] g) () := by
  cases x with
  | none => exact pure ()
  | some y => exact h y

private theorem set_mid (A B : Bytes) (x y : UInt8) (n : Nat) (h : n = A.length) :
    (A ++ (x :: B)).set n y = A ++ (y :: B) := by
  subst h; simp

/-- `set` inside the written region. -/
private theorem set_run (o l l' : Nat) (A C : Bytes) (x y : UInt8) (hA : A.length = o + l) (hl : l < l') :
    CB.set l y ⟨A ++ (x :: C), o, l'⟩ = (.ok (), ⟨A ++ (y :: C), o, l'⟩) := by
  unfold CB.set
  simp only
  rw [if_pos hl, if_pos (by simp; omega)]
  congr 2
  exact set_mid A C x y _ hA.symm

theorem withU8Length {op : Enc α} {bs : Bytes} {a : α} (h : Appends op bs a) :
    Appends (CB.withU8Length op) (UInt8.ofNat bs.length :: bs) a := by
  intro o l A B hA
  unfold CB.withU8Length
  simp only [M.get_bind]
  obtain ⟨p1, p2⟩ := push 0 o l A B hA
  by_cases hB : 1 ≤ B.length
  · have hpush := p1 (by simpa using hB)
    rw [M.bind_ok hpush]
    simp only [M.get_bind, List.length_singleton]
    have hA' : (A ++ [0]).length = o + (l + 1) := by simp; omega
    obtain ⟨g1, g2⟩ := h o (l + 1) (A ++ [0]) (B.drop 1) hA'
    rw [List.append_assoc] at g1 g2
    constructor
    · intro hb
      rw [M.bind_ok (g1 (by simp at hb ⊢; omega))]
      simp only [M.get_bind, List.append_assoc, List.cons_append, List.nil_append]
      rw [show l + 1 + bs.length - (l + 1) = bs.length by omega]
      rw [M.bind_ok (set_run o l _ A _ 0 _ hA (by omega))]
      simp only [M.pure_apply, List.drop_drop, List.length_cons]
      rw [Nat.add_comm 1 bs.length, Nat.add_assoc, Nat.add_comm 1 bs.length]
    · intro hb
      obtain ⟨e, B', l', he, hl, h3, h4, h5⟩ := g2 (by simp at hb ⊢; omega)
      rw [M.bind_err h5]
      refine ⟨e, 0 :: B', l', he, ?_, by omega, ?_, ?_⟩
      · simp at hl ⊢; omega
      · simp at h4 ⊢; omega
      · simp
  · constructor
    · intro hb; simp at hb; omega
    · intro _
      obtain ⟨e, B', l', he, hl, h3, h4, h5⟩ := p2 (by simp only [List.length_cons, List.length_nil]; omega)
      rw [M.bind_err h5]
      exact ⟨e, B', l', he, hl, h3, h4, rfl⟩

theorem withU16Length {op : Enc α} {bs : Bytes} {a : α} (h : Appends op bs a) :
    Appends (CB.withU16Length op) (be16 bs.length ++ bs) a := by
  intro o l A B hA
  unfold CB.withU16Length
  simp only [M.get_bind]
  obtain ⟨p1, p2⟩ := pushU16 0 o l A B hA
  by_cases hB : 2 ≤ B.length
  · have hpush := p1 (by simpa [be16] using hB)
    rw [M.bind_ok hpush]
    simp only [M.get_bind]
    rw [show (be16 0).length = 2 from rfl]
    have hA' : (A ++ be16 0).length = o + (l + 2) := by simp [be16]; omega
    obtain ⟨g1, g2⟩ := h o (l + 2) (A ++ be16 0) (B.drop 2) hA'
    rw [List.append_assoc] at g1 g2
    constructor
    · intro hb
      rw [M.bind_ok (g1 (by simp [be16] at hb ⊢; omega))]
      simp only [M.get_bind, List.append_assoc]
      rw [show l + 2 + bs.length - (l + 2) = bs.length by omega]
      rw [show (be16 0 : Bytes) = [0, 0] from rfl]
      simp only [List.cons_append, List.nil_append]
      unfold CB.setU16
      rw [bind_assoc]
      rw [M.bind_ok (set_run o l _ A _ 0 _ hA (by omega))]
      rw [show A ++ UInt8.ofNat (bs.length / 256) :: 0 :: (bs ++ List.drop bs.length (List.drop 2 B)) =
        (A ++ [UInt8.ofNat (bs.length / 256)]) ++ 0 :: (bs ++ List.drop bs.length (List.drop 2 B)) by simp]
 
      rw [M.bind_ok (set_run o (l + 1) _ (A ++ [_]) _ 0 _ (by simp; omega) (by omega))]
      simp only [M.pure_apply, List.drop_drop, be16, List.length_cons, List.append_assoc, List.cons_append,
        List.nil_append]
      rw [show 2 + bs.length = bs.length + 1 + 1 by omega, show l + 2 + bs.length = l + (bs.length + 1 + 1) by omega]
    · intro hb
      obtain ⟨e, B', l', he, hl, h3, h4, h5⟩ := g2 (by simp [be16] at hb ⊢; omega)
      rw [M.bind_err h5]
      refine ⟨e, be16 0 ++ B', l', he, ?_, by omega, ?_, ?_⟩
      · simp [be16] at hl ⊢; omega
      · simp [be16] at h4 ⊢; omega
      · simp
  · constructor
    · intro hb; simp [be16] at hb; omega
    · intro _
      obtain ⟨e, B', l', he, hl, h3, h4, h5⟩ := p2 (by simp [be16]; omega)
      rw [M.bind_err h5]
      exact ⟨e, B', l', he, hl, h3, h4, rfl⟩

theorem withU24Length {op : Enc α} {bs : Bytes} {a : α} (h : Appends op bs a) :
    Appends (CB.withU24Length op) (be24 bs.length ++ bs) a := by
  intro o l A B hA
  unfold CB.withU24Length
  simp only [M.get_bind]
  obtain ⟨p1, p2⟩ := pushU24 0 o l A B hA
  by_cases hB : 3 ≤ B.length
  · have hpush := p1 (by simpa [be24] using hB)
    rw [M.bind_ok hpush]
    simp only [M.get_bind]
    rw [show (be24 0).length = 3 from rfl]
    have hA' : (A ++ be24 0).length = o + (l + 3) := by simp [be24]; omega
    obtain ⟨g1, g2⟩ := h o (l + 3) (A ++ be24 0) (B.drop 3) hA'
    rw [List.append_assoc] at g1 g2
    constructor
    · intro hb
      rw [M.bind_ok (g1 (by simp [be24] at hb ⊢; omega))]
      simp only [M.get_bind, List.append_assoc]
      rw [show l + 3 + bs.length - (l + 3) = bs.length by omega]
      rw [show (be24 0 : Bytes) = [0, 0, 0] from rfl]
      simp only [List.cons_append, List.nil_append]
      unfold CB.setU24
      rw [bind_assoc]
      rw [M.bind_ok (set_run o l _ A _ 0 _ hA (by omega))]
      rw [show A ++ UInt8.ofNat (bs.length / 65536) :: 0 :: 0 :: (bs ++ List.drop bs.length (List.drop 3 B)) =
        (A ++ [UInt8.ofNat (bs.length / 65536)]) ++ 0 :: 0 :: (bs ++ List.drop bs.length (List.drop 3 B)) by simp]
      rw [bind_assoc, M.bind_ok (set_run o (l + 1) _ (A ++ [_]) _ 0 _ (by simp; omega) (by omega))]
      rw [show A ++ [UInt8.ofNat (bs.length / 65536)] ++ UInt8.ofNat (bs.length / 256) ::
          0 :: (bs ++ List.drop bs.length (List.drop 3 B)) =
        (A ++ [UInt8.ofNat (bs.length / 65536), UInt8.ofNat (bs.length / 256)]) ++
          0 :: (bs ++ List.drop bs.length (List.drop 3 B)) by simp]
      rw [M.bind_ok (set_run o (l + 2) _ (A ++ [_, _]) _ 0 _ (by simp; omega) (by omega))]
      simp only [M.pure_apply, List.drop_drop, be24, List.length_cons, List.append_assoc, List.cons_append,
        List.nil_append]
      rw [show 3 + bs.length = bs.length + 1 + 1 + 1 by omega,
        show l + 3 + bs.length = l + (bs.length + 1 + 1 + 1) by omega]
    · intro hb
      obtain ⟨e, B', l', he, hl, h3, h4, h5⟩ := g2 (by simp [be24] at hb ⊢; omega)
      rw [M.bind_err h5]
      refine ⟨e, be24 0 ++ B', l', he, ?_, by omega, ?_, ?_⟩
      · simp [be24] at hl ⊢; omega
      · simp [be24] at h4 ⊢; omega
      · simp
  · constructor
    · intro hb; simp [be24] at hb; omega
    · intro _
      obtain ⟨e, B', l', he, hl, h3, h4, h5⟩ := p2 (by simp [be24]; omega)
      rw [M.bind_err h5]
      exact ⟨e, B', l', he, hl, h3, h4, rfl⟩

end Appends

/-! ## The reader on encoded input -/

theorem toNat_ofNat (n : Nat) : (UInt8.ofNat n).toNat = n % 256 := by simp

theorem be16_val (n : Nat) (h : n < 65536) :
    (UInt8.ofNat (n / 256)).toNat * 256 + (UInt8.ofNat n).toNat = n := by
  rw [toNat_ofNat, toNat_ofNat]; omega

theorem be24_val (n : Nat) (h : n < 16777216) :
    (UInt8.ofNat (n / 65536)).toNat * 65536 + (UInt8.ofNat (n / 256)).toNat * 256 + (UInt8.ofNat n).toNat = n := by
  rw [toNat_ofNat, toNat_ofNat, toNat_ofNat]; omega

theorem be32_val (n : Nat) (h : n < 4294967296) :
    (UInt8.ofNat (n / 16777216)).toNat * 16777216 + (UInt8.ofNat (n / 65536)).toNat * 65536 +
      (UInt8.ofNat (n / 256)).toNat * 256 + (UInt8.ofNat n).toNat = n := by
  rw [toNat_ofNat, toNat_ofNat, toNat_ofNat, toNat_ofNat]; omega

theorem getElem?_mid {α : Type} (A B : List α) (i : Nat) : (A ++ B)[A.length + i]? = B[i]? := by
  rw [List.getElem?_append_right (by omega)]; congr 1; omega

theorem readU8_mid (A B : Bytes) (b : UInt8) :
    PB.readU8 ⟨A ++ b :: B, A.length⟩ = (.ok b.toNat, ⟨A ++ b :: B, A.length + 1⟩) := by
  unfold PB.readU8
  have := getElem?_mid A (b :: B) 0
  simp only [Nat.add_zero] at this
  rw [if_pos (by simp), this]
  rfl

theorem readU16_mid (A B : Bytes) (n : Nat) (h : n < 65536) :
    PB.readU16 ⟨A ++ (be16 n ++ B), A.length⟩ = (.ok n, ⟨A ++ (be16 n ++ B), A.length + 2⟩) := by
  unfold PB.readU16
  have h0 := getElem?_mid A (be16 n ++ B) 0
  have h1 := getElem?_mid A (be16 n ++ B) 1
  simp only [Nat.add_zero] at h0
  rw [if_pos (by simp [be16]), h0, h1]
  simp only [be16, List.cons_append, List.nil_append, List.getElem?_cons_zero, List.getElem?_cons_succ]
  rw [be16_val n h]

theorem readU24_mid (A B : Bytes) (n : Nat) (h : n < 16777216) :
    PB.readU24 ⟨A ++ (be24 n ++ B), A.length⟩ = (.ok n, ⟨A ++ (be24 n ++ B), A.length + 3⟩) := by
  unfold PB.readU24
  have h0 := getElem?_mid A (be24 n ++ B) 0
  have h1 := getElem?_mid A (be24 n ++ B) 1
  have h2 := getElem?_mid A (be24 n ++ B) 2
  simp only [Nat.add_zero] at h0
  rw [if_pos (by simp [be24]), h0, h1, h2]
  simp only [be24, List.cons_append, List.nil_append, List.getElem?_cons_zero, List.getElem?_cons_succ]
  rw [be24_val n h]

theorem readU32_mid (A B : Bytes) (n : Nat) (h : n < 4294967296) :
    PB.readU32 ⟨A ++ (be32 n ++ B), A.length⟩ = (.ok n, ⟨A ++ (be32 n ++ B), A.length + 4⟩) := by
  unfold PB.readU32
  have h0 := getElem?_mid A (be32 n ++ B) 0
  have h1 := getElem?_mid A (be32 n ++ B) 1
  have h2 := getElem?_mid A (be32 n ++ B) 2
  have h3 := getElem?_mid A (be32 n ++ B) 3
  simp only [Nat.add_zero] at h0
  rw [if_pos (by simp [be32]), h0, h1, h2, h3]
  simp only [be32, List.cons_append, List.nil_append, List.getElem?_cons_zero, List.getElem?_cons_succ]
  rw [be32_val n h]

theorem slice_mid (A d B : Bytes) :
    PB.slice d.length ⟨A ++ (d ++ B), A.length⟩ = (.ok ⟨d, 0⟩, ⟨A ++ (d ++ B), A.length + d.length⟩) := by
  unfold PB.slice
  rw [if_pos (by simp)]
  simp [PB.new]

theorem fill_mid (A d B : Bytes) :
    PB.fill d.length ⟨A ++ (d ++ B), A.length⟩ = (.ok d, ⟨A ++ (d ++ B), A.length + d.length⟩) := by
  unfold PB.fill
  rw [if_pos (by simp)]
  simp

end ETls
