import Verif.Model.Libs

/-! # The UTF-8 check of the concrete library is RFC 3629

The specification is Lean's own encoding of characters (`Char`: a Unicode scalar value, `String.utf8EncodeChar`). -/

namespace ETls

theorem Utf8.cont_iff (lo hi : Nat) (b : UInt8) : utf8Cont lo hi b = true ↔ lo ≤ b.toNat ∧ b.toNat ≤ hi := by
  unfold utf8Cont
  simp

/-- The character with a given scalar value. -/
theorem Utf8.char (v : Nat) (h : v < 0xD800 ∨ (0xDFFF < v ∧ v < 0x110000)) : ∃ c : Char, c.val.toNat = v := by
  have hv : v.isValidChar := by
    rcases h with h | h
    · exact .inl h
    · exact .inr h
  exact ⟨Char.ofNatAux v hv, by simp [Char.ofNatAux]⟩

theorem Utf8.scalar (c : Char) : c.val.toNat < 0xD800 ∨ (0xDFFF < c.val.toNat ∧ c.val.toNat < 0x110000) := by
  have := c.valid
  exact this

theorem Utf8.byte {a : UInt8} {n : Nat} (h : a.toNat = n) : a = UInt8.ofNat n := by
  rw [← h]; simp

theorem utf8Aux_sound : ∀ (n : Nat) (bs : Bytes), utf8Aux n bs = true → ∃ cs : List Char, bs = cs.flatMap String.utf8EncodeChar := by
  intro n
  induction n with
  | zero =>
    intro bs h
    cases bs with
    | nil => exact ⟨[], rfl⟩
    | cons a r => simp [utf8Aux] at h
  | succ n ih =>
    intro bs h
    have step : ∀ (c : Char) (r : Bytes), utf8Aux n r = true → bs = String.utf8EncodeChar c ++ r →
        ∃ cs : List Char, bs = cs.flatMap String.utf8EncodeChar := by
      intro c r hr hb
      obtain ⟨cs, hcs⟩ := ih r hr
      exact ⟨c :: cs, by rw [hb, List.flatMap_cons, hcs]⟩
    match bs, h with
    | [], _ => exact ⟨[], rfl⟩
    | a :: r, h =>
      unfold utf8Aux at h
      simp only at h
      have ha := a.toNat_lt
      split at h
      · next hx =>
        obtain ⟨c, hc⟩ := Utf8.char a.toNat (by omega)
        refine step c r h ?_
        unfold String.utf8EncodeChar
        simp only [hc]
        rw [if_pos (by omega)]
        simp
      · split at h
        · next hx =>
          match r, h with
          | b :: r, h =>
            simp only [Bool.and_eq_true, Utf8.cont_iff] at h
            obtain ⟨hb, hr⟩ := h
            obtain ⟨c, hc⟩ := Utf8.char ((a.toNat - 0xC0) * 64 + (b.toNat - 0x80)) (by omega)
            refine step c r hr ?_
            unfold String.utf8EncodeChar
            simp only [hc]
            rw [if_neg (by omega), if_pos (by omega)]
            simp only [List.cons_append, List.nil_append, List.cons.injEq, and_true]
            exact ⟨Utf8.byte (by omega), Utf8.byte (by omega)⟩
        · split at h
          · next hx =>
            match r, h with
            | b :: c :: r, h =>
              simp only [Bool.and_eq_true, Utf8.cont_iff] at h
              obtain ⟨⟨hb, hc⟩, hr⟩ := h
              have hb' : 0x80 ≤ b.toNat ∧ b.toNat ≤ 0xBF ∧ (a.toNat = 0xE0 → 0xA0 ≤ b.toNat) ∧
                  (a.toNat = 0xED → b.toNat ≤ 0x9F) := by
                split at hb <;> split at hb <;> omega
              obtain ⟨ch, hch⟩ := Utf8.char ((a.toNat - 0xE0) * 4096 + (b.toNat - 0x80) * 64 + (c.toNat - 0x80)) (by omega)
              refine step ch r hr ?_
              unfold String.utf8EncodeChar
              simp only [hch]
              rw [if_neg (by omega), if_neg (by omega), if_pos (by omega)]
              simp only [List.cons_append, List.nil_append, List.cons.injEq, and_true]
              exact ⟨Utf8.byte (by omega), Utf8.byte (by omega), Utf8.byte (by omega)⟩
          · split at h
            · next hx =>
              match r, h with
              | b :: c :: d :: r, h =>
                simp only [Bool.and_eq_true, Utf8.cont_iff] at h
                obtain ⟨⟨⟨hb, hc⟩, hd⟩, hr⟩ := h
                have hb' : 0x80 ≤ b.toNat ∧ b.toNat ≤ 0xBF ∧ (a.toNat = 0xF0 → 0x90 ≤ b.toNat) ∧
                    (a.toNat = 0xF4 → b.toNat ≤ 0x8F) := by
                  split at hb <;> split at hb <;> omega
                obtain ⟨ch, hch⟩ := Utf8.char ((a.toNat - 0xF0) * 262144 + (b.toNat - 0x80) * 4096 +
                  (c.toNat - 0x80) * 64 + (d.toNat - 0x80)) (by omega)
                refine step ch r hr ?_
                unfold String.utf8EncodeChar
                simp only [hch]
                rw [if_neg (by omega), if_neg (by omega), if_neg (by omega)]
                simp only [List.cons_append, List.nil_append, List.cons.injEq, and_true]
                exact ⟨Utf8.byte (by omega), Utf8.byte (by omega), Utf8.byte (by omega), Utf8.byte (by omega)⟩
            · cases h

theorem Utf8.ofNat_toNat {n : Nat} (h : n < 256) : (UInt8.ofNat n).toNat = n := by
  simp [UInt8.toNat_ofNat']; omega

theorem utf8Aux_complete : ∀ (cs : List Char) (n : Nat), (cs.flatMap String.utf8EncodeChar).length ≤ n →
    utf8Aux n (cs.flatMap String.utf8EncodeChar) = true := by
  intro cs
  induction cs with
  | nil => intro n _; cases n <;> rfl
  | cons c cs ih =>
    intro n hn
    rw [List.flatMap_cons] at hn ⊢
    generalize hrest : cs.flatMap String.utf8EncodeChar = rest at hn ih ⊢
    have hs := Utf8.scalar c
    unfold String.utf8EncodeChar at hn ⊢
    simp only at hn ⊢
    generalize c.val.toNat = v at hs hn ⊢
    split at hn
    · next h1 =>
      rw [if_pos h1]
      cases n with
      | zero => simp at hn
      | succ n =>
        simp only [List.cons_append, List.nil_append, List.length_cons] at hn ⊢
        unfold utf8Aux
        simp only [Utf8.ofNat_toNat (show v < 256 by omega)]
        rw [if_pos (by omega)]
        exact ih n (by omega)
    · next h1 =>
      rw [if_neg h1]
      split at hn
      · next h2 =>
        rw [if_pos h2]
        cases n with
        | zero => simp at hn
        | succ n =>
          simp only [List.cons_append, List.nil_append, List.length_cons] at hn ⊢
          unfold utf8Aux
          simp only [Utf8.ofNat_toNat (show v / 64 % 32 + 192 < 256 by omega)]
          rw [if_neg (by omega), if_pos (by omega), Bool.and_eq_true, Utf8.cont_iff,
            Utf8.ofNat_toNat (show v % 64 + 128 < 256 by omega)]
          exact ⟨by omega, ih n (by omega)⟩
      · next h2 =>
        rw [if_neg h2]
        split at hn
        · next h3 =>
          rw [if_pos h3]
          cases n with
          | zero => simp at hn
          | succ n =>
            simp only [List.cons_append, List.nil_append, List.length_cons] at hn ⊢
            unfold utf8Aux
            simp only [Utf8.ofNat_toNat (show v / 4096 % 16 + 224 < 256 by omega)]
            rw [if_neg (by omega), if_neg (by omega), if_pos (by omega), Bool.and_eq_true, Bool.and_eq_true, Utf8.cont_iff,
              Utf8.cont_iff, Utf8.ofNat_toNat (show v % 64 + 128 < 256 by omega),
              Utf8.ofNat_toNat (show v / 64 % 64 + 128 < 256 by omega)]
            exact ⟨⟨by split <;> split <;> omega, by omega⟩, ih n (by omega)⟩
        · next h3 =>
          rw [if_neg h3]
          cases n with
          | zero => simp at hn
          | succ n =>
            simp only [List.cons_append, List.nil_append, List.length_cons] at hn ⊢
            unfold utf8Aux
            simp only [Utf8.ofNat_toNat (show v / 262144 % 8 + 240 < 256 by omega)]
            rw [if_neg (by omega), if_neg (by omega), if_neg (by omega), if_pos (by omega), Bool.and_eq_true,
              Bool.and_eq_true, Bool.and_eq_true, Utf8.cont_iff, Utf8.cont_iff, Utf8.cont_iff,
              Utf8.ofNat_toNat (show v % 64 + 128 < 256 by omega),
              Utf8.ofNat_toNat (show v / 64 % 64 + 128 < 256 by omega),
              Utf8.ofNat_toNat (show v / 4096 % 64 + 128 < 256 by omega)]
            exact ⟨⟨⟨by split <;> split <;> omega, by omega⟩, by omega⟩, ih n (by omega)⟩

/-- The check accepts exactly the encodings of texts. -/
theorem utf8Valid_iff (bs : Bytes) : utf8Valid bs = true ↔ ∃ cs : List Char, bs = cs.flatMap String.utf8EncodeChar := by
  constructor
  · exact utf8Aux_sound _ _
  · rintro ⟨cs, rfl⟩
    exact utf8Aux_complete cs _ (Nat.le_refl _)

end ETls
