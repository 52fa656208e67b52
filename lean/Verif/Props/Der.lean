import Verif.Spec.X509

/-! # The certificate decoder accepts exactly the DER encodings of certificates within its limits (C80) -/

namespace ETls

open Spec (octets derLength Element Tagged Each septets septetsHi IsOid IsInteger IsBitString IsAny IsAlgorithm IsAttribute
  IsName IsExtension IsTime Civil two IsValidity IsKeyInfo Optionally IsVersion IsTbs IsCertificate WithinLimits Fits)

namespace Der

variable {α β : Type}

theorem bind_iff {p : Der α} {f : α → Der β} {b : Bytes} {y : β} {r : Bytes} :
    (p >>= f) b = some (y, r) ↔ ∃ a r', p b = some (a, r') ∧ f a r' = some (y, r) := by
  show Der.bind p f b = _ ↔ _
  unfold Der.bind
  split
  · rename_i h
    simp [h]
  · rename_i a r' h
    constructor
    · intro hf; exact ⟨a, r', h, hf⟩
    · rintro ⟨a', r'', h1, h2⟩
      rw [h] at h1
      cases h1
      exact h2

theorem pure_iff {x : α} {b : Bytes} {y : α} {r : Bytes} : (pure x : Der α) b = some (y, r) ↔ y = x ∧ r = b := by
  show some (x, b) = some (y, r) ↔ _
  simp only [Option.some.injEq, Prod.mk.injEq]
  constructor
  · rintro ⟨rfl, rfl⟩; exact ⟨rfl, rfl⟩
  · rintro ⟨rfl, rfl⟩; exact ⟨rfl, rfl⟩

theorem fail_iff {b : Bytes} {y : α} {r : Bytes} : (fail : Der α) b = some (y, r) ↔ False := by
  simp [fail]

/-- The decoder reads exactly the encodings `E` from the front of what is left. -/
def Reads (p : Der α) (E : α → Bytes → Prop) : Prop := ∀ b a r, p b = some (a, r) ↔ ∃ e, E a e ∧ b = e ++ r

/-- Read to the end, the decoder accepts exactly the encodings `E`. -/
def Whole (p : Der α) (E : α → Bytes → Prop) : Prop := ∀ b a, p b = some (a, []) ↔ E a b

theorem Reads.whole {p : Der α} {E : α → Bytes → Prop} (h : Reads p E) : Whole p E := by
  intro b a
  rw [h]
  constructor
  · rintro ⟨e, h1, h2⟩; rw [List.append_nil] at h2; exact h2 ▸ h1
  · intro h; exact ⟨b, h, by simp⟩

theorem Reads.congr {p : Der α} {E F : α → Bytes → Prop} (h : Reads p E) (hef : ∀ a e, E a e ↔ F a e) : Reads p F := by
  intro b a r
  rw [h]
  exact exists_congr fun e => and_congr_left' (hef a e)

theorem Whole.congr {p : Der α} {E F : α → Bytes → Prop} (h : Whole p E) (hef : ∀ a e, E a e ↔ F a e) : Whole p F := by
  intro b a
  rw [h, hef]

theorem Reads.bind {p : Der α} {f : α → Der β} {E : α → Bytes → Prop} {F : α → β → Bytes → Prop} (hp : Reads p E)
    (hf : ∀ a, Reads (f a) (F a)) : Reads (p >>= f) (fun y e => ∃ a e1 e2, E a e1 ∧ F a y e2 ∧ e = e1 ++ e2) := by
  intro b y r
  rw [bind_iff]
  constructor
  · rintro ⟨a, r', h1, h2⟩
    obtain ⟨e1, k1, rfl⟩ := (hp _ _ _).1 h1
    obtain ⟨e2, k2, rfl⟩ := (hf a _ _ _).1 h2
    exact ⟨e1 ++ e2, ⟨a, e1, e2, k1, k2, rfl⟩, by simp⟩
  · rintro ⟨e, ⟨a, e1, e2, k1, k2, rfl⟩, rfl⟩
    exact ⟨a, e2 ++ r, (hp _ _ _).2 ⟨e1, k1, by simp⟩, (hf a _ _ _).2 ⟨e2, k2, rfl⟩⟩

theorem Whole.bind {p : Der α} {f : α → Der β} {E : α → Bytes → Prop} {F : α → β → Bytes → Prop} (hp : Reads p E)
    (hf : ∀ a, Whole (f a) (F a)) : Whole (p >>= f) (fun y e => ∃ a e1 e2, E a e1 ∧ F a y e2 ∧ e = e1 ++ e2) := by
  intro b y
  rw [bind_iff]
  constructor
  · rintro ⟨a, r', h1, h2⟩
    obtain ⟨e1, k1, rfl⟩ := (hp _ _ _).1 h1
    exact ⟨a, e1, r', k1, (hf a _ _).1 h2, rfl⟩
  · rintro ⟨a, e1, e2, k1, k2, rfl⟩
    exact ⟨a, e2, (hp _ _ _).2 ⟨e1, k1, by simp⟩, (hf a _ _).2 k2⟩

theorem Reads.pure (x : α) : Reads (Pure.pure x : Der α) (fun y e => y = x ∧ e = []) := by
  intro b y r
  rw [pure_iff]
  constructor
  · rintro ⟨rfl, rfl⟩; exact ⟨[], ⟨rfl, rfl⟩, rfl⟩
  · rintro ⟨e, ⟨rfl, rfl⟩, rfl⟩; exact ⟨rfl, rfl⟩

/-! ## Primitives -/

theorem u8 (x : UInt8) : UInt8.ofNat x.toNat = x := UInt8.ofNat_toNat

theorem u8_lt (x : UInt8) : x.toNat < 256 := x.toNat_lt

theorem octets_step {n : Nat} (h : n ≠ 0) : octets n = octets (n / 256) ++ [UInt8.ofNat (n % 256)] := by
  rw [octets, dif_neg h]

theorem octets_zero : octets 0 = [] := by rw [octets, dif_pos rfl]

theorem octets_one (a : UInt8) (h : 1 ≤ a.toNat) : octets a.toNat = [a] := by
  rw [octets_step (by omega), Nat.div_eq_of_lt (u8_lt a), octets_zero, Nat.mod_eq_of_lt (u8_lt a), u8]; rfl

theorem octets_more {n : Nat} (b : UInt8) (h : n ≠ 0) : octets (n * 256 + b.toNat) = octets n ++ [b] := by
  have := u8_lt b
  rw [octets_step (by omega), show (n * 256 + b.toNat) / 256 = n by omega, show (n * 256 + b.toNat) % 256 = b.toNat by omega, u8]

theorem ofNat_toNat_lt {n : Nat} (h : n < 256) : (UInt8.ofNat n).toNat = n := UInt8.toNat_ofNat_of_lt' h

theorem octets_range {n : Nat} (h : 128 ≤ n) (hn : n < 2 ^ 32) :
    (∃ a : UInt8, octets n = [a] ∧ n = a.toNat) ∨
    (∃ a b : UInt8, octets n = [a, b] ∧ n = a.toNat * 256 + b.toNat ∧ 1 ≤ a.toNat) ∨
    (∃ a b c : UInt8, octets n = [a, b, c] ∧ n = (a.toNat * 256 + b.toNat) * 256 + c.toNat ∧ 1 ≤ a.toNat) ∨
    (∃ a b c d : UInt8, octets n = [a, b, c, d] ∧ n = ((a.toNat * 256 + b.toNat) * 256 + c.toNat) * 256 + d.toNat ∧
      1 ≤ a.toNat) := by
  have key : ∀ m, m < 256 → (UInt8.ofNat m).toNat = m := fun m => ofNat_toNat_lt
  have hm : ∀ m, (UInt8.ofNat (m % 256)).toNat = m % 256 := fun m => key _ (Nat.mod_lt _ (by decide))
  by_cases h1 : n < 256
  · left
    refine ⟨UInt8.ofNat n, ?_, (key n h1).symm⟩
    conv => lhs; rw [← key n h1]
    exact octets_one _ (by rw [key n h1]; omega)
  right
  by_cases h2 : n < 65536
  · left
    have hk := key (n / 256) (by omega)
    have e : n = (UInt8.ofNat (n / 256)).toNat * 256 + (UInt8.ofNat (n % 256)).toNat := by rw [hk, hm]; omega
    refine ⟨UInt8.ofNat (n / 256), UInt8.ofNat (n % 256), ?_, e, by rw [hk]; omega⟩
    conv => lhs; rw [e]
    rw [octets_more _ (by rw [hk]; omega), octets_one _ (by rw [hk]; omega)]
    rfl
  right
  by_cases h3 : n < 16777216
  · left
    have hk := key (n / 65536) (by omega)
    have e : n = ((UInt8.ofNat (n / 65536)).toNat * 256 + (UInt8.ofNat (n / 256 % 256)).toNat) * 256 +
        (UInt8.ofNat (n % 256)).toNat := by rw [hk, hm, hm]; omega
    refine ⟨UInt8.ofNat (n / 65536), UInt8.ofNat (n / 256 % 256), UInt8.ofNat (n % 256), ?_, e, by rw [hk]; omega⟩
    conv => lhs; rw [e]
    rw [octets_more _ (by rw [hk]; omega), octets_more _ (by rw [hk]; omega), octets_one _ (by rw [hk]; omega)]
    rfl
  right
  have hk := key (n / 16777216) (by omega)
  have e : n = (((UInt8.ofNat (n / 16777216)).toNat * 256 + (UInt8.ofNat (n / 65536 % 256)).toNat) * 256 +
      (UInt8.ofNat (n / 256 % 256)).toNat) * 256 + (UInt8.ofNat (n % 256)).toNat := by rw [hk, hm, hm, hm]; omega
  refine ⟨UInt8.ofNat (n / 16777216), UInt8.ofNat (n / 65536 % 256), UInt8.ofNat (n / 256 % 256), UInt8.ofNat (n % 256), ?_, e,
    by rw [hk]; omega⟩
  conv => lhs; rw [e]
  rw [octets_more _ (by rw [hk]; omega), octets_more _ (by rw [hk]; omega), octets_more _ (by rw [hk]; omega),
    octets_one _ (by rw [hk]; omega)]
  rfl

/-- The length decoder reads exactly the shortest forms. -/
theorem length_reads : Reads length (fun n e => n < 2 ^ 32 ∧ e = derLength n) := by
  intro b n r
  constructor
  · intro h
    rcases b with _ | ⟨x, b⟩
    · cases h
    simp only [length] at h
    have hx : ∀ k, k < 256 → x.toNat = k → x = UInt8.ofNat k := by
      intro k hk h; rw [← u8 x, h]
    have hshow : ∀ m, 128 ≤ m → derLength m = UInt8.ofNat (128 + (octets m).length) :: octets m := by
      intro m hm; rw [derLength, if_neg (by omega)]
    split at h
    · rename_i hlt
      simp only [Option.some.injEq, Prod.mk.injEq] at h
      obtain ⟨rfl, rfl⟩ := h
      exact ⟨[x], ⟨by omega, by rw [derLength, if_pos hlt, u8]⟩, rfl⟩
    split at h
    · rename_i hk
      split at h
      · rename_i a r'
        split at h
        · simp only [Option.some.injEq, Prod.mk.injEq] at h
          obtain ⟨rfl, rfl⟩ := h
          have := u8_lt a
          refine ⟨[x, a], ⟨by omega, ?_⟩, rfl⟩
          rw [hshow _ (by omega), octets_one _ (by omega), hx _ (by decide) hk]; rfl
        · cases h
      · cases h
    split at h
    · rename_i hk
      split at h
      · rename_i a b' r'
        split at h
        · simp only [Option.some.injEq, Prod.mk.injEq] at h
          obtain ⟨rfl, rfl⟩ := h
          have := u8_lt a
          have := u8_lt b'
          refine ⟨[x, a, b'], ⟨by omega, ?_⟩, rfl⟩
          rw [hshow _ (by omega), octets_more _ (by omega), octets_one _ (by omega), hx _ (by decide) hk]; rfl
        · cases h
      · cases h
    split at h
    · rename_i hk
      split at h
      · rename_i a b' c r'
        split at h
        · simp only [Option.some.injEq, Prod.mk.injEq] at h
          obtain ⟨rfl, rfl⟩ := h
          have := u8_lt a
          have := u8_lt b'
          have := u8_lt c
          refine ⟨[x, a, b', c], ⟨by omega, ?_⟩, rfl⟩
          rw [hshow _ (by omega), octets_more _ (by omega), octets_more _ (by omega), octets_one _ (by omega),
            hx _ (by decide) hk]; rfl
        · cases h
      · cases h
    split at h
    · rename_i hk
      split at h
      · rename_i a b' c d r'
        split at h
        · simp only [Option.some.injEq, Prod.mk.injEq] at h
          obtain ⟨rfl, rfl⟩ := h
          have := u8_lt a
          have := u8_lt b'
          have := u8_lt c
          have := u8_lt d
          refine ⟨[x, a, b', c, d], ⟨by omega, ?_⟩, rfl⟩
          rw [hshow _ (by omega), octets_more _ (by omega), octets_more _ (by omega), octets_more _ (by omega),
            octets_one _ (by omega), hx _ (by decide) hk]; rfl
        · cases h
      · cases h
    · cases h
  · rintro ⟨e, ⟨hn, rfl⟩, rfl⟩
    unfold derLength
    by_cases h : n < 128
    · rw [if_pos h]
      simp only [List.cons_append, List.nil_append, length]
      rw [ofNat_toNat_lt (by omega), if_pos (by omega)]
    · rw [if_neg h]
      rcases octets_range (by omega) hn with ⟨a, h1, h2⟩ | ⟨a, b, h1, h2, h3⟩ | ⟨a, b, c, h1, h2, h3⟩ | ⟨a, b, c, d, h1, h2, h3⟩
      · rw [h1]
        have : (128 : Nat) ≤ a.toNat := by omega
        simp [length, this, h2]
      · rw [h1]; simp [length, h3, h2]
      · rw [h1]; simp [length, h3, h2]
      · rw [h1]; simp [length, h3, h2]

theorem byte_reads : Reads byte (fun x e => e = [x]) := by
  intro b x r
  rcases b with _ | ⟨y, b⟩
  · simp [byte]
  · simp only [byte, Option.some.injEq, Prod.mk.injEq]
    constructor
    · rintro ⟨rfl, rfl⟩; exact ⟨_, rfl, rfl⟩
    · rintro ⟨e, rfl, h⟩; cases h; exact ⟨rfl, rfl⟩

theorem slice_reads (n : Nat) : Reads (slice n) (fun v e => e = v ∧ v.length = n) := by
  intro b v r
  unfold slice derSlice
  split
  · rename_i h
    simp only [Option.some.injEq, Prod.mk.injEq]
    constructor
    · rintro ⟨rfl, rfl⟩
      exact ⟨_, ⟨rfl, by rw [List.length_take]; omega⟩, by rw [List.take_append_drop]⟩
    · rintro ⟨e, ⟨rfl, rfl⟩, rfl⟩
      simp
  · rename_i h
    constructor
    · intro h; cases h
    · rintro ⟨e, ⟨rfl, rfl⟩, rfl⟩
      simp at h

variable (T : DerTags)

theorem any_reads : Reads (any T) (IsAny T) := by
  have : Reads (any T) _ := byte_reads.bind fun tag => length_reads.bind fun n => (slice_reads n).bind
    (F := fun v y e => T.known tag = true ∧ y = ⟨tag, v⟩ ∧ e = []) fun v => by
      by_cases h : T.known tag = true
      · simp only [h, if_true, true_and]
        exact Reads.pure _
      · simp only [h]
        intro b a r
        simp [fail]
  refine this.congr fun a e => ?_
  unfold IsAny Element
  constructor
  · rintro ⟨tag, e1, e2, rfl, ⟨n, e3, e4, ⟨hn, rfl⟩, ⟨v, e5, e6, ⟨rfl, rfl⟩, ⟨hk, rfl, rfl⟩, rfl⟩, rfl⟩, rfl⟩
    exact ⟨hk, hn, by simp⟩
  · rintro ⟨hk, hn, rfl⟩
    exact ⟨a.tag, [a.tag], _, rfl, ⟨_, _, a.value, ⟨hn, rfl⟩, ⟨a.value, a.value, [], ⟨rfl, rfl⟩, ⟨hk, rfl, rfl⟩, by simp⟩, rfl⟩,
      by simp⟩

theorem inside_iff {p : Der α} {b : Bytes} {x : α} : inside p b = some x ↔ p b = some (x, []) := by
  unfold inside
  split
  · rename_i h; rw [h]; simp
  · rename_i h
    constructor
    · intro h; cases h
    · intro h'; exact absurd h' (h x)

theorem lift_iff {o : Option α} {b : Bytes} {y : α} {r : Bytes} : lift o b = some (y, r) ↔ o = some y ∧ r = b := by
  cases o with
  | none => simp [lift, fail]
  | some x =>
    show (pure x : Der α) b = some (y, r) ↔ _
    rw [pure_iff]
    simp [eq_comm]

theorem elem_reads {p : Der α} {E : α → Bytes → Prop} (tag : UInt8) (hk : T.known tag = true) (hp : Whole p E) :
    Reads (elem T tag p) (Tagged tag E) := by
  have : Reads (elem T tag p) _ := (any_reads T).bind (F := fun a y e => a.tag = tag ∧ E y a.value ∧ e = []) fun a => by
    by_cases h : a.tag = tag
    · simp only [h, if_true, true_and]
      intro b y r
      rw [lift_iff, inside_iff, hp]
      constructor
      · rintro ⟨h1, rfl⟩; exact ⟨[], ⟨h1, rfl⟩, rfl⟩
      · rintro ⟨e, ⟨h1, rfl⟩, rfl⟩; exact ⟨h1, rfl⟩
    · simp only [h, if_false, false_and]
      intro b y r
      simp [fail]
  refine this.congr fun y e => ?_
  unfold Tagged IsAny
  constructor
  · rintro ⟨a, e1, e2, ⟨-, h1⟩, ⟨rfl, h2, rfl⟩, rfl⟩
    exact ⟨a.value, by simpa using h1, h2⟩
  · rintro ⟨c, h1, h2⟩
    exact ⟨⟨tag, c⟩, e, [], ⟨hk, h1⟩, ⟨rfl, h2, rfl⟩, by simp⟩

theorem Element.tag {tag : UInt8} {c b : Bytes} (h : Element tag c b) : ∃ r, b = tag :: r := ⟨_, h.2⟩

/-- An optional element before something that never begins with its tag. -/
theorem opt_whole {p : Der α} {f : Option α → Der β} {E : α → Bytes → Prop} {F : Option α → β → Bytes → Prop} (tag : UInt8)
    (hp : Reads p E) (ht : ∀ a e, E a e → ∃ r, e = tag :: r) (hf : ∀ a, Whole (f a) (F a))
    (hn : ∀ y r, ¬ F none y (tag :: r)) :
    Whole (opt tag p >>= f) (fun y e => ∃ a e1 e2, Optionally E a e1 ∧ F a y e2 ∧ e = e1 ++ e2) := by
  intro b y
  rw [bind_iff]
  constructor
  · rintro ⟨a, r', h1, h2⟩
    have h3 := (hf a _ _).1 h2
    unfold opt at h1
    split at h1
    · cases h1
      exact ⟨none, [], _, rfl, h3, rfl⟩
    · split at h1
      · split at h1
        · rename_i a' r hpa
          cases h1
          obtain ⟨e, k1, k2⟩ := (hp _ _ _).1 hpa
          exact ⟨some a', e, _, k1, h3, k2⟩
        · cases h1
      · cases h1
        exact ⟨none, [], _, rfl, h3, rfl⟩
  · rintro ⟨a, e1, e2, h1, h2, rfl⟩
    cases a with
    | none =>
      obtain rfl : e1 = [] := h1
      refine ⟨none, e2, ?_, (hf _ _ _).2 h2⟩
      unfold opt
      cases e2 with
      | nil => rfl
      | cons x e2 =>
        simp only [List.nil_append]
        rw [if_neg (by rintro rfl; exact hn _ _ h2)]
    | some a =>
      have h1 : E a e1 := h1
      obtain ⟨r, rfl⟩ := ht a e1 h1
      refine ⟨some a, e2, ?_, (hf _ _ _).2 h2⟩
      unfold opt
      simp only [List.cons_append]
      have : p (tag :: (r ++ e2)) = some (a, e2) := (hp _ _ _).2 ⟨tag :: r, h1, rfl⟩
      simp only [if_true, this]

theorem loop_whole {p : Der α} {E : α → Bytes → Prop} (hp : Reads p E) (hne : ∀ a, ¬ E a []) :
    ∀ (fuel : Nat) (b : Bytes) (as : List α) (r : Bytes), b.length < fuel →
      (loop p fuel b = some (as, r) ↔ Each E as b ∧ r = []) := by
  intro fuel
  induction fuel with
  | zero => intro b as r h; omega
  | succ fuel ih =>
    intro b as r hb
    unfold loop
    split
    · constructor
      · intro h; cases h; exact ⟨.nil, rfl⟩
      · rintro ⟨h, rfl⟩
        generalize hb0 : ([] : Bytes) = b0 at h
        cases h with
        | nil => rfl
        | cons a as e b' h hs =>
          exfalso
          obtain ⟨rfl, -⟩ := List.append_eq_nil_iff.1 hb0.symm
          exact hne _ h
    · rename_i hnil
      constructor
      · intro h
        split at h
        · cases h
        · rename_i a r' hpa
          obtain ⟨e, k1, rfl⟩ := (hp _ _ _).1 hpa
          have he : e ≠ [] := by rintro rfl; exact hne _ k1
          have hl : r'.length < fuel := by
            have := List.length_pos_iff.2 he
            rw [List.length_append] at hb
            omega
          split at h
          · cases h
          · rename_i as' r'' hl2
            cases h
            obtain ⟨k2, rfl⟩ := (ih r' as' r hl).1 hl2
            exact ⟨.cons _ _ _ _ k1 k2, rfl⟩
      · rintro ⟨h, rfl⟩
        cases h with
        | nil => exact absurd rfl hnil
        | cons a as e b' h hs =>
          have he : e ≠ [] := by rintro rfl; exact hne _ h
          have hl : b'.length < fuel := by
            have := List.length_pos_iff.2 he
            rw [List.length_append] at hb
            omega
          rw [(hp _ _ _).2 ⟨e, h, rfl⟩]
          simp only
          rw [(ih b' as [] hl).2 ⟨hs, rfl⟩]

theorem upTo_whole {p : Der α} {E : α → Bytes → Prop} (cap : Nat) (hp : Reads p E) (hne : ∀ a, ¬ E a []) :
    Whole (upTo cap p) (fun as b => Each E as b ∧ as.length ≤ cap) := by
  intro b as
  unfold upTo
  have hl := loop_whole hp hne (b.length + 1) b
  constructor
  · intro h
    split at h
    · cases h
    · rename_i as' r h1
      split at h
      · rename_i hc
        cases h
        exact ⟨((hl _ _ (by omega)).1 h1).1, hc⟩
      · cases h
  · rintro ⟨h1, h2⟩
    rw [(hl as [] (by omega)).2 ⟨h1, rfl⟩]
    simp only [h2, if_true]

/-! ## Object identifiers -/

theorem septetsHi_more {v : Nat} (b : UInt8) (hv : 1 ≤ v) (hb : 128 ≤ b.toNat) :
    septetsHi (v * 128 + b.toNat % 128) = septetsHi v ++ [b] := by
  have := u8_lt b
  rw [septetsHi, if_neg (by omega), show (v * 128 + b.toNat % 128) / 128 = v by omega,
    show 128 + (v * 128 + b.toNat % 128) % 128 = b.toNat by omega, u8]

theorem septets_more {v : Nat} (b : UInt8) (hv : 1 ≤ v) (hb : b.toNat < 128) :
    septets (v * 128 + b.toNat % 128) = septetsHi v ++ [b] := by
  rw [septets, if_neg (by omega), show (v * 128 + b.toNat % 128) / 128 = v by omega,
    show (v * 128 + b.toNat % 128) % 128 = b.toNat by omega, u8]

theorem arcs_sound : ∀ (c : Bytes) (cur : Option Nat) (l : List Nat), arcs cur c = some l →
    (cur = none → (∀ a ∈ l, a < 2 ^ 32) ∧ c = l.flatMap septets) ∧
    ∀ v, cur = some v → 1 ≤ v → ∃ x xs s, l = x :: xs ∧ (∀ a ∈ l, a < 2 ^ 32) ∧ septets x = septetsHi v ++ s ∧
      c = s ++ xs.flatMap septets := by
  intro c
  induction c with
  | nil =>
    intro cur l h
    cases cur with
    | none =>
      simp only [arcs, Option.some.injEq] at h
      subst h
      exact ⟨fun _ => ⟨by simp, rfl⟩, by intro v h; cases h⟩
    | some v => cases h
  | cons b c ih =>
    intro cur l h
    have hb := u8_lt b
    simp only [arcs] at h
    split at h
    · cases h
    rename_i hmin
    split at h
    · cases h
    rename_i hbig
    split at h
    · rename_i hlt
      obtain ⟨xs, h1, rfl⟩ := Option.map_eq_some_iff.1 h
      obtain ⟨h2, rfl⟩ := (ih _ _ h1).1 rfl
      have hall : ∀ a ∈ (cur.getD 0 * 128 + b.toNat % 128) :: xs, a < 2 ^ 32 := by
        intro a ha
        rcases List.mem_cons.1 ha with rfl | ha
        · omega
        · exact h2 a ha
      constructor
      · rintro rfl
        refine ⟨hall, ?_⟩
        simp only [Option.getD_none, List.flatMap_cons, Nat.zero_mul, Nat.zero_add]
        rw [Nat.mod_eq_of_lt hlt, septets, if_pos hlt, u8]
        rfl
      · rintro v rfl hv
        refine ⟨_, _, [b], rfl, hall, septets_more b hv hlt, rfl⟩
    · rename_i hge
      obtain ⟨-, h2⟩ := ih _ _ h
      constructor
      · rintro rfl
        have h128 : b.toNat ≠ 128 := fun h => hmin ⟨rfl, h⟩
        obtain ⟨x, xs, s, rfl, k1, k2, rfl⟩ := h2 _ rfl (by simp only [Option.getD_none]; omega)
        refine ⟨k1, ?_⟩
        rw [List.flatMap_cons, k2]
        simp only [Option.getD_none, Nat.zero_mul, Nat.zero_add]
        rw [septetsHi, if_pos (by omega), show 128 + b.toNat % 128 = b.toNat by omega, u8]
        simp
      · rintro v rfl hv
        obtain ⟨x, xs, s, rfl, k1, k2, rfl⟩ := h2 _ rfl (by simp only [Option.getD_some]; omega)
        refine ⟨x, xs, b :: s, rfl, k1, ?_, rfl⟩
        rw [k2]
        simp only [Option.getD_some]
        rw [septetsHi_more b hv (by omega)]
        simp

theorem arcs_hi : ∀ (v : Nat) (rest : Bytes), 1 ≤ v → v < 2 ^ 32 → arcs none (septetsHi v ++ rest) = arcs (some v) rest := by
  intro v
  induction v using Nat.strongRecOn with
  | ind v ih =>
    intro rest h1 h2
    rw [septetsHi]
    split
    · rename_i h
      have e : (UInt8.ofNat (128 + v)).toNat = 128 + v := ofNat_toNat_lt (by omega)
      simp only [List.cons_append, List.nil_append, arcs, e, Option.getD_none]
      rw [if_neg (by omega), if_neg (by omega), if_neg (by omega), show 0 * 128 + (128 + v) % 128 = v by omega]
    · rename_i h
      have e : (UInt8.ofNat (128 + v % 128)).toNat = 128 + v % 128 := ofNat_toNat_lt (by omega)
      rw [List.append_assoc, ih (v / 128) (by omega) _ (by omega) (by omega)]
      simp only [List.cons_append, List.nil_append, arcs, e, Option.getD_some]
      rw [if_neg (by simp), if_neg (by omega), if_neg (by omega), show v / 128 * 128 + (128 + v % 128) % 128 = v by omega]

theorem arcs_complete (x : Nat) (hx : x < 2 ^ 32) (rest : Bytes) :
    arcs none (septets x ++ rest) = (arcs none rest).map (x :: ·) := by
  rw [septets]
  split
  · rename_i h
    have e : (UInt8.ofNat x).toNat = x := ofNat_toNat_lt (by omega)
    simp only [List.cons_append, List.nil_append, arcs, e, Option.getD_none]
    rw [if_neg (by omega), if_neg (by omega), if_pos h, show 0 * 128 + x % 128 = x by omega]
  · rename_i h
    have e : (UInt8.ofNat (x % 128)).toNat = x % 128 := ofNat_toNat_lt (by omega)
    rw [List.append_assoc, arcs_hi _ _ (by omega) (by omega)]
    simp only [List.cons_append, List.nil_append, arcs, e, Option.getD_some]
    rw [if_neg (by simp), if_neg (by omega), if_pos (by omega), show x / 128 * 128 + x % 128 % 128 = x by omega]

theorem arcs_iff (c : Bytes) (l : List Nat) :
    arcs none c = some l ↔ (∀ a ∈ l, a < 2 ^ 32) ∧ c = l.flatMap septets := by
  constructor
  · intro h; exact (arcs_sound c none l h).1 rfl
  · rintro ⟨h, rfl⟩
    induction l with
    | nil => rfl
    | cons x l ih =>
      rw [List.flatMap_cons, arcs_complete x (h x (by simp)), ih fun a ha => h a (by simp [ha])]
      rfl

theorem oidContent_whole : Whole oidContent IsOid := by
  intro b o
  unfold IsOid
  constructor
  · intro h
    unfold oidContent at h
    split at h
    · cases h
    · rename_i x bs
      split at h
      · rename_i hc
        split at h
        · cases h
        · rename_i as has
          cases h
          obtain ⟨h1, rfl⟩ := (arcs_iff _ _).1 has
          refine ⟨_, _, as, rfl, by omega, by omega, h1, ?_, ?_⟩
          · rw [show 40 * (x.toNat / 40) + x.toNat % 40 = x.toNat by omega, u8]
          · simp only [List.length_cons]; omega
      · cases h
  · rintro ⟨x, y, as, rfl, hx, hy, has, rfl, hl⟩
    have e : (UInt8.ofNat (40 * x + y)).toNat = 40 * x + y := ofNat_toNat_lt (by omega)
    simp only [List.length_cons] at hl
    unfold oidContent
    simp only [e]
    rw [if_pos ⟨by omega, by omega⟩, (arcs_iff _ _).2 ⟨has, rfl⟩]
    simp only
    rw [show (40 * x + y) / 40 = x by omega, show (40 * x + y) % 40 = y by omega]

/-! ## Other contents -/

theorem integerContent_whole : Whole integerContent (fun v c => IsInteger v ∧ c = v) := by
  intro b v
  unfold IsInteger
  have hz : ∀ x : UInt8, x.toNat = 0 → x = 0 := by
    intro x h; rw [← u8 x, h]; rfl
  have hf : ∀ x : UInt8, x.toNat = 255 → x = 255 := by
    intro x h; rw [← u8 x, h]; rfl
  constructor
  · intro h
    unfold integerContent at h
    split at h
    · cases h
    · cases h
      refine ⟨⟨by simp, ?_, ?_⟩, rfl⟩ <;> (intro y r h; simp at h)
    · rename_i x y r
      split at h
      · cases h
      · rename_i hc
        cases h
        refine ⟨⟨by simp, ?_, ?_⟩, rfl⟩
        · intro y' r' h
          cases h
          have : (0 : UInt8).toNat = 0 := rfl
          omega
        · intro y' r' h
          cases h
          have : (255 : UInt8).toNat = 255 := rfl
          omega
  · rintro ⟨⟨h1, h2, h3⟩, rfl⟩
    rcases b with _ | ⟨x, _ | ⟨y, r⟩⟩
    · exact absurd rfl h1
    · rfl
    · simp only [integerContent]
      rw [if_neg]
      rintro (⟨hx, hy⟩ | ⟨hx, hy⟩)
      · have := h2 y r (by rw [hz x hx]); omega
      · have := h3 y r (by rw [hf x hx]); omega

theorem bitContent_whole : Whole bitContent IsBitString := by
  intro b s
  unfold IsBitString
  constructor
  · intro h
    unfold bitContent at h
    split at h
    · cases h
    · split at h
      · rename_i x r hc
        cases h
        exact ⟨hc.1, hc.2, by rw [u8]⟩
      · cases h
  · rintro ⟨h1, h2, rfl⟩
    have e : (UInt8.ofNat s.unused).toNat = s.unused := ofNat_toNat_lt (by omega)
    simp only [bitContent, e]
    rw [if_pos ⟨h1, h2⟩]

theorem boolContent_whole : Whole boolContent (fun v c => c = [if v then 255 else 0]) := by
  intro b v
  unfold boolContent
  rw [bind_iff]
  constructor
  · rintro ⟨x, r, h1, h2⟩
    obtain ⟨e, rfl, rfl⟩ := (byte_reads _ _ _).1 h1
    split at h2
    · rename_i h
      obtain ⟨rfl, rfl⟩ := pure_iff.1 h2
      simp only [List.append_nil, Bool.false_eq_true, if_false, List.cons.injEq, and_true]
      rw [← u8 x, h]; rfl
    · split at h2
      · rename_i h
        obtain ⟨rfl, rfl⟩ := pure_iff.1 h2
        simp only [List.append_nil, if_true, List.cons.injEq, and_true]
        rw [← u8 x, h]; rfl
      · exact (fail_iff.1 h2).elim
  · rintro rfl
    refine ⟨_, [], rfl, ?_⟩
    cases v <;> rfl

theorem versionContent_whole : Whole versionContent (fun v c => v ≤ 2 ∧ c = [UInt8.ofNat v]) := by
  intro b v
  unfold versionContent
  rw [bind_iff]
  constructor
  · rintro ⟨x, r, h1, h2⟩
    obtain ⟨e, rfl, rfl⟩ := (byte_reads _ _ _).1 h1
    split at h2
    · rename_i h
      obtain ⟨rfl, rfl⟩ := pure_iff.1 h2
      exact ⟨h, by rw [u8]; rfl⟩
    · exact (fail_iff.1 h2).elim
  · rintro ⟨h, rfl⟩
    have e : (UInt8.ofNat v).toNat = v := ofNat_toNat_lt (by omega)
    refine ⟨_, [], rfl, ?_⟩
    rw [e, if_pos h]; rfl

/-! ## Time -/

theorem digits_reads : Reads digits (fun n e => n < 100 ∧ e = two n) := by
  have hd : Reads digit (fun n e => n < 10 ∧ e = [UInt8.ofNat (48 + n)]) := by
    intro b n r
    unfold digit
    rw [bind_iff]
    constructor
    · rintro ⟨x, r', h1, h2⟩
      obtain ⟨e, rfl, rfl⟩ := (byte_reads _ _ _).1 h1
      split at h2
      · rename_i h
        obtain ⟨rfl, rfl⟩ := pure_iff.1 h2
        exact ⟨[x], ⟨by omega, by rw [show 48 + (x.toNat - 48) = x.toNat by omega, u8]⟩, rfl⟩
      · exact (fail_iff.1 h2).elim
    · rintro ⟨e, ⟨h, rfl⟩, rfl⟩
      have e : (UInt8.ofNat (48 + n)).toNat = 48 + n := ofNat_toNat_lt (by omega)
      refine ⟨_, r, (byte_reads _ _ _).2 ⟨_, rfl, rfl⟩, ?_⟩
      rw [e, if_pos ⟨by omega, by omega⟩, show 48 + n - 48 = n by omega]; rfl
  have : Reads digits _ := hd.bind fun a => hd.bind fun b => Reads.pure (a * 10 + b)
  refine this.congr fun n e => ?_
  constructor
  · rintro ⟨a, e1, e2, ⟨ha, rfl⟩, ⟨b, e3, e4, ⟨hb, rfl⟩, ⟨rfl, rfl⟩, rfl⟩, rfl⟩
    refine ⟨by omega, ?_⟩
    rw [two, show (a * 10 + b) / 10 = a by omega, show (a * 10 + b) % 10 = b by omega]
    rfl
  · rintro ⟨h, rfl⟩
    exact ⟨n / 10, _, _, ⟨by omega, rfl⟩, ⟨n % 10, _, _, ⟨by omega, rfl⟩, ⟨by omega, rfl⟩, rfl⟩, rfl⟩

theorem isLeap_eq (y : Nat) : isLeap y = Spec.leap y := rfl

theorem daysBefore_eq (n : Nat) :
    Spec.daysBefore n + (n + 1969 - 1900) / 100 = n * 365 + (n + 1969 - 1968) / 4 + (n + 1969 - 1600) / 400 := by
  induction n with
  | zero => rfl
  | succ n ih =>
    rw [Spec.daysBefore, Spec.daysOfYear]
    by_cases h4 : (1970 + n) % 4 = 0
    · by_cases h100 : (1970 + n) % 100 = 0
      · by_cases h400 : (1970 + n) % 400 = 0
        · have : Spec.leap (1970 + n) = true := by simp [Spec.leap, h4, h100, h400]
          rw [if_pos this]; omega
        · have : Spec.leap (1970 + n) = false := by simp [Spec.leap, h4, h100, h400]
          rw [if_neg (by rw [this]; decide)]; omega
      · have : Spec.leap (1970 + n) = true := by simp [Spec.leap, h4, h100]
        rw [if_pos this]; omega
    · have : Spec.leap (1970 + n) = false := by simp [Spec.leap, h4]
      rw [if_neg (by rw [this]; decide)]; omega

/-- The library's formula counts the seconds since 1970. -/
theorem unixTime_iff (t : Civil) (s : Nat) :
    unixTime t.year t.month t.day t.hour t.minute t.second = some s ↔ t.Valid ∧ s = t.seconds := by
  obtain ⟨y, mo, d, h, mi, se⟩ := t
  simp only
  have hmonth : ∀ k, k < 12 → ∃ before n, monthDays (isLeap y) (k + 1) = some (before, n) ∧
      (Spec.monthLengths y)[k]? = some n ∧
      ((Spec.monthLengths y).take k).sum = before + if isLeap y && decide (2 < k + 1) then 1 else 0 := by
    intro k hk
    rw [isLeap_eq]
    unfold monthDays Spec.monthLengths
    cases Spec.leap y <;>
      (have : k = 0 ∨ k = 1 ∨ k = 2 ∨ k = 3 ∨ k = 4 ∨ k = 5 ∨ k = 6 ∨ k = 7 ∨ k = 8 ∨ k = 9 ∨ k = 10 ∨ k = 11 := by omega
       rcases this with rfl | rfl | rfl | rfl | rfl | rfl | rfl | rfl | rfl | rfl | rfl | rfl <;> exact ⟨_, _, rfl, rfl, rfl⟩)
  have hdays := daysBefore_eq (y - 1970)
  unfold unixTime
  constructor
  · intro hh
    split at hh
    · cases hh
    rename_i hr
    obtain ⟨before, n, k1, k2, k3⟩ := hmonth (mo - 1) (by omega)
    rw [show mo - 1 + 1 = mo by omega] at k1 k3
    rw [k1] at hh
    simp only at hh
    split at hh
    · cases hh
    rename_i hn
    cases hh
    refine ⟨⟨by simp only; omega, by simp only; omega, ⟨by simp only; omega, ?_⟩, by simp only; omega, by simp only; omega,
      by simp only; omega⟩, ?_⟩
    · intro m hm
      simp only at hm
      rw [k2] at hm
      cases hm
      simp only; omega
    · simp only [Civil.seconds]
      rw [k3]
      have : (y - 1 - 1968) / 4 + (y - 1 - 1600) / 400 - (y - 1 - 1900) / 100 + (y - 1970) * 365 = Spec.daysBefore (y - 1970) := by
        rw [show y - 1970 + 1969 = y - 1 by omega] at hdays
        omega
      rw [← this]
      have e : ∀ a b c d e : Nat, (a + b + (c + d + e)) = (b + a + (c + e) + d) := by intros; omega
      rw [e]
  · rintro ⟨⟨v1, v2, v3, v4, v5, v6⟩, rfl⟩
    simp only at v1 v2 v3 v4 v5 v6
    obtain ⟨before, n, k1, k2, k3⟩ := hmonth (mo - 1) (by omega)
    rw [show mo - 1 + 1 = mo by omega] at k1 k3
    have hn := v3.2 n k2
    rw [if_neg (by omega), k1]
    simp only
    rw [if_neg (by omega)]
    simp only [Civil.seconds]
    rw [k3]
    have : (y - 1 - 1968) / 4 + (y - 1 - 1600) / 400 - (y - 1 - 1900) / 100 + (y - 1970) * 365 = Spec.daysBefore (y - 1970) := by
      rw [show y - 1970 + 1969 = y - 1 by omega] at hdays
      omega
    rw [← this]
    have e : ∀ a b c d e : Nat, (a + b + (c + d + e)) = (b + a + (c + e) + d) := by intros; omega
    rw [e]

theorem timeTail_whole (year : Nat) : Whole (timeTail year)
    (fun s c => ∃ t : Civil, t.year = year ∧ t.Valid ∧ c = t.tail ∧ s = t.seconds) := by
  have hz : ∀ mo d h mi se, Whole (byte >>= fun z => if z.toNat = 90 then lift (unixTime year mo d h mi se) else fail)
      (fun s c => c = [90] ∧ unixTime year mo d h mi se = some s) := by
    intro mo d h mi se b s
    rw [bind_iff]
    constructor
    · rintro ⟨x, r, h1, h2⟩
      obtain ⟨e, rfl, rfl⟩ := (byte_reads _ _ _).1 h1
      split at h2
      · rename_i hx
        obtain ⟨h3, rfl⟩ := lift_iff.1 h2
        refine ⟨?_, h3⟩
        rw [← u8 x, hx]; rfl
      · exact (fail_iff.1 h2).elim
    · rintro ⟨rfl, h⟩
      exact ⟨90, [], rfl, by rw [if_pos (by decide)]; exact lift_iff.2 ⟨h, rfl⟩⟩
  have : Whole (timeTail year) _ := Whole.bind digits_reads fun mo => Whole.bind digits_reads fun d =>
    Whole.bind digits_reads fun h => Whole.bind digits_reads fun mi => Whole.bind digits_reads fun se => hz mo d h mi se
  refine this.congr fun s c => ?_
  constructor
  · rintro ⟨mo, _, _, ⟨m1, rfl⟩, ⟨d, _, _, ⟨m2, rfl⟩, ⟨h, _, _, ⟨m3, rfl⟩, ⟨mi, _, _, ⟨m4, rfl⟩, ⟨se, _, _, ⟨m5, rfl⟩,
      ⟨rfl, k⟩, rfl⟩, rfl⟩, rfl⟩, rfl⟩, rfl⟩
    obtain ⟨k1, k2⟩ := (unixTime_iff ⟨year, mo, d, h, mi, se⟩ s).1 k
    exact ⟨_, rfl, k1, by simp [Civil.tail], k2⟩
  · rintro ⟨t, rfl, hv, rfl, rfl⟩
    have hd : t.day < 100 := by
      have h1 := hv.month
      have h2 := hv.day.2
      have : ∃ n, (Spec.monthLengths t.year)[t.month - 1]? = some n ∧ n ≤ 31 := by
        unfold Spec.monthLengths
        have : t.month - 1 = 0 ∨ t.month - 1 = 1 ∨ t.month - 1 = 2 ∨ t.month - 1 = 3 ∨ t.month - 1 = 4 ∨ t.month - 1 = 5 ∨
          t.month - 1 = 6 ∨ t.month - 1 = 7 ∨ t.month - 1 = 8 ∨ t.month - 1 = 9 ∨ t.month - 1 = 10 ∨ t.month - 1 = 11 := by omega
        rcases this with h | h | h | h | h | h | h | h | h | h | h | h <;> rw [h] <;> refine ⟨_, rfl, ?_⟩ <;>
          first | decide | (split <;> decide)
      obtain ⟨n, k1, k2⟩ := this
      have := h2 n k1
      omega
    have h1 := hv.month
    have h2 := hv.hour
    have h3 := hv.minute
    have h4 := hv.second
    exact ⟨t.month, _, _, ⟨by omega, rfl⟩, ⟨t.day, _, _, ⟨hd, rfl⟩, ⟨t.hour, _, _, ⟨by omega, rfl⟩, ⟨t.minute, _, _, ⟨by omega, rfl⟩,
      ⟨t.second, _, _, ⟨by omega, rfl⟩, ⟨rfl, (unixTime_iff t _).2 ⟨hv, rfl⟩⟩, rfl⟩, rfl⟩, rfl⟩, rfl⟩, by simp [Civil.tail]⟩

theorem utcContent_whole : Whole utcContent
    (fun s c => ∃ t : Civil, t.Valid ∧ t.year < 2050 ∧ c = two (t.year % 100) ++ t.tail ∧ s = t.seconds) := by
  have : Whole utcContent _ := Whole.bind digits_reads fun yy => timeTail_whole (if 50 ≤ yy then 1900 + yy else 2000 + yy)
  refine this.congr fun s c => ?_
  constructor
  · rintro ⟨yy, _, _, ⟨h1, rfl⟩, ⟨t, h2, h3, rfl, rfl⟩, rfl⟩
    refine ⟨t, h3, ?_, ?_, rfl⟩
    · rw [h2]; split <;> omega
    · rw [h2, show (if 50 ≤ yy then 1900 + yy else 2000 + yy) % 100 = yy by split <;> omega]
  · rintro ⟨t, h1, h2, rfl, rfl⟩
    have := h1.year
    refine ⟨t.year % 100, _, _, ⟨by omega, rfl⟩, ⟨t, ?_, h1, rfl, rfl⟩, rfl⟩
    split <;> omega

theorem generalizedContent_whole : Whole generalizedContent
    (fun s c => ∃ t : Civil, t.Valid ∧ t.year < 10000 ∧ c = two (t.year / 100) ++ two (t.year % 100) ++ t.tail ∧
      s = t.seconds) := by
  have : Whole generalizedContent _ := Whole.bind digits_reads fun hi => Whole.bind digits_reads fun lo =>
    timeTail_whole (hi * 100 + lo)
  refine this.congr fun s c => ?_
  constructor
  · rintro ⟨hi, _, _, ⟨h1, rfl⟩, ⟨lo, _, _, ⟨h4, rfl⟩, ⟨t, h2, h3, rfl, rfl⟩, rfl⟩, rfl⟩
    refine ⟨t, h3, by omega, ?_, rfl⟩
    rw [h2, show (hi * 100 + lo) / 100 = hi by omega, show (hi * 100 + lo) % 100 = lo by omega, List.append_assoc]
  · rintro ⟨t, h1, h2, rfl, rfl⟩
    exact ⟨t.year / 100, _, _, ⟨by omega, rfl⟩, ⟨t.year % 100, _, _, ⟨by omega, rfl⟩, ⟨t, by omega, h1, rfl, rfl⟩, rfl⟩, by simp⟩

theorem known {tag : UInt8} (h : tag ∈ [0x01, 0x02, 0x03, 0x04, 0x05, 0x06, 0x17, 0x18, 0x30, 0x31, 0x81, 0x82, 0xA0, 0xA3]) :
    T.known tag = true := T.schema tag h

theorem time_reads : Reads (time T) IsTime := by
  have hu := elem_reads T 0x17 (known T (by decide)) utcContent_whole
  have hg := elem_reads T 0x18 (known T (by decide)) generalizedContent_whole
  intro b s r
  constructor
  · intro h
    unfold time at h
    split at h
    · cases h
    · split at h
      · obtain ⟨e, ⟨c, h1, t, h2, h3, rfl, rfl⟩, h4⟩ := (hu _ _ _).1 h
        exact ⟨e, .utc t e h2 h3 h1 rfl, h4⟩
      · obtain ⟨e, ⟨c, h1, t, h2, h3, rfl, rfl⟩, h4⟩ := (hg _ _ _).1 h
        exact ⟨e, .generalized t e h2 h3 h1 rfl, h4⟩
  · rintro ⟨e, h, rfl⟩
    cases h with
    | utc t _ h hy hb hs =>
      have := (hu (e ++ r) s r).2 ⟨e, ⟨_, hb, t, h, hy, rfl, hs⟩, rfl⟩
      rw [hb.2] at this ⊢
      unfold time
      simp only [List.cons_append, if_true]
      exact this
    | generalized t _ h hy hb hs =>
      have := (hg (e ++ r) s r).2 ⟨e, ⟨_, hb, t, h, hy, rfl, hs⟩, rfl⟩
      rw [hb.2] at this ⊢
      unfold time
      simp only [List.cons_append]
      rw [if_neg (by decide)]
      exact this

/-! ## Structures -/

theorem oid_reads : Reads (oid T) (Tagged 0x06 IsOid) := elem_reads T 0x06 (known T (by decide)) oidContent_whole

theorem Tagged.head {tag : UInt8} {E : α → Bytes → Prop} {a : α} {b : Bytes} (h : Tagged tag E a b) : ∃ r, b = tag :: r := by
  obtain ⟨c, h, -⟩ := h
  exact Element.tag h

theorem Tagged.ne {tag : UInt8} {E : α → Bytes → Prop} {a : α} (h : Tagged tag E a []) : False := by
  obtain ⟨r, h⟩ := Tagged.head h
  cases h

theorem IsAny.head {a : Any} {b : Bytes} (h : IsAny T a b) : ∃ r, b = a.tag :: r := Element.tag h.2

theorem algContent_whole : Whole (algContent T) (IsAlgorithm T) := by
  have ht : ∀ o, Whole (do
      let b ← peek
      match b with
      | [] => Pure.pure ⟨o, none⟩
      | _ => do
        let a ← any T
        Pure.pure (⟨o, some (a.tag, a.value)⟩ : AlgId))
      (fun y e => y.oid = o ∧ match y.params with
        | none => e = []
        | some p => IsAny T ⟨p.1, p.2⟩ e) := by
    intro o b y
    rw [bind_iff]
    have hany : ∀ b, ((any T >>= fun a => Pure.pure (⟨o, some (a.tag, a.value)⟩ : AlgId)) b = some (y, []) ↔
        ∃ a, IsAny T a b ∧ y = ⟨o, some (a.tag, a.value)⟩) := by
      intro b
      rw [bind_iff]
      constructor
      · rintro ⟨a, r, h1, h2⟩
        obtain ⟨rfl, rfl⟩ := pure_iff.1 h2
        obtain ⟨e, h3, rfl⟩ := (any_reads T _ _ _).1 h1
        exact ⟨a, by simpa using h3, rfl⟩
      · rintro ⟨a, h1, rfl⟩
        exact ⟨a, [], (any_reads T _ _ _).2 ⟨b, h1, by simp⟩, rfl⟩
    constructor
    · rintro ⟨b', r, h1, h2⟩
      cases h1
      split at h2
      · obtain ⟨rfl, -⟩ := pure_iff.1 h2
        exact ⟨rfl, rfl⟩
      · obtain ⟨a, h3, rfl⟩ := (hany _).1 h2
        exact ⟨rfl, h3⟩
    · rintro ⟨rfl, h⟩
      refine ⟨b, b, rfl, ?_⟩
      split at h
      · rename_i hp
        subst h
        simp only
        exact pure_iff.2 ⟨by rw [← hp], rfl⟩
      · rename_i p hp
        obtain ⟨r, rfl⟩ := IsAny.head T h
        simp only
        exact (hany _).2 ⟨_, h, by rw [← hp]⟩
  have : Whole (algContent T) _ := Whole.bind (oid_reads T) ht
  refine this.congr fun y e => ?_
  constructor
  · rintro ⟨o, e1, e2, h1, ⟨rfl, h2⟩, rfl⟩
    exact ⟨e1, e2, h1, rfl, h2⟩
  · rintro ⟨e1, e2, h1, rfl, h2⟩
    exact ⟨_, e1, e2, h1, ⟨rfl, h2⟩, rfl⟩

theorem alg_reads : Reads (elem T 0x30 (algContent T)) (Tagged 0x30 (IsAlgorithm T)) :=
  elem_reads T 0x30 (known T (by decide)) (algContent_whole T)

theorem bit_reads (tag : UInt8)
    (h : tag ∈ [0x01, 0x02, 0x03, 0x04, 0x05, 0x06, 0x17, 0x18, 0x30, 0x31, 0x81, 0x82, 0xA0, 0xA3]) :
    Reads (elem T tag bitContent) (Tagged tag IsBitString) :=
  elem_reads T tag (known T h) bitContent_whole

theorem attrContent_whole : Whole (attrContent T) (IsAttribute T) := by
  have : Whole (attrContent T) _ := Whole.bind (oid_reads T) fun o =>
    ((any_reads T).bind fun v => Reads.pure (⟨o, v⟩ : AttrTv)).whole
  refine this.congr fun y e => ?_
  constructor
  · rintro ⟨o, e1, _, h1, ⟨v, e2, _, h2, ⟨rfl, rfl⟩, rfl⟩, rfl⟩
    exact ⟨e1, e2, h1, h2, by simp⟩
  · rintro ⟨e1, e2, h1, h2, rfl⟩
    exact ⟨_, e1, e2, h1, ⟨_, e2, [], h2, ⟨rfl, rfl⟩, by simp⟩, rfl⟩

theorem each_and {E : α → Bytes → Prop} {P : α → Prop} (n : List α) (c : Bytes) :
    Each (fun a b => E a b ∧ P a) n c ↔ Each E n c ∧ ∀ a ∈ n, P a := by
  constructor
  · intro h
    induction h with
    | nil => exact ⟨.nil, by simp⟩
    | cons a as e b h hs ih => exact ⟨.cons a as e b h.1 ih.1, by simpa using ⟨h.2, ih.2⟩⟩
  · rintro ⟨h, hp⟩
    induction h with
    | nil => exact .nil
    | cons a as e b h hs ih => exact .cons a as e b ⟨h, hp a (by simp)⟩ (ih fun x hx => hp x (by simp [hx]))

theorem each_congr {E F : α → Bytes → Prop} (h : ∀ a b, E a b ↔ F a b) (n : List α) (c : Bytes) : Each E n c ↔ Each F n c := by
  have : E = F := by funext a b; exact propext (h a b)
  rw [this]

theorem tagged_and {tag : UInt8} {E : α → Bytes → Prop} {P : α → Prop} (a : α) (b : Bytes) :
    Tagged tag (fun a c => E a c ∧ P a) a b ↔ Tagged tag E a b ∧ P a := by
  unfold Tagged
  constructor
  · rintro ⟨c, h1, h2, h3⟩; exact ⟨⟨c, h1, h2⟩, h3⟩
  · rintro ⟨⟨c, h1, h2⟩, h3⟩; exact ⟨c, h1, h2, h3⟩

variable (K : DerCaps)

/-- The limits on a name. -/
def NameFits (n : List (List AttrTv)) : Prop := n.length ≤ K.name ∧ ∀ rdn ∈ n, rdn.length ≤ K.rdn

theorem name_reads : Reads (name T K) (fun n b => Tagged 0x30 (IsName T) n b ∧ NameFits K n) := by
  have ha := elem_reads T 0x30 (known T (by decide)) (attrContent_whole T)
  have hs := elem_reads T 0x31 (known T (by decide)) (upTo_whole K.rdn ha fun a h => Tagged.ne h)
  have hn := elem_reads T 0x30 (known T (by decide)) (upTo_whole K.name hs fun a h => Tagged.ne h)
  refine Reads.congr (p := name T K) hn fun n b => ?_
  rw [tagged_and]
  have : (Tagged 0x30 fun as b => Each (Tagged 0x31 fun as b => Each (Tagged 0x30 (IsAttribute T)) as b ∧ as.length ≤ K.rdn) as b) =
      (Tagged 0x30 fun as b => IsName T as b ∧ ∀ rdn ∈ as, rdn.length ≤ K.rdn) := by
    congr 1
    funext as b
    refine propext ?_
    unfold IsName
    rw [← each_and]
    exact each_congr (fun a b => tagged_and a b) as b
  rw [this, tagged_and, and_assoc]
  unfold NameFits
  exact and_congr_right fun _ => and_comm

theorem extContent_whole : Whole (extContent T) (IsExtension T) := by
  have hb := elem_reads T 0x01 (known T (by decide)) boolContent_whole
  have hv : ∀ o c, Whole (any T >>= fun v => Pure.pure (⟨o, c, v.tag, v.value⟩ : CertExt))
      (fun y e => IsAny T ⟨y.tag, y.value⟩ e ∧ y.id = o ∧ y.critical = c) := by
    intro o c
    refine ((any_reads T).bind fun v => Reads.pure (⟨o, c, v.tag, v.value⟩ : CertExt)).whole.congr fun y e => ?_
    constructor
    · rintro ⟨v, e2, _, h2, ⟨rfl, rfl⟩, rfl⟩
      exact ⟨by simpa using h2, rfl, rfl⟩
    · rintro ⟨h, rfl, rfl⟩
      exact ⟨_, e, [], h, ⟨rfl, rfl⟩, by simp⟩
  have hrest : ∀ o, Whole (opt 0x01 (elem T 0x01 boolContent) >>= fun c =>
      any T >>= fun v => Pure.pure (⟨o, c, v.tag, v.value⟩ : CertExt))
      (fun y e => ∃ critical value, IsAny T ⟨y.tag, y.value⟩ value ∧ y.id = o ∧ e = critical ++ value ∧
        match y.critical with
        | none => critical = [] ∧ y.tag ≠ 0x01
        | some b => Element 0x01 [if b then 255 else 0] critical) := by
    intro o b y
    rw [bind_iff]
    constructor
    · rintro ⟨c, r, h1, h2⟩
      obtain ⟨h3, h4, rfl⟩ := (hv o c _ _).1 h2
      unfold opt at h1
      split at h1
      · simp only [Option.some.injEq, Prod.mk.injEq] at h1
        obtain ⟨-, rfl⟩ := h1
        obtain ⟨r, h⟩ := IsAny.head T h3
        cases h
      · split at h1
        · split at h1
          · rename_i a r' hpa
            cases hc : y.critical with
            | none => rw [hc] at h1; cases h1
            | some v =>
              rw [hc] at h1
              cases h1
              obtain ⟨e, ⟨c, k1, rfl⟩, k2⟩ := (hb _ _ _).1 hpa
              exact ⟨e, _, h3, h4, k2, k1⟩
          · cases h1
        · rename_i x r' hx
          cases hc : y.critical with
          | some v => rw [hc] at h1; cases h1
          | none =>
            rw [hc] at h1
            cases h1
            refine ⟨[], _, h3, h4, rfl, rfl, ?_⟩
            obtain ⟨r, h⟩ := IsAny.head T h3
            cases h
            exact hx
    · rintro ⟨critical, value, h1, rfl, rfl, h2⟩
      refine ⟨y.critical, value, ?_, (hv _ _ _ _).2 ⟨h1, rfl, rfl⟩⟩
      cases hc : y.critical with
      | none =>
        rw [hc] at h2
        obtain ⟨rfl, h2⟩ := h2
        obtain ⟨r, rfl⟩ := IsAny.head T h1
        simp only [List.nil_append, opt]
        rw [if_neg h2]
      | some v =>
        rw [hc] at h2
        have hp := (hb (critical ++ value) v value).2 ⟨critical, ⟨_, h2, rfl⟩, rfl⟩
        obtain ⟨r, rfl⟩ := Element.tag h2
        simp only [List.cons_append, opt, if_true] at hp ⊢
        rw [hp]
  have : Whole (extContent T) _ := Whole.bind (oid_reads T) hrest
  refine this.congr fun y e => ?_
  constructor
  · rintro ⟨o, e1, _, h1, ⟨cr, v, h2, rfl, rfl, h3⟩, rfl⟩
    exact ⟨e1, cr, v, h1, h2, by simp, h3⟩
  · rintro ⟨e1, cr, v, h1, h2, rfl, h3⟩
    exact ⟨_, e1, cr ++ v, h1, ⟨cr, v, h2, rfl, rfl, h3⟩, by simp⟩

theorem validityContent_whole : Whole (validityContent T) (fun v c => IsValidity v.1 v.2 c) := by
  have : Whole (validityContent T) _ := Whole.bind (time_reads T) fun nb =>
    ((time_reads T).bind fun na => Reads.pure (nb, na)).whole
  refine this.congr fun y e => ?_
  constructor
  · rintro ⟨o, e1, _, h1, ⟨v, e2, _, h2, ⟨rfl, rfl⟩, rfl⟩, rfl⟩
    exact ⟨e1, e2, h1, h2, by simp⟩
  · rintro ⟨e1, e2, h1, h2, rfl⟩
    exact ⟨_, e1, e2, h1, ⟨_, e2, [], h2, ⟨rfl, rfl⟩, by simp⟩, rfl⟩

theorem keyContent_whole : Whole (keyContent T) (fun v c => IsKeyInfo T v.1 v.2 c) := by
  have : Whole (keyContent T) _ := Whole.bind (alg_reads T) fun a =>
    ((bit_reads T 0x03 (by decide)).bind fun k => Reads.pure (a, k)).whole
  refine this.congr fun y e => ?_
  constructor
  · rintro ⟨o, e1, _, h1, ⟨v, e2, _, h2, ⟨rfl, rfl⟩, rfl⟩, rfl⟩
    exact ⟨e1, e2, h1, h2, by simp⟩
  · rintro ⟨e1, e2, h1, h2, rfl⟩
    exact ⟨_, e1, e2, h1, ⟨_, e2, [], h2, ⟨rfl, rfl⟩, by simp⟩, rfl⟩

/-- Encodings of the extensions field. -/
def ExtField (xs : List CertExt) (b : Bytes) : Prop :=
  ∃ e, Element 0xA3 e b ∧ Tagged 0x30 (Each (Tagged 0x30 (IsExtension T))) xs e

theorem extensions_reads : Reads (extensions T K) (fun xs b => ExtField T xs b ∧ xs.length ≤ K.exts) := by
  have he := elem_reads T 0x30 (known T (by decide)) (extContent_whole T)
  have hs := elem_reads T 0x30 (known T (by decide)) (upTo_whole K.exts he fun a h => Tagged.ne h)
  have hn := elem_reads T 0xA3 (known T (by decide)) hs.whole
  refine Reads.congr (p := extensions T K) hn fun n b => ?_
  unfold ExtField
  constructor
  · rintro ⟨c, h1, h2⟩
    have := (tagged_and n c).1 h2
    exact ⟨⟨c, h1, this.1⟩, this.2⟩
  · rintro ⟨⟨c, h1, h2⟩, h3⟩
    exact ⟨c, h1, (tagged_and n c).2 ⟨h2, h3⟩⟩

theorem optionally_head {tag : UInt8} {E : α → Bytes → Prop} (ht : ∀ a e, E a e → ∃ r, e = tag :: r) {o : Option α} {x : UInt8}
    {r e : Bytes} (h : Optionally E o e) (he : e = x :: r) : x = tag := by
  cases o with
  | none => cases h; cases he
  | some a =>
    obtain ⟨r', h⟩ := ht a e h
    rw [h] at he
    cases he
    rfl

theorem optionally_nil {tag : UInt8} {E : α → Bytes → Prop} (ht : ∀ a e, E a e → ∃ r, e = tag :: r) {o : Option α}
    (h : Optionally E o []) : o = none := by
  cases o with
  | none => rfl
  | some a =>
    obtain ⟨r', h⟩ := ht a _ h
    cases h

theorem extField_head (xs : List CertExt) (e : Bytes) (h : ExtField T xs e ∧ xs.length ≤ K.exts) : ∃ r, e = 0xA3 :: r := by
  obtain ⟨⟨c, h, -⟩, -⟩ := h
  exact Element.tag h

theorem tbsEnd_whole (mk : Option BitStr → Option BitStr → Option (List CertExt) → Tbs) :
    Whole (opt 0x81 (elem T 0x81 bitContent) >>= fun i => opt 0x82 (elem T 0x82 bitContent) >>= fun s =>
      opt 0xA3 (extensions T K) >>= fun x => Pure.pure (mk i s x))
    (fun y e => ∃ i s x e1 e2 e3, Optionally (Tagged 0x81 IsBitString) i e1 ∧ Optionally (Tagged 0x82 IsBitString) s e2 ∧
      Optionally (fun xs b => ExtField T xs b ∧ xs.length ≤ K.exts) x e3 ∧ y = mk i s x ∧ e = e1 ++ (e2 ++ e3)) := by
  have h3 : ∀ i s, Whole (opt 0xA3 (extensions T K) >>= fun x => Pure.pure (mk i s x))
      (fun y e => ∃ x, Optionally (fun xs b => ExtField T xs b ∧ xs.length ≤ K.exts) x e ∧ y = mk i s x) := by
    intro i s
    refine (opt_whole 0xA3 (extensions_reads T K) (extField_head T K) (fun x => (Reads.pure (mk i s x)).whole)
      (by rintro y r ⟨-, h⟩; cases h)).congr fun y e => ?_
    constructor
    · rintro ⟨x, e1, _, h1, ⟨rfl, rfl⟩, rfl⟩; exact ⟨x, by simpa using h1, rfl⟩
    · rintro ⟨x, h1, rfl⟩; exact ⟨x, e, [], h1, ⟨rfl, rfl⟩, by simp⟩
  have h2 := fun i => opt_whole 0x82 (bit_reads T 0x82 (by decide)) (fun a e h => Tagged.head h) (h3 i)
    (by rintro y r ⟨x, h, -⟩; exact absurd (optionally_head (extField_head T K) h rfl) (by decide))
  refine (opt_whole 0x81 (bit_reads T 0x81 (by decide)) (fun a e h => Tagged.head h) h2 ?_).congr fun y e => ?_
  · rintro y r ⟨s, e1, e2, h1, ⟨x, h4, -⟩, h5⟩
    cases e1 with
    | nil => exact absurd (optionally_head (extField_head T K) h4 h5.symm) (by decide)
    | cons z e1 =>
      have hz := optionally_head (fun a e h => Tagged.head h) h1 rfl
      rw [hz] at h5
      exact absurd (List.cons.inj h5).1 (by decide)
  · constructor
    · rintro ⟨i, e1, _, h1, ⟨s, e2, e3, h2, ⟨x, h3, rfl⟩, rfl⟩, rfl⟩
      exact ⟨i, s, x, e1, e2, e3, h1, h2, h3, rfl, rfl⟩
    · rintro ⟨i, s, x, e1, e2, e3, h1, h2, h3, rfl, rfl⟩
      exact ⟨i, e1, _, h1, ⟨s, e2, e3, h2, ⟨x, h3, rfl⟩, rfl⟩, rfl⟩

theorem optionally_and {E : α → Bytes → Prop} {P : α → Prop} (o : Option α) (b : Bytes) :
    Optionally (fun a c => E a c ∧ P a) o b ↔ Optionally E o b ∧ ∀ a, o = some a → P a := by
  cases o with
  | none => simp [Optionally]
  | some a => simp [Optionally]

/-- The limits on the to-be-signed part. -/
def TbsFits (t : Tbs) : Prop :=
  NameFits K t.issuer ∧ NameFits K t.subject ∧ ∀ xs, t.extensions = some xs → xs.length ≤ K.exts

theorem tbsContent_whole : Whole (tbsContent T K) (fun t c => IsTbs T t c ∧ TbsFits K t) := by
  have hv := elem_reads T 0xA0 (known T (by decide)) (elem_reads T 0x02 (known T (by decide)) versionContent_whole).whole
  have hser := elem_reads T 0x02 (known T (by decide)) integerContent_whole
  have hval := elem_reads T 0x30 (known T (by decide)) (validityContent_whole T)
  have hkey := elem_reads T 0x30 (known T (by decide)) (keyContent_whole T)
  have hrest := fun (v : Option Nat) => Whole.bind hser fun serial => Whole.bind (alg_reads T) fun sg =>
    Whole.bind (name_reads T K) fun iss => Whole.bind hval fun val => Whole.bind (name_reads T K) fun sub =>
    Whole.bind hkey fun key => tbsEnd_whole T K fun i s x =>
      ⟨v.getD 0, serial, sg, iss, val.1, val.2, sub, key.1, key.2, i, s, x⟩
  have : Whole (tbsContent T K) _ := opt_whole 0xA0 hv (fun a e h => Tagged.head h) hrest (by
    rintro y r ⟨ser, e1, e2, h1, -, h2⟩
    obtain ⟨r', rfl⟩ := Tagged.head h1
    exact absurd (List.cons.inj h2).1 (by decide))
  refine this.congr fun t c => ?_
  constructor
  · rintro ⟨v, ev, _, hv, ⟨ser, eser, _, ⟨_, hser, hint, rfl⟩, ⟨sg, esg, _, hsg, ⟨iss, eiss, _, ⟨hiss, hissf⟩, ⟨val, evl, _,
      ⟨cv, hval1, hval2⟩, ⟨sub, esub, _, ⟨hsub, hsubf⟩, ⟨key, ekey, _, ⟨ck, hkey1, hkey2⟩,
      ⟨i, s, x, e1, e2, e3, h1, h2, h3, rfl, rfl⟩, rfl⟩, rfl⟩, rfl⟩, rfl⟩, rfl⟩, rfl⟩, rfl⟩
    rw [optionally_and] at h3
    refine ⟨⟨ev, eser, esg, eiss, evl, esub, ekey, e1, e2, e3, ?_, hser, hint, hsg, hiss, ⟨cv, hval1, hval2⟩, hsub,
      ⟨ck, hkey1, hkey2⟩, h1, h2, h3.1, by simp⟩, hissf, hsubf, h3.2⟩
    cases v with
    | none => exact .inl ⟨rfl, hv⟩
    | some v =>
      obtain ⟨c, k1, c', k2, k3, rfl⟩ := hv
      exact .inr ⟨k3, c, k1, k2⟩
  · rintro ⟨⟨ev, eser, esg, eiss, evl, esub, ekey, e1, e2, e3, hv, hser, hint, hsg, hiss, ⟨cv, hval1, hval2⟩, hsub,
      ⟨ck, hkey1, hkey2⟩, h1, h2, h3, rfl⟩, hissf, hsubf, hext⟩
    have hv' : ∃ v : Option Nat, t.version = v.getD 0 ∧
        Optionally (Tagged 0xA0 (Tagged 0x02 fun v c => v ≤ 2 ∧ c = [UInt8.ofNat v])) v ev := by
      rcases hv with ⟨h, rfl⟩ | ⟨h, c, k1, k2⟩
      · exact ⟨none, h, rfl⟩
      · exact ⟨some t.version, rfl, c, k1, _, k2, h, rfl⟩
    obtain ⟨v, hv1, hv2⟩ := hv'
    obtain ⟨ver, ser, sg, iss, nb, na, sub, ka, k, iu, su, ex⟩ := t
    simp only at *
    subst hv1
    exact ⟨v, ev, _, hv2, ⟨ser, eser, _, ⟨_, hser, hint, rfl⟩, ⟨sg, esg, _, hsg, ⟨iss, eiss, _, ⟨hiss, hissf⟩, ⟨(nb, na), evl, _,
      ⟨cv, hval1, hval2⟩, ⟨sub, esub, _, ⟨hsub, hsubf⟩, ⟨(ka, k), ekey, _, ⟨ck, hkey1, hkey2⟩,
      ⟨iu, su, ex, e1, e2, e3, h1, h2, (optionally_and ex e3).2 ⟨h3, hext⟩, rfl, rfl⟩, rfl⟩, rfl⟩, rfl⟩, rfl⟩, rfl⟩, rfl⟩, by simp⟩

theorem fits_iff (c : Cert) : Fits K c ↔ TbsFits K c.tbs :=
  ⟨fun h => ⟨h.issuer, h.subject, h.extensions⟩, fun h => ⟨h.1, h.2.1, h.2.2⟩⟩

theorem certContent_whole : Whole (certContent T K) (fun c b => Fits K c ∧
    ∃ tbs alg sig, Tagged 0x30 (IsTbs T) c.tbs tbs ∧ Tagged 0x30 (IsAlgorithm T) c.sigAlg alg ∧
      Tagged 0x03 IsBitString c.signature sig ∧ b = tbs ++ alg ++ sig) := by
  have ht := elem_reads T 0x30 (known T (by decide)) (tbsContent_whole T K)
  have : Whole (certContent T K) _ := Whole.bind ht fun t => Whole.bind (alg_reads T) fun a =>
    ((bit_reads T 0x03 (by decide)).bind fun k => Reads.pure (⟨t, a, k⟩ : Cert)).whole
  refine this.congr fun c b => ?_
  constructor
  · rintro ⟨t, e1, _, h1, ⟨a, e2, _, h2, ⟨k, e3, _, h3, ⟨rfl, rfl⟩, rfl⟩, rfl⟩, rfl⟩
    rw [tagged_and] at h1
    exact ⟨(fits_iff K _).2 h1.2, e1, e2, e3, h1.1, h2, h3, by simp⟩
  · rintro ⟨h, e1, e2, e3, h1, h2, h3, rfl⟩
    exact ⟨_, e1, _, (tagged_and _ _).2 ⟨h1, (fits_iff K _).1 h⟩, ⟨_, e2, _, h2, ⟨_, e3, [], h3, ⟨rfl, rfl⟩, rfl⟩, rfl⟩, by simp⟩

theorem certificateOf_iff (b : Bytes) (c : Cert) :
    certificateOf T K b = some c ↔ (∃ tbs, IsCertificate T c tbs b) ∧ Fits K c := by
  unfold certificateOf
  rw [inside_iff, (elem_reads T 0x30 (known T (by decide)) (certContent_whole T K)).whole]
  unfold IsCertificate Tagged
  constructor
  · rintro ⟨_, h1, h2, tbs, alg, sig, h3, h4, h5, rfl⟩
    exact ⟨⟨tbs, h3, alg, sig, h4, h5, h1⟩, h2⟩
  · rintro ⟨⟨tbs, h3, alg, sig, h4, h5, h1⟩, h2⟩
    exact ⟨_, h1, h2, tbs, alg, sig, h3, h4, h5, rfl⟩

/-- **C80**: the decoder gives a certificate for exactly those bytes that are, octet for octet, a DER encoding of this
certificate, and only within the limits of the library. -/
theorem C80_der (b : Bytes) (c : Cert) :
    certificate T b = some c ↔ (∃ tbs, IsCertificate T c tbs b) ∧ WithinLimits c := by
  unfold certificate
  rw [certificateOf_iff]
  exact and_congr_right fun _ => ⟨fun h => ⟨h.issuer, h.subject, h.extensions⟩, fun h => ⟨h.issuer, h.subject, h.extensions⟩⟩

/-- Every certificate fits some capacities. -/
theorem fits_some (c c' : Cert) : ∃ K, Fits K c ∧ Fits K c' := by
  have hsum : ∀ (n : List (List AttrTv)), ∀ rdn ∈ n, rdn.length ≤ (n.map List.length).sum := by
    intro n
    induction n with
    | nil => intro rdn h; cases h
    | cons a n ih =>
      intro rdn h
      simp only [List.map_cons, List.sum_cons]
      rcases List.mem_cons.1 h with rfl | h
      · omega
      · have := ih rdn h; omega
  let w : Cert → Nat := fun c => (c.tbs.issuer.map List.length).sum + (c.tbs.subject.map List.length).sum
  let l : Cert → Nat := fun c => c.tbs.issuer.length + c.tbs.subject.length
  let e : Cert → Nat := fun c => (c.tbs.extensions.getD []).length
  have key : ∀ d K, w d ≤ K.rdn → l d ≤ K.name → e d ≤ K.exts → Fits K d := by
    intro d K hw hl he
    simp only [w, l, e] at hw hl he
    refine ⟨⟨by omega, fun rdn hr => ?_⟩, ⟨by omega, fun rdn hr => ?_⟩, fun xs hx => ?_⟩
    · have := hsum _ rdn hr; omega
    · have := hsum _ rdn hr; omega
    · rw [hx] at he; exact he
  exact ⟨⟨w c + w c', l c + l c', e c + e c'⟩, key c _ (by simp) (by simp) (by simp), key c' _ (by simp) (by simp) (by simp)⟩

/-- DER encodings of certificates are unambiguous. -/
theorem isCertificate_unique {c c' : Cert} {tbs tbs' b : Bytes} (h : IsCertificate T c tbs b) (h' : IsCertificate T c' tbs' b) :
    c = c' := by
  obtain ⟨K, h1, h2⟩ := fits_some c c'
  have k1 := (certificateOf_iff T K b c).2 ⟨⟨tbs, h⟩, h1⟩
  have k2 := (certificateOf_iff T K b c').2 ⟨⟨tbs', h'⟩, h2⟩
  rw [k1] at k2
  injection k2

/-- **C84, refuted** A certificate beyond the limits is not decoded. -/
theorem C84_refuted {c : Cert} {tbs b : Bytes} (h : IsCertificate T c tbs b) (hl : ¬ WithinLimits c) : certificate T b = none := by
  cases hc : certificate T b with
  | none => rfl
  | some c' =>
    obtain ⟨⟨tbs', h1⟩, h2⟩ := (C80_der T b c').1 hc
    rw [isCertificate_unique T h h1] at hl
    exact absurd h2 hl

end Der

end ETls
