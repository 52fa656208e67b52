import Verif.Proofs.P384
import Mathlib.GroupTheory.Perm.Cycle.Type
import Mathlib.SetTheory.Cardinal.Finite

/-! # The order of the group of P-384

The group has prime order `p384n`: the order of G divides it, it is at most 2 p + 1 < 3 n, and 2 n is impossible, because
there is no point of order two — x³ - 3x + b has no root, since x^p - x is invertible modulo it. -/

namespace ETls.Crypto.P384

open WeierstrassCurve.Affine (Point)

/-- Residues modulo x³ - 3x + b: a + b x + c x². -/
structure Cub where
  a : Nat
  b : Nat
  c : Nat
deriving DecidableEq

/-- `⟨a, b, c⟩`, evaluated. -/
def cub (a b c : Nat) : Cub := eager a fun a => eager b fun b => eager c fun c => ⟨a, b, c⟩

/-- -b. -/
def negB : Nat := p384p - p384b

/-- Multiplication, with x³ = 3x - b. -/
def Cub.mul (s t : Cub) : Cub :=
  let c3 := s.b * t.c + s.c * t.b
  let c4 := s.c * t.c
  cub ((s.a * t.a + c3 * negB) % p384p) ((s.a * t.b + s.b * t.a + 3 * c3 + c4 * negB) % p384p)
    ((s.a * t.c + s.b * t.b + s.c * t.a + 3 * c4) % p384p)

/-- `k t`, with `t` evaluated first. -/
def Cub.force {α : Type} (t : Cub) (k : Cub → α) : α :=
  eager t.a fun a => eager t.b fun b => eager t.c fun c => k ⟨a, b, c⟩

theorem Cub.force_eq {α : Type} (t : Cub) (k : Cub → α) : t.force k = k t := by
  simp only [Cub.force, eager_eq]

/-- One step of `xpowAux`: the square, times x if the bit is set. -/
def xpowStep (bit : Bool) (acc : Cub) : Cub := if bit then (acc.mul acc).mul ⟨0, 1, 0⟩ else acc.mul acc

/-- `acc ^ (2 ^ n) * x ^ (e mod 2 ^ n)`. -/
def xpowAux (e : Nat) : Nat → Cub → Cub
  | 0, acc => acc
  | n + 1, acc => (xpowStep (e.testBit n) acc).force fun t => xpowAux e n t

/-- The value at `ξ`. -/
def Cub.at (t : Cub) (ξ : Fp) : Fp := t.a + t.b * ξ + t.c * ξ ^ 2

theorem Cub.mul_at {ξ : Fp} (h : ξ ^ 3 - 3 * ξ + (p384b : Fp) = 0) (s t : Cub) : (s.mul t).at ξ = s.at ξ * t.at ξ := by
  have hb : ((negB : Nat) : Fp) = -(p384b : Fp) := by
    have : ((negB + p384b : Nat) : Fp) = 0 := by
      have : negB + p384b = p384p := by decide +kernel
      rw [this]; exact cast_p Fp
    push_cast at this
    exact eq_neg_of_add_eq_zero_left this
  simp only [Cub.mul, cub, eager_eq, Cub.at, cast_mod]
  push_cast
  rw [hb]
  linear_combination (-(s.b * t.c + s.c * t.b : Fp) - (s.c * t.c : Fp) * ξ) * h

theorem xpowAux_at {ξ : Fp} (h : ξ ^ 3 - 3 * ξ + (p384b : Fp) = 0) (e n : Nat) (acc : Cub) :
    (xpowAux e n acc).at ξ = acc.at ξ ^ (2 ^ n) * ξ ^ (e % 2 ^ n) := by
  induction n generalizing acc with
  | zero => simp [xpowAux, Nat.mod_one]
  | succ n ih =>
    have hx : (⟨0, 1, 0⟩ : Cub).at ξ = ξ := by simp [Cub.at]
    have hmod : e % 2 ^ (n + 1) = (if e.testBit n then 2 ^ n else 0) + e % 2 ^ n := by
      have hb : e / 2 ^ n % 2 = (e.testBit n).toNat := (Nat.toNat_testBit e n).symm
      rw [Nat.mod_pow_succ, hb]
      cases e.testBit n <;> simp [Nat.add_comm]
    rw [xpowAux, Cub.force_eq, ih, hmod, xpowStep]
    cases e.testBit n with
    | true =>
      simp only [if_true]
      rw [Cub.mul_at h, Cub.mul_at h, hx]
      ring
    | false =>
      simp only [Bool.false_eq_true, if_false, zero_add]
      rw [Cub.mul_at h]
      ring

/-- x^p. -/
def xp : Cub := xpowAux p384p 384 ⟨1, 0, 0⟩

/-- The inverse of x^p - x modulo x³ - 3x + b. -/
def xpInv : Cub := ⟨0x95adec811ebe8d4b9e2b41150d78f91a619189a415583b8f5e01888da3353b61765cde8cd6c12846310c3f0c10aae682,
  0x3581b884702fb0931c541a5cacefbe3bea864db86e01e048170560418dca3aa8689f246d9d11ccd2e145532dd48491af,
  0x4efcebfdccd7cb25d1b864228f0c32d3a83ec026134ae4753bdff5d3f1fa20b278b31dc3487beb792024fe436f36b43a⟩

theorem xpInv_mul : Cub.mul xpInv ⟨xp.a, xp.b + (p384p - 1), xp.c⟩ = ⟨1, 0, 0⟩ := by decide +kernel

/-- x³ - 3x + b has no root. -/
theorem no_root (ξ : Fp) : ξ ^ 3 - 3 * ξ + (p384b : Fp) ≠ 0 := by
  intro h
  have h1 : xp.at ξ = ξ := by
    rw [xp, xpowAux_at h, show p384p % 2 ^ 384 = p384p by decide +kernel, ZMod.pow_card]
    simp [Cub.at]
  have h2 : (⟨xp.a, xp.b + (p384p - 1), xp.c⟩ : Cub).at ξ = 0 := by
    have hm : ((p384p - 1 : Nat) : Fp) = -1 := by
      have : ((p384p - 1 + 1 : Nat) : Fp) = 0 := by
        rw [show p384p - 1 + 1 = p384p by decide +kernel]; exact cast_p Fp
      rw [Nat.cast_add, Nat.cast_one] at this
      exact eq_neg_of_add_eq_zero_left this
    unfold Cub.at at h1 ⊢
    simp only [Nat.cast_add]
    rw [hm]
    linear_combination h1
  have h3 := congrArg (fun t => Cub.at t ξ) xpInv_mul
  rw [Cub.mul_at h, h2] at h3
  simp [Cub.at] at h3

/-- No point has order two. -/
theorem no_order_two (A : Point (p384Curve Fp)) (h : A + A = 0) : A = 0 := by
  cases A with
  | zero => rfl
  | some x y hxy =>
    exfalso
    have hneg : (Point.some x y hxy : Point (p384Curve Fp)) = -Point.some x y hxy := eq_neg_of_add_eq_zero_left h
    rw [Point.neg_some, Point.some.injEq] at hneg
    have hy : y = 0 := by
      have := hneg.2
      simp only [WeierstrassCurve.Affine.negY, p384Curve] at this
      have h2 : (2 : Fp) * y = 0 := by linear_combination this
      rcases mul_eq_zero.mp h2 with h2 | h2
      · exact absurd h2 (two_ne Fp)
      · exact h2
    have he := hxy.1
    rw [WeierstrassCurve.Affine.equation_iff] at he
    simp only [p384Curve, hy] at he
    exact no_root x (by linear_combination -he)

/-- A point is determined by its x coordinate and the parity of its y coordinate. -/
def code : Point (p384Curve Fp) → Option (Fp × Bool)
  | .zero => none
  | .some x y _ => some (x, y.val % 2 = 0)

theorem code_inj : Function.Injective code := by
  intro A B h
  cases A with
  | zero => cases B with
    | zero => rfl
    | some x y hx => cases h
  | some x y hx => cases B with
    | zero => cases h
    | some x' y' hx' =>
      simp only [code, Option.some.injEq, Prod.mk.injEq, decide_eq_decide] at h
      obtain ⟨rfl, hp⟩ := h
      have e1 := hx.1
      have e2 := hx'.1
      rw [WeierstrassCurve.Affine.equation_iff] at e1 e2
      simp only [p384Curve] at e1 e2
      have : (y - y') * (y + y') = 0 := by linear_combination e1 - e2
      have hy : y = y' := by
        rcases mul_eq_zero.mp this with h | h
        · exact sub_eq_zero.mp h
        · by_cases h0 : y = 0
          · rw [h0, zero_add] at h; rw [h0, h]
          · exfalso
            have hn : y' = -y := by linear_combination h
            have : (-y).val = p384p - y.val := by
              have : NeZero y := ⟨h0⟩
              exact ZMod.val_neg_of_ne_zero y
            rw [hn, this] at hp
            have hlt := ZMod.val_lt y
            have hodd : p384p % 2 = 1 := by decide +kernel
            omega
      subst hy
      rfl

instance point_finite : Finite (Point (p384Curve Fp)) := Finite.of_injective code code_inj

/-- The group has order `p384n`. -/
theorem card_curve : Nat.card (Point (p384Curve Fp)) = p384n := by
  have hd : p384n ∣ Nat.card (Point (p384Curve Fp)) := by
    rw [← order_G]; exact addOrderOf_dvd_natCard G
  have hle : Nat.card (Point (p384Curve Fp)) ≤ 2 * p384p + 1 := by
    have := Nat.card_le_card_of_injective code code_inj
    refine this.trans (le_of_eq ?_)
    rw [Nat.card_eq_fintype_card, Fintype.card_option, Fintype.card_prod, ZMod.card, Fintype.card_bool]
    ring
  have hpos : 0 < Nat.card (Point (p384Curve Fp)) := Nat.card_pos
  obtain ⟨k, hk⟩ := hd
  rw [hk] at hle hpos
  have h3 : 2 * p384p + 1 < 3 * p384n := by decide +kernel
  have hk3 : k < 3 := by
    by_contra hc
    have : p384n * 3 ≤ p384n * k := Nat.mul_le_mul_left _ (by omega)
    omega
  have hk0 : k ≠ 0 := by rintro rfl; simp at hpos
  have hk2 : k ≠ 2 := by
    rintro rfl
    obtain ⟨A, hA⟩ := exists_prime_addOrderOf_dvd_card' (G := Point (p384Curve Fp)) 2 (by rw [hk]; exact ⟨p384n, by ring⟩)
    have h2 : A + A = 0 := by
      have := addOrderOf_nsmul_eq_zero A
      rw [hA, two_nsmul] at this
      exact this
    rw [no_order_two A h2] at hA
    simp at hA
  obtain rfl : k = 1 := by omega
  rw [hk, mul_one]

/-- Every point other than infinity is a multiple of G with a factor between 1 and n - 1, and generates the group. -/
theorem generated (A : Point (p384Curve Fp)) (hA : A ≠ 0) : (∃ d, d < p384n ∧ d ≠ 0 ∧ A = d • G) ∧ addOrderOf A = p384n := by
  constructor
  · obtain ⟨k, hk⟩ := (AddSubmonoid.mem_multiples_iff _ _).1 (mem_multiples_of_prime_card card_curve G_ne (g' := A))
    refine ⟨k % p384n, Nat.mod_lt _ p384n_prime.pos, ?_, ?_⟩
    · intro h0
      exact hA (by rw [← hk, smul_G_zero]; exact h0)
    · rw [smul_G_mod, hk]
  · have h := addOrderOf_dvd_natCard A
    rw [card_curve] at h
    rcases (Nat.dvd_prime p384n_prime).1 h with h | h
    · exact absurd (AddMonoid.addOrderOf_eq_one_iff.1 h) hA
    · exact h

end ETls.Crypto.P384
