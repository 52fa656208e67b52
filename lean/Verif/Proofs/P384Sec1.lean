import Verif.Proofs.P384Order
import Verif.Proofs.Sec1

/-! # Which byte strings are points of P-384 -/

namespace ETls

namespace Spec

open Crypto Crypto.P384

/-- `(x, y)` solves the equation of the curve (FIPS 186-4 D.1.2.4): y² = x³ - 3x + b modulo p. -/
structure OnP384 (x y : Nat) : Prop where
  x_lt : x < p384p
  y_lt : y < p384p
  equation : (y * y + 3 * x) % p384p = (x * x * x + p384b) % p384p

/-- The encodings of a point in SEC 1 section 2.3.3: uncompressed, and compressed with the parity of `y` in the first byte. -/
def EncodesPoint384 (x y : Nat) (bs : Bytes) : Prop :=
  bs = 4 :: (toBE 48 x ++ toBE 48 y) ∨ bs = (if y % 2 = 0 then 2 else 3) :: toBE 48 x

end Spec

namespace Crypto.P384

open Spec
open WeierstrassCurve.Affine (Point)

theorem onP384_iff {x y : Nat} (hx : x < p384p) (hy : y < p384p) : mmul p384p y y = p384rhs x ↔ OnP384 x y := by
  have h : mmul p384p y y = p384rhs x ↔ (y * y + 3 * x) % p384p = (x * x * x + p384b) % p384p := by
    rw [← cast_inj Fp (mmul_lt y y) (show p384rhs x < p384p from madd_lt _ _), ← cast_inj Fp (Nat.mod_lt _ p384p_pos) (Nat.mod_lt _ p384p_pos)]
    simp only [p384rhs, cast_mmul, cast_madd, cast_msub, cast_mod, Nat.cast_add, Nat.cast_mul, Nat.cast_ofNat]
    constructor
    · intro h; linear_combination h
    · intro h; linear_combination h
  exact ⟨fun e => ⟨hx, hy, h.mp e⟩, fun e => h.mpr e.equation⟩

/-- The square root the decoding computes. -/
theorem root_sq {x y : Nat} (h : OnP384 x y) :
    mmul p384p (mpow p384p (p384rhs x) ((p384p + 1) / 4)) (mpow p384p (p384rhs x) ((p384p + 1) / 4)) = p384rhs x := by
  have e := (onP384_iff h.x_lt h.y_lt).mpr h
  have ec : (p384rhs x : Fp) = (y : Fp) * y := by rw [← e, cast_mmul]
  rw [← cast_inj Fp (mmul_lt _ _) (show p384rhs x < p384p from madd_lt _ _), cast_mmul, mpow_cast _ _ _ (by decide +kernel), ec]
  by_cases hy : (y : Fp) = 0
  · rw [hy]
    have : (p384p + 1) / 4 ≠ 0 := by decide +kernel
    rw [mul_zero, zero_pow this, mul_zero]
  · have hp := ZMod.pow_card_sub_one_eq_one hy
    rw [← pow_two, ← pow_mul, ← pow_two, ← pow_mul]
    rw [show 2 * ((p384p + 1) / 4 * 2) = (p384p - 1) + 2 by decide +kernel, pow_add, hp, one_mul]

theorem y_pos {x y : Nat} (h : OnP384 x y) : 0 < y := by
  rcases Nat.eq_zero_or_pos y with h0 | h0
  · exfalso
    have e := (onP384_iff h.x_lt h.y_lt).mpr h
    subst h0
    have : (p384rhs x : Fp) = 0 := by rw [← e, cast_mmul]; simp
    refine no_root (x : Fp) ?_
    rw [← this]
    simp only [p384rhs, cast_mmul, cast_madd, cast_msub, Nat.cast_ofNat]
    ring
  · exact h0

theorem p_odd : p384p % 2 = 1 := by decide +kernel

theorem onP384_neg {x y : Nat} (h : OnP384 x y) : OnP384 x (p384p - y) := by
  have h0 := y_pos h
  have hy := h.y_lt
  have e := (onP384_iff h.x_lt h.y_lt).mpr h
  refine (onP384_iff h.x_lt (by omega)).mp ?_
  rw [← e, ← cast_inj Fp (mmul_lt _ _) (mmul_lt _ _), cast_mmul, cast_mmul, Nat.cast_sub h.y_lt.le, cast_p]
  ring

/-- Two solutions for one `x`. -/
theorem two_roots {x y z : Nat} (h : OnP384 x y) (hz : OnP384 x z) : z = y ∨ z = p384p - y := by
  have e1 := (onP384_iff h.x_lt h.y_lt).mpr h
  have e2 := (onP384_iff hz.x_lt hz.y_lt).mpr hz
  have e : (z : Fp) * z = (y : Fp) * y := by rw [← cast_mmul, ← cast_mmul, e1, e2]
  have := y_pos h
  have hy := h.y_lt
  rcases mul_self_eq_mul_self_iff.mp e with h1 | h1
  · exact .inl ((cast_inj Fp hz.y_lt h.y_lt).mp h1)
  · refine .inr ((cast_inj Fp hz.y_lt (by omega)).mp ?_)
    rw [h1, Nat.cast_sub h.y_lt.le, cast_p, zero_sub]

/-- The decoded strings are the encodings of the points of the curve. -/
theorem decode_iff (bs : Bytes) (Q : Jac) :
    sec1Decode bs = some Q ↔ ∃ x y, OnP384 x y ∧ EncodesPoint384 x y bs ∧ Q = ⟨x, y, 1⟩ := by
  have hlt : p384p < 256 ^ 48 := by decide +kernel
  constructor
  · intro h
    unfold sec1Decode at h
    cases bs with
    | nil => cases h
    | cons t rest =>
      simp only at h
      split at h
      · next ht =>
        split at h
        · next hc =>
          obtain ⟨h1, h2, h3, h4⟩ := hc
          injection h with h
          refine ⟨_, _, (onP384_iff h2 h3).mp h4, .inl ?_, h.symm⟩
          have a := toBE_ofBE (rest.take 48)
          have b := toBE_ofBE (rest.drop 48)
          rw [List.length_take, h1] at a
          rw [List.length_drop, h1] at b
          rw [show min 48 96 = 48 from rfl] at a
          rw [show 96 - 48 = 48 from rfl] at b
          rw [a, b, List.take_append_drop, ht]
        · cases h
      · split at h
        · next ht =>
          split at h
          · next hc =>
            obtain ⟨h1, h2, h3⟩ := hc
            injection h with h
            have hy := mpow_lt p384p (p384rhs (ofBE (rest.take 48))) ((p384p + 1) / 4) p384p_prime.one_lt
            generalize mpow p384p (p384rhs (ofBE (rest.take 48))) ((p384p + 1) / 4) = y at *
            have hon := (onP384_iff h2 hy).mp h3
            have h0 := y_pos hon
            have a := toBE_ofBE (rest.take 48)
            rw [List.length_take, h1, show min 48 48 = 48 from rfl] at a
            have a' : rest = toBE 48 (ofBE (rest.take 48)) := by rw [a, List.take_of_length_le h1.le]
            have hm : msub p384p 0 y = p384p - y := by
              rw [msub, Nat.mod_eq_of_lt hy, Nat.zero_add, Nat.mod_eq_of_lt (by omega)]
            have hodd := p_odd
            by_cases hpar : y % 2 = t.toNat % 2
            · rw [if_pos hpar] at h
              refine ⟨_, _, hon, .inr ?_, h.symm⟩
              rw [← a']
              rcases ht with ht | ht <;> subst ht
              · rw [if_pos (by simpa using hpar)]
              · rw [if_neg (by rw [hpar]; decide)]
            · rw [if_neg hpar, hm] at h
              refine ⟨_, _, onP384_neg hon, .inr ?_, h.symm⟩
              rw [← a']
              rcases ht with ht | ht <;> subst ht
              · rw [if_pos (by have : ¬ y % 2 = 0 := by simpa using hpar
                               omega)]
              · rw [if_neg (by have : ¬ y % 2 = 1 := by simpa using hpar
                               omega)]
          · cases h
        · cases h
  · rintro ⟨x, y, h, henc, rfl⟩
    have hx := h.x_lt
    have hy := h.y_lt
    have b1 : ofBE (toBE 48 x) = x := ofBE_toBE 48 _ (by omega)
    have b2 : ofBE (toBE 48 y) = y := ofBE_toBE 48 _ (by omega)
    rcases henc with rfl | rfl
    · have t1 : (toBE 48 x ++ toBE 48 y).take 48 = toBE 48 x := by
        rw [List.take_append_of_le_length (by rw [toBE_length]), List.take_of_length_le (by rw [toBE_length])]
      have t2 : (toBE 48 x ++ toBE 48 y).drop 48 = toBE 48 y := by
        have := List.drop_left (l₁ := toBE 48 x) (l₂ := toBE 48 y)
        rwa [toBE_length] at this
      simp only [sec1Decode, if_true, t1, t2, b1, b2]
      rw [if_pos]
      exact ⟨by simp [toBE_length], hx, hy, (onP384_iff hx hy).mpr h⟩
    · have t1 : (toBE 48 x).take 48 = toBE 48 x := List.take_of_length_le (by rw [toBE_length])
      have hr := root_sq h
      have hl := mpow_lt p384p (p384rhs x) ((p384p + 1) / 4) p384p_prime.one_lt
      have hsec : ∀ t : UInt8, t = 2 ∨ t = 3 → sec1Decode (t :: toBE 48 x) =
          some ⟨x, if mpow p384p (p384rhs x) ((p384p + 1) / 4) % 2 = t.toNat % 2 then mpow p384p (p384rhs x) ((p384p + 1) / 4)
            else msub p384p 0 (mpow p384p (p384rhs x) ((p384p + 1) / 4)), 1⟩ := by
        intro t ht
        have ht4 : t ≠ 4 := by rcases ht with ht | ht <;> subst ht <;> decide
        simp only [sec1Decode, t1, b1]
        rw [if_neg ht4, if_pos ht, if_pos ⟨toBE_length _ _, hx, hr⟩]
      rw [hsec _ (by split <;> simp)]
      generalize mpow p384p (p384rhs x) ((p384p + 1) / 4) = z at *
      have hz := (onP384_iff hx hl).mp hr
      have z0 := y_pos hz
      have hm : msub p384p 0 z = p384p - z := by
        rw [msub, Nat.mod_eq_of_lt hl, Nat.zero_add, Nat.mod_eq_of_lt (by omega)]
      have hodd := p_odd
      rw [hm]
      congr 2
      have ht : (if y % 2 = 0 then (2 : UInt8) else 3).toNat % 2 = y % 2 := by
        split
        · next h => rw [h]; rfl
        · next h => rw [show y % 2 = 1 by omega]; rfl
      rw [ht]
      rcases two_roots h hz with e | e
      · rw [if_pos (by rw [e]), e]
      · rw [if_neg (by omega)]; omega

/-- A decoded point is a multiple of the base point by exactly one scalar, not zero. -/
theorem decode_generated {bs : Bytes} {Q : Jac} (h : sec1Decode bs = some Q) :
    ∃ d, 0 < d ∧ d < p384n ∧ Rep Fp Q (d • G) := by
  obtain ⟨x, y, h1, -, rfl⟩ := (decode_iff bs Q).mp h
  have hn := (on_curve x y).mp ((onP384_iff h1.x_lt h1.y_lt).mpr h1)
  have hr := one_rep h1.x_lt h1.y_lt hn
  obtain ⟨⟨d, d1, d2, d3⟩, -⟩ := generated (.some _ _ hn) (by simp)
  rw [d3] at hr
  exact ⟨d, Nat.pos_of_ne_zero d2, d1, hr⟩

end Crypto.P384

end ETls
