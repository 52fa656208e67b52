import Verif.Proofs.P384Curve
import Verif.Proofs.P256
import Mathlib.FieldTheory.Finite.Basic

/-! # Signatures on P-384

A signature made with a secret key verifies under its public key. -/

namespace ETls.Crypto.P384

set_option linter.unusedSectionVars false

open WeierstrassCurve.Affine (Point)

/-! ## Numbers -/

instance p384p_fact : Fact p384p.Prime := ⟨p384p_prime⟩
instance p384n_fact : Fact p384n.Prime := ⟨p384n_prime⟩

/-- The field of the curve. -/
abbrev Fp := ZMod p384p

theorem p384p_lt : p384p < 2 ^ 384 := by decide +kernel
theorem p384n_lt : p384n < 2 ^ 384 := by decide +kernel

theorem minv_cast (m a : Nat) [hm : Fact m.Prime] (hlt : m < 2 ^ 384) : ((minv m a : Nat) : ZMod m) = (a : ZMod m)⁻¹ ∨
    (a : ZMod m) = 0 := by
  by_cases ha : (a : ZMod m) = 0
  · exact .inr ha
  · left
    rw [minv, mpow_cast _ _ _ (by omega)]
    have h2 := hm.out.two_le
    refine eq_inv_of_mul_eq_one_left ?_
    rw [← pow_succ, show m - 2 + 1 = m - 1 by omega]
    exact ZMod.pow_card_sub_one_eq_one ha

/-! ## Points -/

theorem affine_lt (P : Jac) : P.affine.1 < p384p ∧ P.affine.2 < p384p := by
  simp only [Jac.affine, eager_eq]
  exact ⟨mmul_lt _ _, mmul_lt _ _⟩

theorem affine_cast {P : Jac} (hr : P.Reduced) (hz : P.z ≠ 0) :
    (P.affine.1 : Fp) = P.ax Fp ∧ (P.affine.2 : Fp) = P.ay Fp := by
  have h0 : (P.z : Fp) ≠ 0 := (cast_zero_iff Fp hr.z).not.mpr hz
  have hi : ((minv p384p P.z : Nat) : Fp) = (P.z : Fp)⁻¹ := by
    rcases minv_cast p384p P.z p384p_lt with h | h
    · exact h
    · exact absurd h h0
  simp only [Jac.affine, eager_eq, Jac.ax, Jac.ay, cast_mmul, hi]
  constructor
  · field_simp
  · field_simp

/-- Triples for the same point have the same coordinates. -/
theorem affine_unique {P Q : Jac} {A : Point (p384Curve Fp)} (hP : Rep Fp P A) (hQ : Rep Fp Q A) (hA : A ≠ 0) :
    P.affine = Q.affine := by
  rcases hP.point with ⟨-, h⟩ | ⟨hp0, hn, h1⟩
  · exact absurd h hA
  rcases hQ.point with ⟨-, h⟩ | ⟨hq0, hn', h2⟩
  · exact absurd h hA
  rw [h1, Point.some.injEq] at h2
  obtain ⟨a1, a2⟩ := affine_cast hP.reduced hp0
  obtain ⟨b1, b2⟩ := affine_cast hQ.reduced hq0
  refine Prod.ext ?_ ?_
  · rw [← cast_inj Fp (affine_lt P).1 (affine_lt Q).1, a1, b1, h2.1]
  · rw [← cast_inj Fp (affine_lt P).2 (affine_lt Q).2, a2, b2, h2.2]

theorem Rep.zero_iff {P : Jac} {A : Point (p384Curve Fp)} (h : Rep Fp P A) : P.z = 0 ↔ A = 0 := by
  rcases h.point with ⟨h1, h2⟩ | ⟨h1, hn, h2⟩
  · simp [h1, h2]
  · simp [h1, h2]

/-- The equation of the curve, on numbers. -/
theorem on_curve (x y : Nat) :
    mmul p384p y y = p384rhs x ↔ (p384Curve Fp).Nonsingular (x : Fp) (y : Fp) := by
  have hl : p384rhs x < p384p := madd_lt _ _
  rw [← WeierstrassCurve.Affine.equation_iff_nonsingular, WeierstrassCurve.Affine.equation_iff,
    ← cast_inj Fp (mmul_lt _ _) hl]
  simp only [p384rhs, cast_mmul, cast_madd, cast_msub, p384Curve, Nat.cast_ofNat, zero_mul, add_zero]
  constructor
  · intro h; linear_combination h
  · intro h; linear_combination h

/-- The triple with last coordinate one. -/
theorem one_rep {x y : Nat} (hx : x < p384p) (hy : y < p384p) (h : (p384Curve Fp).Nonsingular (x : Fp) (y : Fp)) :
    Rep Fp ⟨x, y, 1⟩ (.some _ _ h) := by
  refine ⟨⟨hx, hy, (by decide +kernel : 1 < p384p)⟩, .inr ⟨by simp, ?_⟩⟩
  exact some_eq (by simp [Jac.ax]) (by simp [Jac.ay])

/-- The encoding of a point is decoded to that point. -/
theorem decode_encode {P : Jac} {A : Point (p384Curve Fp)} (hP : Rep Fp P A) (hA : A ≠ 0) :
    sec1Decode (sec1Encode P.affine) = some ⟨P.affine.1, P.affine.2, 1⟩ ∧ Rep Fp ⟨P.affine.1, P.affine.2, 1⟩ A := by
  have hz : P.z ≠ 0 := fun h => hA (hP.zero_iff.mp h)
  obtain ⟨l1, l2⟩ := affine_lt P
  obtain ⟨a1, a2⟩ := affine_cast hP.reduced hz
  rcases hP.point with ⟨h0, -⟩ | ⟨-, hn, h1⟩
  · exact absurd h0 hz
  have hn' : (p384Curve Fp).Nonsingular (P.affine.1 : Fp) (P.affine.2 : Fp) := by rw [a1, a2]; exact hn
  have hlt : p384p < 256 ^ 48 := by decide +kernel
  have b1 : ofBE (toBE 48 P.affine.1) = P.affine.1 := ofBE_toBE 48 _ (by omega)
  have b2 : ofBE (toBE 48 P.affine.2) = P.affine.2 := ofBE_toBE 48 _ (by omega)
  have t1 : (toBE 48 P.affine.1 ++ toBE 48 P.affine.2).take 48 = toBE 48 P.affine.1 := by
    rw [List.take_append_of_le_length (by rw [toBE_length]), List.take_of_length_le (by rw [toBE_length])]
  have t2 : (toBE 48 P.affine.1 ++ toBE 48 P.affine.2).drop 48 = toBE 48 P.affine.2 := by
    have := List.drop_left (l₁ := toBE 48 P.affine.1) (l₂ := toBE 48 P.affine.2)
    rwa [toBE_length] at this
  constructor
  · simp only [sec1Encode, sec1Decode, if_true, t1, t2, b1, b2]
    rw [if_pos]
    exact ⟨by simp [toBE_length], l1, l2, (on_curve _ _).mpr hn'⟩
  · have := one_rep l1 l2 hn'
    obtain ⟨h', e⟩ := some_eq (h := hn') a1 a2
    rw [h1, ← e]
    exact this

/-! ## The base point -/

theorem g_on_curve : (p384Curve Fp).Nonsingular (p384gx : Fp) (p384gy : Fp) :=
  (on_curve _ _).mp (by decide +kernel)

/-- The base point. -/
def G : Point (p384Curve Fp) := .some _ _ g_on_curve

theorem g_rep : Rep Fp p384g G := one_rep (by decide +kernel) (by decide +kernel) g_on_curve

theorem G_ne : G ≠ 0 := by simp [G]

set_option maxRecDepth 100000 in
theorem smul_n_g : (smul p384n p384g).z = 0 := by decide +kernel

theorem n_smul_G : p384n • G = 0 := (smul_rep p384n_lt g_rep).zero_iff.mp smul_n_g

theorem order_G : addOrderOf G = p384n := addOrderOf_eq_prime n_smul_G G_ne

theorem smul_G_zero (k : Nat) : k • G = 0 ↔ k % p384n = 0 := by
  rw [← addOrderOf_dvd_iff_nsmul_eq_zero, order_G, Nat.dvd_iff_mod_eq_zero]

theorem smul_G_mod (k : Nat) : (k % p384n) • G = k • G := by
  have := mod_addOrderOf_nsmul G k
  rwa [order_G] at this

/-! ## Key agreement -/

theorem smul_g_rep {k : Nat} (hk : k < p384n) : Rep Fp (smul k p384g) (k • G) := smul_rep (hk.trans p384n_lt) g_rep

theorem smul_G_ne {k : Nat} (hk : k < p384n) (h0 : k ≠ 0) : k • G ≠ 0 := by
  rw [Ne, smul_G_zero, Nat.mod_eq_of_lt hk]
  exact h0

/-- The public key of a secret is decoded to the multiple of the base point. -/
theorem public_decode {d : Nat} (hd : d < p384n) (h0 : d ≠ 0) :
    ∃ Q, sec1Decode (sec1Encode (smul d p384g).affine) = some Q ∧ Rep Fp Q (d • G) := by
  obtain ⟨h1, h2⟩ := decode_encode (smul_g_rep hd) (smul_G_ne hd h0)
  exact ⟨_, h1, h2⟩

/-! ## Signatures -/

theorem cast_n (a : Nat) : ((a % p384n : Nat) : ZMod p384n) = a := by simp

theorem ecdsaVerify_of {publicKey digest : Bytes} {r s w : Nat} {Q : Jac} (h : sec1Decode publicKey = some Q)
    (hr : 0 < r ∧ r < p384n ∧ 0 < s ∧ s < p384n) (hw : minv p384n s = w)
    (hz : ((smul (mmul p384n (ofBE (digest.take 48)) w) p384g).add (smul (mmul p384n r w) Q)).z ≠ 0)
    (hx : ((smul (mmul p384n (ofBE (digest.take 48)) w) p384g).add (smul (mmul p384n r w) Q)).affine.1 % p384n = r) :
    ecdsaVerify publicKey digest r s = true := by
  unfold ecdsaVerify
  rw [h]
  simp only [if_pos hr, eager_eq, hw]
  rw [hx]
  simp only [hz, ne_eq, not_false_eq_true, true_and, decide_true]

/-- A signature (FIPS 186-4 §6.4: nonce `k`, digest `z`, key `d`) verifies. -/
theorem ecdsa_correct (d k : Nat) (digest : Bytes) (hd : d < p384n) (hd0 : d ≠ 0) (hk : k < p384n) (hk0 : k ≠ 0)
    (hr : (smul k p384g).affine.1 % p384n ≠ 0)
    (hs : mmul p384n (minv p384n k) (ofBE (digest.take 48) + (smul k p384g).affine.1 % p384n * d) ≠ 0) :
    ecdsaVerify (sec1Encode (smul d p384g).affine) digest ((smul k p384g).affine.1 % p384n)
      (mmul p384n (minv p384n k) (ofBE (digest.take 48) + (smul k p384g).affine.1 % p384n * d)) = true := by
  obtain ⟨Q, h1, h2⟩ := public_decode hd hd0
  have hkr := smul_g_rep hk
  have hkG := smul_G_ne hk hk0
  generalize hx : (smul k p384g).affine.1 = x at hr hs ⊢
  generalize hrr : x % p384n = r at hr hs ⊢
  obtain ⟨z, hz⟩ : ∃ z, ofBE (digest.take 48) = z := ⟨_, rfl⟩
  rw [hz] at hs ⊢
  generalize hss : mmul p384n (minv p384n k) (z + r * d) = s at hs ⊢
  have hrlt : r < p384n := hrr ▸ Nat.mod_lt _ p384n_prime.pos
  have hslt : s < p384n := hss ▸ Nat.mod_lt _ p384n_prime.pos
  have kz : (k : ZMod p384n) ≠ 0 := by
    rw [Ne, ZMod.natCast_eq_zero_iff]
    exact fun h => hk0 (Nat.eq_zero_of_dvd_of_lt h hk)
  have sz : (s : ZMod p384n) ≠ 0 := by
    rw [Ne, ZMod.natCast_eq_zero_iff]
    exact fun h => hs (Nat.eq_zero_of_dvd_of_lt h hslt)
  have hki : ((minv p384n k : Nat) : ZMod p384n) = (k : ZMod p384n)⁻¹ := (minv_cast p384n k p384n_lt).resolve_right kz
  have hw : ((minv p384n s : Nat) : ZMod p384n) = (s : ZMod p384n)⁻¹ := (minv_cast p384n s p384n_lt).resolve_right sz
  have hsv : (s : ZMod p384n) = (k : ZMod p384n)⁻¹ * (z + r * d) := by
    rw [← hss, mmul_cast, hki]; push_cast; ring
  obtain ⟨w, hwe⟩ : ∃ w, minv p384n s = w := ⟨_, rfl⟩
  rw [hwe] at hw
  have hsum : (mmul p384n z w + mmul p384n r w * d) % p384n = k := by
    have : ((mmul p384n z w + mmul p384n r w * d : Nat) : ZMod p384n) = (k : ZMod p384n) := by
      push_cast
      rw [mmul_cast, mmul_cast, hw]
      have h3 : (z : ZMod p384n) + r * d = k * s := by rw [hsv]; field_simp
      have : (z : ZMod p384n) * (s : ZMod p384n)⁻¹ + r * (s : ZMod p384n)⁻¹ * d = (z + r * d) * (s : ZMod p384n)⁻¹ := by ring
      rw [this, h3]
      field_simp
    rw [ZMod.natCast_eq_natCast_iff'] at this
    rw [this, Nat.mod_eq_of_lt hk]
  have hR : Rep Fp ((smul (mmul p384n z w) p384g).add (smul (mmul p384n r w) Q)) (k • G) := by
    have a1 := smul_g_rep (k := mmul p384n z w) (Nat.mod_lt _ p384n_prime.pos)
    have a2 := smul_rep (k := mmul p384n r w) ((Nat.mod_lt _ p384n_prime.pos).trans p384n_lt) h2
    have := add_rep a1 a2
    rwa [← mul_nsmul', ← add_nsmul, ← smul_G_mod, hsum] at this
  refine ecdsaVerify_of h1 ⟨Nat.pos_of_ne_zero hr, hrlt, Nat.pos_of_ne_zero hs, hslt⟩ hwe ?_ ?_ <;> rw [hz]
  · exact fun h => hkG (hR.zero_iff.mp h)
  · rw [affine_unique hR hkr hkG, hx, hrr]

end ETls.Crypto.P384
