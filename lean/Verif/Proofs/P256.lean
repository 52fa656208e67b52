import Verif.Proofs.Curve
import Mathlib.FieldTheory.Finite.Basic

/-! # Key agreement and signatures on P-256

Both sides of a key agreement compute the same secret, and a signature made with a secret key verifies under its public
key. -/

namespace ETls.Crypto

set_option linter.unusedSectionVars false

open WeierstrassCurve.Affine (Point)

/-! ## Numbers -/

theorem foldl_toBE (len n acc : Nat) :
    (toBE len n).foldl (fun a b => a * 256 + b.toNat) acc = acc * 256 ^ len + n % 256 ^ len := by
  induction len generalizing acc with
  | zero => simp [toBE, Nat.mod_one]
  | succ k ih =>
    rw [toBE, List.foldl_cons, ih, Nat.mod_pow_succ, pow_succ, UInt8.toNat_ofNat']
    ring

theorem ofBE_toBE (len n : Nat) (h : n < 256 ^ len) : ofBE (toBE len n) = n := by
  rw [ofBE, foldl_toBE, zero_mul, zero_add, Nat.mod_eq_of_lt h]

instance p256p_fact : Fact p256p.Prime := ⟨p256p_prime⟩
instance p256n_fact : Fact p256n.Prime := ⟨p256n_prime⟩

/-- The field of the curve. -/
abbrev Fp := ZMod p256p

theorem p256p_lt : p256p < 2 ^ 256 := by decide +kernel
theorem p256n_lt : p256n < 2 ^ 256 := by decide +kernel

theorem minv_cast (m a : Nat) [hm : Fact m.Prime] (hlt : m < 2 ^ 256) : ((minv m a : Nat) : ZMod m) = (a : ZMod m)⁻¹ ∨
    (a : ZMod m) = 0 := by
  by_cases ha : (a : ZMod m) = 0
  · exact .inr ha
  · left
    rw [minv, mpow_cast _ _ _ (by omega)]
    have h2 := hm.out.two_le
    refine eq_inv_of_mul_eq_one_left ?_
    rw [← pow_succ, show m - 2 + 1 = m - 1 by omega]
    exact ZMod.pow_card_sub_one_eq_one ha

/-! ## Points -/

theorem affine_lt (P : Jac) : P.affine.1 < p256p ∧ P.affine.2 < p256p := by
  simp only [Jac.affine, eager_eq]
  exact ⟨mmul_lt _ _, mmul_lt _ _⟩

theorem affine_cast {P : Jac} (hr : P.Reduced) (hz : P.z ≠ 0) :
    (P.affine.1 : Fp) = P.ax Fp ∧ (P.affine.2 : Fp) = P.ay Fp := by
  have h0 : (P.z : Fp) ≠ 0 := (cast_zero_iff Fp hr.z).not.mpr hz
  have hi : ((minv p256p P.z : Nat) : Fp) = (P.z : Fp)⁻¹ := by
    rcases minv_cast p256p P.z p256p_lt with h | h
    · exact h
    · exact absurd h h0
  simp only [Jac.affine, eager_eq, Jac.ax, Jac.ay, cast_mmul, hi]
  constructor
  · field_simp
  · field_simp

/-- Triples for the same point have the same coordinates. -/
theorem affine_unique {P Q : Jac} {A : Point (p256Curve Fp)} (hP : Rep Fp P A) (hQ : Rep Fp Q A) (hA : A ≠ 0) :
    P.affine = Q.affine := by
  rcases hP.point with ⟨-, h⟩ | ⟨hp0, hn, h1⟩
  · exact absurd h hA
  rcases hQ.point with ⟨-, h⟩ | ⟨hq0, hn', h2⟩
  · exact absurd h hA
  rw [h1, Point.some.injEq] at h2
  obtain ⟨a1, a2⟩ := affine_cast hP.reduced hp0
  obtain ⟨b1, b2⟩ := affine_cast hQ.reduced hq0
  refine Prod.ext ?_ ?_
  · rw [← cast_inj Fp (affine_lt P).1 (affine_lt Q).1, a1, b1, h2.1]
  · rw [← cast_inj Fp (affine_lt P).2 (affine_lt Q).2, a2, b2, h2.2]

theorem Rep.zero_iff {P : Jac} {A : Point (p256Curve Fp)} (h : Rep Fp P A) : P.z = 0 ↔ A = 0 := by
  rcases h.point with ⟨h1, h2⟩ | ⟨h1, hn, h2⟩
  · simp [h1, h2]
  · simp [h1, h2]

/-- The equation of the curve, on numbers. -/
theorem on_curve (x y : Nat) :
    mmul p256p y y = p256rhs x ↔ (p256Curve Fp).Nonsingular (x : Fp) (y : Fp) := by
  have hl : p256rhs x < p256p := madd_lt _ _
  rw [← WeierstrassCurve.Affine.equation_iff_nonsingular, WeierstrassCurve.Affine.equation_iff,
    ← cast_inj Fp (mmul_lt _ _) hl]
  simp only [p256rhs, cast_mmul, cast_madd, cast_msub, p256Curve, Nat.cast_ofNat, zero_mul, add_zero]
  constructor
  · intro h; linear_combination h
  · intro h; linear_combination h

/-- The triple with last coordinate one. -/
theorem one_rep {x y : Nat} (hx : x < p256p) (hy : y < p256p) (h : (p256Curve Fp).Nonsingular (x : Fp) (y : Fp)) :
    Rep Fp ⟨x, y, 1⟩ (.some _ _ h) := by
  refine ⟨⟨hx, hy, (by decide +kernel : 1 < p256p)⟩, .inr ⟨by simp, ?_⟩⟩
  exact some_eq (by simp [Jac.ax]) (by simp [Jac.ay])

/-- The encoding of a point is decoded to that point. -/
theorem decode_encode {P : Jac} {A : Point (p256Curve Fp)} (hP : Rep Fp P A) (hA : A ≠ 0) :
    sec1Decode (sec1Encode P.affine) = some ⟨P.affine.1, P.affine.2, 1⟩ ∧ Rep Fp ⟨P.affine.1, P.affine.2, 1⟩ A := by
  have hz : P.z ≠ 0 := fun h => hA (hP.zero_iff.mp h)
  obtain ⟨l1, l2⟩ := affine_lt P
  obtain ⟨a1, a2⟩ := affine_cast hP.reduced hz
  rcases hP.point with ⟨h0, -⟩ | ⟨-, hn, h1⟩
  · exact absurd h0 hz
  have hn' : (p256Curve Fp).Nonsingular (P.affine.1 : Fp) (P.affine.2 : Fp) := by rw [a1, a2]; exact hn
  have hlt : p256p < 256 ^ 32 := by decide +kernel
  have b1 : ofBE (toBE 32 P.affine.1) = P.affine.1 := ofBE_toBE 32 _ (by omega)
  have b2 : ofBE (toBE 32 P.affine.2) = P.affine.2 := ofBE_toBE 32 _ (by omega)
  have t1 : (toBE 32 P.affine.1 ++ toBE 32 P.affine.2).take 32 = toBE 32 P.affine.1 := by
    rw [List.take_append_of_le_length (by rw [toBE_length]), List.take_of_length_le (by rw [toBE_length])]
  have t2 : (toBE 32 P.affine.1 ++ toBE 32 P.affine.2).drop 32 = toBE 32 P.affine.2 := by
    have := List.drop_left (l₁ := toBE 32 P.affine.1) (l₂ := toBE 32 P.affine.2)
    rwa [toBE_length] at this
  constructor
  · simp only [sec1Encode, sec1Decode, if_true, t1, t2, b1, b2]
    rw [if_pos]
    exact ⟨by simp [toBE_length], l1, l2, (on_curve _ _).mpr hn'⟩
  · have := one_rep l1 l2 hn'
    obtain ⟨h', e⟩ := some_eq (h := hn') a1 a2
    rw [h1, ← e]
    exact this

/-! ## The base point -/

theorem g_on_curve : (p256Curve Fp).Nonsingular (p256gx : Fp) (p256gy : Fp) :=
  (on_curve _ _).mp (by decide +kernel)

/-- The base point. -/
def G : Point (p256Curve Fp) := .some _ _ g_on_curve

theorem g_rep : Rep Fp p256g G := one_rep (by decide +kernel) (by decide +kernel) g_on_curve

theorem G_ne : G ≠ 0 := by simp [G]

set_option maxRecDepth 100000 in
theorem smul_n_g : (smul p256n p256g).z = 0 := by decide +kernel

theorem n_smul_G : p256n • G = 0 := (smul_rep p256n_lt g_rep).zero_iff.mp smul_n_g

theorem order_G : addOrderOf G = p256n := addOrderOf_eq_prime n_smul_G G_ne

theorem smul_G_zero (k : Nat) : k • G = 0 ↔ k % p256n = 0 := by
  rw [← addOrderOf_dvd_iff_nsmul_eq_zero, order_G, Nat.dvd_iff_mod_eq_zero]

theorem smul_G_mod (k : Nat) : (k % p256n) • G = k • G := by
  have := mod_addOrderOf_nsmul G k
  rwa [order_G] at this

/-! ## Key agreement -/

theorem scalarOf_lt (secret : Bytes) : scalarOf secret < p256n := Nat.mod_lt _ p256n_prime.pos

theorem smul_g_rep {k : Nat} (hk : k < p256n) : Rep Fp (smul k p256g) (k • G) := smul_rep (hk.trans p256n_lt) g_rep

theorem smul_G_ne {k : Nat} (hk : k < p256n) (h0 : k ≠ 0) : k • G ≠ 0 := by
  rw [Ne, smul_G_zero, Nat.mod_eq_of_lt hk]
  exact h0

/-- The public key of a secret is decoded to the multiple of the base point. -/
theorem public_decode {d : Nat} (hd : d < p256n) (h0 : d ≠ 0) :
    ∃ Q, sec1Decode (sec1Encode (smul d p256g).affine) = some Q ∧ Rep Fp Q (d • G) := by
  obtain ⟨h1, h2⟩ := decode_encode (smul_g_rep hd) (smul_G_ne hd h0)
  exact ⟨_, h1, h2⟩

/-- One side of the agreement: the first coordinate of the product of both scalars and the base point. -/
theorem dh_value (a b : Bytes) (ha : scalarOf a ≠ 0) (hb : scalarOf b ≠ 0) :
    p256Dh a (p256Public b) = some (toBE 32 (smul (scalarOf a * scalarOf b % p256n) p256g).affine.1) := by
  obtain ⟨Q, h1, h2⟩ := public_decode (scalarOf_lt b) hb
  have h3 := smul_rep ((scalarOf_lt a).trans p256n_lt) h2
  have h4 := smul_g_rep (k := scalarOf a * scalarOf b % p256n) (Nat.mod_lt _ p256n_prime.pos)
  rw [smul_G_mod, mul_nsmul'] at h4
  have hne : scalarOf a • scalarOf b • G ≠ 0 := by
    rw [← mul_nsmul', Ne, smul_G_zero, ← Nat.dvd_iff_mod_eq_zero, p256n_prime.dvd_mul]
    rintro (h | h)
    · exact ha (Nat.eq_zero_of_dvd_of_lt h (scalarOf_lt a))
    · exact hb (Nat.eq_zero_of_dvd_of_lt h (scalarOf_lt b))
  rw [p256Dh, p256Public, h1]
  simp only
  rw [affine_unique h3 h4 hne]

/-- Both sides compute the same secret. -/
theorem dh_agree (a b : Bytes) (ha : scalarOf a ≠ 0) (hb : scalarOf b ≠ 0) :
    ∃ x, p256Dh a (p256Public b) = some x ∧ p256Dh b (p256Public a) = some x :=
  ⟨_, dh_value a b ha hb, by rw [dh_value b a hb ha, Nat.mul_comm]⟩

/-! ## Signatures -/

theorem cast_n (a : Nat) : ((a % p256n : Nat) : ZMod p256n) = a := by simp

theorem ecdsaVerify_of {publicKey digest : Bytes} {r s w : Nat} {Q : Jac} (h : sec1Decode publicKey = some Q)
    (hr : 0 < r ∧ r < p256n ∧ 0 < s ∧ s < p256n) (hw : minv p256n s = w)
    (hz : ((smul (mmul p256n (ofBE (digest.take 32)) w) p256g).add (smul (mmul p256n r w) Q)).z ≠ 0)
    (hx : ((smul (mmul p256n (ofBE (digest.take 32)) w) p256g).add (smul (mmul p256n r w) Q)).affine.1 % p256n = r) :
    ecdsaVerify publicKey digest r s = true := by
  unfold ecdsaVerify
  rw [h]
  simp only [if_pos hr, eager_eq, hw]
  rw [hx]
  simp only [hz, ne_eq, not_false_eq_true, true_and, decide_true]

/-- A signature (FIPS 186-4 §6.4: nonce `k`, digest `z`, key `d`) verifies. -/
theorem ecdsa_correct (d k : Nat) (digest : Bytes) (hd : d < p256n) (hd0 : d ≠ 0) (hk : k < p256n) (hk0 : k ≠ 0)
    (hr : (smul k p256g).affine.1 % p256n ≠ 0)
    (hs : mmul p256n (minv p256n k) (ofBE (digest.take 32) + (smul k p256g).affine.1 % p256n * d) ≠ 0) :
    ecdsaVerify (sec1Encode (smul d p256g).affine) digest ((smul k p256g).affine.1 % p256n)
      (mmul p256n (minv p256n k) (ofBE (digest.take 32) + (smul k p256g).affine.1 % p256n * d)) = true := by
  obtain ⟨Q, h1, h2⟩ := public_decode hd hd0
  have hkr := smul_g_rep hk
  have hkG := smul_G_ne hk hk0
  generalize hx : (smul k p256g).affine.1 = x at hr hs ⊢
  generalize hrr : x % p256n = r at hr hs ⊢
  obtain ⟨z, hz⟩ : ∃ z, ofBE (digest.take 32) = z := ⟨_, rfl⟩
  rw [hz] at hs ⊢
  generalize hss : mmul p256n (minv p256n k) (z + r * d) = s at hs ⊢
  have hrlt : r < p256n := hrr ▸ Nat.mod_lt _ p256n_prime.pos
  have hslt : s < p256n := hss ▸ Nat.mod_lt _ p256n_prime.pos
  have kz : (k : ZMod p256n) ≠ 0 := by
    rw [Ne, ZMod.natCast_eq_zero_iff]
    exact fun h => hk0 (Nat.eq_zero_of_dvd_of_lt h hk)
  have sz : (s : ZMod p256n) ≠ 0 := by
    rw [Ne, ZMod.natCast_eq_zero_iff]
    exact fun h => hs (Nat.eq_zero_of_dvd_of_lt h hslt)
  have hki : ((minv p256n k : Nat) : ZMod p256n) = (k : ZMod p256n)⁻¹ := (minv_cast p256n k p256n_lt).resolve_right kz
  have hw : ((minv p256n s : Nat) : ZMod p256n) = (s : ZMod p256n)⁻¹ := (minv_cast p256n s p256n_lt).resolve_right sz
  have hsv : (s : ZMod p256n) = (k : ZMod p256n)⁻¹ * (z + r * d) := by
    rw [← hss, mmul_cast, hki]; push_cast; ring
  obtain ⟨w, hwe⟩ : ∃ w, minv p256n s = w := ⟨_, rfl⟩
  rw [hwe] at hw
  have hsum : (mmul p256n z w + mmul p256n r w * d) % p256n = k := by
    have : ((mmul p256n z w + mmul p256n r w * d : Nat) : ZMod p256n) = (k : ZMod p256n) := by
      push_cast
      rw [mmul_cast, mmul_cast, hw]
      have h3 : (z : ZMod p256n) + r * d = k * s := by rw [hsv]; field_simp
      have : (z : ZMod p256n) * (s : ZMod p256n)⁻¹ + r * (s : ZMod p256n)⁻¹ * d = (z + r * d) * (s : ZMod p256n)⁻¹ := by ring
      rw [this, h3]
      field_simp
    rw [ZMod.natCast_eq_natCast_iff'] at this
    rw [this, Nat.mod_eq_of_lt hk]
  have hR : Rep Fp ((smul (mmul p256n z w) p256g).add (smul (mmul p256n r w) Q)) (k • G) := by
    have a1 := smul_g_rep (k := mmul p256n z w) (Nat.mod_lt _ p256n_prime.pos)
    have a2 := smul_rep (k := mmul p256n r w) ((Nat.mod_lt _ p256n_prime.pos).trans p256n_lt) h2
    have := add_rep a1 a2
    rwa [← mul_nsmul', ← add_nsmul, ← smul_G_mod, hsum] at this
  refine ecdsaVerify_of h1 ⟨Nat.pos_of_ne_zero hr, hrlt, Nat.pos_of_ne_zero hs, hslt⟩ hwe ?_ ?_ <;> rw [hz]
  · exact fun h => hkG (hR.zero_iff.mp h)
  · rw [affine_unique hR hkr hkG, hx, hrr]

end ETls.Crypto
