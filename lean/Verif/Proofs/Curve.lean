import Verif.Proofs.Primes
import Mathlib.AlgebraicGeometry.EllipticCurve.Affine.Point
import Mathlib.Tactic.FieldSimp

/-! # The arithmetic of `Spec/P256` is that of the elliptic curve group

Field elements are residues modulo `p256p` in any field of that characteristic; a Jacobian triple stands for a point of the
curve (Mathlib's `WeierstrassCurve.Affine.Point`), and doubling, addition and multiplication of triples are those of the
group. -/

namespace ETls.Crypto

set_option linter.unusedSectionVars false

open WeierstrassCurve.Affine (Point)

variable (F : Type) [Field F] [DecidableEq F] [CharP F p256p]

/-- y² = x³ - 3x + b. -/
def p256Curve : WeierstrassCurve.Affine F := ⟨0, 0, 0, -3, (p256b : F)⟩

theorem cast_mod (n : Nat) : ((n % p256p : Nat) : F) = n := (CharP.cast_eq_mod F p256p n).symm

theorem cast_mmul (a b : Nat) : ((mmul p256p a b : Nat) : F) = a * b := by
  rw [mmul, cast_mod, Nat.cast_mul]

theorem cast_madd (a b : Nat) : ((madd p256p a b : Nat) : F) = a + b := by
  rw [madd, cast_mod, Nat.cast_add]

theorem p256p_pos : 0 < p256p := by decide +kernel

theorem cast_p : ((p256p : Nat) : F) = 0 := CharP.cast_eq_zero F p256p

theorem cast_msub (a b : Nat) : ((msub p256p a b : Nat) : F) = a - b := by
  have h : b % p256p ≤ a + p256p := Nat.le_trans (Nat.mod_lt _ p256p_pos).le (Nat.le_add_left _ _)
  rw [msub, cast_mod, Nat.cast_sub h, Nat.cast_add, cast_mod, cast_p, add_zero]

theorem cast_inj {a b : Nat} (ha : a < p256p) (hb : b < p256p) : (a : F) = b ↔ a = b := by
  rw [CharP.cast_eq_iff_mod_eq F p256p, Nat.mod_eq_of_lt ha, Nat.mod_eq_of_lt hb]

theorem cast_zero_iff {a : Nat} (ha : a < p256p) : (a : F) = 0 ↔ a = 0 := by
  rw [← Nat.cast_zero, cast_inj F ha p256p_pos]

theorem mmul_lt (a b : Nat) : mmul p256p a b < p256p := Nat.mod_lt _ p256p_pos
theorem madd_lt (a b : Nat) : madd p256p a b < p256p := Nat.mod_lt _ p256p_pos
theorem msub_lt (a b : Nat) : msub p256p a b < p256p := Nat.mod_lt _ p256p_pos

theorem two_ne : (2 : F) ≠ 0 := by
  have := (cast_zero_iff F (a := 2) (by decide +kernel)).not.mpr (by decide)
  simpa using this

set_option maxRecDepth 10000 in
instance p256Curve_elliptic : WeierstrassCurve.IsElliptic (p256Curve F) := by
  refine ⟨?_⟩
  rw [isUnit_iff_ne_zero]
  have h : (432 * p256b * p256b : Nat) % p256p ≠ 1728 % p256p := by decide +kernel
  have h' : ((432 * p256b * p256b : Nat) : F) ≠ ((1728 : Nat) : F) := fun e =>
    h ((CharP.cast_eq_iff_mod_eq F p256p).mp e)
  intro hz
  apply h'
  simp only [WeierstrassCurve.Δ, WeierstrassCurve.b₂, WeierstrassCurve.b₄, WeierstrassCurve.b₆, WeierstrassCurve.b₈,
    p256Curve] at hz
  push_cast
  linear_combination -hz

/-- Both coordinates of a triple, as field elements. -/
def Jac.ax (P : Jac) : F := (P.x : F) / (P.z : F) ^ 2
def Jac.ay (P : Jac) : F := (P.y : F) / (P.z : F) ^ 3

/-- Coordinates below the modulus. -/
structure Jac.Reduced (P : Jac) : Prop where
  x : P.x < p256p
  y : P.y < p256p
  z : P.z < p256p

/-- The triple `P` stands for the point `A`. -/
structure Rep (P : Jac) (A : Point (p256Curve F)) : Prop where
  reduced : P.Reduced
  point : (P.z = 0 ∧ A = 0) ∨ (P.z ≠ 0 ∧ ∃ h, A = .some (P.ax F) (P.ay F) h)

variable {F}

theorem some_eq {u v u' v' : F} {h : (p256Curve F).Nonsingular u v} (hu : u = u') (hv : v = v') :
    ∃ h', Point.some u v h = Point.some u' v' h' := by
  subst hu hv
  exact ⟨h, rfl⟩

theorem Jac.dbl_eq (P : Jac) : P.dbl =
    let yy := mmul p256p P.y P.y
    let s := mmul p256p 4 (mmul p256p P.x yy)
    let zz := mmul p256p P.z P.z
    let t := mmul p256p 3 (msub p256p (mmul p256p P.x P.x) (mmul p256p zz zz))
    let x := msub p256p (mmul p256p t t) (madd p256p s s)
    ⟨x, msub p256p (mmul p256p t (msub p256p s x)) (mmul p256p 8 (mmul p256p yy yy)),
      mmul p256p 2 (mmul p256p P.y P.z)⟩ := by
  simp only [Jac.dbl, jac, eager_eq]

theorem dbl_rep {P : Jac} {A : Point (p256Curve F)} (h : Rep F P A) : Rep F P.dbl (A + A) := by
  have e := P.dbl_eq
  simp only at e
  have hred : P.dbl.Reduced := by
    rw [e]; exact ⟨msub_lt _ _, msub_lt _ _, mmul_lt _ _⟩
  have hx : (P.dbl.x : F) = (3 * ((P.x : F) ^ 2 - (P.z : F) ^ 4)) ^ 2 - 8 * P.x * (P.y : F) ^ 2 := by
    rw [e]
    simp only [cast_mmul, cast_madd, cast_msub, Nat.cast_ofNat]
    ring
  have hy : (P.dbl.y : F) = 3 * ((P.x : F) ^ 2 - (P.z : F) ^ 4) * (4 * P.x * (P.y : F) ^ 2 - P.dbl.x) - 8 * (P.y : F) ^ 4 := by
    rw [hx, e]
    simp only [cast_mmul, cast_madd, cast_msub, Nat.cast_ofNat]
    ring
  have hz : (P.dbl.z : F) = 2 * P.y * P.z := by
    rw [e]
    simp only [cast_mmul, Nat.cast_ofNat]
    ring
  refine ⟨hred, ?_⟩
  rcases h.point with ⟨h0, hA⟩ | ⟨h0, hn, hA⟩
  · left
    refine ⟨?_, by rw [hA, add_zero]⟩
    rw [← cast_zero_iff F hred.z, hz, h0]
    simp
  · have hZ : (P.z : F) ≠ 0 := (cast_zero_iff F h.reduced.z).not.mpr h0
    by_cases hY : (P.y : F) = 0
    · left
      refine ⟨by rw [← cast_zero_iff F hred.z, hz, hY]; simp, ?_⟩
      rw [hA]
      refine Point.add_of_Y_eq rfl ?_
      simp [WeierstrassCurve.Affine.negY, p256Curve, Jac.ay, hY]
    · right
      have hz0 : (P.dbl.z : F) ≠ 0 := by
        rw [hz]
        exact mul_ne_zero (mul_ne_zero (two_ne F) hY) hZ
      refine ⟨fun hc => hz0 (by rw [hc, Nat.cast_zero]), ?_⟩
      rw [hA]
      have hne : P.ay F ≠ (p256Curve F).negY (P.ax F) (P.ay F) := by
        simp only [WeierstrassCurve.Affine.negY, p256Curve, Jac.ay, zero_mul, sub_zero]
        intro hc
        have h2 : (2 : F) * (P.y / (P.z : F) ^ 3) = 0 := by linear_combination hc
        exact (mul_ne_zero (two_ne F) (div_ne_zero hY (pow_ne_zero 3 hZ))) h2
      rw [Point.add_self_of_Y_ne hne]
      have h2 := two_ne F
      have hden : (2 : F) * (P.y / (P.z : F) ^ 3) ≠ 0 := mul_ne_zero h2 (div_ne_zero hY (pow_ne_zero 3 hZ))
      have hL : (p256Curve F).slope (P.ax F) (P.ax F) (P.ay F) (P.ay F) =
          3 * ((P.x : F) ^ 2 - (P.z : F) ^ 4) / (2 * P.y * P.z) := by
        rw [WeierstrassCurve.Affine.slope_of_Y_ne rfl hne]
        simp only [WeierstrassCurve.Affine.negY, p256Curve, Jac.ay, Jac.ax, zero_mul, mul_zero, sub_zero, add_zero, sub_neg_eq_add]
        rw [show (P.y : F) / (P.z : F) ^ 3 + P.y / (P.z : F) ^ 3 = 2 * (P.y / (P.z : F) ^ 3) by ring]
        field_simp
        ring
      have hX : (p256Curve F).addX (P.ax F) (P.ax F) ((p256Curve F).slope (P.ax F) (P.ax F) (P.ay F) (P.ay F)) = P.dbl.ax F := by
        rw [hL]
        simp only [WeierstrassCurve.Affine.addX, p256Curve, Jac.ax, hx, hz, zero_mul, sub_zero, add_zero]
        field_simp
        ring
      refine some_eq hX ?_
      simp only [WeierstrassCurve.Affine.addY, WeierstrassCurve.Affine.negAddY, WeierstrassCurve.Affine.negY, hX]
      rw [hL]
      simp only [p256Curve, Jac.ax, Jac.ay, hy, hz, zero_mul, sub_zero]
      field_simp
      ring

theorem Jac.add_eq (P Q : Jac) : P.add Q =
    if P.z = 0 then Q
    else if Q.z = 0 then P
    else
      let z1 := mmul p256p P.z P.z
      let z2 := mmul p256p Q.z Q.z
      let u1 := mmul p256p P.x z2
      let u2 := mmul p256p Q.x z1
      let s1 := mmul p256p P.y (mmul p256p Q.z z2)
      let s2 := mmul p256p Q.y (mmul p256p P.z z1)
      let h := msub p256p u2 u1
      let r := msub p256p s2 s1
      if h = 0 then
        if r = 0 then P.dbl else ⟨1, 1, 0⟩
      else
        let hh := mmul p256p h h
        let hhh := mmul p256p h hh
        let v := mmul p256p u1 hh
        let x := msub p256p (mmul p256p r r) (madd p256p hhh (madd p256p v v))
        ⟨x, msub p256p (mmul p256p r (msub p256p v x)) (mmul p256p s1 hhh), mmul p256p h (mmul p256p P.z Q.z)⟩ := by
  simp only [Jac.add, jac, eager_eq]

theorem inf_reduced : Jac.Reduced ⟨1, 1, 0⟩ := ⟨by decide +kernel, by decide +kernel, p256p_pos⟩

theorem inf_rep : Rep F ⟨1, 1, 0⟩ 0 := ⟨inf_reduced, .inl ⟨rfl, rfl⟩⟩

theorem add_rep {P Q : Jac} {A B : Point (p256Curve F)} (hP : Rep F P A) (hQ : Rep F Q B) : Rep F (P.add Q) (A + B) := by
  have e := P.add_eq Q
  rcases hP.point with ⟨h0, hA⟩ | ⟨hp0, hnP, hA⟩
  · rw [if_pos h0] at e
    rw [e, hA, zero_add]; exact hQ
  rcases hQ.point with ⟨h0, hB⟩ | ⟨hq0, hnQ, hB⟩
  · rw [if_neg hp0, if_pos h0] at e
    rw [e, hB, add_zero]; exact hP
  rw [if_neg hp0, if_neg hq0] at e
  simp only at e
  have hZ1 : (P.z : F) ≠ 0 := (cast_zero_iff F hP.reduced.z).not.mpr hp0
  have hZ2 : (Q.z : F) ≠ 0 := (cast_zero_iff F hQ.reduced.z).not.mpr hq0
  generalize hh : msub p256p (mmul p256p Q.x (mmul p256p P.z P.z)) (mmul p256p P.x (mmul p256p Q.z Q.z)) = h at e
  generalize hr : msub p256p (mmul p256p Q.y (mmul p256p P.z (mmul p256p P.z P.z)))
    (mmul p256p P.y (mmul p256p Q.z (mmul p256p Q.z Q.z))) = r at e
  have hlt : h < p256p := hh ▸ msub_lt _ _
  have rlt : r < p256p := hr ▸ msub_lt _ _
  have hH : (h : F) = Q.x * (P.z : F) ^ 2 - P.x * (Q.z : F) ^ 2 := by
    rw [← hh]; simp only [cast_mmul, cast_msub]; ring
  have hR : (r : F) = Q.y * (P.z : F) ^ 3 - P.y * (Q.z : F) ^ 3 := by
    rw [← hr]; simp only [cast_mmul, cast_msub]; ring
  have hxx : P.ax F = Q.ax F ↔ (h : F) = 0 := by
    rw [hH, Jac.ax, Jac.ax, div_eq_div_iff (pow_ne_zero 2 hZ1) (pow_ne_zero 2 hZ2), sub_eq_zero, eq_comm]
  have hyy : P.ay F = Q.ay F ↔ (r : F) = 0 := by
    rw [hR, Jac.ay, Jac.ay, div_eq_div_iff (pow_ne_zero 3 hZ1) (pow_ne_zero 3 hZ2), sub_eq_zero, eq_comm]
  by_cases h0 : h = 0
  · rw [if_pos h0] at e
    have hx : P.ax F = Q.ax F := hxx.mpr (by rw [h0, Nat.cast_zero])
    by_cases r0 : r = 0
    · rw [if_pos r0] at e
      have hy : P.ay F = Q.ay F := hyy.mpr (by rw [r0, Nat.cast_zero])
      have hAB : B = A := by
        rw [hB, hA]
        obtain ⟨h', hs⟩ := some_eq (h := hnQ) hx.symm hy.symm
        exact hs
      rw [e, hAB]
      exact dbl_rep hP
    · rw [if_neg r0] at e
      have hy : P.ay F ≠ Q.ay F := fun hc => r0 ((cast_zero_iff F rlt).mp (hyy.mp hc))
      rw [e, hA, hB, Point.add_of_Y_eq hx]
      · exact inf_rep
      · rcases WeierstrassCurve.Affine.Y_eq_of_X_eq hnP.left hnQ.left hx with h1 | h1
        · exact absurd h1 hy
        · exact h1
  · rw [if_neg h0] at e
    have hH0 : (h : F) ≠ 0 := (cast_zero_iff F hlt).not.mpr h0
    have hx : P.ax F ≠ Q.ax F := fun hc => hH0 (hxx.mp hc)
    have hred : (P.add Q).Reduced := by
      rw [e]; exact ⟨msub_lt _ _, msub_lt _ _, mmul_lt _ _⟩
    have ex : ((P.add Q).x : F) = (r : F) ^ 2 - (h : F) ^ 3 - 2 * (P.x * (Q.z : F) ^ 2) * (h : F) ^ 2 := by
      rw [e]
      simp only [cast_mmul, cast_madd, cast_msub]
      ring
    have ey : ((P.add Q).y : F) = r * (P.x * (Q.z : F) ^ 2 * (h : F) ^ 2 - (P.add Q).x) - P.y * (Q.z : F) ^ 3 * (h : F) ^ 3 := by
      rw [ex, e]
      simp only [cast_mmul, cast_madd, cast_msub]
      ring
    have ez : ((P.add Q).z : F) = h * P.z * Q.z := by
      rw [e]
      simp only [cast_mmul]
      ring
    refine ⟨hred, .inr ⟨?_, ?_⟩⟩
    · intro hc
      have : ((P.add Q).z : F) = 0 := by rw [hc, Nat.cast_zero]
      rw [ez] at this
      exact mul_ne_zero (mul_ne_zero hH0 hZ1) hZ2 this
    rw [hA, hB, Point.add_some (fun hc => hx hc.1)]
    have hL : (p256Curve F).slope (P.ax F) (Q.ax F) (P.ay F) (Q.ay F) = r / (h * P.z * Q.z) := by
      rw [WeierstrassCurve.Affine.slope_of_X_ne hx]
      have hd : P.ax F - Q.ax F ≠ 0 := sub_ne_zero.mpr hx
      have hden : (h : F) * P.z * Q.z ≠ 0 := mul_ne_zero (mul_ne_zero hH0 hZ1) hZ2
      rw [div_eq_div_iff hd hden, hR, hH]
      simp only [Jac.ax, Jac.ay]
      field_simp
      ring
    have hX : (p256Curve F).addX (P.ax F) (Q.ax F) ((p256Curve F).slope (P.ax F) (Q.ax F) (P.ay F) (Q.ay F)) =
        (P.add Q).ax F := by
      rw [hL]
      have hq : (Q.x : F) = (h + P.x * (Q.z : F) ^ 2) / (P.z : F) ^ 2 := by
        rw [hH]; field_simp; ring
      simp only [WeierstrassCurve.Affine.addX, p256Curve, Jac.ax, ex, ez, hq, zero_mul, sub_zero, add_zero]
      field_simp
      ring
    refine some_eq hX ?_
    simp only [WeierstrassCurve.Affine.addY, WeierstrassCurve.Affine.negAddY, WeierstrassCurve.Affine.negY, hX]
    rw [hL]
    simp only [p256Curve, Jac.ax, Jac.ay, ey, ez, zero_mul, sub_zero]
    field_simp
    ring

theorem smulAux_rep (k : Nat) {P : Jac} {A : Point (p256Curve F)} (hP : Rep F P A) (n : Nat) :
    ∀ {Q : Jac} {B : Point (p256Curve F)}, Rep F Q B → Rep F (smulAux k P n Q) (2 ^ n • B + (k % 2 ^ n) • A) := by
  induction n with
  | zero =>
    intro Q B hQ
    simpa [smulAux, Nat.mod_one] using hQ
  | succ n ih =>
    intro Q B hQ
    have hb : k / 2 ^ n % 2 = (k.testBit n).toNat := (Nat.toNat_testBit k n).symm
    rw [Nat.mod_pow_succ, hb]
    have hd := dbl_rep hQ
    unfold smulAux
    rcases hq : Q.dbl with ⟨x, y, z⟩
    rw [hq] at hd
    simp only
    cases k.testBit n with
    | false =>
      have := ih hd
      simp only [Bool.false_eq_true, if_false, Bool.toNat_false, mul_zero, add_zero]
      convert this using 2
      rw [pow_succ, mul_nsmul', two_nsmul]
    | true =>
      have := ih (add_rep hd hP)
      simp only [if_true, Bool.toNat_true, mul_one]
      convert this using 1
      rw [pow_succ, mul_nsmul', two_nsmul, add_nsmul, nsmul_add (B + B) A (2 ^ n)]
      generalize 2 ^ n • (B + B) = X
      generalize 2 ^ n • A = Y
      generalize (k % 2 ^ n) • A = Z
      rw [add_comm Z Y, add_assoc]

theorem smul_rep {k : Nat} (hk : k < 2 ^ 256) {P : Jac} {A : Point (p256Curve F)} (hP : Rep F P A) :
    Rep F (smul k P) (k • A) := by
  have := smulAux_rep k hP 256 (inf_rep (F := F))
  rwa [nsmul_zero, zero_add, Nat.mod_eq_of_lt hk] at this

end ETls.Crypto
