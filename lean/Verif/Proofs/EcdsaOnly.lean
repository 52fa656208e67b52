import Verif.Proofs.EcdsaDer
import Verif.Proofs.Sec1

/-! # What verifies was signed: the converse of `EcdsaDer` -/

namespace ETls
open Crypto

/-! ## DER -/

theorem ofBE_cons_ge (x : UInt8) (l : Bytes) : x.toNat * 256 ^ l.length ≤ ofBE (x :: l) := by
  suffices h : ∀ (l : Bytes) (acc : Nat), acc * 256 ^ l.length ≤ l.foldl (fun a b => a * 256 + b.toNat) acc by
    have := h l x.toNat
    simpa [ofBE] using this
  intro l
  induction l with
  | nil => intro acc; simp
  | cons y l ih =>
    intro acc
    refine Nat.le_trans ?_ (ih (acc * 256 + y.toNat))
    rw [List.length_cons, Nat.pow_succ, Nat.add_mul]
    have : acc * (256 ^ l.length * 256) = acc * 256 * 256 ^ l.length := by ring
    omega

/-- Digits without leading zero are determined by their value. -/
theorem digits_unique {a b : Bytes} (ha : a = [] ∨ ∃ x r, a = x :: r ∧ x.toNat ≠ 0)
    (hb : b = [] ∨ ∃ x r, b = x :: r ∧ x.toNat ≠ 0) (h : ofBE a = ofBE b) : a = b := by
  have key : ∀ {a b : Bytes}, (a = [] ∨ ∃ x r, a = x :: r ∧ x.toNat ≠ 0) → ofBE a = ofBE b → a.length ≤ b.length := by
    intro a b ha h
    rcases ha with rfl | ⟨x, r, rfl, hx⟩
    · exact Nat.zero_le _
    · have h1 := ofBE_cons_ge x r
      have h2 := ofBE_lt b
      by_contra hc
      have h3 : 256 ^ b.length ≤ 256 ^ r.length := Nat.pow_le_pow_right (by decide) (by simp at hc; omega)
      have h4 : 256 ^ r.length ≤ x.toNat * 256 ^ r.length := Nat.le_mul_of_pos_left _ (Nat.pos_of_ne_zero hx)
      omega
  have hl : a.length = b.length := Nat.le_antisymm (key ha h) (key hb h.symm)
  rw [← toBE_ofBE a, ← toBE_ofBE b, h, hl]

/-- The content of a non-negative INTEGER is determined by its value. -/
theorem derUintBody_only {body b' : Bytes} (h : Der.integerContent body = some (b', [])) (h7 : (b'.headD 0).toNat < 128)
    (hn : ofBE b' < 256 ^ 32) : b' = body ∧ body = derUintBody (ofBE b') := by
  have hb : b' = body := by
    unfold Der.integerContent at h
    split at h
    · cases h
    · cases h; rfl
    · split at h
      · cases h
      · cases h; rfl
  subst hb
  refine ⟨rfl, ?_⟩
  have hv : ofBE (b'.dropWhile (· = 0)) = ofBE ((toBE 33 (ofBE b')).dropWhile (· = 0)) := by
    rw [ofBE_dropZero, ofBE_dropZero, ofBE_toBE]
    exact hn.trans (by norm_num)
  have hd := digits_unique (head_dropZero _) (head_dropZero _) hv
  unfold derUintBody
  simp only
  rw [← hd]
  unfold Der.integerContent at h
  split at h
  · cases h
  · next x =>
    by_cases hx : x = 0
    · subst hx; rfl
    · simp only [hx, List.dropWhile_cons, decide_false, Bool.false_eq_true, if_false, List.headD_cons, List.isEmpty_cons] at h7 ⊢
      rw [if_neg (by simp; omega)]
  · next x y r =>
    split at h
    · cases h
    · next hc =>
      by_cases hx : x = 0
      · subst hx
        have hy : 128 ≤ y.toNat := by simp at hc; exact hc
        have hy0 : y ≠ 0 := by rintro rfl; simp at hy
        simp only [List.dropWhile_cons, decide_true, if_true, hy0, decide_false, Bool.false_eq_true, if_false]
        rw [if_pos (by simp; omega)]
      · simp only [hx, List.dropWhile_cons, decide_false, Bool.false_eq_true, if_false, List.headD_cons, List.isEmpty_cons] at h7 ⊢
        rw [if_neg (by simp; omega)]

/-- An element with short content is in the short form. -/
theorem Der.elem_only {α : Type} (T : DerTags) (t : UInt8) (p : Der α) (ht : T.known t = true) {b rest : Bytes} {a : α}
    (h : Der.elem T t p b = some (a, rest)) : ∃ body, p body = some (a, []) ∧
      b = t :: Spec.derLength body.length ++ body ++ rest := by
  obtain ⟨e, ⟨body, ⟨-, h1⟩, h2⟩, h3⟩ := (Der.elem_reads T (E := fun x e => p e = some (x, [])) t ht (fun _ _ => Iff.rfl) _ _ _).1 h
  exact ⟨body, h2, by rw [h3, h1]⟩

theorem derUint_only (T : DerTags) {b rest : Bytes} {n : Nat} (h : derUint T b = some (n, rest)) (hn : n < 256 ^ 32) :
    b = derUintBytes n ++ rest := by
  unfold derUint at h
  rw [Der.bind_iff] at h
  obtain ⟨b', r', h1, h2⟩ := h
  obtain ⟨body, h3, h4⟩ := Der.elem_only T 0x02 _ (T.schema _ (by simp)) h1
  split at h2
  · next h7 =>
    obtain ⟨rfl, rfl⟩ := Der.pure_iff.1 h2
    obtain ⟨e1, e2⟩ := derUintBody_only h3 h7 hn
    have hl := (derUintBody_props _ hn).2.1
    rw [h4, derUintBytes_eq]
    subst e1
    rw [← e2] at hl ⊢
    rw [Spec.derLength, if_pos (by omega)]
    rfl
  · cases h2

/-- Exactly the DER encodings of pairs of numbers in the range are read as signatures. -/
theorem ecdsaSig_iff (T : DerTags) (sig : Bytes) (r s : Nat) : ecdsaSig T sig = some (r, s) ↔
    (0 < r ∧ r < p256n) ∧ (0 < s ∧ s < p256n) ∧ sig = ecdsaSigBytes r s := by
  constructor
  · intro h
    unfold ecdsaSig at h
    split at h
    · next r' s' hi =>
      split at h
      · next hc =>
        cases h
        obtain ⟨hr0, hr, hs0, hs⟩ := hc
        refine ⟨⟨hr0, hr⟩, ⟨hs0, hs⟩, ?_⟩
        rw [Der.inside_iff] at hi
        obtain ⟨body, h1, h2⟩ := Der.elem_only T 0x30 _ (T.schema _ (by simp)) hi
        rw [Der.bind_iff] at h1
        obtain ⟨a, r1, k1, k2⟩ := h1
        rw [Der.bind_iff] at k2
        obtain ⟨b, r2, k2, k3⟩ := k2
        obtain ⟨k3, rfl⟩ := Der.pure_iff.1 k3
        cases k3
        have e1 := derUint_only T k1 (hr.trans p256n_bytes)
        have e2 := derUint_only T k2 (hs.trans p256n_bytes)
        rw [List.append_nil] at e2 h2
        subst e2
        have l1 := derUintBytes_length r (hr.trans p256n_bytes)
        have l2 := derUintBytes_length s (hs.trans p256n_bytes)
        subst e1
        rw [h2, Spec.derLength, if_pos (by simp; omega)]
        rfl
      · cases h
    · cases h
  · rintro ⟨hr, hs, rfl⟩
    exact (ecdsaSig_bytes T r s hr hs).1

/-! ## The equation -/

/-- Numbers that verify under the public key of `d` satisfy the equation of a signature with `d`, for some nonce. -/
theorem ecdsaVerify_only {d : Nat} (h0 : 0 < d) (hd : d < p256n) {digest : Bytes} {r s : Nat}
    (h : ecdsaVerify (p256Key d) digest r s = true) : ∃ k, (0 < k ∧ k < p256n) ∧ (smul k p256g).affine.1 % p256n = r ∧
      s * k % p256n = (ofBE (digest.take 32) + r * d) % p256n := by
  obtain ⟨Q, h1, h2⟩ := public_decode hd h0.ne'
  unfold ecdsaVerify p256Key at h
  rw [h1] at h
  simp only [eager_eq] at h
  split at h
  · next hc =>
    obtain ⟨hr0, hr, hs0, hs⟩ := hc
    generalize ofBE (digest.take 32) = z at h ⊢
    obtain ⟨sz, hw⟩ := p256n_inverse hs0 hs
    generalize minv p256n s = w at h hw
    rw [decide_eq_true_eq] at h
    obtain ⟨hz, hx⟩ := h
    have hR : Rep Fp ((smul (mmul p256n z w) p256g).add (smul (mmul p256n r w) Q))
        (((mmul p256n z w + mmul p256n r w * d) % p256n) • G) := by
      have a1 := smul_g_rep (k := mmul p256n z w) (Nat.mod_lt _ p256n_prime.pos)
      have a2 := smul_rep (k := mmul p256n r w) ((Nat.mod_lt _ p256n_prime.pos).trans p256n_lt) h2
      have := add_rep a1 a2
      rwa [← mul_nsmul', ← add_nsmul, ← smul_G_mod] at this
    have hlt : (mmul p256n z w + mmul p256n r w * d) % p256n < p256n := Nat.mod_lt _ p256n_prime.pos
    have hcast : (((mmul p256n z w + mmul p256n r w * d) % p256n : Nat) : ZMod p256n) =
        ((z : ZMod p256n) + r * d) * (s : ZMod p256n)⁻¹ := by
      rw [cast_n]
      push_cast
      rw [mmul_cast, mmul_cast, hw]
      ring
    generalize (mmul p256n z w + mmul p256n r w * d) % p256n = k at hR hlt hcast
    have hk0 : k ≠ 0 := by
      rintro rfl
      rw [zero_nsmul] at hR
      exact hz (hR.zero_iff.mpr rfl)
    refine ⟨k, ⟨Nat.pos_of_ne_zero hk0, hlt⟩, ?_, ?_⟩
    · rw [← hx, affine_unique (smul_g_rep hlt) hR (smul_G_ne hlt hk0)]
    · rw [← ZMod.natCast_eq_natCast_iff']
      push_cast
      rw [hcast]
      field_simp
  · cases h

end ETls
