import Verif.Model.P384
import Verif.Proofs.P384
import Verif.Proofs.EcdsaOnly

/-! # Signatures on P-384: their DER encodings, what is signed verifies, and nothing else does -/

namespace ETls.Crypto.P384

/-- The content octets of an INTEGER. -/
def derUintBody (n : Nat) : Bytes :=
  let body := (toBE 49 n).dropWhile (· = 0)
  if body.isEmpty ∨ 128 ≤ (body.headD 0).toNat then 0 :: body else body

theorem derUintBytes_eq (n : Nat) :
    derUintBytes n = 0x02 :: UInt8.ofNat (derUintBody n).length :: derUintBody n := rfl

theorem derUintBody_props (n : Nat) (h : n < 256 ^ 48) :
    ofBE (derUintBody n) = n ∧ (derUintBody n).length ≤ 49 ∧ Der.integerContent (derUintBody n) = some (derUintBody n, []) ∧
      ((derUintBody n).headD 0).toNat < 128 := by
  have h1 : ofBE ((toBE 49 n).dropWhile (· = 0)) = n := by
    rw [ofBE_dropZero, ofBE_toBE]
    exact h.trans (by norm_num)
  have h2 : ((toBE 49 n).dropWhile (· = 0)).length ≤ 48 := by
    have h0 : toBE 49 n = 0 :: toBE 48 n := by
      show UInt8.ofNat (n / 256 ^ 48) :: toBE 48 n = _
      rw [Nat.div_eq_of_lt h]
      rfl
    rw [h0, List.dropWhile_cons_of_pos (by simp)]
    exact (List.dropWhile_sublist _).length_le.trans (toBE_length _ _).le
  unfold derUintBody
  rcases head_dropZero (toBE 49 n) with hn | ⟨x, r, hc, hx⟩
  · rw [hn] at h1 ⊢
    subst h1
    simp [ofBE, Der.integerContent]
  · rw [hc] at h1 h2 ⊢
    simp only [List.isEmpty_cons, Bool.false_eq_true, false_or, List.headD_cons, List.length_cons] at h2 ⊢
    by_cases h3 : 128 ≤ x.toNat
    · simp only [h3, if_true]
      refine ⟨by simpa [ofBE] using h1, by simp; omega, ?_, by simp⟩
      unfold Der.integerContent
      simp; omega
    · simp only [h3, if_false]
      refine ⟨h1, by simp; omega, ?_, by simpa using h3⟩
      unfold Der.integerContent
      cases r with
      | nil => rfl
      | cons y r => simp only; rw [if_neg (by omega)]

theorem derUint_reads (T : DerTags) (n : Nat) (h : n < 256 ^ 48) (rest : Bytes) :
    derUint T (derUintBytes n ++ rest) = some (n, rest) := by
  obtain ⟨h1, h2, h3, h4⟩ := derUintBody_props n h
  rw [derUintBytes_eq]
  have := Der.elem_short T 0x02 Der.integerContent (T.schema _ (by simp)) (derUintBody n) rest (by omega) h3
  unfold derUint
  rw [Der.bind_iff]
  refine ⟨_, _, this, ?_⟩
  simp only [h4, if_true]
  rw [Der.pure_iff]
  exact ⟨h1.symm, rfl⟩

theorem derUintBytes_length (n : Nat) (h : n < 256 ^ 48) : (derUintBytes n).length ≤ 51 := by
  obtain ⟨-, h2, -⟩ := derUintBody_props n h
  rw [derUintBytes_eq]
  simp; omega

theorem p384n_bytes : p384n < 256 ^ 48 := by decide

/-- A signature is read back from its DER encoding. -/
theorem ecdsaSig_bytes (T : DerTags) (r s : Nat) (hr : 0 < r ∧ r < p384n) (hs : 0 < s ∧ s < p384n) :
    ecdsaSig T (ecdsaSigBytes r s) = some (r, s) ∧ (ecdsaSigBytes r s).length ≤ 104 := by
  have hr' := hr.2.trans p384n_bytes
  have hs' := hs.2.trans p384n_bytes
  have l1 := derUintBytes_length r hr'
  have l2 := derUintBytes_length s hs'
  refine ⟨?_, by simp [ecdsaSigBytes]; omega⟩
  have hbody : (do
      let r ← derUint T
      let s ← derUint T
      return (r, s) : Der (Nat × Nat)) (derUintBytes r ++ derUintBytes s) = some ((r, s), []) := by
    have := derUint_reads T s hs' []
    rw [List.append_nil] at this
    exact Der.bind_iff.2 ⟨_, _, derUint_reads T r hr' _, Der.bind_iff.2 ⟨_, _, this, rfl⟩⟩
  have := Der.elem_short T 0x30 _ (T.schema _ (by simp)) (derUintBytes r ++ derUintBytes s) [] (by simp; omega) hbody
  rw [List.append_nil] at this
  unfold ecdsaSig ecdsaSigBytes Der.inside
  simp only
  rw [this]
  simp only [hr, hs, and_self, if_true]

theorem p384n_inverse {k : Nat} (h0 : 0 < k) (hk : k < p384n) :
    (k : ZMod p384n) ≠ 0 ∧ ((minv p384n k : Nat) : ZMod p384n) = (k : ZMod p384n)⁻¹ := by
  have kz : (k : ZMod p384n) ≠ 0 := by
    rw [Ne, ZMod.natCast_eq_zero_iff]
    exact fun h => h0.ne' (Nat.eq_zero_of_dvd_of_lt h hk)
  exact ⟨kz, (minv_cast p384n k p384n_lt).resolve_right kz⟩

/-- What is signed verifies under the public key, and is at most 104 bytes long. -/
theorem ecdsaSigned_verifies (T : DerTags) {d : Nat} (h0 : 0 < d) (hd : d < p384n) {m sig : Bytes}
    (h : Signed d m sig) :
    ∃ r s, ecdsaSig T sig = some (r, s) ∧ ecdsaVerify (p384Key d) (sha384 m) r s = true ∧ sig.length ≤ 104 := by
  obtain ⟨k, r, s, hk, hr, hs, h1, h2, rfl⟩ := h
  obtain ⟨e1, e2⟩ := ecdsaSig_bytes T r s hr hs
  refine ⟨r, s, e1, ?_, e2⟩
  have ht : (sha384 m).take 48 = sha384 m := List.take_of_length_le (sha384_length m).le
  have hs2 : mmul p384n (minv p384n k) (ofBE ((sha384 m).take 48) + r * d) = s := by
    obtain ⟨kz, ki⟩ := p384n_inverse hk.1 hk.2
    rw [ht]
    have h3 := (ZMod.natCast_eq_natCast_iff' _ _ p384n).2 h2
    have h4 : ((mmul p384n (minv p384n k) (ofBE (sha384 m) + r * d) : Nat) : ZMod p384n) = (s : ZMod p384n) := by
      rw [mmul_cast, ki, ← h3]
      push_cast
      field_simp
    rw [ZMod.natCast_eq_natCast_iff'] at h4
    have hlt : mmul p384n (minv p384n k) (ofBE (sha384 m) + r * d) < p384n := Nat.mod_lt _ p384n_prime.pos
    rwa [Nat.mod_eq_of_lt hlt, Nat.mod_eq_of_lt hs.2] at h4
  have := ecdsa_correct d k (sha384 m) hd h0.ne' hk.2 hk.1.ne' (by rw [h1]; exact hr.1.ne')
    (by rw [h1, hs2]; exact hs.1.ne')
  rw [h1, hs2] at this
  exact this

/-- The content of a non-negative INTEGER is determined by its value. -/
theorem derUintBody_only {body b' : Bytes} (h : Der.integerContent body = some (b', [])) (h7 : (b'.headD 0).toNat < 128)
    (hn : ofBE b' < 256 ^ 48) : b' = body ∧ body = derUintBody (ofBE b') := by
  have hb : b' = body := by
    unfold Der.integerContent at h
    split at h
    · cases h
    · cases h; rfl
    · split at h
      · cases h
      · cases h; rfl
  subst hb
  refine ⟨rfl, ?_⟩
  have hv : ofBE (b'.dropWhile (· = 0)) = ofBE ((toBE 49 (ofBE b')).dropWhile (· = 0)) := by
    rw [ofBE_dropZero, ofBE_dropZero, ofBE_toBE]
    exact hn.trans (by norm_num)
  have hd := digits_unique (head_dropZero _) (head_dropZero _) hv
  unfold derUintBody
  simp only
  rw [← hd]
  unfold Der.integerContent at h
  split at h
  · cases h
  · next x =>
    by_cases hx : x = 0
    · subst hx; rfl
    · simp only [hx, List.dropWhile_cons, decide_false, Bool.false_eq_true, if_false, List.headD_cons, List.isEmpty_cons] at h7 ⊢
      rw [if_neg (by simp; omega)]
  · next x y r =>
    split at h
    · cases h
    · next hc =>
      by_cases hx : x = 0
      · subst hx
        have hy : 128 ≤ y.toNat := by simp at hc; exact hc
        have hy0 : y ≠ 0 := by rintro rfl; simp at hy
        simp only [List.dropWhile_cons, decide_true, if_true, hy0, decide_false, Bool.false_eq_true, if_false]
        rw [if_pos (by simp; omega)]
      · simp only [hx, List.dropWhile_cons, decide_false, Bool.false_eq_true, if_false, List.headD_cons, List.isEmpty_cons] at h7 ⊢
        rw [if_neg (by simp; omega)]

theorem derUint_only (T : DerTags) {b rest : Bytes} {n : Nat} (h : derUint T b = some (n, rest)) (hn : n < 256 ^ 48) :
    b = derUintBytes n ++ rest := by
  unfold derUint at h
  rw [Der.bind_iff] at h
  obtain ⟨b', r', h1, h2⟩ := h
  obtain ⟨body, h3, h4⟩ := Der.elem_only T 0x02 _ (T.schema _ (by simp)) h1
  split at h2
  · next h7 =>
    obtain ⟨rfl, rfl⟩ := Der.pure_iff.1 h2
    obtain ⟨e1, e2⟩ := derUintBody_only h3 h7 hn
    have hl := (derUintBody_props _ hn).2.1
    rw [h4, derUintBytes_eq]
    subst e1
    rw [← e2] at hl ⊢
    rw [Spec.derLength, if_pos (by omega)]
    rfl
  · cases h2

/-- Exactly the DER encodings of pairs of numbers in the range are read as signatures. -/
theorem ecdsaSig_iff (T : DerTags) (sig : Bytes) (r s : Nat) : ecdsaSig T sig = some (r, s) ↔
    (0 < r ∧ r < p384n) ∧ (0 < s ∧ s < p384n) ∧ sig = ecdsaSigBytes r s := by
  constructor
  · intro h
    unfold ecdsaSig at h
    split at h
    · next r' s' hi =>
      split at h
      · next hc =>
        cases h
        obtain ⟨hr0, hr, hs0, hs⟩ := hc
        refine ⟨⟨hr0, hr⟩, ⟨hs0, hs⟩, ?_⟩
        rw [Der.inside_iff] at hi
        obtain ⟨body, h1, h2⟩ := Der.elem_only T 0x30 _ (T.schema _ (by simp)) hi
        rw [Der.bind_iff] at h1
        obtain ⟨a, r1, k1, k2⟩ := h1
        rw [Der.bind_iff] at k2
        obtain ⟨b, r2, k2, k3⟩ := k2
        obtain ⟨k3, rfl⟩ := Der.pure_iff.1 k3
        cases k3
        have e1 := derUint_only T k1 (hr.trans p384n_bytes)
        have e2 := derUint_only T k2 (hs.trans p384n_bytes)
        rw [List.append_nil] at e2 h2
        subst e2
        have l1 := derUintBytes_length r (hr.trans p384n_bytes)
        have l2 := derUintBytes_length s (hs.trans p384n_bytes)
        subst e1
        rw [h2, Spec.derLength, if_pos (by simp; omega)]
        rfl
      · cases h
    · cases h
  · rintro ⟨hr, hs, rfl⟩
    exact (ecdsaSig_bytes T r s hr hs).1

/-! ## The equation -/

/-- Numbers that verify under the public key of `d` satisfy the equation of a signature with `d`, for some nonce. -/
theorem ecdsaVerify_only {d : Nat} (h0 : 0 < d) (hd : d < p384n) {digest : Bytes} {r s : Nat}
    (h : ecdsaVerify (p384Key d) digest r s = true) : ∃ k, (0 < k ∧ k < p384n) ∧ (smul k p384g).affine.1 % p384n = r ∧
      s * k % p384n = (ofBE (digest.take 48) + r * d) % p384n := by
  obtain ⟨Q, h1, h2⟩ := public_decode hd h0.ne'
  unfold ecdsaVerify p384Key at h
  rw [h1] at h
  simp only [eager_eq] at h
  split at h
  · next hc =>
    obtain ⟨hr0, hr, hs0, hs⟩ := hc
    generalize ofBE (digest.take 48) = z at h ⊢
    obtain ⟨sz, hw⟩ := p384n_inverse hs0 hs
    generalize minv p384n s = w at h hw
    rw [decide_eq_true_eq] at h
    obtain ⟨hz, hx⟩ := h
    have hR : Rep Fp ((smul (mmul p384n z w) p384g).add (smul (mmul p384n r w) Q))
        (((mmul p384n z w + mmul p384n r w * d) % p384n) • G) := by
      have a1 := smul_g_rep (k := mmul p384n z w) (Nat.mod_lt _ p384n_prime.pos)
      have a2 := smul_rep (k := mmul p384n r w) ((Nat.mod_lt _ p384n_prime.pos).trans p384n_lt) h2
      have := add_rep a1 a2
      rwa [← mul_nsmul', ← add_nsmul, ← smul_G_mod] at this
    have hlt : (mmul p384n z w + mmul p384n r w * d) % p384n < p384n := Nat.mod_lt _ p384n_prime.pos
    have hcast : (((mmul p384n z w + mmul p384n r w * d) % p384n : Nat) : ZMod p384n) =
        ((z : ZMod p384n) + r * d) * (s : ZMod p384n)⁻¹ := by
      rw [cast_n]
      push_cast
      rw [mmul_cast, mmul_cast, hw]
      ring
    generalize (mmul p384n z w + mmul p384n r w * d) % p384n = k at hR hlt hcast
    have hk0 : k ≠ 0 := by
      rintro rfl
      rw [zero_nsmul] at hR
      exact hz (hR.zero_iff.mpr rfl)
    refine ⟨k, ⟨Nat.pos_of_ne_zero hk0, hlt⟩, ?_, ?_⟩
    · rw [← hx, affine_unique (smul_g_rep hlt) hR (smul_G_ne hlt hk0)]
    · rw [← ZMod.natCast_eq_natCast_iff']
      push_cast
      rw [hcast]
      field_simp
  · cases h

end ETls.Crypto.P384
