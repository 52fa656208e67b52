import Verif.Model.Libs
import Verif.Proofs.P256
import Verif.Props.Der

/-! # DER of ECDSA signatures, there and back; what is signed verifies -/

namespace ETls
open Crypto

theorem foldl_dropZero : ∀ (l : Bytes),
    (l.dropWhile (· = 0)).foldl (fun a b => a * 256 + b.toNat) 0 = l.foldl (fun a b => a * 256 + b.toNat) 0 := by
  intro l
  induction l with
  | nil => rfl
  | cons x l ih =>
    by_cases h : x = 0
    · subst h; simpa using ih
    · simp [h]

theorem ofBE_dropZero (l : Bytes) : ofBE (l.dropWhile (· = 0)) = ofBE l := foldl_dropZero l

/-- The content octets of an INTEGER. -/
def derUintBody (n : Nat) : Bytes :=
  let body := (toBE 33 n).dropWhile (· = 0)
  if body.isEmpty ∨ 128 ≤ (body.headD 0).toNat then 0 :: body else body

theorem derUintBytes_eq (n : Nat) :
    derUintBytes n = 0x02 :: UInt8.ofNat (derUintBody n).length :: derUintBody n := rfl

theorem head_dropZero (l : Bytes) : l.dropWhile (· = 0) = [] ∨ ∃ x r, l.dropWhile (· = 0) = x :: r ∧ x.toNat ≠ 0 := by
  induction l with
  | nil => exact .inl rfl
  | cons x l ih =>
    by_cases h : x = 0
    · subst h; simpa using ih
    · refine .inr ⟨x, l, by simp [h], ?_⟩
      intro h0
      exact h (by rw [← UInt8.toNat_inj]; exact h0)

theorem derUintBody_props (n : Nat) (h : n < 256 ^ 32) :
    ofBE (derUintBody n) = n ∧ (derUintBody n).length ≤ 33 ∧ Der.integerContent (derUintBody n) = some (derUintBody n, []) ∧
      ((derUintBody n).headD 0).toNat < 128 := by
  have h1 : ofBE ((toBE 33 n).dropWhile (· = 0)) = n := by
    rw [ofBE_dropZero, ofBE_toBE]
    exact h.trans (by norm_num)
  have h2 : ((toBE 33 n).dropWhile (· = 0)).length ≤ 32 := by
    have h0 : toBE 33 n = 0 :: toBE 32 n := by
      show UInt8.ofNat (n / 256 ^ 32) :: toBE 32 n = _
      rw [Nat.div_eq_of_lt h]
      rfl
    rw [h0, List.dropWhile_cons_of_pos (by simp)]
    exact (List.dropWhile_sublist _).length_le.trans (toBE_length _ _).le
  unfold derUintBody
  rcases head_dropZero (toBE 33 n) with hn | ⟨x, r, hc, hx⟩
  · rw [hn] at h1 ⊢
    subst h1
    simp [ofBE, Der.integerContent]
  · rw [hc] at h1 h2 ⊢
    simp only [List.isEmpty_cons, Bool.false_eq_true, false_or, List.headD_cons, List.length_cons] at h2 ⊢
    by_cases h3 : 128 ≤ x.toNat
    · simp only [h3, if_true]
      refine ⟨by simpa [ofBE] using h1, by simp; omega, ?_, by simp⟩
      unfold Der.integerContent
      simp; omega
    · simp only [h3, if_false]
      refine ⟨h1, by simp; omega, ?_, by simpa using h3⟩
      unfold Der.integerContent
      cases r with
      | nil => rfl
      | cons y r => simp only; rw [if_neg (by omega)]

/-- An element in the short form is read. -/
theorem Der.elem_short {α : Type} (T : DerTags) (t : UInt8) (p : Der α) (ht : T.known t = true) (body rest : Bytes)
    (hl : body.length < 128) {a : α} (hp : p body = some (a, [])) :
    Der.elem T t p (t :: UInt8.ofNat body.length :: (body ++ rest)) = some (a, rest) := by
  refine (Der.elem_reads T (E := fun x e => p e = some (x, [])) t ht (fun _ _ => Iff.rfl) _ _ _).2
    ⟨t :: UInt8.ofNat body.length :: body, ⟨body, ⟨by omega, ?_⟩, hp⟩, rfl⟩
  rw [Spec.derLength, if_pos hl]
  rfl

theorem derUint_reads (T : DerTags) (n : Nat) (h : n < 256 ^ 32) (rest : Bytes) :
    derUint T (derUintBytes n ++ rest) = some (n, rest) := by
  obtain ⟨h1, h2, h3, h4⟩ := derUintBody_props n h
  rw [derUintBytes_eq]
  have := Der.elem_short T 0x02 Der.integerContent (T.schema _ (by simp)) (derUintBody n) rest (by omega) h3
  unfold derUint
  rw [Der.bind_iff]
  refine ⟨_, _, this, ?_⟩
  simp only [h4, if_true]
  rw [Der.pure_iff]
  exact ⟨h1.symm, rfl⟩

theorem derUintBytes_length (n : Nat) (h : n < 256 ^ 32) : (derUintBytes n).length ≤ 35 := by
  obtain ⟨-, h2, -⟩ := derUintBody_props n h
  rw [derUintBytes_eq]
  simp; omega

theorem p256n_bytes : p256n < 256 ^ 32 := by decide

/-- A signature is read back from its DER encoding. -/
theorem ecdsaSig_bytes (T : DerTags) (r s : Nat) (hr : 0 < r ∧ r < p256n) (hs : 0 < s ∧ s < p256n) :
    ecdsaSig T (ecdsaSigBytes r s) = some (r, s) ∧ (ecdsaSigBytes r s).length ≤ 72 := by
  have hr' := hr.2.trans p256n_bytes
  have hs' := hs.2.trans p256n_bytes
  have l1 := derUintBytes_length r hr'
  have l2 := derUintBytes_length s hs'
  refine ⟨?_, by simp [ecdsaSigBytes]; omega⟩
  have hbody : (do
      let r ← derUint T
      let s ← derUint T
      return (r, s) : Der (Nat × Nat)) (derUintBytes r ++ derUintBytes s) = some ((r, s), []) := by
    have := derUint_reads T s hs' []
    rw [List.append_nil] at this
    exact Der.bind_iff.2 ⟨_, _, derUint_reads T r hr' _, Der.bind_iff.2 ⟨_, _, this, rfl⟩⟩
  have := Der.elem_short T 0x30 _ (T.schema _ (by simp)) (derUintBytes r ++ derUintBytes s) [] (by simp; omega) hbody
  rw [List.append_nil] at this
  unfold ecdsaSig ecdsaSigBytes Der.inside
  simp only
  rw [this]
  simp only [hr, hs, and_self, if_true]

theorem rfc6979Loop_some {d z : Nat} : ∀ {fuel K V r s}, rfc6979Loop d z fuel K V = some (r, s) →
    ∃ k, 0 < k ∧ k < p256n ∧ r = (smul k p256g).affine.1 % p256n ∧ s = mmul p256n (minv p256n k) (z + r * d) ∧ r ≠ 0 ∧ s ≠ 0 := by
  intro fuel
  induction fuel with
  | zero => intro K V r s h; cases h
  | succ fuel ih =>
    intro K V r s h
    unfold rfc6979Loop at h
    simp only at h
    split at h
    · rename_i hc
      simp only [Option.some.injEq, Prod.mk.injEq] at h
      obtain ⟨rfl, rfl⟩ := h
      exact ⟨_, hc.1, hc.2.1, rfl, rfl, hc.2.2.1, hc.2.2.2⟩
    · exact ih h

/-- The public key of the secret scalar `d` as an uncompressed point. -/
def p256Key (d : Nat) : Bytes := sec1Encode (smul d p256g).affine

namespace Spec

/-- `sig` is a signature of the message `m` with the private key `d` (FIPS 186-4 section 6.4, RFC 3279 section 2.2.3): for
some nonce `k`, `r` is the first coordinate of `k G` modulo the order, `s` satisfies `s k = z + r d` modulo the order, with `z` the
SHA-256 hash, and `sig` is the DER encoding of `r` and `s`. -/
def EcdsaSigned (d : Nat) (m sig : Bytes) : Prop :=
  ∃ k r s, (0 < k ∧ k < p256n) ∧ (0 < r ∧ r < p256n) ∧ (0 < s ∧ s < p256n) ∧ (smul k p256g).affine.1 % p256n = r ∧
    s * k % p256n = (ofBE (sha256 m) + r * d) % p256n ∧ sig = ecdsaSigBytes r s

end Spec

theorem p256n_inverse {k : Nat} (h0 : 0 < k) (hk : k < p256n) :
    (k : ZMod p256n) ≠ 0 ∧ ((minv p256n k : Nat) : ZMod p256n) = (k : ZMod p256n)⁻¹ := by
  have kz : (k : ZMod p256n) ≠ 0 := by
    rw [Ne, ZMod.natCast_eq_zero_iff]
    exact fun h => h0.ne' (Nat.eq_zero_of_dvd_of_lt h hk)
  exact ⟨kz, (minv_cast p256n k p256n_lt).resolve_right kz⟩

/-- What is signed verifies under the public key, and is at most 72 bytes long. -/
theorem ecdsaSigned_verifies (T : DerTags) {d : Nat} (h0 : 0 < d) (hd : d < p256n) {m sig : Bytes}
    (h : Spec.EcdsaSigned d m sig) :
    ∃ r s, ecdsaSig T sig = some (r, s) ∧ ecdsaVerify (p256Key d) (sha256 m) r s = true ∧ sig.length ≤ 72 := by
  obtain ⟨k, r, s, hk, hr, hs, h1, h2, rfl⟩ := h
  obtain ⟨e1, e2⟩ := ecdsaSig_bytes T r s hr hs
  refine ⟨r, s, e1, ?_, e2⟩
  have ht : (sha256 m).take 32 = sha256 m := List.take_of_length_le (sha256_length m).le
  have hs2 : mmul p256n (minv p256n k) (ofBE ((sha256 m).take 32) + r * d) = s := by
    obtain ⟨kz, ki⟩ := p256n_inverse hk.1 hk.2
    rw [ht]
    have h3 := (ZMod.natCast_eq_natCast_iff' _ _ p256n).2 h2
    have h4 : ((mmul p256n (minv p256n k) (ofBE (sha256 m) + r * d) : Nat) : ZMod p256n) = (s : ZMod p256n) := by
      rw [mmul_cast, ki, ← h3]
      push_cast
      field_simp
    rw [ZMod.natCast_eq_natCast_iff'] at h4
    have hlt : mmul p256n (minv p256n k) (ofBE (sha256 m) + r * d) < p256n := Nat.mod_lt _ p256n_prime.pos
    rwa [Nat.mod_eq_of_lt hlt, Nat.mod_eq_of_lt hs.2] at h4
  have := ecdsa_correct d k (sha256 m) hd h0.ne' hk.2 hk.1.ne' (by rw [h1]; exact hr.1.ne')
    (by rw [h1, hs2]; exact hs.1.ne')
  rw [h1, hs2] at this
  exact this

/-- RFC 6979 gives such signatures. -/
theorem ecdsaSign_signed {d : Nat} {m sig : Bytes} (h : ecdsaSign d m = some sig) : Spec.EcdsaSigned d m sig := by
  unfold ecdsaSign at h
  simp only [Option.map_eq_some_iff] at h
  obtain ⟨⟨r, s⟩, h, rfl⟩ := h
  obtain ⟨k, k1, k2, k3, k4, k5, k6⟩ := rfc6979Loop_some h
  have hs : s < p256n := by rw [k4]; exact Nat.mod_lt _ p256n_prime.pos
  have hr : r < p256n := by rw [k3]; exact Nat.mod_lt _ p256n_prime.pos
  refine ⟨k, r, s, ⟨k1, k2⟩, ⟨Nat.pos_of_ne_zero k5, hr⟩, ⟨Nat.pos_of_ne_zero k6, hs⟩, k3.symm, ?_, rfl⟩
  obtain ⟨kz, ki⟩ := p256n_inverse k1 k2
  rw [← ZMod.natCast_eq_natCast_iff', k4]
  push_cast
  rw [mmul_cast, ki]
  push_cast
  field_simp

end ETls
