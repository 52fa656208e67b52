import Verif.Spec.Rsa
import Verif.Proofs.Primes
import Verif.Proofs.Sec1
import Mathlib.FieldTheory.Finite.Basic

/-! # RSA signatures verify (C128) -/

namespace ETls
open Crypto Spec

theorem Crypto.RsaPublic.pow_mod (k : RsaPublic) (s : Nat) (hn : 1 < k.n) (he : k.e < 2 ^ 34) : k.pow s = s ^ k.e % k.n := by
  have h := mpowAux_cast k.n s k.e 34 1
  rw [Nat.mod_eq_of_lt he] at h
  have hlt : k.pow s < k.n := mpowAux_lt _ _ _ _ _ (by omega) hn
  have : ((k.pow s : Nat) : ZMod k.n) = ((s ^ k.e : Nat) : ZMod k.n) := by
    push_cast
    simpa [RsaPublic.pow] using h
  rw [ZMod.natCast_eq_natCast_iff] at this
  rw [← this, Nat.mod_eq_of_lt hlt]

theorem fermat_pow {p : Nat} (hp : p.Prime) {x : Nat} (hx : x ≡ 1 [MOD p - 1]) (hx0 : x ≠ 0) (m : Nat) : m ^ x ≡ m [MOD p] := by
  have := Fact.mk hp
  rw [← ZMod.natCast_eq_natCast_iff]
  push_cast
  by_cases h0 : (m : ZMod p) = 0
  · rw [h0, zero_pow hx0]
  · have hle : 1 ≤ x := Nat.one_le_iff_ne_zero.2 hx0
    obtain ⟨t, ht⟩ := (Nat.modEq_iff_dvd' hle).1 hx.symm
    have : x = (p - 1) * t + 1 := by omega
    rw [this, pow_succ, pow_mul, ZMod.pow_card_sub_one_eq_one h0, one_pow, one_mul]

theorem Spec.IsRsaPair.exp_ne {k : RsaPublic} {d : Nat} (h : IsRsaPair k d) (hn : k.n % 2 = 1) : k.e * d ≠ 0 := by
  obtain ⟨p, q, hp, hq, hpq, hn', h1, h2⟩ := h.primes
  intro h0
  rw [h0] at h1
  have h3 : p - 1 = 1 := by
    have := (Nat.modEq_iff_dvd' (Nat.zero_le 1)).1 h1
    simpa using this
  have : p = 2 := by omega
  rw [hn', this] at hn
  omega

/-- Raising to `d` and to `e` is the identity below the modulus, in both orders. -/
theorem Spec.IsRsaPair.cancel {k : RsaPublic} {d : Nat} (h : IsRsaPair k d) (hn : k.n % 2 = 1) {m : Nat} (hm : m < k.n) :
    (m ^ d % k.n) ^ k.e % k.n = m ∧ (m ^ k.e % k.n) ^ d % k.n = m := by
  have h0 := h.exp_ne hn
  obtain ⟨p, q, hp, hq, hpq, hn', h1, h2⟩ := h.primes
  have hc : Nat.Coprime p q := (Nat.coprime_primes hp hq).2 hpq
  have key : m ^ (k.e * d) ≡ m [MOD k.n] := by
    rw [hn']
    exact (Nat.modEq_and_modEq_iff_modEq_mul hc).1 ⟨fermat_pow hp h1 h0 m, fermat_pow hq h2 h0 m⟩
  have key' : m ^ (k.e * d) % k.n = m := by rw [key, Nat.mod_eq_of_lt hm]
  constructor
  · rw [← Nat.pow_mod, ← pow_mul, mul_comm d]; exact key'
  · rw [← Nat.pow_mod, ← pow_mul]; exact key'

theorem Crypto.RsaPublic.n_bounds (k : RsaPublic) (hn : k.n ≠ 0) : 2 ^ (k.bits - 1) ≤ k.n ∧ k.n < 2 ^ k.bits :=
  ⟨Nat.log2_self_le hn, Nat.lt_log2_self⟩

theorem Crypto.RsaPublic.n_lt_size (k : RsaPublic) (hn : k.n ≠ 0) : k.n < 256 ^ k.size := by
  have h := (k.n_bounds hn).2
  refine lt_of_lt_of_le h ?_
  rw [show (256 : Nat) = 2 ^ 8 from rfl, ← pow_mul]
  exact Nat.pow_le_pow_right (by decide) (by unfold RsaPublic.size; omega)

theorem ofBE_append (a b : Bytes) : ofBE (a ++ b) = ofBE a * 256 ^ b.length + ofBE b := by
  rw [ofBE, List.foldl_append, foldl_BE]; rfl

theorem ofBE_lt_head (x : UInt8) (l : Bytes) : ofBE (x :: l) < (x.toNat + 1) * 256 ^ l.length := by
  have h := ofBE_append [x] l
  rw [List.singleton_append] at h
  have h2 := ofBE_lt l
  have : ofBE [x] = x.toNat := by simp [ofBE]
  rw [h, this, add_mul]
  omega

/-- What `rsaPublic` checks. -/
structure Crypto.RsaPublic.Ok (k : RsaPublic) : Prop where
  odd : k.n % 2 = 1
  exp : k.e < 2 ^ 33
  small : 2 ≤ k.e ∧ k.e < k.n

theorem rsaPublic_ok {T : DerTags} {bs : Bytes} {k : RsaPublic} (h : rsaPublic T bs = some k) : k.Ok := by
  unfold rsaPublic at h
  split at h
  · split at h
    · rename_i hc
      injection h with h
      subst h
      exact ⟨hc.2.1, hc.2.2.2.2.1, hc.2.2.2.1, hc.2.2.2.2.2⟩
    · cases h
  · cases h

theorem Crypto.RsaPublic.Ok.pow {k : RsaPublic} (h : k.Ok) (s : Nat) : k.pow s = s ^ k.e % k.n :=
  k.pow_mod s (by have := h.small; omega) (lt_trans h.exp (by decide))

/-- The signature of an encoded message below the modulus. -/
theorem rsa_recovers {k : RsaPublic} {d : Nat} (hk : k.Ok) (h : IsRsaPair k d) {em : Nat} (hem : em < k.n) :
    (toBE k.size (em ^ d % k.n)).length = k.size ∧ ofBE (toBE k.size (em ^ d % k.n)) < k.n ∧
      k.pow (ofBE (toBE k.size (em ^ d % k.n))) = em := by
  have hn : k.n ≠ 0 := by have := hk.small; omega
  have hlt : em ^ d % k.n < k.n := Nat.mod_lt _ (Nat.pos_of_ne_zero hn)
  rw [ofBE_toBE _ _ (lt_trans hlt (k.n_lt_size hn)), hk.pow]
  exact ⟨toBE_length _ _, hlt, (h.cancel hk.odd hem).1⟩

theorem pkcs1_em {k : RsaPublic} (hn : k.n ≠ 0) {rest : Bytes} (hl : ([0, 1] ++ rest : Bytes).length = k.size) :
    ofBE ([0, 1] ++ rest) < k.n := by
  have h := ofBE_append [0, 1] rest
  have h1 : ofBE ([0, 1] : Bytes) = 1 := by decide
  have h2 := ofBE_lt rest
  have h3 := (k.n_bounds hn).1
  have hl' : rest.length + 2 = k.size := by rw [List.length_append] at hl; simp only [List.length_cons, List.length_nil] at hl; omega
  have h4 : 2 * 256 ^ rest.length ≤ 2 ^ (k.bits - 1) := by
    rw [show (256 : Nat) = 2 ^ 8 from rfl, ← pow_mul, ← pow_succ']
    refine Nat.pow_le_pow_right (by decide) ?_
    unfold RsaPublic.size at hl'
    have : 1 ≤ k.bits := Nat.le_add_left _ _
    omega
  rw [h, h1]
  omega

theorem emsaPkcs1_eq {info digest : Bytes} {j n : Nat} (hj : 8 ≤ j)
    (hl : ([0, 1] ++ List.replicate j 0xff ++ [0] ++ info ++ digest : Bytes).length = n) :
    emsaPkcs1 info digest n = some ([0, 1] ++ List.replicate j 0xff ++ [0] ++ info ++ digest) := by
  simp only [List.length_append, List.length_cons, List.length_nil, List.length_replicate] at hl
  unfold emsaPkcs1
  simp only [List.length_append]
  rw [if_neg (by omega), show n - (info.length + digest.length) - 3 = j by omega]
  simp

/-- **C128** PKCS #1 v1.5 signatures verify. -/
theorem pkcs1_verifies {k : RsaPublic} {d : Nat} (hk : k.Ok) (h : IsRsaPair k d) {info digest sig : Bytes}
    (hs : Pkcs1Signed k d info digest sig) : k.pkcs1Verify info digest sig = true := by
  obtain ⟨j, hj, hl, rfl⟩ := hs
  have hn : k.n ≠ 0 := by have := hk.small; omega
  have hlt := pkcs1_em (rest := List.replicate j 0xff ++ [0] ++ info ++ digest) hn (by simpa using hl)
  rw [← List.append_assoc, ← List.append_assoc, ← List.append_assoc] at hlt
  obtain ⟨h1, h2, h3⟩ := rsa_recovers hk h hlt
  unfold RsaPublic.pkcs1Verify
  rw [h3, emsaPkcs1_eq hj hl]
  simp only [h1, h2, decide_true, Bool.true_and, decide_eq_true_eq]
  rw [← hl, toBE_ofBE]

theorem emsaPkcs1_some {info digest em : Bytes} {n : Nat} (h : emsaPkcs1 info digest n = some em) :
    ∃ j, 8 ≤ j ∧ em.length = n ∧ em = [0, 1] ++ List.replicate j 0xff ++ [0] ++ info ++ digest := by
  unfold emsaPkcs1 at h
  simp only at h
  split at h
  · cases h
  · rename_i hc
    injection h with h
    refine ⟨n - (info ++ digest).length - 3, by omega, ?_, ?_⟩
    · rw [← h]; simp only [List.length_cons, List.length_append, List.length_replicate] at *; omega
    · rw [← h]; simp

/-- **C128** and only those. -/
theorem pkcs1_only {k : RsaPublic} {d : Nat} (hk : k.Ok) (h : IsRsaPair k d) {info digest sig : Bytes}
    (hv : k.pkcs1Verify info digest sig = true) : Pkcs1Signed k d info digest sig := by
  unfold RsaPublic.pkcs1Verify at hv
  simp only [Bool.and_eq_true, decide_eq_true_eq] at hv
  obtain ⟨⟨h1, h2⟩, h3⟩ := hv
  obtain ⟨j, hj, hl, hem⟩ := emsaPkcs1_some h3
  have hn : k.n ≠ 0 := by have := hk.small; omega
  have hp : k.pow (ofBE sig) < k.n := by rw [hk.pow]; exact Nat.mod_lt _ (Nat.pos_of_ne_zero hn)
  refine ⟨j, hj, by rw [← hem]; exact hl, ?_⟩
  rw [← hem, ofBE_toBE _ _ (lt_trans hp (k.n_lt_size hn)), hk.pow, (h.cancel hk.odd h2).2, ← h1, toBE_ofBE]

/-! ## PSS -/

theorem length_flatMap_const {α : Type} (l : List α) (f : α → Bytes) (n : Nat) (h : ∀ a, (f a).length = n) :
    (l.flatMap f).length = l.length * n := by
  induction l with
  | nil => simp
  | cons a l ih => rw [List.flatMap_cons, List.length_append, ih, h, List.length_cons, Nat.succ_mul, add_comm]

theorem mgf1_length (H : Hash) (hH : 0 < H.len) (seed : Bytes) (len : Nat) : (H.mgf1 seed len).length = len := by
  unfold Hash.mgf1
  rw [List.length_take, length_flatMap_const _ _ H.len (fun _ => H.run_length _), List.length_range]
  refine Nat.min_eq_left ?_
  have := Nat.div_add_mod (len + H.len - 1) H.len
  have h2 := Nat.mod_lt (len + H.len - 1) hH
  rw [mul_comm] at this
  omega

theorem be32_eq (n : Nat) : be32 n = toBE 4 n := by
  unfold be32
  simp [toBE]

theorem mgfRounds_flatMap (H : Hash) (seed : Bytes) (n : Nat) :
    mgfRounds H seed n = (List.range n).flatMap fun i => H.run (seed ++ toBE 4 i) := by
  induction n with
  | zero => rfl
  | succ n ih => rw [mgfRounds, ih, be32_eq, List.range_succ, List.flatMap_append]; simp

theorem mgfRounds_length (H : Hash) (seed : Bytes) (n : Nat) : (mgfRounds H seed n).length = n * H.len := by
  rw [mgfRounds_flatMap, length_flatMap_const _ _ H.len (fun _ => H.run_length _), List.length_range]

theorem mgfRounds_prefix (H : Hash) (seed : Bytes) (n j : Nat) : mgfRounds H seed n <+: mgfRounds H seed (n + j) := by
  induction j with
  | zero => exact List.prefix_refl _
  | succ j ih => exact ih.trans (List.prefix_append _ _)

/-- Any number of rounds that gives enough bytes gives the same mask. -/
theorem mgfRounds_take (H : Hash) (seed : Bytes) (n r len : Nat) (h1 : len ≤ n * H.len) (h2 : len ≤ r * H.len) :
    (mgfRounds H seed n).take len = (mgfRounds H seed r).take len := by
  have aux : ∀ n j, len ≤ n * H.len → (mgfRounds H seed n).take len = (mgfRounds H seed (n + j)).take len := by
    intro n j h
    obtain ⟨t, ht⟩ := mgfRounds_prefix H seed n j
    rw [← ht, List.take_append_of_le_length (by rw [mgfRounds_length]; exact h)]
  rcases Nat.le_total n r with h | h
  · obtain ⟨j, rfl⟩ := Nat.exists_eq_add_of_le h; exact aux n j h1
  · obtain ⟨j, rfl⟩ := Nat.exists_eq_add_of_le h; exact (aux r j h2).symm

theorem mgf1_rounds (H : Hash) (hH : 0 < H.len) (seed : Bytes) (r len : Nat) (h : len ≤ r * H.len) :
    (mgfRounds H seed r).take len = H.mgf1 seed len := by
  have e : len ≤ (len + H.len - 1) / H.len * H.len := by
    have := Nat.div_add_mod (len + H.len - 1) H.len
    have h2 := Nat.mod_lt (len + H.len - 1) hH
    rw [mul_comm] at this
    omega
  rw [mgfRounds_take H seed r _ len h e, mgfRounds_flatMap]
  rfl

theorem zipWith_take_right (f : UInt8 → UInt8 → UInt8) (l m : Bytes) :
    List.zipWith f l m = List.zipWith f l (m.take l.length) := by
  induction l generalizing m with
  | nil => rfl
  | cons a l ih => cases m with
    | nil => rfl
    | cons b m => simp only [List.zipWith_cons_cons, List.length_cons, List.take_succ_cons]; rw [← ih]

theorem xor_rounds (H : Hash) (hH : 0 < H.len) (seed l : Bytes) (r len : Nat) (hl : l.length = len) (h : len ≤ r * H.len) :
    List.zipWith (· ^^^ ·) l (mgfRounds H seed r) = List.zipWith (· ^^^ ·) l (H.mgf1 seed len) := by
  rw [zipWith_take_right, hl, mgf1_rounds H hH seed r len h]

theorem clearTop_length (k : Nat) (l : Bytes) : (clearTop k l).length = l.length := by
  cases l <;> rfl

theorem and_twice (a m : UInt8) : (a &&& m) &&& m = a &&& m := by
  rw [UInt8.and_assoc, UInt8.and_self]

theorem clearTop_twice (k : Nat) (l : Bytes) : clearTop k (clearTop k l) = clearTop k l := by
  cases l with
  | nil => rfl
  | cons b r => simp only [clearTop, and_twice]

theorem xor_masked (a b m : UInt8) : (((a ^^^ b) &&& m) ^^^ b) &&& m = a &&& m := by
  apply UInt8.eq_of_toBitVec_eq
  simp only [UInt8.toBitVec_and, UInt8.toBitVec_xor]
  ext i hi
  simp only [BitVec.getElem_and, BitVec.getElem_xor]
  cases a.toBitVec[i] <;> cases b.toBitVec[i] <;> cases m.toBitVec[i] <;> rfl

theorem clearTop_xor (k : Nat) (db mask : Bytes) (h : db.length = mask.length) :
    clearTop k (List.zipWith (· ^^^ ·) (clearTop k (List.zipWith (· ^^^ ·) db mask)) mask) = clearTop k db := by
  cases db with
  | nil => rfl
  | cons a db =>
    cases mask with
    | nil => simp at h
    | cons b mask =>
      simp only [List.zipWith_cons_cons, clearTop, xor_masked]
      rw [zipWith_xor_cancel db mask (by simpa using h.le)]

theorem clearTop_db (k : Nat) (hk : k < 8) (ps : Nat) (salt : Bytes) :
    clearTop k (List.replicate ps 0 ++ [1] ++ salt) = List.replicate ps 0 ++ [1] ++ salt := by
  cases ps with
  | zero =>
    have : ∀ k, k < 8 → (1 : UInt8) &&& (255 >>> UInt8.ofNat k) = 1 := by decide
    simp [clearTop, this k hk]
  | succ ps =>
    simp [clearTop, List.replicate_succ]

theorem clearTop_lt (k : Nat) (hk : k < 8) (l r : Bytes) (hl : l ≠ []) :
    ofBE (clearTop k l ++ r) < 2 ^ (8 * (l.length + r.length) - k) := by
  cases l with
  | nil => exact absurd rfl hl
  | cons b l =>
    have h1 := ofBE_lt_head (b &&& (255 >>> UInt8.ofNat k)) (l ++ r)
    have h2 : (b &&& (255 >>> UInt8.ofNat k)).toNat + 1 ≤ 2 ^ (8 - k) := by
      have e : ∀ k, k < 8 → (255 >>> UInt8.ofNat k : UInt8).toNat + 1 = 2 ^ (8 - k) := by decide
      rw [UInt8.toNat_and]
      have := Nat.and_le_right (n := b.toNat) (m := (255 >>> UInt8.ofNat k : UInt8).toNat)
      have := e k hk
      omega
    refine lt_of_lt_of_le h1 (le_trans (Nat.mul_le_mul_right _ h2) ?_)
    rw [show (256 : Nat) = 2 ^ 8 from rfl, ← pow_mul, ← pow_add]
    refine Nat.pow_le_pow_right (by decide) ?_
    simp only [List.length_append, List.length_cons]
    omega

theorem pssEncoded_props {H : Hash} (hH : 0 < H.len) {m salt em : Bytes} {emBits : Nat} (hs : salt.length = H.len)
    (h : PssEncoded H m salt emBits em) :
    em.length = (emBits + 7) / 8 ∧ ofBE em < 2 ^ emBits ∧ H.pssVerify m em emBits = true := by
  obtain ⟨emLen, ps, rounds, h, h1, h2, h3, hr, rfl⟩ := h
  have hh : h.length = H.len := by rw [h3]; exact H.run_length _
  have hk : 8 * emLen - emBits < 8 := by omega
  have hdb : emLen - H.len - 1 = ps + 1 + H.len := by omega
  have hm : (H.mgf1 h (emLen - H.len - 1)).length = emLen - H.len - 1 := mgf1_length H hH _ _
  have hd : (List.replicate ps 0 ++ [1] ++ salt : Bytes).length = emLen - H.len - 1 := by simp; omega
  rw [xor_rounds H hH h _ rounds _ hd hr]
  have hz : (List.zipWith (· ^^^ ·) (List.replicate ps 0 ++ [1] ++ salt) (H.mgf1 h (emLen - H.len - 1)) : Bytes).length =
      emLen - H.len - 1 := by rw [List.length_zipWith, hm, hd, Nat.min_self]
  have hcz := (clearTop_length (8 * emLen - emBits) (List.zipWith (· ^^^ ·) (List.replicate ps 0 ++ [1] ++ salt)
    (H.mgf1 h (emLen - H.len - 1)))).trans hz
  refine ⟨?_, ?_, ?_⟩
  · rw [List.length_append, List.length_append, hcz, hh, List.length_singleton]; omega
  · rw [List.append_assoc]
    have h5 := clearTop_lt (8 * emLen - emBits) hk (List.zipWith (· ^^^ ·) (List.replicate ps 0 ++ [1] ++ salt)
      (H.mgf1 h (emLen - H.len - 1))) (h ++ [0xbc]) (by intro e; rw [e] at hz; simp at hz; omega)
    refine lt_of_lt_of_le h5 (Nat.pow_le_pow_right (by decide) ?_)
    rw [hz, List.length_append, hh, List.length_singleton]; omega
  · unfold Hash.pssVerify
    simp only [← h1]
    have e1 : ∀ X Y Z : Bytes, X.length = emLen - H.len - 1 → (X ++ Y ++ Z).take (emLen - H.len - 1) = X := by
      intro X Y Z hX; rw [List.append_assoc, ← hX, List.take_left]
    have e2 : ∀ X Y Z : Bytes, X.length = emLen - H.len - 1 → Y.length = H.len →
        ((X ++ Y ++ Z).drop (emLen - H.len - 1)).take H.len = Y := by
      intro X Y Z hX hY; rw [List.append_assoc, ← hX, List.drop_left, ← hY, List.take_left]
    rw [e1 _ _ _ hcz, e2 _ _ _ hcz hh, clearTop_xor _ _ _ (hd.trans hm.symm), clearTop_db _ hk, clearTop_twice]
    have e3 : emLen - H.len - 1 - H.len = (List.replicate ps (0 : UInt8) ++ [1]).length := by simp; omega
    have e4 : emLen - H.len - 1 - H.len - 1 = ps := by omega
    rw [e4, e3, List.take_left, List.drop_left]
    simp only [← h3, decide_true, Bool.and_true, Bool.and_eq_true, decide_eq_true_eq]
    exact ⟨by omega, by simp⟩

/-- **C128** PSS signatures verify. -/
theorem pss_verifies {k : RsaPublic} {d : Nat} (hk : k.Ok) (h : IsRsaPair k d) {H : Hash} (hH : 0 < H.len) {m sig : Bytes}
    (hs : PssSigned k d H m sig) : k.pssVerify H m sig = true := by
  obtain ⟨salt, em, h1, h2, rfl⟩ := hs
  obtain ⟨h3, h4, h5⟩ := pssEncoded_props hH h1 h2
  have hn : k.n ≠ 0 := by have := hk.small; omega
  obtain ⟨h6, h7, h8⟩ := rsa_recovers hk h (lt_of_lt_of_le h4 (k.n_bounds hn).1)
  unfold RsaPublic.pssVerify
  simp only [h6, h7, h8, decide_true, Bool.true_and, Bool.and_eq_true, decide_eq_true_eq]
  rw [← h3, toBE_ofBE]
  exact ⟨ofBE_lt em, h5⟩

theorem zipWith_clear (k : Nat) (masked mask : Bytes) (hl : masked.length = mask.length) (hc : clearTop k masked = masked) :
    clearTop k (List.zipWith (· ^^^ ·) (clearTop k (List.zipWith (· ^^^ ·) masked mask)) mask) = masked := by
  rw [clearTop_xor k masked mask hl, hc]

/-- **C128** and only those. -/
theorem pss_only {k : RsaPublic} {d : Nat} (hk : k.Ok) (h : IsRsaPair k d) {H : Hash} (hH : 0 < H.len) {m sig : Bytes}
    (hv : k.pssVerify H m sig = true) : PssSigned k d H m sig := by
  unfold RsaPublic.pssVerify at hv
  simp only [Bool.and_eq_true, decide_eq_true_eq] at hv
  obtain ⟨⟨⟨h1, h2⟩, h3⟩, h4⟩ := hv
  have hroot : sig = toBE k.size (k.pow (ofBE sig) ^ d % k.n) := by
    rw [hk.pow, (h.cancel hk.odd h2).2, ← h1, toBE_ofBE]
  generalize hx : k.pow (ofBE sig) = x at h3 h4 hroot
  unfold Hash.pssVerify at h4
  simp only [Bool.and_eq_true, decide_eq_true_eq] at h4
  generalize hem : toBE ((k.bits - 1 + 7) / 8) x = em at h4
  have hlen : em.length = (k.bits - 1 + 7) / 8 := by rw [← hem, toBE_length]
  have hof : ofBE em = x := by rw [← hem, ofBE_toBE _ _ h3]
  clear hem h3
  generalize hL : (k.bits - 1 + 7) / 8 = emLen at h4 hlen
  obtain ⟨⟨⟨⟨h5, h6⟩, h7⟩, h8⟩, h9⟩ := h4
  generalize hmask : em.take (emLen - H.len - 1) = masked at h7 h8 h9
  generalize hh : (em.drop (emLen - H.len - 1)).take H.len = h at h7 h8 h9
  have hml : masked.length = emLen - H.len - 1 := by rw [← hmask, List.length_take, hlen]; omega
  have hgl : (H.mgf1 h (emLen - H.len - 1)).length = emLen - H.len - 1 := mgf1_length H hH _ _
  generalize hdb : clearTop (8 * emLen - (k.bits - 1)) (List.zipWith (· ^^^ ·) masked (H.mgf1 h (emLen - H.len - 1))) = db at h8 h9
  have hdl : db.length = emLen - H.len - 1 := by rw [← hdb, clearTop_length, List.length_zipWith, hml, hgl, Nat.min_self]
  have hback : clearTop (8 * emLen - (k.bits - 1)) (List.zipWith (· ^^^ ·) db (H.mgf1 h (emLen - H.len - 1))) = masked := by
    rw [← hdb]; exact zipWith_clear _ _ _ (hml.trans hgl.symm) h7
  have hsalt : (db.drop (emLen - H.len - 1 - H.len)).length = H.len := by rw [List.length_drop, hdl]; omega
  have hlast : em = masked ++ h ++ [0xbc] := by
    have e1 : em = masked ++ (h ++ (em.drop (emLen - H.len - 1)).drop H.len) := by
      rw [← hh, List.take_append_drop, ← hmask, List.take_append_drop]
    have e2 : ((em.drop (emLen - H.len - 1)).drop H.len).length = 1 := by
      rw [List.length_drop, List.length_drop, hlen]; omega
    obtain ⟨b, hb⟩ := List.length_eq_one_iff.1 e2
    rw [hb] at e1
    rw [e1, ← List.append_assoc, List.getLast?_concat] at h6
    injection h6 with h6
    rw [e1, h6, List.append_assoc]
  have hr : emLen - H.len - 1 ≤ emLen * H.len :=
    le_trans (by omega : _ ≤ emLen * 1) (Nat.mul_le_mul_left _ hH)
  refine ⟨db.drop (emLen - H.len - 1 - H.len), em, hsalt,
    ⟨emLen, emLen - H.len - 1 - H.len - 1, emLen, h, hL.symm, by rw [hsalt]; omega, h9, hr, ?_⟩, by rw [hof]; exact hroot⟩
  rw [← h8, List.take_append_drop, xor_rounds H hH h db emLen _ hdl hr, hback]
  exact hlast

end ETls
