import Verif.Spec.P256
import Mathlib.NumberTheory.LucasPrimality
import Mathlib.Tactic.NormNum.Prime

/-! # The two numbers of P-256 are prime

`p256p` (the field) and `p256n` (the order of the base point), by Pratt certificates: a number is prime if some residue has
order one less than it. -/

namespace ETls.Crypto

theorem mmul_cast (m a b : Nat) : ((mmul m a b : Nat) : ZMod m) = a * b := by
  simp [mmul]

theorem mpowAux_cast (m a e n acc : Nat) :
    ((mpowAux m a e n acc : Nat) : ZMod m) = acc ^ 2 ^ n * a ^ (e % 2 ^ n) := by
  induction n generalizing acc with
  | zero => simp [mpowAux, Nat.mod_one]
  | succ n ih =>
    rw [mpowAux]
    simp only [eager_eq]
    have hb : e / 2 ^ n % 2 = (e.testBit n).toNat := (Nat.toNat_testBit e n).symm
    rw [ih, Nat.mod_pow_succ, hb]
    cases e.testBit n with
    | false => simp [mmul_cast, pow_succ, mul_pow]; ring
    | true => simp [mmul_cast, pow_succ, mul_pow, pow_add]; ring

theorem mpow_cast (m a e : Nat) (he : e < 2 ^ 256) : ((mpow m a e : Nat) : ZMod m) = a ^ e := by
  rw [mpow, mpowAux_cast, Nat.mod_eq_of_lt he]
  simp

theorem mpowAux_lt (m a e n acc : Nat) (hm : 0 < m) (h : acc < m) : mpowAux m a e n acc < m := by
  induction n generalizing acc with
  | zero => exact h
  | succ n ih =>
    rw [mpowAux]
    simp only [eager_eq]
    refine ih _ ?_
    split <;> exact Nat.mod_lt _ hm

theorem mpow_lt (m a e : Nat) (hm : 1 < m) : mpow m a e < m := mpowAux_lt m a e 256 1 (by omega) hm

/-- A Pratt certificate. -/
theorem pratt (p a : Nat) (fs : List Nat) (h1 : 1 < p) (hlt : p < 2 ^ 256) (hf : fs.prod = p - 1)
    (hp : ∀ q ∈ fs, q.Prime) (ha : mpow p a (p - 1) = 1) (hq : ∀ q ∈ fs, mpow p a ((p - 1) / q) ≠ 1) : p.Prime := by
  refine lucas_primality p (a : ZMod p) ?_ ?_
  · rw [← mpow_cast p a _ (by omega), ha, Nat.cast_one]
  · intro q hqp hd heq
    have hmem : q ∈ fs := by
      rw [← hf] at hd
      obtain ⟨r, hr, hdr⟩ := (Nat.Prime.prime hqp).dvd_prod_iff.mp hd
      rwa [(Nat.prime_dvd_prime_iff_eq hqp (hp r hr)).mp hdr]
    have hle : (p - 1) / q < 2 ^ 256 := Nat.lt_of_le_of_lt (Nat.div_le_self _ _) (by omega)
    rw [← mpow_cast p a _ hle] at heq
    refine hq q hmem ?_
    have : Fact (1 < p) := ⟨h1⟩
    have hv := congrArg ZMod.val heq
    rwa [ZMod.val_natCast_of_lt (mpow_lt p a _ h1), ZMod.val_one] at hv

set_option maxRecDepth 20000 in
theorem prime_9350987 : Nat.Prime 9350987 := by
  refine pratt _ 2 [2, 17, 229, 1201] (by decide +kernel) (by decide +kernel) (by decide +kernel) ?_ (by decide +kernel) (by decide +kernel)
  simp only [List.forall_mem_cons, List.not_mem_nil, false_imp_iff, implies_true, and_true]
  exact ⟨by norm_num, by norm_num, by norm_num, by norm_num⟩

set_option maxRecDepth 20000 in
theorem prime_187019741 : Nat.Prime 187019741 := by
  refine pratt _ 2 [2, 2, 5, 9350987] (by decide +kernel) (by decide +kernel) (by decide +kernel) ?_ (by decide +kernel) (by decide +kernel)
  simp only [List.forall_mem_cons, List.not_mem_nil, false_imp_iff, implies_true, and_true]
  exact ⟨by norm_num, by norm_num, by norm_num, prime_9350987⟩

set_option maxRecDepth 20000 in
theorem prime_311245691 : Nat.Prime 311245691 := by
  refine pratt _ 2 [2, 5, 7, 17, 29, 29, 311] (by decide +kernel) (by decide +kernel) (by decide +kernel) ?_ (by decide +kernel) (by decide +kernel)
  simp only [List.forall_mem_cons, List.not_mem_nil, false_imp_iff, implies_true, and_true]
  exact ⟨by norm_num, by norm_num, by norm_num, by norm_num, by norm_num, by norm_num, by norm_num⟩

set_option maxRecDepth 20000 in
theorem prime_622491383 : Nat.Prime 622491383 := by
  refine pratt _ 5 [2, 311245691] (by decide +kernel) (by decide +kernel) (by decide +kernel) ?_ (by decide +kernel) (by decide +kernel)
  simp only [List.forall_mem_cons, List.not_mem_nil, false_imp_iff, implies_true, and_true]
  exact ⟨by norm_num, prime_311245691⟩

set_option maxRecDepth 20000 in
theorem prime_126241 : Nat.Prime 126241 := by
  refine pratt _ 7 [2, 2, 2, 2, 2, 3, 5, 263] (by decide +kernel) (by decide +kernel) (by decide +kernel) ?_ (by decide +kernel) (by decide +kernel)
  simp only [List.forall_mem_cons, List.not_mem_nil, false_imp_iff, implies_true, and_true]
  exact ⟨by norm_num, by norm_num, by norm_num, by norm_num, by norm_num, by norm_num, by norm_num, by norm_num⟩

set_option maxRecDepth 20000 in
theorem prime_104471 : Nat.Prime 104471 := by
  refine pratt _ 11 [2, 5, 31, 337] (by decide +kernel) (by decide +kernel) (by decide +kernel) ?_ (by decide +kernel) (by decide +kernel)
  simp only [List.forall_mem_cons, List.not_mem_nil, false_imp_iff, implies_true, and_true]
  exact ⟨by norm_num, by norm_num, by norm_num, by norm_num⟩

set_option maxRecDepth 20000 in
theorem prime_3969899 : Nat.Prime 3969899 := by
  refine pratt _ 2 [2, 19, 104471] (by decide +kernel) (by decide +kernel) (by decide +kernel) ?_ (by decide +kernel) (by decide +kernel)
  simp only [List.forall_mem_cons, List.not_mem_nil, false_imp_iff, implies_true, and_true]
  exact ⟨by norm_num, by norm_num, prime_104471⟩

set_option maxRecDepth 20000 in
theorem prime_1002328039319 : Nat.Prime 1002328039319 := by
  refine pratt _ 19 [2, 126241, 3969899] (by decide +kernel) (by decide +kernel) (by decide +kernel) ?_ (by decide +kernel) (by decide +kernel)
  simp only [List.forall_mem_cons, List.not_mem_nil, false_imp_iff, implies_true, and_true]
  exact ⟨by norm_num, prime_126241, prime_3969899⟩

set_option maxRecDepth 20000 in
theorem prime_155317 : Nat.Prime 155317 := by
  refine pratt _ 5 [2, 2, 3, 7, 43, 43] (by decide +kernel) (by decide +kernel) (by decide +kernel) ?_ (by decide +kernel) (by decide +kernel)
  simp only [List.forall_mem_cons, List.not_mem_nil, false_imp_iff, implies_true, and_true]
  exact ⟨by norm_num, by norm_num, by norm_num, by norm_num, by norm_num, by norm_num⟩

set_option maxRecDepth 20000 in
theorem prime_191039911 : Nat.Prime 191039911 := by
  refine pratt _ 3 [2, 3, 5, 41, 155317] (by decide +kernel) (by decide +kernel) (by decide +kernel) ?_ (by decide +kernel) (by decide +kernel)
  simp only [List.forall_mem_cons, List.not_mem_nil, false_imp_iff, implies_true, and_true]
  exact ⟨by norm_num, by norm_num, by norm_num, by norm_num, prime_155317⟩

set_option maxRecDepth 20000 in
theorem prime_208150935158385979 : Nat.Prime 208150935158385979 := by
  refine pratt _ 2 [2, 3, 11, 43, 127, 3023, 191039911] (by decide +kernel) (by decide +kernel) (by decide +kernel) ?_ (by decide +kernel) (by decide +kernel)
  simp only [List.forall_mem_cons, List.not_mem_nil, false_imp_iff, implies_true, and_true]
  exact ⟨by norm_num, by norm_num, by norm_num, by norm_num, by norm_num, by norm_num, prime_191039911⟩

set_option maxRecDepth 20000 in
theorem prime_2624747550333869278416773953 : Nat.Prime 2624747550333869278416773953 := by
  refine pratt _ 7 [2, 2, 2, 2, 2, 2, 3, 3, 1297, 16879, 208150935158385979] (by decide +kernel) (by decide +kernel) (by decide +kernel) ?_ (by decide +kernel) (by decide +kernel)
  simp only [List.forall_mem_cons, List.not_mem_nil, false_imp_iff, implies_true, and_true]
  exact ⟨by norm_num, by norm_num, by norm_num, by norm_num, by norm_num, by norm_num, by norm_num, by norm_num, by norm_num, by norm_num, prime_208150935158385979⟩

set_option maxRecDepth 20000 in
theorem p256n_prime : Nat.Prime p256n := by
  refine pratt _ 7 [2, 2, 2, 2, 3, 71, 131, 373, 3407, 17449, 38189, 187019741, 622491383, 1002328039319, 2624747550333869278416773953] (by decide +kernel) (by decide +kernel) (by decide +kernel) ?_ (by decide +kernel) (by decide +kernel)
  simp only [List.forall_mem_cons, List.not_mem_nil, false_imp_iff, implies_true, and_true]
  exact ⟨by norm_num, by norm_num, by norm_num, by norm_num, by norm_num, by norm_num, by norm_num, by norm_num, by norm_num, by norm_num, by norm_num, prime_187019741, prime_622491383, prime_1002328039319, prime_2624747550333869278416773953⟩

set_option maxRecDepth 20000 in
theorem prime_490463 : Nat.Prime 490463 := by
  refine pratt _ 14 [2, 7, 53, 661] (by decide +kernel) (by decide +kernel) (by decide +kernel) ?_ (by decide +kernel) (by decide +kernel)
  simp only [List.forall_mem_cons, List.not_mem_nil, false_imp_iff, implies_true, and_true]
  exact ⟨by norm_num, by norm_num, by norm_num, by norm_num⟩

set_option maxRecDepth 20000 in
theorem prime_6700417 : Nat.Prime 6700417 := by
  refine pratt _ 5 [2, 2, 2, 2, 2, 2, 2, 3, 17449] (by decide +kernel) (by decide +kernel) (by decide +kernel) ?_ (by decide +kernel) (by decide +kernel)
  simp only [List.forall_mem_cons, List.not_mem_nil, false_imp_iff, implies_true, and_true]
  exact ⟨by norm_num, by norm_num, by norm_num, by norm_num, by norm_num, by norm_num, by norm_num, by norm_num, by norm_num⟩

set_option maxRecDepth 20000 in
theorem prime_204061199 : Nat.Prime 204061199 := by
  refine pratt _ 11 [2, 11, 23, 107, 3769] (by decide +kernel) (by decide +kernel) (by decide +kernel) ?_ (by decide +kernel) (by decide +kernel)
  simp only [List.forall_mem_cons, List.not_mem_nil, false_imp_iff, implies_true, and_true]
  exact ⟨by norm_num, by norm_num, by norm_num, by norm_num, by norm_num⟩

set_option maxRecDepth 20000 in
theorem prime_34282281433 : Nat.Prime 34282281433 := by
  refine pratt _ 17 [2, 2, 2, 3, 7, 204061199] (by decide +kernel) (by decide +kernel) (by decide +kernel) ?_ (by decide +kernel) (by decide +kernel)
  simp only [List.forall_mem_cons, List.not_mem_nil, false_imp_iff, implies_true, and_true]
  exact ⟨by norm_num, by norm_num, by norm_num, by norm_num, by norm_num, prime_204061199⟩

set_option maxRecDepth 20000 in
theorem prime_66417393611 : Nat.Prime 66417393611 := by
  refine pratt _ 6 [2, 5, 53, 173, 197, 3677] (by decide +kernel) (by decide +kernel) (by decide +kernel) ?_ (by decide +kernel) (by decide +kernel)
  simp only [List.forall_mem_cons, List.not_mem_nil, false_imp_iff, implies_true, and_true]
  exact ⟨by norm_num, by norm_num, by norm_num, by norm_num, by norm_num, by norm_num⟩

set_option maxRecDepth 20000 in
theorem prime_11290956913871 : Nat.Prime 11290956913871 := by
  refine pratt _ 13 [2, 5, 17, 66417393611] (by decide +kernel) (by decide +kernel) (by decide +kernel) ?_ (by decide +kernel) (by decide +kernel)
  simp only [List.forall_mem_cons, List.not_mem_nil, false_imp_iff, implies_true, and_true]
  exact ⟨by norm_num, by norm_num, by norm_num, prime_66417393611⟩

set_option maxRecDepth 20000 in
theorem prime_704251 : Nat.Prime 704251 := by
  refine pratt _ 2 [2, 3, 3, 5, 5, 5, 313] (by decide +kernel) (by decide +kernel) (by decide +kernel) ?_ (by decide +kernel) (by decide +kernel)
  simp only [List.forall_mem_cons, List.not_mem_nil, false_imp_iff, implies_true, and_true]
  exact ⟨by norm_num, by norm_num, by norm_num, by norm_num, by norm_num, by norm_num, by norm_num⟩

set_option maxRecDepth 20000 in
theorem prime_46076956964474543 : Nat.Prime 46076956964474543 := by
  refine pratt _ 5 [2, 23, 18169, 78283, 704251] (by decide +kernel) (by decide +kernel) (by decide +kernel) ?_ (by decide +kernel) (by decide +kernel)
  simp only [List.forall_mem_cons, List.not_mem_nil, false_imp_iff, implies_true, and_true]
  exact ⟨by norm_num, by norm_num, by norm_num, by norm_num, prime_704251⟩

set_option maxRecDepth 20000 in
theorem prime_774023187263532362759620327192479577272145303 : Nat.Prime 774023187263532362759620327192479577272145303 := by
  refine pratt _ 3 [2, 3, 3, 2411, 34282281433, 11290956913871, 46076956964474543] (by decide +kernel) (by decide +kernel) (by decide +kernel) ?_ (by decide +kernel) (by decide +kernel)
  simp only [List.forall_mem_cons, List.not_mem_nil, false_imp_iff, implies_true, and_true]
  exact ⟨by norm_num, by norm_num, by norm_num, by norm_num, prime_34282281433, prime_11290956913871, prime_46076956964474543⟩

set_option maxRecDepth 20000 in
theorem prime_835945042244614951780389953367877943453916927241 : Nat.Prime 835945042244614951780389953367877943453916927241 := by
  refine pratt _ 11 [2, 2, 2, 3, 3, 3, 5, 774023187263532362759620327192479577272145303] (by decide +kernel) (by decide +kernel) (by decide +kernel) ?_ (by decide +kernel) (by decide +kernel)
  simp only [List.forall_mem_cons, List.not_mem_nil, false_imp_iff, implies_true, and_true]
  exact ⟨by norm_num, by norm_num, by norm_num, by norm_num, by norm_num, by norm_num, by norm_num, prime_774023187263532362759620327192479577272145303⟩

set_option maxRecDepth 20000 in
theorem p256p_prime : Nat.Prime p256p := by
  refine pratt _ 6 [2, 3, 5, 5, 17, 257, 641, 1531, 65537, 490463, 6700417, 835945042244614951780389953367877943453916927241] (by decide +kernel) (by decide +kernel) (by decide +kernel) ?_ (by decide +kernel) (by decide +kernel)
  simp only [List.forall_mem_cons, List.not_mem_nil, false_imp_iff, implies_true, and_true]
  exact ⟨by norm_num, by norm_num, by norm_num, by norm_num, by norm_num, by norm_num, by norm_num, by norm_num, by norm_num, prime_490463, prime_6700417, prime_835945042244614951780389953367877943453916927241⟩

end ETls.Crypto
