import Verif.Proofs.Primes
import Verif.Spec.P384

/-! # The prime numbers of P-384 -/

namespace ETls.Crypto.P384

theorem mpow_cast (m a e : Nat) (he : e < 2 ^ 384) : ((mpow m a e : Nat) : ZMod m) = a ^ e := by
  rw [mpow, mpowAux_cast, Nat.mod_eq_of_lt he]
  simp

theorem mpow_lt (m a e : Nat) (hm : 1 < m) : mpow m a e < m := mpowAux_lt m a e 384 1 (by omega) hm

/-- A Pratt certificate. -/
theorem pratt (p a : Nat) (fs : List Nat) (h1 : 1 < p) (hlt : p < 2 ^ 384) (hf : fs.prod = p - 1)
    (hp : ∀ q ∈ fs, q.Prime) (ha : mpow p a (p - 1) = 1) (hq : ∀ q ∈ fs, mpow p a ((p - 1) / q) ≠ 1) : p.Prime := by
  refine lucas_primality p (a : ZMod p) ?_ ?_
  · rw [← mpow_cast p a _ (by omega), ha, Nat.cast_one]
  · intro q hqp hd heq
    have hmem : q ∈ fs := by
      rw [← hf] at hd
      obtain ⟨r, hr, hdr⟩ := (Nat.Prime.prime hqp).dvd_prod_iff.mp hd
      rwa [(Nat.prime_dvd_prime_iff_eq hqp (hp r hr)).mp hdr]
    have hle : (p - 1) / q < 2 ^ 384 := Nat.lt_of_le_of_lt (Nat.div_le_self _ _) (by omega)
    rw [← mpow_cast p a _ hle] at heq
    refine hq q hmem ?_
    have : Fact (1 < p) := ⟨h1⟩
    have hv := congrArg ZMod.val heq
    rwa [ZMod.val_natCast_of_lt (mpow_lt p a _ h1), ZMod.val_one] at hv

set_option maxRecDepth 20000 in
theorem prime_2862218959 : Nat.Prime 2862218959 := by
  refine pratt _ 3 [2, 3, 157, 1373, 2213] (by decide +kernel) (by decide +kernel) (by decide +kernel) ?_ (by decide +kernel) (by decide +kernel)
  simp only [List.forall_mem_cons, List.not_mem_nil, false_imp_iff, implies_true, and_true]
  exact ⟨by norm_num, by norm_num, by norm_num, by norm_num, by norm_num⟩

set_option maxRecDepth 20000 in
theorem prime_807145746439 : Nat.Prime 807145746439 := by
  refine pratt _ 3 [2, 3, 47, 2862218959] (by decide +kernel) (by decide +kernel) (by decide +kernel) ?_ (by decide +kernel) (by decide +kernel)
  simp only [List.forall_mem_cons, List.not_mem_nil, false_imp_iff, implies_true, and_true]
  exact ⟨by norm_num, by norm_num, by norm_num, prime_2862218959⟩

set_option maxRecDepth 20000 in
theorem prime_312289 : Nat.Prime 312289 := by
  refine pratt _ 14 [2, 2, 2, 2, 2, 3, 3253] (by decide +kernel) (by decide +kernel) (by decide +kernel) ?_ (by decide +kernel) (by decide +kernel)
  simp only [List.forall_mem_cons, List.not_mem_nil, false_imp_iff, implies_true, and_true]
  exact ⟨by norm_num, by norm_num, by norm_num, by norm_num, by norm_num, by norm_num, by norm_num⟩

set_option maxRecDepth 20000 in
theorem prime_513928823 : Nat.Prime 513928823 := by
  refine pratt _ 5 [2, 11, 59, 599, 661] (by decide +kernel) (by decide +kernel) (by decide +kernel) ?_ (by decide +kernel) (by decide +kernel)
  simp only [List.forall_mem_cons, List.not_mem_nil, false_imp_iff, implies_true, and_true]
  exact ⟨by norm_num, by norm_num, by norm_num, by norm_num, by norm_num⟩

set_option maxRecDepth 20000 in
theorem prime_53448597593 : Nat.Prime 53448597593 := by
  refine pratt _ 3 [2, 2, 2, 13, 513928823] (by decide +kernel) (by decide +kernel) (by decide +kernel) ?_ (by decide +kernel) (by decide +kernel)
  simp only [List.forall_mem_cons, List.not_mem_nil, false_imp_iff, implies_true, and_true]
  exact ⟨by norm_num, by norm_num, by norm_num, by norm_num, prime_513928823⟩

set_option maxRecDepth 20000 in
theorem prime_1357291859799823621 : Nat.Prime 1357291859799823621 := by
  refine pratt _ 2 [2, 2, 3, 5, 67, 6317, 53448597593] (by decide +kernel) (by decide +kernel) (by decide +kernel) ?_ (by decide +kernel) (by decide +kernel)
  simp only [List.forall_mem_cons, List.not_mem_nil, false_imp_iff, implies_true, and_true]
  exact ⟨by norm_num, by norm_num, by norm_num, by norm_num, by norm_num, by norm_num, prime_53448597593⟩

set_option maxRecDepth 20000 in
theorem prime_105957871 : Nat.Prime 105957871 := by
  refine pratt _ 3 [2, 3, 5, 19, 211, 881] (by decide +kernel) (by decide +kernel) (by decide +kernel) ?_ (by decide +kernel) (by decide +kernel)
  simp only [List.forall_mem_cons, List.not_mem_nil, false_imp_iff, implies_true, and_true]
  exact ⟨by norm_num, by norm_num, by norm_num, by norm_num, by norm_num, by norm_num⟩

set_option maxRecDepth 20000 in
theorem prime_246608641 : Nat.Prime 246608641 := by
  refine pratt _ 19 [2, 2, 2, 2, 2, 2, 2, 2, 3, 3, 5, 21407] (by decide +kernel) (by decide +kernel) (by decide +kernel) ?_ (by decide +kernel) (by decide +kernel)
  simp only [List.forall_mem_cons, List.not_mem_nil, false_imp_iff, implies_true, and_true]
  exact ⟨by norm_num, by norm_num, by norm_num, by norm_num, by norm_num, by norm_num, by norm_num, by norm_num, by norm_num, by norm_num, by norm_num, by norm_num⟩

set_option maxRecDepth 20000 in
theorem prime_529709925838459440593 : Nat.Prime 529709925838459440593 := by
  refine pratt _ 3 [2, 2, 2, 2, 7, 181, 105957871, 246608641] (by decide +kernel) (by decide +kernel) (by decide +kernel) ?_ (by decide +kernel) (by decide +kernel)
  simp only [List.forall_mem_cons, List.not_mem_nil, false_imp_iff, implies_true, and_true]
  exact ⟨by norm_num, by norm_num, by norm_num, by norm_num, by norm_num, by norm_num, prime_105957871, prime_246608641⟩

set_option maxRecDepth 20000 in
theorem prime_6051631 : Nat.Prime 6051631 := by
  refine pratt _ 6 [2, 3, 5, 13, 59, 263] (by decide +kernel) (by decide +kernel) (by decide +kernel) ?_ (by decide +kernel) (by decide +kernel)
  simp only [List.forall_mem_cons, List.not_mem_nil, false_imp_iff, implies_true, and_true]
  exact ⟨by norm_num, by norm_num, by norm_num, by norm_num, by norm_num, by norm_num⟩

set_option maxRecDepth 20000 in
theorem prime_336757 : Nat.Prime 336757 := by
  refine pratt _ 2 [2, 2, 3, 7, 19, 211] (by decide +kernel) (by decide +kernel) (by decide +kernel) ?_ (by decide +kernel) (by decide +kernel)
  simp only [List.forall_mem_cons, List.not_mem_nil, false_imp_iff, implies_true, and_true]
  exact ⟨by norm_num, by norm_num, by norm_num, by norm_num, by norm_num, by norm_num⟩

set_option maxRecDepth 20000 in
theorem prime_568151 : Nat.Prime 568151 := by
  refine pratt _ 17 [2, 5, 5, 11, 1033] (by decide +kernel) (by decide +kernel) (by decide +kernel) ?_ (by decide +kernel) (by decide +kernel)
  simp only [List.forall_mem_cons, List.not_mem_nil, false_imp_iff, implies_true, and_true]
  exact ⟨by norm_num, by norm_num, by norm_num, by norm_num, by norm_num⟩

set_option maxRecDepth 20000 in
theorem prime_363557 : Nat.Prime 363557 := by
  refine pratt _ 2 [2, 2, 97, 937] (by decide +kernel) (by decide +kernel) (by decide +kernel) ?_ (by decide +kernel) (by decide +kernel)
  simp only [List.forall_mem_cons, List.not_mem_nil, false_imp_iff, implies_true, and_true]
  exact ⟨by norm_num, by norm_num, by norm_num, by norm_num⟩

set_option maxRecDepth 20000 in
theorem prime_532247449 : Nat.Prime 532247449 := by
  refine pratt _ 7 [2, 2, 2, 3, 61, 363557] (by decide +kernel) (by decide +kernel) (by decide +kernel) ?_ (by decide +kernel) (by decide +kernel)
  simp only [List.forall_mem_cons, List.not_mem_nil, false_imp_iff, implies_true, and_true]
  exact ⟨by norm_num, by norm_num, by norm_num, by norm_num, by norm_num, prime_363557⟩

set_option maxRecDepth 20000 in
theorem prime_44925942675193 : Nat.Prime 44925942675193 := by
  refine pratt _ 5 [2, 2, 2, 3, 3517, 532247449] (by decide +kernel) (by decide +kernel) (by decide +kernel) ?_ (by decide +kernel) (by decide +kernel)
  simp only [List.forall_mem_cons, List.not_mem_nil, false_imp_iff, implies_true, and_true]
  exact ⟨by norm_num, by norm_num, by norm_num, by norm_num, by norm_num, prime_532247449⟩

set_option maxRecDepth 20000 in
theorem prime_35581458644053887931343 : Nat.Prime 35581458644053887931343 := by
  refine pratt _ 5 [2, 17, 41, 568151, 44925942675193] (by decide +kernel) (by decide +kernel) (by decide +kernel) ?_ (by decide +kernel) (by decide +kernel)
  simp only [List.forall_mem_cons, List.not_mem_nil, false_imp_iff, implies_true, and_true]
  exact ⟨by norm_num, by norm_num, by norm_num, prime_568151, prime_44925942675193⟩

set_option maxRecDepth 20000 in
theorem prime_23964610537191310276190549303 : Nat.Prime 23964610537191310276190549303 := by
  refine pratt _ 5 [2, 336757, 35581458644053887931343] (by decide +kernel) (by decide +kernel) (by decide +kernel) ?_ (by decide +kernel) (by decide +kernel)
  simp only [List.forall_mem_cons, List.not_mem_nil, false_imp_iff, implies_true, and_true]
  exact ⟨by norm_num, prime_336757, prime_35581458644053887931343⟩

set_option maxRecDepth 20000 in
theorem prime_862725979338887169942859774909 : Nat.Prime 862725979338887169942859774909 := by
  refine pratt _ 2 [2, 2, 3, 3, 23964610537191310276190549303] (by decide +kernel) (by decide +kernel) (by decide +kernel) ?_ (by decide +kernel) (by decide +kernel)
  simp only [List.forall_mem_cons, List.not_mem_nil, false_imp_iff, implies_true, and_true]
  exact ⟨by norm_num, by norm_num, by norm_num, by norm_num, prime_23964610537191310276190549303⟩

set_option maxRecDepth 20000 in
theorem prime_20705423504133292078628634597817 : Nat.Prime 20705423504133292078628634597817 := by
  refine pratt _ 5 [2, 2, 2, 3, 862725979338887169942859774909] (by decide +kernel) (by decide +kernel) (by decide +kernel) ?_ (by decide +kernel) (by decide +kernel)
  simp only [List.forall_mem_cons, List.not_mem_nil, false_imp_iff, implies_true, and_true]
  exact ⟨by norm_num, by norm_num, by norm_num, by norm_num, prime_862725979338887169942859774909⟩

set_option maxRecDepth 20000 in
theorem prime_413244619895455989650825325680172591660047 : Nat.Prime 413244619895455989650825325680172591660047 := by
  refine pratt _ 5 [2, 17, 97, 6051631, 20705423504133292078628634597817] (by decide +kernel) (by decide +kernel) (by decide +kernel) ?_ (by decide +kernel) (by decide +kernel)
  simp only [List.forall_mem_cons, List.not_mem_nil, false_imp_iff, implies_true, and_true]
  exact ⟨by norm_num, by norm_num, by norm_num, prime_6051631, prime_20705423504133292078628634597817⟩

set_option maxRecDepth 20000 in
theorem prime_12397338596863679689524759770405177749801411 : Nat.Prime 12397338596863679689524759770405177749801411 := by
  refine pratt _ 2 [2, 3, 5, 413244619895455989650825325680172591660047] (by decide +kernel) (by decide +kernel) (by decide +kernel) ?_ (by decide +kernel) (by decide +kernel)
  simp only [List.forall_mem_cons, List.not_mem_nil, false_imp_iff, implies_true, and_true]
  exact ⟨by norm_num, by norm_num, by norm_num, prime_413244619895455989650825325680172591660047⟩

set_option maxRecDepth 20000 in
theorem prime_19173790298027098165721053155794528970226934547887232785722672956982046098136719667167519737147526097 : Nat.Prime 19173790298027098165721053155794528970226934547887232785722672956982046098136719667167519737147526097 := by
  refine pratt _ 3 [2, 2, 2, 2, 11, 11, 11, 8389, 38557, 312289, 1357291859799823621, 529709925838459440593, 12397338596863679689524759770405177749801411] (by decide +kernel) (by decide +kernel) (by decide +kernel) ?_ (by decide +kernel) (by decide +kernel)
  simp only [List.forall_mem_cons, List.not_mem_nil, false_imp_iff, implies_true, and_true]
  exact ⟨by norm_num, by norm_num, by norm_num, by norm_num, by norm_num, by norm_num, by norm_num, by norm_num, by norm_num, prime_312289, prime_1357291859799823621, prime_529709925838459440593, prime_12397338596863679689524759770405177749801411⟩

set_option maxRecDepth 20000 in
theorem p384p_prime : Nat.Prime p384p := by
  refine pratt _ 19 [2, 19, 67, 807145746439, 19173790298027098165721053155794528970226934547887232785722672956982046098136719667167519737147526097] (by decide +kernel) (by decide +kernel) (by decide +kernel) ?_ (by decide +kernel) (by decide +kernel)
  simp only [List.forall_mem_cons, List.not_mem_nil, false_imp_iff, implies_true, and_true]
  exact ⟨by norm_num, by norm_num, by norm_num, prime_807145746439, prime_19173790298027098165721053155794528970226934547887232785722672956982046098136719667167519737147526097⟩

set_option maxRecDepth 20000 in
theorem prime_455737 : Nat.Prime 455737 := by
  refine pratt _ 11 [2, 2, 2, 3, 17, 1117] (by decide +kernel) (by decide +kernel) (by decide +kernel) ?_ (by decide +kernel) (by decide +kernel)
  simp only [List.forall_mem_cons, List.not_mem_nil, false_imp_iff, implies_true, and_true]
  exact ⟨by norm_num, by norm_num, by norm_num, by norm_num, by norm_num, by norm_num⟩

set_option maxRecDepth 20000 in
theorem prime_154950581 : Nat.Prime 154950581 := by
  refine pratt _ 2 [2, 2, 5, 17, 455737] (by decide +kernel) (by decide +kernel) (by decide +kernel) ?_ (by decide +kernel) (by decide +kernel)
  simp only [List.forall_mem_cons, List.not_mem_nil, false_imp_iff, implies_true, and_true]
  exact ⟨by norm_num, by norm_num, by norm_num, by norm_num, prime_455737⟩

set_option maxRecDepth 20000 in
theorem prime_290064143 : Nat.Prime 290064143 := by
  refine pratt _ 5 [2, 79, 491, 3739] (by decide +kernel) (by decide +kernel) (by decide +kernel) ?_ (by decide +kernel) (by decide +kernel)
  simp only [List.forall_mem_cons, List.not_mem_nil, false_imp_iff, implies_true, and_true]
  exact ⟨by norm_num, by norm_num, by norm_num, by norm_num⟩

set_option maxRecDepth 20000 in
theorem prime_120699720968197491947347 : Nat.Prime 120699720968197491947347 := by
  refine pratt _ 3 [2, 3, 13, 34429, 154950581, 290064143] (by decide +kernel) (by decide +kernel) (by decide +kernel) ?_ (by decide +kernel) (by decide +kernel)
  simp only [List.forall_mem_cons, List.not_mem_nil, false_imp_iff, implies_true, and_true]
  exact ⟨by norm_num, by norm_num, by norm_num, by norm_num, prime_154950581, prime_290064143⟩

set_option maxRecDepth 20000 in
theorem prime_1124679999981664229965379347 : Nat.Prime 1124679999981664229965379347 := by
  refine pratt _ 2 [2, 3, 1553, 120699720968197491947347] (by decide +kernel) (by decide +kernel) (by decide +kernel) ?_ (by decide +kernel) (by decide +kernel)
  simp only [List.forall_mem_cons, List.not_mem_nil, false_imp_iff, implies_true, and_true]
  exact ⟨by norm_num, by norm_num, by norm_num, prime_120699720968197491947347⟩

set_option maxRecDepth 20000 in
theorem prime_1276987 : Nat.Prime 1276987 := by
  refine pratt _ 2 [2, 3, 29, 41, 179] (by decide +kernel) (by decide +kernel) (by decide +kernel) ?_ (by decide +kernel) (by decide +kernel)
  simp only [List.forall_mem_cons, List.not_mem_nil, false_imp_iff, implies_true, and_true]
  exact ⟨by norm_num, by norm_num, by norm_num, by norm_num, by norm_num⟩

set_option maxRecDepth 20000 in
theorem prime_330563 : Nat.Prime 330563 := by
  refine pratt _ 2 [2, 19, 8699] (by decide +kernel) (by decide +kernel) (by decide +kernel) ?_ (by decide +kernel) (by decide +kernel)
  simp only [List.forall_mem_cons, List.not_mem_nil, false_imp_iff, implies_true, and_true]
  exact ⟨by norm_num, by norm_num, by norm_num⟩

set_option maxRecDepth 20000 in
theorem prime_1436833069313 : Nat.Prime 1436833069313 := by
  refine pratt _ 3 [2, 2, 2, 2, 2, 2, 2, 2, 16979, 330563] (by decide +kernel) (by decide +kernel) (by decide +kernel) ?_ (by decide +kernel) (by decide +kernel)
  simp only [List.forall_mem_cons, List.not_mem_nil, false_imp_iff, implies_true, and_true]
  exact ⟨by norm_num, by norm_num, by norm_num, by norm_num, by norm_num, by norm_num, by norm_num, by norm_num, by norm_num, prime_330563⟩

set_option maxRecDepth 20000 in
theorem prime_248431 : Nat.Prime 248431 := by
  refine pratt _ 3 [2, 3, 5, 7, 7, 13, 13] (by decide +kernel) (by decide +kernel) (by decide +kernel) ?_ (by decide +kernel) (by decide +kernel)
  simp only [List.forall_mem_cons, List.not_mem_nil, false_imp_iff, implies_true, and_true]
  exact ⟨by norm_num, by norm_num, by norm_num, by norm_num, by norm_num, by norm_num, by norm_num⟩

set_option maxRecDepth 20000 in
theorem prime_8463023 : Nat.Prime 8463023 := by
  refine pratt _ 5 [2, 113, 37447] (by decide +kernel) (by decide +kernel) (by decide +kernel) ?_ (by decide +kernel) (by decide +kernel)
  simp only [List.forall_mem_cons, List.not_mem_nil, false_imp_iff, implies_true, and_true]
  exact ⟨by norm_num, by norm_num, by norm_num⟩

set_option maxRecDepth 20000 in
theorem prime_9863677 : Nat.Prime 9863677 := by
  refine pratt _ 5 [2, 2, 3, 3, 311, 881] (by decide +kernel) (by decide +kernel) (by decide +kernel) ?_ (by decide +kernel) (by decide +kernel)
  simp only [List.forall_mem_cons, List.not_mem_nil, false_imp_iff, implies_true, and_true]
  exact ⟨by norm_num, by norm_num, by norm_num, by norm_num, by norm_num, by norm_num⟩

set_option maxRecDepth 20000 in
theorem prime_37344768852931 : Nat.Prime 37344768852931 := by
  refine pratt _ 3 [2, 3, 5, 7, 11, 11, 149, 9863677] (by decide +kernel) (by decide +kernel) (by decide +kernel) ?_ (by decide +kernel) (by decide +kernel)
  simp only [List.forall_mem_cons, List.not_mem_nil, false_imp_iff, implies_true, and_true]
  exact ⟨by norm_num, by norm_num, by norm_num, by norm_num, by norm_num, by norm_num, by norm_num, prime_9863677⟩

set_option maxRecDepth 20000 in
theorem prime_55942463741690639 : Nat.Prime 55942463741690639 := by
  refine pratt _ 7 [2, 7, 107, 37344768852931] (by decide +kernel) (by decide +kernel) (by decide +kernel) ?_ (by decide +kernel) (by decide +kernel)
  simp only [List.forall_mem_cons, List.not_mem_nil, false_imp_iff, implies_true, and_true]
  exact ⟨by norm_num, by norm_num, by norm_num, prime_37344768852931⟩

set_option maxRecDepth 20000 in
theorem prime_272109983 : Nat.Prime 272109983 := by
  refine pratt _ 5 [2, 19, 73, 233, 421] (by decide +kernel) (by decide +kernel) (by decide +kernel) ?_ (by decide +kernel) (by decide +kernel)
  simp only [List.forall_mem_cons, List.not_mem_nil, false_imp_iff, implies_true, and_true]
  exact ⟨by norm_num, by norm_num, by norm_num, by norm_num, by norm_num⟩

set_option maxRecDepth 20000 in
theorem prime_228572385721 : Nat.Prime 228572385721 := by
  refine pratt _ 23 [2, 2, 2, 3, 5, 7, 272109983] (by decide +kernel) (by decide +kernel) (by decide +kernel) ?_ (by decide +kernel) (by decide +kernel)
  simp only [List.forall_mem_cons, List.not_mem_nil, false_imp_iff, implies_true, and_true]
  exact ⟨by norm_num, by norm_num, by norm_num, by norm_num, by norm_num, by norm_num, prime_272109983⟩

set_option maxRecDepth 20000 in
theorem prime_23314383343543 : Nat.Prime 23314383343543 := by
  refine pratt _ 3 [2, 3, 17, 228572385721] (by decide +kernel) (by decide +kernel) (by decide +kernel) ?_ (by decide +kernel) (by decide +kernel)
  simp only [List.forall_mem_cons, List.not_mem_nil, false_imp_iff, implies_true, and_true]
  exact ⟨by norm_num, by norm_num, by norm_num, prime_228572385721⟩

set_option maxRecDepth 20000 in
theorem prime_426632512014427833817 : Nat.Prime 426632512014427833817 := by
  refine pratt _ 11 [2, 2, 2, 3, 13, 89, 659, 23314383343543] (by decide +kernel) (by decide +kernel) (by decide +kernel) ?_ (by decide +kernel) (by decide +kernel)
  simp only [List.forall_mem_cons, List.not_mem_nil, false_imp_iff, implies_true, and_true]
  exact ⟨by norm_num, by norm_num, by norm_num, by norm_num, by norm_num, by norm_num, by norm_num, prime_23314383343543⟩

set_option maxRecDepth 20000 in
theorem prime_1495199339761412565498084319 : Nat.Prime 1495199339761412565498084319 := by
  refine pratt _ 6 [2, 3, 3, 3, 64901, 426632512014427833817] (by decide +kernel) (by decide +kernel) (by decide +kernel) ?_ (by decide +kernel) (by decide +kernel)
  simp only [List.forall_mem_cons, List.not_mem_nil, false_imp_iff, implies_true, and_true]
  exact ⟨by norm_num, by norm_num, by norm_num, by norm_num, by norm_num, prime_426632512014427833817⟩

set_option maxRecDepth 20000 in
theorem prime_17942392077136950785977011829 : Nat.Prime 17942392077136950785977011829 := by
  refine pratt _ 6 [2, 2, 3, 1495199339761412565498084319] (by decide +kernel) (by decide +kernel) (by decide +kernel) ?_ (by decide +kernel) (by decide +kernel)
  simp only [List.forall_mem_cons, List.not_mem_nil, false_imp_iff, implies_true, and_true]
  exact ⟨by norm_num, by norm_num, by norm_num, prime_1495199339761412565498084319⟩

set_option maxRecDepth 20000 in
theorem prime_1059392654943455286185473617842338478315215895509773412096307 : Nat.Prime 1059392654943455286185473617842338478315215895509773412096307 := by
  refine pratt _ 2 [2, 251, 248431, 8463023, 55942463741690639, 17942392077136950785977011829] (by decide +kernel) (by decide +kernel) (by decide +kernel) ?_ (by decide +kernel) (by decide +kernel)
  simp only [List.forall_mem_cons, List.not_mem_nil, false_imp_iff, implies_true, and_true]
  exact ⟨by norm_num, by norm_num, prime_248431, prime_8463023, prime_55942463741690639, prime_17942392077136950785977011829⟩

set_option maxRecDepth 20000 in
theorem prime_3055465788140352002733946906144561090641249606160407884365391979704929268480326390471 : Nat.Prime 3055465788140352002733946906144561090641249606160407884365391979704929268480326390471 := by
  refine pratt _ 12 [2, 3, 5, 151, 347, 1276987, 1436833069313, 1059392654943455286185473617842338478315215895509773412096307] (by decide +kernel) (by decide +kernel) (by decide +kernel) ?_ (by decide +kernel) (by decide +kernel)
  simp only [List.forall_mem_cons, List.not_mem_nil, false_imp_iff, implies_true, and_true]
  exact ⟨by norm_num, by norm_num, by norm_num, by norm_num, by norm_num, prime_1276987, prime_1436833069313, prime_1059392654943455286185473617842338478315215895509773412096307⟩

set_option maxRecDepth 20000 in
theorem p384n_prime : Nat.Prime p384n := by
  refine pratt _ 2 [2, 3, 3, 7, 7, 13, 1124679999981664229965379347, 3055465788140352002733946906144561090641249606160407884365391979704929268480326390471] (by decide +kernel) (by decide +kernel) (by decide +kernel) ?_ (by decide +kernel) (by decide +kernel)
  simp only [List.forall_mem_cons, List.not_mem_nil, false_imp_iff, implies_true, and_true]
  exact ⟨by norm_num, by norm_num, by norm_num, by norm_num, by norm_num, by norm_num, prime_1124679999981664229965379347, prime_3055465788140352002733946906144561090641249606160407884365391979704929268480326390471⟩

end ETls.Crypto.P384
