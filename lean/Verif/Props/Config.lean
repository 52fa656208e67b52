import Verif.Model.ConfigBuilder
import Mathlib.Tactic.ByContra
import Mathlib.Data.List.Induction

/-!
# C54: the configuration builder

`TlsConfig::new()` and the builder methods unwrap pushes onto vectors of fixed capacity.  The property (no sequence of calls
panics) is false; `C54_panics_iff` says exactly which sequences do, and `C54_builds` what the others build.
-/

namespace ETls

/-- The number of calls of `enable_rsa_signatures`. -/
def rsaCalls (calls : List BuilderCall) : Nat := calls.count .enableRsa

/-- The RSA schemes in the order they are added. -/
def rsaSchemes : List SignatureScheme :=
  [.rsaPkcs1Sha256, .rsaPkcs1Sha384, .rsaPkcs1Sha512, .rsaPssRsaeSha256, .rsaPssRsaeSha384, .rsaPssRsaeSha512]

/-- The schemes every configuration offers. -/
def baseSchemes : List SignatureScheme := [.ecdsaSecp256r1Sha256, .ecdsaSecp384r1Sha384, .ed25519]

theorem pushSchemes_eq (xs : List SignatureScheme) (c : Config) (h25 : c.signatureSchemes.length ≤ 25) :
    pushSchemes xs c = if c.signatureSchemes.length + xs.length ≤ 25 then
      .ok { c with signatureSchemes := c.signatureSchemes ++ xs } else .panic := by
  induction xs generalizing c with
  | nil => simp [pushSchemes, h25]
  | cons x xs ih =>
    unfold pushSchemes pushScheme
    by_cases h : c.signatureSchemes.length < 25
    · rw [if_pos h]
      simp only
      rw [ih _ (by simp; omega)]
      simp only [List.length_append, List.length_cons, List.length_nil, List.append_assoc, List.cons_append,
        List.nil_append]
      have : c.signatureSchemes.length + (0 + 1) + xs.length = c.signatureSchemes.length + (xs.length + 1) := by omega
      rw [this]
    · rw [if_neg h, if_neg (by simp; omega)]

theorem enableRsa_eq (c : Config) (h25 : c.signatureSchemes.length ≤ 25) :
    c.enableRsa = if c.signatureSchemes.length + 6 ≤ 25 then
      .ok { c with signatureSchemes := c.signatureSchemes ++ rsaSchemes } else .panic :=
  pushSchemes_eq _ _ h25

theorem Config.new_eq (alloc : Bool) : Config.new alloc = .ok ⟨none, none, none,
    (if alloc then rsaSchemes else []) ++ baseSchemes, [.secp256r1], none⟩ := by
  cases alloc <;> rfl

/-- Apply the calls that set a field; a call of `enable_rsa_signatures` appends the six schemes. -/
def applyCalls (calls : List BuilderCall) (c : Config) : Config :=
  calls.foldl (fun c b => match b with
    | .enableRsa => { c with signatureSchemes := c.signatureSchemes ++ rsaSchemes }
    | .withServerName n => { c with serverName := some n }
    | .withAlpn ps => { c with alpn := some ps }
    | .withMaxFragmentLength m => { c with maxFragmentLength := some m }
    | .resetMaxFragmentLength => { c with maxFragmentLength := none }
    | .withPsk k ids => { c with psk := some (k, ids) }) c

/-- The calls fit into the vectors, with `n` schemes already there. -/
def Fits (n : Nat) (calls : List BuilderCall) : Prop :=
  n + 6 * rsaCalls calls ≤ 25 ∧ ∀ k ids, BuilderCall.withPsk k ids ∈ calls → ids.length ≤ 4

theorem runBuilder_eq (calls : List BuilderCall) (c : Config) (h25 : c.signatureSchemes.length ≤ 25) :
    (Fits c.signatureSchemes.length calls → runBuilder calls c = .ok (applyCalls calls c)) ∧
    (¬ Fits c.signatureSchemes.length calls → runBuilder calls c = .panic) := by
  induction calls generalizing c with
  | nil => simp [runBuilder, Fits, rsaCalls, applyCalls, h25]
  | cons b bs ih =>
    unfold runBuilder
    cases b with
    | enableRsa =>
      have hc : rsaCalls (.enableRsa :: bs) = rsaCalls bs + 1 := by simp [rsaCalls]
      simp only [BuilderCall.run, enableRsa_eq c h25]
      by_cases h : c.signatureSchemes.length + 6 ≤ 25
      · rw [if_pos h]
        simp only
        have hl : (c.signatureSchemes ++ rsaSchemes).length = c.signatureSchemes.length + 6 := by
          rw [List.length_append]; rfl
        obtain ⟨i1, i2⟩ := ih { c with signatureSchemes := c.signatureSchemes ++ rsaSchemes } (by rw [hl]; omega)
        simp only [hl] at i1 i2
        have : Fits c.signatureSchemes.length (.enableRsa :: bs) ↔ Fits (c.signatureSchemes.length + 6) bs := by
          unfold Fits
          rw [hc, Nat.mul_add, show c.signatureSchemes.length + (6 * rsaCalls bs + 6 * 1) =
            c.signatureSchemes.length + 6 + 6 * rsaCalls bs by omega]
          simp
        rw [this]
        exact ⟨i1, i2⟩
      · rw [if_neg h]
        refine ⟨fun hf => ?_, fun _ => rfl⟩
        have := hf.1
        omega
    | withPsk k ids =>
      have hc : rsaCalls (.withPsk k ids :: bs) = rsaCalls bs := by simp [rsaCalls]
      simp only [BuilderCall.run]
      by_cases h : ids.length ≤ 4
      · rw [if_pos h]
        simp only
        have : Fits c.signatureSchemes.length (.withPsk k ids :: bs) ↔ Fits c.signatureSchemes.length bs := by
          unfold Fits
          rw [hc]
          refine and_congr_right fun _ => ⟨fun hx k' ids' hm => hx k' ids' (.tail _ hm), fun hx k' ids' hm => ?_⟩
          rcases List.mem_cons.1 hm with hm | hm
          · injection hm with _ hm
            rw [hm]; exact h
          · exact hx k' ids' hm
        rw [this]
        exact ih { c with psk := some (k, ids) } h25
      · rw [if_neg h]
        exact ⟨fun hf => absurd (hf.2 k ids List.mem_cons_self) h, fun _ => rfl⟩
    | withServerName n =>
      have : Fits c.signatureSchemes.length (.withServerName n :: bs) ↔ Fits c.signatureSchemes.length bs := by
        simp [Fits, rsaCalls]
      rw [this]
      exact ih { c with serverName := some n } h25
    | withAlpn n =>
      have : Fits c.signatureSchemes.length (.withAlpn n :: bs) ↔ Fits c.signatureSchemes.length bs := by
        simp [Fits, rsaCalls]
      rw [this]
      exact ih { c with alpn := some n } h25
    | withMaxFragmentLength n =>
      have : Fits c.signatureSchemes.length (.withMaxFragmentLength n :: bs) ↔ Fits c.signatureSchemes.length bs := by
        simp [Fits, rsaCalls]
      rw [this]
      exact ih { c with maxFragmentLength := some n } h25
    | resetMaxFragmentLength =>
      have : Fits c.signatureSchemes.length (.resetMaxFragmentLength :: bs) ↔ Fits c.signatureSchemes.length bs := by
        simp [Fits, rsaCalls]
      rw [this]
      exact ih { c with maxFragmentLength := none } h25

theorem buildConfig_eq (alloc : Bool) (calls : List BuilderCall) :
    (Fits (3 + 6 * (if alloc then 1 else 0)) calls → buildConfig alloc calls = .ok (applyCalls calls ⟨none, none, none,
      (if alloc then rsaSchemes else []) ++ baseSchemes, [.secp256r1], none⟩)) ∧
    (¬ Fits (3 + 6 * (if alloc then 1 else 0)) calls → buildConfig alloc calls = .panic) := by
  unfold buildConfig
  rw [Config.new_eq alloc]
  cases alloc
  · exact runBuilder_eq calls ⟨none, none, none, baseSchemes, [.secp256r1], none⟩ (by decide)
  · exact runBuilder_eq calls ⟨none, none, none, rsaSchemes ++ baseSchemes, [.secp256r1], none⟩ (by decide)

/-- **C54, refuted** Four calls of `enable_rsa_signatures` (three with the `alloc` feature) panic, and so does `with_psk`
with five identities. -/
theorem C54_refuted :
    buildConfig false [.enableRsa, .enableRsa, .enableRsa, .enableRsa] = .panic ∧
    buildConfig true [.enableRsa, .enableRsa, .enableRsa] = .panic ∧
    ∀ alloc k a b c d e, buildConfig alloc [.withPsk k [a, b, c, d, e]] = .panic := by
  refine ⟨by decide, by decide, fun alloc k a b c d e => ?_⟩
  cases alloc <;> rfl

/-- **C54, exactly** A sequence of builder calls panics if and only if it enables RSA so often that more than 25 schemes
are pushed, or passes more than four PSK identities in one call. -/
theorem C54_panics_iff (alloc : Bool) (calls : List BuilderCall) :
    buildConfig alloc calls = .panic ↔
      25 < 3 + 6 * ((if alloc then 1 else 0) + rsaCalls calls) ∨
      ∃ k ids, BuilderCall.withPsk k ids ∈ calls ∧ 4 < ids.length := by
  obtain ⟨h1, h2⟩ := buildConfig_eq alloc calls
  constructor
  · intro h
    by_cases hx : Fits (3 + 6 * (if alloc then 1 else 0)) calls
    · rw [h1 hx] at h; cases h
    · by_cases h3 : 3 + 6 * (if alloc then 1 else 0) + 6 * rsaCalls calls ≤ 25
      · right
        by_contra hc
        apply hx
        refine ⟨h3, fun k ids hm => ?_⟩
        by_contra h4
        exact hc ⟨k, ids, hm, by omega⟩
      · left; omega
  · rintro (h | ⟨k, ids, hm, h⟩)
    · exact h2 fun hf => by have := hf.1; omega
    · refine h2 fun hf => ?_
      have := hf.2 k ids hm
      omega

example : buildConfig true [.enableRsa, .withPsk [1] [[2], [3], [4], [5]], .enableRsa] ≠ .panic := by decide

/-- The last value given by a call, if there is one. -/
def lastOf {α : Type} (f : BuilderCall → Option α) (calls : List BuilderCall) : Option α := (calls.filterMap f).getLast?

theorem applyCalls_snoc (calls : List BuilderCall) (b : BuilderCall) (c : Config) :
    applyCalls (calls ++ [b]) c = applyCalls [b] (applyCalls calls c) := by
  simp [applyCalls]

def asServerName : BuilderCall → Option Bytes | .withServerName n => some n | _ => none
def asAlpn : BuilderCall → Option (List Bytes) | .withAlpn ps => some ps | _ => none
def asPsk : BuilderCall → Option (Bytes × List Bytes) | .withPsk k ids => some (k, ids) | _ => none
def asMaxFragment : BuilderCall → Option (Option MaxFragmentLength)
  | .withMaxFragmentLength m => some (some m)
  | .resetMaxFragmentLength => some none
  | _ => none

theorem lastOf_snoc {α : Type} (f : BuilderCall → Option α) (calls : List BuilderCall) (b : BuilderCall) :
    lastOf f (calls ++ [b]) = match f b with | some x => some x | none => lastOf f calls := by
  unfold lastOf
  rw [List.filterMap_append]
  cases h : f b <;> simp [h]

/-- **C54, the part that holds** A sequence of calls that does not panic builds the configuration one expects: every setting
has the value of the last call that set it, the schemes are those of `TlsConfig::new` and six more for each call of
`enable_rsa_signatures` (repeated calls repeat them), and the group is secp256r1.  Missing: sequences that panic. -/
theorem C54_builds_partial (alloc : Bool) (calls : List BuilderCall) (cfg : Config)
    (h : buildConfig alloc calls = .ok cfg) :
    cfg.serverName = lastOf asServerName calls ∧ cfg.alpn = lastOf asAlpn calls ∧ cfg.psk = lastOf asPsk calls ∧
    cfg.maxFragmentLength = (lastOf asMaxFragment calls).getD none ∧ cfg.namedGroups = [.secp256r1] ∧
    cfg.signatureSchemes = (if alloc then rsaSchemes else []) ++ baseSchemes ++
      (List.replicate (rsaCalls calls) rsaSchemes).flatten ∧
    cfg.signatureSchemes.length ≤ 25 ∧ (∀ k ids, cfg.psk = some (k, ids) → ids.length ≤ 4) := by
  obtain ⟨hok, hpanic⟩ := buildConfig_eq alloc calls
  have hx : Fits (3 + 6 * (if alloc then 1 else 0)) calls := by
    by_contra hc
    rw [hpanic hc] at h
    cases h
  rw [hok hx] at h
  injection h with h
  have key : ∀ (calls : List BuilderCall) (c : Config), c = ⟨none, none, none,
      (if alloc then rsaSchemes else []) ++ baseSchemes, [.secp256r1], none⟩ →
      (applyCalls calls c).serverName = lastOf asServerName calls ∧ (applyCalls calls c).alpn = lastOf asAlpn calls ∧
      (applyCalls calls c).psk = lastOf asPsk calls ∧
      (applyCalls calls c).maxFragmentLength = (lastOf asMaxFragment calls).getD none ∧
      (applyCalls calls c).namedGroups = [.secp256r1] ∧
      (applyCalls calls c).signatureSchemes = (if alloc then rsaSchemes else []) ++ baseSchemes ++
        (List.replicate (rsaCalls calls) rsaSchemes).flatten := by
    intro calls c hc
    induction calls using List.reverseRecOn with
    | nil => subst hc; simp [applyCalls, lastOf, rsaCalls]
    | append_singleton bs b ih =>
      obtain ⟨h1, h2, h3, h4, h5, h6⟩ := ih
      rw [applyCalls_snoc]
      simp only [lastOf_snoc]
      cases b with
      | enableRsa =>
        refine ⟨h1, h2, h3, h4, h5, ?_⟩
        have : rsaCalls (bs ++ [.enableRsa]) = rsaCalls bs + 1 := by simp [rsaCalls]
        rw [this, List.replicate_succ', List.flatten_append]
        show (applyCalls bs c).signatureSchemes ++ rsaSchemes = _
        rw [h6]
        simp
      | withServerName n =>
        refine ⟨rfl, h2, h3, h4, h5, ?_⟩
        have : rsaCalls (bs ++ [.withServerName n]) = rsaCalls bs := by simp [rsaCalls]
        rw [this]; exact h6
      | withAlpn n =>
        refine ⟨h1, rfl, h3, h4, h5, ?_⟩
        have : rsaCalls (bs ++ [.withAlpn n]) = rsaCalls bs := by simp [rsaCalls]
        rw [this]; exact h6
      | withMaxFragmentLength n =>
        refine ⟨h1, h2, h3, rfl, h5, ?_⟩
        have : rsaCalls (bs ++ [.withMaxFragmentLength n]) = rsaCalls bs := by simp [rsaCalls]
        rw [this]; exact h6
      | resetMaxFragmentLength =>
        refine ⟨h1, h2, h3, rfl, h5, ?_⟩
        have : rsaCalls (bs ++ [.resetMaxFragmentLength]) = rsaCalls bs := by simp [rsaCalls]
        rw [this]; exact h6
      | withPsk k ids =>
        refine ⟨h1, h2, rfl, h4, h5, ?_⟩
        have : rsaCalls (bs ++ [.withPsk k ids]) = rsaCalls bs := by simp [rsaCalls]
        rw [this]; exact h6
  obtain ⟨h1, h2, h3, h4, h5, h6⟩ := key calls _ rfl
  rw [h] at h1 h2 h3 h4 h5 h6
  refine ⟨h1, h2, h3, h4, h5, h6, ?_, ?_⟩
  · rw [h6]
    have hl : ((if alloc then rsaSchemes else []) ++ baseSchemes).length = 3 + 6 * (if alloc then 1 else 0) := by
      cases alloc <;> rfl
    have := hx.1
    rw [List.length_append, List.length_flatten, List.map_replicate, List.sum_replicate_nat]
    rw [hl]
    simp [rsaSchemes]
    omega
  · intro k ids hp
    rw [h3] at hp
    unfold lastOf at hp
    have hm := List.mem_of_getLast? hp
    obtain ⟨b, hb, hf⟩ := List.mem_filterMap.1 hm
    cases b <;> simp [asPsk] at hf
    obtain ⟨rfl, rfl⟩ := hf
    exact hx.2 _ _ hb

example : buildConfig true [.withServerName [97], .enableRsa, .withPsk [1] [[2]], .withMaxFragmentLength .bits9,
    .resetMaxFragmentLength, .withServerName [98]] = .ok ⟨some [98], none, some ([1], [[2]]),
      rsaSchemes ++ baseSchemes ++ rsaSchemes, [.secp256r1], none⟩ := by decide

end ETls
