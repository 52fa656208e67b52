import Verif.Model.Hostname
import Verif.Spec.Hostname

/-! # C49 and C50: host names -/

namespace ETls
open Spec

private theorem allBytes {P : UInt8 → Prop} (h : ∀ n : Fin 256, P (UInt8.ofNat n.val)) (b : UInt8) : P b := by
  have := h ⟨b.toNat, b.toNat_lt⟩
  simpa using this

instance (b : UInt8) : Decidable (HostChar b) := by unfold HostChar; infer_instance
instance (a b : UInt8) : Decidable (SameChar a b) := by unfold SameChar; infer_instance

theorem hostByte_iff (b : UInt8) : hostByte b = true ↔ HostChar b := by
  revert b; apply allBytes; decide +kernel

theorem asciiLower_iff (a b : UInt8) : asciiLower a = asciiLower b ↔ SameChar a b := by
  have hA : chr 'A' = (0x41 : UInt8) := by decide
  have hZ : chr 'Z' = (0x5a : UInt8) := by decide
  have low : ∀ x : UInt8, (asciiLower x).toNat = if 65 ≤ x.toNat ∧ x.toNat ≤ 90 then x.toNat + 32 else x.toNat := by
    apply allBytes; decide +kernel
  unfold SameChar
  rw [← UInt8.toNat_inj, low, low, ← UInt8.toNat_inj, hA, hZ]
  simp only [UInt8.le_iff_toNat_le]
  have h1 : (0x41 : UInt8).toNat = 65 := rfl
  have h2 : (0x5a : UInt8).toNat = 90 := rfl
  rw [h1, h2]
  split <;> split <;> omega

theorem ciEqual_iff (a b : Bytes) : ciEqual a b = true ↔ SameName a b := by
  induction a generalizing b with
  | nil => cases b <;> simp [ciEqual, SameName]
  | cons x xs ih =>
    cases b with
    | nil => simp [ciEqual, SameName]
    | cons y ys =>
      have := ih ys
      simp only [SameName] at this
      simp only [ciEqual, SameName, Bool.and_eq_true, beq_iff_eq, List.forall₂_cons, asciiLower_iff, this]

/-- The number of dots. -/
private def dots (l : Bytes) : Nat := l.count 0x2e

theorem labels_length (l : Bytes) : (labels l).length = dots l + 1 := by
  induction l with
  | nil => rfl
  | cons b r ih =>
    have hc : chr '.' = (0x2e : UInt8) := by decide
    unfold dots at *
    rw [labels, hc]
    by_cases h : b = 0x2e
    · subst h; simp [ih]
    · rw [if_neg h, List.count_cons_of_ne h]
      cases hl : labels r with
      | nil => rw [hl] at ih; simp at ih
      | cons x xs => rw [hl] at ih; simpa using ih

theorem scanName_eq (l : Bytes) (n k : Nat) : scanName l n k =
    if ∀ b ∈ l, HostChar b ∨ b = chr '*' then some (n + dots l, k + l.count 0x2a) else none := by
  have hstar : chr '*' = (0x2a : UInt8) := by decide
  induction l generalizing n k with
  | nil => simp [scanName, dots]
  | cons b r ih =>
    have hb : (hostByte b || b == 0x2a) = true ↔ (HostChar b ∨ b = chr '*') := by
      rw [hstar, Bool.or_eq_true, hostByte_iff, beq_iff_eq]
    rw [scanName]
    by_cases h : HostChar b ∨ b = chr '*'
    · rw [if_pos (hb.2 h), ih]
      simp only [List.forall_mem_cons, h, true_and, dots, List.count_cons]
      split
      · congr 2 <;> (split <;> omega)
      · rfl
    · rw [if_neg (fun c => h (hb.1 c)), if_neg]
      exact fun c => h (c b List.mem_cons_self)

theorem scanHost_eq (l : Bytes) (n : Nat) : scanHost l n =
    if ∀ b ∈ l, HostChar b then some (n + dots l) else none := by
  induction l generalizing n with
  | nil => simp [scanHost, dots]
  | cons b r ih =>
    rw [scanHost]
    by_cases h : HostChar b
    · rw [if_pos ((hostByte_iff b).2 h), ih]
      simp only [List.forall_mem_cons, h, true_and, dots, List.count_cons]
      split
      · congr 1; split <;> omega
      · rfl
    · rw [if_neg (fun c => h ((hostByte_iff b).1 c)), if_neg]
      exact fun c => h (c b List.mem_cons_self)

theorem afterDot_iff (l r : Bytes) : afterDot l = some r ↔ ∃ f, l = f ++ asciiOf "." ++ r ∧ chr '.' ∉ f := by
  have hc : chr '.' = (0x2e : UInt8) := by decide
  have ha : asciiOf "." = [(0x2e : UInt8)] := by decide
  rw [hc, ha]
  induction l with
  | nil => simp [afterDot]
  | cons b t ih =>
    rw [afterDot]
    by_cases h : b = 0x2e
    · subst h
      simp only [beq_self_eq_true, if_true, Option.some.injEq]
      constructor
      · rintro rfl; exact ⟨[], rfl, by simp⟩
      · rintro ⟨f, hf, hn⟩
        cases f with
        | nil => simpa using hf
        | cons x xs =>
          simp only [List.cons_append, List.cons.injEq] at hf
          exact absurd (hf.1 ▸ List.mem_cons_self) hn
    · simp only [beq_iff_eq, if_neg h]
      refine ih.trans ?_
      constructor
      · rintro ⟨f, hf, hn⟩
        refine ⟨b :: f, by rw [hf]; rfl, ?_⟩
        simp only [List.mem_cons, not_or]
        exact ⟨fun c => h c.symm, hn⟩
      · rintro ⟨f, hf, hn⟩
        cases f with
        | nil => simp only [List.nil_append, List.singleton_append, List.cons.injEq] at hf; exact absurd hf.1 h
        | cons x xs =>
          simp only [List.cons_append, List.cons.injEq] at hf
          exact ⟨xs, hf.2, fun c => hn (List.mem_cons_of_mem _ c)⟩

/-- Case folding does not create or remove dots. -/
theorem dots_same {a b : Bytes} (h : SameName a b) : dots a = dots b := by
  induction h with
  | nil => rfl
  | @cons x y _ _ hxy _ ih =>
    have hd : x = 0x2e ↔ y = 0x2e := by
      have hA : chr 'A' = (0x41 : UInt8) := by decide
      have hZ : chr 'Z' = (0x5a : UInt8) := by decide
      have h1 : (0x41 : UInt8).toNat = 65 := rfl
      have h2 : (0x5a : UInt8).toNat = 90 := rfl
      have h3 : (0x2e : UInt8).toNat = 46 := rfl
      unfold SameChar at hxy
      rw [hA, hZ] at hxy
      simp only [UInt8.le_iff_toNat_le, h1, h2, ← UInt8.toNat_inj, h3] at hxy ⊢
      omega
    unfold dots at *
    rw [List.count_cons, List.count_cons, ih]
    simp only [beq_iff_eq, hd]

/-- **C49** A certificate name matches a host name exactly in the cases the specification allows. -/
theorem C49_hostname_match (name host : Bytes) : hostnameMatchImpl name host = true ↔ HostMatches name host := by
  have hstar : chr '*' = (0x2a : UInt8) := by decide
  have hdot : chr '.' = (0x2e : UInt8) := by decide
  have hpre : asciiOf "*." = [(0x2a : UInt8), 0x2e] := by decide
  have hone : asciiOf "." = [(0x2e : UInt8)] := by decide
  have nostar : ¬ HostChar (0x2a : UInt8) := by decide
  unfold hostnameMatchImpl HostMatches
  rw [scanName_eq, scanHost_eq]
  by_cases hn : ∀ b ∈ name, HostChar b ∨ b = chr '*'
  swap
  · rw [if_neg hn]; simp [hn]
  by_cases hh : ∀ b ∈ host, HostChar b
  swap
  · rw [if_pos hn, if_neg hh]; simp [hh]
  rw [if_pos hn, if_pos hh]
  have hs0 : ∀ {a b : Bytes}, SameName a b → (∀ x ∈ b, HostChar x) → (0x2a : UInt8) ∉ a := by
    intro a b h hb
    induction h with
    | nil => simp
    | @cons x y _ _ hxy _ ih =>
      simp only [List.mem_cons, not_or]
      refine ⟨?_, ih (fun z hz => hb z (List.mem_cons_of_mem _ hz))⟩
      rintro rfl
      have hy := hb y List.mem_cons_self
      have hA : chr 'A' = (0x41 : UInt8) := by decide
      have hZ : chr 'Z' = (0x5a : UInt8) := by decide
      have h1 : (0x41 : UInt8).toNat = 65 := rfl
      have h2 : (0x5a : UInt8).toNat = 90 := rfl
      have h3 : (0x2a : UInt8).toNat = 42 := rfl
      unfold SameChar at hxy
      rw [hA, hZ] at hxy
      simp only [UInt8.le_iff_toNat_le, h1, h2, h3] at hxy
      rcases hxy with h | h | h
      · subst h; exact nostar hy
      · omega
      · omega
  refine Iff.trans ?_ ((and_iff_right hn).trans (and_iff_right hh)).symm
  simp only [Nat.zero_add]
  by_cases hc : name.count 0x2a = 0
  · have hni : (0x2a : UInt8) ∉ name := List.count_eq_zero.1 hc
    simp only [hc, beq_self_eq_true, if_true, ciEqual_iff]
    constructor
    · exact Or.inl
    · rintro (h | ⟨rest, first, rest', h, _⟩)
      · exact h
      · rw [h, hpre] at hni; simp at hni
  have hmem : (0x2a : UInt8) ∈ name := by
    by_contra c; exact hc (List.count_eq_zero.2 c)
  rw [if_neg (by simpa using hc)]
  have hnot : ¬ SameName name host := fun h => hs0 h hh hmem
  simp only [hnot, false_or]
  by_cases hp : [(0x2a : UInt8), 0x2e].isPrefixOf name = true
  swap
  · have : ¬ ∃ rest first rest', name = asciiOf "*." ++ rest ∧ 2 ≤ (labels rest).length ∧ chr '*' ∉ rest ∧
        host = first ++ asciiOf "." ++ rest' ∧ chr '.' ∉ first ∧ SameName rest rest' := by
      rintro ⟨rest, _, _, h, _⟩
      apply hp
      rw [h, hpre, List.isPrefixOf_iff_prefix]
      exact List.prefix_append _ _
    simp only [this, iff_false]; simp [hp]
  rw [List.isPrefixOf_iff_prefix] at hp
  obtain ⟨rest, hrest⟩ := hp
  subst hrest
  have hcr : ([(0x2a : UInt8), 0x2e] ++ rest).count 0x2a = rest.count 0x2a + 1 := by
    simp
  have hdr : dots ([(0x2a : UInt8), 0x2e] ++ rest) = dots rest + 1 := by
    unfold dots; simp
  have hp2 : [(0x2a : UInt8), 0x2e].isPrefixOf ([0x2a, 0x2e] ++ rest) = true := by
    rw [List.isPrefixOf_iff_prefix]; exact List.prefix_append _ _
  have hd2 : ([(0x2a : UInt8), 0x2e] ++ rest).drop 2 = rest := rfl
  rw [hcr, hdr, hp2, hd2]
  have spec : (∃ rest_1 first rest', [(0x2a : UInt8), 0x2e] ++ rest = asciiOf "*." ++ rest_1 ∧
      2 ≤ (labels rest_1).length ∧ chr '*' ∉ rest_1 ∧ host = first ++ asciiOf "." ++ rest' ∧ chr '.' ∉ first ∧
      SameName rest_1 rest') ↔ (1 ≤ dots rest ∧ rest.count 0x2a = 0 ∧
      ∃ r', afterDot host = some r' ∧ SameName rest r') := by
    constructor
    · rintro ⟨r1, f, r', h1, h2, h3, h4, h5, h6⟩
      rw [hpre] at h1
      have h1 := List.append_cancel_left h1
      subst h1
      rw [labels_length] at h2
      exact ⟨by omega, List.count_eq_zero.2 (hstar ▸ h3), r', (afterDot_iff _ _).2 ⟨f, h4, h5⟩, h6⟩
    · rintro ⟨h2, h3, r', h4, h6⟩
      obtain ⟨f, h4, h5⟩ := (afterDot_iff _ _).1 h4
      exact ⟨rest, f, r', by rw [hpre], by rw [labels_length]; omega,
        by rw [hstar]; exact List.count_eq_zero.1 h3, h4, h5, h6⟩
  rw [spec]
  by_cases hk : rest.count 0x2a = 0
  swap
  · simp [hk]
  by_cases hd : 1 ≤ dots rest
  swap
  · have hd0 : dots rest = 0 := by omega
    simp [hk, hd0]
  have hlt : ¬ (1 + (dots rest + 1) < 3) := by omega
  simp only [hk, hd, hlt, true_and, if_false, Nat.zero_add, bne_self_eq_false, Bool.not_true, Bool.false_eq_true]
  cases ha : afterDot host with
  | none => simp
  | some r' =>
    obtain ⟨f, hf, hnf⟩ := (afterDot_iff _ _).1 ha
    have hdh : dots host = dots r' + 1 := by
      rw [hf, hone]
      unfold dots
      rw [List.count_append, List.count_append, List.count_eq_zero.2 (hdot ▸ hnf)]
      simp [Nat.add_comm]
    simp only [Option.some.injEq, exists_eq_left', ← ciEqual_iff]
    constructor
    · intro h
      split at h
      · simp at h
      · simpa using h
    · intro h
      have := dots_same ((ciEqual_iff _ _).1 h)
      rw [hdh, this, if_neg (by simp [Nat.add_comm])]
      simpa using h

example : HostMatches (asciiOf "*.Example.com") (asciiOf "www.example.COM") := by
  rw [← C49_hostname_match]; decide +kernel
example : HostMatches (asciiOf "a-1.b") (asciiOf "A-1.b") := by rw [← C49_hostname_match]; decide +kernel
example : ¬ HostMatches (asciiOf "*.com") (asciiOf "example.com") := by rw [← C49_hostname_match]; decide +kernel
example : ¬ HostMatches (asciiOf "*.example.com") (asciiOf "a.b.example.com") := by
  rw [← C49_hostname_match]; decide +kernel
example : ¬ HostMatches (asciiOf "w*.example.com") (asciiOf "www.example.com") := by
  rw [← C49_hostname_match]; decide +kernel
-- a wildcard does match a host whose first label is empty
example : HostMatches (asciiOf "*.example.com") (asciiOf ".example.com") := by
  rw [← C49_hostname_match]; decide +kernel

end ETls
