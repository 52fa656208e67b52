import Verif.Spec.Clash
import Mathlib.Tactic.Tauto

/-! # Equal values come from equal inputs, or two of the hashed strings clash -/

namespace ETls

open Spec Crypto

/-- Membership in one of the lists of hashed strings. -/
macro "inputs " d:ident : tactic => `(tactic| (intro z hz; simp only [$d:ident, List.mem_append]; tauto))

namespace Spec

theorem Clash.mono {H : Hash} {n : Nat} {xs ys xs' ys' : List Bytes} (h : Clash H n xs ys) (h1 : xs ⊆ xs') (h2 : ys ⊆ ys') :
    Clash H n xs' ys' := by
  obtain ⟨x, hx, y, hy, e⟩ := h
  exact ⟨x, h1 hx, y, h2 hy, e⟩

/-- Digests that agree agree on every beginning. -/
theorem Clash.less {H : Hash} {n m : Nat} {xs ys : List Bytes} (h : Clash H n xs ys) (hm : m ≤ n) : Clash H m xs ys := by
  obtain ⟨x, hx, y, hy, h1, h2⟩ := h
  refine ⟨x, hx, y, hy, h1, ?_⟩
  have := congrArg (List.take m) h2
  rwa [List.take_take, List.take_take, Nat.min_eq_left hm] at this

variable {S : Suite} {H : Hash}

theorem xor_map_inj {a b : Bytes} (k : UInt8) (h : a.map (· ^^^ k) = b.map (· ^^^ k)) : a = b := by
  have hi : Function.Injective (fun x : UInt8 => x ^^^ k) := by
    intro x y hxy
    have := congrArg (· ^^^ k) hxy
    simpa [UInt8.xor_assoc] using this
  exact (List.map_inj_right (fun x y hxy => hi hxy)).1 h

theorem hmacKey_length (hb : H.len ≤ H.block) (k : Bytes) : (H.hmacKey k).length = H.block := by
  simp only [Hash.hmacKey]
  split
  · simp [H.run_length]; omega
  · simp; omega

theorem hmacKey_inj {k k' : Bytes} (h1 : k.length ≤ H.block) (h2 : k.length = k'.length) (h : H.hmacKey k = H.hmacKey k') :
    k = k' := by
  simp only [Hash.hmacKey] at h
  rw [if_neg (by omega), if_neg (by omega)] at h
  exact (List.append_inj h h2).1

/-- HMAC with keys of one length. -/
theorem hmac_clash (hb : H.len ≤ H.block) {k k' m m' : Bytes} (h1 : k.length ≤ H.block) (h2 : k.length = k'.length)
    {n : Nat} (h : (H.hmac k m).take n = (H.hmac k' m').take n) :
    (k = k' ∧ m = m') ∨ Clash H n (hmacInputs H k m) (hmacInputs H k' m') := by
  by_cases e : (H.hmacKey k).map (· ^^^ 0x5c) ++ H.run ((H.hmacKey k).map (· ^^^ 0x36) ++ m) =
      (H.hmacKey k').map (· ^^^ 0x5c) ++ H.run ((H.hmacKey k').map (· ^^^ 0x36) ++ m')
  · obtain ⟨e1, e2⟩ := List.append_inj e (by simp [hmacKey_length hb])
    have ek := hmacKey_inj h1 h2 (xor_map_inj _ e1)
    subst ek
    by_cases e3 : (H.hmacKey k).map (· ^^^ 0x36) ++ m = (H.hmacKey k).map (· ^^^ 0x36) ++ m'
    · exact Or.inl ⟨rfl, List.append_cancel_left e3⟩
    · exact Or.inr ⟨_, by simp [hmacInputs], _, List.mem_cons_of_mem _ (List.mem_singleton.2 rfl), e3, by rw [e2]⟩
  · exact Or.inr ⟨_, List.mem_cons_self, _, List.mem_cons_self, e, h⟩

/-- HKDF-Expand of at most a digest is one HMAC. -/
theorem expand_one (prk info : Bytes) {n : Nat} (h1 : 1 ≤ n) (h2 : n ≤ H.len) :
    H.expand prk info n = (H.hmac prk (info ++ [1])).take n := by
  have : (n + H.len - 1) / H.len = 1 := by
    apply Nat.div_eq_of_lt_le <;> omega
  simp [Hash.expand, this, Hash.expandBlocks]

theorem hkdfLabel_inj {n : Nat} {l l' : String} {c c' : Bytes} (hl : (ascii l).length < 250) (hl' : (ascii l').length < 250)
    (h : hkdfLabel n l c = hkdfLabel n l' c') : ascii l = ascii l' ∧ c = c' := by
  simp only [hkdfLabel, List.cons_append, List.nil_append, List.append_assoc, List.cons.injEq, true_and] at h
  obtain ⟨h1, h2⟩ := h
  have h3 : (ascii l).length = (ascii l').length := by
    have := congrArg UInt8.toNat h1
    simp only [UInt8.toNat_ofNat'] at this
    omega
  have h4 := List.append_cancel_left h2
  obtain ⟨h5, h6⟩ := List.append_inj h4 h3
  exact ⟨h5, (List.cons.inj h6).2⟩

variable (hu : UsesHash S H)
include hu

/-- HKDF-Expand-Label with secrets of digest length. -/
theorem label_clash {s s' : Bytes} {l l' : String} {c c' : Bytes} {n : Nat} (h1 : 1 ≤ n) (h2 : n ≤ H.len)
    (hs : s.length = H.len) (hs' : s'.length = H.len) (hl : (ascii l).length < 250) (hl' : (ascii l').length < 250)
    (h : expandLabel S s l c n = expandLabel S s' l' c' n) :
    (s = s' ∧ ascii l = ascii l' ∧ c = c') ∨ Clash H n (labelInputs H s l c n) (labelInputs H s' l' c' n) := by
  unfold expandLabel at h
  rw [hu.expand, expand_one _ _ h1 h2, expand_one _ _ h1 h2] at h
  rcases hmac_clash hu.block (by have := hu.block; omega) (by omega) h with ⟨e1, e2⟩ | e
  · obtain ⟨e3, e4⟩ := hkdfLabel_inj hl hl' (List.append_cancel_right e2)
    exact Or.inl ⟨e1, e3, e4⟩
  · exact Or.inr e

theorem derive_length (s m : Bytes) (l : String) : (deriveSecret S s l m).length = H.len := by
  unfold deriveSecret expandLabel
  rw [hu.expand, hu.len]
  exact H.expand_length hu.pos _ _ _

theorem extract_len (s m : Bytes) : (S.extract s m).length = H.len := by
  rw [hu.extract]
  exact H.hmac_length _ _

theorem finishedKey_length (s : Bytes) : (finishedKey S s).length = H.len := by
  unfold finishedKey expandLabel
  rw [hu.expand, hu.len]
  exact H.expand_length hu.pos _ _ _

/-- Derive-Secret. -/
theorem derive_clash {s s' m m' : Bytes} {l l' : String} (hs : s.length = H.len) (hs' : s'.length = H.len)
    (hl : (ascii l).length < 250) (hl' : (ascii l').length < 250) (h : deriveSecret S s l m = deriveSecret S s' l' m') :
    (s = s' ∧ ascii l = ascii l' ∧ m = m') ∨ Clash H H.len (deriveInputs S H s l m) (deriveInputs S H s' l' m') := by
  unfold deriveSecret at h
  have hn := hu.len
  rcases label_clash hu (hn ▸ hu.pos) (Nat.le_of_eq hn) hs hs' hl hl' h with ⟨e1, e2, e3⟩ | e
  · by_cases em : m = m'
    · exact Or.inl ⟨e1, e2, em⟩
    · rw [hu.hash] at e3
      exact Or.inr ⟨m, List.mem_cons_self, m', List.mem_cons_self, em, by rw [e3]⟩
  · rw [hn] at e
    refine Or.inr (e.mono ?_ ?_) <;>
    · rw [deriveInputs, hn]
      exact List.subset_cons_self _ _

/-- HKDF-Extract with salts of digest length. -/
theorem extract_clash {s s' m m' : Bytes} (hs : s.length = H.len) (hs' : s'.length = H.len)
    (h : S.extract s m = S.extract s' m') :
    (s = s' ∧ m = m') ∨ Clash H H.len (hmacInputs H s m) (hmacInputs H s' m') := by
  rw [hu.extract] at h
  exact hmac_clash hu.block (by have := hu.block; omega) (by omega) (congrArg (List.take H.len) h)

theorem zeros_length : (zeros S).length = H.len := by simp [zeros, hu.len]

theorem early_length (psk : Option Bytes) : (earlySecret S psk).length = H.len := extract_len hu _ _

theorem handshake_length (psk : Option Bytes) (dhe : Bytes) : (handshakeSecret S psk dhe).length = H.len := extract_len hu _ _

theorem master_length (psk : Option Bytes) (dhe : Bytes) : (masterSecret S psk dhe).length = H.len := extract_len hu _ _

theorem early_clash {psk psk' : Option Bytes} (h : earlySecret S psk = earlySecret S psk') :
    psk.getD (zeros S) = psk'.getD (zeros S) ∨ Clash H H.len (earlyInputs S H psk) (earlyInputs S H psk') := by
  rcases extract_clash hu (zeros_length hu) (zeros_length hu) h with ⟨-, e⟩ | e
  · exact Or.inl e
  · exact Or.inr e

theorem handshake_clash {psk psk' : Option Bytes} {dhe dhe' : Bytes}
    (h : handshakeSecret S psk dhe = handshakeSecret S psk' dhe') :
    (psk.getD (zeros S) = psk'.getD (zeros S) ∧ dhe = dhe') ∨
      Clash H H.len (handshakeInputs S H psk dhe) (handshakeInputs S H psk' dhe') := by
  rcases extract_clash hu (derive_length hu _ _ _) (derive_length hu _ _ _) h with ⟨e1, e2⟩ | e
  · rcases derive_clash hu (early_length hu _) (early_length hu _) (by decide) (by decide) e1 with ⟨e3, -, -⟩ | e
    · rcases early_clash hu e3 with e4 | e
      · exact Or.inl ⟨e4, e2⟩
      · exact Or.inr (e.mono (by inputs handshakeInputs) (by inputs handshakeInputs))
    · exact Or.inr (e.mono (by inputs handshakeInputs) (by inputs handshakeInputs))
  · exact Or.inr (e.mono (by inputs handshakeInputs) (by inputs handshakeInputs))

theorem master_clash {psk psk' : Option Bytes} {dhe dhe' : Bytes}
    (h : masterSecret S psk dhe = masterSecret S psk' dhe') :
    (psk.getD (zeros S) = psk'.getD (zeros S) ∧ dhe = dhe') ∨
      Clash H H.len (masterInputs S H psk dhe) (masterInputs S H psk' dhe') := by
  rcases extract_clash hu (derive_length hu _ _ _) (derive_length hu _ _ _) h with ⟨e1, -⟩ | e
  · rcases derive_clash hu (handshake_length hu _ _) (handshake_length hu _ _) (by decide) (by decide) e1 with ⟨e3, -, -⟩ | e
    · rcases handshake_clash hu e3 with e4 | e
      · exact Or.inl e4
      · exact Or.inr (e.mono (by inputs masterInputs) (by inputs masterInputs))
    · exact Or.inr (e.mono (by inputs masterInputs) (by inputs masterInputs))
  · exact Or.inr (e.mono (by inputs masterInputs) (by inputs masterInputs))

/-- verify_data. -/
theorem verify_clash {k k' m m' : Bytes} (hk : k.length = H.len) (hk' : k'.length = H.len)
    (h : verifyData S k m = verifyData S k' m') :
    (k = k' ∧ m = m') ∨ Clash H H.len (verifyInputs S H k m) (verifyInputs S H k' m') := by
  unfold verifyData at h
  rw [hu.hmac] at h
  have hn := hu.len
  rcases hmac_clash hu.block (by rw [finishedKey_length hu]; exact hu.block)
    (by rw [finishedKey_length hu, finishedKey_length hu]) (congrArg (List.take H.len) h) with ⟨e1, e2⟩ | e
  · rcases label_clash hu (hn ▸ hu.pos) (Nat.le_of_eq hn) hk hk' (by decide) (by decide) e1 with ⟨e3, -, -⟩ | e
    · by_cases em : m = m'
      · exact Or.inl ⟨e3, em⟩
      · rw [hu.hash] at e2
        exact Or.inr ⟨m, by simp [verifyInputs], m', by simp [verifyInputs], em, by rw [e2]⟩
    · rw [hn] at e
      refine Or.inr (e.mono ?_ ?_) <;>
      · rw [verifyInputs, hn]
        exact List.subset_append_left _ _
  · refine Or.inr (e.mono ?_ ?_) <;>
    · intro z hz
      simp only [verifyInputs, List.mem_append, List.mem_cons]
      exact Or.inr (Or.inr hz)

/-- A handshake traffic secret. -/
theorem handshakeTraffic_clash {l l' : String} {psk psk' : Option Bytes} {dhe dhe' tr tr' : Bytes}
    (hl : (ascii l).length < 250) (hl' : (ascii l').length < 250)
    (h : deriveSecret S (handshakeSecret S psk dhe) l tr = deriveSecret S (handshakeSecret S psk' dhe') l' tr') :
    (psk.getD (zeros S) = psk'.getD (zeros S) ∧ dhe = dhe' ∧ ascii l = ascii l' ∧ tr = tr') ∨
      Clash H H.len (handshakeTrafficInputs S H l psk dhe tr) (handshakeTrafficInputs S H l' psk' dhe' tr') := by
  rcases derive_clash hu (handshake_length hu _ _) (handshake_length hu _ _) hl hl' h with ⟨e1, e2, e3⟩ | e
  · rcases handshake_clash hu e1 with ⟨e4, e5⟩ | e
    · exact Or.inl ⟨e4, e5, e2, e3⟩
    · exact Or.inr (e.mono (by inputs handshakeTrafficInputs) (by inputs handshakeTrafficInputs))
  · exact Or.inr (e.mono (by inputs handshakeTrafficInputs) (by inputs handshakeTrafficInputs))

/-- An application traffic secret. -/
theorem applicationTraffic_clash {l l' : String} {psk psk' : Option Bytes} {dhe dhe' tr tr' : Bytes}
    (hl : (ascii l).length < 250) (hl' : (ascii l').length < 250)
    (h : deriveSecret S (masterSecret S psk dhe) l tr = deriveSecret S (masterSecret S psk' dhe') l' tr') :
    (psk.getD (zeros S) = psk'.getD (zeros S) ∧ dhe = dhe' ∧ ascii l = ascii l' ∧ tr = tr') ∨
      Clash H H.len (applicationTrafficInputs S H l psk dhe tr) (applicationTrafficInputs S H l' psk' dhe' tr') := by
  rcases derive_clash hu (master_length hu _ _) (master_length hu _ _) hl hl' h with ⟨e1, e2, e3⟩ | e
  · rcases master_clash hu e1 with ⟨e4, e5⟩ | e
    · exact Or.inl ⟨e4, e5, e2, e3⟩
    · exact Or.inr (e.mono (by inputs applicationTrafficInputs) (by inputs applicationTrafficInputs))
  · exact Or.inr (e.mono (by inputs applicationTrafficInputs) (by inputs applicationTrafficInputs))

/-- A handshake traffic secret is not an application traffic secret when the labels differ. -/
theorem mixed_clash {l l' : String} {psk psk' : Option Bytes} {dhe dhe' tr tr' : Bytes}
    (hl : (ascii l).length < 250) (hl' : (ascii l').length < 250) (hne : ascii l ≠ ascii l')
    (h : deriveSecret S (handshakeSecret S psk dhe) l tr = deriveSecret S (masterSecret S psk' dhe') l' tr') :
      Clash H H.len (handshakeTrafficInputs S H l psk dhe tr) (applicationTrafficInputs S H l' psk' dhe' tr') := by
  rcases derive_clash hu (handshake_length hu _ _) (master_length hu _ _) hl hl' h with ⟨-, e2, -⟩ | e
  · exact absurd e2 hne
  · exact e.mono (by inputs handshakeTrafficInputs) (by inputs applicationTrafficInputs)

end Spec

end ETls
