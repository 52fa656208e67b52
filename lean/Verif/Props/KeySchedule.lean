import Verif.Spec.KeySchedule
import Verif.Proofs.Toy
import Verif.Model.KeySchedule

/-! # C35 (key schedule), C47 (nonces), C48 (HKDF labels) -/

namespace ETls
open Spec

variable (S : Suite)

/-! ## C48 -/

/-- **C48** the info string is the RFC 8446 HkdfLabel and every derivation with a label of at most 12 bytes and no
context or a hash as context fits the label buffer: with a key available, the derivation succeeds. -/
theorem C48_label_fits (hS : S.Lawful) (prk : Bytes) (label : String) (hl : (ascii label).length ≤ 12) (n : Nat)
    (hn : n ≤ 255 * S.hashLen) :
    makeLabel S (some prk) (ascii label) none n = .ok (S.expand prk (hkdfLabel n label []) n) ∧
    ∀ msgs, makeLabel S (some prk) (ascii label) (some (S.hash msgs)) n =
      .ok (S.expand prk (hkdfLabel n label (S.hash msgs)) n) := by
  have h48 := hS.hashLen_le
  have hmod : (ascii label).length % 256 = (ascii label).length := Nat.mod_eq_of_lt (by omega)
  have h13 : (ascii "tls13 ").length = 6 := by decide
  constructor
  · unfold makeLabel
    rw [if_neg (by omega)]
    simp only
    rw [if_neg (by
      simp only [List.length_append, List.length_cons, List.length_nil, h13, labelCap, be16]; omega), if_neg (by omega)]
    simp [hkdfLabel, be16, hmod]
  · intro msgs
    have hh := hS.hash_length msgs
    unfold makeLabel
    rw [if_neg (by omega)]
    simp only
    rw [if_neg (by
      simp only [List.length_append, List.length_cons, List.length_nil, h13, labelCap, be16, hh]; omega),
      if_neg (by omega)]
    simp [hkdfLabel, be16, hmod]

/-- All labels the library derives with. -/
def usedLabels : List String :=
  ["derived", "ext binder", "c hs traffic", "s hs traffic", "c ap traffic", "s ap traffic", "key", "iv", "finished"]

/-- **C48** all labels in use are at most 12 bytes long, so `C48_label_fits` applies to all of them. -/
theorem C48_used_labels : ∀ l ∈ usedLabels, (ascii l).length ≤ 12 := by decide

/-- **C48** different (length, label, context) triples give different info strings. -/
theorem C48_unambiguous (n n' : Nat) (l l' : String) (c c' : Bytes) (hn : n < 65536) (hn' : n' < 65536)
    (hl : (ascii l).length ≤ 249) (hl' : (ascii l').length ≤ 249) (_hc : c.length < 256) (_hc' : c'.length < 256)
    (h : hkdfLabel n l c = hkdfLabel n' l' c') : n = n' ∧ ascii l = ascii l' ∧ c = c' := by
  simp only [hkdfLabel, List.cons_append, List.nil_append, List.append_assoc, List.cons.injEq] at h
  obtain ⟨h1, h2, h3, h4⟩ := h
  have e1 := congrArg UInt8.toNat h1
  have e2 := congrArg UInt8.toNat h2
  have e3 := congrArg UInt8.toNat h3
  simp only [UInt8.toNat_ofNat'] at e1 e2 e3
  have hlen : (ascii l).length = (ascii l').length := by omega
  have h5 := List.append_cancel_left h4
  have h6 := List.append_inj h5 hlen
  refine ⟨by omega, h6.1, ?_⟩
  have := h6.2
  simp only [List.cons.injEq] at this
  exact this.2

example : hkdfLabel 16 "key" [] =
    [0, 16, 9, 116, 108, 115, 49, 51, 32, 107, 101, 121, 0] := by decide

/-! ## C35 -/

/-- Traffic state: secret, key and iv derived from the secret, and the sequence number restarted. -/
def trafficState (secret : Bytes) : KsState := ⟨some secret, 0, writeKey S secret, writeIv S secret⟩

theorem small_le (hS : S.Lawful) : S.hashLen ≤ 255 * S.hashLen ∧ S.keyLen ≤ 255 * S.hashLen ∧
    S.ivLen ≤ 255 * S.hashLen := by
  have := hS.hashLen_pos; have := hS.keyLen_le; have := hS.ivLen_eq
  omega

theorem deriveSecret_spec (hS : S.Lawful) (s : SharedState) (prk : Bytes) (hk : s.hkdf = some prk) (label : String)
    (hl : (ascii label).length ≤ 12) (msgs : Bytes) :
    s.deriveSecret S (ascii label) (some (S.hash msgs)) = .ok (Spec.deriveSecret S prk label msgs) := by
  unfold SharedState.deriveSecret
  rw [hk, (C48_label_fits S hS prk label hl _ (small_le S hS).1).2]
  rfl

theorem deriveSecret_length (hS : S.Lawful) (prk : Bytes) (label : String) (msgs : Bytes) :
    (Spec.deriveSecret S prk label msgs).length = S.hashLen := hS.expand_length _ _ _

theorem calculate_spec (hS : S.Lawful) (s : SharedState) (prk : Bytes) (hk : s.hkdf = some prk) (label : String)
    (hl : (ascii label).length ≤ 12) (msgs : Bytes) (k : KsState) :
    KsState.calculate S (ascii label) s msgs k =
      (.ok (), trafficState S (Spec.deriveSecret S prk label msgs)) := by
  obtain ⟨_, h2, h3⟩ := small_le S hS
  unfold KsState.calculate
  rw [deriveSecret_spec S hS s prk hk label hl msgs, M.lift_ok_bind, deriveSecret_length S hS,
    if_neg (by omega), M.modify_bind]
  rw [(C48_label_fits S hS _ "key" (by decide) _ h2).1, M.lift_ok_bind, M.modify_bind]
  rw [(C48_label_fits S hS _ "iv" (by decide) _ h3).1, M.lift_ok_bind, M.modify_bind]
  rfl

theorem derived_spec (hS : S.Lawful) (s : SharedState) (prk : Bytes) (hk : s.hkdf = some prk) :
    SharedState.derived S s = (.ok (), { s with secret := Spec.deriveSecret S prk "derived" [] }) := by
  unfold SharedState.derived
  rw [deriveSecret_spec S hS s prk hk "derived" (by decide) []]

theorem traffic_spec (hS : S.Lawful) (k : KeySchedule) (prk : Bytes) (hk : k.shared.hkdf = some prk) (cl sl : String)
    (h1 : (ascii cl).length ≤ 12) (h2 : (ascii sl).length ≤ 12) :
    KeySchedule.calculateTrafficSecrets S (ascii cl) (ascii sl) k = (.ok (),
      { k with
        client := { k.client with st := trafficState S (Spec.deriveSecret S prk cl k.server.transcript) },
        server := { k.server with st := trafficState S (Spec.deriveSecret S prk sl k.server.transcript) } }) := by
  have hc := calculate_spec S hS k.shared prk hk cl h1 k.server.transcript k.client.st
  have hs := calculate_spec S hS k.shared prk hk sl h2 k.server.transcript k.server.st
  unfold KeySchedule.calculateTrafficSecrets
  have hc' : KeySchedule.calculateClient S (ascii cl) k = (.ok (),
      { k with client := { k.client with st := trafficState S (Spec.deriveSecret S prk cl k.server.transcript) } }) := by
    unfold KeySchedule.calculateClient; simp only [hc]
  rw [M.bind_ok hc']
  unfold KeySchedule.calculateServer; simp only [hs]

theorem onShared_derived (hS : S.Lawful) (k : KeySchedule) (prk : Bytes) (hk : k.shared.hkdf = some prk) :
    KeySchedule.onShared (SharedState.derived S) k =
      (.ok (), { k with shared := { k.shared with secret := Spec.deriveSecret S prk "derived" [] } }) := by
  unfold KeySchedule.onShared
  simp only [derived_spec S hS k.shared prk hk]

/-- **C35** early stage: from a fresh shared state, with any PSK or none, the binder key is the RFC value and the
salt for the next stage is Derive-Secret(Early Secret, "derived", ""). -/
theorem C35_early (hS : S.Lawful) (k : KeySchedule) (hk : k.shared = SharedState.new S) (psk : Option Bytes) :
    KeySchedule.initializeEarlySecret S psk k = (.ok (),
      { shared := ⟨Spec.deriveSecret S (earlySecret S psk) "derived" [], some (earlySecret S psk)⟩,
        client := { k.client with binderKey := some (binderKey S psk) },
        server := k.server }) := by
  obtain ⟨sh, cl, sv⟩ := k
  simp only at hk
  subst hk
  unfold KeySchedule.initializeEarlySecret
  rw [M.modify_bind, M.get_bind]
  simp only
  rw [deriveSecret_spec S hS _ (earlySecret S psk) rfl "ext binder" (by decide) [], M.lift_ok_bind,
    deriveSecret_length S hS, if_neg (by omega), M.modify_bind]
  unfold KeySchedule.onShared
  simp only
  rw [derived_spec S hS _ (earlySecret S psk) rfl]
  rfl

/-- **C35** handshake stage: with the early stage done and `k.server.transcript` holding ClientHello...ServerHello,
both directions get the RFC traffic secrets, keys and ivs, and sequence number 0. -/
theorem C35_handshake (hS : S.Lawful) (k : KeySchedule) (psk : Option Bytes) (dhe : Bytes)
    (hk : k.shared.secret = Spec.deriveSecret S (earlySecret S psk) "derived" []) :
    KeySchedule.initializeHandshakeSecret S dhe k = (.ok (),
      { shared := ⟨Spec.deriveSecret S (handshakeSecret S psk dhe) "derived" [], some (handshakeSecret S psk dhe)⟩,
        client := { k.client with st := trafficState S (clientHandshakeTraffic S psk dhe k.server.transcript) },
        server := { k.server with st := trafficState S (serverHandshakeTraffic S psk dhe k.server.transcript) } }) := by
  obtain ⟨⟨sec, hk0⟩, cl, sv⟩ := k
  simp only at hk
  subst hk
  unfold KeySchedule.initializeHandshakeSecret
  rw [M.modify_bind, M.bind_ok (traffic_spec S hS _ (handshakeSecret S psk dhe) rfl "c hs traffic" "s hs traffic"
    (by decide) (by decide)), onShared_derived S hS _ (handshakeSecret S psk dhe) rfl]
  rfl

/-- **C35** application stage: with the handshake stage done and `k.server.transcript` holding ClientHello...server
Finished. -/
theorem C35_application (hS : S.Lawful) (k : KeySchedule) (psk : Option Bytes) (dhe : Bytes)
    (hk : k.shared.secret = Spec.deriveSecret S (handshakeSecret S psk dhe) "derived" []) :
    KeySchedule.initializeMasterSecret S k = (.ok (),
      { shared := ⟨Spec.deriveSecret S (masterSecret S psk dhe) "derived" [], some (masterSecret S psk dhe)⟩,
        client := { k.client with st := trafficState S (clientApplicationTraffic S psk dhe k.server.transcript) },
        server := { k.server with st := trafficState S (serverApplicationTraffic S psk dhe k.server.transcript) } }) := by
  obtain ⟨⟨sec, hk0⟩, cl, sv⟩ := k
  simp only at hk
  subst hk
  unfold KeySchedule.initializeMasterSecret
  rw [M.modify_bind, M.bind_ok (traffic_spec S hS _ (masterSecret S psk dhe) rfl "c ap traffic" "s ap traffic"
    (by decide) (by decide)), onShared_derived S hS _ (masterSecret S psk dhe) rfl]
  rfl

/-- **C35** the whole schedule, for a handshake whose transcript is `t1` at the ServerHello and `t2` at the server
Finished: all three stages succeed, and the traffic states are the RFC values. -/
theorem C35_full (hS : S.Lawful) (psk : Option Bytes) (dhe t1 t2 : Bytes) :
    ∃ k1 k2 k3,
      KeySchedule.initializeEarlySecret S psk (KeySchedule.new S) = (.ok (), k1) ∧
      k1.client.binderKey = some (binderKey S psk) ∧
      KeySchedule.initializeHandshakeSecret S dhe (k1.replaceTranscript t1) = (.ok (), k2) ∧
      k2.client.st = trafficState S (clientHandshakeTraffic S psk dhe t1) ∧
      k2.server.st = trafficState S (serverHandshakeTraffic S psk dhe t1) ∧
      KeySchedule.initializeMasterSecret S (k2.replaceTranscript t2) = (.ok (), k3) ∧
      k3.client.st = trafficState S (clientApplicationTraffic S psk dhe t2) ∧
      k3.server.st = trafficState S (serverApplicationTraffic S psk dhe t2) := by
  refine ⟨_, _, _, C35_early S hS _ rfl psk, rfl, C35_handshake S hS _ psk dhe rfl, rfl, rfl,
    C35_application S hS _ psk dhe rfl, rfl, rfl⟩

example := C35_full toySuite toySuite_lawful (some [1]) [2] [3] [4]
example : writeKey toySuite (clientHandshakeTraffic toySuite (some [1]) [2] [3]) ≠
    writeKey toySuite (serverHandshakeTraffic toySuite (some [1]) [2] [3]) := by decide +kernel

/-- **C35** the client's Finished message. -/
theorem C35_client_finished (hS : S.Lawful) (k : KeySchedule) (secret : Bytes)
    (hk : k.client.st.trafficSecret = some secret) :
    k.createClientFinished S = .ok ⟨verifyData S secret k.server.transcript, none⟩ := by
  unfold KeySchedule.createClientFinished
  rw [hk, (C48_label_fits S hS secret "finished" (by decide) _ (small_le S hS).1).1]
  rfl

/-- **C35** the PSK binder. -/
theorem C35_psk_binder (hS : S.Lawful) (w : WriteKS) (psk : Option Bytes)
    (hk : w.binderKey = some (binderKey S psk)) (transcript : Bytes) :
    w.createPskBinder S transcript = .ok (verifyData S (binderKey S psk) transcript) := by
  unfold WriteKS.createPskBinder
  rw [hk, (C48_label_fits S hS _ "finished" (by decide) _ (small_le S hS).1).1]
  rfl

/-- **C35** the check of the server's Finished message: accepted exactly if it is the RFC value over the transcript
before the message. -/
theorem C35_server_finished (hS : S.Lawful) (r : ReadKS) (secret : Bytes) (hk : r.st.trafficSecret = some secret)
    (v msgs : Bytes) :
    ∃ b, r.verifyServerFinished S ⟨v, some (S.hash msgs)⟩ = .ok b ∧ (b = true ↔ v = verifyData S secret msgs) := by
  unfold ReadKS.verifyServerFinished
  rw [hk, (C48_label_fits S hS secret "finished" (by decide) _ (small_le S hS).1).1]
  refine ⟨_, rfl, ?_⟩
  simp only [decide_eq_true_eq]
  exact eq_comm

/-! ## C47 -/

/-- The nonce is the one of RFC 8446 section 5.3. -/
theorem C47_nonce_spec (hS : S.Sized) (c : Nat) (iv : Bytes) (hiv : iv.length = S.ivLen) :
    getNonce S c iv = nonce iv c := by
  unfold getNonce Spec.nonce
  rw [hiv, hS.ivLen_eq]
  rfl

theorem zipWith_xor_cancel (iv a b : Bytes) (ha : a.length = iv.length) (hb : b.length = iv.length)
    (h : List.zipWith (· ^^^ ·) iv a = List.zipWith (· ^^^ ·) iv b) : a = b := by
  induction iv generalizing a b with
  | nil =>
    simp only [List.length_nil, List.length_eq_zero_iff] at ha hb
    rw [ha, hb]
  | cons x iv ih =>
    match a, b, ha, hb with
    | y :: a, z :: b, ha, hb =>
      simp only [List.zipWith_cons_cons, List.cons.injEq] at h
      rw [UInt8.xor_right_inj] at h
      rw [h.1, ih a b (by simpa using ha) (by simpa using hb) h.2]

/-- **C47** for a fixed iv, different sequence numbers (below 2^64) give different nonces. -/
theorem C47_nonce_injective (hS : S.Lawful) (iv : Bytes) (hiv : iv.length = S.ivLen) (a b : Nat) (ha : a < 2 ^ 64)
    (hb : b < 2 ^ 64) (h : getNonce S a iv = getNonce S b iv) : a = b := by
  rw [C47_nonce_spec S hS a iv hiv, C47_nonce_spec S hS b iv hiv] at h
  have h8 : iv.length = 12 := by rw [hiv, hS.ivLen_eq]
  have := zipWith_xor_cancel iv _ _ (by simp; omega) (by simp; omega) h
  have := List.append_cancel_left this
  simp only [List.cons.injEq, and_true] at this
  obtain ⟨h1, h2, h3, h4, h5, h6, h7, h8⟩ := this
  have e1 := congrArg UInt8.toNat h1
  have e2 := congrArg UInt8.toNat h2
  have e3 := congrArg UInt8.toNat h3
  have e4 := congrArg UInt8.toNat h4
  have e5 := congrArg UInt8.toNat h5
  have e6 := congrArg UInt8.toNat h6
  have e7 := congrArg UInt8.toNat h7
  have e8 := congrArg UInt8.toNat h8
  simp only [UInt8.toNat_ofNat'] at e1 e2 e3 e4 e5 e6 e7 e8
  omega

/-- **C47** the sequence number never wraps: it either grows by one, staying below 2^64, or the operation panics. -/
theorem C47_no_wrap (k : KsState) (hk : k.counter < 2 ^ 64) :
    (∃ k', KsState.increment (ε := TlsError) k = (.ok (), k') ∧ k'.counter = k.counter + 1 ∧ k'.counter < 2 ^ 64 ∧
      k'.key = k.key ∧ k'.iv = k.iv) ∨
    (k.counter = 2 ^ 64 - 1 ∧ KsState.increment (ε := TlsError) k = (.panic, k)) := by
  unfold KsState.increment
  by_cases h : k.counter + 1 < 2 ^ 64
  · left; rw [if_pos h]; exact ⟨_, rfl, rfl, h, rfl, rfl⟩
  · right; rw [if_neg h]; exact ⟨by omega, rfl⟩

example : getNonce toySuite 258 [1, 1, 1, 1, 1, 1, 1, 1, 1, 1, 1, 1] = [1, 1, 1, 1, 1, 1, 1, 1, 1, 1, 0, 3] := by decide

end ETls
