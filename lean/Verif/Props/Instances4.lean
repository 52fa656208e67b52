import Verif.Props.HalfClose
import Verif.Props.Instances3
import Verif.Props.Rng
import Verif.Props.Nameless
import Verif.Props.SignedOnly
import Verif.Props.Duplex
import Verif.Props.AbortedOnly

/-! # The remaining theorems at concrete cases -/

namespace ETls

open Spec Crypto

-- C78_close, C79_duplex: a connection that the server closes, right after the handshake and after one byte was written
theorem closing_are : (exOpened [] closingRx).2.Are toySuite
    (Spec.justOpened (exOpened [] closingRx).2.rx.bytes (exOpened [] closingRx).2.tx.ctl) :=
  (open_are toySuite toySuite_lawful exCfg exProv () (exLife_new [] closingRx)
    (by
      intro e he
      rcases List.mem_cons.1 he with rfl | he
      · exact ⟨_, by decide +kernel, rfl⟩
      · exact ⟨_, by decide +kernel, List.mem_singleton.1 he⟩)
    (by rw [List.length_replicate]; decide) (exOpened_eq closing_opened)).1

example := C79_duplex toySuite toySuite_lawful [.writer (.write [5]), .reader (.read 10)] _ _ closing_are

set_option maxRecDepth 20000 in
example : (Conn.close toySuite (exOpened [] closingRx).2).1 = .ok () ∧
    (Conn.close toySuite (exOpened [] closingRx).2).2.tx.log.length = (exOpened [] closingRx).2.tx.log.length + 2 := by
  decide +kernel
example := C78_close toySuite toySuite_lawful.sized (exOpened [] closingRx).2 _ closing_are.writer

-- C65_common_name_partial: the leaf of `C65_refuted`
set_option maxRecDepth 20000 in
example : toyPki.utf8 [233] = false := by
  rcases hx : (pkiOps toyPki toySuite allFeatures (some 20) 1000).verifyCertificate [] (toyMsg [toyCert 1 3 10 50 "é" []]) (toyVerifier none)
    with ⟨r, v'⟩
  have hr : r = .ok () := by
    have h : ((pkiOps toyPki toySuite allFeatures (some 20) 1000).verifyCertificate [] (toyMsg [toyCert 1 3 10 50 "é" []]) (toyVerifier none)).1 =
        .ok () := by decide +kernel
    rw [hx] at h
    exact h
  subst hr
  exact C65_common_name_partial toySuite _ _ _ _ _ _ hx rfl _ [] rfl _ rfl [] [] ⟨[2, 5, 4, 3], [233]⟩ [] (by decide +kernel) rfl
    (by intro rdn h; cases h)

-- C123_encoding: the signature of OpenSSL's certificate
example {b : Bytes} (hb : ecdsaSig derTags b = some (0x64c9861e5e6049c653dcf1c394e7913083019fc22db8d72df6d48b8276ec509a,
      0x8d0f6b81482ae22c8091bd52eb8b8159a796bc43ca6b329d71acfd9cdfd2953c)) :
    b = ecdsaSigBytes 0x64c9861e5e6049c653dcf1c394e7913083019fc22db8d72df6d48b8276ec509a 0x8d0f6b81482ae22c8091bd52eb8b8159a796bc43ca6b329d71acfd9cdfd2953c :=
  C123_encoding derTags hb (by decide +kernel)

-- C102_once: two connections after each other with the generator of the examples
theorem recRng_twice : ((recRng.clientHello 5).bind fun x => x.2.2.clientHello 5).isSome = true := by decide +kernel

example (cfg : Config) (p : Provider Unit) (c₁ c₂ : Conn) : ∃ x₁ x₂ r₁ r₂ k₁ k₂,
    Conn.openRng (aes256GcmSha384 false) cfg p () 5 recRng c₁ = some (x₁, r₁) ∧
    Conn.openRng (aes256GcmSha384 false) cfg p () 5 r₁ c₂ = some (x₂, r₂) ∧ r₂.taken = 128 + 32 * (k₁ + k₂) := by
  have h := recRng_twice
  rw [Option.isSome_iff_exists] at h
  obtain ⟨y, h⟩ := h
  rw [Option.bind_eq_some_iff] at h
  obtain ⟨x, h1, h2⟩ := h
  have e1 : Conn.openRng (aes256GcmSha384 false) cfg p () 5 recRng c₁ =
      some (Conn.open_ (aes256GcmSha384 false) cfg { p with random := x.1, secret := x.2.1 } () c₁, x.2.2) := by rw [Conn.openRng, h1]; rfl
  have e2 : Conn.openRng (aes256GcmSha384 false) cfg p () 5 x.2.2 c₂ =
      some (Conn.open_ (aes256GcmSha384 false) cfg { p with random := y.1, secret := y.2.1 } () c₂, y.2.2) := by rw [Conn.openRng, h2]; rfl
  obtain ⟨k₁, k₂, -, -, -, -, -, -, h3, -⟩ := C102_once _ _ _ _ _ _ _ _ _ _ _ _ _ _ e1 e2
  exact ⟨_, _, _, _, k₁, k₂, e1, e2, by rw [h3]; show 0 + 128 + _ = _; omega⟩

-- native_neverAborts, webpki_neverAborts: clients with a key and without
example : NeverAborts trustingClient := native_neverAborts _ _ _ _ _ _ _ _ _ (by
  intro e h
  cases h
  rintro ⟨_, _, h⟩
  cases h)
example : NeverAborts webClient := webpki_neverAborts _ _ _ _ _ _ _ _ _ (by
  intro e h
  cases h
  rintro ⟨_, _, h⟩
  cases h)

end ETls
