import Verif.Model.Libs
import Verif.Spec.KeySchedule

/-! # The concrete suites

C95: everything the other theorems assume of a suite (`Suite.Lawful`) holds for the two suites of the crate, with SHA-2, HMAC,
HKDF, AES-GCM and P-256 as published.  Below, published test vectors. -/

namespace ETls
open Crypto Spec

/-- The suites a user of the crate can choose (`config.rs:44-63`), with and without the feature `rsa`. -/
def Shipped (S : Suite) : Prop := ∃ rsa, S = aes128GcmSha256 rsa ∨ S = aes256GcmSha384 rsa

/-- **C95** The shipped suites are lawful. -/
theorem C95_lawful (S : Suite) (h : Shipped S) : S.Lawful := by
  obtain ⟨rsa, rfl | rfl⟩ := h
  · exact aes128GcmSha256_lawful rsa
  · exact aes256GcmSha384_lawful rsa

/-- **C95, the AEAD** For every key, nonce, additional data and text: what AES-GCM seals it opens again, the sealed text is one
tag longer, and nothing shorter than a tag opens. -/
theorem C95_gcm (key nonce ad p : Bytes) :
    gcmOpen key nonce ad (gcmCt key nonce ad p ++ gcmTagOf key nonce ad (gcmCt key nonce ad p)) = some p ∧
    (gcmCt key nonce ad p ++ gcmTagOf key nonce ad (gcmCt key nonce ad p)).length = p.length + 16 ∧
    ∀ c, c.length < 16 → gcmOpen key nonce ad c = none :=
  ⟨gcmOpen_seal key nonce ad p, by simp [gcmCt_length, gcmTagOf_length], fun c hc => by simp [gcmOpen, hc]⟩

example : Shipped (aes128GcmSha256 false) := ⟨false, .inl rfl⟩
example : Shipped (aes256GcmSha384 true) := ⟨true, .inr rfl⟩

/-! ## FIPS 180-4, SP 800-38D, RFC 4231, RFC 6979 -/

section vectors
set_option maxRecDepth 20000

example : sha256 (ascii "abc") = toBE 32 0xba7816bf8f01cfea414140de5dae2223b00361a396177a9cb410ff61f20015ad := by
  decide +kernel
example : sha256 (ascii "abcdbcdecdefdefgefghfghighijhijkijkljklmklmnlmnomnopnopq") =
    toBE 32 0x248d6a61d20638b8e5c026930c3e6039a33ce45964ff2167f6ecedd419db06c1 := by decide +kernel
example : sha384 (ascii "abc") = toBE 48
    0xcb00753f45a35e8bb5a03d699ac65007272c32ab0eded1631a8b605a43ff5bed8086072ba1e7cc2358baeca134c825a7 := by
  decide +kernel
example : hSha256.hmac (ascii "Jefe") (ascii "what do ya want for nothing?") =
    toBE 32 0x5bdcc146bf60754e6a042426089575c75a003f089d2739839dec58b964ec3843 := by decide +kernel
example : hSha384.hmac (ascii "Jefe") (ascii "what do ya want for nothing?") = toBE 48
    0xaf45d2e376484031617f78d2b58a6b1b9c7ef464f5a01b47e42ec3736322445e8e2240ca5e69e2c78b3239ecfab21649 := by
  decide +kernel
example : gcmCt (toBE 16 0) (toBE 12 0) [] (toBE 16 0) = toBE 16 0x0388dace60b6a392f328c2b971b2fe78 := by decide +kernel
example : gcmTagOf (toBE 16 0) (toBE 12 0) [] (toBE 16 0x0388dace60b6a392f328c2b971b2fe78) =
    toBE 16 0xab6e47d42cec13bdf53a67b21257bddf := by decide +kernel
example : gcmCt (toBE 32 0) (toBE 12 0) [] (toBE 16 0) = toBE 16 0xcea7403d4d606b6e074ec5d3baf39d18 := by decide +kernel
example : gcmTagOf (toBE 32 0) (toBE 12 0) [] (toBE 16 0xcea7403d4d606b6e074ec5d3baf39d18) =
    toBE 16 0xd0d1c8a799996bf0265b98b5d48ab919 := by decide +kernel
example : ecdsaSign 0xC9AFA9D845BA75166B5C215767B1D6934E50C3DB36E89B127B8A622B120F6721 (ascii "sample") =
    some (ecdsaSigBytes 0xEFD48B2AACB6A8FD1140DD9CD45E81D69D2C877B56AAF991C34D0EA84EAF3716
      0xF7CB1C942D657C41D436C7A1B6E29F65F3E900DBB9AFF4064DC4AB2F843ACDA8) := by decide +kernel

/-! ## The key schedule of RFC 8446 on the first trace of RFC 8448

That trace uses another group; from the shared secret on everything is as here. -/

/-- ClientHello and ServerHello of RFC 8448 §3. -/
def rfc8448Hellos : Bytes := toBE 286
  0x010000c00303cb34ecb1e78163ba1c38c6dacb196a6dffa21a8d9912ec18a2ef6283024dece7000006130113031302010000910000000b0009000006736572766572ff01000100000a00140012001d0017001800190100010101020103010400230000003300260024001d002099381de560e4bd43d23d8e435a7dbafeb3c06e51c13cae4d5413691e529aaf2c002b0003020304000d0020001e040305030603020308040805080604010501060102010402050206020202002d00020101001c00024001020000560303a6af06a4121860dc5e6e60249cd34c95930c8ac5cb1434dac155772ed3e2692800130100002e00330024001d0020c9828876112095fe66762bdbf7c672e156d6cc253b833df1dd69b1b04e751f0f002b00020304

/-- The shared secret. -/
def rfc8448Dhe : Bytes := toBE 32 0x8bd4054fb55b9d63fdfbacf9f04b9f0d35e6d63f537563efd46272900f89492d

example : earlySecret (aes128GcmSha256 false) none =
    toBE 32 0x33ad0a1c607ec03b09e6cd9893680ce210adf300aa1f2660e1b22e10f170f92a := by decide +kernel
example : handshakeSecret (aes128GcmSha256 false) none rfc8448Dhe =
    toBE 32 0x1dc826e93606aa6fdc0aadc12f741b01046aa6b99f691ed221a9f0ca043fbeac := by decide +kernel
example : clientHandshakeTraffic (aes128GcmSha256 false) none rfc8448Dhe rfc8448Hellos =
    toBE 32 0xb3eddb126e067f35a780b3abf45e2d8f3b1a950738f52e9600746a0e27a55a21 := by decide +kernel
example : serverHandshakeTraffic (aes128GcmSha256 false) none rfc8448Dhe rfc8448Hellos =
    toBE 32 0xb67b7d690cc16c4e75e54213cb2d37b4e9c912bcded9105d42befd59d391ad38 := by decide +kernel
example : writeKey (aes128GcmSha256 false)
    (serverHandshakeTraffic (aes128GcmSha256 false) none rfc8448Dhe rfc8448Hellos) =
    toBE 16 0x3fce516009c21727d0f2e4e86ee403bc := by decide +kernel
example : writeIv (aes128GcmSha256 false)
    (serverHandshakeTraffic (aes128GcmSha256 false) none rfc8448Dhe rfc8448Hellos) =
    toBE 12 0x5d313eb2671276ee13000b30 := by decide +kernel
example : masterSecret (aes128GcmSha256 false) none rfc8448Dhe =
    toBE 32 0x18df06843d13a08bf2a449844c5f8a478001bc4d4c627984d5a41da8d0402919 := by decide +kernel

end vectors

end ETls
