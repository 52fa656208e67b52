import Verif.Model.Basic

/-! # SHA-256, SHA-384, HMAC and HKDF, concretely

Transcribed from FIPS 180-4, RFC 2104 and RFC 5869; words are natural numbers below `2 ^ w`. -/

namespace ETls.Crypto

/-- `n` in big-endian order, on exactly `len` bytes. -/
def toBE : (len : Nat) → Nat → Bytes
  | 0, _ => []
  | len + 1, n => UInt8.ofNat (n / 256 ^ len) :: toBE len n

/-- The number a byte string denotes in big-endian order. -/
def ofBE (bs : Bytes) : Nat := bs.foldl (fun a b => a * 256 + b.toNat) 0

/-- `f n`, evaluating `n` first (only matters to how fast the kernel computes). -/
def eager {α : Type} (n : Nat) (f : Nat → α) : α :=
  match n with
  | 0 => f 0
  | k + 1 => f (k + 1)

@[simp] theorem eager_eq {α : Type} (n : Nat) (f : Nat → α) : eager n f = f n := by cases n <;> rfl

theorem toBE_length (len n : Nat) : (toBE len n).length = len := by
  induction len with
  | zero => rfl
  | succ k ih => simp [toBE, ih]

/-! ## The compression functions

The arithmetic is written with the functions of `Nat` directly, which the kernel computes fastest. -/

/-- The parameters in which SHA-256 and SHA-512 differ: word size in bits, `2 ^ w`, block size and length field in bytes,
rotation amounts of Σ0, Σ1, σ0, σ1 (the last of σ is a shift) and the round constants. -/
structure Sha2 where
  w : Nat
  modulus : Nat
  blockLen : Nat
  lenLen : Nat
  bigS0 : Nat × Nat × Nat
  bigS1 : Nat × Nat × Nat
  smallS0 : Nat × Nat × Nat
  smallS1 : Nat × Nat × Nat
  k : List Nat

/-- The eight working variables. -/
structure HState where
  a : Nat
  b : Nat
  c : Nat
  d : Nat
  e : Nat
  f : Nat
  g : Nat
  h : Nat

/-- Two copies of a word side by side: a shift to the right, modulo `2 ^ w`, is a rotation of the word. -/
def Sha2.twice (P : Sha2) (x : Nat) : Nat := Nat.add (Nat.mul x P.modulus) x

/-- Σ: exclusive or of three rotations. -/
def Sha2.bigSigma (P : Sha2) : Nat × Nat × Nat → Nat → Nat
  | (r1, r2, r3), x =>
    eager (P.twice x) fun xx =>
    Nat.mod (Nat.xor (Nat.xor (Nat.shiftRight xx r1) (Nat.shiftRight xx r2)) (Nat.shiftRight xx r3)) P.modulus

/-- σ: exclusive or of two rotations and a shift. -/
def Sha2.smallSigma (P : Sha2) : Nat × Nat × Nat → Nat → Nat
  | (r1, r2, s), x =>
    eager (P.twice x) fun xx =>
    Nat.xor (Nat.mod (Nat.xor (Nat.shiftRight xx r1) (Nat.shiftRight xx r2)) P.modulus) (Nat.shiftRight x s)

/-- Ch(x, y, z): the bits of `y` where `x` has ones and of `z` where it has zeros. -/
def ch (x y z : Nat) : Nat := Nat.xor z (Nat.land x (Nat.xor y z))

/-- Maj(x, y, z): the majority of the three bits. -/
def maj (x y z : Nat) : Nat := Nat.xor (Nat.land x y) (Nat.land z (Nat.xor x y))

/-- The rounds for the remaining constants, from the working variables `a` to `h`; `w0` to `w15` are the next sixteen words
of the message schedule. -/
def Sha2.rounds (P : Sha2) : List Nat →
    (a b c d e f g h w0 w1 w2 w3 w4 w5 w6 w7 w8 w9 w10 w11 w12 w13 w14 w15 : Nat) → HState
  | [], a, b, c, d, e, f, g, h, _, _, _, _, _, _, _, _, _, _, _, _, _, _, _, _ => ⟨a, b, c, d, e, f, g, h⟩
  | k :: ks, a, b, c, d, e, f, g, h, w0, w1, w2, w3, w4, w5, w6, w7, w8, w9, w10, w11, w12, w13, w14, w15 =>
    eager (Nat.add (Nat.add (Nat.add (Nat.add h (P.bigSigma P.bigS1 e)) (ch e f g)) k) w0) fun t1 =>
    eager (Nat.mod (Nat.add (Nat.add t1 (P.bigSigma P.bigS0 a)) (maj a b c)) P.modulus) fun a' =>
    eager (Nat.mod (Nat.add d t1) P.modulus) fun e' =>
    eager (Nat.mod (Nat.add (Nat.add (Nat.add (P.smallSigma P.smallS1 w14) w9) (P.smallSigma P.smallS0 w1)) w0) P.modulus)
      fun w16 =>
    P.rounds ks a' a b c e' e f g w1 w2 w3 w4 w5 w6 w7 w8 w9 w10 w11 w12 w13 w14 w15 w16

/-- The words of a block. -/
def words (wb : Nat) : Nat → Bytes → List Nat
  | 0, _ => []
  | n + 1, bs => eager (ofBE (bs.take wb)) fun x => x :: words wb n (bs.drop wb)

/-- One block into the hash state. -/
def Sha2.compress (P : Sha2) (s : HState) (block : Bytes) : HState :=
  match words (Nat.div P.w 8) 16 block with
  | [w0, w1, w2, w3, w4, w5, w6, w7, w8, w9, w10, w11, w12, w13, w14, w15] =>
    match P.rounds P.k s.a s.b s.c s.d s.e s.f s.g s.h w0 w1 w2 w3 w4 w5 w6 w7 w8 w9 w10 w11 w12 w13 w14 w15 with
    | ⟨a, b, c, d, e, f, g, h⟩ =>
      eager (Nat.mod (Nat.add s.a a) P.modulus) fun a => eager (Nat.mod (Nat.add s.b b) P.modulus) fun b =>
      eager (Nat.mod (Nat.add s.c c) P.modulus) fun c => eager (Nat.mod (Nat.add s.d d) P.modulus) fun d =>
      eager (Nat.mod (Nat.add s.e e) P.modulus) fun e => eager (Nat.mod (Nat.add s.f f) P.modulus) fun f =>
      eager (Nat.mod (Nat.add s.g g) P.modulus) fun g => eager (Nat.mod (Nat.add s.h h) P.modulus) fun h =>
      ⟨a, b, c, d, e, f, g, h⟩
  | _ => s

/-- `n` blocks. -/
def Sha2.blocks (P : Sha2) : Nat → HState → Bytes → HState
  | 0, s, _ => s
  | n + 1, s, bs => P.blocks n (P.compress s (bs.take P.blockLen)) (bs.drop P.blockLen)

/-- The message, a one bit, zeros, and the length in bits. -/
def Sha2.pad (P : Sha2) (m : Bytes) : Bytes :=
  m ++ 0x80 :: (List.replicate ((P.blockLen - (m.length + 1 + P.lenLen) % P.blockLen) % P.blockLen) 0
    ++ toBE P.lenLen (8 * m.length))

/-- The eight words of the state as bytes. -/
def HState.bytes (s : HState) (wb : Nat) : Bytes :=
  toBE wb s.a ++ toBE wb s.b ++ toBE wb s.c ++ toBE wb s.d ++ toBE wb s.e ++ toBE wb s.f ++ toBE wb s.g ++ toBE wb s.h

/-- Merkle–Damgård from an initial state. -/
def Sha2.hashFrom (P : Sha2) (iv : HState) (m : Bytes) : Bytes :=
  (P.blocks ((P.pad m).length / P.blockLen) iv (P.pad m)).bytes (P.w / 8)

theorem HState.bytes_length (s : HState) (wb : Nat) : (s.bytes wb).length = 8 * wb := by
  simp [HState.bytes, toBE_length]; omega

/-- The 32-bit family (FIPS 180-4 §4.1.2, §4.2.2). -/
def sha2w32 : Sha2 where
  w := 32
  modulus := 0x100000000
  blockLen := 64
  lenLen := 8
  bigS0 := (2, 13, 22)
  bigS1 := (6, 11, 25)
  smallS0 := (7, 18, 3)
  smallS1 := (17, 19, 10)
  k := [
   0x428a2f98, 0x71374491, 0xb5c0fbcf, 0xe9b5dba5, 0x3956c25b, 0x59f111f1, 0x923f82a4, 0xab1c5ed5,
   0xd807aa98, 0x12835b01, 0x243185be, 0x550c7dc3, 0x72be5d74, 0x80deb1fe, 0x9bdc06a7, 0xc19bf174,
   0xe49b69c1, 0xefbe4786, 0x0fc19dc6, 0x240ca1cc, 0x2de92c6f, 0x4a7484aa, 0x5cb0a9dc, 0x76f988da,
   0x983e5152, 0xa831c66d, 0xb00327c8, 0xbf597fc7, 0xc6e00bf3, 0xd5a79147, 0x06ca6351, 0x14292967,
   0x27b70a85, 0x2e1b2138, 0x4d2c6dfc, 0x53380d13, 0x650a7354, 0x766a0abb, 0x81c2c92e, 0x92722c85,
   0xa2bfe8a1, 0xa81a664b, 0xc24b8b70, 0xc76c51a3, 0xd192e819, 0xd6990624, 0xf40e3585, 0x106aa070,
   0x19a4c116, 0x1e376c08, 0x2748774c, 0x34b0bcb5, 0x391c0cb3, 0x4ed8aa4a, 0x5b9cca4f, 0x682e6ff3,
   0x748f82ee, 0x78a5636f, 0x84c87814, 0x8cc70208, 0x90befffa, 0xa4506ceb, 0xbef9a3f7, 0xc67178f2]

/-- The 64-bit family (FIPS 180-4 §4.1.3, §4.2.3). -/
def sha2w64 : Sha2 where
  w := 64
  modulus := 0x10000000000000000
  blockLen := 128
  lenLen := 16
  bigS0 := (28, 34, 39)
  bigS1 := (14, 18, 41)
  smallS0 := (1, 8, 7)
  smallS1 := (19, 61, 6)
  k := [
   0x428a2f98d728ae22, 0x7137449123ef65cd, 0xb5c0fbcfec4d3b2f, 0xe9b5dba58189dbbc,
   0x3956c25bf348b538, 0x59f111f1b605d019, 0x923f82a4af194f9b, 0xab1c5ed5da6d8118,
   0xd807aa98a3030242, 0x12835b0145706fbe, 0x243185be4ee4b28c, 0x550c7dc3d5ffb4e2,
   0x72be5d74f27b896f, 0x80deb1fe3b1696b1, 0x9bdc06a725c71235, 0xc19bf174cf692694,
   0xe49b69c19ef14ad2, 0xefbe4786384f25e3, 0x0fc19dc68b8cd5b5, 0x240ca1cc77ac9c65,
   0x2de92c6f592b0275, 0x4a7484aa6ea6e483, 0x5cb0a9dcbd41fbd4, 0x76f988da831153b5,
   0x983e5152ee66dfab, 0xa831c66d2db43210, 0xb00327c898fb213f, 0xbf597fc7beef0ee4,
   0xc6e00bf33da88fc2, 0xd5a79147930aa725, 0x06ca6351e003826f, 0x142929670a0e6e70,
   0x27b70a8546d22ffc, 0x2e1b21385c26c926, 0x4d2c6dfc5ac42aed, 0x53380d139d95b3df,
   0x650a73548baf63de, 0x766a0abb3c77b2a8, 0x81c2c92e47edaee6, 0x92722c851482353b,
   0xa2bfe8a14cf10364, 0xa81a664bbc423001, 0xc24b8b70d0f89791, 0xc76c51a30654be30,
   0xd192e819d6ef5218, 0xd69906245565a910, 0xf40e35855771202a, 0x106aa07032bbd1b8,
   0x19a4c116b8d2d0c8, 0x1e376c085141ab53, 0x2748774cdf8eeb99, 0x34b0bcb5e19b48a8,
   0x391c0cb3c5c95a63, 0x4ed8aa4ae3418acb, 0x5b9cca4f7763e373, 0x682e6ff3d6b2b8a3,
   0x748f82ee5defb2fc, 0x78a5636f43172f60, 0x84c87814a1f0ab72, 0x8cc702081a6439ec,
   0x90befffa23631e28, 0xa4506cebde82bde9, 0xbef9a3f7b2c67915, 0xc67178f2e372532b,
   0xca273eceea26619c, 0xd186b8c721c0c207, 0xeada7dd6cde0eb1e, 0xf57d4f7fee6ed178,
   0x06f067aa72176fba, 0x0a637dc5a2c898a6, 0x113f9804bef90dae, 0x1b710b35131c471b,
   0x28db77f523047d84, 0x32caab7b40c72493, 0x3c9ebe0a15c9bebc, 0x431d67c49c100d4c,
   0x4cc5d4becb3e42b6, 0x597f299cfc657e2a, 0x5fcb6fab3ad6faec, 0x6c44198c4a475817]

/-- FIPS 180-4 §5.3.3. -/
def sha256Iv : HState :=
  ⟨0x6a09e667, 0xbb67ae85, 0x3c6ef372, 0xa54ff53a, 0x510e527f, 0x9b05688c, 0x1f83d9ab, 0x5be0cd19⟩

/-- FIPS 180-4 §5.3.4. -/
def sha384Iv : HState :=
  ⟨0xcbbb9d5dc1059ed8, 0x629a292a367cd507, 0x9159015a3070dd17, 0x152fecd8f70e5939,
   0x67332667ffc00b31, 0x8eb44a8768581511, 0xdb0c2e0d64f98fa7, 0x47b5481dbefa4fa4⟩

def sha256 (m : Bytes) : Bytes := sha2w32.hashFrom sha256Iv m

/-- SHA-512 from another initial state, truncated. -/
def sha384 (m : Bytes) : Bytes := (sha2w64.hashFrom sha384Iv m).take 48

theorem sha256_length (m : Bytes) : (sha256 m).length = 32 := HState.bytes_length _ 4

theorem sha384_length (m : Bytes) : (sha384 m).length = 48 := by
  have h : (sha2w64.hashFrom sha384Iv m).length = 64 := HState.bytes_length _ 8
  simp [sha384, h]

/-! ## HMAC (RFC 2104) and HKDF (RFC 5869) -/

/-- A hash function with its block length in bytes. -/
structure Hash where
  run : Bytes → Bytes
  len : Nat
  block : Nat
  run_length : ∀ m, (run m).length = len

def hSha256 : Hash := ⟨sha256, 32, 64, sha256_length⟩
def hSha384 : Hash := ⟨sha384, 48, 128, sha384_length⟩

/-- The key, hashed if longer than a block, filled with zeros to a block. -/
def Hash.hmacKey (H : Hash) (k : Bytes) : Bytes :=
  let k' := if H.block < k.length then H.run k else k
  k' ++ List.replicate (H.block - k'.length) 0

/-- H((K ⊕ opad) ‖ H((K ⊕ ipad) ‖ m)). -/
def Hash.hmac (H : Hash) (k m : Bytes) : Bytes :=
  H.run ((H.hmacKey k).map (· ^^^ 0x5c) ++ H.run ((H.hmacKey k).map (· ^^^ 0x36) ++ m))

/-- HKDF-Extract. -/
def Hash.extract (H : Hash) (salt ikm : Bytes) : Bytes := H.hmac salt ikm

/-- T(i+1) ‖ T(i+2) ‖ … , `n` blocks of them, when the block before is `prev`. -/
def Hash.expandBlocks (H : Hash) (prk info : Bytes) : Nat → Nat → Bytes → Bytes
  | 0, _, _ => []
  | n + 1, i, prev =>
    let t := H.hmac prk (prev ++ info ++ [UInt8.ofNat (i + 1)])
    t ++ H.expandBlocks prk info n (i + 1) t

/-- HKDF-Expand; RFC 5869 defines it for lengths up to 255 hash lengths. -/
def Hash.expand (H : Hash) (prk info : Bytes) (len : Nat) : Bytes :=
  (H.expandBlocks prk info ((len + H.len - 1) / H.len) 0 []).take len

theorem Hash.hmac_length (H : Hash) (k m : Bytes) : (H.hmac k m).length = H.len := H.run_length _

theorem Hash.expandBlocks_length (H : Hash) (prk info : Bytes) (n i : Nat) (prev : Bytes) :
    (H.expandBlocks prk info n i prev).length = n * H.len := by
  induction n generalizing i prev with
  | zero => simp [Hash.expandBlocks]
  | succ n ih => simp [Hash.expandBlocks, ih, H.hmac_length, Nat.succ_mul]; omega

theorem Hash.expand_length (H : Hash) (hp : 1 ≤ H.len) (prk info : Bytes) (len : Nat) :
    (H.expand prk info len).length = len := by
  have h : len ≤ (len + H.len - 1) / H.len * H.len := by
    have h1 := Nat.div_add_mod (len + H.len - 1) H.len
    have h2 := Nat.mod_lt (len + H.len - 1) hp
    rw [Nat.mul_comm] at h1
    omega
  simp [Hash.expand, H.expandBlocks_length, h]

end ETls.Crypto
