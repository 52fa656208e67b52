import Verif.Spec.P256

/-! # The curve P-384, concretely

FIPS 186-4 D.1.2.4, SEC 1 point encoding (2.3.3, 2.3.4) and ECDSA, as `Spec/P256` for the other curve. -/

namespace ETls.Crypto.P384

def p384p : Nat := 0xfffffffffffffffffffffffffffffffffffffffffffffffffffffffffffffffeffffffff0000000000000000ffffffff
def p384n : Nat := 0xffffffffffffffffffffffffffffffffffffffffffffffffc7634d81f4372ddf581a0db248b0a77aecec196accc52973
def p384b : Nat := 0xb3312fa7e23ee7e4988e056be3f82d19181d9c6efe8141120314088f5013875ac656398d8a2ed19d2a85c8edd3ec2aef
def p384gx : Nat := 0xaa87ca22be8b05378eb1c71ef320ad746e1d3b628ba79b9859f741e082542a385502f25dbf55296c3a545e3872760ab7
def p384gy : Nat := 0x3617de4a96262c6f5d9e98bf9292dc29f8f41dbd289a147ce9da3113b5f0b8c00a60b1ce1d7e819d7a431d7c90ea0e5f

/-- Powers for exponents below `2 ^ 384`. -/
def mpow (m a e : Nat) : Nat := mpowAux m a e 384 1

/-- The inverse modulo a prime. -/
def minv (m a : Nat) : Nat := mpow m a (m - 2)

structure Jac where
  x : Nat
  y : Nat
  z : Nat

/-- `⟨x, y, z⟩`, evaluated. -/
def jac (x y z : Nat) : Jac := eager x fun x => eager y fun y => eager z fun z => ⟨x, y, z⟩

/-- Doubling (the curve has a = -3). -/
def Jac.dbl (P : Jac) : Jac :=
  let m := p384p
  eager (mmul m P.y P.y) fun yy =>
  eager (mmul m 4 (mmul m P.x yy)) fun s =>
  eager (mmul m P.z P.z) fun zz =>
  eager (mmul m 3 (msub m (mmul m P.x P.x) (mmul m zz zz))) fun t =>
  eager (msub m (mmul m t t) (madd m s s)) fun x =>
  jac x (msub m (mmul m t (msub m s x)) (mmul m 8 (mmul m yy yy))) (mmul m 2 (mmul m P.y P.z))

/-- Addition. -/
def Jac.add (P Q : Jac) : Jac :=
  let m := p384p
  if P.z = 0 then Q
  else if Q.z = 0 then P
  else
    eager (mmul m P.z P.z) fun z1 =>
    eager (mmul m Q.z Q.z) fun z2 =>
    eager (mmul m P.x z2) fun u1 =>
    eager (mmul m Q.x z1) fun u2 =>
    eager (mmul m P.y (mmul m Q.z z2)) fun s1 =>
    eager (mmul m Q.y (mmul m P.z z1)) fun s2 =>
    eager (msub m u2 u1) fun h =>
    eager (msub m s2 s1) fun r =>
    if h = 0 then
      if r = 0 then P.dbl else ⟨1, 1, 0⟩
    else
      eager (mmul m h h) fun hh =>
      eager (mmul m h hh) fun hhh =>
      eager (mmul m u1 hh) fun v =>
      eager (msub m (mmul m r r) (madd m hhh (madd m v v))) fun x =>
      jac x (msub m (mmul m r (msub m v x)) (mmul m s1 hhh)) (mmul m h (mmul m P.z Q.z))

/-- The lowest `n` bits of `k`, most significant first: `2 ^ n * Q + (k mod 2 ^ n) * P`. -/
def smulAux (k : Nat) (P : Jac) : Nat → Jac → Jac
  | 0, Q => Q
  | n + 1, Q =>
    match Q.dbl with
    | ⟨x, y, z⟩ => smulAux k P n (if k.testBit n then Jac.add ⟨x, y, z⟩ P else ⟨x, y, z⟩)

/-- `k * P` for `k` below `2 ^ 384`. -/
def smul (k : Nat) (P : Jac) : Jac := smulAux k P 384 ⟨1, 1, 0⟩

/-- The affine coordinates (zero for the point at infinity). -/
def Jac.affine (P : Jac) : Nat × Nat :=
  eager (minv p384p P.z) fun zi => eager (mmul p384p zi zi) fun zz =>
  (mmul p384p P.x zz, mmul p384p P.y (mmul p384p zz zi))

def p384g : Jac := ⟨p384gx, p384gy, 1⟩

/-- x³ - 3x + b. -/
def p384rhs (x : Nat) : Nat :=
  madd p384p (msub p384p (mmul p384p x (mmul p384p x x)) (mmul p384p 3 x)) p384b

/-- SEC 1 uncompressed encoding. -/
def sec1Encode (xy : Nat × Nat) : Bytes := 0x04 :: (toBE 48 xy.1 ++ toBE 48 xy.2)

/-- SEC 1 decoding of uncompressed and compressed points other than infinity. -/
def sec1Decode (bs : Bytes) : Option Jac :=
  match bs with
  | [] => none
  | t :: rest =>
    let x := ofBE (rest.take 48)
    if t = 0x04 then
      let y := ofBE (rest.drop 48)
      if rest.length = 96 ∧ x < p384p ∧ y < p384p ∧ mmul p384p y y = p384rhs x then some ⟨x, y, 1⟩ else none
    else if t = 0x02 ∨ t = 0x03 then
      let y := mpow p384p (p384rhs x) ((p384p + 1) / 4)
      if rest.length = 48 ∧ x < p384p ∧ mmul p384p y y = p384rhs x then
        some ⟨x, if y % 2 = (t.toNat) % 2 then y else msub p384p 0 y, 1⟩
      else none
    else none

/-- ECDSA verification (FIPS 186-4 §6.4) of the numbers `r`, `s` for a message digest. -/
def ecdsaVerify (publicKey digest : Bytes) (r s : Nat) : Bool :=
  match sec1Decode publicKey with
  | none => false
  | some Q =>
    if 0 < r ∧ r < p384n ∧ 0 < s ∧ s < p384n then
      eager (minv p384n s) fun w =>
      let R := (smul (mmul p384n (ofBE (digest.take 48)) w) p384g).add (smul (mmul p384n r w) Q)
      R.z ≠ 0 ∧ R.affine.1 % p384n = r
    else false

/-- A non-negative INTEGER. -/
def derUintBytes (n : Nat) : Bytes :=
  let body := (toBE 49 n).dropWhile (· = 0)
  let body := if body.isEmpty ∨ 128 ≤ (body.headD 0).toNat then 0 :: body else body
  0x02 :: UInt8.ofNat body.length :: body

/-- ECDSA-Sig-Value. -/
def ecdsaSigBytes (r s : Nat) : Bytes :=
  let body := derUintBytes r ++ derUintBytes s
  0x30 :: UInt8.ofNat body.length :: body

/-- The public key of the secret scalar `d` as an uncompressed point. -/
def p384Key (d : Nat) : Bytes := sec1Encode (smul d p384g).affine

/-- `sig` is a signature of the message `m` with the private key `d` (FIPS 186-4 section 6.4, RFC 3279 section 2.2.3): for
some nonce `k`, `r` is the first coordinate of `k G` modulo the order, `s` satisfies `s k = z + r d` modulo the order, with `z` the
SHA-384 hash, and `sig` is the DER encoding of `r` and `s`. -/
def Signed (d : Nat) (m sig : Bytes) : Prop :=
  ∃ k r s, (0 < k ∧ k < p384n) ∧ (0 < r ∧ r < p384n) ∧ (0 < s ∧ s < p384n) ∧ (smul k p384g).affine.1 % p384n = r ∧
    s * k % p384n = (ofBE (sha384 m) + r * d) % p384n ∧ sig = ecdsaSigBytes r s

end ETls.Crypto.P384
