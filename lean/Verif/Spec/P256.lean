import Verif.Spec.Sha2

/-! # The curve P-256, concretely

FIPS 186-4 D.1.2.3, SEC 1 point encoding (2.3.3, 2.3.4), ECDH and ECDSA verification.  Field elements are natural
numbers below `p256p`; points are Jacobian triples, those with last coordinate zero being the point at infinity. -/

namespace ETls.Crypto

def p256p : Nat := 0xffffffff00000001000000000000000000000000ffffffffffffffffffffffff
def p256n : Nat := 0xffffffff00000000ffffffffffffffffbce6faada7179e84f3b9cac2fc632551
def p256b : Nat := 0x5ac635d8aa3a93e7b3ebbd55769886bc651d06b0cc53b0f63bce3c3e27d2604b
def p256gx : Nat := 0x6b17d1f2e12c4247f8bce6e563a440f277037d812deb33a0f4a13945d898c296
def p256gy : Nat := 0x4fe342e2fe1a7f9b8ee7eb4a7c0f9e162bce33576b315ececbb6406837bf51f5

/-- Arithmetic modulo `m`. -/
def mmul (m a b : Nat) : Nat := a * b % m
def madd (m a b : Nat) : Nat := (a + b) % m
def msub (m a b : Nat) : Nat := (a + m - b % m) % m

/-- `acc ^ (2 ^ n) * a ^ (e mod 2 ^ n)` modulo `m`: the lowest `n` bits of `e`, most significant first. -/
def mpowAux (m a e : Nat) : Nat → Nat → Nat
  | 0, acc => acc
  | n + 1, acc =>
    eager (mmul m acc acc) fun sq => eager (if e.testBit n then mmul m sq a else sq) fun acc => mpowAux m a e n acc

/-- Powers for exponents below `2 ^ 256`. -/
def mpow (m a e : Nat) : Nat := mpowAux m a e 256 1

/-- The inverse modulo a prime. -/
def minv (m a : Nat) : Nat := mpow m a (m - 2)

structure Jac where
  x : Nat
  y : Nat
  z : Nat

/-- `⟨x, y, z⟩`, evaluated. -/
def jac (x y z : Nat) : Jac := eager x fun x => eager y fun y => eager z fun z => ⟨x, y, z⟩

/-- Doubling (the curve has a = -3). -/
def Jac.dbl (P : Jac) : Jac :=
  let m := p256p
  eager (mmul m P.y P.y) fun yy =>
  eager (mmul m 4 (mmul m P.x yy)) fun s =>
  eager (mmul m P.z P.z) fun zz =>
  eager (mmul m 3 (msub m (mmul m P.x P.x) (mmul m zz zz))) fun t =>
  eager (msub m (mmul m t t) (madd m s s)) fun x =>
  jac x (msub m (mmul m t (msub m s x)) (mmul m 8 (mmul m yy yy))) (mmul m 2 (mmul m P.y P.z))

/-- Addition. -/
def Jac.add (P Q : Jac) : Jac :=
  let m := p256p
  if P.z = 0 then Q
  else if Q.z = 0 then P
  else
    eager (mmul m P.z P.z) fun z1 =>
    eager (mmul m Q.z Q.z) fun z2 =>
    eager (mmul m P.x z2) fun u1 =>
    eager (mmul m Q.x z1) fun u2 =>
    eager (mmul m P.y (mmul m Q.z z2)) fun s1 =>
    eager (mmul m Q.y (mmul m P.z z1)) fun s2 =>
    eager (msub m u2 u1) fun h =>
    eager (msub m s2 s1) fun r =>
    if h = 0 then
      if r = 0 then P.dbl else ⟨1, 1, 0⟩
    else
      eager (mmul m h h) fun hh =>
      eager (mmul m h hh) fun hhh =>
      eager (mmul m u1 hh) fun v =>
      eager (msub m (mmul m r r) (madd m hhh (madd m v v))) fun x =>
      jac x (msub m (mmul m r (msub m v x)) (mmul m s1 hhh)) (mmul m h (mmul m P.z Q.z))

/-- The lowest `n` bits of `k`, most significant first: `2 ^ n * Q + (k mod 2 ^ n) * P`. -/
def smulAux (k : Nat) (P : Jac) : Nat → Jac → Jac
  | 0, Q => Q
  | n + 1, Q =>
    match Q.dbl with
    | ⟨x, y, z⟩ => smulAux k P n (if k.testBit n then Jac.add ⟨x, y, z⟩ P else ⟨x, y, z⟩)

/-- `k * P` for `k` below `2 ^ 256`. -/
def smul (k : Nat) (P : Jac) : Jac := smulAux k P 256 ⟨1, 1, 0⟩

/-- The affine coordinates (zero for the point at infinity). -/
def Jac.affine (P : Jac) : Nat × Nat :=
  eager (minv p256p P.z) fun zi => eager (mmul p256p zi zi) fun zz =>
  (mmul p256p P.x zz, mmul p256p P.y (mmul p256p zz zi))

def p256g : Jac := ⟨p256gx, p256gy, 1⟩

/-- x³ - 3x + b. -/
def p256rhs (x : Nat) : Nat :=
  madd p256p (msub p256p (mmul p256p x (mmul p256p x x)) (mmul p256p 3 x)) p256b

/-- SEC 1 uncompressed encoding. -/
def sec1Encode (xy : Nat × Nat) : Bytes := 0x04 :: (toBE 32 xy.1 ++ toBE 32 xy.2)

/-- SEC 1 decoding of uncompressed and compressed points other than infinity. -/
def sec1Decode (bs : Bytes) : Option Jac :=
  match bs with
  | [] => none
  | t :: rest =>
    let x := ofBE (rest.take 32)
    if t = 0x04 then
      let y := ofBE (rest.drop 32)
      if rest.length = 64 ∧ x < p256p ∧ y < p256p ∧ mmul p256p y y = p256rhs x then some ⟨x, y, 1⟩ else none
    else if t = 0x02 ∨ t = 0x03 then
      let y := mpow p256p (p256rhs x) ((p256p + 1) / 4)
      if rest.length = 32 ∧ x < p256p ∧ mmul p256p y y = p256rhs x then
        some ⟨x, if y % 2 = (t.toNat) % 2 then y else msub p256p 0 y, 1⟩
      else none
    else none

/-- The scalar of a secret key. -/
def scalarOf (secret : Bytes) : Nat := ofBE secret % p256n

/-- The public key of a secret key, uncompressed. -/
def p256Public (secret : Bytes) : Bytes := sec1Encode (smul (scalarOf secret) p256g).affine

/-- ECDH: the x coordinate of secret times peer point. -/
def p256Dh (secret peer : Bytes) : Option Bytes :=
  match sec1Decode peer with
  | some Q => some (toBE 32 (smul (scalarOf secret) Q).affine.1)
  | none => none

/-- ECDSA verification (FIPS 186-4 §6.4) of the numbers `r`, `s` for a message digest. -/
def ecdsaVerify (publicKey digest : Bytes) (r s : Nat) : Bool :=
  match sec1Decode publicKey with
  | none => false
  | some Q =>
    if 0 < r ∧ r < p256n ∧ 0 < s ∧ s < p256n then
      eager (minv p256n s) fun w =>
      let R := (smul (mmul p256n (ofBE (digest.take 32)) w) p256g).add (smul (mmul p256n r w) Q)
      R.z ≠ 0 ∧ R.affine.1 % p256n = r
    else false

theorem p256Public_length (secret : Bytes) : (p256Public secret).length = 65 := by
  simp [p256Public, sec1Encode, toBE_length]

end ETls.Crypto
