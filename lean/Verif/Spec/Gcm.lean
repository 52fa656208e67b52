import Verif.Spec.Sha2

/-! # AES and AES-GCM, concretely

Transcribed from FIPS 197 and NIST SP 800-38D; bytes of the cipher state and the elements of GF(2^128) are natural
numbers. -/

namespace ETls.Crypto

/-- The S-box, the value for byte `i` at bits `8 i` to `8 i + 7`. -/
def sboxTable : Nat := 0x16bb54b00f2d99416842e6bf0d89a18cdf2855cee9871e9b948ed9691198f8e19e1dc186b95735610ef6034866b53e708a8bbd4b1f74dde8c6b4a61c2e2578ba08ae7a65eaf4566ca94ed58d6d37c8e779e4959162acd3c25c2406490a3a32e0db0b5ede14b8ee4688902a22dc4f816073195d643d7ea7c41744975fec130ccdd2f3ff1021dab6bcf5389d928f40a351a89f3c507f02f94585334d43fbaaefd0cf584c4a39becb6a5bb1fc20ed00d153842fe329b3d63b52a05a6e1b1a2c830975b227ebe28012079a059618c323c7041531d871f1e5a534ccf73f362693fdb7c072a49cafa2d4adf04759fa7dc982ca76abd7fe2b670130c56f6bf27b777c63

/-- SubBytes on one byte. -/
def sbox (x : Nat) : Nat := (sboxTable >>> (8 * x)) &&& 0xff

/-- Multiplication by x in GF(2^8). -/
def xtime (x : Nat) : Nat := if x < 128 then 2 * x else (2 * x) ^^^ 0x11b

/-- Evaluate the elements of a list before going on (see `eager`). -/
def eagerList {α : Type} : List Nat → (List Nat → α) → α
  | [], f => f []
  | x :: xs, f => eager x fun x => eagerList xs fun xs => f (x :: xs)

@[simp] theorem eagerList_eq {α : Type} (l : List Nat) (f : List Nat → α) : eagerList l f = f l := by
  induction l generalizing f with
  | nil => rfl
  | cons x xs ih => simp [eagerList, ih]

/-- Exclusive or, position by position. -/
def xorL (a b : List Nat) : List Nat := List.zipWith (· ^^^ ·) a b

/-- ShiftRows (the state column by column). -/
def shiftRows : List Nat → List Nat
  | [a0, a1, a2, a3, b0, b1, b2, b3, c0, c1, c2, c3, d0, d1, d2, d3] =>
    [a0, b1, c2, d3, b0, c1, d2, a3, c0, d1, a2, b3, d0, a1, b2, c3]
  | s => s

/-- MixColumns, column by column. -/
def mixColumns : List Nat → List Nat
  | a :: b :: c :: d :: rest =>
    (xtime a ^^^ (xtime b ^^^ b) ^^^ c ^^^ d) :: (a ^^^ xtime b ^^^ (xtime c ^^^ c) ^^^ d)
      :: (a ^^^ b ^^^ xtime c ^^^ (xtime d ^^^ d)) :: ((xtime a ^^^ a) ^^^ b ^^^ c ^^^ xtime d) :: mixColumns rest
  | s => s

/-- Rotate a word by one byte. -/
def rotWord : List Nat → List Nat
  | a :: rest => rest ++ [a]
  | [] => []

/-- Key expansion: `i` is the index of the next word, `ws` the words so far, newest first. -/
def expandKey (nk : Nat) : Nat → Nat → Nat → List (List Nat) → List (List Nat)
  | 0, _, _, ws => ws
  | n + 1, i, rcon, ws =>
    let prev := ws.headD []
    let t :=
      if i % nk = 0 then
        match rotWord (prev.map sbox) with
        | a :: rest => (a ^^^ rcon) :: rest
        | [] => []
      else if 6 < nk ∧ i % nk = 4 then prev.map sbox
      else prev
    eager (if i % nk = 0 then xtime rcon else rcon) fun rcon =>
    eagerList (xorL (ws.getD (nk - 1) []) t) fun w => expandKey nk n (i + 1) rcon (w :: ws)

/-- The first `n` words of a key, in order. -/
def keyWords : Nat → List Nat → List (List Nat)
  | 0, _ => []
  | n + 1, k => k.take 4 :: keyWords n (k.drop 4)

/-- Groups of four words. -/
def groups4 : List (List Nat) → List (List Nat)
  | a :: b :: c :: d :: rest => (a ++ b ++ c ++ d) :: groups4 rest
  | _ => []

/-- The round keys of a key of 16 or 32 bytes. -/
def roundKeys (key : List Nat) : List (List Nat) :=
  let nk := key.length / 4
  groups4 (expandKey nk (4 * (nk + 7) - nk) nk 1 (keyWords nk key).reverse).reverse

/-- The rounds after the first round key. -/
def aesRounds : List (List Nat) → List Nat → List Nat
  | [], s => s
  | [k], s => xorL (shiftRows (s.map sbox)) k
  | k :: ks, s => eagerList (s.map sbox) fun s => eagerList (xorL (mixColumns (shiftRows s)) k) fun s => aesRounds ks s

/-- The cipher on one block, given the round keys. -/
def aesBlock : List (List Nat) → List Nat → List Nat
  | [], s => s
  | k :: ks, s => eagerList (xorL s k) fun s => aesRounds ks s

def nats (bs : Bytes) : List Nat := bs.map UInt8.toNat
def bytesOf (l : List Nat) : Bytes := l.map UInt8.ofNat

/-- The number of a list of byte values in big-endian order. -/
def ofNats (l : List Nat) : Nat := l.foldl (fun a b => a * 256 + b) 0

/-- `n` on `len` byte values. -/
def toNats : (len : Nat) → Nat → List Nat
  | 0, _ => []
  | len + 1, n => (n / 256 ^ len % 256) :: toNats len n

/-- The cipher on a block given as a number. -/
def aesNum (rk : List (List Nat)) (x : Nat) : Nat := ofNats (aesBlock rk (toNats 16 x))

/-- Product in GF(2^128) (SP 800-38D §6.3): `n` bits of `x` still to come (most significant first), accumulator `z`,
current multiple `v`. -/
def gmulAux (x : Nat) : Nat → Nat → Nat → Nat
  | 0, z, _ => z
  | n + 1, z, v =>
    eager (if x.testBit n then z ^^^ v else z) fun z =>
    eager (if v % 2 = 0 then v >>> 1 else (v >>> 1) ^^^ (0xe1 <<< 120)) fun v => gmulAux x n z v

def gmul (x y : Nat) : Nat := gmulAux x 128 0 y

/-- `n` blocks of GHASH from `acc`. -/
def ghashAux (h : Nat) : Nat → Nat → Bytes → Nat
  | 0, acc, _ => acc
  | n + 1, acc, bs => eager (gmul (acc ^^^ ofBE (bs.take 16)) h) fun acc => ghashAux h n acc (bs.drop 16)

def ghash (h : Nat) (bs : Bytes) : Nat := ghashAux h (bs.length / 16) 0 bs

/-- Zeros up to a multiple of sixteen bytes. -/
def pad16 (bs : Bytes) : Bytes := bs ++ List.replicate ((16 - bs.length % 16) % 16) 0

/-- inc32: the last 32 bits of a counter block count up. -/
def inc32 (x : Nat) : Nat := x / 2 ^ 32 * 2 ^ 32 + (x + 1) % 2 ^ 32

/-- `n` blocks of key stream, the first from the counter after `cb`. -/
def keyStream (rk : List (List Nat)) : Nat → Nat → Bytes
  | 0, _ => []
  | n + 1, cb => eager (inc32 cb) fun cb => eager (aesNum rk cb) fun k => toBE 16 k ++ keyStream rk n cb

/-- The first counter block. -/
def j0 (h : Nat) (iv : Bytes) : Nat :=
  if iv.length = 12 then ofBE iv * 2 ^ 32 + 1
  else ghash h (pad16 iv ++ toBE 16 (8 * iv.length))

/-- GCTR from the counter after `j`. -/
def gctr (rk : List (List Nat)) (j : Nat) (p : Bytes) : Bytes :=
  List.zipWith (· ^^^ ·) p (keyStream rk ((p.length + 15) / 16) j)

/-- The tag over additional data and ciphertext. -/
def gcmTag (rk : List (List Nat)) (h j : Nat) (ad c : Bytes) : Bytes :=
  toBE 16 (ghash h (pad16 ad ++ pad16 c ++ (toBE 8 (8 * ad.length) ++ toBE 8 (8 * c.length))) ^^^ aesNum rk j)

/-- GCM-AE: ciphertext. -/
def gcmCt (key iv _ad p : Bytes) : Bytes :=
  let rk := roundKeys (nats key)
  eager (aesNum rk 0) fun h => eager (j0 h iv) fun j => gctr rk j p

/-- The tag of a ciphertext under a key. -/
def gcmTagOf (key iv ad c : Bytes) : Bytes :=
  let rk := roundKeys (nats key)
  eager (aesNum rk 0) fun h => eager (j0 h iv) fun j => gcmTag rk h j ad c

/-- GCM-AD. -/
def gcmOpen (key iv ad ct : Bytes) : Option Bytes :=
  if ct.length < 16 then none
  else if gcmTagOf key iv ad (ct.take (ct.length - 16)) = ct.drop (ct.length - 16) then
    some (gcmCt key iv ad (ct.take (ct.length - 16)))
  else none

theorem keyStream_length (rk : List (List Nat)) (n cb : Nat) : (keyStream rk n cb).length = 16 * n := by
  induction n generalizing cb with
  | zero => rfl
  | succ n ih => simp [keyStream, toBE_length, ih]; omega

theorem gctr_length (rk : List (List Nat)) (j : Nat) (p : Bytes) : (gctr rk j p).length = p.length := by
  simp [gctr, keyStream_length]; omega

theorem zipWith_xor_cancel (p k : Bytes) (h : p.length ≤ k.length) :
    List.zipWith (· ^^^ ·) (List.zipWith (· ^^^ ·) p k) k = p := by
  induction p generalizing k with
  | nil => simp
  | cons x xs ih =>
    cases k with
    | nil => simp at h
    | cons y ys =>
      simp only [List.zipWith_cons_cons, List.cons.injEq]
      exact ⟨by rw [UInt8.xor_assoc]; simp, ih ys (by simpa using h)⟩

/-- The key stream cancels itself. -/
theorem gctr_gctr (rk : List (List Nat)) (j : Nat) (p : Bytes) : gctr rk j (gctr rk j p) = p := by
  have h := gctr_length rk j p
  unfold gctr at h ⊢
  rw [h]
  exact zipWith_xor_cancel _ _ (by rw [keyStream_length]; omega)

theorem gcmCt_length (key iv ad p : Bytes) : (gcmCt key iv ad p).length = p.length := by
  simp [gcmCt, gctr_length]

theorem gcmCt_gcmCt (key iv ad p : Bytes) : gcmCt key iv ad (gcmCt key iv ad p) = p := by
  simp [gcmCt, gctr_gctr]

theorem gcmTagOf_length (key iv ad c : Bytes) : (gcmTagOf key iv ad c).length = 16 := by
  simp [gcmTagOf, gcmTag, toBE_length]

theorem gcmOpen_seal (key iv ad p : Bytes) :
    gcmOpen key iv ad (gcmCt key iv ad p ++ gcmTagOf key iv ad (gcmCt key iv ad p)) = some p := by
  have hl : (gcmCt key iv ad p ++ gcmTagOf key iv ad (gcmCt key iv ad p)).length - 16 = (gcmCt key iv ad p).length := by
    simp [gcmTagOf_length]
  unfold gcmOpen
  rw [if_neg (by simp [gcmTagOf_length]), hl, List.take_left, List.drop_left, if_pos rfl, gcmCt_gcmCt]

theorem gcmOpen_length (key iv ad ct p : Bytes) (h : gcmOpen key iv ad ct = some p) : p.length + 16 = ct.length := by
  unfold gcmOpen at h
  split at h
  · cases h
  · split at h
    · injection h with h
      subst h
      simp [gcmCt_length]; omega
    · cases h

end ETls.Crypto
