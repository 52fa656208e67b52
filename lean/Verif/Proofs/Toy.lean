import Verif.Model.Suite

/-! # A concrete lawful suite

Not a cryptographic suite; it exists so that `Suite.Lawful` is seen to be satisfiable and so that examples can be
computed. -/

namespace ETls

/-- Take `n` bytes, padding with zeros. -/
def fit (n : Nat) (bs : Bytes) : Bytes := (bs ++ List.replicate n 0).take n

theorem fit_length (n : Nat) (bs : Bytes) : (fit n bs).length = n := by simp [fit]

/-- A checksum-like mixing of bytes into `n` bytes. -/
def mix (n : Nat) (bs : Bytes) : Bytes :=
  fit n [UInt8.ofNat bs.length, bs.foldl (fun a b => a * 31 + b) 7, bs.foldl (fun a b => a ^^^ (b * 3)) 1]

theorem mix_length (n : Nat) (bs : Bytes) : (mix n bs).length = n := fit_length n _

/-- The toy AEAD tag. -/
def toyTag (k n a p : Bytes) : Bytes := mix 16 (k ++ n ++ a ++ p)

/-- The toy suite: small hash, xor-free "encryption" with a checksum as tag. -/
def toySuite : Suite where
  codePoint := 0x1301
  keyLen := 16
  ivLen := 12
  rsa := false
  hashLen := 32
  hash := mix 32
  extract s i := mix 32 (s ++ i)
  expand p i n := mix n (p ++ i)
  hmac k m := mix 32 (k ++ m)
  sealCt _ _ _ p := p.map (· ^^^ 0x55)
  sealTag k n a p := toyTag k n a p
  open_ k n a c :=
    if c.length < 16 then none
    else
      let p := (c.take (c.length - 16)).map (· ^^^ 0x55)
      if c.drop (c.length - 16) = toyTag k n a p then some p else none
  pubKey s := fit 65 (4 :: s)
  dh s p := if p.length = 65 then some (mix 32 (s ++ p)) else none

theorem xor_self_cancel (b : UInt8) : (b ^^^ 0x55) ^^^ 0x55 = b := by
  rw [UInt8.xor_assoc]; simp

theorem toySuite_lawful : toySuite.Lawful where
  ivLen_eq := rfl
  hashLen_pos := by decide
  hashLen_le := by decide
  keyLen_le := by decide
  hash_length := fun m => mix_length 32 m
  hmac_length := fun k m => mix_length 32 _
  extract_length := fun s i => mix_length 32 _
  expand_length := fun p i n => mix_length n _
  sealCt_length := fun k n a p => by simp [toySuite]
  sealTag_length := fun k n a p => mix_length 16 _
  open_length := fun k n a c p h => by
    simp only [toySuite] at h
    split at h
    · cases h
    · split at h
      · injection h with h; subst h
        simp [tagLen]; omega
      · cases h
  open_seal := fun k n a p => by
    have hl : (toyTag k n a p).length = 16 := mix_length 16 _
    have hp : (p.map (· ^^^ (0x55 : UInt8))).length = p.length := by simp
    simp only [toySuite]
    rw [if_neg (by simp [hl])]
    have h1 : (p.map (· ^^^ (0x55 : UInt8)) ++ toyTag k n a p).length - 16 = (p.map (· ^^^ (0x55 : UInt8))).length := by
      simp [hl]
    rw [h1, List.take_left, List.drop_left, List.map_map]
    have h2 : p.map ((· ^^^ (0x55 : UInt8)) ∘ (· ^^^ (0x55 : UInt8))) = p := by
      conv => rhs; rw [← List.map_id p]
      apply List.map_congr_left
      intro b _; exact xor_self_cancel b
    rw [h2, if_pos rfl]
  pubKey_length := fun s => fit_length 65 _

end ETls
