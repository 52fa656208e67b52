import Verif.Model.Basic

/-! # `src/buffer.rs`: outgoing buffer with offset and length -/

namespace ETls

/-- `buffer.rs:5-9` `CryptoBuffer`. -/
structure CB where
  buf : Bytes
  offset : Nat
  len : Nat
deriving DecidableEq, Repr

/-- An encoder: `fn(&mut CryptoBuffer) -> Result<_, TlsError>`. -/
abbrev Enc (α : Type) := M TlsError CB α

namespace CB

/-- `buffer.rs:21-27`. -/
def wrap (b : Bytes) : CB := ⟨b, 0, 0⟩

/-- `buffer.rs:29-35`. -/
def wrapWithPos (b : Bytes) (pos : Nat) : CB := ⟨b, 0, pos⟩

/-- `buffer.rs:145-147`. -/
def capacity (c : CB) : Nat := c.buf.length

/-- `buffer.rs:95-97` `as_slice` (range check not modelled here; the panic of an out-of-range slice is excluded by the
invariant `offset + len ≤ capacity`). -/
def asSlice (c : CB) : Bytes := (c.buf.drop c.offset).take c.len

/-- `buffer.rs:115-117` `space`: subtraction, panics on underflow. -/
def space : Enc Nat := fun c =>
  if c.offset + c.len ≤ c.buf.length then (.ok (c.buf.length - (c.offset + c.len)), c) else (.panic, c)

/-- `buffer.rs:37-46` `push`. -/
def push (b : UInt8) : Enc Unit := do
  let sp ← space
  if sp > 0 then
    M.modify fun c => { c with buf := c.buf.set (c.offset + c.len) b, len := c.len + 1 }
  else M.fail .insufficientSpace

/-- Overwrite `bs` at index `i` (`buf[i..i + bs.len()].clone_from_slice(bs)`), for `i + bs.length ≤ buf.length`. -/
def splice (buf : Bytes) (i : Nat) (bs : Bytes) : Bytes :=
  buf.take i ++ bs ++ buf.drop (i + bs.length)

/-- `buffer.rs:99-113` `extend_internal` / `119-121` `extend_from_slice`. -/
def extend (other : Bytes) : Enc Unit := do
  let sp ← space
  if sp < other.length then M.fail .insufficientSpace
  else M.modify fun c =>
    { c with buf := splice c.buf (c.offset + c.len) other, len := c.len + other.length }

/-- `buffer.rs:48-51`. -/
def pushU16 (n : Nat) : Enc Unit := extend (be16 n)
/-- `buffer.rs:53-56`. -/
def pushU24 (n : Nat) : Enc Unit := extend (be24 n)
/-- `buffer.rs:58-61`. -/
def pushU32 (n : Nat) : Enc Unit := extend (be32 n)

/-- `buffer.rs:63-74` `set`; the inner index is out of range only if the invariant is broken. -/
def set (idx : Nat) (v : UInt8) : Enc Unit := fun c =>
  if idx < c.len then
    if c.offset + idx < c.buf.length then (.ok (), { c with buf := c.buf.set (c.offset + idx) v })
    else (.panic, c)
  else (.err .insufficientSpace, c)

/-- `buffer.rs:76-81`. -/
def setU16 (idx n : Nat) : Enc Unit := do
  set idx (UInt8.ofNat (n / 256))
  set (idx + 1) (UInt8.ofNat n)

/-- `buffer.rs:83-89`. -/
def setU24 (idx n : Nat) : Enc Unit := do
  set idx (UInt8.ofNat (n / 65536))
  set (idx + 1) (UInt8.ofNat (n / 256))
  set (idx + 2) (UInt8.ofNat n)

/-- `buffer.rs:123-131` `truncate`. -/
def truncate (n : Nat) (c : CB) : CB :=
  if n ≤ c.capacity - c.offset then { c with len := n } else c

/-- `buffer.rs:158-169` `offset`: `len + self.offset - offset`, panics on underflow. -/
def setOffset (o : Nat) : Enc Unit := fun c =>
  if o ≤ c.len + c.offset then (.ok (), { c with len := c.len + c.offset - o, offset := o }) else (.panic, c)

/-- `buffer.rs:149-152` `forward`. -/
def forward : Enc Unit := fun c => setOffset c.len c

/-- `buffer.rs:154-156` `rewind`. -/
def rewind : Enc Unit := setOffset 0

/-- `buffer.rs:171-185` `with_u8_length` (`self.len() - start` underflows only if `op` shrinks the buffer, which no
caller's `op` does; modelled with truncated subtraction). -/
def withU8Length {α : Type} (op : Enc α) : Enc α := do
  let c0 ← M.get
  push 0
  let c1 ← M.get
  let r ← op
  let c2 ← M.get
  set c0.len (UInt8.ofNat (c2.len - c1.len))
  pure r

/-- `buffer.rs:187-201` `with_u16_length`. -/
def withU16Length {α : Type} (op : Enc α) : Enc α := do
  let c0 ← M.get
  pushU16 0
  let c1 ← M.get
  let r ← op
  let c2 ← M.get
  setU16 c0.len (c2.len - c1.len)
  pure r

/-- `buffer.rs:203-217` `with_u24_length`. -/
def withU24Length {α : Type} (op : Enc α) : Enc α := do
  let c0 ← M.get
  pushU24 0
  let c1 ← M.get
  let r ← op
  let c2 ← M.get
  setU24 c0.len (c2.len - c1.len)
  pure r

end CB

/-- `.map_err(|_| TlsError::EncodeError)`. -/
def Enc.orEncodeError {α : Type} (e : Enc α) : Enc α := M.mapErr (fun _ => .encodeError) e

/-- `for x in xs { f(x)?; }` on an outgoing buffer. -/
def encAll {α : Type} (f : α → Enc Unit) : List α → Enc Unit
  | [] => pure ()
  | x :: xs => do f x; encAll f xs

end ETls
