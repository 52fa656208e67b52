import Verif.Model.Basic

/-! # `src/parse_buffer.rs`: bounds-checked reader -/

namespace ETls

/-- `parse_buffer.rs:12-15` `ParseBuffer`. -/
structure PB where
  buffer : Bytes
  pos : Nat
deriving DecidableEq, Repr

/-- A parser returning `Result<_, ParseError>`. -/
abbrev P (α : Type) := M ParseError PB α
/-- A parser returning `Result<_, TlsError>`. -/
abbrev PT (α : Type) := M TlsError PB α

namespace PB

/-- `parse_buffer.rs:30-32`. -/
def new (b : Bytes) : PB := ⟨b, 0⟩

/-- `parse_buffer.rs:34-36`. -/
def isEmpty (p : PB) : Bool := p.pos == p.buffer.length

/-- `parse_buffer.rs:38-40` (`buffer.len() - pos`; `pos ≤ len` always holds, so truncated subtraction is exact). -/
def remaining (p : PB) : Nat := p.buffer.length - p.pos

/-- `parse_buffer.rs:50-58`: take a sub-buffer of `len` bytes. -/
def slice (len : Nat) : P PB := fun p =>
  if p.pos + len ≤ p.buffer.length then
    (.ok (PB.new ((p.buffer.drop p.pos).take len)), { p with pos := p.pos + len })
  else (.err .insufficientBytes, p)

/-- `parse_buffer.rs:60-68`. Indexing is modelled by `getElem?`; a miss would be a panic. -/
def readU8 : P Nat := fun p =>
  if p.pos < p.buffer.length then
    match p.buffer[p.pos]? with
    | some b => (.ok b.toNat, { p with pos := p.pos + 1 })
    | none => (.panic, p)
  else (.err .insufficientBytes, p)

/-- `parse_buffer.rs:70-79`. -/
def readU16 : P Nat := fun p =>
  if p.pos + 2 ≤ p.buffer.length then
    match p.buffer[p.pos]?, p.buffer[p.pos + 1]? with
    | some a, some b => (.ok (a.toNat * 256 + b.toNat), { p with pos := p.pos + 2 })
    | _, _ => (.panic, p)
  else (.err .insufficientBytes, p)

/-- `parse_buffer.rs:81-94`. -/
def readU24 : P Nat := fun p =>
  if p.pos + 3 ≤ p.buffer.length then
    match p.buffer[p.pos]?, p.buffer[p.pos + 1]?, p.buffer[p.pos + 2]? with
    | some a, some b, some c => (.ok (a.toNat * 65536 + b.toNat * 256 + c.toNat), { p with pos := p.pos + 3 })
    | _, _, _ => (.panic, p)
  else (.err .insufficientBytes, p)

/-- `parse_buffer.rs:96-109`. -/
def readU32 : P Nat := fun p =>
  if p.pos + 4 ≤ p.buffer.length then
    match p.buffer[p.pos]?, p.buffer[p.pos + 1]?, p.buffer[p.pos + 2]?, p.buffer[p.pos + 3]? with
    | some a, some b, some c, some d =>
      (.ok (a.toNat * 16777216 + b.toNat * 65536 + c.toNat * 256 + d.toNat), { p with pos := p.pos + 4 })
    | _, _, _, _ => (.panic, p)
  else (.err .insufficientBytes, p)

/-- `parse_buffer.rs:111-120` `fill(dest)`, with `n = dest.len()`; returns the bytes copied. -/
def fill (n : Nat) : P Bytes := fun p =>
  if p.pos + n ≤ p.buffer.length then
    (.ok ((p.buffer.drop p.pos).take n), { p with pos := p.pos + n })
  else (.err .insufficientBytes, p)

/-- `parse_buffer.rs:122-149` `copy`, with `dest` of capacity `cap` currently holding `dest`. -/
def copy (cap : Nat) (dest : Bytes) (n : Nat) : P Bytes := fun p =>
  if cap - dest.length < n then (.err .insufficientSpace, p)
  else if p.pos + n ≤ p.buffer.length then
    (.ok (dest ++ (p.buffer.drop p.pos).take n), { p with pos := p.pos + n })
  else (.err .insufficientBytes, p)

/-- The loop of `read_list` (`parse_buffer.rs:159-165`): read items until the buffer is empty; at most `cap` items
fit the `heapless::Vec<T, N>`.  Fuel bounds the number of rounds. -/
def readListLoop {ε α : Type} (cap : Nat) (full : ε) (read : M ε PB α) : Nat → List α → M ε PB (List α)
  | 0, _ => M.crash
  | fuel + 1, acc => fun p =>
    if p.isEmpty then (.ok acc, p)
    else (do
      let x ← read
      if acc.length < cap then readListLoop cap full read fuel (acc ++ [x]) else M.fail full) p

/-- `parse_buffer.rs:151-168` `read_list`. -/
def readList {α : Type} (cap : Nat) (dataLength : Nat) (read : P α) : P (List α) := do
  let data ← slice dataLength
  M.lift (readListLoop cap .insufficientSpace read (data.buffer.length + 1) [] data).1

end PB

/-- `?` applied to a `Result<_, ParseError>` inside a function returning `Result<_, TlsError>`. -/
def P.toT {α : Type} (p : P α) : PT α := M.mapErr TlsError.ofParse p

/-- `.map_err(|_| e)`. -/
def P.orErr {α : Type} (p : P α) (e : TlsError) : PT α := M.mapErr (fun _ => e) p

end ETls
