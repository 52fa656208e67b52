import Verif.Model.Conn

/-! # The default methods of the `embedded-io` traits

`asynch.rs:311-347`, `463-530` and `blocking.rs` implement `read`, `write` and `flush` of the traits `Read` and `Write` of
the crate `embedded-io` (and `embedded-io-async`); applications mostly call the methods these traits add, `write_all` and
`read_exact`.  Their source is not in the repository; the definitions follow the crates' default implementations. -/

namespace ETls

/-- `embedded_io::ReadExactError`. -/
inductive ReadExactError where
  | unexpectedEof
  | other (e : TlsError)
deriving DecidableEq, Repr

section
variable {σ : Type}

/-- The loop of `embedded_io::Write::write_all`: `while !buf.is_empty() { match self.write(buf)? { 0 => panic!(),
n => buf = &buf[n..] } }`; the index panics if `write` claims more than it was given.  Fuel bounds the number of rounds. -/
def writeAllLoop (write : Bytes → M TlsError σ Nat) : Nat → Bytes → M TlsError σ Unit
  | 0, _ => M.crash
  | fuel + 1, bs =>
    if bs = [] then pure ()
    else do
      let n ← write bs
      if n = 0 ∨ bs.length < n then M.crash else writeAllLoop write fuel (bs.drop n)

/-- `embedded_io::Write::write_all` over the `write` of a connection or of its writing half. -/
def writeAll (write : Bytes → M TlsError σ Nat) (bs : Bytes) : M TlsError σ Unit := writeAllLoop write (bs.length + 1) bs

/-- The loop of `embedded_io::Read::read_exact`: `while !buf.is_empty() { match self.read(buf) { Ok(0) => break,
Ok(n) => buf = &mut buf[n..], Err(e) => return Err(Other(e)) } }`, then `UnexpectedEof` unless the buffer is full.
`acc` is what has been read, `n` the room left. -/
def readExactLoop (read : Nat → M TlsError σ Bytes) : Nat → Nat → Bytes → M ReadExactError σ Bytes
  | 0, _, _ => M.crash
  | fuel + 1, n, acc =>
    if n = 0 then pure acc
    else do
      let d ← M.mapErr ReadExactError.other (read n)
      if d = [] then M.fail .unexpectedEof
      else if n < d.length then M.crash
      else readExactLoop read fuel (n - d.length) (acc ++ d)

/-- `embedded_io::Read::read_exact` into a buffer of `n` bytes, over the `read` of a connection or of its reading half. -/
def readExact (read : Nat → M TlsError σ Bytes) (n : Nat) : M ReadExactError σ Bytes := readExactLoop read (n + 1) n []

end

variable (S : Suite)

/-- `write_all` on a connection. -/
def Conn.writeAll (bs : Bytes) : M TlsError Conn Unit := ETls.writeAll (Conn.write S) bs

/-- `read_exact` on a connection. -/
def Conn.readExact (n : Nat) : M ReadExactError Conn Bytes := ETls.readExact (Conn.read S) n

end ETls
