import Verif.Model.Conn
import Verif.Spec.P256

/-! # The random generator of the provider -/

namespace ETls

open Crypto

variable {V : Type} (S : Suite)

/-- `CryptoProvider::rng` (`config.rs:144-145`, `244-246`): the bytes the generator produces, and how many have been taken. -/
structure Rng where
  stream : Nat → UInt8
  taken : Nat

/-- `RngCore::fill_bytes`: the next bytes, each of them once. -/
def Rng.fillBytes (n : Nat) (r : Rng) : Bytes × Rng :=
  ((List.range n).map fun i => r.stream (r.taken + i), { r with taken := r.taken + n })

/-- `EphemeralSecret::random` of the crate `p256`: 32 bytes are drawn until they are a scalar other than zero.  The loop of the
crate has no bound; here `none` is the case that `fuel` draws were not enough. -/
def Rng.secret : Nat → Rng → Option (Bytes × Rng)
  | 0, _ => none
  | fuel + 1, r =>
    if 0 < ofBE (r.fillBytes 32).1 ∧ ofBE (r.fillBytes 32).1 < p256n then some (r.fillBytes 32)
    else Rng.secret fuel (r.fillBytes 32).2

/-- `handshake/client_hello.rs:41-54` `ClientHello::new`: first the random, then the secret. -/
def Rng.clientHello (fuel : Nat) (r : Rng) : Option (Bytes × Bytes × Rng) :=
  ((r.fillBytes 32).2.secret fuel).map fun x => ((r.fillBytes 32).1, x.1, x.2)

/-- `open` with a generator.  The first state makes the ClientHello (`connection.rs:384-400`, `record.rs:92-104`), and nothing else
asks the generator.  Simplified: `open` can fail before it (an overlong server name); then the code has not drawn, here it has. -/
def Conn.openRng (cfg : Config) (p : Provider V) (v : V) (fuel : Nat) (r : Rng) (c : Conn) :
    Option ((Res TlsError Unit × Conn) × Rng) :=
  (r.clientHello fuel).map fun x => (Conn.open_ S cfg { p with random := x.1, secret := x.2.1 } v c, x.2.2)

end ETls
