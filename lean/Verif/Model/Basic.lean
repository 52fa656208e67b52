/-!
# Results, the state-with-errors monad, bytes and the error types

Every model definition cites the Rust file and lines it stands for (paths relative to `/repo`).
-/

namespace ETls

/-- A byte string. -/
abbrev Bytes := List UInt8

/-- Outcome of a Rust function: `Ok a`, `Err e`, or a panic.  `panic` stands for every Rust panic: index out of
range, `unwrap` on `None`/`Err`, `unimplemented!`/`todo!`, failed `assert!`/`debug_assert!`, arithmetic overflow or
underflow with overflow checks on.  A loop of the model that runs out of fuel is also `panic`. -/
inductive Res (ε α : Type) where
  | ok (a : α)
  | err (e : ε)
  | panic
deriving DecidableEq, Repr

namespace Res
variable {ε ε' α β : Type}

/-- `Result::map_err`. -/
def mapErr (f : ε → ε') : Res ε α → Res ε' α
  | .ok a => .ok a
  | .err e => .err (f e)
  | .panic => .panic

/-- `Result::map`. -/
def map (f : α → β) : Res ε α → Res ε β
  | .ok a => .ok (f a)
  | .err e => .err e
  | .panic => .panic

/-- Boolean: is the outcome `Ok`? -/
def isOk : Res ε α → Bool
  | .ok _ => true
  | _ => false

end Res

/-- A Rust function with `&mut σ`: it returns an outcome and the state it leaves.  The state is returned with an
error as well, because `?` does not undo the mutations made so far. -/
def M (ε σ α : Type) : Type := σ → Res ε α × σ

namespace M
variable {ε ε' σ α β : Type}

/-- Sequencing with `?`: stop at the first error or panic, keeping the state reached. -/
protected def bind (m : M ε σ α) (f : α → M ε σ β) : M ε σ β := fun s =>
  match m s with
  | (.ok a, s') => f a s'
  | (.err e, s') => (.err e, s')
  | (.panic, s') => (.panic, s')

protected def pure (a : α) : M ε σ α := fun s => (.ok a, s)

instance : Monad (M ε σ) where
  pure := M.pure
  bind := M.bind

/-- Return an error without changing the state. -/
def fail (e : ε) : M ε σ α := fun s => (.err e, s)

/-- Panic. -/
def crash : M ε σ α := fun s => (.panic, s)

/-- Read the state. -/
def get : M ε σ σ := fun s => (.ok s, s)

/-- Update the state. -/
def modify (f : σ → σ) : M ε σ Unit := fun s => (.ok (), f s)

/-- `map_err`. -/
def mapErr (f : ε → ε') (m : M ε σ α) : M ε' σ α := fun s =>
  let (r, s') := m s
  (r.mapErr f, s')

/-- Inject an outcome that does not depend on the state. -/
def lift (r : Res ε α) : M ε σ α := fun s => (r, s)

theorem bind_def (m : M ε σ α) (f : α → M ε σ β) (s : σ) :
    (m >>= f) s = match m s with
      | (.ok a, s') => f a s'
      | (.err e, s') => (.err e, s')
      | (.panic, s') => (.panic, s') := rfl

@[simp] theorem pure_apply (a : α) (s : σ) : (pure a : M ε σ α) s = (.ok a, s) := rfl

theorem bind_ok {m : M ε σ α} {f : α → M ε σ β} {s s' : σ} {a : α} (h : m s = (.ok a, s')) :
    (m >>= f) s = f a s' := by rw [bind_def, h]

theorem bind_err {m : M ε σ α} {f : α → M ε σ β} {s s' : σ} {e : ε} (h : m s = (.err e, s')) :
    (m >>= f) s = (.err e, s') := by rw [bind_def, h]

theorem bind_panic {m : M ε σ α} {f : α → M ε σ β} {s s' : σ} (h : m s = (.panic, s')) :
    (m >>= f) s = (.panic, s') := by rw [bind_def, h]

theorem get_bind (f : σ → M ε σ β) (s : σ) : (M.get >>= f) s = f s s := rfl

theorem modify_bind (g : σ → σ) (f : Unit → M ε σ β) (s : σ) : (M.modify g >>= f) s = f () (g s) := rfl

theorem pure_bind' (a : α) (f : α → M ε σ β) (s : σ) : (pure a >>= f) s = f a s := rfl

theorem lift_ok_bind (a : α) (f : α → M ε σ β) (s : σ) : (M.lift (.ok a) >>= f) s = f a s := rfl
theorem lift_err_bind (e : ε) (f : α → M ε σ β) (s : σ) : (M.lift (.err e) >>= f) s = (.err e, s) := rfl
theorem lift_panic_bind (f : α → M ε σ β) (s : σ) : (M.lift .panic >>= f) s = (.panic, s) := rfl
theorem fail_bind (e : ε) (f : α → M ε σ β) (s : σ) : (M.fail e >>= f) s = (.err e, s) := rfl
theorem crash_bind (f : α → M ε σ β) (s : σ) : (M.crash >>= f) s = (.panic, s) := rfl

@[simp] theorem get_apply (s : σ) : (M.get : M ε σ σ) s = (.ok s, s) := rfl
@[simp] theorem modify_apply (g : σ → σ) (s : σ) : (M.modify g : M ε σ Unit) s = (.ok (), g s) := rfl
@[simp] theorem fail_apply (e : ε) (s : σ) : (M.fail e : M ε σ α) s = (.err e, s) := rfl
@[simp] theorem crash_apply (s : σ) : (M.crash : M ε σ α) s = (.panic, s) := rfl
@[simp] theorem lift_apply (r : Res ε α) (s : σ) : (M.lift r : M ε σ α) s = (r, s) := rfl

instance : LawfulMonad (M ε σ) := LawfulMonad.mk' (M ε σ)
  (id_map := by
    intro α x; funext s
    show M.bind x (fun a => M.pure (id a)) s = x s
    unfold M.bind M.pure
    rcases x s with ⟨r, s'⟩
    cases r <;> rfl)
  (pure_bind := by intro α β x f; rfl)
  (bind_assoc := by
    intro α β γ x f g; funext s
    show M.bind (M.bind x f) g s = M.bind x (fun a => M.bind (f a) g) s
    unfold M.bind
    rcases x s with ⟨r, s'⟩
    cases r <;> rfl)

end M

/-- `parse_buffer.rs:6-10` `ParseError`. -/
inductive ParseError where
  | insufficientBytes
  | insufficientSpace
  | invalidData
deriving DecidableEq, Repr

/-- `alert.rs:7-10` `AlertLevel`. -/
inductive AlertLevel where
  | warning
  | fatal
deriving DecidableEq, Repr

/-- `alert.rs:25-53` `AlertDescription`. -/
inductive AlertDescription where
  | closeNotify | unexpectedMessage | badRecordMac | recordOverflow | handshakeFailure | badCertificate
  | unsupportedCertificate | certificateRevoked | certificateExpired | certificateUnknown | illegalParameter
  | unknownCa | accessDenied | decodeError | decryptError | protocolVersion | insufficientSecurity
  | internalError | inappropriateFallback | userCanceled | missingExtension | unsupportedExtension
  | unrecognizedName | badCertificateStatusResponse | unknownPskIdentity | certificateRequired
  | noApplicationProtocol
deriving DecidableEq, Repr

/-- `embedded_io::ErrorKind`, an external enumeration: modelled by an arbitrary number. -/
abbrev IoKind := Nat

/-- `lib.rs:95-129` `TlsError`. -/
inductive TlsError where
  | connectionClosed | unimplemented | missingHandshake
  | handshakeAborted (l : AlertLevel) (d : AlertDescription)
  | abortHandshake (l : AlertLevel) (d : AlertDescription)
  | ioError | internalError | invalidRecord | unknownContentType | invalidNonceLength | invalidTicketLength
  | unknownExtensionType | insufficientSpace | invalidHandshake | invalidCipherSuite | invalidSignatureScheme
  | invalidSignature | invalidExtensionsLength | invalidSessionIdLength | invalidSupportedVersions
  | invalidApplicationData | invalidKeyShare | invalidCertificate | invalidCertificateEntry
  | invalidCertificateRequest | invalidPrivateKey | unableToInitializeCryptoEngine
  | parseError (e : ParseError)
  | outOfMemory | cryptoError | encodeError | decodeError
  | io (k : IoKind)
deriving DecidableEq, Repr

/-- `parse_buffer.rs` `impl From<ParseError> for TlsError` (the conversion `?` performs). -/
def TlsError.ofParse (e : ParseError) : TlsError := .parseError e

/-- `u16::to_be_bytes` of `n as u16`. -/
def be16 (n : Nat) : Bytes := [UInt8.ofNat (n / 256), UInt8.ofNat n]

/-- The three low bytes of `u32::to_be_bytes`. -/
def be24 (n : Nat) : Bytes := [UInt8.ofNat (n / 65536), UInt8.ofNat (n / 256), UInt8.ofNat n]

/-- `u32::to_be_bytes` of `n as u32`. -/
def be32 (n : Nat) : Bytes :=
  [UInt8.ofNat (n / 16777216), UInt8.ofNat (n / 65536), UInt8.ofNat (n / 256), UInt8.ofNat n]

/-- `u64::to_be_bytes` of `n as u64`. -/
def be64 (n : Nat) : Bytes :=
  [UInt8.ofNat (n / 2 ^ 56), UInt8.ofNat (n / 2 ^ 48), UInt8.ofNat (n / 2 ^ 40), UInt8.ofNat (n / 2 ^ 32),
   UInt8.ofNat (n / 2 ^ 24), UInt8.ofNat (n / 2 ^ 16), UInt8.ofNat (n / 2 ^ 8), UInt8.ofNat n]

/-- ASCII/UTF-8 bytes of a string literal (Rust `b"..."`). -/
def ascii (s : String) : Bytes := s.toList.map fun c => UInt8.ofNat c.toNat

end ETls
