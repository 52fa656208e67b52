import Verif.Model.Webpki

/-!
# Clocks (`config.rs`, `lib.rs`) and the verifiers of the crate with a clock that moves

`Model/Pki.lean` and `Model/Webpki.lean` take the answer of the clock as one value.  Here every call of `Clock::now()` gets
its own answer.
-/

namespace ETls

/-- `config.rs:129-131` `TlsClock`: `now()` is a function without arguments; a clock is what its successive calls give (or
that they panic). -/
abbrev Clock := Nat → Res TlsError (Option Nat)

/-- `config.rs:133-139` `NoClock`. -/
def clockless : Clock := fun _ => .ok none

/-- `lib.rs:155-164` `SystemTime` as a clock: `time k` is the time of the machine at the `k`-th call, in nanoseconds since
the beginning of 1970.  `duration_since` fails on an earlier time and its result is unwrapped. -/
def systemClock (time : Nat → Int) : Clock := fun k =>
  if time k < 0 then .panic else .ok (some ((time k).toNat / 1000000000))

/-- The state of a verifier and the number of calls of the clock so far. -/
abbrev Timed := PkiVerifier × Nat

/-- One call of `Clock::now()`. -/
def readClock (clk : Clock) : M TlsError Timed (Option Nat) := fun (v, k) => (clk k, (v, k + 1))

variable (L : PkiLib)

/-- `pki.rs:117-119`: the loop over the chain, as `verifyChain`; the clock is asked before each certificate. -/
def verifyChainClk (F : Features) (clk : Clock) : CertEntry → List CertEntry → CertNames → M TlsError Timed CertNames
  | _, [], names => pure names
  | prev, cur :: rest, _ => do
    let now ← readClock clk
    let names ← M.lift (verifyCertEntry L F prev cur now)
    verifyChainClk F clk cur rest names

/-- `pki.rs:129-131`: keep the certificate and the transcript. -/
def keepCertificate (N : Nat) (transcript : Bytes) (c : CertMsg) : M TlsError PkiVerifier Unit := do
  let stored ← M.lift (certOwned N c)
  M.modify fun v => { v with certificate := some stored, transcript := some transcript }

/-- `pki.rs:107-132` `CertVerifier::verify_certificate`. -/
def pkiVerifyCertificateClk (F : Features) (clk : Clock) (N : Nat) (transcript : Bytes) (c : CertMsg) :
    M TlsError Timed Unit := do
  let s ← M.get
  let names ← verifyChainClk L F clk s.1.ca c.entries.reverse ⟨none, []⟩
  if hostnameMatch names s.1.host then onFst (keepCertificate N transcript c)
  else M.fail .invalidCertificate

/-- The native verifier with a clock (`pki.rs:94-148`). -/
def pkiClockOps (S : Suite) (F : Features) (clk : Clock) (N : Nat) : VerifierOps Timed where
  setHostname name := onFst (pkiSetHostname name)
  verifyCertificate := pkiVerifyCertificateClk L F clk N
  verifySignature cv := onFst (pkiVerifySignature L S F cv)

/-- `webpki.rs:163-172` `CertVerifier::verify_certificate`: the clock is asked once, first of all. -/
def webVerifyCertificateClk (W : WebLib) (clk : Clock) (N : Nat) (transcript : Bytes) (c : CertMsg) :
    M TlsError Timed Unit := do
  let now ← readClock clk
  onFst (webVerifyCertificate W now N transcript c)

/-- The webpki verifier with a clock (`webpki.rs:150-188`). -/
def webClockOps (W : WebLib) (S : Suite) (alloc : Bool) (clk : Clock) (N : Nat) : VerifierOps Timed where
  setHostname name := onFst (pkiSetHostname name)
  verifyCertificate := webVerifyCertificateClk W clk N
  verifySignature cv := onFst (webVerifySignature W S alloc cv)

end ETls
