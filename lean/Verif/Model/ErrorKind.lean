import Verif.Model.Basic

/-! # Errors as generic I/O code sees them -/

namespace ETls

/-- `embedded_io::ErrorKind::Other`. -/
def IoKind.other : IoKind := 0

/-- `lib.rs:131-140` `impl embedded_io::Error for TlsError`: the kind of the transport's error, otherwise `Other`. -/
def TlsError.kind : TlsError → IoKind
  | .io k => k
  | _ => IoKind.other

end ETls
