import Verif.Model.CryptoBuffer

/-! # Removing padding and content type in place

`connection.rs:52-67` works on the window of the read buffer that holds the decrypted record; `dispatchInner` of
`Model/RecordReader` works on its content.  `Props/BufferWindow` proves that they do the same. -/

namespace ETls

/-- `connection.rs:52-56` `iter().enumerate().rfind(|(_, b)| **b != 0)`: the index of the last byte that is not zero. -/
def lastNonzero : Bytes → Option Nat
  | [] => none
  | b :: bs => match lastNonzero bs with
    | some i => some (i + 1)
    | none => if b != 0 then some 0 else none

/-- `connection.rs:57-59`: `if let Some((index, _)) = padding { app_data.truncate(index + 1) }`. -/
def CB.unpad (c : CB) : CB :=
  match lastNonzero c.asSlice with
  | some i => c.truncate (i + 1)
  | none => c

/-- `connection.rs:67` `app_data.truncate(app_data.len() - 1)`; the subtraction underflows only for an empty window, at which
line 62 has panicked. -/
def CB.dropType (c : CB) : CB := c.truncate (c.len - 1)

end ETls
