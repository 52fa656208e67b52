import Verif.Model.Basic
import Mathlib.Data.List.Forall2

/-!
# What it means for a certificate name to match a host name

Written without the model: ASCII case folding, labels and the wildcard rule of RFC 6125 section 6.4.3 in the form
property C49 gives it.
-/

namespace ETls.Spec

/-- The ASCII code of a character. -/
def chr (c : Char) : UInt8 := UInt8.ofNat c.toNat

/-- The ASCII codes of a string. -/
def asciiOf (s : String) : Bytes := s.toList.map chr

/-- An ASCII letter, a digit, a hyphen or a dot. -/
def HostChar (b : UInt8) : Prop :=
  (chr 'a' ≤ b ∧ b ≤ chr 'z') ∨ (chr 'A' ≤ b ∧ b ≤ chr 'Z') ∨ (chr '0' ≤ b ∧ b ≤ chr '9') ∨ b = chr '-' ∨ b = chr '.'

/-- Two bytes are the same ASCII character up to case: equal, or one is a capital letter and the other that letter in
lower case. -/
def SameChar (a b : UInt8) : Prop :=
  a = b ∨ (chr 'A' ≤ a ∧ a ≤ chr 'Z' ∧ b.toNat = a.toNat + 32) ∨ (chr 'A' ≤ b ∧ b ≤ chr 'Z' ∧ a.toNat = b.toNat + 32)

/-- Two strings are equal up to ASCII case. -/
def SameName (a b : Bytes) : Prop := List.Forall₂ SameChar a b

/-- The labels of a name: the parts between its dots. -/
def labels : Bytes → List Bytes
  | [] => [[]]
  | b :: rest =>
    if b = chr '.' then [] :: labels rest
    else match labels rest with
      | [] => [[b]]
      | l :: ls => (b :: l) :: ls

/-- `name` (of a certificate) matches `host`. -/
def HostMatches (name host : Bytes) : Prop :=
  (∀ b ∈ name, HostChar b ∨ b = chr '*') ∧ (∀ b ∈ host, HostChar b) ∧
    (SameName name host ∨
      ∃ rest first rest', name = asciiOf "*." ++ rest ∧ 2 ≤ (labels rest).length ∧ chr '*' ∉ rest ∧
        host = first ++ asciiOf "." ++ rest' ∧ chr '.' ∉ first ∧ SameName rest rest')

end ETls.Spec
