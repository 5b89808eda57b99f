import Verif.Model.Basic
/-
  Specification vocabulary, taken from ISO 32000-1 and not from the library.
-/
namespace VPdf.Spec

/-- ISO 32000-1, Table 1: white-space characters. -/
def whiteSpace : List UInt8 := [0, 9, 10, 12, 13, 32]

/-- ISO 32000-1, Table 2: delimiter characters `( ) < > [ ] { } / %`. -/
def delimiters : List UInt8 := [40, 41, 60, 62, 91, 93, 123, 125, 47, 37]

/-- What follows a token does not continue it: end of input, white-space or a delimiter. -/
def EndsToken (rest : List UInt8) : Prop := ∀ c ∈ rest.head?, c ∈ whiteSpace ++ delimiters

instance (rest : List UInt8) : Decidable (EndsToken rest) := by unfold EndsToken; infer_instance

/-- Value of a hexadecimal digit character (either case). -/
def hexVal (c : UInt8) : Option Nat :=
  if 48 ≤ c.toNat ∧ c.toNat ≤ 57 then some (c.toNat - 48)
  else if 65 ≤ c.toNat ∧ c.toNat ≤ 70 then some (c.toNat - 55)
  else if 97 ≤ c.toNat ∧ c.toNat ≤ 102 then some (c.toNat - 87)
  else none

/-- The bytes denoted by hexadecimal text (ISO 32000-1, 7.3.4.3 and 7.4.2): each pair of digits is a byte, a
missing last digit is 0.  `none` if a character is not a hexadecimal digit. -/
def hexBytes : List UInt8 → Option (List UInt8)
  | [] => some []
  | [x] => do
    let a ← hexVal x
    pure [UInt8.ofNat (16 * a)]
  | x :: y :: rest => do
    let a ← hexVal x
    let b ← hexVal y
    let r ← hexBytes rest
    pure (UInt8.ofNat (16 * a + b) :: r)

end VPdf.Spec
