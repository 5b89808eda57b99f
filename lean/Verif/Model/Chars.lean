import Verif.Model.Basic
/-
  Character classes, src/vanillapdf/utils/character.h
-/
namespace VPdf

/-- `IsWhiteSpace`, utils/character.h:28-40. -/
def isWhiteSpace (c : Byte) : Bool :=
  c == 0x00 || c == 0x09 || c == 0x0A || c == 0x0C || c == 0x0D || c == 0x20

/-- `IsDelimiter`, utils/character.h:42-58. -/
def isDelimiter (c : Byte) : Bool :=
  c == 0x28 || c == 0x29 || c == 0x3C || c == 0x3E || c == 0x5B || c == 0x5D ||
  c == 0x7B || c == 0x7D || c == 0x2F || c == 0x25

/-- `IsNumeric`, utils/character.h:64-66. -/
def isNumeric (c : Byte) : Bool := 0x30 ≤ c && c ≤ 0x39

/-- `IsAlpha`, utils/character.h:68-70. -/
def isAlpha (c : Byte) : Bool := (0x61 ≤ c && c ≤ 0x7A) || (0x41 ≤ c && c ≤ 0x5A)

/-- `IsRegular` applied to the result of `Peek()`, utils/character.h:72-74: `Peek` yields 0..255 or end of
input, so a byte is never mistaken for end of input. -/
def isRegular (c : Byte) : Bool := !isWhiteSpace c && !isDelimiter c

/-- `IsRegular` applied to a (signed) `char`, utils/character.h:60-74: the byte 0xFF converts to -1, which is
`char_traits<char>::eof()`, so it counts as end of input and is not regular. -/
def isRegularSigned (c : Byte) : Bool := isRegular c && c != 0xFF

end VPdf
