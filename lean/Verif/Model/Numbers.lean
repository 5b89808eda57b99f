import Verif.Model.Chars
/-
  Text of numbers: `std::to_string`, `fmt` hexadecimal/octal fields, `std::stoi`, `std::stoll`.
-/
namespace VPdf

/-- The decimal digit character of `d < 10`. Part of `std::to_string`, used in numeric_object.cpp:197, 201. -/
def decDigit (d : Nat) : Byte := UInt8.ofNat (48 + d)

/-- Worker of `natDec`; the first argument bounds the number of digits.
Part of `std::to_string`, used in numeric_object.cpp:197, 201. -/
def natDecAux : Nat → Nat → Bytes → Bytes
  | 0, _, acc => acc
  | f + 1, n, acc =>
    if n / 10 = 0 then decDigit (n % 10) :: acc
    else natDecAux f (n / 10) (decDigit (n % 10) :: acc)

/-- `std::to_string` of an unsigned value (used e.g. in syntax/objects/numeric_object.cpp:370-381 and
syntax/objects/indirect_reference_object.cpp:231-237). -/
def natDec (n : Nat) : Bytes := natDecAux (n + 1) n []

/-- `std::to_string` of a signed value. Used in numeric_object.cpp:197. -/
def intDec (i : Int) : Bytes :=
  if i < 0 then 0x2D :: natDec i.natAbs else natDec i.natAbs

/-- The upper case hexadecimal digit of `d < 16`.
Part of `fmt::format`, used in name_object.cpp:143, string_object.cpp:481. -/
def hexDigit (d : Nat) : Byte := if d < 10 then UInt8.ofNat (48 + d) else UInt8.ofNat (55 + d)

/-- `fmt::format("{:02X}", ch)`: two upper case hexadecimal digits of the byte (fmt formats `char` as
`unsigned char` with an integer presentation). Used in name_object.cpp:143, string_object.cpp:481. -/
def hex2 (c : Byte) : Bytes := [hexDigit (c.toNat / 16), hexDigit (c.toNat % 16)]

/-- `fmt::format("{:03o}", c)` for an `unsigned char`: three octal digits. Used in string_object.cpp:565. -/
def oct3 (c : Byte) : Bytes :=
  [decDigit (c.toNat / 64), decDigit (c.toNat / 8 % 8), decDigit (c.toNat % 8)]

/-- Value of a character as a digit of `strtol` (0-9, a-z, A-Z), 36 if it is not a digit.
Part of `std::stoi`, used in name_object.cpp:29, string_object.cpp:356, 411. -/
def digitVal (c : Byte) : Nat :=
  if 0x30 ≤ c && c ≤ 0x39 then c.toNat - 48
  else if 0x61 ≤ c && c ≤ 0x7A then c.toNat - 87
  else if 0x41 ≤ c && c ≤ 0x5A then c.toNat - 55
  else 36

/-- `isspace` in the C locale. Part of `std::stoi`, used in name_object.cpp:29, string_object.cpp:356, 411. -/
def isCSpace (c : Byte) : Bool := c == 0x20 || (0x09 ≤ c && c ≤ 0x0D)

/-- The digit loop of `strtol`: stops at the first character that is not a digit of the base.
Part of `std::stoi`, used in name_object.cpp:29, string_object.cpp:356, 411. -/
def scanDigits (base : Nat) : Nat → Bytes → Nat
  | acc, [] => acc
  | acc, c :: rest => if digitVal c < base then scanDigits base (acc * base + digitVal c) rest else acc

/-- Removes an optional `0x`/`0X` that is followed by a hexadecimal digit (`strtol` with base 16).
Part of `std::stoi`, used in name_object.cpp:29, string_object.cpp:411. -/
def dropHexPrefix (s : Bytes) : Bytes :=
  match s with
  | 0x30 :: x :: d :: rest => if (x == 0x78 || x == 0x58) && digitVal d < 16 then d :: rest else s
  | _ => s

/-- Digits after the optional sign; at least one digit is required (`std::invalid_argument` otherwise).
Part of `std::stoi`, used in name_object.cpp:29, string_object.cpp:356, 411. -/
def strtolUnsigned (base : Nat) (s : Bytes) : Res Nat :=
  let s := if base = 16 then dropHexPrefix s else s
  match s with
  | [] => .error .invalidArgument
  | c :: _ => if digitVal c < base then .ok (scanDigits base 0 s) else .error .invalidArgument

/-- `strtol`/`strtoll` as used by `std::stoi`, `std::stoll`: leading white-space, optional sign, digits;
trailing characters are ignored.  The result is the mathematical value.
Part of `std::stoi`, used in name_object.cpp:29, string_object.cpp:356, 411. -/
def strtolInt (base : Nat) (s : Bytes) : Res Int :=
  match s.dropWhile isCSpace with
  | 0x2D :: rest => (strtolUnsigned base rest).map (fun n : Nat => -(n : Int))
  | 0x2B :: rest => (strtolUnsigned base rest).map (fun n : Nat => (n : Int))
  | t => (strtolUnsigned base t).map (fun n : Nat => (n : Int))

/-- `std::stoi(s, 0, base)`: 32-bit range check (`std::out_of_range`).
Used in name_object.cpp:29, string_object.cpp:356, 411, tokenizer.cpp:240. -/
def stoi (base : Nat) (s : Bytes) : Res Int := do
  let v ← strtolInt base s
  if -2147483648 ≤ v ∧ v ≤ 2147483647 then pure v else throw .conversion

/-- `std::stoll(s)`: 64-bit range check (`std::out_of_range`). Used in parser_utils.cpp:25, reverse_parser.cpp:21. -/
def stoll (s : Bytes) : Res Int := do
  let v ← strtolInt 10 s
  if -9223372036854775808 ≤ v ∧ v ≤ 9223372036854775807 then pure v else throw .conversion

/-- `SafeConvert<unsigned char, int>` (utils/conversion_utils.h:20-40): 0..255 or an exception. -/
def toUChar (v : Int) : Res Byte :=
  if 0 ≤ v ∧ v ≤ 255 then .ok (UInt8.ofNat v.toNat) else .error .conversion

/-- `SafeConvert<unsigned char>(stoi(s, 0, base))`, the idiom of tokenizer.cpp:240-243,
name_object.cpp:28-31, string_object.cpp:356-359 and 411-414. -/
def parseByte (base : Nat) (s : Bytes) : Res Byte := do
  let v ← stoi base s
  toUChar v

end VPdf
