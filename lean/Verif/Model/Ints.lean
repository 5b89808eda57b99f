import Verif.Model.Basic
/-
  Built-in integer types, checked conversion and checked arithmetic
  (src/vanillapdf/utils/conversion_utils.h, src/vanillapdf/utils/math_utils.h).
-/
namespace VPdf

/-- A built-in integer type of C++: signedness and width in bits (two's complement).
The type parameters of conversion_utils.h:12-95 and math_utils.h. -/
structure IntTy where
  signed : Bool
  bits : Nat
  deriving DecidableEq, Repr

namespace IntTy
/-- `uint8_t` as a parameter of conversion_utils.h. -/
def u8 : IntTy := ⟨false, 8⟩
/-- `uint16_t` as a parameter of conversion_utils.h. -/
def u16 : IntTy := ⟨false, 16⟩
/-- `uint32_t` as a parameter of conversion_utils.h. -/
def u32 : IntTy := ⟨false, 32⟩
/-- `uint64_t` as a parameter of conversion_utils.h. -/
def u64 : IntTy := ⟨false, 64⟩
/-- `int8_t` as a parameter of conversion_utils.h. -/
def i8 : IntTy := ⟨true, 8⟩
/-- `int16_t` as a parameter of conversion_utils.h. -/
def i16 : IntTy := ⟨true, 16⟩
/-- `int32_t` as a parameter of conversion_utils.h. -/
def i32 : IntTy := ⟨true, 32⟩
/-- `int64_t` as a parameter of conversion_utils.h. -/
def i64 : IntTy := ⟨true, 64⟩

/-- `std::numeric_limits<T>::lowest()`. conversion_utils.h:52. -/
def lowest (t : IntTy) : Int := if t.signed then -(2 ^ (t.bits - 1) : Nat) else 0

/-- `std::numeric_limits<T>::max()`. conversion_utils.h:53, 88; math_utils.h:51. -/
def max (t : IntTy) : Int := if t.signed then (2 ^ (t.bits - 1) : Nat) - 1 else (2 ^ t.bits : Nat) - 1

/-- `std::make_unsigned<T>`. conversion_utils.h:71, 87. -/
def toUnsigned (t : IntTy) : IntTy := ⟨false, t.bits⟩

/-- `static_cast<T>(v)`: the value of the type that is congruent modulo `2^bits`
(implementation-defined before C++20, modular in all supported compilers). The casts of conversion_utils.h:12-95. -/
def cast (t : IntTy) (v : Int) : Int :=
  let m : Int := (2 ^ t.bits : Nat)
  let u := v % m
  if t.signed && decide ((2 ^ (t.bits - 1) : Nat) ≤ u) then u - m else u

/-- Integral promotion: types narrower than `int` become `int`.
The comparisons of conversion_utils.h:12-95, the sum of math_utils.h:14. -/
def promote (t : IntTy) : IntTy := if t.bits < 32 then i32 else t

/-- The usual arithmetic conversions: the type in which a binary operator is evaluated.
The comparisons of conversion_utils.h:12-95, the sum of math_utils.h:14. -/
def common (a b : IntTy) : IntTy :=
  let a := a.promote
  let b := b.promote
  if a.signed = b.signed then (if a.bits ≤ b.bits then b else a)
  else if a.signed then (if b.bits < a.bits then a else b)
  else (if a.bits < b.bits then b else a)
end IntTy

/-- The result of an arithmetic operator evaluated in type `t` whose mathematical result is `v`:
unsigned arithmetic is modular, signed overflow is undefined. math_utils.h:14, 58. -/
def arith (t : IntTy) (v : Int) : Res Int :=
  if t.signed then (if t.lowest ≤ v ∧ v ≤ t.max then .ok v else .error .ub) else .ok (t.cast v)

/-- `a + b` for operands of types `ta`, `tb`. math_utils.h:14. -/
def cppAdd (ta tb : IntTy) (a b : Int) : Res Int :=
  let c := IntTy.common ta tb
  arith c (c.cast a + c.cast b)

/-- `a * b` for operands of types `ta`, `tb`. math_utils.h:58. -/
def cppMul (ta tb : IntTy) (a b : Int) : Res Int :=
  let c := IntTy.common ta tb
  arith c (c.cast a * c.cast b)

/-- `a < b` for operands of types `ta`, `tb`. math_utils.h:16-28, 51. -/
def cppLt (ta tb : IntTy) (a b : Int) : Bool :=
  let c := IntTy.common ta tb
  decide (c.cast a < c.cast b)

/-- `Specializator<R, V, false, _>::IsInRange` (utils/conversion_utils.h:42-54). Operands of the same
signedness are compared by value (the usual conversions only widen them). -/
def isInRangeSame (r v : IntTy) (x : Int) : Bool :=
  if r = v then true else decide (r.lowest ≤ x) && decide (x ≤ r.max)

/-- `ValueConvertUtils::IsInRange` (utils/conversion_utils.h:12-15): dispatch on signedness to the
specialisations at 42-54 (same), 57-73 (signed value, unsigned range) and 76-94 (unsigned value, signed range). -/
def isInRange (r v : IntTy) (x : Int) : Bool :=
  if r.signed = v.signed then isInRangeSame r v x
  else if v.signed then
    if x < 0 then false else isInRangeSame r v.toUnsigned (v.toUnsigned.cast x)
  else decide (r.toUnsigned.cast r.max > x)

/-- `ValueConvertUtils::SafeConvert` (utils/conversion_utils.h:17-24). -/
def safeConvert (r v : IntTy) (x : Int) : Res Int :=
  if isInRange r v x then .ok (r.cast x) else .error .conversion

/-- `SafeAddition<R>(number, addend)` with `number : A`, `addend : B` (utils/math_utils.h:12-35). -/
def safeAddition (r a b : IntTy) (number addend : Int) : Res Int := do
  let sum ← cppAdd a b number addend
  let result := r.cast sum
  if cppLt a IntTy.i32 number 0 then
    if cppLt b IntTy.i32 addend 0 then
      if cppLt a r number result then throw .conversion
    return result
  if cppLt r a result number then throw .conversion
  return result

/-- `SafeMultiply<R>(number, multiplier)` with both operands of type `v` (utils/math_utils.h:37-70); the
final assertions are compiled out. -/
def safeMultiply (r v : IntTy) (number multiplier : Int) : Res Int := do
  if number = 0 ∨ multiplier = 0 then return 0
  let n ← safeConvert r v number
  let m ← safeConvert r v multiplier
  if Int.tdiv r.max m < n then throw .conversion
  let p ← cppMul r r n m
  return r.cast p

/-- `MostSignificantBit` (utils/math_utils.h:72-85): the number of times the value can be halved before it is
no longer positive (0 for negative values). The first argument bounds the number of steps. -/
def msbAux : Nat → Int → Nat
  | 0, _ => 0
  | f + 1, v => if v > 0 then msbAux f (v / 2) + 1 else 0

/-- `MostSignificantBit`, math_utils.h:72-86. -/
def mostSignificantBit (v : Int) : Nat := msbAux 64 v

/-- The loop of `XrefStream::WriteValue` (syntax/files/xref.cpp:223-228): `i` more bytes, most significant
first; shifting a 64-bit value by 64 or more is undefined. -/
def writeBytesBE : Nat → Nat → Res Bytes
  | 0, _ => .ok []
  | i + 1, value => do
    if 64 ≤ i * 8 then throw .ub
    let rest ← writeBytesBE i value
    return UInt8.ofNat (value >>> (i * 8) &&& 255) :: rest

/-- `XrefStream::WriteValue` (syntax/files/xref.cpp:205-229) for a non-negative width; a `std::bitset` shifted by
64 or more is zero. -/
def writeValue (value width : Nat) : Res Bytes :=
  if value >>> (width * 8) ≠ 0 then .error .throw else writeBytesBE width value

/-- One step `field = (field << 8) + next_value` of the reader (syntax/parsers/parser.cpp:584-607): `field` is an
`int64_t`; shifting a negative value or out of 64 bits is undefined, into the sign bit wraps. -/
def readFieldStep (acc : Int) (b : Byte) : Res Int :=
  if acc < 0 ∨ 2 ^ 64 ≤ acc * 256 then .error .ub
  else .ok (IntTy.i64.cast (acc * 256) + b.toNat)

/-- The loop over the bytes of one field (syntax/parsers/parser.cpp:584-607): reads `width` bytes; running past
the end of the body is undefined. -/
def readField : Nat → Int → Bytes → Res (Int × Bytes)
  | 0, acc, s => .ok (acc, s)
  | _ + 1, _, [] => .error .ub
  | w + 1, acc, b :: s => do
    let acc ← readFieldStep acc b
    readField w acc s

/-- Field width chosen by `XrefStream::RecalculateContent` for a value (syntax/files/xref.cpp:71-72, 86-87,
101-102). -/
def contentWidth (v : Int) : Nat := mostSignificantBit v / 8 + 1

/-- Field width chosen by `FileWriter::RecalculateXrefStreamWidth` for a value
(syntax/files/file_writer.cpp:598-604). -/
def writerWidth (v : Int) : Nat :=
  if mostSignificantBit v % 8 = 0 then mostSignificantBit v / 8 else mostSignificantBit v / 8 + 1

end VPdf
