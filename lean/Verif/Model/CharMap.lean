import Verif.Model.Object
import Verif.Model.Ints
/-
  Character maps: src/vanillapdf/contents/character_map_data.cpp, the lookup of src/vanillapdf/semantics/objects/character_map.cpp,
  and the comparisons of src/vanillapdf/utils/buffer.cpp.
-/
namespace VPdf

/-- The loop of `Buffer::ValueEqualLessThan`, buffer.cpp:61-74, for buffers of the same size: the first byte that differs decides. -/
def valueLeBytes : Bytes → Bytes → Bool
  | a :: s, b :: t => if a ≠ b then decide (a.toNat < b.toNat) else valueLeBytes s t
  | _, _ => true

/-- `Buffer::ValueEqualLessThan`, buffer.cpp:53-77 -/
def valueLe (a b : Bytes) : Bool :=
  if a.length ≠ b.length then decide (a.length < b.length) else valueLeBytes a b

/-- `std::strncmp(left, right, n) == 0` for at most `n` characters: equal up to the first terminating zero.
Used in utils/buffer.cpp:80-97. -/
def strncmpEq : Nat → Bytes → Bytes → Bool
  | 0, _, _ => true
  | n + 1, a :: s, b :: t => if a ≠ b then false else if a = 0 then true else strncmpEq n s t
  | _ + 1, _, _ => false

/-- `operator==(const char *, const Buffer&)`, buffer.cpp:79-87.  The text `left` is given without its terminating zero. -/
def textEqBuffer (left right : Bytes) : Bool := strncmpEq right.length (left ++ [0]) right

/-- One step of the loop of `BaseFontRange::Difference` for bytes, character_map_data.cpp:67-99: bit `i` of the result and the new
borrow. -/
def diffBit (src dst borrow : Bool) : Bool × Bool :=
  let (s, borrow) := if borrow then (if src = false then (true, true) else (false, false)) else (src, borrow)
  if s = false ∧ dst = true then (true, true)
  else (s != dst, borrow)

/-- `BaseFontRange::Difference(uint8_t, uint8_t, bool&)`, character_map_data.cpp:64-102: the first `n` bits. -/
def diffBits (src dst : Nat) (borrow : Bool) : Nat → Nat × Bool
  | 0 => (0, borrow)
  | n + 1 =>
    let (result, borrow) := diffBits src dst borrow n
    let (bit, borrow) := diffBit (src.testBit n) (dst.testBit n) borrow
    (if bit then result ||| 2 ^ n else result, borrow)

/-- `BaseFontRange::Difference(uint8_t, uint8_t, bool&)`, character_map_data.cpp:64-102 -/
def diffByte (src dst : Byte) (borrow : Bool) : Nat × Bool := diffBits src.toNat dst.toNat borrow 8

/-- The loop of `BaseFontRange::Difference` for buffers, character_map_data.cpp:114-131, for the pairs of bytes from the end.
Shifting an `int` by 32 or more is undefined. -/
def differenceLoop : Nat → List (Byte × Byte) → Bool → Nat → Res Nat
  | _, [], _, result => .ok result
  | i, (s, t) :: rest, borrow, result =>
    let (d, b) := diffByte s t borrow
    if 32 ≤ i * 8 then .error .ub
    else differenceLoop (i + 1) rest b ((result + d <<< (i * 8)) % 2 ^ 32)

/-- The bytes of a buffer from the end, extended by zeros to the given length (character_map_data.cpp:118-127). -/
def bytesFromEnd (n : Nat) (s : Bytes) : Bytes := s.reverse ++ List.replicate (n - s.length) 0

/-- `BaseFontRange::Difference(BufferPtr, BufferPtr)`, character_map_data.cpp:104-135; the assertions are compiled out. -/
def bufferDifference (source dest : Bytes) : Res Nat :=
  let longer := max source.length dest.length
  differenceLoop 0 ((bytesFromEnd longer source).zip (bytesFromEnd longer dest)) false 0

/-- The loop of `BaseFontRange::IncrementInternal`, character_map_data.cpp:151-175: the bytes of the data from the end, the rest of
the count, and the result so far.  `count` is a `uint32_t`; shifting by 32 or more is undefined. -/
def incrementLoop : Nat → Bytes → Nat → Bytes → Res (Bytes × Nat)
  | _, [], count, result => .ok (result, count)
  | i, b :: bs, count, result =>
    if 32 ≤ i * 8 then .error .ub
    else
      let inc := (count >>> (i * 8)) % 256
      if 255 - b.toNat ≥ inc then
        incrementLoop (i + 1) bs ((2 ^ 32 + count - (inc <<< (i * 8)) % 2 ^ 32) % 2 ^ 32) (UInt8.ofNat (b.toNat + inc) :: result)
      else if 32 ≤ (i + 1) * 8 then .error .ub
      else
        incrementLoop (i + 1) bs
          (((2 ^ 32 + count - (inc <<< (i * 8)) % 2 ^ 32) % 2 ^ 32 + 1 <<< ((i + 1) * 8)) % 2 ^ 32)
          (UInt8.ofNat ((b.toNat + inc) % 256) :: result)

/-- The loop of character_map_data.cpp:182-189, for the values of `i` in the list. -/
def overflowLoop (count : Nat) : List Nat → Bytes → Res Bytes
  | [], result => .ok result
  | i :: is, result => do
    let current ← safeConvert .u8 .u32 (count % ((i + 1) * 256) : Nat)
    overflowLoop count is (if current ≠ 0 then UInt8.ofNat current.toNat :: result else result)

/-- `BaseFontRange::IncrementInternal`, character_map_data.cpp:148-194 -/
def increment (data : Bytes) (count : Nat) : Res Bytes := do
  let (result, count) ← incrementLoop 0 data.reverse count []
  if count > 0 then overflowLoop count [0, 1, 2, 3] result
  else pure result

/-- `BaseFontRange`, character_map_data.h:12-38: the values of the two strings and the destination. -/
structure FontRange where
  low : Bytes
  high : Bytes
  dest : Obj

/-- `BaseFontRange::Contains`, character_map_data.cpp:12-16 -/
def FontRange.contains (r : FontRange) (key : Bytes) : Bool := valueLe r.low key && valueLe key r.high

/-- The values of an array all of whose items are hexadecimal strings (object_utils.h:231-252).  Simplification: references are not
followed. -/
def hexItems : List Obj → Option (List Bytes)
  | [] => some []
  | .hex v :: os => (hexItems os).map (v :: ·)
  | _ :: _ => none

/-- `BaseFontRange::GetMappedValueInternal`, character_map_data.cpp:33-62 -/
def FontRange.map (r : FontRange) (key : Bytes) : Res Bytes :=
  if r.contains key = false then .error .throw
  else
    match r.dest with
    | .hex v => do
      let diff ← bufferDifference key r.low
      increment v diff
    | .arr items =>
      match hexItems items with
      | some values => do
        let diff ← bufferDifference key r.low
        match values[diff]? with
        | some v => pure v
        | none => .error .throw
      | none => .error .throw
    | _ => .error .throw

/-- `CharacterMapData`, character_map_data.h:57-72: the parts that the lookup uses. -/
structure CharMap where
  codeSpace : List (Bytes × Bytes)
  ranges : List FontRange
  chars : List (Bytes × Bytes)

/-- `UnicodeCharacterMap::GetMappedValue`, character_map.cpp:42-106 (without the messages): the code space, then the ranges, then the
single characters. -/
def CharMap.map (m : CharMap) (key : Bytes) : Res Bytes :=
  if m.codeSpace.any (fun r => valueLe key r.2 && valueLe r.1 key) then
    match m.ranges.find? fun r => r.contains key with
    | some r => r.map key
    | none =>
      match m.chars.find? fun c => c.1 == key with
      | some c => .ok c.2
      | none => .error .throw
  else .error .throw

end VPdf
