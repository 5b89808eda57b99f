import Verif.Model.Strings
/-
  Direct objects and their text: src/vanillapdf/syntax/objects/*.cpp
-/
namespace VPdf

/-- A direct object (syntax/objects/object.h:25-60).
* `int`: `NumericObjectBackend` with a signed or unsigned 64-bit value (numeric_object.h);
* `real m p`: the decimal number `m / 10^p` written with `p` digits behind the point.  Simplification: the C++
  value is a `double`; the model has exact decimals, so it does not show rounding beyond 15 digits and has no
  negative zero;
* `lit`, `hex`: the decoded value of a string.  Simplification: the library decodes at the first access, the
  model when the object is created, so a malformed string is reported earlier;
* `dict`: the entries in the order of the `std::map` (dictionary_object.h:113-116). -/
inductive Obj where
  | null
  | bool (b : Bool)
  | int (i : Int)
  | real (m : Int) (p : Nat)
  | name (n : Bytes)
  | lit (v : Bytes)
  | hex (v : Bytes)
  | ref (num gen : Nat)
  | arr (items : List Obj)
  | dict (entries : List (Bytes × Obj))
  deriving Repr

/-- The entries of a dictionary. dictionary_object.h:19. -/
abbrev Dict := List (Bytes × Obj)

/-- Order of `char`: signed comparison. The comparison of buffers used as keys of dictionary_object.h:19. -/
def charKey (c : Byte) : Nat := (c.toNat + 128) % 256

/-- `Buffer::LessThan`, utils/buffer.cpp:49-51 (`std::vector<char>` `operator<`): lexicographic order of signed
characters.  It is the order of dictionary keys (`NameObjectPtr operator<`, name_object.cpp:187-201). -/
def bytesLt : Bytes → Bytes → Bool
  | _, [] => false
  | [], _ :: _ => true
  | a :: s, b :: t =>
    if charKey a < charKey b then true
    else if charKey b < charKey a then false
    else bytesLt s t

/-- `std::map::insert` on the entries: an existing key keeps its value. dictionary_object.cpp:175-206. -/
def mapInsert {α : Type} (k : Bytes) (v : α) : List (Bytes × α) → List (Bytes × α)
  | [] => [(k, v)]
  | (k', v') :: rest =>
    if bytesLt k k' then (k, v) :: (k', v') :: rest
    else if bytesLt k' k then (k', v') :: mapInsert k v rest
    else (k', v') :: rest

/-- `std::map::find`. dictionary_object.cpp:109-142. -/
def mapFind {α : Type} (k : Bytes) : List (Bytes × α) → Option α
  | [] => none
  | (k', v') :: rest => if k == k' then some v' else mapFind k rest

/-- `p` decimal digits of `n`, most significant first. Part of `fmt::format`, used in numeric_object.cpp:224. -/
def fracDigits : Nat → Nat → Bytes → Bytes
  | 0, _, acc => acc
  | p + 1, n, acc => fracDigits p (n / 10) (decDigit (n % 10) :: acc)

/-- `fmt::format("{:.{p}f}", value)`, numeric_object.cpp:209-235, for a precision `p > 0`.  For precision 0 the
library uses `fmt::to_string`, whose text (it may lack the decimal point) is not modelled. -/
def writeReal (m : Int) (p : Nat) : Bytes :=
  let a := m.natAbs
  (if m < 0 then [0x2D] else []) ++ natDec (a / 10 ^ p) ++ 0x2E :: fracDigits p a []

mutual
/-- `ToPdfStreamInternal` of the classes of objects: null_object.cpp:34-36, boolean_object.cpp:39-41,
integer_object.cpp:39-41 (numeric_object.cpp:201-207), real_object.cpp:43-45, name_object.cpp:108-111,
string_object.cpp:451-576, indirect_reference_object.cpp:231-237, mixed_array_object.cpp:144-154,
dictionary_object.cpp:68-82.  Serialization overrides (`HasOverrideAttribute`) are not modelled. -/
def writeObj : Obj → Bytes
  | .null => b! "null"
  | .bool true => b! "true"
  | .bool false => b! "false"
  | .int i => intDec i
  | .real m p => writeReal m p
  | .name n => writeName n
  | .lit v => writeLiteral v
  | .hex v => writeHex v
  | .ref n g => natDec n ++ 0x20 :: natDec g ++ b! " R"
  | .arr l => 0x5B :: (writeItems l ++ [0x5D])
  | .dict l => 0x3C :: 0x3C :: (writeEntries l ++ [0x3E, 0x3E])
/-- The loop of mixed_array_object.cpp:147-151. -/
def writeItems : List Obj → Bytes
  | [] => []
  | o :: os => writeObj o ++ (match os with | [] => [] | o' :: os' => 0x20 :: writeItems (o' :: os'))
/-- The loop of dictionary_object.cpp:73-79. -/
def writeEntries : List (Bytes × Obj) → Bytes
  | [] => []
  | (k, o) :: os => writeName k ++ 0x20 :: (writeObj o ++
      (match os with | [] => [] | e :: os' => 0x20 :: writeEntries (e :: os')))
end

example : writeObj (.dict [(b! "A", .arr [.int (-5), .ref 3 0, .null]), (b! "B", .real (-5) 1)]) =
    b! "<</A [-5 3 0 R null] /B -0.5>>" := by decide

end VPdf
