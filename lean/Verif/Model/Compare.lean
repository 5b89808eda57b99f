import Verif.Model.Parser
/-
  Comparison and hashing of object values: `Equals` and `Hash` of src/vanillapdf/syntax/objects/*.cpp,
  `ObjectUtils::IsType` / `ConvertTo` of src/vanillapdf/syntax/utils/object_utils.h.
-/
namespace VPdf

/-- The indirect objects of a file, as far as `File::GetIndirectObject` finds them. file.cpp:793-893. -/
abbrev Objects := List ((Nat × Nat) × PObj)

/-- `File::GetIndirectObjectInternal`, file.cpp:805-850: a number without an object gives the null object.  Simplification:
the repair of numbers that do not match the header of the object is left out. -/
def getIndirect (objs : Objects) (n g : Nat) : PObj :=
  match objs.find? fun e => e.1 == (n, g) with
  | some e => e.2
  | none => .direct .null

/-- `DereferenceHelper::Get`, object_utils.h:132-159: follows references to the first object that is none.  `visited` are the
references seen so far; meeting one again throws.  The first argument bounds the number of steps. -/
def deref (objs : Objects) : Nat → List (Nat × Nat) → PObj → Res PObj
  | 0, _, _ => .error .timeout
  | f + 1, visited, .direct (.ref n g) =>
    if (n, g) ∈ visited then .error .throw
    else deref objs f ((n, g) :: visited) (getIndirect objs n g)
  | _ + 1, _, o => .ok o

/-- What a conversion to any type but `IndirectReferenceObject` sees of an object (object_utils.h:167-197): the object
behind the reference.  `objs.length + 2` steps are enough: every step but the last two visits another object of the file. -/
def target (objs : Objects) (o : Obj) : Res PObj := deref objs (objs.length + 2) [] (.direct o)

/-- `ValueConvertUtils::SafeConvert<big_int>(m_real)`, conversion_utils.h:14-53: truncation, with a check of the range.
Simplification: exact decimals for doubles; the limits are those of the result, `realAsInt` (NumberObjects.lean) has the exact ones. -/
def realToInt (m : Int) (p : Nat) : Res Int :=
  let t := m.tdiv (10 ^ p : Nat)
  if -(2 ^ 63 : Nat) ≤ t ∧ t < (2 ^ 63 : Nat) then .ok t else .error .conversion

mutual
/-- `Equals(ObjectPtr)` of null_object.cpp:9-23, boolean_object.cpp:30-37, integer_object.cpp:21-28 (integer_object.h:116),
real_object.cpp:34-41, name_object.cpp:91-102, string_object.cpp:136-143 (string_object.h:27),
indirect_reference_object.cpp:197-211 and 239-246, mixed_array_object.cpp:186-208, dictionary_object.cpp:250-288.
The first object decides how the second one is converted.  Simplifications: the unsigned 32-bit loop counter of arrays does
not overflow; an integer above 2^63-1 (held unsigned) is compared instead of throwing. -/
def eqObj (objs : Objects) : Obj → Obj → Res Bool
  | .ref n g, b =>
    match b with
    | .ref n' g' => .ok (n == n' && g == g')
    | _ => .ok false
  | .null, b => do
    match ← target objs b with
    | .direct .null => .ok true
    | _ => .ok false
  | .bool x, b => do
    match ← target objs b with
    | .direct (.bool y) => .ok (x == y)
    | _ => .ok false
  | .int i, b => do
    match ← target objs b with
    | .direct (.int j) => .ok (i == j)
    | .direct (.real m p) => do let j ← realToInt m p; .ok (i == j)
    | _ => .ok false
  | .real m p, b => do
    match ← target objs b with
    | .direct (.real m' p') => .ok (m * (10 ^ p' : Nat) == m' * (10 ^ p : Nat))
    | .direct (.int j) => .ok (m == j * (10 ^ p : Nat))
    | _ => .ok false
  | .name x, b => do
    match ← target objs b with
    | .direct (.name y) => .ok (x == y)
    | _ => .ok false
  | .lit x, b => do
    match ← target objs b with
    | .direct (.lit y) => .ok (x == y)
    | .direct (.hex y) => .ok (x == y)
    | _ => .ok false
  | .hex x, b => do
    match ← target objs b with
    | .direct (.lit y) => .ok (x == y)
    | .direct (.hex y) => .ok (x == y)
    | _ => .ok false
  | .arr xs, b => do
    match ← target objs b with
    | .direct (.arr ys) => if xs.length == ys.length then eqItems objs xs ys else .ok false
    | _ => .ok false
  | .dict xs, b => do
    match ← target objs b with
    | .direct (.dict ys) => if xs.length == ys.length then eqEntries objs xs ys else .ok false
    | _ => .ok false
/-- The loop of mixed_array_object.cpp:199-205. -/
def eqItems (objs : Objects) : List Obj → List Obj → Res Bool
  | x :: xs, y :: ys => do
    if ← eqObj objs x y then eqItems objs xs ys else .ok false
  | _, _ => .ok true
/-- The loop of dictionary_object.cpp:268-285: both dictionaries are walked in the order of their keys. -/
def eqEntries (objs : Objects) : List (Bytes × Obj) → List (Bytes × Obj) → Res Bool
  | (k, x) :: xs, (k', y) :: ys =>
    if k == k' then do
      if ← eqObj objs x y then eqEntries objs xs ys else .ok false
    else .ok false
  | _, _ => .ok true
end

/-- The hash functions of the standard library: `std::hash` of a 64-bit integer (as a function of its bit pattern, the same
for the signed and the unsigned type), of a 16-bit integer, of `char`, `bool` and `double`.
Used in boolean_object.cpp:26, numeric_object.cpp:249-259, indirect_reference_object.cpp:134-135. -/
structure StdHash where
  h64 : UInt64 → UInt64
  h16 : UInt16 → UInt64
  hchar : Byte → UInt64
  hbool : Bool → UInt64
  /-- of the double `m / 10^p` -/
  hreal : Int → Nat → UInt64

/-- The hash functions of libstdc++ for integers, characters and booleans (the identity, characters are signed); reals are
hashed by truncation, which is not what libstdc++ does.
Stands for the hash functions used in boolean_object.cpp:26, numeric_object.cpp:249-259, indirect_reference_object.cpp:134-135. -/
def gnuHash : StdHash where
  h64 := id
  h16 := fun g => g.toUInt64
  hchar := fun c => if c < 128 then c.toUInt64 else c.toUInt64 - 256
  hbool := fun b => if b then 1 else 0
  hreal := fun m p => UInt64.ofInt (m.tdiv (10 ^ p : Nat))

/-- `Buffer::Hash`, utils/buffer.cpp:17-27. -/
def hashBytes (H : StdHash) (s : Bytes) : UInt64 := s.foldl (fun r c => r ^^^ H.hchar c) 0

/-- `Hash` of objects without parts: null_object.cpp:25-27, boolean_object.cpp:25-28, numeric_object.cpp:247-269,
name_object.cpp:72-74, string_object.cpp:105-108, indirect_reference_object.cpp:122-140; 0 for arrays and dictionaries. -/
def hashLeaf (H : StdHash) : Obj → UInt64
  | .null => 0
  | .bool b => H.hbool b
  | .int i => H.h64 (UInt64.ofInt i)
  | .real m p => H.hreal m p
  | .name n => hashBytes H n
  | .lit v => hashBytes H v
  | .hex v => hashBytes H v
  | .ref n g => H.h64 (UInt64.ofNat n) ^^^ H.h16 (UInt16.ofNat g)
  | .arr _ => 0
  | .dict _ => 0

mutual
/-- `Hash` computed anew: mixed_array_object.cpp:171-184, dictionary_object.cpp:233-248 without the cache. -/
def hashObj (H : StdHash) : Obj → UInt64
  | .arr l => hashItems H 0 l
  | .dict l => hashEntries H 0 l
  | o => hashLeaf H o
/-- The loop of mixed_array_object.cpp:177-179. -/
def hashItems (H : StdHash) (r : UInt64) : List Obj → UInt64
  | [] => r
  | o :: os => hashItems H (r ^^^ hashObj H o) os
/-- The loop of dictionary_object.cpp:241-244. -/
def hashEntries (H : StdHash) (r : UInt64) : List (Bytes × Obj) → UInt64
  | [] => r
  | (k, o) :: os => hashEntries H (r ^^^ hashBytes H k ^^^ hashObj H o) os
end

example : eqObj [((7, 0), .direct (.int 5))] (.int 5) (.ref 7 0) = .ok true := by rfl
example : eqObj [((7, 0), .direct (.int 5))] (.ref 7 0) (.int 5) = .ok false := by rfl
example : eqObj [((7, 0), .direct (.ref 7 0))] (.int 5) (.ref 7 0) = .error .throw := by rfl

end VPdf
