import Verif.Model.Ints
import Verif.Model.Parser
/-
  Number objects that share their value: src/vanillapdf/syntax/objects/numeric_object.cpp, integer_object.h, real_object.h,
  src/vanillapdf/syntax/utils/object_utils.h:78-126 (conversions), implementation/syntax/c_integer_object.cpp, c_real_object.cpp, and
  src/vanillapdf/semantics/objects/rectangle.h, signature_flags.h.

  Simplification: `double` is a decimal number `m / 10^k`.
-/
namespace VPdf

/-- `NumericObjectBackend::Type` with the union, numeric_object.h:47-63. -/
inductive NumVal where
  | int (v : Int)
  | uint (v : Nat)
  | real (m : Int) (k : Nat)
  deriving DecidableEq, Repr

/-- `NumericObjectBackend`, numeric_object.h:12-63. -/
structure NumCell where
  value : NumVal
  precision : Nat
  deriving DecidableEq, Repr

/-- `SafeConvert<big_int>` of a `double`, conversion_utils.h:17-24, 42-54: the greatest integer is compared as a `double`, which is
2^63; the conversion of that number is not defined. -/
def realAsInt (m : Int) (k : Nat) : Res Int :=
  let one : Int := (10 ^ k : Nat)
  if -(2 ^ 63 : Int) * one ≤ m ∧ m ≤ (2 ^ 63 : Int) * one then
    let t := Int.tdiv m one
    if t < (2 ^ 63 : Int) then .ok t else .error .ub
  else .error .conversion

/-- `NumericObjectBackend::GetIntegerValue`, numeric_object.cpp:143-158. -/
def NumVal.getInt : NumVal → Res Int
  | .int v => .ok v
  | .uint v => safeConvert .i64 .u64 v
  | .real m k => realAsInt m k

/-- `NumericObjectBackend::GetUnsignedIntegerValue`, numeric_object.cpp:160-176. -/
def NumVal.getUint : NumVal → Res Int
  | .int v => safeConvert .u64 .i64 v
  | .uint v => .ok v
  | .real m k => do
    let i ← realAsInt m k
    safeConvert .u64 .i64 i

/-- `NumericObjectBackend::GetRealValue`, numeric_object.cpp:178-194.  Simplification: great integers are not rounded. -/
def NumVal.getReal : NumVal → Res (Int × Nat)
  | .int v => .ok (v, 0)
  | .uint v => do
    let i ← safeConvert .i64 .u64 v
    .ok (i, 0)
  | .real m k => .ok (m, k)

/-- The nearest integer to `a / 10^d`, an even one if there are two.  Part of `fmt::format`, numeric_object.cpp:223-225.
Simplification: whether a `double` is halfway is decided by its decimal number. -/
def roundOff (a d : Nat) : Nat :=
  let q := a / 10 ^ d
  let r := a % 10 ^ d
  if 10 ^ d < 2 * r ∨ (10 ^ d = 2 * r ∧ q % 2 = 1) then q + 1 else q

/-- `fmt::format("{:.{p}f}", value)` for `p > 0`, numeric_object.cpp:223-225. -/
def fixedText (m : Int) (k p : Nat) : Bytes :=
  let a := if k ≤ p then m.natAbs * 10 ^ (p - k) else roundOff m.natAbs (k - p)
  (if m < 0 then [0x2D] else []) ++ natDec (a / 10 ^ p) ++ 0x2E :: fracDigits p a []

/-- Without zeros at the end.  Part of `fmt::to_string`, numeric_object.cpp:227. -/
def stripZeros (m : Int) : Nat → Int × Nat
  | 0 => (m, 0)
  | k + 1 => if m % 10 = 0 then stripZeros (m / 10) k else (m, k + 1)

/-- Number with exponent.  Part of `fmt::to_string`, numeric_object.cpp:227.  Simplification: the digits and the exponent are those of
the decimal number. -/
def exponentText (a : Nat) (k : Nat) : Bytes :=
  let ds := natDec a
  let e : Int := ds.length - 1 - k
  (match ds with
    | [] => []
    | [c] => [c]
    | c :: rest => c :: 0x2E :: rest) ++ 0x65 :: (if e < 0 then 0x2D else 0x2B) ::
      (if e.natAbs < 10 then 0x30 :: natDec e.natAbs else natDec e.natAbs)

/-- `fmt::to_string` of a `double`, numeric_object.cpp:227: with an exponent from 10^16 on and below 10^-4.  Simplification: decimal
numbers of at most 15 digits, which are the shortest ones for their `double`; no negative zero; zeros at the end of the digits of
a number with exponent are not removed. -/
def shortText (m : Int) (k : Nat) : Bytes :=
  let (m, k) := stripZeros m k
  (if m < 0 then [0x2D] else []) ++
    if 10 ^ (16 + k) ≤ m.natAbs ∨ (m ≠ 0 ∧ m.natAbs * 10 ^ 4 < 10 ^ k) then exponentText m.natAbs k
    else if k = 0 then natDec m.natAbs
    else natDec (m.natAbs / 10 ^ k) ++ 0x2E :: fracDigits k m.natAbs []

/-- `NumericObjectBackend::ToString`, numeric_object.cpp:196-245. -/
def NumCell.text (c : NumCell) : Bytes :=
  match c.value with
  | .int v => intDec v
  | .uint v => natDec v
  | .real m k => if 0 < c.precision then fixedText m k c.precision else shortText m k

/-- `NumericObjectBackend::IsBitSet`, numeric_object.cpp:124-141, for places below 63. -/
def NumVal.bit (v : NumVal) (pos : Nat) : Res Bool :=
  match v with
  | .int v => .ok (decide (v / (2 ^ pos : Nat) % 2 = 1))
  | .uint v => .ok (decide (v / 2 ^ pos % 2 = 1))
  | .real _ _ => .error .throw

/-- `NumericObjectBackend::ToggleBit`, numeric_object.cpp:81-114, for places below 63. -/
def NumVal.toggle (v : NumVal) (pos : Nat) (b : Bool) : Res NumVal := do
  let old ← v.bit pos
  match v with
  | .int v => .ok (.int (if b ∧ ¬ old then v + (2 ^ pos : Nat) else if ¬ b ∧ old then v - (2 ^ pos : Nat) else v))
  | .uint v => .ok (.uint (if b ∧ ¬ old then v + 2 ^ pos else if ¬ b ∧ old then v - 2 ^ pos else v))
  | .real _ _ => .error .throw

/-- A number object: its class, and the backend it has (integer_object.h, real_object.h). -/
structure NumObj where
  integer : Bool
  cell : Nat
  deriving DecidableEq, Repr

/-- The number objects and their backends, in the order they were made. numeric_object.h:66-82. -/
structure NumWorld where
  objs : List NumObj
  cells : List NumCell
  deriving DecidableEq, Repr

/-- The calls of a client: IntegerObject_Create, RealObject_CreateFromData, IntegerObject_SetIntegerValue,
IntegerObject_SetUnsignedIntegerValue, RealObject_SetValue, IntegerObject_FromObject, RealObject_FromObject, Object_Clone,
SignatureFlags_Set… (c_integer_object.cpp, c_real_object.cpp, c_object.cpp, signature_flags.h:18-24). -/
inductive NumCall where
  | newInteger
  | newReal (m : Int) (k p : Nat)
  | setInteger (o : Nat) (v : Int)
  | setUnsigned (o : Nat) (v : Nat)
  | setReal (o : Nat) (m : Int) (k : Nat)
  | asInteger (o : Nat)
  | asReal (o : Nat)
  | clone (o : Nat)
  | setBit (o : Nat) (pos : Nat) (b : Bool)
  deriving DecidableEq, Repr

/-- The result of a call. c_integer_object.cpp, c_real_object.cpp. -/
inductive NumAnswer where
  | object (o : Nat)
  | done
  | failed
  deriving DecidableEq, Repr

/-- A new object with a new backend. integer_object.cpp:13-14, real_object.cpp:16-19. -/
def NumWorld.make (w : NumWorld) (integer : Bool) (c : NumCell) : NumWorld × NumAnswer :=
  (⟨w.objs ++ [⟨integer, w.cells.length⟩], w.cells ++ [c]⟩, .object w.objs.length)

/-- A new object with the backend of another one, object_utils.h:90-96, 110-116; the object itself if it has the class (85-88, 118-121). -/
def NumWorld.view (w : NumWorld) (integer : Bool) (o : Nat) : NumWorld × NumAnswer :=
  match w.objs[o]? with
  | none => (w, .failed)
  | some x =>
    if x.integer = integer then (w, .object o)
    else (⟨w.objs ++ [⟨integer, x.cell⟩], w.cells⟩, .object w.objs.length)

/-- Another value for the backend of an object: `SetIntegerValue`, `SetUnsignedIntegerValue`, `SetRealValue`, numeric_object.cpp:52-79. -/
def NumWorld.assign (w : NumWorld) (integer : Bool) (o : Nat) (v : NumVal) : NumWorld × NumAnswer :=
  match w.objs[o]? with
  | none => (w, .failed)
  | some x =>
    if x.integer = integer then (⟨w.objs, w.cells.modify x.cell fun c => { c with value := v }⟩, .done)
    else (w, .failed)

/-- One call. c_integer_object.cpp, c_real_object.cpp; `IntegerObject::Clone`, integer_object.cpp:30-37, `RealObject::Clone`,
real_object.cpp:26-32. -/
def numCall (w : NumWorld) : NumCall → NumWorld × NumAnswer
  | .newInteger => w.make true ⟨.int 0, 0⟩
  | .newReal m k p => w.make false ⟨.real m k, p⟩
  | .setInteger o v => w.assign true o (.int v)
  | .setUnsigned o v => w.assign true o (.uint v)
  | .setReal o m k => w.assign false o (.real m k)
  | .asInteger o => w.view true o
  | .asReal o => w.view false o
  | .clone o =>
    match w.objs[o]? with
    | none => (w, .failed)
    | some x =>
      match w.cells[x.cell]? with
      | none => (w, .failed)
      | some c => w.make x.integer c
  | .setBit o pos b =>
    match w.objs[o]? with
    | none => (w, .failed)
    | some x =>
      match w.cells[x.cell]? with
      | none => (w, .failed)
      | some c =>
        match c.value.toggle pos b with
        | .ok v => w.assign true o v
        | .error _ => (w, .failed)

/-- Calls one after the other, with their answers. c_integer_object.cpp, c_real_object.cpp. -/
def numCalls (w : NumWorld) : List NumCall → NumWorld × List (NumCall × NumAnswer)
  | [] => (w, [])
  | c :: cs => ((numCalls (numCall w c).1 cs).1, (c, (numCall w c).2) :: (numCalls (numCall w c).1 cs).2)

/-- The backend of an object. numeric_object.h:75-78. -/
def NumWorld.cell (w : NumWorld) (o : Nat) : Option NumCell :=
  match w.objs[o]? with
  | none => none
  | some x => w.cells[x.cell]?

end VPdf
