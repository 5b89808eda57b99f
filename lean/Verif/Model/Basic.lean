/-
  Common vocabulary of the model.
-/
namespace VPdf

/-- A byte of a buffer, file or stream (`char` in the C++ sources). `Buffer` holds `char`: utils/buffer.h. -/
abbrev Byte := UInt8

/-- `Buffer` (src/vanillapdf/utils/buffer.h:18-120): a vector of `char`; an input stream is modelled by
the list of bytes that are still to be read. -/
abbrev Bytes := List UInt8

/-- How an operation of the library may fail to return a value.  `throw` is a C++ exception (the kind is
kept only where a caller distinguishes it), `ub` is undefined behaviour of the C++ program (signed overflow,
out-of-range access, oversized shift), `timeout` is used only by fuelled loops that ran out of fuel.
The exceptions are those of utils/exceptions.h:13-110 and of the standard library. -/
inductive Fault where
  /-- `ParseException`, `GeneralException` and the like -/
  | throw
  /-- `std::invalid_argument` of `std::stoi` and relatives -/
  | invalidArgument
  /-- `ConversionExceptionFactory<...>` / `std::out_of_range` -/
  | conversion
  /-- `DuplicateKeyException` -/
  | duplicateKey
  /-- `ObjectMissingException`, key not found -/
  | missing
  /-- `NotSupportedException` -/
  | notSupported
  /-- undefined behaviour -/
  | ub
  /-- out of fuel: the modelled loop has not ended within the given number of steps -/
  | timeout
  deriving DecidableEq, Repr

/-- The outcome of an operation. Thrown exceptions: utils/exceptions.h:13-110. -/
abbrev Res (α : Type) := Except Fault α

instance {α : Type} [DecidableEq α] : DecidableEq (Res α) := fun a b =>
  match a, b with
  | .ok x, .ok y => if h : x = y then isTrue (by rw [h]) else isFalse (by intro c; cases c; exact h rfl)
  | .error x, .error y => if h : x = y then isTrue (by rw [h]) else isFalse (by intro c; cases c; exact h rfl)
  | .ok _, .error _ => isFalse (by intro c; cases c)
  | .error _, .ok _ => isFalse (by intro c; cases c)

open Lean in
/-- `b! "text"` is the list of the bytes of an ASCII text. -/
syntax "b!" str : term

open Lean in
macro_rules
  | `(b! $s:str) => do
    let elems ← s.getString.toList.toArray.mapM fun c => `($(quote c.toNat))
    `(([$elems,*] : List UInt8))

example : b! "obj" = [111, 98, 106] := rfl

/-- Every statement about a byte that can be checked value by value holds for all bytes if it holds for the
256 values. -/
theorem forall_byte {P : UInt8 → Prop} (h : ∀ n : Fin 256, P (UInt8.ofNat n.val)) : ∀ b, P b := by
  intro b
  have hb : b.toNat < 256 := b.toNat_lt
  have := h ⟨b.toNat, hb⟩
  simpa using this

end VPdf
