import Verif.Model.Ints
/-
  Mathematical meaning of the integer types and of big-endian byte strings.
-/
namespace VPdf

/-- The mathematical range of a built-in integer type. -/
def Spec.Fits (t : IntTy) (x : Int) : Prop :=
  match t.signed with
  | true => -2 ^ (t.bits - 1) ≤ x ∧ x < 2 ^ (t.bits - 1)
  | false => 0 ≤ x ∧ x < 2 ^ t.bits

/-- The number a byte string denotes, most significant byte first. -/
def Spec.bigEndian (s : Bytes) : Nat := s.foldl (fun a b => a * 256 + b.toNat) 0

/-- The widths of the built-in integer types. -/
def Spec.Builtin (t : IntTy) : Prop := t.bits = 8 ∨ t.bits = 16 ∨ t.bits = 32 ∨ t.bits = 64

instance (t : IntTy) : Decidable (Spec.Builtin t) := by unfold Spec.Builtin; infer_instance

end VPdf
