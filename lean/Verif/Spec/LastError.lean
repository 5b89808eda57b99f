import Verif.Model.LastError
/-
  Texts in the memory of a C program.
-/
namespace VPdf.Spec

/-- A buffer contains the text `s`: its bytes, none of them zero, and a zero byte behind them. -/
def HasText (buffer s : Bytes) : Prop := (∀ b ∈ s, b ≠ 0) ∧ ∃ rest, buffer = s ++ 0 :: rest

/-- No failure of thread `t` among the calls was thrown. -/
def QuietFor (t : Nat) (calls : List (Nat × CallEnd)) : Prop := ∀ c ∈ calls, c.1 = t → ∃ code, c.2 = .returns code

end VPdf.Spec
