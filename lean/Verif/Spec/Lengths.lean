import Verif.Spec.Grammar
/-
  Files in which no length of a stream is written as a negative number.
-/
namespace VPdf.Spec

/-- Nowhere in the text is the name `/Length`, in any of its spellings, followed by separators and a minus sign. -/
def NoNegativeLength (file : List UInt8) : Prop :=
  ∀ a k sep b, file = a ++ 47 :: (k ++ sep ++ 45 :: b) → NameBody (b! "Length") k → Sep sep → sep = []

end VPdf.Spec
