import Verif.Spec.Grammar
import Verif.Model.Opening
/-
  Lines, headers, endings and chains of sections.  Only data types are taken from the model.
-/
namespace VPdf.Spec

/-- `s` starts with the line `l`, which ends at the first CR, LF or CR LF or at the end of the input; `r` follows. -/
def FirstLine (s l r : List UInt8) : Prop :=
  (∀ c ∈ l, c ≠ 13 ∧ c ≠ 10) ∧
  (s = l ++ [13, 10] ++ r ∨ s = l ++ [10] ++ r ∨ (s = l ++ [13] ++ r ∧ r.head? ≠ some 10) ∨ (s = l ∧ r = []))

/-- The digits of a version in the header line. -/
def versionDigits : PdfVersion → List UInt8
  | .v10 => b! "1.0" | .v11 => b! "1.1" | .v12 => b! "1.2" | .v13 => b! "1.3" | .v14 => b! "1.4"
  | .v15 => b! "1.5" | .v16 => b! "1.6" | .v17 => b! "1.7" | .v20 => b! "2.0"

/-- A text whose bytes are all white-space. -/
def AllWhite (s : List UInt8) : Prop := ∀ c ∈ s, c ∈ whiteSpace

instance (s : List UInt8) : Decidable (AllWhite s) := by unfold AllWhite; infer_instance

/-- The file contents `pre` can be followed by a keyword: empty, or the last byte is white-space. -/
def EndsWhite (pre : List UInt8) : Prop := ∀ c ∈ pre.getLast?, c ∈ whiteSpace

/-- The sections reached from `offset`, newest first: `at_ o` is the section at the offset `o` with the offset of the
previous one. -/
inductive Sections {α : Type} (at_ : Int → α → Option Int → Prop) : Int → List α → Prop where
  | last (o : Int) (x : α) : at_ o x none → Sections at_ o [x]
  | more (o p : Int) (x : α) (xs : List α) : at_ o x (some p) → Sections at_ p xs → Sections at_ o (x :: xs)

/-- Following the previous offsets leads from `o` to `p` in one or more steps. -/
inductive LeadsTo {α : Type} (at_ : Int → α → Option Int → Prop) : Int → Int → Prop where
  | one (o p : Int) (x : α) : at_ o x (some p) → LeadsTo at_ o p
  | step (o p q : Int) (x : α) : at_ o x (some p) → LeadsTo at_ p q → LeadsTo at_ o q

end VPdf.Spec
