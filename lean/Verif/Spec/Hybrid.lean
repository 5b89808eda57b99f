import Verif.Model.Hybrid
import Verif.Spec.Xref
/-
  Hybrid-reference files as the standard describes them, ISO 32000-1, 7.5.8.4.
-/
namespace VPdf.Spec

/-- What a section has for a number: an object in its table; or, for a number its table has no object for, the entry of the
hybrid stream (a hidden object, which the table may have as free); or a free entry. -/
inductive SectionShows (s : Section) (e : XEntry) : Prop where
  | object : e ∈ s.entries → e.inUse = true → SectionShows s e
  | hidden (h : List XEntry) : s.hybrid = some h → e ∈ h → (∀ x ∈ s.entries, x.num = e.num → x.inUse = false) → SectionShows s e
  | free : e ∈ s.entries → e.inUse = false → (∀ h, s.hybrid = some h → ∀ x ∈ h, x.num ≠ e.num) → SectionShows s e

/-- The newest section that shows the object `n g` shows this entry. -/
def ShowsNewest (c : Chain) (n g : Nat) (e : XEntry) : Prop :=
  ∃ newer s older, c = newer ++ s :: older ∧ SectionShows s e ∧ e.num = n ∧ e.gen = g ∧
    ∀ s' ∈ newer, ∀ e', SectionShows s' e' → ¬ (e'.num = n ∧ e'.gen = g)

/-- The table of the section has no entries for the hidden objects. -/
def Apart (s : Section) : Prop := ∀ h, s.hybrid = some h → ∀ x ∈ s.entries, ∀ y ∈ h, x.num ≠ y.num

end VPdf.Spec
