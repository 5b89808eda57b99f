import Verif.Spec.Writer
import Verif.Model.Incremental
/-
  Documents that were changed in memory.
-/
namespace VPdf.Spec

/-- The section `i` in memory is the section `s` of the file with changes: entries that are not marked stand for the same
object as in the file, and no entry is missing. -/
structure Modified (i : ISection) (s : WSection) : Prop where
  own : i.own = s.own
  clean : ∀ e ∈ i.entries, e.dirty = false → ∃ x ∈ s.entries,
    x.num = e.entry.num ∧ x.gen = e.entry.gen ∧ entryObject x = entryObject e.entry
  kept : ∀ x ∈ s.entries, ∃ e ∈ i.entries, e.entry.num = x.num ∧ e.entry.gen = x.gen

/-- The sections `cur` in memory, newest first, are the sections `ss` of the file with changes. -/
inductive ModifiedDoc : List ISection → List WSection → Prop where
  | nil : ModifiedDoc [] []
  | cons (i : ISection) (s : WSection) (cur : List ISection) (ss : List WSection) : Modified i s → ModifiedDoc cur ss →
      ModifiedDoc (i :: cur) (s :: ss)

/-- An entry is marked in some section. -/
def MarkedIn (cur : List ISection) (e : IEntry) : Prop := e.dirty = true ∧ ∃ i ∈ cur, e ∈ i.entries

/-- What can be changed: only objects that newer sections do not replace; object 0 stays free; an entry without
an object is new; a length of a stream of the file stays as it is. -/
structure Changes (cur : List ISection) (ss : List WSection) : Prop where
  newest : cur.Pairwise fun newer older => ∀ e ∈ older.entries, e.dirty = true → ∀ x ∈ newer.entries, x.entry.num ≠ e.entry.num
  zero : ∀ i ∈ cur, ∀ e ∈ i.entries, e.entry.num = 0 → ∃ n, e.entry.kind = .free n
  allocated : ∀ e off, MarkedIn cur e → e.entry.kind = .used off none → ∀ s ∈ ss, ∀ x ∈ s.entries, x.num ≠ e.entry.num
  lengths : ∀ s ∈ ss, ∀ x ∈ s.entries, ∀ d body n g, entryObject x = .stream d body →
    valueAt (b! "Length") d = some (.ref n g) → n ≠ 0 ∧ ∀ e, MarkedIn cur e → e.entry.num ≠ n

end VPdf.Spec
