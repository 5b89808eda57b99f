import Verif.Spec.XrefTable
import Verif.Model.UnlistedStreams
/-
  The objects of a file by its cross-reference sections, ISO 32000-1 7.5.4-7.5.8.  Only data types are taken from the model.
-/
namespace VPdf.Spec

/-- A revision of a file: the section at the offset `at_`, and for a table the hybrid stream with its offset. -/
structure Rev where
  at_ : Int
  text : ParsedSection
  hybrid : Option (Int × ParsedSection)

/-- The hybrid stream of a section is what stands at the offset XRefStm of a table. -/
def HybridOf (parse : Int → Res ParsedSection) (x : ParsedSection) : Option (Int × ParsedSection) → Prop
  | none => x.own ≠ none ∨ x.stm = none
  | some (off, y) => x.own = none ∧ x.stm = some off ∧ parse off = .ok y ∧ y.own ≠ none

/-- The revisions of the file whose newest section is at the given offset, newest first: each names the offset of the one
before. -/
inductive History (parse : Int → Res ParsedSection) : Int → List Rev → Prop where
  | last (r : Rev) : parse r.at_ = .ok r.text → HybridOf parse r.text r.hybrid → r.text.prev = none → History parse r.at_ [r]
  | more (r : Rev) (p : Int) (l : List Rev) : parse r.at_ = .ok r.text → HybridOf parse r.text r.hybrid →
      r.text.prev = some p → History parse p l → History parse r.at_ (r :: l)

/-- The entry of a revision for a number: the last one of its section, otherwise the one of the hybrid stream. -/
def Rev.entry (r : Rev) (n : Nat) : Option XEntry :=
  (lastEntry n r.text.rows).or (r.hybrid.bind fun h => lastEntry n h.2.rows)

/-- What a revision says about an object. -/
def Rev.lists (r : Rev) (n g : Nat) : Option EntryKind :=
  match r.entry n with
  | some e => if e.gen = g then some e.kind else none
  | none => none

/-- The cross-reference streams of a revision with their offsets. -/
def Rev.streams (r : Rev) : List (Int × ParsedSection) := (r.at_, r.text) :: r.hybrid.toList

/-- The stream at `q` is the object `(n, g)` and has no entry in use for itself. -/
def Unlisted (q : Int × ParsedSection) (n g : Nat) : Prop :=
  q.2.own = some (n, g) ∧ ∀ e ∈ q.2.rows, ∀ off, e.kind = .used off → ¬(e.num = n ∧ e.gen = g)

/-- What the entry says. -/
def entryValue : EntryKind → FoundAs
  | .free _ => .free
  | .used off => .object off
  | .compressed s i => .packed s i

/-- The object `(n, g)` of the file: what the newest revision that lists it says; an object that no revision lists is
missing, except for the cross-reference streams that do not list themselves, which are where they are. -/
inductive Current (h : List Rev) (n g : Nat) : FoundAs → Prop where
  | listed (k : EntryKind) : h.findSome? (fun r => r.lists n g) = some k → Current h n g (entryValue k)
  | unlisted (r : Rev) (q : Int × ParsedSection) : (∀ r ∈ h, r.lists n g = none) → r ∈ h → q ∈ r.streams → Unlisted q n g →
      Current h n g (.object q.1)
  | missing : (∀ r ∈ h, r.lists n g = none) → (∀ r ∈ h, ∀ q ∈ r.streams, ¬ Unlisted q n g) → Current h n g .missing

/-- The entries for cross-reference streams are right: the entry of a stream for itself has its offset, and the number of a
stream that does not list itself belongs to nothing else in the file. -/
structure Truthful (h : List Rev) : Prop where
  own : ∀ r ∈ h, ∀ q ∈ r.streams, ∀ n g, q.2.own = some (n, g) → ∀ e ∈ q.2.rows, e.num = n → e.gen = g → ∀ off,
    e.kind = .used off → off = q.1
  alone : ∀ r ∈ h, ∀ q ∈ r.streams, ∀ n g, Unlisted q n g →
    (∀ r ∈ h, ∀ k, r.lists n g = some k → k = .used q.1) ∧ ∀ r ∈ h, ∀ p ∈ r.streams, Unlisted p n g → p.1 = q.1

end VPdf.Spec
