import Verif.Spec.Writer
import Verif.Spec.Loading
/-
  Documents with objects in object streams.
-/
namespace VPdf.Spec

/-- The object with number `n` and generation 0 is an object stream: some object is in it. -/
def ObjectStream (ss : List WSection) (n : Nat) : Prop := ∃ s ∈ ss, ∃ e ∈ s.entries, ∃ i o, e.kind = .compressed n i o

/-- Sections, newest first, of which the oldest one has no entry Prev; objects may be in object streams. -/
def FairDoc (ss : List WSection) : Prop :=
  (∀ s ∈ ss, FairSection s) ∧ ∀ s, ss.getLast? = some s → valueAt (b! "Prev") s.trailer = none

/-- For every object in an object stream, with `a` the newer sections and `b` the older ones: no other section has
an entry for the object stream; neither the object stream nor the object is the cross-reference stream; no newer section has
the object; the text of the object has at most 2³¹ bytes.  And the Length of no stream is a reference to an object in an
object stream. -/
structure Housed (ss : List WSection) : Prop where
  stream : ∀ a s b, ss = a ++ s :: b → ∀ e ∈ s.entries, ∀ sn i o, e.kind = .compressed sn i o →
    s.own ≠ some (sn, 0) ∧ ∀ s' ∈ a ++ b, ∀ h ∈ s'.entries, ¬ (h.num = sn ∧ h.gen = 0)
  object : ∀ a s b, ss = a ++ s :: b → ∀ e ∈ s.entries, ∀ sn i o, e.kind = .compressed sn i o →
    s.own ≠ some (e.num, e.gen) ∧ (∀ s' ∈ a, ∀ h ∈ s'.entries, ¬ (h.num = e.num ∧ h.gen = e.gen)) ∧ (writeBody o).length ≤ 2147483648
  length : ∀ s ∈ ss, ∀ h ∈ s.entries, ∀ d body k m, entryObject h = .stream d body →
    valueAt (b! "Length") d = some (.ref k m) → ∀ s' ∈ ss, ∀ e ∈ s'.entries, e.num = k → e.gen = m → ∀ sn i o, e.kind ≠ .compressed sn i o

/-- Where the file `file`, opened with the sections `xs`, has an offset for a cross-reference stream of the document, there is
no stream with the same number and a reference as its Length. -/
def OwnLengths (c : Codec) (file : Bytes) (ss : List WSection) (xs : List ReadSection) : Prop :=
  ∀ s ∈ ss, ∀ n g, s.own = some (n, g) → ∀ x off, findRead xs n g = some x → x.kind = .used off →
    ∀ d data k m, ¬ RefLengthAt c file xs off n g d data k m

end VPdf.Spec
