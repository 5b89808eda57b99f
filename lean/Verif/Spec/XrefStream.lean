import Verif.Spec.Ints
import Verif.Spec.XrefTable
import Verif.Model.XrefStream
/-
  The content of cross-reference streams, ISO 32000-1 7.5.8.  Only data types are taken from the model.
-/
namespace VPdf.Spec

/-- The bytes `f` are the type field with the value `t`: "if this field is not present, the type shall be 1". -/
def TypeField (w : Nat) (t : Nat) (f : List UInt8) : Prop :=
  f.length = w ∧ if w = 0 then t = 1 else bigEndian f = t

/-- The bytes `f` are a field of `w` bytes with the value `v`, high-order byte first. -/
def Field (w : Nat) (v : Nat) (f : List UInt8) : Prop := f.length = w ∧ bigEndian f = v

/-- One entry, ISO 32000-1 table 18.  The values are those that fit the types of the interface. -/
inductive StreamRow (w : Widths) : XEntry → List UInt8 → Prop where
  | free (num gen next : Nat) (a b c : List UInt8) : TypeField w.w1 0 a → Field w.w2 next b → Field w.w3 gen c →
      next < 18446744073709551616 → gen ≤ 65535 → StreamRow w ⟨num, gen, .free next⟩ (a ++ b ++ c)
  | used (num gen offset : Nat) (a b c : List UInt8) : TypeField w.w1 1 a → Field w.w2 offset b → Field w.w3 gen c →
      offset < 9223372036854775808 → gen ≤ 65535 → StreamRow w ⟨num, gen, .used offset⟩ (a ++ b ++ c)
  | compressed (num stream index : Nat) (a b c : List UInt8) : TypeField w.w1 2 a → Field w.w2 stream b →
      Field w.w3 index c → stream < 18446744073709551616 → index < 9223372036854775808 →
      StreamRow w ⟨num, 0, .compressed stream index⟩ (a ++ b ++ c)

/-- The entries of a subsection, numbered consecutively from `n`. -/
inductive StreamRows (w : Widths) : Nat → List XEntry → List UInt8 → Prop where
  | nil (n : Nat) : StreamRows w n [] []
  | cons (e : XEntry) (es : List XEntry) (t s : List UInt8) : e.num < 18446744073709551616 → StreamRow w e t →
      StreamRows w (e.num + 1) es s → StreamRows w e.num (e :: es) (t ++ s)

/-- The subsections, described by the array Index; the body may be longer than needed. -/
inductive StreamBody (w : Widths) : List XEntry → List Nat → List UInt8 → Prop where
  | nil (s : List UInt8) : StreamBody w [] [] s
  | cons (base : Nat) (es rest : List XEntry) (ix : List Nat) (t s : List UInt8) : StreamRows w base es t →
      es.length ≤ 2147483648 → StreamBody w rest ix s →
      StreamBody w (es ++ rest) (base :: es.length :: ix) (t ++ s)

/-- Entries of a cross-reference stream in the types of the interface; an object in an object stream has generation 0. -/
def StreamFitting (e : XEntry) : Prop :=
  e.num < 18446744073709551616 ∧ e.gen ≤ 65535 ∧
  match e.kind with
  | .free next => next < 9223372036854775808
  | .used off => 0 ≤ off ∧ off < 9223372036854775808
  | .compressed stream index => e.gen = 0 ∧ stream < 9223372036854775808 ∧ index < 9223372036854775808

/-- The entries numbered from `cur` as long as their numbers continue `prev`; the others keep their numbers. -/
def renumberRun (cur prev : Nat) : List XEntry → List XEntry
  | [] => []
  | e :: es => if e.num = prev + 1 then { e with num := cur } :: renumberRun (cur + 1) e.num es else e :: es

/-- The sorted entries with the first run of consecutive numbers renumbered from 0. -/
def firstRunFromZero : List XEntry → List XEntry
  | [] => []
  | e :: es => { e with num := 0 } :: renumberRun 1 e.num es

end VPdf.Spec
