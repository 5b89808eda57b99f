import Verif.Spec.Grammar
import Verif.Spec.Xref
/-
  The text of cross-reference tables, ISO 32000-1 7.5.4.  Only data types are taken from the model.
-/
namespace VPdf.Spec

/-- One entry: ten digit offset (or number of the next free object), five digit generation, `n` or `f`.  The
grammar here is wider than the standard: any text of the integers and any separators, line ends included. -/
inductive TableLine : XEntry → List UInt8 → Prop where
  | used (num gen : Nat) (off : Int) (so sg a b c : List UInt8) : IntText off so → -9223372036854775808 ≤ off →
      off ≤ 9223372036854775807 → IntText gen sg → gen ≤ 65535 → Sep a → Sep b → Sep c → a ≠ [] → b ≠ [] → c ≠ [] →
      TableLine ⟨num, gen, .used off⟩ (so ++ a ++ sg ++ b ++ 110 :: c)
  | free (num gen next : Nat) (so sg a b c : List UInt8) : IntText next so → next ≤ 9223372036854775807 →
      IntText gen sg → gen ≤ 65535 → Sep a → Sep b → Sep c → a ≠ [] → b ≠ [] → c ≠ [] →
      TableLine ⟨num, gen, .free next⟩ (so ++ a ++ sg ++ b ++ 102 :: c)

/-- The entries of a subsection, numbered consecutively from `n`. -/
inductive TableLines : Nat → List XEntry → List UInt8 → Prop where
  | nil (n : Nat) : TableLines n [] []
  | cons (e : XEntry) (es : List XEntry) (t s : List UInt8) : e.num < 18446744073709551616 → TableLine e t →
      TableLines (e.num + 1) es s → TableLines e.num (e :: es) (t ++ s)

/-- The subsections: first number, number of entries, entries. -/
inductive TableBody : List XEntry → List UInt8 → Prop where
  | nil : TableBody [] []
  | cons (base : Nat) (es rest : List XEntry) (sb sn a b t s : List UInt8) : IntText base sb →
      base < 18446744073709551616 → IntText es.length sn → es.length < 18446744073709551616 → Sep a → Sep b → a ≠ [] →
      b ≠ [] → TableLines base es t → TableBody rest s →
      TableBody (es ++ rest) (sb ++ a ++ sn ++ b ++ t ++ s)

/-- A table with its trailer dictionary. -/
inductive TableText : List XEntry → List (List UInt8 × Obj) → List UInt8 → Prop where
  | mk (es : List XEntry) (d : List (List UInt8 × Obj)) (a body b t : List UInt8) : Sep a → a ≠ [] →
      TableBody es body → Sep b → Denotes (.dict d) t →
      TableText es d (b! "xref" ++ a ++ body ++ b! "trailer" ++ b ++ t)

/-- What of an entry matters to a reader of the table: number, generation, and the offset of an object in use.  The
list of free objects is not kept. -/
def seenEntry (e : XEntry) : XEntry :=
  match e.kind with
  | .free _ => { e with kind := .free 0 }
  | _ => e

/-- The last entry for a number. -/
def lastEntry (n : Nat) (es : List XEntry) : Option XEntry := es.reverse.find? (fun e => e.num == n)

/-- Entries of a table in the types of the interface: numbers of 64 bits (next free numbers of 63), generations of 16
bits, signed offsets of 64 bits. -/
def Fitting (e : XEntry) : Prop :=
  e.num < 18446744073709551616 ∧ e.gen ≤ 65535 ∧
  match e.kind with
  | .free next => next ≤ 9223372036854775807
  | .used off => -9223372036854775808 ≤ off ∧ off ≤ 9223372036854775807
  | .compressed _ _ => False

end VPdf.Spec
