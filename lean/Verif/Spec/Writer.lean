import Verif.Spec.Grammar
import Verif.Spec.Opening
import Verif.Model.Writer
/-
  Documents and what a save keeps of them.  Only data types are taken from the model.
-/
namespace VPdf.Spec

/-- The object an entry stands for; a free entry stands for the null object (ISO 32000-1 7.3.10). -/
def entryObject (e : WEntry) : SObj :=
  match e.kind with
  | .free _ => .direct .null
  | .used _ (some o) => o
  | .used _ none => .direct .null
  | .compressed _ _ o => o

/-- `DocHolds ss n g o`: in the document with the sections `ss`, newest first, the object with number `n` and generation `g`
is `o`, from the newest section that has an entry for it.  The cross-reference streams themselves are left out. -/
inductive DocHolds : List WSection → Nat → Nat → SObj → Prop where
  | here (s : WSection) (ss : List WSection) (e : WEntry) : e ∈ s.entries → s.own ≠ some (e.num, e.gen) →
      DocHolds (s :: ss) e.num e.gen (entryObject e)
  | older (s : WSection) (ss : List WSection) (n g : Nat) (o : SObj) : (∀ e ∈ s.entries, ¬ (e.num = n ∧ e.gen = g)) →
      DocHolds ss n g o → DocHolds (s :: ss) n g o

/-- No section has an entry for the object. -/
def DocLacks (ss : List WSection) (n g : Nat) : Prop := ∀ s ∈ ss, ∀ e ∈ s.entries, ¬ (e.num = n ∧ e.gen = g)

/-- The second object is the same as the first one: an entry of a dictionary with the value null is the same as no entry,
and the entry Length of a stream is the writer's business. -/
inductive SameObject : SObj → SObj → Prop where
  | direct (o : Obj) : SameObject (.direct o) (.direct (dropNulls o))
  | stream (d d' : List (List UInt8 × Obj)) (body : List UInt8) :
      (∀ k, k ≠ b! "Length" → valueAt k d' = valueAt k (dropNullsEntries d)) → SameObject (.stream d body) (.stream d' body)

/-- An object that has a text.  The length of a stream is missing, or a number or a reference to one. -/
def Storable : SObj → Prop
  | .direct o => Holdable o
  | .stream d _ => Holdable (.dict d)

/-- A reversible encoding of stream bodies: what is encoded for the header `d` is decoded for the header a reader sees. -/
def Faithful (c : Codec) : Prop :=
  ∀ d d' b x, c.encode d b = .ok x →
    (∀ k, k = b! "Filter" ∨ k = b! "DecodeParms" → valueAt k d' = valueAt k (dropNullsEntries d)) → c.decode d' x = .ok b

/-- A section as a document in memory has it: entries sorted by number, numbers of 63 bits, generations of 16 bits, no
objects in object streams, a trailer that has a text.  A cross-reference stream has the entry of
object 0, its Length is direct, and if it has an entry for itself, its offset is one and its object is a stream. -/
structure GoodSection (s : WSection) : Prop where
  sorted : s.entries.Pairwise (fun a b => a.num < b.num)
  count : s.entries.length ≤ 2147483648
  numbers : ∀ e ∈ s.entries, e.num ≤ 9223372036854775807 ∧ e.gen ≤ 65535
  objects : ∀ e ∈ s.entries, match e.kind with
    | .free _ => True
    | .used _ o => ∀ x, o = some x → Storable x
    | .compressed _ _ _ => False
  trailer : Holdable (.dict s.trailer)
  own : ∀ n g, s.own = some (n, g) → n ≤ 9223372036854775807 ∧ g ≤ 65535 ∧ (∃ e ∈ s.entries, e.num = 0) ∧
    (valueAt (b! "Length") s.trailer = none ∨ ∃ i, valueAt (b! "Length") s.trailer = some (.int i)) ∧
    ∀ off o, ⟨n, g, .used off o⟩ ∈ s.entries → (0 ≤ off ∧ off ≤ 9223372036854775807) ∧ ∀ x, o ≠ some (.direct x)

/-- As `GoodSection`, but a cross-reference stream may have entries of objects in object streams: generation 0, direct
objects, numbers of 63 bits. -/
structure FairSection (s : WSection) : Prop where
  sorted : s.entries.Pairwise (fun a b => a.num < b.num)
  count : s.entries.length ≤ 2147483648
  numbers : ∀ e ∈ s.entries, e.num ≤ 9223372036854775807 ∧ e.gen ≤ 65535
  objects : ∀ e ∈ s.entries, match e.kind with
    | .free _ => True
    | .used _ o => ∀ x, o = some x → Storable x
    | .compressed st i o => s.own ≠ none ∧ e.gen = 0 ∧ st ≤ 9223372036854775807 ∧ i ≤ 9223372036854775807 ∧
        ∃ x, o = .direct x ∧ Holdable x
  trailer : Holdable (.dict s.trailer)
  own : ∀ n g, s.own = some (n, g) → n ≤ 9223372036854775807 ∧ g ≤ 65535 ∧ (∃ e ∈ s.entries, e.num = 0) ∧
    (valueAt (b! "Length") s.trailer = none ∨ ∃ i, valueAt (b! "Length") s.trailer = some (.int i)) ∧
    ∀ off o, ⟨n, g, .used off o⟩ ∈ s.entries → (0 ≤ off ∧ off ≤ 9223372036854775807) ∧ ∀ x, o ≠ some (.direct x)

/-- A document: good sections, newest first, of which the oldest one has no entry Prev. -/
def GoodDoc (ss : List WSection) : Prop :=
  (∀ s ∈ ss, GoodSection s) ∧ ∀ s, ss.getLast? = some s → valueAt (b! "Prev") s.trailer = none

/-- For every stream of the document whose Length is a reference, the oldest section that has the object referred to
agrees with the newest one. -/
def StableLengths (ss : List WSection) : Prop :=
  ∀ s ∈ ss, ∀ e ∈ s.entries, ∀ d body n g, entryObject e = .stream d body →
    valueAt (b! "Length") d = some (.ref n g) → ∀ o, DocHolds ss.reverse n g o → DocHolds ss n g o

end VPdf.Spec
