import Verif.Spec.Graph
import Verif.Spec.Heap
/-
  Duplicate objects.  Only data types are taken from the model.
-/
namespace VPdf.Spec

/-- Same type and same content. -/
inductive SameS : SObj → SObj → Prop where
  | direct (a b : Obj) : Same a b → SameS (.direct a) (.direct b)
  | stream (d d' : List (List UInt8 × Obj)) (body : List UInt8) : Same (.dict d) (.dict d') → SameS (.stream d body) (.stream d' body)

/-- Nowhere in the two objects is a reference to be compared with a direct object, or an integer with a real. -/
def comparableS : SObj → SObj → Bool
  | .direct a, .direct b => comparable a b
  | .stream d _, .stream d' _ => comparable (.dict d) (.dict d')
  | .direct (.ref _ _), .stream _ _ => false
  | .stream _ _, .direct (.ref _ _) => false
  | .direct _, .stream _ _ => true
  | .stream _ _, .direct _ => true

/-- Any two objects of the section can be compared; a missing object is the null object. -/
def Comparable (s : WSection) : Prop := ∀ r q, comparableS (objectAt s r) (objectAt s q) = true

/-- An object of its own in the file, outside object streams. -/
def OnItsOwn (e : WEntry) : Prop := ∃ off o, e.kind = .used off (some o)

/-- Two entries with the same object. -/
structure Twins (s : WSection) (x y : WEntry) : Prop where
  left : x ∈ s.entries ∧ OnItsOwn x
  right : y ∈ s.entries ∧ OnItsOwn y
  other : x.num ≠ y.num
  same : SameS (objectAt s (x.num, x.gen)) (objectAt s (y.num, y.gen))

/-- No object that a duplicate refers to, directly or through other objects, has a duplicate; the cross-reference stream has
an entry in use and no duplicate. -/
structure QuietTwins (s : WSection) : Prop where
  quiet : ∀ x y, Twins s x y → ∀ r, Below s (x.num, x.gen) r →
    ∀ z ∈ s.entries, OnItsOwn z → (z.num, z.gen) ≠ r → ¬SameS (objectAt s r) (objectAt s (z.num, z.gen))
  own : ∀ r, s.own = some r → ∃ e ∈ s.entries, (e.num, e.gen) = r ∧ (∀ n, e.kind ≠ .free n) ∧ (∀ off, e.kind ≠ .used off none) ∧
    ∀ z ∈ s.entries, OnItsOwn z → z.num ≠ e.num → ¬SameS (objectAt s r) (objectAt s (z.num, z.gen))

end VPdf.Spec
