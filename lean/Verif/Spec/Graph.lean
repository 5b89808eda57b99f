import Verif.Spec.Writer
/-
  What a reader sees of a document: starting from the trailer, references are followed and their numbers are not looked at.
  Only data types are taken from the model.
-/
namespace VPdf.Spec

/-- What a reader sees of an object down to some depth.  `α` is what is seen of an object without parts. -/
inductive Tree (α : Type) where
  /-- not looked at -/
  | cut
  | leaf (a : α)
  | arr (items : List (Tree α))
  | dict (entries : List (List UInt8 × Tree α))
  | stream (header : List (List UInt8 × Tree α)) (body : List UInt8)
  /-- a reference, with what is behind it -/
  | ref (to : Tree α)

mutual
/-- An object, seen by someone who sees `view` of objects without parts and `follow` of references. -/
def treeOf {α : Type} (view : Obj → α) (follow : Nat × Nat → Tree α) : Obj → Tree α
  | .ref n g => .ref (follow (n, g))
  | .arr l => .arr (treeItems view follow l)
  | .dict l => .dict (treeEntries view follow l)
  | .null => .leaf (view .null)
  | .bool b => .leaf (view (.bool b))
  | .int i => .leaf (view (.int i))
  | .real m p => .leaf (view (.real m p))
  | .name n => .leaf (view (.name n))
  | .lit v => .leaf (view (.lit v))
  | .hex v => .leaf (view (.hex v))
def treeItems {α : Type} (view : Obj → α) (follow : Nat × Nat → Tree α) : List Obj → List (Tree α)
  | [] => []
  | o :: os => treeOf view follow o :: treeItems view follow os
def treeEntries {α : Type} (view : Obj → α) (follow : Nat × Nat → Tree α) : List (List UInt8 × Obj) → List (List UInt8 × Tree α)
  | [] => []
  | (k, o) :: os => (k, treeOf view follow o) :: treeEntries view follow os
end

/-- The same for an indirect object. -/
def treeOfS {α : Type} (view : Obj → α) (follow : Nat × Nat → Tree α) : SObj → Tree α
  | .direct o => treeOf view follow o
  | .stream d body => .stream (treeEntries view follow d) body

/-- The object a reference leads to: the null object if there is none (ISO 32000-1 7.3.10).  The cross-reference stream
itself has the trailer as its header; its content is the writer's business. -/
def objectAt (s : WSection) (r : Nat × Nat) : SObj :=
  match s.entries.find? (fun e => e.num == r.1 && e.gen == r.2) with
  | none => .direct .null
  | some e => if s.own = some r then .stream s.trailer [] else entryObject e

/-- What is behind a reference, when at most `k` references are followed. -/
def behind {α : Type} (view : Obj → α) (s : WSection) : Nat → Nat × Nat → Tree α
  | 0, _ => .cut
  | k + 1, r => treeOfS view (behind view s k) (objectAt s r)

/-- What a reader sees of a document of one section: the entries of the trailer, when at most `k` references are followed. -/
def seen {α : Type} (view : Obj → α) (s : WSection) (k : Nat) : List (List UInt8 × Tree α) :=
  treeEntries view (behind view s k) s.trailer

/-- The object has the reference in it. -/
inductive Mentions (r : Nat × Nat) : Obj → Prop where
  | ref : Mentions r (.ref r.1 r.2)
  | arr (l : List Obj) (o : Obj) : o ∈ l → Mentions r o → Mentions r (.arr l)
  | dict (l : List (List UInt8 × Obj)) (k : List UInt8) (o : Obj) : (k, o) ∈ l → Mentions r o → Mentions r (.dict l)

/-- The same for an indirect object. -/
def MentionsS (r : Nat × Nat) : SObj → Prop
  | .direct o => Mentions r o
  | .stream d _ => Mentions r (.dict d)

/-- The references that are met when references are followed from the trailer. -/
inductive FromTrailer (s : WSection) : Nat × Nat → Prop where
  | trailer (r : Nat × Nat) : Mentions r (.dict s.trailer) → FromTrailer s r
  | object (r q : Nat × Nat) : FromTrailer s r → MentionsS q (objectAt s r) → FromTrailer s q

/-- The references that are met from the trailer, or from the cross-reference stream and the object streams that hold the
objects of the section. -/
inductive Needed (s : WSection) : Nat × Nat → Prop where
  | trailer (r : Nat × Nat) : Mentions r (.dict s.trailer) → Needed s r
  | own (r : Nat × Nat) : s.own = some r → Needed s r
  | holder (n g sn i : Nat) (o : SObj) : s.own ≠ none → ⟨n, g, .compressed sn i o⟩ ∈ s.entries → Needed s (sn, 0)
  | object (r q : Nat × Nat) : Needed s r → MentionsS q (objectAt s r) → Needed s q

/-- The references in the object behind `r`, and those that are met from there. -/
inductive Below (s : WSection) (r : Nat × Nat) : Nat × Nat → Prop where
  | here (q : Nat × Nat) : MentionsS q (objectAt s r) → Below s r q
  | next (q q' : Nat × Nat) : Below s r q → MentionsS q' (objectAt s q) → Below s r q'

/-- A section of a document in memory: sorted by number; a cross-reference stream has an entry in use for itself. -/
structure Tidy (s : WSection) : Prop where
  sorted : s.entries.Pairwise (fun a b => a.num < b.num)
  own : ∀ r, s.own = some r → ∃ e ∈ s.entries, (e.num, e.gen) = r ∧ ∀ n, e.kind ≠ .free n

/-- `NewestEntry ss n e`: of the sections `ss`, newest first, the newest one that has an entry with number `n` has `e`. -/
inductive NewestEntry : List WSection → Nat → WEntry → Prop where
  | here (s : WSection) (ss : List WSection) (e : WEntry) : e ∈ s.entries → NewestEntry (s :: ss) e.num e
  | older (s : WSection) (ss : List WSection) (n : Nat) (e : WEntry) : (∀ x ∈ s.entries, x.num ≠ n) →
      NewestEntry ss n e → NewestEntry (s :: ss) n e

end VPdf.Spec
