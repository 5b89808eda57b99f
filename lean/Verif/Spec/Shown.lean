import Verif.Spec.Dedupe
/-
  What a reader of a document sees, in memory and in a file, when the numbers of objects, entries of dictionaries with the value
  null and the entry Length of streams are not looked at.  Only data types are taken from the model.
-/
namespace VPdf.Spec

/-- What is seen of an object down to some depth.  `α` is what is seen of an object without parts.  A dictionary is seen through
its keys. -/
inductive Shown (α : Type) where
  /-- not looked at -/
  | cut
  /-- the object cannot be read -/
  | failed
  | leaf (a : α)
  | arr (items : List (Shown α))
  | dict (entry : List UInt8 → Option (Shown α))
  | stream (entry : List UInt8 → Option (Shown α)) (body : List UInt8)
  /-- a reference, with what is behind it -/
  | ref (to : Shown α)

/-- A value that counts as no entry in a dictionary (ISO 32000-1 7.3.7). -/
def absentValue : Obj → Bool
  | .null => true
  | _ => false

mutual
/-- An object, seen by someone who sees `view` of objects without parts and `follow` of references. -/
def shownOf {α : Type} (view : Obj → α) (follow : Nat × Nat → Shown α) : Obj → Shown α
  | .ref n g => .ref (follow (n, g))
  | .arr l => .arr (shownItems view follow l)
  | .dict l => .dict (shownAt view follow l)
  | .null => .leaf (view .null)
  | .bool b => .leaf (view (.bool b))
  | .int i => .leaf (view (.int i))
  | .real m p => .leaf (view (.real m p))
  | .name n => .leaf (view (.name n))
  | .lit v => .leaf (view (.lit v))
  | .hex v => .leaf (view (.hex v))
def shownItems {α : Type} (view : Obj → α) (follow : Nat × Nat → Shown α) : List Obj → List (Shown α)
  | [] => []
  | o :: os => shownOf view follow o :: shownItems view follow os
/-- The entry of a dictionary with the given key. -/
def shownAt {α : Type} (view : Obj → α) (follow : Nat × Nat → Shown α) : List (List UInt8 × Obj) → List UInt8 → Option (Shown α)
  | [], _ => none
  | (k, o) :: es, q => if q = k then (if absentValue o then none else some (shownOf view follow o)) else shownAt view follow es q
end

/-- The same for an indirect object. -/
def shownS {α : Type} (view : Obj → α) (follow : Nat × Nat → Shown α) : SObj → Shown α
  | .direct o => shownOf view follow o
  | .stream d body => .stream (fun k => if k = b! "Length" then none else shownAt view follow d k) body

/-- The object with the number and generation `r` in a document of tables, newest section first: the null object if there is
none (ISO 32000-1 7.3.10). -/
def docObject (ss : List WSection) (r : Nat × Nat) : SObj :=
  match ss.findSome? fun s => s.entries.find? fun e => e.num == r.1 && e.gen == r.2 with
  | none => .direct .null
  | some e => entryObject e

/-- What is behind a reference in a document, when at most `k` references are followed. -/
def docBehind {α : Type} (view : Obj → α) (ss : List WSection) : Nat → Nat × Nat → Shown α
  | 0, _ => .cut
  | k + 1, r => shownS view (docBehind view ss k) (docObject ss r)

/-- What is seen of the entry `key` of the newest trailer, when at most `k` references are followed. -/
def docShows {α : Type} (view : Obj → α) (ss : List WSection) (k : Nat) (key : List UInt8) : Option (Shown α) :=
  match ss with
  | [] => none
  | s :: _ => shownAt view (docBehind view ss k) s.trailer key

/-- What is behind a reference in a file, `load` being what is read for a number and a generation. -/
def fileBehind {α : Type} (view : Obj → α) (load : Nat → Nat → Res SObj) : Nat → Nat × Nat → Shown α
  | 0, _ => .cut
  | k + 1, r =>
    match load r.1 r.2 with
    | .ok o => shownS view (fileBehind view load k) o
    | .error _ => .failed

/-- What is seen of the entry `key` of a trailer that was read. -/
def fileShows {α : Type} (view : Obj → α) (load : Nat → Nat → Res SObj) (trailer : List (List UInt8 × Obj)) (k : Nat)
    (key : List UInt8) : Option (Shown α) :=
  shownAt view (fileBehind view load k) trailer key

/-- The references that are met when references are followed from the newest trailer. -/
inductive FromDoc (ss : List WSection) : Nat × Nat → Prop where
  | trailer (s : WSection) (r : Nat × Nat) : ss.head? = some s → Mentions r (.dict s.trailer) → FromDoc ss r
  | object (r q : Nat × Nat) : FromDoc ss r → MentionsS q (docObject ss r) → FromDoc ss q

/-- A document of tables, newest first, as it is in memory: good sections with fewer than 2^31 entries in all.  The sections
that have a number agree on its generation and on whether it is free. -/
structure PlainDoc (ss : List WSection) : Prop where
  some : ss ≠ []
  good : ∀ s ∈ ss, GoodSection s ∧ s.own = none
  few : (ss.map fun s => s.entries.length).sum < 2147483648
  steady : ∀ s ∈ ss, ∀ s' ∈ ss, ∀ e ∈ s.entries, ∀ e' ∈ s'.entries, e.num = e'.num →
    e.gen = e'.gen ∧ ((∃ n, e.kind = .free n) ↔ ∃ n, e'.kind = .free n)

/-- No two objects that are met from the trailer are the same. -/
def NoTwins (ss : List WSection) : Prop :=
  ∀ r q, FromDoc ss r → FromDoc ss q → r ≠ q → ¬SameS (docObject ss r) (docObject ss q)

end VPdf.Spec
