import Verif.Model.ObjectStream
/-
  The value of an object, and files in which it does not depend on what was loaded before.
-/
namespace VPdf.Spec

/-- The integer a reference leads to in a state. -/
def resolveIn (c : Codec) (file : Bytes) (secs : List ReadSection) (f : Nat) (st : Loaded) (n g : Nat) : Res Int := do
  match ← (loadStep c file secs f st n g).2 with
  | .direct (.int i) => pure i
  | .direct (.real m p) => pure (m.tdiv (10 ^ p : Nat))
  | _ => throw .conversion

/-- The value of an object in a file of which nothing has been loaded. -/
def freshLoad (c : Codec) (file : Bytes) (secs : List ReadSection) (f n g : Nat) : Res SObj := (loadStep c file secs f {} n g).2

/-- Every object in an object stream has generation 0, its object stream is not itself in an object stream, and the object
stream lists only objects of which the newest entry says that they are in this object stream. -/
structure Consistent (c : Codec) (file : Bytes) (secs : List ReadSection) : Prop where
  stream : ∀ n g x sn i, findRead secs n g = some x → x.kind = .compressed sn i →
    g = 0 ∧ ∃ y off, findRead secs sn 0 = some y ∧ y.kind = .used off
  only : ∀ n g x sn i, findRead secs n g = some x → x.kind = .compressed sn i → ∀ f stm l,
    freshLoad c file secs f sn 0 = .ok stm → objStmContent c (resolveIn c file secs f {}) stm = .ok l →
    ∀ y ∈ l, ∃ x j, findRead secs y.1 0 = some x ∧ x.kind = .compressed sn j

end VPdf.Spec
