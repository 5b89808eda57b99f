import Verif.Model.Locks
/-
  Calls of several threads on one file.
-/
namespace VPdf.Spec

/-- All calls have returned. -/
def AllReturned (t : Threads) : Prop := ∀ l ∈ t.todo, l = []

/-- Some call has not returned and no thread can go on: the threads wait for each other, or one has gone wrong. -/
def Deadlock (L : Layout) (t : Threads) : Prop := ¬ AllReturned t ∧ ∀ i, t.step L i = none

/-- The lengths of all streams are in their headers, and the object streams, and the objects their headers refer to, are at
offsets. -/
structure NoNesting (L : Layout) : Prop where
  length : ∀ n k, L.place n ≠ .used (some k)
  stream : ∀ n s, L.place n = .packed s → ∃ k, L.place s = .used k
  heads : ∀ s, ∀ h ∈ L.heads s, ∃ k, L.place h = .used k

/-- Two reference objects are compared only in ascending order (the numbers stand for any order of the reference objects). -/
def Ascending : Call → Prop
  | .compare a b => a ≤ b
  | _ => True

/-- The call needs the object `n`. -/
def Asks : Call → Nat → Prop
  | .object m, n => m = n
  | .data m, n => m = n
  | .follow _ m, n => m = n
  | .compare _ _, _ => False

/-- The object `n` is in one place: no object stream lists it if it is at an offset, and otherwise its object stream lists it once
and no other does. -/
def OnePlace (L : Layout) (n : Nat) : Prop :=
  match L.place n with
  | .used _ => ∀ s, n ∉ L.members s
  | .packed s => (L.members s).count n = 1 ∧ ∀ s', s' ≠ s → n ∉ L.members s'

/-- Two threads are about to access the flag of the object `n`, at least one of them to change it. -/
def FlagRace (t : Threads) (n : Nat) : Prop :=
  ∃ (i j : Nat) (a : Act) (l m : List Act), i ≠ j ∧ t.todo[i]? = some (.mark n :: l) ∧ t.todo[j]? = some (a :: m) ∧ (a = .mark n ∨ a = .load n ∨ a = .loadLocked n)

end VPdf.Spec
