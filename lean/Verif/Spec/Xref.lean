import Verif.Model.Xref
/-
  What cross-reference sections and chains mean to a user.  Only the data types are taken from the model.
-/
namespace VPdf.Spec

/-- What a user does to one section. -/
inductive SecOp where
  | add (e : XEntry)
  | remove (n : Nat)
  | clear

/-- A section as a mathematical map from object numbers to entries: `add` replaces, `remove` deletes.  Tables refuse
entries for compressed objects. -/
def secStep (kind : SectionKind) (m : Nat → Option XEntry) : SecOp → Nat → Option XEntry
  | .add e =>
    match kind, e.kind with
    | .table, .compressed _ _ => m
    | _, _ => fun k => if k = e.num then some e else m k
  | .remove n => fun k => if k = n then none else m k
  | .clear => fun _ => none

/-- Entry a section has for a number: its own, or that of the hybrid stream. -/
def Holds (s : Section) (e : XEntry) : Prop :=
  e ∈ s.entries ∨ (∃ h, s.hybrid = some h ∧ e ∈ h ∧ ∀ x ∈ s.entries, x.num ≠ e.num)

/-- The entries of a section have different numbers. -/
def Distinct (l : List XEntry) : Prop := l.Pairwise (fun a b => a.num ≠ b.num)

/-- Sections as the library builds them. -/
def WellFormed (s : Section) : Prop := Distinct s.entries ∧ ∀ h, s.hybrid = some h → Distinct h

/-- The number occurs somewhere in the chain. -/
def Occurs (c : Chain) (n : Nat) : Prop := ∃ s ∈ c, ∃ e, Holds s e ∧ e.num = n

end VPdf.Spec
