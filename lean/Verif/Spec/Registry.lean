import Verif.Model.Registry
/-
  What a client knows about its documents, from its calls and their outcomes alone.
-/
namespace VPdf.Spec

/-- The calls that ask for a document of a file, with the address of the file. -/
def asksFor : DocCall → Option Nat
  | .openDocument a => some a
  | .openPath a _ => some a
  | .createPath a => some a
  | _ => none

/-- How many handles of a document the client has: one for each answer with the document, less one for each release. -/
def handlesOf (d : Nat) (h : Nat) : List (DocCall × DocOutcome) → Nat
  | [] => h
  | (c, o) :: rest =>
    handlesOf d (if (asksFor c).isSome ∧ o = .document d then h + 1
      else if c = .releaseDocument d ∧ o = .done then h - 1 else h) rest

/-- How many handles of the file at an address the client has: one for each opening, less one for each release. -/
def fileHandlesOf (a : Nat) (h : Nat) : List (DocCall × DocOutcome) → Nat
  | [] => h
  | (c, o) :: rest =>
    fileHandlesOf a (if ∃ r, c = .openFile a r ∧ o = .done then h + 1
      else if c = .releaseFile a ∧ o = .done then h - 1 else h) rest

/-- The document was given for the file at the address. -/
def GivenFor (a d : Nat) (t : List (DocCall × DocOutcome)) : Prop := ∃ c, asksFor c = some a ∧ (c, .document d) ∈ t

/-- At this address nothing went wrong: no request for a document failed, and no link was followed without one. -/
def Undisturbed (a : Nat) (t : List (DocCall × DocOutcome)) : Prop :=
  (∀ c, asksFor c = some a → (c, .failed) ∉ t) ∧ (.follow a, .noDocument) ∉ t

/-- No later answer for the address is a document. -/
def NeverAgain (a : Nat) (t : List (DocCall × DocOutcome)) : Prop :=
  ∀ c d, asksFor c = some a ∨ c = .follow a → (c, .document d) ∉ t

end VPdf.Spec
