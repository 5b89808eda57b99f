import Verif.Model.Interface
/-
  What the callers of a C interface may give, and what they get.  Only data types and the classes of handles are taken from the
  model.
-/
namespace VPdf.Spec

/-- The addresses that a function needs. -/
def Needs (f : ApiFunction) (i : Nat) : Prop :=
  (∃ h, f.params[i]? = some (.handle h)) ∨ (∃ h, f.params[i]? = some (.result h)) ∨ f.params[i]? = some .memory

/-- The arguments have the types of the parameters; every address may be null.  The handles are handles of objects of the
class that belongs to the type of handle, or of a class derived from it. -/
def RightTypes (sub : CppClass → CppClass → Bool) (f : ApiFunction) (args : Nat → ApiArg) : Prop :=
  ∀ (i : Nat) (p : ApiParam), f.params[i]? = some p →
    match p with
    | .handle h => args i = .null ∨ ∃ o, args i = .object o ∧ sub o.cls (classOf h) = true
    | .value => args i = .number
    | _ => args i = .null ∨ args i = .memory

/-- Inheritance: a class derived from a derived class is derived from the base; the filters are derived from their base
(src/vanillapdf/syntax/filters/*.h) and tables from the base of sections (src/vanillapdf/syntax/files/xref.h). -/
structure Hierarchy (sub : CppClass → CppClass → Bool) : Prop where
  trans : ∀ a b c, sub a b = true → sub b c = true → sub a c = true
  filters : sub .FlateDecodeFilter .FilterBase = true ∧ sub .DCTDecodeFilter .FilterBase = true ∧
    sub .ASCII85DecodeFilter .FilterBase = true ∧ sub .ASCIIHexDecodeFilter .FilterBase = true ∧
    sub .LZWDecodeFilter .FilterBase = true ∧ sub .JPXDecodeFilter .FilterBase = true
  tables : sub .XrefTable .XrefBase = true

/-- The library makes what it says: an object of a class is of that class or of one derived from it. -/
def Makes (w : ApiWorld) : Prop := ∀ c, w.sub (w.made c).cls c = true

/-- All handles of a program are handles of objects of their class. -/
def AllRight (sub : CppClass → CppClass → Bool) (held : List (HandleType × ApiObject)) : Prop :=
  ∀ x ∈ held, sub x.2.cls (classOf x.1) = true

/-- A program gives only handles it has, for the types they have, or null. -/
def FromHeld (held : List (HandleType × ApiObject)) (f : ApiFunction) (args : Nat → ApiArg) : Prop :=
  ∀ (i : Nat) (p : ApiParam), f.params[i]? = some p →
    match p with
    | .handle h => args i = .null ∨ ∃ o, args i = .object o ∧ (h, o) ∈ held
    | .value => args i = .number
    | _ => args i = .null ∨ args i = .memory

/-- The handles and the outcomes of a program that calls functions of the interface one after another.  Whether a call throws,
and what it makes, can be different each time. -/
inductive Runs (sub : CppClass → CppClass → Bool) (allowed : ApiFunction → Prop) :
    List (HandleType × ApiObject) → List ApiOutcome → Prop where
  | start : Runs sub allowed [] []
  | call (w : ApiWorld) (f : ApiFunction) (args : Nat → ApiArg) (held : List (HandleType × ApiObject)) (os : List ApiOutcome) :
      Runs sub allowed held os → allowed f → w.sub = sub → Makes w → FromHeld held f args →
      Runs sub allowed (afterCall w f args held) (runApi w args f.steps :: os)

end VPdf.Spec
