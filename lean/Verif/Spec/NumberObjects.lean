import Verif.Model.NumberObjects
import Verif.Spec.Grammar
/-
  What a client expects of number objects.
-/
namespace VPdf.Spec

/-- The text is a number of PDF and means `m / 10^k`. -/
def NumberText (m : Int) (k : Nat) (s : List UInt8) : Prop :=
  ∃ (m' : Int) (k' : Nat), ((IntText m' s ∧ k' = 0) ∨ RealText m' k' s) ∧ m' * (10 ^ k : Nat) = m * (10 ^ k' : Nat)

/-- Two objects stand for one number: one was asked from the other. -/
inductive SameNumber (h : List (NumCall × NumAnswer)) : Nat → Nat → Prop where
  | refl (a : Nat) : SameNumber h a a
  | integer (a b : Nat) : (.asInteger a, .object b) ∈ h → SameNumber h a b
  | real (a b : Nat) : (.asReal a, .object b) ∈ h → SameNumber h a b
  | symm (a b : Nat) : SameNumber h a b → SameNumber h b a
  | trans (a b c : Nat) : SameNumber h a b → SameNumber h b c → SameNumber h a c

/-- The call gives object `o` the value `v`. -/
inductive GivesNumber (o : Nat) : NumVal → NumCall × NumAnswer → Prop where
  | newInteger : GivesNumber o (.int 0) (.newInteger, .object o)
  | newReal (m : Int) (k p : Nat) : GivesNumber o (.real m k) (.newReal m k p, .object o)
  | setInteger (v : Int) : GivesNumber o (.int v) (.setInteger o v, .done)
  | setUnsigned (v : Nat) : GivesNumber o (.uint v) (.setUnsigned o v, .done)
  | setReal (m : Int) (k : Nat) : GivesNumber o (.real m k) (.setReal o m k, .done)

/-- The object through which a call sets a number. -/
def setThrough : NumCall → Option Nat
  | .setInteger o _ => some o
  | .setUnsigned o _ => some o
  | .setReal o _ _ => some o
  | .setBit o _ _ => some o
  | _ => none

/-- The bit at a place of a number in two's complement. -/
def bitAt (v : Int) (pos : Nat) : Bool := decide (v / 2 ^ pos % 2 = 1)

/-- The integer an integer backend holds. -/
def wholeNumber : NumVal → Option Int
  | .int v => some v
  | .uint v => some v
  | .real _ _ => none

end VPdf.Spec
