import Verif.Model.StringObject
import Verif.Model.Tokenizer
import Verif.Spec.Grammar
/-
  What a program may rely on when it works with the values of strings (C123).
-/
namespace VPdf.Spec

/-- The calls that give the string `s` another value: setting it, and changing the buffer that `StringObject_GetValue` handed out. -/
def Revalues (s : Nat) : TextCall → Prop
  | .setValue t _ => t = s
  | .setData (.value t) _ => t = s
  | _ => False

/-- The call `c` in `w` gives the string `s` the value `d`, or shows that it has it: it succeeds, and it makes `s` from the contents
of a buffer, sets its value to those contents, changes the buffer of the value, reads the value, or makes `s` as a copy of a string
with this value. -/
inductive GivesValue (w : TextWorld) (s : Nat) (d : Bytes) : TextCall → Prop where
  | make (hex : Bool) (b : TextBuffer) (given : (w.step (.getData b)).2 = .ok (.data d))
      (ok : (w.step (.fromDecoded hex b)).2 = .ok (.string s)) : GivesValue w s d (.fromDecoded hex b)
  | set (b : TextBuffer) (given : (w.step (.getData b)).2 = .ok (.data d)) (ok : (w.step (.setValue s b)).2 = .ok .done) :
      GivesValue w s d (.setValue s b)
  | edit (ok : (w.step (.setData (.value s) d)).2 = .ok .done) : GivesValue w s d (.setData (.value s) d)
  | read (ok : (w.step (.getValue s)).2 = .ok (.buffer (.value s)))
      (shown : ((w.step (.getValue s)).1.step (.getData (.value s))).2 = .ok (.data d)) : GivesValue w s d (.getValue s)
  | copy (t : Nat) (shown : ∃ b, (w.step (.getValue t)).2 = .ok (.buffer b) ∧
      ((w.step (.getValue t)).1.step (.getData b)).2 = .ok (.data d))
      (ok : (w.step (.clone t)).2 = .ok (.string s)) : GivesValue w s d (.clone t)

/-- A program that asks for the value of `s` in `w` sees `d`: it gets a buffer with these contents. -/
def SeesValue (w : TextWorld) (s : Nat) (d : Bytes) : Prop :=
  ∃ b, (w.step (.getValue s)).2 = .ok (.buffer b) ∧ ((w.step (.getValue s)).1.step (.getData b)).2 = .ok (.data d)

/-- The text `t` is one string token, whatever follows it, and a string that is read from it has the value `d`. -/
def TextOf (t d : Bytes) : Prop :=
  ∃ hex : Bool, ∀ dict rest, ∃ raw,
    readToken dict (t ++ rest) = .ok (⟨if hex then .hexString else .literalString, raw⟩, rest) ∧
    ∀ (w : TextWorld) (s : Nat), (w.step (.load hex raw)).2 = .ok (.string s) → SeesValue (w.step (.load hex raw)).1 s d

/-- Writing `s` in `w` gives a text of `d`. -/
def WritesValue (w : TextWorld) (s : Nat) (d : Bytes) : Prop :=
  ∃ t, (w.step (.write s)).2 = .ok (.data t) ∧ TextOf t d

/-- What stands between the brackets of a string denotes `d`: ISO 32000-1, 7.3.4.2 and 7.3.4.3. -/
def RawOf (hex : Bool) (raw d : Bytes) : Prop :=
  if hex then hexBytes raw = some d else LitBody 0 d raw

end VPdf.Spec
