import Verif.Spec.Recovery
/-!
# Streams whose length is not given, or given wrongly
-/
namespace VPdf.Spec
open VPdf

/-- `LostStream d body head tail behind`: the text `head ++ body ++ tail` is the dictionary `d`, the word `stream`, a line end, the data `body`, a
line end, the word `endstream` and the end of the object.  `head` is the part in front of the data.  The data do not contain
the word `endstream`, and what ends them can be told from them: a line feed does not follow a carriage return. -/
structure LostStream (d : List (List UInt8 × Obj)) (body head tail behind : List UInt8) : Prop where
  /-- The pieces of the text. -/
  pieces : ∃ t s1 e1 e2, head = t ++ s1 ++ b! "stream" ++ e1 ∧ tail = e2 ++ b! "endstream" ++ behind ∧
    Denotes (.dict d) t ∧ Sep s1 ∧ e1 ∈ ([[10], [13, 10]] : List (List UInt8)) ∧ e2 ∈ lineEnds ∧
    (e2 = [10] → body.getLast? ≠ some 13)
  /-- The end of the object is on a line of its own. -/
  ending : ∃ sep rest, behind = sep ++ b! "endobj" ++ rest ∧ Sep sep ∧ (∃ c ∈ sep.head?, c = 10 ∨ c = 13) ∧ EndsToken rest
  /-- The data. -/
  data : ¬ b! "endstream" <:+: body

/-- The dictionary with another length. -/
def WithLength (d d' : List (List UInt8 × Obj)) (n : Nat) : Prop :=
  valueAt (b! "Length") d' = some (.int n) ∧ ∀ k, k ≠ b! "Length" → valueAt k d' = valueAt k d

end VPdf.Spec
