import Verif.Spec.Grammar
import Verif.Model.Writer
/-
  The text of a file as a sequence of objects, trailers and lines of other text, whatever its cross-references say.  Only the
  types `Obj` and `SObj` are taken from the model.
-/
namespace VPdf.Spec

/-- White-space within a line: NUL, tab, form feed, space. -/
def Blanks (s : List UInt8) : Prop := ∀ c ∈ s, c ∈ ([0, 9, 12, 32] : List UInt8)

/-- The ends of lines. -/
def lineEnds : List (List UInt8) := [[10], [13], [13, 10]]

/-- A word: regular characters, the first of which begins no number. -/
def PlainWord (w : List UInt8) : Prop :=
  w ≠ [] ∧ (∀ c ∈ w, c ∉ whiteSpace ++ delimiters) ∧ ∀ c ∈ w.head?, ¬ IsDigit c ∧ c ∉ ([43, 45, 46] : List UInt8)

/-- A line that begins no object, trailer or `startxref`: a word and anything behind it, a number, two numbers (the head of
a part of a cross-reference table), or two numbers and a word (an entry of such a table). -/
inductive OtherLine : List UInt8 → Prop where
  | word (w tail : List UInt8) : PlainWord w → w ≠ b! "trailer" → w ≠ b! "startxref" → EndsToken tail → OtherLine (w ++ tail)
  | number (i : Int) (t b : List UInt8) : IntText i t → Blanks b → OtherLine (t ++ b)
  | numberWord (i : Int) (t b w tail : List UInt8) : IntText i t → Blanks b → b ≠ [] → PlainWord w → EndsToken tail →
      OtherLine (t ++ b ++ w ++ tail)
  | numbers (i j : Int) (t b u b' : List UInt8) : IntText i t → Blanks b → b ≠ [] → IntText j u → Blanks b' →
      OtherLine (t ++ b ++ u ++ b')
  | numbersWord (i j : Int) (t b u b' w tail : List UInt8) : IntText i t → Blanks b → b ≠ [] → IntText j u → Blanks b' →
      b' ≠ [] → PlainWord w → w ≠ b! "obj" → EndsToken tail → OtherLine (t ++ b ++ u ++ b' ++ w ++ tail)

/-- The header of a stream that is not a cross-reference stream: without a type, or with the name of another type. -/
def NotXref (d : List (List UInt8 × Obj)) : Prop :=
  valueAt (b! "Type") d = none ∨ ∃ t, valueAt (b! "Type") d = some (.name t) ∧ t ≠ b! "XRef"

/-- The text between `obj` and `endobj`.  The length of a stream is given in its header (then its data is arbitrary), or by
reference to another object (then the data must not contain the word `endstream`). -/
inductive ObjectText : SObj → List UInt8 → Prop where
  | direct (o : Obj) (sep t sep' : List UInt8) : Sep sep → Denotes o t → Sep sep' → EndsToken (sep ++ t) →
      Boundary t (sep' ++ b! "endobj") → ObjectText (.direct o) (sep ++ t ++ sep')
  | stream (d : List (List UInt8 × Obj)) (body sep t s1 e1 s2 sep' : List UInt8) : Sep sep → Denotes (.dict d) t → Sep s1 →
      e1 ∈ ([[10], [13, 10]] : List (List UInt8)) → Sep s2 → Sep sep' → sep' ≠ [] → NotXref d →
      valueAt (b! "Length") d = some (.int body.length) →
      ObjectText (.stream d body) (sep ++ t ++ s1 ++ b! "stream" ++ e1 ++ body ++ s2 ++ b! "endstream" ++ sep')
  | streamRef (d : List (List UInt8 × Obj)) (body sep t s1 e1 e2 sep' : List UInt8) (n g : Nat) : Sep sep →
      Denotes (.dict d) t → Sep s1 → e1 ∈ ([[10], [13, 10]] : List (List UInt8)) → e2 ∈ lineEnds → Sep sep' →
      (∃ c ∈ sep'.head?, c = 10 ∨ c = 13) → NotXref d → valueAt (b! "Length") d = some (.ref n g) →
      ¬ b! "endstream" <:+: body →
      ObjectText (.stream d body) (sep ++ t ++ s1 ++ b! "stream" ++ e1 ++ body ++ e2 ++ b! "endstream" ++ sep')

/-- `n g obj ... endobj`, all of the first three on one line. -/
inductive IndirectText : Nat → Nat → SObj → List UInt8 → Prop where
  | mk (n g : Nat) (v : SObj) (tn b1 tg b2 x : List UInt8) : IntText n tn → n ≤ 9223372036854775807 → Blanks b1 → b1 ≠ [] →
      IntText g tg → g ≤ 65535 → Blanks b2 → b2 ≠ [] → ObjectText v x →
      IndirectText n g v (tn ++ b1 ++ tg ++ b2 ++ b! "obj" ++ x ++ b! "endobj")

/-- What the text of a file holds. -/
inductive FilePart where
  | object (n g : Nat) (v : SObj)
  | trailer (d : List (List UInt8 × Obj))

/-- The text of a file: objects, trailers, `startxref` with a number, other lines, with white-space and comments (such as the
header and `%%EOF`) anywhere between them. -/
inductive FileText : List FilePart → List UInt8 → Prop where
  | done : FileText [] []
  | comment (body : List UInt8) : (∀ c ∈ body, c ≠ 13 ∧ c ≠ 10) → FileText [] (37 :: body)
  | sep (s : List UInt8) (ps : List FilePart) (t : List UInt8) : Sep s → FileText ps t → FileText ps (s ++ t)
  | line (l e : List UInt8) (ps : List FilePart) (t : List UInt8) : OtherLine l → (∀ c ∈ l, c ≠ 13 ∧ c ≠ 10) → e ∈ lineEnds →
      (e = [13] → t.head? ≠ some 10) → FileText ps t → FileText ps (l ++ e ++ t)
  | trailer (d : List (List UInt8 × Obj)) (sep x : List UInt8) (ps : List FilePart) (t : List UInt8) : Sep sep →
      Denotes (.dict d) x → FileText ps t → FileText (.trailer d :: ps) (b! "trailer" ++ sep ++ x ++ t)
  | startxref (i : Int) (sep x : List UInt8) (ps : List FilePart) (t : List UInt8) : Sep sep → sep ≠ [] → IntText i x →
      -9223372036854775808 ≤ i → i ≤ 9223372036854775807 → EndsToken t → FileText ps t →
      FileText ps (b! "startxref" ++ sep ++ x ++ t)
  | object (n g : Nat) (v : SObj) (x : List UInt8) (ps : List FilePart) (t : List UInt8) : IndirectText n g v x → EndsToken t →
      FileText ps t → FileText (.object n g v :: ps) (x ++ t)

/-- The last object with number `n`: its generation and value. -/
def lastObject (n : Nat) : List FilePart → Option (Nat × SObj)
  | [] => none
  | .object m g v :: ps => (lastObject n ps).or (if m = n then some (g, v) else none)
  | .trailer _ :: ps => lastObject n ps

/-- The last trailer. -/
def lastTrailer : List FilePart → Option (List (List UInt8 × Obj))
  | [] => none
  | .trailer d :: ps => (lastTrailer ps).or (some d)
  | .object _ _ _ :: ps => lastTrailer ps

/-- The object is found at an offset: only white-space and comments are in front of it. -/
def FoundAt (file : List UInt8) (off n g : Nat) (v : SObj) : Prop :=
  ∃ sep x rest, Sep sep ∧ IndirectText n g v x ∧ file.drop off = sep ++ x ++ rest

/-- The length of a stream can be found: it is given in the header, or by reference to an integer that is the last object
with its number. -/
def LengthFound (ps : List FilePart) : SObj → Prop
  | .direct _ => True
  | .stream d body => ∀ n g, valueAt (b! "Length") d = some (.ref n g) →
      lastObject n ps = some (g, .direct (.int body.length))

end VPdf.Spec
