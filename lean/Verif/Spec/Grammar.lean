import Verif.Spec.Pdf
import Verif.Model.Object
/-
  The syntax of objects, ISO 32000-1 7.2 and 7.3: which texts denote which object.  Only the type `Obj` is taken
  from the model.
-/
namespace VPdf.Spec

/-- Separators: white-space and complete comments, any number of them (ISO 32000-1, 7.2.2 and 7.2.3). -/
inductive Sep : List UInt8 → Prop where
  | nil : Sep []
  | ws (c : UInt8) (s : List UInt8) : c ∈ whiteSpace → Sep s → Sep (c :: s)
  | comment (body : List UInt8) (c : UInt8) (s : List UInt8) :
      (∀ b ∈ body, b ≠ 13 ∧ b ≠ 10) → (c = 13 ∨ c = 10) → Sep s → Sep (37 :: (body ++ c :: s))

/-- `c` is a decimal digit. -/
def IsDigit (c : UInt8) : Prop := 48 ≤ c.toNat ∧ c.toNat ≤ 57

/-- The number a list of decimal digits denotes. -/
def digitsVal (ds : List UInt8) : Nat := ds.foldl (fun a c => a * 10 + (c.toNat - 48)) 0

/-- Text of an integer, ISO 32000-1 7.3.3: decimal digits with an optional sign. -/
def IntText (i : Int) (s : List UInt8) : Prop :=
  ∃ ds : List UInt8, ds ≠ [] ∧ (∀ c ∈ ds, IsDigit c) ∧
    ((s = ds ∧ i = digitsVal ds) ∨ (s = 43 :: ds ∧ i = digitsVal ds) ∨ (s = 45 :: ds ∧ i = -(digitsVal ds : Int)))

/-- Text of a real number, ISO 32000-1 7.3.3: digits with one decimal point and an optional sign; the number is
`m / 10^p`, `p` being the number of digits behind the point. -/
def RealText (m : Int) (p : Nat) (s : List UInt8) : Prop :=
  ∃ ip fp : List UInt8, ip ++ fp ≠ [] ∧ (∀ c ∈ ip ++ fp, IsDigit c) ∧ p = fp.length ∧
    ((s = ip ++ 46 :: fp ∧ m = digitsVal (ip ++ fp)) ∨ (s = 43 :: (ip ++ 46 :: fp) ∧ m = digitsVal (ip ++ fp)) ∨
     (s = 45 :: (ip ++ 46 :: fp) ∧ m = -(digitsVal (ip ++ fp) : Int)))

/-- The characters of a name behind the solidus, ISO 32000-1 7.3.5: a regular character other than `#` stands for
itself, `#` and two hexadecimal digits stand for a byte. -/
inductive NameBody : List UInt8 → List UInt8 → Prop where
  | nil : NameBody [] []
  | regular (c : UInt8) (n s : List UInt8) : c ∉ whiteSpace ++ delimiters → c ≠ 35 → NameBody n s →
      NameBody (c :: n) (c :: s)
  | code (x y : UInt8) (a b : Nat) (n s : List UInt8) : hexVal x = some a → hexVal y = some b → NameBody n s →
      NameBody (UInt8.ofNat (16 * a + b) :: n) (35 :: x :: y :: s)

/-- The escape sequences of Table 3 in ISO 32000-1 that stand for one character. -/
def escapes : List (UInt8 × UInt8) :=
  [(110, 10), (114, 13), (116, 9), (98, 8), (102, 12), (40, 40), (41, 41), (92, 92)]

/-- Value of an octal digit. -/
def octVal (c : UInt8) : Option Nat := if 48 ≤ c.toNat ∧ c.toNat ≤ 55 then some (c.toNat - 48) else none

/-- The text between the parentheses of a literal string, ISO 32000-1 7.3.4.2: depth of open parentheses, value,
text.  Not covered here because the library does not follow the standard (see C56): an unescaped CR, octal codes
above 255, and octal codes of one or two digits followed by the digits 8 or 9. -/
inductive LitBody : Nat → List UInt8 → List UInt8 → Prop where
  | nil : LitBody 0 [] []
  | plain (d : Nat) (c : UInt8) (v s : List UInt8) : c ∉ [40, 41, 92, 13] → LitBody d v s →
      LitBody d (c :: v) (c :: s)
  | opening (d : Nat) (v s : List UInt8) : LitBody (d + 1) v s → LitBody d (40 :: v) (40 :: s)
  | closing (d : Nat) (v s : List UInt8) : LitBody d v s → LitBody (d + 1) (41 :: v) (41 :: s)
  | escape (d : Nat) (x c : UInt8) (v s : List UInt8) : (x, c) ∈ escapes → LitBody d v s →
      LitBody d (c :: v) (92 :: x :: s)
  | continued (d : Nat) (v s : List UInt8) : LitBody d v s → LitBody d v (92 :: 10 :: s)
  | continuedCrLf (d : Nat) (v s : List UInt8) : LitBody d v s → LitBody d v (92 :: 13 :: 10 :: s)
  | continuedCr (d : Nat) (v s : List UInt8) : s.head? ≠ some 10 → LitBody d v s → LitBody d v (92 :: 13 :: s)
  | octal3 (d : Nat) (x y z : UInt8) (a b c : Nat) (v s : List UInt8) : octVal x = some a → octVal y = some b →
      octVal z = some c → 64 * a + 8 * b + c ≤ 255 → LitBody d v s →
      LitBody d (UInt8.ofNat (64 * a + 8 * b + c) :: v) (92 :: x :: y :: z :: s)
  | octal2 (d : Nat) (x y : UInt8) (a b : Nat) (v s : List UInt8) : octVal x = some a → octVal y = some b →
      (∀ c ∈ s.head?, ¬ IsDigit c) → LitBody d v s →
      LitBody d (UInt8.ofNat (8 * a + b) :: v) (92 :: x :: y :: s)
  | octal1 (d : Nat) (x : UInt8) (a : Nat) (v s : List UInt8) : octVal x = some a →
      (∀ c ∈ s.head?, ¬ IsDigit c) → LitBody d v s → LitBody d (UInt8.ofNat a :: v) (92 :: x :: s)
  | ignored (d : Nat) (x : UInt8) (v s : List UInt8) : (∀ c, (x, c) ∉ escapes) → x ≠ 13 → x ≠ 10 → ¬ IsDigit x →
      LitBody d v s → LitBody d (x :: v) (92 :: x :: s)

/-- The digits of the text between the angle brackets of a hexadecimal string: white-space is ignored. -/
def hexDigitsOf (s : List UInt8) : List UInt8 := s.filter (fun c => decide (c ∉ whiteSpace))

/-- The text ends with `)`, `>` or `]`, so that the next token may follow immediately. -/
def Closed (t : List UInt8) : Prop := ∃ u c, t = u ++ [c] ∧ c ∈ [41, 62, 93]

/-- `s` may follow `t` without merging with it. -/
def Boundary (t s : List UInt8) : Prop := Closed t ∨ EndsToken s

/-- The value of the first entry with key `k` that is not null. -/
def firstValue (k : List UInt8) : List (List UInt8 × Obj) → Option Obj
  | [] => none
  | (_, .null) :: rest => firstValue k rest
  | (k', v) :: rest => if k = k' then some v else firstValue k rest

/-- Value stored for a key. -/
def valueAt (k : List UInt8) : List (List UInt8 × Obj) → Option Obj
  | [] => none
  | (k', v) :: rest => if k = k' then some v else valueAt k rest

/-- The representation of dictionaries: entries in increasing order of keys. -/
def SortedKeys {α : Type} (d : List (List UInt8 × α)) : Prop := d.Pairwise (fun a b => bytesLt a.1 b.1 = true)

mutual
/-- `Denotes o s`: the text `s` denotes the object `o`. -/
inductive Denotes : Obj → List UInt8 → Prop where
  | null : Denotes .null (b! "null")
  | btrue : Denotes (.bool true) (b! "true")
  | bfalse : Denotes (.bool false) (b! "false")
  | int (i : Int) (s : List UInt8) : IntText i s → -9223372036854775808 ≤ i → i ≤ 9223372036854775807 →
      Denotes (.int i) s
  | real (m : Int) (p : Nat) (s : List UInt8) : RealText m p s → Denotes (.real m p) s
  | name (n s : List UInt8) : NameBody n s → Denotes (.name n) (47 :: s)
  | lit (v s : List UInt8) : LitBody 0 v s → Denotes (.lit v) (40 :: (s ++ [41]))
  | hex (v s : List UInt8) : hexBytes (hexDigitsOf s) = some v → Denotes (.hex v) (60 :: (s ++ [62]))
  | ref (n g : Nat) (sn sg sep1 sep2 : List UInt8) : IntText n sn → IntText g sg → Sep sep1 → Sep sep2 →
      sep1 ≠ [] → sep2 ≠ [] → n ≤ 9223372036854775807 → g ≤ 65535 →
      Denotes (.ref n g) (sn ++ sep1 ++ sg ++ sep2 ++ [82])
  | arr (l : List Obj) (s : List UInt8) : Items l s → Denotes (.arr l) (91 :: (s ++ [93]))
  | dict (es d : List (List UInt8 × Obj)) (s : List UInt8) : Entries es s → SortedKeys d →
      (∀ k, valueAt k d = firstValue k es) → Denotes (.dict d) (60 :: 60 :: (s ++ [62, 62]))
/-- The items of an array with separators around them. -/
inductive Items : List Obj → List UInt8 → Prop where
  | nil (sep : List UInt8) : Sep sep → Items [] sep
  | cons (o : Obj) (os : List Obj) (sep t s : List UInt8) : Sep sep → Denotes o t → Items os s → Boundary t s →
      Items (o :: os) (sep ++ t ++ s)
/-- The entries of a dictionary in the order of the text, with separators around keys and values. -/
inductive Entries : List (List UInt8 × Obj) → List UInt8 → Prop where
  | nil (sep : List UInt8) : Sep sep → Entries [] sep
  | cons (k : List UInt8) (o : Obj) (es : List (List UInt8 × Obj)) (sep1 tk sep2 t s : List UInt8) :
      Sep sep1 → NameBody k tk → Sep sep2 → EndsToken (sep2 ++ t ++ s) → Denotes o t → Entries es s → Boundary t s →
      Entries ((k, o) :: es) (sep1 ++ 47 :: tk ++ sep2 ++ t ++ s)
end

/-- Objects whose text the library can read back: integers of 64 bits, references to numbers of 63 and generations
of 16 bits, reals written with a decimal point, dictionaries in the order of the map without null values. -/
inductive Savable : Obj → Prop where
  | null : Savable .null
  | bool (b : Bool) : Savable (.bool b)
  | int (i : Int) : -9223372036854775808 ≤ i → i ≤ 9223372036854775807 → Savable (.int i)
  | real (m : Int) (p : Nat) : 1 ≤ p → Savable (.real m p)
  | name (n : List UInt8) : Savable (.name n)
  | lit (v : List UInt8) : Savable (.lit v)
  | hex (v : List UInt8) : Savable (.hex v)
  | ref (n g : Nat) : n ≤ 9223372036854775807 → g ≤ 65535 → Savable (.ref n g)
  | arr (l : List Obj) : (∀ o ∈ l, Savable o) → Savable (.arr l)
  | dict (d : List (List UInt8 × Obj)) : SortedKeys d → (∀ x ∈ d, Savable x.2) → (∀ x ∈ d, x.2 ≠ .null) →
      Savable (.dict d)

mutual
/-- The object without the dictionary entries whose value is null, at any depth; by ISO 32000-1 7.3.7 such an entry
is equivalent to an absent one. -/
def dropNulls : Obj → Obj
  | .arr l => .arr (dropNullsItems l)
  | .dict d => .dict (dropNullsEntries d)
  | o => o
/-- The items of an array, each without null entries. -/
def dropNullsItems : List Obj → List Obj
  | [] => []
  | o :: os => dropNulls o :: dropNullsItems os
/-- The entries of a dictionary whose value is not null. -/
def dropNullsEntries : List (List UInt8 × Obj) → List (List UInt8 × Obj)
  | [] => []
  | (_, .null) :: es => dropNullsEntries es
  | (k, o) :: es => (k, dropNulls o) :: dropNullsEntries es
end

/-- As `Savable`, with null values in dictionaries. -/
inductive Holdable : Obj → Prop where
  | null : Holdable .null
  | bool (b : Bool) : Holdable (.bool b)
  | int (i : Int) : -9223372036854775808 ≤ i → i ≤ 9223372036854775807 → Holdable (.int i)
  | real (m : Int) (p : Nat) : 1 ≤ p → Holdable (.real m p)
  | name (n : List UInt8) : Holdable (.name n)
  | lit (v : List UInt8) : Holdable (.lit v)
  | hex (v : List UInt8) : Holdable (.hex v)
  | ref (n g : Nat) : n ≤ 9223372036854775807 → g ≤ 65535 → Holdable (.ref n g)
  | arr (l : List Obj) : (∀ o ∈ l, Holdable o) → Holdable (.arr l)
  | dict (d : List (List UInt8 × Obj)) : SortedKeys d → (∀ x ∈ d, Holdable x.2) → Holdable (.dict d)

/-- All texts between the parentheses of a literal string, ISO 32000-1 7.3.4.2: as `LitBody`, with an unescaped end
of line (CR, LF or CR LF) standing for LF, octal codes of one to three digits whose high-order overflow is ignored, and
a reverse solidus before any other character ignored. -/
inductive IsoLitBody : Nat → List UInt8 → List UInt8 → Prop where
  | nil : IsoLitBody 0 [] []
  | plain (d : Nat) (c : UInt8) (v s : List UInt8) : c ∉ [40, 41, 92, 13] → IsoLitBody d v s →
      IsoLitBody d (c :: v) (c :: s)
  | eolCrLf (d : Nat) (v s : List UInt8) : IsoLitBody d v s → IsoLitBody d (10 :: v) (13 :: 10 :: s)
  | eolCr (d : Nat) (v s : List UInt8) : s.head? ≠ some 10 → IsoLitBody d v s → IsoLitBody d (10 :: v) (13 :: s)
  | opening (d : Nat) (v s : List UInt8) : IsoLitBody (d + 1) v s → IsoLitBody d (40 :: v) (40 :: s)
  | closing (d : Nat) (v s : List UInt8) : IsoLitBody d v s → IsoLitBody (d + 1) (41 :: v) (41 :: s)
  | escape (d : Nat) (x c : UInt8) (v s : List UInt8) : (x, c) ∈ escapes → IsoLitBody d v s →
      IsoLitBody d (c :: v) (92 :: x :: s)
  | continued (d : Nat) (v s : List UInt8) : IsoLitBody d v s → IsoLitBody d v (92 :: 10 :: s)
  | continuedCrLf (d : Nat) (v s : List UInt8) : IsoLitBody d v s → IsoLitBody d v (92 :: 13 :: 10 :: s)
  | continuedCr (d : Nat) (v s : List UInt8) : s.head? ≠ some 10 → IsoLitBody d v s → IsoLitBody d v (92 :: 13 :: s)
  | octal3 (d : Nat) (x y z : UInt8) (a b c : Nat) (v s : List UInt8) : octVal x = some a → octVal y = some b →
      octVal z = some c → IsoLitBody d v s →
      IsoLitBody d (UInt8.ofNat (64 * a + 8 * b + c) :: v) (92 :: x :: y :: z :: s)
  | octal2 (d : Nat) (x y : UInt8) (a b : Nat) (v s : List UInt8) : octVal x = some a → octVal y = some b →
      (∀ c ∈ s.head?, octVal c = none) → IsoLitBody d v s →
      IsoLitBody d (UInt8.ofNat (8 * a + b) :: v) (92 :: x :: y :: s)
  | octal1 (d : Nat) (x : UInt8) (a : Nat) (v s : List UInt8) : octVal x = some a →
      (∀ c ∈ s.head?, octVal c = none) → IsoLitBody d v s → IsoLitBody d (UInt8.ofNat a :: v) (92 :: x :: s)
  | ignored (d : Nat) (x : UInt8) (v s : List UInt8) : (∀ c, (x, c) ∉ escapes) → x ≠ 13 → x ≠ 10 → octVal x = none →
      IsoLitBody d v s → IsoLitBody d (x :: v) (92 :: x :: s)

end VPdf.Spec
