import Verif.Spec.Grammar
import Verif.Model.CharMapParser
/-
  The syntax of character maps, ISO 32000-1 9.7.5.4 and 9.10.3, Adobe Technical Note #5014: which texts denote which maps.  Only the
  types `Obj`, `FontRange`, `SystemInfo` and `CMapData` are taken from the model.
-/
namespace VPdf.Spec

/-- The words that begin a section. -/
def sectionWords : List (List UInt8) :=
  [b! "begincodespacerange", b! "beginbfrange", b! "beginbfchar", b! "beginnotdefrange", b! "beginnotdefchar", b! "begincidrange",
   b! "begincidchar"]

/-- The names whose definitions the map reports. -/
def definedNames : List (List UInt8) := [b! "CIDSystemInfo", b! "CMapName", b! "CMapType"]

/-- Pairs of hexadecimal strings up to and including the word `w`. -/
inductive CodePairsText (w : List UInt8) : List (List UInt8 × List UInt8) → List UInt8 → Prop where
  | done (sep : List UInt8) : Sep sep → CodePairsText w [] (sep ++ w)
  | cons (a b : List UInt8) (l : List (List UInt8 × List UInt8)) (sep1 ta sep2 tb s : List UInt8) : Sep sep1 →
      Denotes (.hex a) ta → Sep sep2 → Denotes (.hex b) tb → CodePairsText w l s →
      CodePairsText w ((a, b) :: l) (sep1 ++ ta ++ sep2 ++ tb ++ s)

/-- Ranges up to and including the word `w`: two hexadecimal strings and the destination, an object. -/
inductive RangesText (w : List UInt8) : List FontRange → List UInt8 → Prop where
  | done (sep : List UInt8) : Sep sep → RangesText w [] (sep ++ w)
  | cons (a b : List UInt8) (o : Obj) (l : List FontRange) (sep1 ta sep2 tb sep3 t s : List UInt8) : Sep sep1 →
      Denotes (.hex a) ta → Sep sep2 → Denotes (.hex b) tb → Sep sep3 → Denotes o t → Boundary t s → RangesText w l s →
      RangesText w (⟨a, b, o⟩ :: l) (sep1 ++ ta ++ sep2 ++ tb ++ sep3 ++ t ++ s)

/-- The first entry of a section `cidchar` or `notdefchar` as in the standard: a hexadecimal string and an integer. -/
def IntPair (a : List UInt8) (i : Int) (t : List UInt8) : Prop :=
  ∃ sep1 ta sep2 ti, Sep sep1 ∧ Denotes (.hex a) ta ∧ Sep sep2 ∧ IntText i ti ∧ t = sep1 ++ ta ++ sep2 ++ ti

/-- A section with `n` entries: the number, the word `w` and the text of the entries. -/
def SectionText (n : Nat) (w u t : List UInt8) : Prop :=
  ∃ tn sep, IntText n tn ∧ n ≤ 9223372036854775807 ∧ Sep sep ∧ sep ≠ [] ∧ EndsToken u ∧ t = tn ++ sep ++ w ++ u

/-- A token that belongs to no section and no definition the map reports. -/
inductive OtherToken : List UInt8 → Prop where
  | word (w : List UInt8) : w ≠ [] → (∀ c ∈ w, c ∉ whiteSpace ++ delimiters) →
      (∀ c ∈ w.head?, ¬ IsDigit c ∧ c ≠ 43 ∧ c ≠ 45 ∧ c ≠ 46) → w ∉ sectionWords → OtherToken w
  | int (i : Int) (t : List UInt8) : IntText i t → OtherToken t
  | real (m : Int) (p : Nat) (t : List UInt8) : RealText m p t → OtherToken t
  | name (n t : List UInt8) : NameBody n t → n ∉ definedNames → OtherToken (47 :: t)
  | lit (v t : List UInt8) : Denotes (.lit v) t → OtherToken t
  | hex (v t : List UInt8) : Denotes (.hex v) t → OtherToken t

/-- The single brackets of arrays and dictionaries. -/
def brackets : List (List UInt8) := [b! "[", b! "]", b! "<<", b! ">>"]

/-- `MapText tail m s`: the text `s` ends with `tail`, and what is in front of it denotes the map `m`.  Of several definitions of a name the last one counts.  The
sections `notdefchar` and `cidchar` are those with strings as destinations, which the library reads; the destinations of the standard
are integers, see `IntPair`. -/
inductive MapText (tail : List UInt8) : CMapData → List UInt8 → Prop where
  | done (sep : List UInt8) : Sep sep → MapText tail {} (sep ++ tail)
  | other (m : CMapData) (sep t s : List UInt8) : Sep sep → OtherToken t → Boundary t s → MapText tail m s → MapText tail m (sep ++ t ++ s)
  | bracket (m : CMapData) (sep t s : List UInt8) : Sep sep → t ∈ brackets → MapText tail m s → MapText tail m (sep ++ t ++ s)
  | codeSpace (m : CMapData) (l : List (List UInt8 × List UInt8)) (sep u t s : List UInt8) : Sep sep →
      CodePairsText (b! "endcodespacerange") l u → SectionText l.length (b! "begincodespacerange") u t → EndsToken s → MapText tail m s →
      MapText tail { m with codeSpace := l ++ m.codeSpace } (sep ++ t ++ s)
  | bfRange (m : CMapData) (l : List FontRange) (sep u t s : List UInt8) : Sep sep →
      RangesText (b! "endbfrange") l u → SectionText l.length (b! "beginbfrange") u t → EndsToken s → MapText tail m s →
      MapText tail { m with bfRanges := l ++ m.bfRanges } (sep ++ t ++ s)
  | bfChar (m : CMapData) (l : List (List UInt8 × List UInt8)) (sep u t s : List UInt8) : Sep sep →
      CodePairsText (b! "endbfchar") l u → SectionText l.length (b! "beginbfchar") u t → EndsToken s → MapText tail m s →
      MapText tail { m with bfChars := l ++ m.bfChars } (sep ++ t ++ s)
  | notdefRange (m : CMapData) (l : List FontRange) (sep u t s : List UInt8) : Sep sep →
      RangesText (b! "endnotdefrange") l u → SectionText l.length (b! "beginnotdefrange") u t → EndsToken s → MapText tail m s →
      MapText tail { m with notdefRanges := l ++ m.notdefRanges } (sep ++ t ++ s)
  | notdefChar (m : CMapData) (l : List (List UInt8 × List UInt8)) (sep u t s : List UInt8) : Sep sep →
      CodePairsText (b! "endnotdefchar") l u → SectionText l.length (b! "beginnotdefchar") u t → EndsToken s → MapText tail m s →
      MapText tail { m with notdefChars := l ++ m.notdefChars } (sep ++ t ++ s)
  | cidChar (m : CMapData) (l : List (List UInt8 × List UInt8)) (sep u t s : List UInt8) : Sep sep →
      CodePairsText (b! "endcidchar") l u → SectionText l.length (b! "begincidchar") u t → EndsToken s → MapText tail m s →
      MapText tail { m with cidChars := l ++ m.cidChars } (sep ++ t ++ s)
  | cidRange (m : CMapData) (l : List FontRange) (sep u t s : List UInt8) : Sep sep →
      RangesText (b! "endcidrange") l u → SectionText l.length (b! "begincidrange") u t → EndsToken s → MapText tail m s →
      MapText tail { m with cidRanges := l ++ m.cidRanges } (sep ++ t ++ s)
  | systemInfo (m : CMapData) (es d : List (List UInt8 × Obj)) (x : SystemInfo) (sep tk sep1 t sep2 s : List UInt8) : Sep sep →
      NameBody (b! "CIDSystemInfo") tk → Sep sep1 → Entries es t → SortedKeys d → (∀ k, valueAt k d = firstValue k es) →
      (∃ v, x.registry = .lit v ∨ x.registry = .hex v) → (∃ v, x.ordering = .lit v ∨ x.ordering = .hex v) →
      valueAt (b! "Registry") d = some x.registry → valueAt (b! "Ordering") d = some x.ordering →
      valueAt (b! "Supplement") d = some (.int x.supplement) → Sep sep2 → EndsToken s → MapText tail m s →
      MapText tail { m with systemInfo := m.systemInfo <|> some x }
        (sep ++ 47 :: tk ++ sep1 ++ (60 :: 60 :: (t ++ [62, 62])) ++ sep2 ++ b! "def" ++ s)
  | mapName (m : CMapData) (n sep tk sep1 tn sep2 s : List UInt8) : Sep sep →
      NameBody (b! "CMapName") tk → Sep sep1 → NameBody n tn → Sep sep2 → sep2 ≠ [] → EndsToken s → MapText tail m s →
      MapText tail { m with name := m.name <|> some n } (sep ++ 47 :: tk ++ sep1 ++ 47 :: tn ++ sep2 ++ b! "def" ++ s)
  | mapType (m : CMapData) (i : Int) (sep tk sep1 ti sep2 s : List UInt8) : Sep sep →
      NameBody (b! "CMapType") tk → Sep sep1 → sep1 ≠ [] → IntText i ti → -9223372036854775808 ≤ i → i ≤ 9223372036854775807 →
      Sep sep2 → sep2 ≠ [] → EndsToken s → MapText tail m s →
      MapText tail { m with type := m.type <|> some i } (sep ++ 47 :: tk ++ sep1 ++ ti ++ sep2 ++ b! "def" ++ s)

/-- The text `s` denotes the map `m`. -/
def CMapText (m : CMapData) (s : List UInt8) : Prop := MapText [] m s

end VPdf.Spec
