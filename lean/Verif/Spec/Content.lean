import Verif.Spec.Grammar
import Verif.Model.Content
/-
  The syntax of content streams, ISO 32000-1 7.8.2, 8.9.7 and 9.4: which texts denote which instructions.  Only the
  types `Obj`, `COp` and `Instr` are taken from the model.
-/
namespace VPdf.Spec

/-- Objects without parts that may occur as operands: no references (ISO 32000-1, 7.8.2). -/
def Simple : Obj → Prop
  | .ref _ _ | .arr _ | .dict _ => False
  | _ => True

mutual
/-- `Operand o s`: the text `s` denotes the operand `o`, which contains no reference. -/
inductive Operand : Obj → List UInt8 → Prop where
  | simple (o : Obj) (s : List UInt8) : Simple o → Denotes o s → Operand o s
  | arr (l : List Obj) (s : List UInt8) : OperandItems l s → Operand (.arr l) (91 :: (s ++ [93]))
  | dict (es d : List (List UInt8 × Obj)) (s : List UInt8) : OperandEntries es s → SortedKeys d →
      (∀ k, valueAt k d = firstValue k es) → Operand (.dict d) (60 :: 60 :: (s ++ [62, 62]))
/-- The items of an array with separators around them. -/
inductive OperandItems : List Obj → List UInt8 → Prop where
  | nil (sep : List UInt8) : Sep sep → OperandItems [] sep
  | cons (o : Obj) (os : List Obj) (sep t s : List UInt8) : Sep sep → Operand o t → OperandItems os s →
      Boundary t s → OperandItems (o :: os) (sep ++ t ++ s)
/-- The entries of a dictionary in the order of the text, with separators around keys and values. -/
inductive OperandEntries : List (List UInt8 × Obj) → List UInt8 → Prop where
  | nil (sep : List UInt8) : Sep sep → OperandEntries [] sep
  | cons (k : List UInt8) (o : Obj) (es : List (List UInt8 × Obj)) (sep1 tk sep2 t s : List UInt8) :
      Sep sep1 → NameBody k tk → Sep sep2 → EndsToken (sep2 ++ t ++ s) → Operand o t → OperandEntries es s →
      Boundary t s → OperandEntries ((k, o) :: es) (sep1 ++ 47 :: tk ++ sep2 ++ t ++ s)
end

/-- An operator: regular characters, not beginning like a number, other than the keywords of objects. -/
def OperatorWord (w : List UInt8) : Prop :=
  w ≠ [] ∧ (∀ c ∈ w, c ∉ whiteSpace ++ delimiters) ∧
    (∀ c ∈ w.head?, ¬ IsDigit c ∧ c ≠ 43 ∧ c ≠ 45 ∧ c ≠ 46) ∧ w ∉ [b! "true", b! "false", b! "null"]

/-- The operands fit the operator, where the standard fixes them and the library insists: `Tf` a name and a number,
`Tj` a string, `TJ` an array, and none for the brackets of text and image objects (ISO 32000-1, Tables 92, 105, 107,
109). -/
def OperandsFit (args : List Obj) (w : List UInt8) : Prop :=
  (w ∈ [b! "BT", b! "ET", b! "BI", b! "ID", b! "EI"] → args = []) ∧
  (w = b! "Tf" → ∃ n x, args = [.name n, x] ∧ ((∃ i, x = .int i) ∨ ∃ m p, x = .real m p)) ∧
  (w = b! "Tj" → ∃ v, args = [.lit v] ∨ args = [.hex v]) ∧
  (w = b! "TJ" → ∃ l, args = [.arr l])

/-- `OpText args w s`: the text `s` consists of operands, separators and the operator `w`. -/
inductive OpText : List Obj → List UInt8 → List UInt8 → Prop where
  | word (w : List UInt8) : OperatorWord w → OpText [] w w
  | operand (o : Obj) (os : List Obj) (w t sep s : List UInt8) : Operand o t → Sep sep → OpText os w s →
      Boundary t (sep ++ s) → OpText (o :: os) w (t ++ sep ++ s)

/-- The operations of a text object up to and including `ET`. -/
inductive TextBody : List COp → List UInt8 → Prop where
  | done (sep : List UInt8) : Sep sep → TextBody [] (sep ++ b! "ET")
  | cons (args : List Obj) (w : List UInt8) (os : List COp) (sep t s : List UInt8) : Sep sep → OpText args w t →
      OperandsFit args w → w ≠ b! "ET" → EndsToken s → TextBody os s → TextBody (⟨args, w⟩ :: os) (sep ++ t ++ s)

/-- The dictionary of an inline image up to and including `ID`. -/
inductive ImageEntries : List (List UInt8 × Obj) → List UInt8 → Prop where
  | done (sep : List UInt8) : Sep sep → ImageEntries [] (sep ++ b! "ID")
  | cons (k : List UInt8) (o : Obj) (es : List (List UInt8 × Obj)) (sep1 tk sep2 t s : List UInt8) :
      Sep sep1 → NameBody k tk → Sep sep2 → EndsToken (sep2 ++ t ++ s) → Operand o t → ImageEntries es s →
      Boundary t s → o ≠ .null → ImageEntries ((k, o) :: es) (sep1 ++ 47 :: tk ++ sep2 ++ t ++ s)

/-- No white-space character is followed by `E`. -/
def NoEndMark : List UInt8 → Prop
  | c :: d :: rest => ¬ (c ∈ whiteSpace ∧ d = 69) ∧ NoEndMark (d :: rest)
  | _ => True

/-- `ContentText is s`: the text `s` denotes the instructions `is`.  The data of an image are, as the library reports
them, those between `ID` and the white-space in front of `EI`, including the white-space behind `ID`. -/
inductive ContentText : List Instr → List UInt8 → Prop where
  | nil (sep : List UInt8) : Sep sep → ContentText [] sep
  | op (args : List Obj) (w : List UInt8) (is : List Instr) (sep t s : List UInt8) : Sep sep → OpText args w t →
      OperandsFit args w → w ≠ b! "BT" → w ≠ b! "BI" → EndsToken s → ContentText is s →
      ContentText (.op ⟨args, w⟩ :: is) (sep ++ t ++ s)
  | text (ops : List COp) (is : List Instr) (sep u s : List UInt8) : Sep sep → TextBody ops u → EndsToken u →
      EndsToken s → ContentText is s → ContentText (.text ops :: is) (sep ++ b! "BT" ++ u ++ s)
  | image (es d : List (List UInt8 × Obj)) (data : List UInt8) (is : List Instr) (sep u : List UInt8) (c1 c2 : UInt8)
      (s : List UInt8) : Sep sep → ImageEntries es u → EndsToken u → SortedKeys d → (es.map Prod.fst).Nodup →
      (∀ k, valueAt k d = firstValue k es) → EndsToken (data ++ [c1]) → NoEndMark data → c1 ∈ whiteSpace →
      c2 ∈ whiteSpace → ContentText is s →
      ContentText (.image d data :: is) (sep ++ b! "BI" ++ u ++ data ++ c1 :: b! "EI" ++ c2 :: s)

/-- No reference in the object. -/
inductive NoRef : Obj → Prop where
  | simple (o : Obj) : Simple o → NoRef o
  | arr (l : List Obj) : (∀ o ∈ l, NoRef o) → NoRef (.arr l)
  | dict (d : List (List UInt8 × Obj)) : (∀ x ∈ d, NoRef x.2) → NoRef (.dict d)

/-- Numbers with a fraction, and objects with parts. -/
def NumberOrPart : Obj → Prop
  | .real _ _ | .arr _ | .dict _ => True
  | _ => False

/-- Every real number in the object has at least one digit behind the point. -/
inductive FracReals : Obj → Prop where
  | real (m : Int) (p : Nat) : 1 ≤ p → FracReals (.real m p)
  | arr (l : List Obj) : (∀ o ∈ l, FracReals o) → FracReals (.arr l)
  | dict (d : List (List UInt8 × Obj)) : (∀ x ∈ d, FracReals x.2) → FracReals (.dict d)
  | other (o : Obj) : ¬ NumberOrPart o → FracReals o

/-- The operations of an instruction. -/
def operations : Instr → List COp
  | .op o => [o]
  | .text ops => ops
  | .image _ _ => []

/-- An operation that can be written: savable operands without references that fit the operator. -/
def OpSavable (o : COp) : Prop :=
  (∀ x ∈ o.operands, Savable x ∧ NoRef x) ∧ OperatorWord o.op ∧ OperandsFit o.operands o.op

/-- An instruction that can be written.  `BT` and `BI` alone are no instructions, `ET` ends a text object. -/
def InstrSavable : Instr → Prop
  | .op o => OpSavable o ∧ o.op ≠ b! "BT" ∧ o.op ≠ b! "BI"
  | .text ops => ∀ o ∈ ops, OpSavable o ∧ o.op ≠ b! "ET"
  | .image d data => SortedKeys d ∧ (∀ x ∈ d, Savable x.2 ∧ NoRef x.2 ∧ x.2 ≠ .null) ∧ NoEndMark (10 :: data)

/-- What becomes of an instruction written and read back: a line end is added in front of the data of an image. -/
def reread : Instr → Instr
  | .image d data => .image d (10 :: data)
  | i => i

end VPdf.Spec
