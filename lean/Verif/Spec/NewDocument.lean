import Verif.Model.NewDocument
import Verif.Spec.Grammar
/-
  A document as its author sees it: the pages that were made, what was put into each, and their order.
-/
namespace VPdf.Spec

/-- The page objects that were made, each with its entries, and the order of those that are in the document. -/
structure Plan where
  pages : List (List (List UInt8 × Obj))
  order : List Nat

/-- What a page is when it is made. -/
def freshPage : List (List UInt8 × Obj) := [(b! "Type", .name (b! "Page"))]

/-- A new document has one page. -/
def Plan.start : Plan := ⟨[freshPage], [0]⟩

/-- The effect of a call.  Pages that were not made, places outside of the document and keys that a page has already are refused. -/
def Plan.edit (p : Plan) : DocOp → Plan
  | .newPage => { p with pages := p.pages ++ [freshPage] }
  | .insert k i => if k < p.pages.length ∧ 1 ≤ i ∧ i ≤ p.order.length + 1 then { p with order := p.order.insertIdx (i - 1) k } else p
  | .append k => if k < p.pages.length then { p with order := p.order ++ [k] } else p
  | .remove i => if 1 ≤ i then { p with order := p.order.eraseIdx (i - 1) } else p
  | .put k key v => { p with pages := p.pages.modify k fun d => if valueAt key d = none then (key, v) :: d else d }

/-- The calls that an interface of 64 bits allows and whose values have a text.  The entry Parent is the library's. -/
def Allowed : DocOp → Prop
  | .insert _ i => i < 2 ^ 64
  | .remove i => i < 2 ^ 64
  | .put _ key v => key ≠ b! "Parent" ∧ Holdable v
  | _ => True

/-- A value as it is read from a file: the null object is no value. -/
def valueRead : Option Obj → Option Obj
  | some .null => none
  | some o => some (dropNulls o)
  | none => none

end VPdf.Spec
