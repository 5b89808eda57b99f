import Verif.Model.Images
/-
  Images: positions in the data, grids and samples.
-/
namespace VPdf.Spec

/-- The positions of the bytes that are asked for, from position `p` on: a byte stands where all that was taken and skipped before ends. -/
def asked (p : Nat) : List JpegRequest → List Nat
  | [] => []
  | .byte :: rs => p :: asked (p + 1) rs
  | .skip n :: rs => asked (p + n) rs

/-- Rounded up, as ISO 15444-1 (B.2) counts the points of a grid. -/
def upTo (a b : Nat) : Nat := (a + b - 1) / b

/-- Every component has the samples that lie in the area of the image (ISO 15444-1, B.2). -/
def OnGrid (i : JpxImage) : Prop :=
  ∀ c ∈ i.comps, 1 ≤ c.dx ∧ 1 ≤ c.dy ∧
    c.data.length = (upTo i.x1 c.dx - upTo i.x0 c.dx) * (upTo i.y1 c.dy - upTo i.y0 c.dy)

/-- Every component has a sample for each point of the rectangle from the origin. -/
def FullSize (i : JpxImage) : Prop := ∀ c ∈ i.comps, c.data.length = i.x1 * i.y1

/-- All samples have eight bits without sign. -/
def EightBit (i : JpxImage) : Prop := ∀ c ∈ i.comps, ∀ v ∈ c.data, 0 ≤ v ∧ v ≤ 255

/-- The samples of all components, point by point and row by row. -/
def Interleaved (i : JpxImage) (r : Bytes) : Prop :=
  r.length = i.x1 * i.y1 * i.comps.length ∧
  ∀ y x c comp v, y < i.y1 → x < i.x1 → i.comps[c]? = some comp → comp.data[y * i.x1 + x]? = some v →
    r[(y * i.x1 + x) * i.comps.length + c]? = some (UInt8.ofNat v.toNat)

end VPdf.Spec
