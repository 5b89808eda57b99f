import Verif.Model.Watermark
/-
  Documents with a watermark.
-/
namespace VPdf.Spec

/-- `PageNodes h ks l`: the nodes at `ks` are the roots of finite trees, and `l` are all nodes of these trees, children
before their parent. -/
inductive PageNodes (h : MarkHeap) : List Nat → List Nat → Prop where
  | nil : PageNodes h [] []
  | cons (a : Nat) (n : MarkNode) (ks below rest : List Nat) : h.node a = some n → PageNodes h (n.kids.getD []) below →
      PageNodes h ks rest → PageNodes h (a :: ks) (below ++ a :: rest)

/-- The streams with the content of a page. -/
def pageStreams (n : MarkNode) : List Nat :=
  match n.contents with
  | .one a => [a]
  | .many l => l
  | _ => []

/-- The content of a page: that of its streams, one after the other. -/
def streamsText (h : MarkHeap) : List Nat → Option Bytes
  | [] => some []
  | a :: l =>
    match h.body a, streamsText h l with
    | some b, some t => some (b ++ t)
    | _, _ => none

/-- All addresses in use are below `next`. -/
def AddressesBelow (h : MarkHeap) : Prop :=
  (∀ a n r, h.node a = some n → n.resources = .at r → r < h.next) ∧ ∀ r f, h.font r = .at f → f < h.next

/-- The whole part of a number. -/
def WholePartOf : Obj → Int → Prop
  | .int v, x => x = v
  | .real m k, x => x = Int.tdiv m (10 ^ k : Nat)
  | _, _ => False

/-- The entries that matter have the types they should have, the streams can be read and are different ones, and the
items of a box are numbers, the upper right corner in the range of 64 bits, also after the size of the image is
subtracted. -/
structure Markable (h : MarkHeap) (n : MarkNode) : Prop where
  resources : n.resources ≠ .bad
  font : ∀ r, n.resources = .at r → h.font r ≠ .bad
  box : n.box ≠ some none
  corner : ∀ a b c d, n.box = some (some [a, b, c, d]) → ∃ u v x y, WholePartOf a u ∧ WholePartOf b v ∧ WholePartOf c x ∧
    WholePartOf d y ∧ -(2 ^ 63) + 60 ≤ x ∧ x < 2 ^ 63 ∧ -(2 ^ 63) + 45 ≤ y ∧ y < 2 ^ 63
  streams : (pageStreams n).Nodup
  bodies : ∀ a ∈ pageStreams n, ∃ b, h.body a = some b

/-- The instructions for the image: none without a box of four items, else it is 50 wide and 35 high, and 10 off the upper
right corner of the box. -/
def IsPicture (image : List UInt8) (box : Option (Option (List Obj))) (i : List Instr) : Prop :=
  match box with
  | some (some [_, _, c, d]) => ∃ x y, WholePartOf c x ∧ WholePartOf d y ∧
      i = [.op ⟨[.int 50, .int 0, .int 0, .int 35, .int (x - 50 - 10), .int (y - 35 - 10)], b! "cm"⟩,
        .image [(b! "BitsPerComponent", .int 8), (b! "ColorSpace", .name (b! "DeviceRGB")), (b! "Filter", .name (b! "DCTDecode")),
          (b! "Height", .int 142), (b! "Width", .int 201)] image]
  | _ => i = []

/-- No stream belongs to two of the nodes. -/
def OwnStreams (h : MarkHeap) (l : List Nat) : Prop :=
  ∀ a ∈ l, ∀ b ∈ l, a ≠ b → ∀ n m, h.node a = some n → h.node b = some m → ∀ x ∈ pageStreams n, x ∉ pageStreams m

/-- The node has resources of its own with the font of the watermark. -/
def HasMarkFont (h : MarkHeap) (a : Nat) : Prop :=
  ∃ n r f, h.node a = some n ∧ n.resources = .at r ∧ h.font r = .at f ∧ (mapFind markFontName (h.fonts f)).isSome

/-- Nothing that was there is lost or changed: children, contents and boxes of nodes, resources, and all fonts. -/
structure NothingLost (h h' : MarkHeap) : Prop where
  next : h.next ≤ h'.next
  node : ∀ a n, h.node a = some n → ∃ n', h'.node a = some n' ∧ n'.kids = n.kids ∧ n'.contents = n.contents ∧ n'.box = n.box ∧
    ∀ r, n.resources = .at r → n'.resources = .at r
  font : ∀ r f, r < h.next → h.font r = .at f → h'.font r = .at f
  sound : ∀ r, r < h.next → h.font r ≠ .bad → h'.font r ≠ .bad
  fonts : ∀ f, f < h.next → ∀ k v, mapFind k (h.fonts f) = some v → mapFind k (h'.fonts f) = some v
  others : ∀ f, f < h.next → ∀ k, k ≠ markFontName → mapFind k (h'.fonts f) = mapFind k (h.fonts f)

/-- What a reader makes of the text of the watermark, without the image. -/
def markInstructions (year : Nat) : List Instr :=
  [.op ⟨[], b! "Q"⟩,
   .text [⟨[.name (b! "VanillaWatermarkFont"), .int 8], b! "Tf"⟩, ⟨[.int 1, .int 0, .real 4 1], b! "RG"⟩,
     ⟨[.int 1, .int 0, .real 4 1], b! "rg"⟩, ⟨[.int 20, .int 20], b! "Td"⟩,
     ⟨[.lit (b! "This file was created by trial version of software Vanilla.PDF and should ONLY be used for evaluation purpose. Copyright "
       ++ natDec year ++ b! " Vanilla.PDF Labs")], b! "Tj"⟩]]

/-- What becomes of a node with contents: it has the font, and its content is bracketed by `q` and `Q` and followed by the
watermark. -/
def Marked (year : Nat) (image : List UInt8) (h h' : MarkHeap) (a : Nat) (n : MarkNode) : Prop :=
  (n.contents ≠ .absent → HasMarkFont h' a) ∧
  (pageStreams n ≠ [] → ∃ t i, streamsText h (pageStreams n) = some t ∧ IsPicture image n.box i ∧
    streamsText h' (pageStreams n) = some (b! "q\n" ++ t ++ b! "\n" ++ writeInstructions (markInstructions year ++ i)))

end VPdf.Spec
