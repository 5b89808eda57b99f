import Verif.Model.Content
import Verif.Model.PageBox
/-
  The watermark of files that are saved without a licence: `FileWriter::ApplyWatermark` and what it calls,
  src/vanillapdf/syntax/files/file_writer.cpp:1533-1776.

  The objects of the copied document are on a heap: every dictionary and every stream, direct or indirect, has an address.  Of a
  dictionary only the entries that matter here are kept.  Simplification: an entry with a reference is the address of the object
  it leads to, and objects of different kinds (nodes, resources, font dictionaries, streams) have addresses of their own.
-/
namespace VPdf

/-- An entry that is to be a dictionary: `FindAs<DictionaryObjectPtr>` throws for `bad`. file_writer.cpp:1611-1624. -/
inductive MarkEntry where
  | absent
  | bad
  | at (a : Nat)
  deriving DecidableEq

/-- The entry `Contents`, file_writer.cpp:1634-1654: one stream, an array of streams, or something else. -/
inductive MarkContents where
  | absent
  | one (a : Nat)
  | many (l : List Nat)
  | other
  deriving DecidableEq

/-- A node of the page tree, file_writer.cpp:1587-1656. -/
structure MarkNode where
  kids : Option (List Nat)
  resources : MarkEntry
  contents : MarkContents
  /-- the items of `MediaBox`; `some none` if it is no array -/
  box : Option (Option (List Obj))

/-- The objects of the document, file_writer.cpp:1533-1776. -/
structure MarkHeap where
  /-- `none`: the object is no dictionary -/
  node : Nat → Option MarkNode
  /-- the entry `Font` of resources -/
  font : Nat → MarkEntry
  /-- the entries of a dictionary of fonts: names and the objects they refer to -/
  fonts : Nat → List (Bytes × Nat)
  /-- the decoded body of a stream, `none` if `GetBody` throws -/
  body : Nat → Option Bytes
  /-- an address behind all addresses in use -/
  next : Nat

/-- The name of the font, file_writer.cpp:1626. -/
def markFontName : Bytes := b! "VanillaWatermarkFont"

/-- The text, file_writer.cpp:1673-1702; the year is that of the build. -/
def markText (year : Nat) : Bytes :=
  b! "This file was created by trial version of software Vanilla.PDF and should ONLY be used for evaluation purpose." ++
    b! " " ++ b! "Copyright" ++ b! " " ++ natDec year ++ b! " " ++ b! "Vanilla.PDF Labs"

/-- The operations for the text, file_writer.cpp:1677-1715.  A real number without a precision is written with its shortest
digits (numeric_object.cpp:227), so that 1 and 0 have no fraction. -/
def markOps (year : Nat) : List COp :=
  [⟨[], b! "Q"⟩, ⟨[], b! "BT"⟩, ⟨[.name markFontName, .int 8], b! "Tf"⟩, ⟨[.int 1, .int 0, .real 4 1], b! "RG"⟩,
   ⟨[.int 1, .int 0, .real 4 1], b! "rg"⟩, ⟨[.int 20, .int 20], b! "Td"⟩, ⟨[.lit (markText year)], b! "Tj"⟩, ⟨[], b! "ET"⟩]

/-- A number of a box that has to be one, `GetValue` of an array of integers, file_writer.cpp:1727-1730, object_utils.h:76-98. -/
def markNumber (o : Obj) : Res NumVal :=
  match o with
  | .int v => .ok (.int v)
  | .real m k => .ok (.real m k)
  | _ => .error .conversion

/-- The image, file_writer.cpp:1718-1760: its operator and the inline image, if the box has four items.  201 / 4 is 50 and 142 / 4
is 35.  The difference is computed with 64 bits. -/
def markImage (image : Bytes) (box : Option (List Obj)) : Res (List Instr) :=
  match box with
  | some [a, b, c, d] => do
    let _ ← markNumber a
    let _ ← markNumber b
    let c ← markNumber c
    let d ← markNumber d
    let x ← c.getInt
    let y ← d.getInt
    if x - 60 < -9223372036854775808 ∨ y - 45 < -9223372036854775808 then .error .ub
    else .ok [.op ⟨[.int 50, .int 0, .int 0, .int 35, .int (x - 60), .int (y - 45)], b! "cm"⟩,
      .image [(b! "BitsPerComponent", .int 8), (b! "ColorSpace", .name (b! "DeviceRGB")), (b! "Filter", .name (b! "DCTDecode")),
        (b! "Height", .int 142), (b! "Width", .int 201)] image]
  | _ => .ok []

/-- What `ApplyWatermarkContentStream` appends, file_writer.cpp:1671-1776. -/
def markBytes (year : Nat) (image : Bytes) (box : Option (List Obj)) : Res Bytes := do
  let i ← markImage image box
  .ok (0x0A :: (writeOps (markOps year) ++ writeInstructions i))

/-- The body of a stream is replaced: the buffer of `GetBody` is changed in place, file_writer.cpp:1667-1668, 1774-1775. -/
def MarkHeap.changeBody (h : MarkHeap) (a : Nat) (f : Bytes → Bytes) : Res MarkHeap :=
  match h.body a with
  | none => .error .throw
  | some b => .ok { h with body := fun x => if x = a then some (f b) else h.body x }

/-- `ApplyWatermarkPrependSave`, file_writer.cpp:1658-1669. -/
def markSave (h : MarkHeap) (a : Nat) : Res MarkHeap := h.changeBody a (b! "q\n" ++ ·)

/-- `ApplyWatermarkContentStream`, file_writer.cpp:1671-1776. -/
def markStream (year : Nat) (image : Bytes) (box : Option (List Obj)) (h : MarkHeap) (a : Nat) : Res MarkHeap := do
  let m ← markBytes year image box
  h.changeBody a (· ++ m)

/-- The entry `MediaBox`, file_writer.cpp:1604-1607. -/
def markBox : Option (Option (List Obj)) → Res (Option (List Obj))
  | none => .ok none
  | some none => .error .conversion
  | some (some l) => .ok (some l)

/-- The resources of a node, file_writer.cpp:1611-1617: new ones if there is no entry. -/
def markResources (h : MarkHeap) (a : Nat) (n : MarkNode) : Res (MarkHeap × Nat) :=
  match n.resources with
  | .absent =>
    .ok ({ h with
      node := fun x => if x = a then some { n with resources := .at h.next } else h.node x
      font := fun x => if x = h.next then .absent else h.font x
      next := h.next + 1 }, h.next)
  | .bad => .error .conversion
  | .at r => .ok (h, r)

/-- The dictionary of fonts, file_writer.cpp:1618-1624. -/
def markFonts (h : MarkHeap) (r : Nat) : Res (MarkHeap × Nat) :=
  match h.font r with
  | .absent =>
    .ok ({ h with
      font := fun x => if x = r then .at h.next else h.font x
      fonts := fun x => if x = h.next then [] else h.fonts x
      next := h.next + 1 }, h.next)
  | .bad => .error .conversion
  | .at f => .ok (h, f)

/-- The font is entered, if its name is new, file_writer.cpp:1626-1632. -/
def markEnter (h : MarkHeap) (f : Nat) (font : Nat) : MarkHeap :=
  if (mapFind markFontName (h.fonts f)).isSome then h
  else { h with fonts := fun x => if x = f then mapInsert markFontName font (h.fonts f) else h.fonts x }

/-- The streams of a node, file_writer.cpp:1634-1654. -/
def markContents (year : Nat) (image : Bytes) (box : Option (List Obj)) (h : MarkHeap) : MarkContents → Res MarkHeap
  | .one a => do
    let h ← markSave h a
    markStream year image box h a
  | .many [] => .ok h
  | .many (a :: l) => do
    let h ← markSave h a
    markStream year image box h ((a :: l).getLast (by simp))
  | .absent => .ok h
  | .other => .ok h

/-- `ApplyWatermarkPageNode` behind the children, file_writer.cpp:1604-1655. -/
def markOwn (year : Nat) (image : Bytes) (font : Nat) (h : MarkHeap) (a : Nat) : Res MarkHeap :=
  match h.node a with
  | none => .error .conversion
  | some n => do
    let box ← markBox n.box
    if n.contents = .absent then .ok h
    else do
      let (h, r) ← markResources h a n
      let (h, f) ← markFonts h r
      markContents year image box (markEnter h f font) n.contents

/-- `ApplyWatermarkPageNode`, file_writer.cpp:1587-1656.  The first number bounds the depth of the recursion.  Left out: `Kids` that
are no array and a `Type` that is no name, for which there is an exception. -/
def markNode (year : Nat) (image : Bytes) (font : Nat) : Nat → MarkHeap → Nat → Res MarkHeap
  | 0, _, _ => .error .timeout
  | fuel + 1, h, a =>
    match h.node a with
    | none => .error .conversion
    | some n => do
      let h ← (n.kids.getD []).foldlM (fun h k => markNode year image font fuel h k) h
      markOwn year image font h a

/-- `ApplyWatermark`, file_writer.cpp:1533-1585, for the root of the page tree, if there is one. -/
def applyWatermark (year : Nat) (image : Bytes) (licensed : Bool) (fuel : Nat) (pages : Option Nat) (h : MarkHeap) :
    Res MarkHeap :=
  if licensed then .ok h
  else
    match pages with
    | none => .ok h
    | some p =>
      match h.node p with
      | none => .error .conversion
      | some n =>
        match n.kids with
        | none => .ok h
        | some ks => ks.foldlM (fun g k => markNode year image h.next fuel g k) { h with next := h.next + 1 }

end VPdf
