import Verif.Model.StreamHistory
/-
  What a program may rely on when it reads and writes a stream in memory (C74): a content, a place for reading and a place for
  writing.
-/
namespace VPdf.Spec

/-- A content with the two places.  `ended` tells that something was asked for behind the end since the last positioning. -/
structure FileView where
  content : Bytes
  readAt : Nat
  writeAt : Nat
  ended : Bool

/-- The content after writing at a place: byte by byte. -/
def overwritten (content : Bytes) (place : Nat) (d : Bytes) : Bytes :=
  (List.range (max content.length (place + d.length))).map fun i =>
    if place ≤ i ∧ i < place + d.length then d.getD (i - place) 0 else content.getD i 0

/-- The place an offset means. -/
def seekPlace (here size : Nat) (p : Int) : SeekDir → Int
  | .beginning => p
  | .current => here + p
  | .end_ => size + p

/-- The calls of the history the claim is about: places lie in the content, the offset -1 is not used for reading (see
`C73_counterexample`), and after the end was met the place for reading is set before anything is written or asked
(see `C74_counterexample`). -/
def FileView.Allowed (v : FileView) : PipeCall → Prop
  | .write _ | .tellIn | .tellOut => v.ended = false
  | .read _ | .peek | .get => True
  | .whole => True
  | .seekIn p way => p ≠ -1 ∧ 0 ≤ seekPlace v.readAt v.content.length p way ∧
      seekPlace v.readAt v.content.length p way ≤ v.content.length
  | .seekOut p way => v.ended = false ∧ 0 ≤ seekPlace v.writeAt v.content.length p way ∧
      seekPlace v.writeAt v.content.length p way ≤ v.content.length

/-- What a call is expected to return. -/
def FileView.expected (v : FileView) : PipeCall → PipeAnswer
  | .write _ | .seekIn .. | .seekOut .. => .done
  | .read n => .bytes ((v.content.drop v.readAt).take n)
  | .peek | .get => .byte v.content[v.readAt]?
  | .whole => .bytes (v.content.drop v.readAt)
  | .tellIn => .place v.readAt
  | .tellOut => .place v.writeAt

/-- What a call is expected to change. -/
def FileView.after (v : FileView) : PipeCall → FileView
  | .write d => { v with content := overwritten v.content v.writeAt d, writeAt := v.writeAt + d.length }
  | .read n =>
    { v with
      readAt := min (v.readAt + n) v.content.length
      ended := v.ended || decide (v.content.length < v.readAt + n) }
  | .peek => { v with ended := v.ended || decide (v.readAt = v.content.length) }
  | .get =>
    { v with
      readAt := min (v.readAt + 1) v.content.length
      ended := v.ended || decide (v.readAt = v.content.length) }
  | .whole => { v with readAt := v.content.length, ended := true }
  | .seekIn p way => { v with readAt := (seekPlace v.readAt v.content.length p way).toNat, ended := false }
  | .seekOut p way => { v with writeAt := (seekPlace v.writeAt v.content.length p way).toNat }
  | .tellIn | .tellOut => v

/-- All calls of a history are of the kind the claim is about. -/
def FileView.AllAllowed (v : FileView) : List PipeCall → Prop
  | [] => True
  | c :: cs => v.Allowed c ∧ FileView.AllAllowed (v.after c) cs

/-- The answers expected of a history. -/
def FileView.answers (v : FileView) : List PipeCall → List PipeAnswer
  | [] => []
  | c :: cs => v.expected c :: FileView.answers (v.after c) cs

/-- The content expected after a history. -/
def FileView.finally (v : FileView) : List PipeCall → FileView
  | [] => v
  | c :: cs => FileView.finally (v.after c) cs

end VPdf.Spec
