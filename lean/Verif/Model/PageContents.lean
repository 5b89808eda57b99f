import Verif.Model.Content
/-
  The contents of a page as an object: the instructions read from its streams, their edits, and the text written back.
-/
namespace VPdf

/-- `PageContents`, semantics/objects/page_contents.h:14-33, with the object it stands for: one stream, or an array
of streams (`isArray`).  `bodies` are the decoded bodies of the streams, `dirty` the flag of the underlying object
(`PageContents::IsDirty`, page_contents.cpp:40-46), `instrs` the collection `m_instructions`: `none` as long as it has
not been initialised, when it is empty. -/
structure PageContents where
  isArray : Bool
  bodies : List Bytes
  dirty : Bool
  instrs : Option (List Instr)

/-- `PageContents::Instructions`, page_contents.cpp:97-135 (`PageContents_GetInstructionCollection`,
c_page_contents.cpp:12-25).  The new collection is not subscribed to: only the one it replaces was. -/
def PageContents.instructions (p : PageContents) : Res (List Instr × PageContents) :=
  match p.instrs with
  | some is => .ok (is, p)
  | none => do
    let is ← pageInstructions p.bodies
    pure (is, { p with instrs := some is })

/-- The functions that change a collection of instructions, c_content_instruction.cpp:73-118. -/
inductive ContentEdit where
  | append (i : Instr)
  | insert (at_ : Nat) (i : Instr)
  | remove (at_ : Nat)
  | clear

/-- `push_back`, `insert`, `erase` and `clear` of `BaseInstructionCollection`,
contents/content_stream_instruction_base.h:82-118: none of them reports the change to the observers.  Positions
outside the collection are iterators outside the vector, hence undefined. -/
def applyEdit (is : List Instr) : ContentEdit → Res (List Instr)
  | .append i => .ok (is ++ [i])
  | .insert n i => if n ≤ is.length then .ok (is.take n ++ i :: is.drop n) else .error .ub
  | .remove n => if n < is.length then .ok (is.eraseIdx n) else .error .ub
  | .clear => .ok []

/-- An edit through the collection the page contents returned (page_contents.cpp:97-135;
c_content_instruction.cpp:73-118). -/
def PageContents.edit (p : PageContents) (e : ContentEdit) : Res PageContents := do
  let (is, p) ← p.instructions
  let is ← applyEdit is e
  pure { p with instrs := some is }

/-- A sequence of edits (c_content_instruction.cpp:73-118). -/
def PageContents.edits (p : PageContents) : List ContentEdit → Res PageContents
  | [] => .ok p
  | e :: es => do
    let p ← p.edit e
    p.edits es

/-- A change of the underlying object by other means, such as a new entry in the dictionary of the stream or an item
of the array (`Object::OnChanged`, syntax/objects/object.cpp:216-223). -/
def PageContents.touch (p : PageContents) : PageContents := { p with dirty := true }

/-- `PageContents::RecalculateStreamData`, page_contents.cpp:48-95 (`PageContents_RecalculateStreamData`,
c_page_contents.cpp:27-41): the new body of the single stream, or of the first stream of the array while the others
become empty.  A stream reports the new body to itself (stream_object.cpp:85-93). -/
def PageContents.recalculate (p : PageContents) : Res (Bool × PageContents) :=
  if !p.dirty then .ok (false, p)
  else
    let text := writeInstructions (p.instrs.getD [])
    if p.isArray then
      match p.bodies with
      | [] => .error .throw
      | _ :: rest => .ok (true, { p with bodies := text :: rest.map fun _ => [] })
    else .ok (true, { p with bodies := [text] })

/-- The contents of a page object: the entry of its dictionary, and the object kept by the page
(`m_contents`, semantics/objects/page_object.cpp:99-150). -/
structure PageSlot (α : Type) where
  entry : Option α
  kept : Option α

/-- `PageObject::SetContents`, page_object.cpp:89-97. -/
def PageSlot.set {α : Type} (s : PageSlot α) (c : α) : PageSlot α := { s with entry := some c }

/-- `PageObject::GetContents`, page_object.cpp:99-150, for an entry of an acceptable type. -/
def PageSlot.get {α : Type} (s : PageSlot α) : Option α × PageSlot α :=
  match s.kept with
  | some c => (some c, s)
  | none => (s.entry, { s with kept := s.entry })

end VPdf
