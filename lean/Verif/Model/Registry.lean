import Verif.Model.Basic
/-
  The table that leads from files to documents: src/vanillapdf/semantics/utils/semantic_utils.cpp:49-118, with
  Document::Open, OpenFile, Create, CreateFile, the constructor and the destructor (src/vanillapdf/semantics/objects/
  document.cpp:27-147) and the lookups of links (src/vanillapdf/semantics/objects/annotations.cpp:208-220, 247-259).

  Files are their addresses.  Documents are numbered in the order of their construction: the table keeps weak references,
  which tell documents apart even if they have the same address (src/vanillapdf/utils/unknown_interface.h:14-120).
  Not modelled: several threads; internal references that keep documents alive beyond the handles of the client.
-/
namespace VPdf

/-- A file object: the handles the client has, the references of documents (`Document::m_holder`), and whether
`File::Initialize` (file.cpp:123-174) succeeds for it. -/
structure FileObj where
  handles : Nat
  uses : Nat
  readable : Bool

/-- A document object: the address of its file and the handles the client has. document.h. -/
structure DocObj where
  file : Nat
  handles : Nat

/-- The objects that exist and the table, semantic_utils.cpp:49-60: an address has no entry, an empty reference, or the
reference to a document, which may no longer exist. -/
structure Registry where
  files : Nat → Option FileObj
  docs : Nat → Option DocObj
  table : Nat → Option (Option Nat)
  next : Nat

/-- Before the first call: the table is empty. semantic_utils.cpp:53-60. -/
def Registry.start : Registry := ⟨fun _ => none, fun _ => none, fun _ => none, 0⟩

/-- What a call answers: it succeeds without or with a document, it fails, a link has no destination because there is no
document (annotations.cpp:212-214, 251-253), or the client used something it does not have. -/
inductive DocOutcome where
  | done
  | document (d : Nat)
  | failed
  | noDocument
  | misuse
  deriving DecidableEq, Repr

/-- A function with another value at one place: the updates of the map and of the heap. semantic_utils.cpp:103. -/
def setAt {α : Type} (f : Nat → Option α) (a : Nat) (v : Option α) : Nat → Option α := fun b => if b = a then v else f b

/-- The file is destroyed when nobody has it any more, unknown_interface.cpp (`Release`). -/
def settleFile (f : FileObj) : Option FileObj := if f.handles = 0 ∧ f.uses = 0 then none else some f

/-- `File::Open`, file.cpp:31-44: a new object at the address the allocator chose. -/
def openFileAt (w : Registry) (a : Nat) (readable : Bool) : Registry :=
  { w with files := setAt w.files a (some ⟨1, 0, readable⟩) }

/-- The client gives up a handle of a file: `File_Release`, c_file.cpp, with `IUnknown::Release` (unknown_interface.cpp). -/
def releaseFileAt (w : Registry) (a : Nat) : Registry × DocOutcome :=
  match w.files a with
  | some ⟨h + 1, u, r⟩ => ({ w with files := setAt w.files a (settleFile ⟨h, u, r⟩) }, .done)
  | _ => (w, .misuse)

/-- The constructor of `Document`, document.cpp:135-139: the table is changed before the file is read; when the reading
fails, the destructor does not run, and the entry stays. -/
def newDocument (w : Registry) (a : Nat) (f : FileObj) : Registry × DocOutcome :=
  let t := setAt w.table a (some (some w.next))
  if f.readable then
    (⟨setAt w.files a (some { f with uses := f.uses + 1 }), setAt w.docs w.next (some ⟨a, 1⟩), t, w.next + 1⟩, .document w.next)
  else ({ w with table := t, next := w.next + 1 }, .failed)

/-- `Document::OpenFile`, document.cpp:32-40, with `HasMappedDocument` and `GetMappedDocument` (semantic_utils.cpp:62-90)
and `WeakReference::GetReference` (unknown_interface.h:71-83). -/
def openDocumentAt (w : Registry) (a : Nat) : Registry × DocOutcome :=
  match w.files a with
  | none => (w, .misuse)
  | some f =>
    match w.table a with
    | none => newDocument w a f
    | some none => (w, .failed)
    | some (some d) =>
      match w.docs d with
      | some x => ({ w with docs := setAt w.docs d (some { x with handles := x.handles + 1 }) }, .document d)
      | none => (w, .failed)

/-- `Document::CreateFile`, document.cpp:47-110, for a file that was just created. -/
def createDocumentAt (w : Registry) (a : Nat) : Registry × DocOutcome :=
  match w.files a with
  | none => (w, .misuse)
  | some f =>
    match w.table a with
    | none => newDocument w a f
    | some _ => (w, .failed)

/-- The client gives up a handle of a document; the destructor, document.cpp:145-147, removes the entry of its file. -/
def releaseDocument (w : Registry) (d : Nat) : Registry × DocOutcome :=
  match w.docs d with
  | some ⟨a, h + 2⟩ => ({ w with docs := setAt w.docs d (some ⟨a, h + 1⟩) }, .done)
  | some ⟨a, _⟩ =>
    ({ w with
        files := match w.files a with
          | some f => setAt w.files a (settleFile { f with uses := f.uses - 1 })
          | none => w.files
        docs := setAt w.docs d none
        table := setAt w.table a none }, .done)
  | none => (w, .misuse)

/-- The lookup of the document for a link that names its destination, annotations.cpp:208-220, 247-259, with
`GetMappedDocument` (semantic_utils.cpp:76-90), which makes an empty entry if there is none.  A file that no longer exists
is reported (78-80). -/
def followLink (w : Registry) (a : Nat) : Registry × DocOutcome :=
  match w.files a with
  | none => (w, .failed)
  | some _ =>
    match w.table a with
    | none => ({ w with table := setAt w.table a (some none) }, .noDocument)
    | some none => (w, .noDocument)
    | some (some d) => (w, if (w.docs d).isSome then .document d else .noDocument)

/-- The calls: File_Open, File_Release, Document_OpenFile, Document_Open, Document_Create, Document_Release and
LinkAnnotation_GetDestination for a named destination (c_file.cpp, c_document.cpp:11-69, c_annotations.cpp).  Where an object is
made the call carries the address the allocator chooses. -/
inductive DocCall where
  | openFile (a : Nat) (readable : Bool)
  | releaseFile (a : Nat)
  | openDocument (a : Nat)
  | openPath (a : Nat) (readable : Bool)
  | createPath (a : Nat)
  | releaseDocument (d : Nat)
  | follow (a : Nat)
  deriving DecidableEq, Repr

/-- The file is given up after a document was asked for, as the local `file` in document.cpp:27-30, 42-45. -/
def thenRelease (a : Nat) (r : Registry × DocOutcome) : Registry × DocOutcome := ((releaseFileAt r.1 a).1, r.2)

/-- One call.  The allocator does not choose the address of an object that exists. document.cpp:27-147. -/
def docCall (w : Registry) : DocCall → Registry × DocOutcome
  | .openFile a r => if (w.files a).isSome then (w, .misuse) else (openFileAt w a r, .done)
  | .releaseFile a => releaseFileAt w a
  | .openDocument a => openDocumentAt w a
  | .openPath a r => if (w.files a).isSome then (w, .misuse) else thenRelease a (openDocumentAt (openFileAt w a r) a)
  | .createPath a => if (w.files a).isSome then (w, .misuse) else thenRelease a (createDocumentAt (openFileAt w a true) a)
  | .releaseDocument d => releaseDocument w d
  | .follow a => followLink w a

/-- A sequence of calls with their outcomes: the calls of a client one after the other. document.cpp:27-147. -/
def docCalls (w : Registry) : List DocCall → Registry × List (DocCall × DocOutcome)
  | [] => (w, [])
  | c :: cs => let (w, o) := docCall w c; let (w, os) := docCalls w cs; (w, (c, o) :: os)

end VPdf
