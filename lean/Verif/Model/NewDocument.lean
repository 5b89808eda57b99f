import Verif.Model.PageTree
import Verif.Model.Xref
import Verif.Model.Writer
import Verif.Model.DocumentInfo
/-
  Documents made from nothing: `Document::CreateFile` and the functions it calls
  (src/vanillapdf/semantics/objects/document.cpp, catalog.cpp, page_object.cpp), the changes of its pages, and saving it.

  Pages of other documents are not put into the page tree here.  A call that fails leaves the document as it was: the
  calls below test their arguments before they change anything, except that Kids would be created, which a new document has.
-/
namespace VPdf

/-- A document in memory: the cross-reference section and the next number, the objects, the trailer, and the page objects that
the client has made. document.h, file.h:134-155. -/
structure NewDoc where
  alloc : Alloc
  store : PStore
  trailer : Dict
  handles : List ObjRef

/-- `File::AllocateNewEntry` and `XrefUsedEntryBase::SetReference`, file.cpp:931-1002 and xref_entry.cpp:83-105. -/
def NewDoc.allocate (d : NewDoc) (o : Obj) : Res (ObjRef × NewDoc) := do
  let (e, a) ← d.alloc.allocate
  pure ((e.num, e.gen), { d with alloc := a, store := d.store.set (e.num, e.gen) o })

/-- `Document::CreateCatalog`, document.cpp:207-228. -/
def NewDoc.createCatalog (d : NewDoc) : Res (ObjRef × NewDoc) := do
  let o ← insertOnce (b! "Type") (.name (b! "Catalog")) []
  let (r, d) ← d.allocate (.dict o)
  let t ← insertOnce (b! "Root") (.ref r.1 r.2) d.trailer
  pure (r, { d with trailer := t })

/-- `Catalog::CreatePages`, catalog.cpp:191-213. -/
def NewDoc.createPages (d : NewDoc) (catalog : ObjRef) : Res (ObjRef × NewDoc) := do
  let o ← insertOnce (b! "Type") (.name (b! "Pages")) []
  let o ← insertOnce (b! "Count") (.int 0) o
  let (r, d) ← d.allocate (.dict o)
  let c ← dictAt d.store catalog
  let c ← insertOnce (b! "Pages") (.ref r.1 r.2) c
  pure (r, { d with store := d.store.set catalog (.dict c) })

/-- `PageObject::Create`, page_object.cpp:152-167, and document.cpp:79-87: a page that is not in the page tree yet. -/
def NewDoc.createPage (d : NewDoc) : Res (ObjRef × NewDoc) := do
  let o ← insertOnce (b! "Type") (.name (b! "Page")) []
  let (r, d) ← d.allocate (.dict o)
  pure (r, { d with handles := d.handles ++ [r] })

/-- `Document::CreateDocumentInfo`, document.cpp:230-247, with the entries made by document.cpp:93-108. -/
def NewDoc.createInfo (d : NewDoc) (producer : Bytes) (now : DateFields) : Res NewDoc := do
  let (r, d) ← d.allocate (.dict (newInfo producer now))
  let t ← insertOnce (b! "Info") (.ref r.1 r.2) d.trailer
  pure { d with trailer := t }

/-- `Document::CreateFile`, document.cpp:47-110, with the random identifier (112-133), the name of the library and the time as
arguments. -/
def createDocument (id producer : Bytes) (now : DateFields) : Res NewDoc := do
  let t ← insertOnce (b! "ID") (.arr [.hex id, .hex id]) []
  let d : NewDoc := ⟨⟨[⟨.table, [⟨0, 65535, .free 0⟩], none⟩], 0⟩, fun _ => .null, t, []⟩
  let (catalog, d) ← d.createCatalog
  let (tree, d) ← d.createPages catalog
  let (page, d) ← d.createPage
  let s ← appendPage d.store 2 tree page
  NewDoc.createInfo { d with store := s } producer now

/-- `Document::GetDocumentCatalog` and `Catalog::Pages`, document.cpp:149-171 and catalog.cpp:22-29, 51-65: the root of the page
tree.  Simplification: Pages is a reference. -/
def documentTree (s : PStore) (trailer : Dict) : Res ObjRef :=
  match mapFind (b! "Root") trailer with
  | some (.ref n g) => do
    let c ← dictAt s (n, g)
    match mapFind (b! "Type") c with
    | none => pure ()
    | some (.name t) => if t ≠ b! "Catalog" then throw .throw
    | some _ => throw .conversion
    match mapFind (b! "Pages") c with
    | some (.ref n g) => do
      let _ ← dictAt s (n, g)
      pure (n, g)
    | _ => .error .missing
  | _ => .error .missing

/-- What a client does with the pages of a document; page objects are given by the order in which they were made.
c_page_object.cpp, c_page_tree.cpp, c_dictionary_object.cpp. -/
inductive DocOp where
  | newPage
  | insert (page index : Nat)
  | append (page : Nat)
  | remove (index : Nat)
  | put (page : Nat) (key : Bytes) (value : Obj)

/-- One call, which may fail. page_object.cpp:152-167, page_tree.cpp:116-145, dictionary_object.cpp:180-206. -/
def DocOp.call (d : NewDoc) : DocOp → Res NewDoc
  | .newPage => do
    let (_, d) ← d.createPage
    pure d
  | .insert k i =>
    match d.handles[k]? with
    | none => .error .invalidArgument
    | some p => do
      let t ← documentTree d.store d.trailer
      let s ← insertPage d.store 2 t p i
      pure { d with store := s }
  | .append k =>
    match d.handles[k]? with
    | none => .error .invalidArgument
    | some p => do
      let t ← documentTree d.store d.trailer
      let s ← appendPage d.store 2 t p
      pure { d with store := s }
  | .remove i => do
    let t ← documentTree d.store d.trailer
    let s ← removePage d.store 2 t i
    pure { d with store := s }
  | .put k key v =>
    match d.handles[k]? with
    | none => .error .invalidArgument
    | some p => do
      let o ← dictAt d.store p
      let o ← insertOnce key v o
      pure { d with store := d.store.set p (.dict o) }

/-- Calls one after the other; one that fails leaves the document as it is. page_tree.cpp:116-145. -/
def DocOp.runAll (d : NewDoc) : List DocOp → NewDoc
  | [] => d
  | o :: l => DocOp.runAll (match o.call d with | .ok d' => d' | .error _ => d) l

/-- An entry with its object, xref_entry.h:126-150. -/
def NewDoc.entry (d : NewDoc) (e : XEntry) : WEntry :=
  match e.kind with
  | .free n => ⟨e.num, e.gen, .free n⟩
  | .used off => ⟨e.num, e.gen, .used off (some (.direct (d.store (e.num, e.gen))))⟩
  | .compressed a b => ⟨e.num, e.gen, .compressed a b (.direct (d.store (e.num, e.gen)))⟩

/-- The sections of the document, xref.cpp:316-330. -/
def NewDoc.sections (d : NewDoc) : List WSection :=
  d.alloc.chain.map fun s => ⟨none, s.enumerate.map d.entry, d.trailer⟩

/-- `Document::Save`, document.cpp:187-195, as `saveFile`; a new document has version 1.7 (55-56). -/
def NewDoc.save (c : Codec) (d : NewDoc) : Res Bytes := saveFile c .v17 d.sections

/-- The objects of a file that was opened, as far as they are not streams; file.cpp:805-850.  The number bounds how far Lengths
are followed. -/
def openedStore (file : Bytes) (xs : List ReadSection) (f : Nat) : PStore := fun r =>
  match loadObject file xs f r.1 r.2 with
  | .ok (.direct o) => o
  | _ => .null

end VPdf
