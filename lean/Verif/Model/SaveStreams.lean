import Verif.Model.ObjectStream
/-
  Saving a document with objects in object streams: the loop of `FileWriter::WriteXrefChain` (file_writer.cpp:1318-1352) with
  `FileWriter::RecalculateObjectStreamContent` (file_writer.cpp:178-332) for every section.
-/
namespace VPdf

/-- The keys of `object_stream_map`, file_writer.cpp:194-213: the object streams the entries of a section refer to.  The
order of the `std::unordered_map` is open; every stream is filled independently of the others. -/
def usedStreams : List WEntry → List Nat
  | [] => []
  | e :: es =>
    match e.kind with
    | .compressed sn _ _ => if sn ∈ usedStreams es then usedStreams es else sn :: usedStreams es
    | _ => usedStreams es

/-- One round of the loop of file_writer.cpp:216-331: the object stream `sn` is looked up in the chain of the destination
(`XrefChain::GetXrefEntry`, xref_chain.cpp:30-49: the sections in the order in which they are written, oldest first) and gets
the objects `l`.  Simplified: the body is encoded at once (in the code by `GetBodyEncoded` when the length is computed and
when the object is written).  Left out: the stream object of a cross-reference stream that is also an object stream. -/
def fillStream (c : Codec) (sn : Nat) (l : List (Nat × SObj)) : List WSection → Res (List WSection)
  | [] => .error .throw
  | s :: ss =>
    match s.entries.find? (fun e => e.num == sn && e.gen == 0) with
    | none => do
      let ss ← fillStream c sn l ss
      pure (s :: ss)
    | some e =>
      match e.kind with
      | .used off (some (.stream d _)) => do
        let o ← makeObjStm c d l
        pure ({ s with entries := s.entries.map fun x => if x.num = sn ∧ x.gen = 0 then { x with kind := .used off (some o) } else x } :: ss)
      | _ => .error .throw

/-- The loop of file_writer.cpp:216-331 over the object streams of the entries `es`. -/
def fillStreams (c : Codec) (es : List WEntry) : List Nat → List WSection → Res (List WSection)
  | [], chain => .ok chain
  | sn :: l, chain => do
    let chain ← fillStream c sn ((objStmMembers sn es).map (·.2)) chain
    fillStreams c es l chain

/-- `FileWriter::RecalculateObjectStreamContent`, file_writer.cpp:178-332: only cross-reference streams (185-188). -/
def fillSection (c : Codec) (s : WSection) (chain : List WSection) : Res (List WSection) :=
  match s.own with
  | none => .ok chain
  | some _ => fillStreams c s.entries (usedStreams s.entries) chain

/-- `FileWriter::WriteXrefChain`, file_writer.cpp:1318-1352: `k` sections are left, the first `i` of the chain have been
written.  Simplified: the offsets and lengths of written sections, which nothing reads again but `Prev`, are not kept in the
chain. -/
def saveChain (c : Codec) : Nat → Nat → Bytes → Option Int → List WSection → Res Bytes
  | 0, _, out, _, _ => .ok out
  | k + 1, i, out, prev, chain =>
    match chain[i]? with
    | none => .error .ub
    | some s => do
      let chain ← fillSection c s chain
      match chain[i]? with
      | none => .error .ub
      | some s => do
        let (out, off, _) ← writeSection c (destResolve chain) out prev s
        saveChain c k (i + 1) out (some off) chain

/-- `FileWriter::Write`, file_writer.cpp:34-86, without optimisations, object streams included: the sections of the source
file are given newest first. -/
def saveDocument (c : Codec) (v : PdfVersion) (sections : List WSection) : Res Bytes :=
  saveChain c sections.length 0 (writeHeader v) none (sections.map cloneSection).reverse

end VPdf
