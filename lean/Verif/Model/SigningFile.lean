/-
  Signing when the output is a file (C81): the signer of document_signer.cpp on a stream of `StreamUtils::InputOutputStreamFromFile`,
  which has one position for reading and writing.
-/
import Verif.Model.FileStreams

namespace VPdf

/-- `PKCS12Key::SignUpdate` (pkcs12_key.cpp:362-379) on a file: its reads move the position for writing, too. -/
def fileSignUpdate (f : Nat) (s : IStream) (left : Nat) : Res (Bytes × IStream) := do
  let (m, s) ← signUpdate f s left
  .ok (m, { s with putPos := s.getPos })

/-- `DocumentSigner::OnBeforeOutputFlush`, document_signer.cpp:41-115, on a file; as `beforeFlush`. -/
def fileBeforeFlush (key : Bytes → Res Bytes) (dict : Option (List (Bytes × Slot × Nat))) (out : IStream) : Res IStream := do
  let out := (out.fileCall (.seekOut 0 .end_)).2
  let size := out.outputPosition
  let some offs := dict | .error .throw
  let (ranges, rangeAt) ← locate (b! "ByteRange") offs
  let (contents, contentsAt) ← locate (b! "Contents") offs
  match ranges.value, contents.value with
  | .arr _, .hex _ =>
    match contents.override with
    | none => .error .throw
    | some holder =>
      let behind := contentsAt + holder.length
      let length := size - behind
      -- 69-79
      let newRanges := writeObj (.arr [.int 0, .int contentsAt, .int behind, .int length])
      let out := (out.fileCall (.seekOut rangeAt .beginning)).2
      let out := (out.fileCall (.write newRanges)).2
      -- 81-98
      let fuel := out.data.length + 1
      let (m1, out) ← fileSignUpdate fuel (out.fileCall (.seekIn 0 .beginning)).2 contentsAt
      let (m2, out) ← fileSignUpdate fuel (out.fileCall (.seekIn behind .beginning)).2 length.toNat
      let signature ← key (m1 ++ m2)
      -- 100-114
      let encoded := writeHex signature
      if encoded.length > holder.length then .error .throw
      else
        let padded := encoded.take (encoded.length - 1) ++ List.replicate (holder.length - encoded.length) 0x30 ++
          encoded.drop (encoded.length - 1)
        let out := (out.fileCall (.seekOut contentsAt .beginning)).2
        .ok (out.fileCall (.write padded)).2
  | _, _ => .error .conversion

/-- `FileWriter::Write` with the signer (file_writer.cpp:40-86, document.cpp:815-825) into a file.  The result is the content of
the file. -/
def writeSignedToFile (key : Bytes → Res Bytes) (id : Bytes) (head : Bytes) (objs : List OutObj) (tail : Bytes → Bytes) :
    Res Bytes := do
  let whole := unsignedFile id head objs tail
  let s ← fileBeforeFlush key (writeAllTracked id head none objs).2
    { IStream.ofBytes true whole with putPos := whole.length, getPos := whole.length }
  .ok s.data

end VPdf
