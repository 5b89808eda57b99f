/-
  Signing a document: semantics/utils/document_signer.cpp, semantics/objects/document.cpp:661-826 (the signature dictionary),
  the replaced texts of objects (syntax/objects/object.cpp:24-76) and PKCS12Key::SignUpdate (utils/pkcs12_key.cpp:356-379).

  The signature dictionary is written with blanks in place of the values of `ByteRange` and `Contents`; the writer keeps the
  offsets of the values, and when everything has been written the two places are filled in.
  The output is a string stream; for a file the result is the same, because every access of the signer sets the position first.
  Not modelled: the key (a function from the signed bytes to the signature), the digest, the annotation and the interactive
  form that `Document::Sign` adds (they are objects of the document like all others; see Model/SignForm.lean), encryption.
-/
import Verif.Model.Stream
import Verif.Model.Writer

namespace VPdf

/-- A value of a dictionary with its `SerializationOverrideAttribute`, if it has one (object.cpp:24-38). -/
structure Slot where
  value : Obj
  override : Option Bytes
  deriving Repr

/-- `Object::ToPdfStream`, object.cpp:53-63.  Simplification: values below the values of the dictionary have no override. -/
def Slot.text (s : Slot) : Bytes :=
  match s.override with
  | some t => t
  | none => writeObj s.value

/-- The loop of `DictionaryObject::ToPdfStreamUpdateOffset`, dictionary_object.cpp:96-103, at a position of the output: the
text, and the offset that `UpdateOffset` (object.cpp:65-76) stores in each value. -/
def writeSlots (first : Bool) (pos : Nat) : List (Bytes × Slot) → Bytes × List (Bytes × Slot × Nat)
  | [] => ([], [])
  | (k, s) :: rest =>
    let head := (if first then [] else b! " ") ++ writeName k ++ b! " "
    let at_ := pos + head.length
    let (t, o) := writeSlots false (at_ + s.text.length) rest
    (head ++ s.text ++ t, (k, s, at_) :: o)

/-- An object that the writer writes: any object, or a dictionary with a `TrackingIdentifierAttribute`
(tracking_identifier_object_attribute.h).  Only `DocumentSigner` adds this attribute, to the signature dictionary. -/
inductive OutObj where
  | plain (num gen : Nat) (o : SObj)
  | tracked (num gen : Nat) (id : Bytes) (entries : List (Bytes × Slot))

/-- The text in front of the object, file_writer.cpp:1240-1245. -/
def objHead (num gen : Nat) : Bytes := natDec num ++ b! " " ++ natDec gen ++ b! " obj\n"

/-- `FileWriter::WriteObject` (file_writer.cpp:1228-1257) behind `out`, and `DocumentSigner::OnAfterObjectWrite`
(document_signer.cpp:26-39): an object with the identifier `id` becomes the dictionary of the signer.  `none` is the dictionary
of the document, none of whose values has an offset. -/
def writeTracked (id : Bytes) (out : Bytes) (cur : Option (List (Bytes × Slot × Nat))) :
    OutObj → Bytes × Option (List (Bytes × Slot × Nat))
  | .plain n g o => (out ++ writeObject n g o, cur)
  | .tracked n g id' entries =>
    let h := out ++ objHead n g ++ b! "<<"
    let (t, offs) := writeSlots true h.length entries
    (h ++ t ++ b! ">>" ++ b! "\nendobj\n", if id = id' then some offs else cur)

/-- The objects of a section one after the other, file_writer.cpp:935-988. -/
def writeAllTracked (id : Bytes) : Bytes → Option (List (Bytes × Slot × Nat)) → List OutObj →
    Bytes × Option (List (Bytes × Slot × Nat))
  | out, cur, [] => (out, cur)
  | out, cur, w :: ws =>
    let (out, cur) := writeTracked id out cur w
    writeAllTracked id out cur ws

/-- The identifier, document_signer.cpp:21: the two numbers without a separator. -/
def trackingId (num gen : Nat) : Bytes := natDec num ++ natDec gen

/-- `SetOutputPosition(0, SeekDirection::End)`, output_stream.cpp:78-80. -/
def IStream.setOutputEnd (s : IStream) : IStream := if s.fail then s else { s with putPos := s.data.length }

/-- `GetOutputPosition`, output_stream.cpp:70-72. -/
def IStream.outputPosition (s : IStream) : Int := if s.fail then -1 else s.putPos

/-- The loop of `PKCS12Key::SignUpdate`, pkcs12_key.cpp:362-379: the bytes that reach the key.  `left` is
`length - read_total`, `BUFFER_SIZE` is 4096 (constants.cpp:8).  A read that delivers nothing does not end the loop; the first
argument bounds the rounds. -/
def signUpdate : Nat → IStream → Nat → Res (Bytes × IStream)
  | 0, _, _ => .error .timeout
  | f + 1, s, left =>
    if left = 0 then .ok ([], s)
    else do
      let (got, s) := s.read (min left 4096)
      let (more, s) ← signUpdate f s (left - got.length)
      .ok (got ++ more, s)

/-- The value of an entry of the dictionary with its offset: `FindAs`, then `GetOffset`.  Without an offset (`BAD_OFFSET`)
or without the entry there is an exception. document_signer.cpp:46-59. -/
def locate (k : Bytes) : List (Bytes × Slot × Nat) → Res (Slot × Nat)
  | [] => .error .throw
  | (k', s, at_) :: rest => if k == k' then .ok (s, at_) else locate k rest

/-- `DocumentSigner::OnBeforeOutputFlush`, document_signer.cpp:41-115, for the dictionary of the signer and a key that turns the
signed bytes into a signature. -/
def beforeFlush (key : Bytes → Res Bytes) (dict : Option (List (Bytes × Slot × Nat))) (out : IStream) : Res IStream := do
  let out := out.setOutputEnd
  let size := out.outputPosition
  let some offs := dict | .error .throw
  let (ranges, rangeAt) ← locate (b! "ByteRange") offs
  let (contents, contentsAt) ← locate (b! "Contents") offs
  match ranges.value, contents.value with
  | .arr _, .hex _ =>
    match contents.override with
    | none => .error .throw
    | some holder =>
      let behind := contentsAt + holder.length
      let length := size - behind
      -- 69-79
      let newRanges := writeObj (.arr [.int 0, .int contentsAt, .int behind, .int length])
      let out := (out.setOutputPosition rangeAt).write newRanges
      -- 81-98
      let fuel := out.data.length + 1
      let (m1, out) ← signUpdate fuel (out.setPosition 0 .beginning) contentsAt
      let (m2, out) ← signUpdate fuel (out.setPosition behind .beginning) length.toNat
      let signature ← key (m1 ++ m2)
      -- 100-114
      let encoded := writeHex signature
      if encoded.length > holder.length then .error .throw
      else
        let padded := encoded.take (encoded.length - 1) ++ List.replicate (holder.length - encoded.length) 0x30 ++
          encoded.drop (encoded.length - 1)
        .ok ((out.setOutputPosition contentsAt).write padded)
  | _, _ => .error .conversion

/-- The settings of a signature: `DocumentSignatureSettings` (document.cpp:663-677) without key and digest. -/
structure SignSettings where
  certificate : Option Bytes
  name : Option Bytes
  location : Option Bytes
  reason : Option Bytes
  time : Option Bytes

/-- An `Insert` of `Document::Sign` for a setting that may be absent, document.cpp:687-705. -/
def insertSetting (k : Bytes) (f : Bytes → Obj) (v : Option Bytes) (d : List (Bytes × Slot)) : List (Bytes × Slot) :=
  match v with
  | some v => mapInsert k ⟨f v, none⟩ d
  | none => d

/-- The signature dictionary, document.cpp:683-726. -/
def signatureDict (o : SignSettings) : List (Bytes × Slot) :=
  let d := mapInsert (b! "Type") ⟨.name (b! "Sig"), none⟩ []
  let d := insertSetting (b! "Cert") .hex o.certificate d
  let d := insertSetting (b! "Name") .lit o.name d
  let d := insertSetting (b! "Location") .lit o.location d
  let d := insertSetting (b! "Reason") .lit o.reason d
  let d := insertSetting (b! "M") .lit o.time d
  let d := mapInsert (b! "Filter") ⟨.name (b! "Adobe.PPKLite"), none⟩ d
  let d := mapInsert (b! "SubFilter") ⟨.name (b! "adbe.pkcs7.detached"), none⟩ d
  let d := mapInsert (b! "ByteRange") ⟨.arr [], some (List.replicate 100 0x20)⟩ d
  mapInsert (b! "Contents") ⟨.hex [], some (List.replicate 32768 0x20)⟩ d

/-- What `FileWriter::Write` has written when it calls the signer (file_writer.cpp:40-76): what comes before the objects, the
objects, and what comes behind them (it may depend on all that has been written). -/
def unsignedFile (id : Bytes) (head : Bytes) (objs : List OutObj) (tail : Bytes → Bytes) : Bytes :=
  let out := (writeAllTracked id head none objs).1
  out ++ tail out

/-- `FileWriter::Write` with the signer (file_writer.cpp:40-86, document.cpp:815-825).  The result is the content of the output. -/
def writeSigned (key : Bytes → Res Bytes) (id : Bytes) (head : Bytes) (objs : List OutObj) (tail : Bytes → Bytes) : Res Bytes := do
  let whole := unsignedFile id head objs tail
  let s ← beforeFlush key (writeAllTracked id head none objs).2 { IStream.ofBytes false whole with putPos := whole.length }
  .ok s.data

end VPdf
