import Verif.Model.Encryption
import Verif.Model.Writer

/-! # Saving a stream object: its length is measured first, its data are written later -/
namespace VPdf

/-- Whether `FileWriter::RecalculateStreamLength` (syntax/files/file_writer.cpp:685-701) changes the dictionary of a
stream whose data have `size` bytes. -/
def lengthChanges (resolve : Nat → Nat → Res Int) (size : Nat) (d : Dict) : Res Bool :=
  match mapFind (b! "Length") d with
  | none => .ok true
  | some o => do
    let i ← asInt ⟨[], true, resolve⟩ o
    if i < 0 then throw .conversion
    pure (decide (i ≠ size))

/-- The object written for a stream: `FileWriter::RecalculateStreamLength` (syntax/files/file_writer.cpp:676-702) and
later `StreamObject::ToPdfStreamInternal` (syntax/objects/stream_object.cpp:598-611).  A change of the entry `Length` is a
change of the dictionary, which tells the stream that owns it (dictionary_object.cpp:145-205, stream_object.cpp:48-53,
object.cpp:216-223), and so marks the stream as changed before its data are asked for a second time.  `iv` and `iv'` are
the random bytes of the two encryptions.  The decrypted and decoded bodies that the first call keeps are not recorded:
the second call computes the same ones.  `s.filter` stands for the entries `Filter` and `DecodeParms` of `d`. -/
def saveStream (m : Overflow) (c : Codecs) (k : Crypto) (F : SecureFile) (encryptionDirty : Bool)
    (resolve : Nat → Nat → Res Int) (d : Dict) (s : StreamState) (number generation : Nat) (rnd iv iv' : Bytes) : Res SObj := do
  let measured ← bodyEncoded m c k F encryptionDirty s number generation rnd iv
  let changes ← lengthChanges resolve measured.length d
  let d ← recalcLength resolve measured.length d
  let written ← bodyEncoded m c k F encryptionDirty { s with dirty := s.dirty || changes } number generation rnd iv'
  pure (.stream d written)

end VPdf
