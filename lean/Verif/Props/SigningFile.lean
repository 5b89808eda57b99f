/-
  C81: signing into a file.
-/
import Verif.Lemmas.SigningFile
import Verif.Props.Signing

namespace VPdf
open Spec

/-- **C81**: signing into a file gives the same as signing into a stream in memory, byte by byte, and fails in the same cases,
although the file has only one position for what the signer reads and what it writes.  So C81 holds for files as well. -/
theorem C81_to_file (key : Bytes → Res Bytes) (o : SignSettings) (own num gen : Nat) (before after : List OutObj) (head : Bytes)
    (tail : Bytes → Bytes) (hother : EarlierSignatures own (before ++ after))
    (hsize : (unsignedFile (trackingId own 0) head
      (before ++ .tracked num gen (trackingId own 0) (signatureDict o) :: after) tail).length ≤ 9223372036854775807) :
    writeSignedToFile key (trackingId own 0) head (before ++ .tracked num gen (trackingId own 0) (signatureDict o) :: after) tail =
      writeSigned key (trackingId own 0) head (before ++ .tracked num gen (trackingId own 0) (signatureDict o) :: after) tail :=
  writeSignedToFile_eq key o num gen (trackingId own 0) before after head tail (earlier_other hother) hsize

/-- **C81**, its assumptions hold for a document with an earlier signature, and signing into a file succeeds. -/
example : ∃ file, writeSignedToFile (fun m => .ok (m.take 20)) (trackingId 6 0) (b! "%PDF-1.7\n")
    ([.tracked 5 0 (trackingId 5 0) (signatureDict noSettings)] ++
      .tracked 6 0 (trackingId 6 0) (signatureDict noSettings) :: []) (fun _ => []) = .ok file := by
  rw [C81_to_file _ noSettings 6 6 0 _ [] _ _ sample_earlier sample_size]
  obtain ⟨m, -, h, -⟩ := C81_outcome (fun m => .ok (m.take 20)) noSettings 6 6 0
    [.tracked 5 0 (trackingId 5 0) (signatureDict noSettings)] [] (b! "%PDF-1.7\n") (fun _ => []) sample_earlier _ rfl sample_size
  exact h _ rfl (by simp)

end VPdf
