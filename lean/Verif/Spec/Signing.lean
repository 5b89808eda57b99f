import Verif.Spec.Grammar
/-
  Signatures, ISO 32000-1 12.8.1 and Table 252.
-/
namespace VPdf.Spec

/-- The dictionary `d` is a signature of the file: `ByteRange` names two stretches, one from the start of the file and one up
to its end; the bytes between them are the value of `Contents` with its angle brackets; `Contents` is the signature that the key
makes of the two stretches of this very file, with zeros behind it. -/
def Signed (key : List UInt8 → Res (List UInt8)) (file : List UInt8) (d : List (List UInt8 × Obj)) : Prop :=
  ∃ (a b c zeros : Nat) (sig : List UInt8),
    valueAt (b! "ByteRange") d = some (.arr [.int 0, .int a, .int b, .int c]) ∧
    a < b ∧ b + c = file.length ∧
    key (file.take a ++ (file.drop b).take c) = .ok sig ∧
    valueAt (b! "Contents") d = some (.hex (sig ++ List.replicate zeros 0)) ∧
    Denotes (.hex (sig ++ List.replicate zeros 0)) ((file.drop a).take (b - a))

/-- The entries of the signature dictionary for what the user has set. -/
def signatureEntries (certificate name location reason time : Option (List UInt8)) : List (List UInt8 × Obj) :=
  [(b! "Type", .name (b! "Sig")), (b! "Filter", .name (b! "Adobe.PPKLite")),
    (b! "SubFilter", .name (b! "adbe.pkcs7.detached"))] ++
  (certificate.map (fun v => (b! "Cert", .hex v))).toList ++
  (name.map (fun v => (b! "Name", .lit v))).toList ++
  (location.map (fun v => (b! "Location", .lit v))).toList ++
  (reason.map (fun v => (b! "Reason", .lit v))).toList ++
  (time.map (fun v => (b! "M", .lit v))).toList

end VPdf.Spec
