import Verif.Model.SigningKeys
/-
  How a key is used for a signature.
-/
namespace VPdf.Spec

/-- The calls a key gets for one signature: the digest, the ranges in their order, the request for the signature and,
whatever has happened in between, one cleanup at the end – unless the first call has failed, then nothing more. -/
inductive SigningSession (digest : Nat) (ranges : List Bytes) : List SignEvent → Prop where
  | refused : SigningSession digest ranges [.init digest]
  | stopped (n : Nat) : n < ranges.length →
      SigningSession digest ranges (.init digest :: (ranges.take (n + 1)).map .update ++ [.cleanup])
  | complete : SigningSession digest ranges (.init digest :: ranges.map .update ++ [.final, .cleanup])

/-- The signature in hexadecimal digits between brackets fits. -/
def SignatureFits (room : Nat) (b : Bytes) : Prop := 2 * b.length + 2 ≤ room

/-- The history has no signing with a digest the key accepts. -/
def NeverSigned (l : Pkcs12Lib) (us : List KeyUse) : Prop :=
  ∀ d ranges room, KeyUse.sign d ranges room ∈ us → ¬ (l.known d = true ∧ l.accepts d = true)

/-- What a key answers that was just loaded: to sign, the signature of all bytes. -/
def signatureOf (l : Pkcs12Lib) (d : Nat) (ranges : List Bytes) : Option Bytes :=
  if l.known d ∧ l.accepts d then l.sign d ranges.flatten else none

end VPdf.Spec
