import Verif.Model.Encryption
import Verif.Spec.Grammar

/-! # Saved streams -/
namespace VPdf.Spec

/-- The entry `Length` is the number `n`, perhaps with a fractional part, or a reference to the number `n`. -/
def LengthIs (resolve : Nat → Nat → Res Int) (d : Dict) (n : Nat) : Prop :=
  valueAt (b! "Length") d = some (.int n) ∨
    (∃ i p, valueAt (b! "Length") d = some (.real i p) ∧ i.tdiv (10 ^ p : Nat) = n) ∨
    ∃ a b, valueAt (b! "Length") d = some (.ref a b) ∧ resolve a b = .ok (n : Int)

/-- What is known about the body of a stream is what its stored bytes decrypt and decode to. -/
structure CachesAgree (m : Overflow) (c : Codecs) (k : Crypto) (F : SecureFile) (s : StreamState) (number generation : Nat)
    (rnd : Bytes) : Prop where
  decrypted : ∀ b, s.decrypted = some b →
    bodyDecrypted k F { s with decrypted := none, decoded := none } number generation rnd = .ok b
  decoded : ∀ b, s.decoded = some b →
    streamBody m c k F { s with decrypted := none, decoded := none } number generation rnd = .ok b

end VPdf.Spec
