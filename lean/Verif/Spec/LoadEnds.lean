import Verif.Model.Loading
import Verif.Spec.Lengths
/-
  What an object is read with the help of.
-/
namespace VPdf.Spec

section
variable (c : Codec) (file : Bytes) (secs : List ReadSection)

/-- States of a file after any requests. -/
inductive Requested : Loaded → Prop
  | start : Requested {}
  | next {st : Loaded} (f n g : Nat) (h : Requested st) : Requested (fetch c file secs f st n g).st

/-- A request for the object `n g` may give `o`. -/
def Gives (n g : Nat) (o : SObj) : Prop := ∃ f st, Requested c file secs st ∧ (fetch c file secs f st n g).obj = .ok o

/-- `need n g k m`: the object `n g` is read with the help of the object `k m`, because this is its Length, its object stream, or N or
First of its object stream.  No object is read with the help of itself, directly or through others: `rank` decreases.  The
lengths are not negative. -/
structure Grounded (need : Nat → Nat → Nat → Nat → Prop) (rank : Nat → Nat → Nat) : Prop where
  lower : ∀ n g k m, need n g k m → rank k m < rank n g
  positive : ∀ n g k m, need n g k m → ∀ i, Gives c file secs k m (.direct (.int i)) → 0 ≤ i
  positiveReal : ∀ n g k m, need n g k m → ∀ i p, Gives c file secs k m (.direct (.real i p)) → 0 ≤ i
  text : NoNegativeLength file
  reads : ∀ n g x off, findRead secs n g = some x → x.kind = .used off → ∀ r r', (∀ k m, need n g k m → r k m = r' k m) →
    (∀ tn tg d data rest k m, streamHead (fileEnv file r) ((fileEnv file r).seek off) = .ok (tn, tg, d, data, rest) →
      valueAt (b! "Length") d ≠ some (.ref k m)) →
    loadAt (fileEnv file r) n g off = loadAt (fileEnv file r') n g off
  length : ∀ n g x off, findRead secs n g = some x → x.kind = .used off → ∀ r tn tg d data rest k m,
    streamHead (fileEnv file r) ((fileEnv file r).seek off) = .ok (tn, tg, d, data, rest) → valueAt (b! "Length") d = some (.ref k m) →
    need n g k m
  stream : ∀ n g x sn i, findRead secs n g = some x → x.kind = .compressed sn i → need n g sn 0
  heads : ∀ n g x sn i, findRead secs n g = some x → x.kind = .compressed sn i → ∀ d raw, Gives c file secs sn 0 (.stream d raw) →
    ∀ k m, valueAt (b! "N") d = some (.ref k m) ∨ valueAt (b! "First") d = some (.ref k m) → need n g k m
  unpacks : ∀ n g x sn i, findRead secs n g = some x → x.kind = .compressed sn i → ∀ d raw, Gives c file secs sn 0 (.stream d raw) →
    (∀ body, c.decode d raw = .ok body → NoNegativeLength body) ∧
    ∀ r1 r2 first size, natEntry ⟨[], true, r1⟩ (b! "N") d = .ok size → natEntry ⟨[], true, r2⟩ (b! "First") d = .ok first →
      ∀ r r', (∀ k m, need n g k m → r k m = r' k m) → unpack c r d raw first size = unpack c r' d raw first size

end
end VPdf.Spec
