import Verif.Model.Loading
import Verif.Spec.LoadOrder
import Verif.Spec.Grammar
/-
  Files in which the lengths of streams can be found without moving the reader.
-/
namespace VPdf.Spec

/-- At `off` there is the stream `n g` with the header `d`, its data begin at `data`, and its Length is a reference to `k m`. -/
def RefLengthAt (c : Codec) (file : Bytes) (secs : List ReadSection) (off : Int) (n g : Nat) (d : Dict) (data k m : Nat) : Prop :=
  ∃ f tn tg r, streamHead (fileEnv file (resolveIn c file secs f {})) (file.drop off.toNat) = .ok (tn, tg, d, data, r) ∧
    stoll tn.value = .ok (n : Int) ∧ stoll tg.value = .ok (g : Int) ∧ valueAt (b! "Length") d = some (.ref k m)

/-- Wherever the Length of a stream in the file is a reference: the object with the length is not in an object stream, and
behind as many bytes as it says is the word `endstream`. -/
structure PlainLengths (c : Codec) (file : Bytes) (secs : List ReadSection) : Prop where
  outside : ∀ n g x off, findRead secs n g = some x → x.kind = .used off → ∀ d data k m, RefLengthAt c file secs off n g d data k m →
    ∀ y, findRead secs k m = some y → ∀ sn i, y.kind ≠ .compressed sn i
  right : ∀ n g x off, findRead secs n g = some x → x.kind = .used off → ∀ d data k m, RefLengthAt c file secs off n g d data k m →
    ∀ f l, resolveIn c file secs f {} k m = .ok l → ∃ t r,
      readTokenSkip parserKeywords (file.drop (data + l).toNat) = .ok (t, r) ∧ t.type = .keyword (b! "endstream") ∧ 0 ≤ data + l

end VPdf.Spec
